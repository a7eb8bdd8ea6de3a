/-
Properties C07–C09 and C54: derivation and validation of `sample_domain`.
-/
import Verif.Model.Domain
import Verif.Lemmas.Np
import Mathlib.Data.Finset.Card
import Mathlib.Data.Finset.Image
import Mathlib.Data.Rat.Lemmas
import Mathlib.Data.Int.Order.Basic

namespace Skada
open Np

/-! ### helper facts -/

theorem checkFlags_default (l : List Int) : checkFlags {} l = .ok () := by simp [checkFlags]

theorem Num.isIntegral_iff (v : Num) : v.isIntegral = true ↔ ∃ n : Int, v = .fin n := by
  cases v with
  | fin q =>
    simp only [Num.isIntegral, beq_iff_eq, Num.fin.injEq]
    constructor
    · intro h; exact ⟨q.num, (Rat.den_eq_one_iff q).1 h |>.symm⟩
    · rintro ⟨n, rfl⟩; rfl
  | nan => simp [Num.isIntegral]
  | pinf => simp [Num.isIntegral]
  | ninf => simp [Num.isIntegral]

theorem Num.isNan_iff (v : Num) : v.isNan = true ↔ v = .nan := by cases v <;> simp [Num.isNan]

theorem Num.eqNegOne_iff (v : Num) : v.eqNegOne = true ↔ v = .fin (-1) := by cases v <;> simp [Num.eqNegOne]

theorem findYType_discrete {y : List Num} (h : ∀ v ∈ y, ∃ n : Int, v = .fin n) : findYType y = .ok .discrete := by
  have h1 : y.any Num.isNan = false := by
    rw [List.any_eq_false]; intro v hv; obtain ⟨n, rfl⟩ := h v hv; simp [Num.isNan]
  have h2 : y.any (fun v => !v.isIntegral) = false := by
    rw [List.any_eq_false]; intro v hv; simp [(Num.isIntegral_iff v).2 (h v hv)]
  simp [findYType, h1, h2]

theorem findYType_nan {y : List Num} (h : Num.nan ∈ y) : findYType y = .ok .continuous := by
  have h1 : y.any Num.isNan = true := List.any_eq_true.2 ⟨_, h, rfl⟩
  simp [findYType, h1]

/-! ### C07 -/

/-- The label vector of a masked classification task: integers, none below `-1`, at least one `-1`. -/
def Spec.MaskedClassif (y : List Num) : Prop :=
  (∀ v ∈ y, ∃ n : Int, -1 ≤ n ∧ v = .fin n) ∧ Num.fin (-1) ∈ y

/-- C07 (regression). NaN labels mark the target rows, every other row is source. -/
theorem C07_auto_regression {α : Type} (X : List α) (y : List Num) (hX : X ≠ []) (hlen : X.length = y.length)
    (hnan : Num.nan ∈ y) :
    checkXyDomain X y .none {} = .ok (X, y, y.map (fun v => if v = .nan then -2 else 1)) := by
  have hy : y ≠ [] := by rintro rfl; simp at hnan
  have hm : checkYMasking y = .ok .continuous := by
    have h1 : y.any Num.isNan = true := List.any_eq_true.2 ⟨Num.nan, hnan, rfl⟩
    simp [checkYMasking, findYType_nan hnan, h1]
  have hl : (maskOf .continuous y).map (fun b => if b then defaultTarget else defaultSource)
      = y.map (fun v => if v = .nan then -2 else 1) := by
    simp only [maskOf, List.map_map]
    apply List.map_congr_left
    intro v _
    simp [Num.isNan_iff, defaultTarget, defaultSource]
  have hne : y.map (fun v => if v = Num.nan then (-2 : Int) else 1) ≠ [] := by simpa using hy
  simp only [checkXyDomain, if_neg hX, if_neg hy, hm, hl, extractSourceIndices, checkFlags_default]
  simp only [hlen, Bool.not_true, Bool.false_and, Bool.false_eq_true, if_false, ne_eq, not_true_eq_false]
  rw [if_neg hne]

/-- C07 (classification). Labels `-1` mark the target rows, every other row is source. -/
theorem C07_auto_classification {α : Type} (X : List α) (y : List Num) (hX : X ≠ []) (hlen : X.length = y.length)
    (hy : Spec.MaskedClassif y) :
    checkXyDomain X y .none {} = .ok (X, y, y.map (fun v => if v = .fin (-1) then -2 else 1)) := by
  obtain ⟨hint, hmem⟩ := hy
  have hy : y ≠ [] := by rintro rfl; simp at hmem
  have hlt : y.any Num.ltNegOne = false := by
    rw [List.any_eq_false]; intro v hv
    obtain ⟨n, hn, rfl⟩ := hint v hv
    simp only [Num.ltNegOne, decide_eq_true_eq, not_lt]
    exact_mod_cast hn
  have heq : y.any Num.eqNegOne = true := List.any_eq_true.2 ⟨_, hmem, by simp [Num.eqNegOne]⟩
  have hm : checkYMasking y = .ok .discrete := by
    simp [checkYMasking, findYType_discrete (fun v hv => let ⟨n, _, h⟩ := hint v hv; ⟨n, h⟩), hlt, heq]
  have hl : (maskOf .discrete y).map (fun b => if b then defaultTarget else defaultSource)
      = y.map (fun v => if v = .fin (-1) then -2 else 1) := by
    simp only [maskOf, List.map_map]
    apply List.map_congr_left
    intro v _
    simp [Num.eqNegOne_iff, defaultTarget, defaultSource]
  have hne : y.map (fun v => if v = Num.fin (-1) then (-2 : Int) else 1) ≠ [] := by simpa using hy
  simp only [checkXyDomain, if_neg hX, if_neg hy, hm, hl, extractSourceIndices, checkFlags_default]
  simp only [hlen, Bool.not_true, Bool.false_and, Bool.false_eq_true, if_false, ne_eq, not_true_eq_false]
  rw [if_neg hne]

/-- C07 (no guessing). In every other case (no NaN, and not a masked classification vector) the derivation raises
`ValueError`, whatever the flags. -/
theorem C07_auto_refuses {α : Type} (X : List α) (y : List Num) (f : Flags)
    (hnan : Num.nan ∉ y) (hcl : ¬ Spec.MaskedClassif y) :
    checkXyDomain X y .none f = .error .valueError := by
  have hn : y.any Num.isNan = false := by
    rw [List.any_eq_false]; intro v hv h; exact hnan ((Num.isNan_iff v).1 h ▸ hv)
  have hm : checkYMasking y = .error .valueError := by
    by_cases hint : ∀ v ∈ y, ∃ n : Int, v = .fin n
    · simp only [checkYMasking, findYType_discrete hint]
      rw [if_pos]
      by_contra hcon
      simp only [Bool.or_eq_true, Bool.not_eq_true', not_or, Bool.not_eq_true, Bool.not_eq_false] at hcon
      apply hcl
      constructor
      · intro v hv
        obtain ⟨n, rfl⟩ := hint v hv
        refine ⟨n, ?_, rfl⟩
        have := List.any_eq_false.1 hcon.1 _ hv
        simp only [Num.ltNegOne, decide_eq_true_eq, not_lt] at this
        exact_mod_cast this
      · obtain ⟨v, hv, h⟩ := List.any_eq_true.1 hcon.2
        exact (Num.eqNegOne_iff v).1 h ▸ hv
    · have h2 : y.any (fun v => !v.isIntegral) = true := by
        push Not at hint
        obtain ⟨v, hv, h⟩ := hint
        refine List.any_eq_true.2 ⟨v, hv, ?_⟩
        cases hb : v.isIntegral
        · rfl
        · obtain ⟨n, hn⟩ := (Num.isIntegral_iff v).1 hb
          exact absurd hn (h n)
      simp only [checkYMasking, findYType, hn, h2]
      by_cases h3 : y.any (fun v => !v.isFinite) = true <;> simp [h3]
  unfold checkXyDomain
  rw [hm]
  split
  · rfl
  · split
    · rfl
    · split
      · rfl
      · split
        · rfl
        · cases f.allowAuto <;> rfl

example : checkXyDomain [10, 20, 30] [.fin 2, .fin (-1), .fin 0] .none {}
    = .ok ([10, 20, 30], [.fin 2, .fin (-1), .fin 0], [1, -2, 1]) := by decide +kernel
example : checkXyDomain [10, 20] [.fin (1/2), .nan] .none {}
    = .ok ([10, 20], [.fin (1/2), .nan], [1, -2]) := by decide +kernel
example : Num.nan ∉ [Num.fin 0, .fin 1] ∧ ¬ Spec.MaskedClassif [Num.fin 0, .fin 1] :=
  ⟨by decide +kernel, fun h => by have := h.2; revert this; decide +kernel⟩

/-! ### C08 -/

/-- The violation of the documented meaning of the flags. -/
def Spec.Violates (f : Flags) (sd : List Int) : Prop :=
  (f.allowSource = false ∧ ∃ d ∈ sd, 0 ≤ d) ∨
  (f.allowTarget = false ∧ ∃ d ∈ sd, d < 0) ∨
  (f.allowMultiSource = false ∧ ∃ d ∈ sd, ∃ e ∈ sd, 0 ≤ d ∧ 0 ≤ e ∧ d ≠ e) ∨
  (f.allowMultiTarget = false ∧ ∃ d ∈ sd, ∃ e ∈ sd, d < 0 ∧ e < 0 ∧ d ≠ e) ∨
  (f.allowCommonIdx = false ∧ ∃ d ∈ sd, d ≠ 0 ∧ -d ∈ sd)

/-- What the code rejects: the `allow_multi_target` test looks at the source domains. -/
def Spec.CodeViolates (f : Flags) (sd : List Int) : Prop :=
  (f.allowSource = false ∧ ∃ d ∈ sd, 0 ≤ d) ∨
  (f.allowTarget = false ∧ ∃ d ∈ sd, d < 0) ∨
  ((f.allowMultiSource = false ∨ f.allowMultiTarget = false) ∧
    ∃ d ∈ sd, ∃ e ∈ sd, 0 ≤ d ∧ 0 ≤ e ∧ d ≠ e) ∨
  (f.allowCommonIdx = false ∧ ∃ d ∈ sd, d ≠ 0 ∧ -d ∈ sd)

theorem length_unique_eq_card {α : Type _} [LinearOrder α] (l : List α) : (unique l).length = l.toFinset.card := by
  rw [← List.toFinset_card_of_nodup (nodup_unique l)]
  congr 1
  ext x; simp [mem_unique]

/-- The two-counts test of lines 123-127 detects a label used with both signs. -/
theorem common_iff (sd : List Int) :
    (unique sd).length ≠ (unique ((unique sd).map (fun d => (d.natAbs : Int)))).length ↔
      ∃ d ∈ sd, d ≠ 0 ∧ -d ∈ sd := by
  have e : ((unique sd).map (fun d => (d.natAbs : Int))).toFinset
      = sd.toFinset.image (fun d => (d.natAbs : Int)) := by
    ext x; simp [mem_unique]
  rw [length_unique_eq_card, length_unique_eq_card, e, ne_comm, ne_eq, Finset.card_image_iff]
  constructor
  · intro h
    unfold Set.InjOn at h
    push Not at h
    obtain ⟨a, ha, b, hb, hab, hne⟩ := h
    have hab' : a.natAbs = b.natAbs := by exact_mod_cast hab
    have : b = -a := by omega
    refine ⟨a, by simpa using ha, by omega, ?_⟩
    rw [← this]; simpa using hb
  · rintro ⟨d, hd, h0, hn⟩ hinj
    have := hinj (by simpa using hd) (show -d ∈ _ by simpa using hn) (by simp)
    omega

theorem sel_src_ne_nil (sd : List Int) : sel (sd.map (fun d => decide (0 ≤ d))) sd ≠ [] ↔ ∃ d ∈ sd, 0 ≤ d := by
  rw [sel_map_self, ne_eq, List.filter_eq_nil_iff]; simp

theorem sel_tgt_ne_nil (sd : List Int) :
    sel ((sd.map (fun d => decide (0 ≤ d))).map (!·)) sd ≠ [] ↔ ∃ d ∈ sd, d < 0 := by
  rw [List.map_map, sel_map_self, ne_eq, List.filter_eq_nil_iff]; simp

/-- Exactly what the flag checks decide. -/
theorem checkFlags_spec (f : Flags) (sd : List Int) :
    (Spec.CodeViolates f sd → checkFlags f sd = .error .valueError) ∧
    (¬ Spec.CodeViolates f sd → checkFlags f sd = .ok ()) := by
  have h1 : 0 < (unique (sel (sd.map (fun d => decide (0 ≤ d))) sd)).length ↔ ∃ d ∈ sd, 0 ≤ d := by
    rw [length_unique_pos, sel_src_ne_nil]
  have h2 : 0 < (unique (sel ((sd.map (fun d => decide (0 ≤ d))).map (!·)) sd)).length ↔ ∃ d ∈ sd, d < 0 := by
    rw [length_unique_pos, sel_tgt_ne_nil]
  have h3 : 1 < (unique (sel (sd.map (fun d => decide (0 ≤ d))) sd)).length ↔
      ∃ d ∈ sd, ∃ e ∈ sd, 0 ≤ d ∧ 0 ≤ e ∧ d ≠ e := by
    rw [one_lt_length_unique, sel_map_self]
    constructor
    · rintro ⟨x, hx, y, hy, hne⟩
      simp at hx hy
      exact ⟨x, hx.1, y, hy.1, hx.2, hy.2, hne⟩
    · rintro ⟨x, hx, y, hy, h1, h2, hne⟩
      exact ⟨x, by simp [hx, h1], y, by simp [hy, h2], hne⟩
  have h4 := common_iff sd
  unfold checkFlags Spec.CodeViolates
  simp only [← h1, ← h2, ← h3, ← h4, Bool.and_eq_true, Bool.not_eq_true', decide_eq_true_eq]
  clear h1 h2 h3 h4
  constructor
  · intro h
    split
    · rfl
    split
    · rfl
    split
    · rfl
    split
    · rfl
    split
    · rfl
    · tauto
  · intro h
    rw [if_neg (by tauto), if_neg (by tauto), if_neg (by tauto), if_neg (by tauto), if_neg (by tauto)]

/-- C08, what the code does for every flag combination: `ValueError` iff `Spec.CodeViolates`, otherwise the
arguments are returned unchanged. -/
theorem C08_check_domain_code {α : Type} (X : List α) (sd : List Int) (f : Flags)
    (hX : X ≠ []) (hlen : X.length = sd.length) :
    (Spec.CodeViolates f sd → checkXDomain X (.vec sd) f = .error .valueError) ∧
    (¬ Spec.CodeViolates f sd → checkXDomain X (.vec sd) f = .ok (X, sd)) := by
  have hsd : sd ≠ [] := by
    rintro rfl; exact hX (List.length_eq_zero_iff.1 hlen)
  obtain ⟨h1, h2⟩ := checkFlags_spec f sd
  constructor
  · intro h; simp [checkXDomain, hX, extractSourceIndices, hsd, hlen, h1 h]
  · intro h; simp [checkXDomain, hX, extractSourceIndices, hsd, hlen, h2 h]

/-- C08 for `check_X_y_domain`: the same decision. -/
theorem C08_check_Xy_domain_code {α : Type} (X : List α) (y : List Num) (sd : List Int) (f : Flags)
    (hX : X ≠ []) (hy : X.length = y.length) (hsd : sd ≠ []) :
    (Spec.CodeViolates f sd → checkXyDomain X y (.vec sd) f = .error .valueError) ∧
    (¬ Spec.CodeViolates f sd → checkXyDomain X y (.vec sd) f = .ok (X, y, sd)) := by
  have hyn : y ≠ [] := by
    rintro rfl; exact hX (List.length_eq_zero_iff.1 hy)
  obtain ⟨h1, h2⟩ := checkFlags_spec f sd
  constructor
  · intro h; simp [checkXyDomain, hX, hyn, extractSourceIndices, hsd, hy, h1 h]
  · intro h; simp [checkXyDomain, hX, hyn, extractSourceIndices, hsd, hy, h2 h]

theorem codeViolates_iff (f : Flags) (sd : List Int) (h : f.allowMultiTarget = true) :
    Spec.CodeViolates f sd ↔ Spec.Violates f sd := by
  unfold Spec.CodeViolates Spec.Violates
  simp [h]

/-- C08 as documented, for all calls that leave `allow_multi_target=True`.
Missing from the full claim: `allow_multi_target=False`, for which the claim is false (next theorem). -/
theorem C08_check_domain_partial {α : Type} (X : List α) (y : List Num) (sd : List Int) (f : Flags)
    (hX : X ≠ []) (hlen : X.length = sd.length) (hy : X.length = y.length) (hf : f.allowMultiTarget = true) :
    ((Spec.Violates f sd → checkXDomain X (.vec sd) f = .error .valueError) ∧
     (¬ Spec.Violates f sd → checkXDomain X (.vec sd) f = .ok (X, sd))) ∧
    ((Spec.Violates f sd → checkXyDomain X y (.vec sd) f = .error .valueError) ∧
     (¬ Spec.Violates f sd → checkXyDomain X y (.vec sd) f = .ok (X, y, sd))) := by
  rw [← codeViolates_iff f sd hf]
  refine ⟨C08_check_domain_code X sd f hX hlen, C08_check_Xy_domain_code X y sd f hX hy ?_⟩
  rintro rfl; exact hX (List.length_eq_zero_iff.1 hlen)

/-- C08 is false for `allow_multi_target=False`: two target domains are accepted, and one target domain with two
source domains is rejected (skada/utils.py:117 and 220 test `n_sources`). -/
theorem C08_counterexample :
    (∃ (f : Flags) (sd : List Int) (X : List Nat), X.length = sd.length ∧ Spec.Violates f sd ∧
      checkXDomain X (.vec sd) f = .ok (X, sd)) ∧
    (∃ (f : Flags) (sd : List Int) (X : List Nat), X.length = sd.length ∧ ¬ Spec.Violates f sd ∧
      checkXDomain X (.vec sd) f = .error .valueError) := by
  constructor
  · refine ⟨{ allowMultiTarget := false }, [1, -1, -2], [0, 0, 0], rfl, ?_, by decide⟩
    right; right; right; left
    exact ⟨rfl, -1, by simp, -2, by simp, by omega, by omega, by omega⟩
  · refine ⟨{ allowMultiTarget := false }, [1, 2, -1], [0, 0, 0], rfl, ?_, by decide⟩
    unfold Spec.Violates
    simp

example : ∃ f : Flags, f.allowMultiTarget = true ∧ Spec.Violates f [1, 3, -3] :=
  ⟨{ allowCommonIdx := false }, rfl, by right; right; right; right; exact ⟨rfl, 3, by simp, by omega, by simp⟩⟩

/-! ### C09 -/

/-- C09. Default and broadcast labels, the length check and the `allow_domains` check, with default flags. -/
theorem C09_check_X_domain {α : Type} (X : List α) (hX : X ≠ []) :
    -- no sample_domain: every row is a target row with label -1
    (checkXDomain X .none {} = .ok (X, List.replicate X.length (-1))) ∧
    -- unless automatic labels are disabled
    (checkXDomain X .none { allowAuto := false } = .error .valueError) ∧
    -- a scalar is broadcast
    (∀ d : Int, checkXDomain X (.scalar d) {} = .ok (X, List.replicate X.length d)) ∧
    -- a vector must have one label per row
    (∀ sd : List Int, sd.length ≠ X.length → checkXDomain X (.vec sd) {} = .error .valueError) ∧
    (∀ sd : List Int, sd.length = X.length → checkXDomain X (.vec sd) {} = .ok (X, sd)) := by
  have hx : ∀ d : Int, List.replicate X.length d ≠ [] := by
    intro d h; exact hX (List.length_eq_zero_iff.1 (by simpa using h))
  refine ⟨?_, ?_, ?_, ?_, ?_⟩
  · simp [checkXDomain, extractSourceIndices, hX, hx, checkFlags_default, defaultTargetOnly]
  · simp [checkXDomain, hX]
  · intro d; simp [checkXDomain, extractSourceIndices, hX, hx, checkFlags_default]
  · intro sd h
    by_cases hs : sd = []
    · simp [checkXDomain, extractSourceIndices, hX, hs]
    · simp [checkXDomain, extractSourceIndices, hX, hs, Ne.symm h]
  · intro sd h
    have hs : sd ≠ [] := by rintro rfl; exact hX (List.length_eq_zero_iff.1 h.symm)
    simp [checkXDomain, extractSourceIndices, hX, hs, h, checkFlags_default]

/-- C09 (`allow_domains`). A batch is accepted iff each label is listed or its side has the wildcard. -/
theorem C09_allow_domains {α : Type} (X : List α) (sd : List Int) (allow : List AllowedDomain)
    (hX : X ≠ []) (hlen : X.length = sd.length) :
    ((∀ d ∈ sd, .label d ∈ allow ∨ (0 ≤ d ∧ .posInf ∈ allow) ∨ (d < 0 ∧ .negInf ∈ allow)) →
      checkXDomain X (.vec sd) {} (some allow) = .ok (X, sd)) ∧
    (¬ (∀ d ∈ sd, .label d ∈ allow ∨ (0 ≤ d ∧ .posInf ∈ allow) ∨ (d < 0 ∧ .negInf ∈ allow)) →
      checkXDomain X (.vec sd) {} (some allow) = .error .valueError) := by
  have hs : sd ≠ [] := by rintro rfl; exact hX (List.length_eq_zero_iff.1 hlen)
  have hd : ∀ d, domainAllowed allow d = true ↔
      (.label d ∈ allow ∨ (0 ≤ d ∧ .posInf ∈ allow) ∨ (d < 0 ∧ .negInf ∈ allow)) := by
    intro d
    unfold domainAllowed
    by_cases h : 0 ≤ d
    · have : ¬ d < 0 := by omega
      simp [h, this]
    · have : d < 0 := by omega
      simp [h, this]
  constructor
  · intro h
    have : (unique sd).any (fun d => !domainAllowed allow d) = false := by
      rw [List.any_eq_false]; intro d hm
      simp [(hd d).2 (h d (mem_unique.1 hm))]
    simp [checkXDomain, extractSourceIndices, hX, hs, hlen, this, checkFlags_default]
  · intro h
    have : (unique sd).any (fun d => !domainAllowed allow d) = true := by
      push Not at h
      obtain ⟨d, hm, h⟩ := h
      refine List.any_eq_true.2 ⟨d, mem_unique.2 hm, ?_⟩
      rw [Bool.not_eq_true', ← Bool.not_eq_true, hd]
      tauto
    simp [checkXDomain, extractSourceIndices, hX, hs, hlen, this]

example : checkXDomain [0, 0, 0] (.vec [3, -7, 1]) {} (some [.label 1, .label 3, .negInf])
    = .ok ([0, 0, 0], [3, -7, 1]) := by decide
example : checkXDomain [0, 0, 0] (.vec [3, -7, 1]) {} (some [.label 3, .negInf]) = .error .valueError := by decide

/-! ### C54 -/

/-- C54 is false: `check_X_y_domain` returns a `sample_domain` of another length than `X` unchanged (there is no
consistency check after line 98, unlike `check_X_domain`, which has one). -/
theorem C54_counterexample :
    ∃ (X : List Nat) (y : List Num) (sd : List Int), X.length = y.length ∧ sd.length ≠ X.length ∧
      checkXyDomain X y (.vec sd) {} = .ok (X, y, sd) :=
  ⟨[0, 0, 0], [.fin 0, .fin 1, .fin 0], [1, -1], rfl, by decide, by decide +kernel⟩

/-- C54 (what holds). `X` and `y` of different lengths are rejected, and derived or broadcast labels always have
one entry per row. Missing: the length of an explicitly given label vector. -/
theorem C54_Xy_lengths_partial {α : Type} (X : List α) (y : List Num) (f : Flags) :
    (∀ sd, X.length ≠ y.length → checkXyDomain X y sd f = .error .valueError) ∧
    (∀ sd X' y' sd', (∀ l, sd ≠ .vec l) → checkXyDomain X y sd f = .ok (X', y', sd') →
      X' = X ∧ y' = y ∧ sd'.length = X.length) := by
  constructor
  · intro sd h
    unfold checkXyDomain
    split
    · rfl
    · split
      · rfl
      · split
        · rfl
        · rfl
  · intro sd X' y' sd' hsd h
    unfold checkXyDomain at h
    split at h
    · cases h
    split at h
    · cases h
    split at h
    · cases h
    split at h
    · cases h
    rename_i hlen
    push Not at hlen
    cases sd with
    | vec l => exact absurd rfl (hsd l)
    | none =>
      simp only at h
      cases hau : f.allowAuto
      · simp [hau] at h
      · simp only [hau] at h
        cases hm : checkYMasking y with
        | error e => simp [hm] at h
        | ok t =>
          simp only [hm] at h
          simp at h
          split at h
          · cases h
          · split at h
            · cases h
            · cases h
              refine ⟨rfl, rfl, ?_⟩
              cases t <;> simp [maskOf, hlen]
    | scalar d =>
      simp only at h
      split at h
      · cases h
      · split at h
        · cases h
        · cases h
          exact ⟨rfl, rfl, by simp [hlen]⟩

end Skada

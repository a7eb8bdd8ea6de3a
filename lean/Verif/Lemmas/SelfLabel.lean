/-
Lemmas about the selection of DASVM and the cut-off of gradual adaptation.
-/
import Verif.Model.SelfLabel
import Verif.Lemmas.Mapping
import Verif.Lemmas.Arg
import Mathlib.Tactic.Linarith
import Mathlib.Tactic.Ring

namespace Skada

theorem bind_ok_iff {α β : Type} {x : Py α} {f : α → Py β} {b : β} : (x >>= f) = .ok b ↔ ∃ a, x = .ok a ∧ f a = .ok b := by
  cases x with
  | error e => simp [err_bind]
  | ok a => simp [ok_bind]

namespace SL
open Np Spec RW Map

/-- The shift of a single index. -/
def shift1 : Nat → List Bool → Nat → Nat
  | _, [], i => i
  | ll, c :: cs, i => shift1 (ll + 1) cs (if c then i else if ll ≤ i then i + 1 else i)

theorem shiftIdx_eq (ll : Nat) (cs : List Bool) (idx : List Nat) : shiftIdx ll cs idx = idx.map (shift1 ll cs) := by
  induction cs generalizing ll idx with
  | nil =>
    have : shift1 ll [] = id := by funext i; rfl
    simp [shiftIdx, this]
  | cons c cs ih =>
    simp only [shiftIdx, ih]
    cases c with
    | true => simp only [if_true]; rfl
    | false =>
      simp only [Bool.false_eq_true, if_false, List.map_map]
      rfl

theorem shift1_lt {ll : Nat} {cs : List Bool} {i : Nat} (h : i < ll) : shift1 ll cs i = i := by
  induction cs generalizing ll with
  | nil => rfl
  | cons c cs ih =>
    simp only [shift1]
    cases c <;> simp only [if_true, Bool.false_eq_true, if_false, if_neg (not_le.2 h)] <;> exact ih (by omega)

theorem shift1_spec {ll : Nat} {cs : List Bool} {r p : Nat} (h : (nonzeroFrom ll cs)[r]? = some p) :
    shift1 ll cs (ll + r) = p := by
  induction cs generalizing ll r with
  | nil => simp [nonzeroFrom] at h
  | cons c cs ih =>
    cases c with
    | true =>
      simp only [nonzeroFrom] at h
      simp only [shift1, if_true]
      cases r with
      | zero =>
        simp only [List.getElem?_cons_zero, Option.some.injEq] at h
        rw [add_zero, shift1_lt (by omega), h]
      | succ r =>
        simp only [List.getElem?_cons_succ] at h
        rw [← ih h]
        congr 1; omega
    | false =>
      simp only [nonzeroFrom] at h
      simp only [shift1, Bool.false_eq_true, if_false]
      rw [if_pos (by omega), ← ih h]
      congr 1; omega

theorem sel_getElem? {γ : Type} {m : List Bool} {a : List γ} (k r : Nat) (hl : m.length = a.length) :
    (sel m a)[r]? = ((nonzeroFrom k m)[r]?).bind (fun p => a[p - k]?) := by
  induction m generalizing a k r with
  | nil => cases a <;> simp [sel, nonzeroFrom]
  | cons c m ih =>
    cases a with
    | nil => simp at hl
    | cons x a =>
      have hl' : m.length = a.length := by simpa using hl
      have hsub : ∀ r : Nat, ((nonzeroFrom (k + 1) m)[r]?).bind (fun p => (x :: a)[p - k]?)
          = ((nonzeroFrom (k + 1) m)[r]?).bind (fun p => a[p - (k + 1)]?) := by
        intro r
        cases h : (nonzeroFrom (k + 1) m)[r]? with
        | none => rfl
        | some p =>
          have hp : k + 1 ≤ p := by
            have hm := List.mem_of_getElem? h
            obtain ⟨j, rfl, -⟩ := mem_nonzeroFrom.1 hm
            omega
          simp only [Option.bind_some]
          obtain ⟨q, rfl⟩ : ∃ q, p = k + 1 + q := ⟨p - (k + 1), by omega⟩
          have e1 : k + 1 + q - k = q + 1 := by omega
          have e2 : k + 1 + q - (k + 1) = q := by omega
          rw [e1, e2, List.getElem?_cons_succ]
      cases c with
      | true =>
        cases r with
        | zero => simp [sel, nonzeroFrom]
        | succ r =>
          simp only [sel, nonzeroFrom, List.getElem?_cons_succ]
          rw [hsub r]
          exact ih (k + 1) r hl'
      | false =>
        simp only [sel, nonzeroFrom]
        rw [hsub r]
        exact ih (k + 1) r hl'

theorem sel_at {γ : Type} {m : List Bool} {a : List γ} {r : Nat} {v : γ} (hl : m.length = a.length)
    (h : (sel m a)[r]? = some v) : ∃ p : Nat, (flatnonzero m)[r]? = some p ∧ a[p]? = some v := by
  rw [sel_getElem? 0 r hl] at h
  cases hp : (nonzeroFrom 0 m)[r]? with
  | none => rw [hp] at h; simp at h
  | some p => rw [hp] at h; exact ⟨p, hp, by simpa using h⟩

theorem mem_sel_of {γ : Type} {m : List Bool} {a : List γ} {p : Nat} {v : γ} (hl : m.length = a.length)
    (hm : m[p]? = some true) (ha : a[p]? = some v) : ∃ r : Nat, (flatnonzero m)[r]? = some p ∧ (sel m a)[r]? = some v := by
  obtain ⟨r, hr, he⟩ := List.getElem_of_mem (mem_flatnonzero.2 hm)
  have h1 : (flatnonzero m)[r]? = some p := by rw [List.getElem?_eq_getElem hr, he]
  refine ⟨r, h1, ?_⟩
  have h2 : (nonzeroFrom 0 m)[r]? = some p := h1
  rw [sel_getElem? 0 r hl, h2]
  simpa using ha

/-- The best admissible entry of a column: maximal, the first one on ties. -/
def _root_.Skada.Spec.Best {K : Type} [LinearOrder K] (col : List K) (adm : Nat → Prop) (i : Nat) : Prop :=
  adm i ∧ ∃ v, col[i]? = some v ∧ ∀ (j : Nat) (u : K), adm j → col[j]? = some u → u ≤ v ∧ (u = v → i ≤ j)

theorem argmax_best {K : Type} [LinearOrder K] {condition : List Bool} {col : List K} (hl : condition.length = col.length)
    (hne : 0 < condition.count true) :
    ∃ (r p : Nat), argmax (sel condition col) = .ok r ∧ shift1 0 condition r = p ∧ p < condition.length ∧
      Best col (fun j => condition[j]? = some true) p := by
  have hs : sel condition col ≠ [] := by
    intro h
    have := length_sel hl
    rw [h] at this; simp at this; omega
  obtain ⟨r, v, h1, h2, h3, h4⟩ := argmax_spec hs
  obtain ⟨p, hp1, hp2⟩ := sel_at hl h2
  have hc : condition[p]? = some true := mem_flatnonzero.1 (List.mem_of_getElem? hp1)
  refine ⟨r, p, h1, ?_, ?_, hc, v, hp2, fun j u hj hu => ?_⟩
  · have := shift1_spec (ll := 0) hp1
    simpa using this
  · by_contra h; rw [List.getElem?_eq_none (by omega)] at hc; simp at hc
  · obtain ⟨r', hr1, hr2⟩ := mem_sel_of hl hj hu
    refine ⟨h3 u (List.mem_of_getElem? hr2), fun huv => ?_⟩
    subst huv
    have hrr : r ≤ r' := by
      by_contra hlt
      exact lt_irrefl _ (h4 r' u (by omega) hr2)
    rcases Nat.eq_or_lt_of_le hrr with h | h
    · subst h; rw [hp1] at hr1; injection hr1 with e; omega
    · have hb1 : r < (flatnonzero condition).length := by
        by_contra h'; rw [List.getElem?_eq_none (by omega)] at hp1; simp at hp1
      have hb2 : r' < (flatnonzero condition).length := by
        by_contra h'; rw [List.getElem?_eq_none (by omega)] at hr1; simp at hr1
      have := List.pairwise_iff_getElem.1 (pairwise_flatnonzero condition) r r' hb1 hb2 h
      rw [List.getElem?_eq_getElem hb1, Option.some.injEq] at hp1
      rw [List.getElem?_eq_getElem hb2, Option.some.injEq] at hr1
      omega

theorem getElem?_foldl_set (idx : List Nat) (mask : List Bool) (j : Nat) (hj : j < mask.length) :
    (idx.foldl (fun m i => m.set i true) mask)[j]? = if j ∈ idx then some true else mask[j]? := by
  induction idx generalizing mask with
  | nil => simp
  | cons i idx ih =>
    rw [List.foldl_cons, ih _ (by simpa using hj)]
    by_cases h : j ∈ idx
    · simp [h]
    · by_cases h2 : i = j
      · subst h2; simp [h, hj]
      · have h3 : j ≠ i := fun e => h2 e.symm
        simp [h, h2, h3]

theorem length_foldl_set (idx : List Nat) (mask : List Bool) :
    (idx.foldl (fun m i => m.set i true) mask).length = mask.length := by
  induction idx generalizing mask with
  | nil => rfl
  | cons i idx ih => rw [List.foldl_cons, ih]; simp

theorem repeatM_fixed (n : Nat) (f : List Bool → Py (List Bool)) (m m' : List Bool) (h1 : f m = .ok m')
    (h2 : f m' = .ok m') : repeatM (n + 1) f m = .ok m' := by
  have h3 : ∀ n, repeatM n f m' = .ok m' := by
    intro n
    induction n with
    | zero => rfl
    | succ n ih => simp only [repeatM, h2]; exact ih
  simp only [repeatM, h1]
  exact h3 n

section
set_option linter.unusedSectionVars false
variable {K : Type} [Field K] [LinearOrder K]

/-- The admissible positions of a selection. -/
def _root_.Skada.Spec.Adm (mask cond : List Bool) (i : Nat) : Prop := mask[i]? = some false ∧ cond[i]? = some true

theorem condition_iff {mask cond : List Bool} (i : Nat) :
    (List.zipWith (fun a b => !a && b) mask cond)[i]? = some true ↔ Adm mask cond i := by
  rw [List.getElem?_zipWith]
  unfold Adm
  cases mask[i]? <;> cases cond[i]? <;> simp

theorem count_condition {mask cond : List Bool} :
    0 < (List.zipWith (fun a b => !a && b) mask cond).count true ↔ ∃ i, Adm mask cond i := by
  rw [List.count_pos_iff]
  constructor
  · intro h
    obtain ⟨i, hi, he⟩ := List.getElem_of_mem h
    exact ⟨i, (condition_iff i).1 (by rw [List.getElem?_eq_getElem hi, he])⟩
  · rintro ⟨i, hi⟩
    exact List.mem_of_getElem? ((condition_iff i).2 hi)

theorem findPoints_spec (k : Nat) (mask cond : List Bool) (rows : List (K × K)) (hk : 0 < k)
    (h1 : mask.length = rows.length) (h2 : cond.length = rows.length) (hne : ∃ i, Adm mask cond i) :
    ∃ i0 i1 mask', findPoints k mask (.two rows) cond = .ok mask' ∧ mask'.length = mask.length ∧
      Best (rows.map Prod.fst) (Adm mask cond) i0 ∧ Best (rows.map Prod.snd) (Adm mask cond) i1 ∧
      ∀ j, j < mask.length → mask'[j]? = if j = i0 ∨ j = i1 then some true else mask[j]? := by
  set condition := List.zipWith (fun a b => !a && b) mask cond with hcd
  have hcl : condition.length = rows.length := by rw [hcd, List.length_zipWith]; omega
  have hc : 0 < condition.count true := count_condition.2 hne
  obtain ⟨r0, i0, ha0, hs0, hl0, hb0⟩ := argmax_best (col := rows.map Prod.fst) (by simpa using hcl) hc
  obtain ⟨r1, i1, ha1, hs1, hl1, hb1⟩ := argmax_best (col := rows.map Prod.snd) (by simpa using hcl) hc
  have hcong : (fun j => condition[j]? = some true) = Adm mask cond := by
    funext j; exact propext (condition_iff j)
  rw [hcong] at hb0 hb1
  have hmapsel : ∀ f : K × K → K, (sel condition rows).map f = sel condition (rows.map f) := by
    intro f
    have : ∀ (c : List Bool) (l : List (K × K)), (sel c l).map f = sel c (l.map f) := by
      intro c l
      induction c generalizing l with
      | nil => cases l <;> rfl
      | cons b c ih =>
        cases l with
        | nil => cases b <;> rfl
        | cons x l => cases b <;> simp [sel, ih]
    exact this _ _
  have hbest : bestIdx condition (.two rows) = .ok (unique [r0, r1]) := by
    simp only [bestIdx]
    rw [boolIndex_ok hcl.symm]
    simp only [ok_bind, hmapsel, ha0, ha1, pure_ok]
  have hmem : ∀ j, j ∈ shiftIdx 0 condition (unique [r0, r1]) ↔ j = i0 ∨ j = i1 := by
    intro j
    rw [shiftIdx_eq, List.mem_map]
    constructor
    · rintro ⟨r, hr, rfl⟩
      rw [mem_unique] at hr
      simp only [List.mem_cons, List.not_mem_nil, or_false] at hr
      rcases hr with rfl | rfl
      · exact Or.inl hs0
      · exact Or.inr hs1
    · rintro (rfl | rfl)
      · exact ⟨r0, mem_unique.2 (by simp), hs0⟩
      · exact ⟨r1, mem_unique.2 (by simp), hs1⟩
  have honce : ∀ m : List Bool, m.length = mask.length → selectOnce condition (.two rows) m
      = .ok ((shiftIdx 0 condition (unique [r0, r1])).foldl (fun m i => m.set i true) m) := by
    intro m hm
    unfold selectOnce
    rw [hbest]
    simp only [ok_bind, markAll]
    rw [if_neg]
    simp only [List.any_eq_true, decide_eq_true_eq, not_exists, not_and, not_le]
    intro j hj
    rcases (hmem j).1 hj with rfl | rfl <;> omega
  refine ⟨i0, i1, (shiftIdx 0 condition (unique [r0, r1])).foldl (fun m i => m.set i true) mask, ?_, length_foldl_set _ _,
    hb0, hb1, fun j hj => ?_⟩
  · unfold findPoints
    rw [← hcd]
    simp only
    obtain ⟨n, hn⟩ : ∃ n, min k ((condition.count true + 1) / 2) = n + 1 :=
      ⟨min k ((condition.count true + 1) / 2) - 1, by omega⟩
    rw [hn]
    apply repeatM_fixed _ _ _ _ (honce mask rfl)
    rw [honce _ (length_foldl_set _ _)]
    congr 1
    apply List.ext_getElem?
    intro j
    by_cases hj : j < mask.length
    · rw [getElem?_foldl_set _ _ _ (by rw [length_foldl_set]; exact hj), getElem?_foldl_set _ _ _ hj]
      split <;> rfl
    · rw [List.getElem?_eq_none (by rw [length_foldl_set, length_foldl_set]; omega),
        List.getElem?_eq_none (by rw [length_foldl_set]; omega)]
  · rw [getElem?_foldl_set _ _ _ hj]
    simp only [hmem]

theorem findPoints_none (k : Nat) (mask cond : List Bool) (d : Dec K) (h : k = 0 ∨ ¬ ∃ i, Adm mask cond i) :
    findPoints k mask d cond = .ok mask := by
  unfold findPoints
  have : min k (((List.zipWith (fun a b => !a && b) mask cond).count true + 1) / 2) = 0 := by
    rcases h with rfl | h
    · simp
    · have : (List.zipWith (fun a b => !a && b) mask cond).count true = 0 := by
        by_contra h0
        exact h (count_condition.1 (Nat.pos_of_ne_zero h0))
      rw [this]; simp
  simp only [this, repeatM]

/-- Whatever happens, a selection keeps the length and only adds points. -/
theorem findPoints_grow {k : Nat} {mask cond mask' : List Bool} {d : Dec K} (h : findPoints k mask d cond = .ok mask') :
    mask'.length = mask.length ∧ ∀ j : Nat, mask[j]? = some true → mask'[j]? = some true := by
  unfold findPoints at h
  simp only at h
  generalize List.zipWith (fun a b => !a && b) mask cond = condition at h
  generalize min k ((condition.count true + 1) / 2) = n at h
  induction n generalizing mask with
  | zero => injection h with h; subst h; exact ⟨rfl, fun _ h => h⟩
  | succ n ih =>
    simp only [repeatM] at h
    split at h
    · exact absurd h (by simp)
    · rename_i m hm
      obtain ⟨h1, h2⟩ := ih h
      unfold selectOnce at hm
      rw [bind_ok_iff] at hm
      obtain ⟨idx, -, hmk⟩ := hm
      unfold markAll at hmk
      split at hmk
      · exact absurd hmk (by simp)
      · injection hmk with hmk
        subst hmk
        rw [length_foldl_set] at h1
        refine ⟨h1, fun j hj => h2 j ?_⟩
        have hjl : j < mask.length := by
          by_contra hc; rw [List.getElem?_eq_none (by omega)] at hj; simp at hj
        rw [getElem?_foldl_set _ _ _ hjl]
        split
        · rfl
        · exact hj

/-- A two-column selection changes at most two positions, all of them admissible. -/
theorem findPoints_two {k : Nat} {mask cond mask' : List Bool} {rows : List (K × K)} (h1 : mask.length = rows.length)
    (h2 : cond.length = rows.length) (h : findPoints k mask (.two rows) cond = .ok mask') :
    ∃ i0 i1 : Nat, ∀ j : Nat, mask'[j]? ≠ mask[j]? → (j = i0 ∨ j = i1) ∧ Adm mask cond j ∧ mask'[j]? = some true := by
  by_cases hc : k = 0 ∨ ¬ ∃ i, Adm mask cond i
  · rw [findPoints_none k mask cond _ hc] at h
    injection h with h
    subst h
    exact ⟨0, 0, fun j hj => absurd rfl hj⟩
  · rw [not_or, not_not] at hc
    obtain ⟨i0, i1, m, hm, hl, hb0, hb1, hv⟩ := findPoints_spec k mask cond rows (Nat.pos_of_ne_zero hc.1) h1 h2 hc.2
    rw [hm] at h
    injection h with h
    subst h
    refine ⟨i0, i1, fun j hj => ?_⟩
    have hjl : j < mask.length := by
      by_contra hcl
      rw [List.getElem?_eq_none (by omega), List.getElem?_eq_none (by omega)] at hj
      exact hj rfl
    rw [hv j hjl] at hj ⊢
    by_cases hji : j = i0 ∨ j = i1
    · refine ⟨hji, ?_, by rw [if_pos hji]⟩
      rcases hji with rfl | rfl
      · exact hb0.1
      · exact hb1.1
    · rw [if_neg hji] at hj
      exact absurd rfl hj

end

end SL
end Skada

/-
C88: the contrastive domain discrepancy of CAN.
-/
import Verif.Props.DeepMMD
import Verif.Lemmas.Arg
import Verif.Lemmas.Np
import Verif.Lemmas.Monad
import Verif.Lemmas.SelfLabel

namespace Skada

namespace Spec

/-- The rows of `X` with label `c`. -/
def rowsOf {α β : Type} [DecidableEq β] (X : List α) (y : List β) (c : β) : List α :=
  ((X.zip y).filter (fun p => decide (p.2 = c))).map Prod.fst

/-- The discrepancy of two classes: the maximum mean discrepancy of the source rows of class `c1` and the target rows of class `c2`. -/
noncomputable def classMmd {d : Nat} (k : (Fin d → ℝ) → (Fin d → ℝ) → ℝ) (Xs : List (Fin d → ℝ)) (ys : List Int) (Xt : List (Fin d → ℝ))
    (lt : List Nat) (c1 c2 : Nat) : ℝ :=
  pairMean k (rowsOf Xs ys (c1 : Int)) (rowsOf Xs ys (c1 : Int)) + pairMean k (rowsOf Xt lt c2) (rowsOf Xt lt c2)
    - 2 * pairMean k (rowsOf Xs ys (c1 : Int)) (rowsOf Xt lt c2)

end Spec

open Np Spec

section Cdd
variable {d : Nat}

namespace DL

theorem sum_masked {α β : Type} [DecidableEq β] (f : α → ℝ) (c : β) (l : List (α × β)) :
    (l.map (fun p => f p.1 * (if p.2 = c then 1 else 0))).sum = ((l.filter (fun p => decide (p.2 = c))).map (fun p => f p.1)).sum := by
  induction l with
  | nil => rfl
  | cons p l ih =>
    rw [List.map_cons, List.sum_cons, ih, List.filter_cons]
    by_cases h : p.2 = c
    · simp [h]
    · simp [h]

theorem length_rowsOf {α β : Type} [DecidableEq β] (X : List α) (y : List β) (c : β) (h : y.length = X.length) :
    (rowsOf X y c).length = y.count c := by
  unfold rowsOf
  induction X generalizing y with
  | nil => cases y <;> simp_all
  | cons x X ih =>
    cases y with
    | nil => simp at h
    | cons b y =>
      simp only [List.length_cons, Nat.add_right_cancel_iff] at h
      have := ih y h
      rw [List.length_map] at this ⊢
      rw [List.zip_cons_cons, List.filter_cons, List.count_cons]
      by_cases hb : b = c
      · simp [hb, this]
      · simp [hb, this]

theorem mem_of_mem_rowsOf {α β : Type} [DecidableEq β] {X : List α} {y : List β} {c : β} {x : α} (h : x ∈ rowsOf X y c) : x ∈ X := by
  unfold rowsOf at h
  obtain ⟨p, hp, rfl⟩ := List.mem_map.1 h
  exact (List.of_mem_zip (List.mem_filter.1 hp).1).1

/-- Rows of a sublist: sums of non-negative terms over class rows are at most sums over all rows. -/
theorem sum_rowsOf_le {β : Type} [DecidableEq β] (f : (Fin d → ℝ) → ℝ) (hf : ∀ x, 0 ≤ f x) (X : List (Fin d → ℝ)) (y : List β) (c : β) :
    ((rowsOf X y c).map f).sum ≤ (X.map f).sum := by
  unfold rowsOf
  induction X generalizing y with
  | nil => simp
  | cons x X ih =>
    cases y with
    | nil => simp only [List.zip_nil_right, List.filter_nil, List.map_nil, List.sum_nil]; exact List.sum_nonneg (by simpa using ⟨hf x, fun a _ => hf a⟩)
    | cons b y =>
      have := ih y
      rw [List.zip_cons_cons, List.filter_cons]
      by_cases hb : b = c
      · simp only [hb, decide_true, if_true, List.map_cons, List.sum_cons]; linarith
      · simp only [hb, decide_false, Bool.false_eq_true, if_false, List.map_cons, List.sum_cons]; have := hf x; linarith

theorem selfTerm_eq {β : Type} [DecidableEq β] (k : (Fin d → ℝ) → (Fin d → ℝ) → ℝ) (X : List (Fin d → ℝ)) (y : List β) (c : β)
    (h : 0 < y.count c) :
    selfTerm k X y c = (X.map (fun x => ((rowsOf X y c).map (fun z => k x z)).sum)).sum / (y.count c : ℝ) ^ 2 := by
  unfold selfTerm
  rw [if_pos h]
  congr 2
  refine List.map_congr_left fun x _ => ?_
  rw [sum_masked (fun z => k x z) c]
  unfold rowsOf
  rw [List.map_map]
  rfl

theorem crossTerm_eq (k : (Fin d → ℝ) → (Fin d → ℝ) → ℝ) (Xs : List (Fin d → ℝ)) (ys : List Int) (Xt : List (Fin d → ℝ)) (lt : List Nat)
    (c1 c2 : Nat) (h1 : 0 < ys.count (c1 : Int)) (h2 : 0 < lt.count c2) :
    crossTerm k Xs ys Xt lt c1 c2 =
      ((rowsOf Xs ys (c1 : Int)).map (fun x => ((rowsOf Xt lt c2).map (fun z => k x z)).sum)).sum
        / ((ys.count (c1 : Int) : ℝ) * (lt.count c2 : ℝ)) ^ 2 := by
  unfold crossTerm
  rw [if_pos (Nat.mul_pos h1 h2)]
  push_cast
  congr 1
  have : ∀ p : (Fin d → ℝ) × Int, ((Xt.zip lt).map (fun q =>
      k p.1 q.1 * ((if p.2 = (c1 : Int) then 1 else 0) * (if q.2 = c2 then 1 else 0)))).sum =
      ((rowsOf Xt lt c2).map (fun z => k p.1 z)).sum * (if p.2 = (c1 : Int) then 1 else 0) := by
    intro p
    have := sum_masked (fun z => k p.1 z * (if p.2 = (c1 : Int) then 1 else 0)) c2 (Xt.zip lt)
    simp only [mul_assoc] at this
    rw [this]
    rw [show (fun q : (Fin d → ℝ) × Nat => k p.1 q.1 * (if p.2 = (c1 : Int) then (1 : ℝ) else 0)) =
      (fun q => (fun r : (Fin d → ℝ) × Nat => k p.1 r.1) q * (if p.2 = (c1 : Int) then (1 : ℝ) else 0)) from rfl,
      List.sum_map_mul_right]
    unfold rowsOf
    rw [List.map_map]
    rfl
  simp only [this]
  rw [sum_masked (fun x => ((rowsOf Xt lt c2).map (fun z => k x z)).sum) (c1 : Int)]
  simp only [rowsOf, List.map_map, Function.comp_def]

end DL

/-- C88 (partial).  For positive bandwidths and two non-empty classes, the term the code adds for the pair is at least the class-wise
maximum mean discrepancy, which is itself non-negative.  Missing: equality.  The code sums `e1` and `e2` over all rows instead of the rows
of the class and divides `e3` by the squared number of pairs, see `C88_identical_counterexample`. -/
theorem C88_terms_partial (sg : List ℝ) (hsg : ∀ s ∈ sg, 0 < s) (Xs : List (Fin d → ℝ)) (ys : List Int) (Xt : List (Fin d → ℝ))
    (lt : List Nat) (hs : ys.length = Xs.length) (ht : lt.length = Xt.length) (c1 c2 : Nat) (h1 : 0 < ys.count (c1 : Int))
    (h2 : 0 < lt.count c2) :
    0 ≤ classMmd (expKernel sg) Xs ys Xt lt c1 c2 ∧
      classMmd (expKernel sg) Xs ys Xt lt c1 c2 ≤ DL.pairTerm (DL.kernel Real.sqrt Real.exp sg) Xs ys Xt lt c1 c2 := by
  have hl1 := DL.length_rowsOf Xs ys (c1 : Int) hs
  have hl2 := DL.length_rowsOf Xt lt c2 ht
  have hne1 : rowsOf Xs ys (c1 : Int) ≠ [] := by
    intro h; rw [h, List.length_nil] at hl1; omega
  have hne2 : rowsOf Xt lt c2 ≠ [] := by
    intro h; rw [h, List.length_nil] at hl2; omega
  have hk : DL.kernel (d := d) Real.sqrt Real.exp sg = expKernel sg := by funext x y; exact DL.kernel_eq sg x y
  have hnn : ∀ x y : Fin d → ℝ, 0 ≤ expKernel sg x y := fun x y => (DL.expKernel_bounds sg hsg x y).1
  constructor
  · obtain ⟨v, _, _, hv, h0, _⟩ := C87_dan (fun _ => 0) 0 sg hsg (rowsOf Xs ys (c1 : Int)) (rowsOf Xt lt c2) hne1 hne2
    unfold classMmd
    rw [← hv]
    exact h0
  · rw [hk]
    unfold DL.pairTerm classMmd
    rw [DL.selfTerm_eq _ Xs ys (c1 : Int) h1, DL.selfTerm_eq _ Xt lt c2 h2, DL.crossTerm_eq _ Xs ys Xt lt c1 c2 h1 h2]
    rw [← DL.meanKernel_eq, ← DL.meanKernel_eq, ← DL.meanKernel_eq]
    unfold DL.meanKernel
    rw [hl1, hl2]
    have n1 : (1 : ℝ) ≤ (ys.count (c1 : Int) : ℝ) := by exact_mod_cast h1
    have n2 : (1 : ℝ) ≤ (lt.count c2 : ℝ) := by exact_mod_cast h2
    have a1 := DL.sum_rowsOf_le (fun x => ((rowsOf Xs ys (c1 : Int)).map (fun z => expKernel sg x z)).sum)
      (fun x => List.sum_nonneg (by simpa using fun a _ => hnn x a)) Xs ys (c1 : Int)
    have a2 := DL.sum_rowsOf_le (fun x => ((rowsOf Xt lt c2).map (fun z => expKernel sg x z)).sum)
      (fun x => List.sum_nonneg (by simpa using fun a _ => hnn x a)) Xt lt c2
    have a3 : 0 ≤ ((rowsOf Xs ys (c1 : Int)).map (fun x => ((rowsOf Xt lt c2).map (fun z => expKernel sg x z)).sum)).sum :=
      List.sum_nonneg (by simpa using fun x _ => List.sum_nonneg (by simpa using fun a _ => hnn x a))
    have b1 := div_le_div_of_nonneg_right a1 (show (0 : ℝ) ≤ (ys.count (c1 : Int) : ℝ) ^ 2 by positivity)
    have b2 := div_le_div_of_nonneg_right a2 (show (0 : ℝ) ≤ (lt.count c2 : ℝ) ^ 2 by positivity)
    have b3 : ((rowsOf Xs ys (c1 : Int)).map (fun x => ((rowsOf Xt lt c2).map (fun z => expKernel sg x z)).sum)).sum
        / ((ys.count (c1 : Int) : ℝ) * (lt.count c2 : ℝ)) ^ 2 ≤
        ((rowsOf Xs ys (c1 : Int)).map (fun x => ((rowsOf Xt lt c2).map (fun z => expKernel sg x z)).sum)).sum
        / ((ys.count (c1 : Int) : ℝ) * (lt.count c2 : ℝ)) := by
      refine div_le_div_of_nonneg_left a3 (by positivity) ?_
      have : (1 : ℝ) ≤ (ys.count (c1 : Int) : ℝ) * (lt.count c2 : ℝ) := by nlinarith
      nlinarith
    simp only [sq] at b1 b2 b3 ⊢
    linarith

/-- Two source rows of class 0 and one target row in cluster 0, one bandwidth. -/
example : 0 ≤ classMmd (expKernel [1]) [![0], ![1]] [0, 0] [![5]] [0] 0 0 ∧
    classMmd (expKernel [1]) [![0], ![1]] [0, 0] [![5]] [0] 0 0 ≤
      DL.pairTerm (DL.kernel Real.sqrt Real.exp [1]) [![0], ![1]] [0, 0] [![5]] [0] 0 0 :=
  C88_terms_partial [1] (by simp) [![0], ![1]] [0, 0] [![5]] [0] rfl rfl 0 0 (by decide) (by decide)

/-- C88.  On identical domains (same rows, same labels) the class-wise discrepancy of every class is zero, the code's intra-class term is
not, and the whole loss is not the contrastive domain discrepancy. -/
theorem C88_identical_counterexample :
    ∃ (X : List (Fin 1 → ℝ)) (y : List Int) (l : List Nat), y = l.map (fun c : Nat => (c : Int)) ∧ l.length = X.length ∧
      classMmd (expKernel [1]) X y X l 0 0 = 0 ∧
      DL.pairTerm (DL.kernel Real.sqrt Real.exp [1]) X y X l 0 0 = 2 * Real.exp (-2) ∧
      DL.cddCombine (DL.kernel Real.sqrt Real.exp [1]) 1 2 [1, 1] X y X l = .ok (2 * Real.exp (-2) - 1) ∧
      (classMmd (expKernel [1]) X y X l 0 0 + classMmd (expKernel [1]) X y X l 1 1) / 2 - classMmd (expKernel [1]) X y X l 0 1 / 2 =
        Real.exp (-2) - 1 := by
  have h : Real.sqrt (2 ^ 2) = 2 := Real.sqrt_sq (by norm_num)
  have hk : DL.kernel (d := 1) Real.sqrt Real.exp [1] = expKernel [1] := by funext x y; exact DL.kernel_eq [1] x y
  have k00 : expKernel [1] ![(1 : ℝ)] ![1] = 1 := by simp [expKernel, eucl]
  have k11 : expKernel [1] ![(-1 : ℝ)] ![-1] = 1 := by simp [expKernel, eucl]
  have k01 : expKernel [1] ![(1 : ℝ)] ![-1] = Real.exp (-2) := by
    simp [expKernel, eucl, show (1 : ℝ) + 1 = 2 by norm_num, h]
  have k10 : expKernel [1] ![(-1 : ℝ)] ![1] = Real.exp (-2) := by rw [DL.expKernel_symm, k01]
  refine ⟨[![1], ![-1]], [0, 1], [0, 1], rfl, rfl, ?_, ?_, ?_, ?_⟩
  · simp [classMmd, pairMean, rowsOf, SProd.sprod, List.product, k00]
    norm_num
  · rw [hk]
    simp [DL.pairTerm, DL.selfTerm, DL.crossTerm, k00, k10]
    ring
  · rw [hk]
    simp [DL.cddCombine, DL.classPairs, DL.pairTerm, DL.selfTerm, DL.crossTerm, k00, k01, k10, k11, List.count_cons, List.range_succ]
    ring
  · simp [classMmd, pairMean, rowsOf, SProd.sprod, List.product, k00, k01, k11]
    ring

/-! ### Which pairs of classes are used -/

section Pairs
variable {K : Type} [Field K] [LinearOrder K]

namespace DL

theorem mem_classPairs {n : Nat} {valid : Nat → Bool} {p : Nat × Nat} :
    p ∈ classPairs n valid ↔ p.1 < n ∧ p.2 < n ∧ p.1 ≤ p.2 ∧ valid p.1 = true ∧ valid p.2 = true := by
  obtain ⟨a, b⟩ := p
  simp only [classPairs, List.mem_filter, List.mem_flatMap, List.mem_map, List.mem_range, decide_eq_true_eq, Bool.and_eq_true,
    Prod.mk.injEq]
  constructor
  · rintro ⟨⟨c, hc, e, ⟨he, hle⟩, rfl, rfl⟩, h⟩
    exact ⟨hc, he, hle, h⟩
  · rintro ⟨h1, h2, h3, h⟩
    exact ⟨⟨a, h1, b, ⟨h2, h3⟩, rfl, rfl⟩, h⟩

theorem nodup_classPairs (n : Nat) (valid : Nat → Bool) : (classPairs n valid).Nodup := by
  refine List.Nodup.filter _ ?_
  rw [List.nodup_flatMap]
  refine ⟨fun a _ => ((List.nodup_range).filter _).map fun b c h => (Prod.mk.inj h).2, ?_⟩
  refine (List.nodup_range).imp fun {a b} hab => ?_
  intro p hp hq
  obtain ⟨_, _, rfl⟩ := List.mem_map.1 hp
  obtain ⟨_, _, h⟩ := List.mem_map.1 hq
  exact hab (Prod.mk.inj h).1.symm

end DL

omit [LinearOrder K] in
/-- C88. Which pairs of classes enter the loss: the terms of every class with enough target rows, divided by the number of
classes, minus the terms of every pair `c1 < c2` of two such classes, divided by `L² - L`. -/
theorem C88_combination (k : (Fin d → K) → (Fin d → K) → K) (classThr n : Nat) (counts : List Nat) (Xs : List (Fin d → K)) (ys : List Int)
    (Xt : List (Fin d → K)) (lt : List Nat) (hL : 2 ≤ counts.length) :
    DL.cddCombine k classThr n counts Xs ys Xt lt = .ok
      ((∑ c ∈ Finset.range n with classThr ≤ counts.getD c 0, DL.pairTerm k Xs ys Xt lt c c) / (counts.length : K)
        - (∑ p ∈ Finset.range n ×ˢ Finset.range n with p.1 < p.2 ∧ classThr ≤ counts.getD p.1 0 ∧ classThr ≤ counts.getD p.2 0,
            DL.pairTerm k Xs ys Xt lt p.1 p.2) / ((counts.length ^ 2 - counts.length : Nat) : K)) := by
  have hne : ¬ counts.length ^ 2 - counts.length = 0 := by
    have : counts.length < counts.length ^ 2 := by nlinarith
    omega
  simp only [DL.cddCombine, hne, if_false]
  set valid := fun c : Nat => decide (classThr ≤ counts.getD c 0) with hv
  have hn := DL.nodup_classPairs n valid
  have e1 : (((DL.classPairs n valid).filter (fun p => decide (p.1 = p.2))).map (fun p => DL.pairTerm k Xs ys Xt lt p.1 p.2)).sum
      = ∑ c ∈ Finset.range n with classThr ≤ counts.getD c 0, DL.pairTerm k Xs ys Xt lt c c := by
    rw [← List.sum_toFinset _ (hn.filter _)]
    refine Finset.sum_bij' (fun p _ => p.1) (fun c _ => (c, c)) ?_ ?_ ?_ ?_ ?_
    · intro p hp
      simp only [List.mem_toFinset, List.mem_filter, DL.mem_classPairs, decide_eq_true_eq, hv] at hp
      simp only [Finset.mem_filter, Finset.mem_range]
      exact ⟨hp.1.1, hp.1.2.2.2.1⟩
    · intro c hc
      simp only [Finset.mem_filter, Finset.mem_range] at hc
      simp only [List.mem_toFinset, List.mem_filter, DL.mem_classPairs, decide_eq_true_eq, hv]
      exact ⟨⟨hc.1, hc.1, le_rfl, hc.2, hc.2⟩, trivial⟩
    · intro p hp
      simp only [List.mem_toFinset, List.mem_filter, decide_eq_true_eq] at hp
      exact Prod.ext rfl hp.2
    · intro c _; rfl
    · intro p hp
      simp only [List.mem_toFinset, List.mem_filter, decide_eq_true_eq] at hp
      simp only [hp.2]
  have e2 : (((DL.classPairs n valid).filter (fun p => !decide (p.1 = p.2))).map (fun p => DL.pairTerm k Xs ys Xt lt p.1 p.2)).sum
      = ∑ p ∈ Finset.range n ×ˢ Finset.range n with p.1 < p.2 ∧ classThr ≤ counts.getD p.1 0 ∧ classThr ≤ counts.getD p.2 0,
          DL.pairTerm k Xs ys Xt lt p.1 p.2 := by
    rw [← List.sum_toFinset _ (hn.filter _)]
    refine Finset.sum_congr ?_ fun _ _ => rfl
    ext p
    simp only [List.mem_toFinset, List.mem_filter, DL.mem_classPairs, Bool.not_eq_true', decide_eq_false_iff_not, decide_eq_true_eq,
      Finset.mem_filter, Finset.mem_product, Finset.mem_range, hv]
    constructor
    · rintro ⟨⟨a, b, c, e, f⟩, g⟩
      exact ⟨⟨a, b⟩, by omega, e, f⟩
    · rintro ⟨⟨a, b⟩, c, e, f⟩
      exact ⟨⟨a, b, by omega, e, f⟩, by omega⟩
  rw [e1, e2]

/-- Three classes, the last one with too few target rows: only the pair (0, 1) is compared. -/
example : ((Finset.range 3 ×ˢ Finset.range 3).filter (fun p => p.1 < p.2 ∧ 1 ≤ [2, 1, 0].getD p.1 0 ∧ 1 ≤ [2, 1, 0].getD p.2 0)) =
    {(0, 1)} := by decide

end Pairs

/-! ### Which target rows are used -/

section Rows
variable {K : Type} [Field K] [LinearOrder K]

namespace DL

/-- The label of a row, as a function. -/
theorem exists_label (sqrt : K → K) (e : K) (cs : List (Fin d → K)) (hcs : cs ≠ []) :
    ∃ lab : (Fin d → K) → Nat, ∀ X : List (Fin d → K), kmPredict sqrt e cs X = .ok (X.map lab) := by
  have h : ∀ x : Fin d → K, ∃ i, argmin (dissimRow sqrt e cs x) = .ok i := fun x => by
    obtain ⟨i, _, hi, _⟩ := argmin_spec (l := dissimRow sqrt e cs x) (by simp [dissimRow, hcs])
    exact ⟨i, hi⟩
  choose lab hlab using h
  exact ⟨lab, fun X => mapM_ok fun x _ => hlab x⟩

theorem cdd_eq (sqrt ex : K → K) (pow2 : Nat → K) (e eps thr : K) (classThr : Nat) (sigmas : Option (List K)) (cs : List (Fin d → K))
    (hd : 0 < d) (lab : (Fin d → K) → Nat) (hlab : ∀ X : List (Fin d → K), kmPredict sqrt e cs X = .ok (X.map lab)) (ys : List Int)
    (Xs Xt : List (Fin d → K)) :
    cdd sqrt ex pow2 e eps thr classThr sigmas (some cs) ys Xs Xt =
      let kept := Xt.filter (keptRow sqrt e thr cs)
      let counts := bincount (kept.map lab) (unique ys).length
      let kept2 := kept.filter (fun x => decide (classThr ≤ counts.getD (lab x) 0))
      cddCombine (kernel sqrt ex (sigmas.getD (defaultSigmas sqrt pow2 eps Xs))) classThr (unique ys).length counts Xs ys kept2
        (kept2.map lab) := by
  have hz : ∀ X : List (Fin d → K), X.zip (X.map lab) = X.map (fun x => (x, lab x)) := by
    intro X
    induction X with
    | nil => rfl
    | cons x X ih => simp [ih]
  unfold cdd
  simp only [hlab, ok_bind]
  rw [if_neg hd.ne', hz]
  simp only [List.filter_map, List.map_map, Function.comp_def, List.map_id']

end DL

/-- C88. Pseudo-labels: every row gets the number of the centre with the largest cosine, the first one on ties. -/
theorem C88_pseudo_labels [IsStrictOrderedRing K] (sqrt : K → K) (e : K) (cs X : List (Fin d → K)) (hcs : cs ≠ []) :
    ∃ labels, DL.kmPredict sqrt e cs X = .ok labels ∧ labels.length = X.length ∧
      ∀ (i : Nat) (x : Fin d → K) (k : Nat), X[i]? = some x → labels[i]? = some k → ∃ c, cs[k]? = some c ∧
        (∀ c' ∈ cs, DL.cosine sqrt e x c' ≤ DL.cosine sqrt e x c) ∧
        ∀ (j : Nat) (c' : Fin d → K), j < k → cs[j]? = some c' → DL.cosine sqrt e x c' < DL.cosine sqrt e x c := by
  obtain ⟨lab, hlab⟩ := DL.exists_label sqrt e cs hcs
  refine ⟨X.map lab, hlab X, by simp, ?_⟩
  intro i x k hx hk
  rw [List.getElem?_map, hx, Option.map_some, Option.some.injEq] at hk
  subst hk
  obtain ⟨i, y, h1, h2, h3, h4⟩ := argmin_spec (l := DL.dissimRow sqrt e cs x) (by simp [DL.dissimRow, hcs])
  have hi : i = lab x := by
    have := hlab [x]
    simp only [DL.kmPredict, List.mapM_cons, List.mapM_nil, h1, List.map_cons, List.map_nil] at this
    injection this with this
    exact (List.cons.inj this).1
  subst hi
  unfold DL.dissimRow at h2 h3 h4
  rw [List.getElem?_map, Option.map_eq_some_iff] at h2
  obtain ⟨c, hc, rfl⟩ := h2
  refine ⟨c, hc, fun c' hc' => ?_, fun j c' hj hc' => ?_⟩
  · have := h3 _ (List.mem_map.2 ⟨c', hc', rfl⟩)
    linarith
  · have := h4 j (1 / 2 * (1 - DL.cosine sqrt e x c')) hj (by rw [List.getElem?_map, hc']; rfl)
    linarith

example : DL.kmPredict (fun v : ℚ => v) 1 [![1, 0], ![0, 1], ![0, 1]] [![0, 2], ![3, 0], ![-1, -1]] = .ok [1, 0, 0] := by
  decide +kernel

/-- C88. A target row is kept when one of its similarities exceeds `1 - 2 * distance_threshold`. -/
theorem C88_kept [IsStrictOrderedRing K] (sqrt : K → K) (e thr : K) (cs : List (Fin d → K)) (hd : 0 < d) (x : Fin d → K) :
    DL.keptRow sqrt e thr cs x = true ↔
      ∃ j : Fin d, 1 - 2 * thr < DL.cosine sqrt e (fun _ : Fin cs.length => x j) (fun k => cs[k] j) := by
  have hmax : ∀ (l : List K) (a t : K), t < l.foldl max a ↔ t < a ∨ ∃ b ∈ l, t < b := by
    intro l
    induction l with
    | nil => simp
    | cons b l ih =>
      intro a t
      simp only [List.foldl_cons, ih, lt_max_iff, List.mem_cons, exists_eq_or_imp, or_assoc]
  have hrow : ∀ t, t < DL.maxOf (DL.similarityRow sqrt e cs x) ↔ ∃ b ∈ DL.similarityRow sqrt e cs x, t < b := by
    intro t
    have hne : DL.similarityRow sqrt e cs x ≠ [] := by
      simp [DL.similarityRow, List.finRange_eq_nil_iff, hd.ne']
    cases hr : DL.similarityRow sqrt e cs x with
    | nil => exact absurd hr hne
    | cons a l => simp [DL.maxOf, hmax]
  unfold DL.keptRow
  rw [decide_eq_true_eq, show (1 / 2 * (1 - DL.maxOf (DL.similarityRow sqrt e cs x)) < thr) ↔
    1 - 2 * thr < DL.maxOf (DL.similarityRow sqrt e cs x) by constructor <;> intro h <;> linarith, hrow]
  simp [DL.similarityRow]

/-- C88.  Target rows that are discarded have no influence: inserting such a row anywhere in the batch does not change the loss. -/
theorem C88_discarded (sqrt ex : K → K) (pow2 : Nat → K) (e eps thr : K) (classThr : Nat) (sigmas : Option (List K)) (cs : List (Fin d → K))
    (hcs : cs ≠ []) (ys : List Int) (Xs A B : List (Fin d → K)) (x : Fin d → K) (hx : DL.keptRow sqrt e thr cs x = false) :
    DL.cdd sqrt ex pow2 e eps thr classThr sigmas (some cs) ys Xs (A ++ x :: B) =
      DL.cdd sqrt ex pow2 e eps thr classThr sigmas (some cs) ys Xs (A ++ B) := by
  obtain ⟨lab, hlab⟩ := DL.exists_label sqrt e cs hcs
  rcases Nat.eq_zero_or_pos d with h0 | hd
  · unfold DL.cdd; simp only [hlab, ok_bind, if_pos h0]
  rw [DL.cdd_eq sqrt ex pow2 e eps thr classThr sigmas cs hd lab hlab, DL.cdd_eq sqrt ex pow2 e eps thr classThr sigmas cs hd lab hlab]
  simp only [List.filter_append, List.filter_cons, hx, Bool.false_eq_true, if_false]

/-- With the two opposite centres `(1)`, `(-1)` every row is discarded at threshold 1/2, so the batch `[3]` gives the loss of the empty batch. -/
example : DL.keptRow (fun x : ℚ => x) (1 / 10 ^ 8) (1 / 2) [![1], ![-1]] ![3] = false := by decide +kernel

namespace DL

theorem foldl_max_perm {l l' : List Nat} (h : l.Perm l') (a : Nat) : l.foldl max a = l'.foldl max a := by
  induction h generalizing a with
  | nil => rfl
  | cons x _ ih => exact ih _
  | swap x y l => simp only [List.foldl_cons]; congr 1; omega
  | trans _ _ ih1 ih2 => exact (ih1 a).trans (ih2 a)

theorem bincount_perm {l l' : List Nat} (h : l.Perm l') (m : Nat) : bincount l m = bincount l' m := by
  unfold bincount
  rw [foldl_max_perm (h.map (· + 1))]
  exact List.map_congr_left fun c _ => h.count_eq c

omit [LinearOrder K] in
theorem selfTerm_perm (k : (Fin d → K) → (Fin d → K) → K) {β : Type} [DecidableEq β] {S S' : List ((Fin d → K) × β)} (h : S.Perm S') (c : β) :
    selfTerm k (S.map Prod.fst) (S.map Prod.snd) c = selfTerm k (S'.map Prod.fst) (S'.map Prod.snd) c := by
  have hz : ∀ T : List ((Fin d → K) × β), (T.map Prod.fst).zip (T.map Prod.snd) = T := fun T => by
    induction T with
    | nil => rfl
    | cons p T ih => simp [ih]
  unfold selfTerm
  rw [(h.map Prod.snd).count_eq c, hz, hz]
  split_ifs
  · congr 1
    have hin : ∀ x, (S.map (fun p => k x p.1 * (if p.2 = c then 1 else 0))).sum = (S'.map (fun p => k x p.1 * (if p.2 = c then 1 else 0))).sum :=
      fun x => (h.map _).sum_eq
    simp only [hin]
    exact ((h.map Prod.fst).map _).sum_eq
  · rfl

omit [LinearOrder K] in
theorem crossTerm_perm (k : (Fin d → K) → (Fin d → K) → K) {S S' : List ((Fin d → K) × Int)} {T T' : List ((Fin d → K) × Nat)} (h : S.Perm S')
    (ht : T.Perm T') (c1 c2 : Nat) :
    crossTerm k (S.map Prod.fst) (S.map Prod.snd) (T.map Prod.fst) (T.map Prod.snd) c1 c2 =
      crossTerm k (S'.map Prod.fst) (S'.map Prod.snd) (T'.map Prod.fst) (T'.map Prod.snd) c1 c2 := by
  have hz : ∀ {β : Type} (T : List ((Fin d → K) × β)), (T.map Prod.fst).zip (T.map Prod.snd) = T := fun T => by
    induction T with
    | nil => rfl
    | cons p T ih => simp [ih]
  unfold crossTerm
  rw [(h.map Prod.snd).count_eq, (ht.map Prod.snd).count_eq, hz, hz, hz, hz]
  split_ifs
  · congr 1
    have hin : ∀ p : (Fin d → K) × Int, (T.map (fun q => k p.1 q.1 * ((if p.2 = (c1 : Int) then 1 else 0) * (if q.2 = c2 then 1 else 0)))).sum =
        (T'.map (fun q => k p.1 q.1 * ((if p.2 = (c1 : Int) then 1 else 0) * (if q.2 = c2 then 1 else 0)))).sum :=
      fun p => (ht.map _).sum_eq
    simp only [hin]
    exact (h.map _).sum_eq
  · rfl

end DL

/-- C88.  For given bandwidths the loss does not depend on the order of the source samples (row and label together) nor on the order of the
target rows. -/
theorem C88_order (sqrt ex : K → K) (pow2 : Nat → K) (e eps thr : K) (classThr : Nat) (sg : List K) (cs : List (Fin d → K)) (hcs : cs ≠ [])
    (S S' : List ((Fin d → K) × Int)) (hS : S.Perm S') (Xt Xt' : List (Fin d → K)) (hT : Xt.Perm Xt') :
    DL.cdd sqrt ex pow2 e eps thr classThr (some sg) (some cs) (S.map Prod.snd) (S.map Prod.fst) Xt =
      DL.cdd sqrt ex pow2 e eps thr classThr (some sg) (some cs) (S'.map Prod.snd) (S'.map Prod.fst) Xt' := by
  obtain ⟨lab, hlab⟩ := DL.exists_label sqrt e cs hcs
  rcases Nat.eq_zero_or_pos d with h0 | hd
  · unfold DL.cdd; simp only [hlab, ok_bind, if_pos h0]
  rw [DL.cdd_eq sqrt ex pow2 e eps thr classThr (some sg) cs hd lab hlab, DL.cdd_eq sqrt ex pow2 e eps thr classThr (some sg) cs hd lab hlab]
  have hu : (unique (S.map Prod.snd)).length = (unique (S'.map Prod.snd)).length :=
    ((List.perm_ext_iff_of_nodup (nodup_unique _) (nodup_unique _)).2 fun a => by
      rw [mem_unique, mem_unique]; exact (hS.map Prod.snd).mem_iff).length_eq
  have hk := hT.filter (DL.keptRow sqrt e thr cs)
  have hc := DL.bincount_perm (hk.map lab) (unique (S'.map Prod.snd)).length
  simp only [hu, hc, Option.getD_some]
  have hk2 := hk.filter (fun x => decide (classThr ≤ (DL.bincount ((Xt'.filter (DL.keptRow sqrt e thr cs)).map lab)
    (unique (S'.map Prod.snd)).length).getD (lab x) 0))
  have hpair : ∀ Z : List (Fin d → K), Z = (Z.map (fun x => (x, lab x))).map Prod.fst ∧ Z.map lab = (Z.map (fun x => (x, lab x))).map Prod.snd :=
    fun Z => ⟨by simp [Function.comp_def], by simp [Function.comp_def]⟩
  set Z := (Xt.filter (DL.keptRow sqrt e thr cs)).filter (fun x => decide (classThr ≤ (DL.bincount
    ((Xt'.filter (DL.keptRow sqrt e thr cs)).map lab) (unique (S'.map Prod.snd)).length).getD (lab x) 0)) with hZ
  set Z' := (Xt'.filter (DL.keptRow sqrt e thr cs)).filter (fun x => decide (classThr ≤ (DL.bincount
    ((Xt'.filter (DL.keptRow sqrt e thr cs)).map lab) (unique (S'.map Prod.snd)).length).getD (lab x) 0)) with hZ'
  have hp : ∀ c1 c2, DL.pairTerm (DL.kernel sqrt ex sg) (S.map Prod.fst) (S.map Prod.snd) Z (Z.map lab) c1 c2 =
      DL.pairTerm (DL.kernel sqrt ex sg) (S'.map Prod.fst) (S'.map Prod.snd) Z' (Z'.map lab) c1 c2 := by
    intro c1 c2
    have hq := hk2.map (fun x => (x, lab x))
    unfold DL.pairTerm
    rw [DL.selfTerm_perm _ hS]
    have e1 := DL.selfTerm_perm (DL.kernel sqrt ex sg) hq c2
    have e2 := DL.crossTerm_perm (DL.kernel sqrt ex sg) hS hq c1 c2
    rw [← (hpair Z).1, ← (hpair Z).2, ← (hpair Z').1, ← (hpair Z').2] at e1 e2
    rw [e1, e2]
  unfold DL.cddCombine
  simp only [hp]

end Rows

/-- C88.  Whether a target row is kept depends only on the signs of its features: the similarity is taken along the axis of the centres.
(Features are either zero or not negligible against torch's clamp `e`.) -/
theorem C88_kept_signs (e thr : ℝ) (he : 0 < e) (cs : List (Fin d → ℝ)) (hcs : cs ≠ []) (x x' : Fin d → ℝ)
    (hsign : ∀ j, SignType.sign (x j) = SignType.sign (x' j))
    (hx : ∀ j, x j = 0 ∨ e ≤ |x j|) (hx' : ∀ j, x' j = 0 ∨ e ≤ |x' j|) :
    DL.keptRow Real.sqrt e thr cs x = DL.keptRow Real.sqrt e thr cs x' := by
  have hn : (1 : ℝ) ≤ cs.length := by exact_mod_cast List.length_pos_iff.2 hcs
  have hrow : ∀ (z : Fin d → ℝ), (∀ j, z j = 0 ∨ e ≤ |z j|) → ∀ j,
      DL.cosine Real.sqrt e (fun _ : Fin cs.length => z j) (fun k => cs[k] j) =
        (SignType.sign (z j) : ℝ) * ((∑ k : Fin cs.length, cs[k] j) /
          (Real.sqrt cs.length * max (Real.sqrt (∑ k : Fin cs.length, cs[k] j ^ 2)) e)) := by
    intro z hz j
    unfold DL.cosine
    rw [← Finset.mul_sum, Finset.sum_const, Finset.card_univ, Fintype.card_fin, nsmul_eq_mul, Real.sqrt_mul (by positivity),
      Real.sqrt_sq_eq_abs]
    rcases hz j with h0 | h0
    · rw [h0]; simp
    · have hs1 : 1 ≤ Real.sqrt cs.length := by rw [← Real.sqrt_one]; exact Real.sqrt_le_sqrt hn
      have hge : e ≤ Real.sqrt cs.length * |z j| := h0.trans (le_mul_of_one_le_left (abs_nonneg _) hs1)
      rw [max_eq_left hge]
      have hz0 : z j ≠ 0 := by
        intro h; rw [h, abs_zero] at h0; linarith
      have habs : |z j| ≠ 0 := abs_ne_zero.2 hz0
      have hm : 0 < max (Real.sqrt (∑ k : Fin cs.length, cs[k] j ^ 2)) e := lt_max_of_lt_right he
      have hs : (SignType.sign (z j) : ℝ) = z j / |z j| := by
        rw [eq_div_iff habs]; exact sign_mul_abs (z j)
      rw [hs]
      field_simp
  have hsim : DL.similarityRow Real.sqrt e cs x = DL.similarityRow Real.sqrt e cs x' := by
    unfold DL.similarityRow
    refine List.map_congr_left fun j _ => ?_
    rw [hrow x hx j, hrow x' hx' j, hsign j]
  unfold DL.keptRow
  rw [hsim]

/-- The rows `(1, -1)` and `(100, -1)` point in quite different directions but have the same signs. -/
example : DL.keptRow Real.sqrt (1 / 10 ^ 8) (1 / 2) [![1, 0], ![1, 3]] ![1, -1] =
    DL.keptRow Real.sqrt (1 / 10 ^ 8) (1 / 2) [![1, 0], ![1, 3]] ![100, -1] := by
  refine C88_kept_signs _ _ (by positivity) _ (by simp) _ _ ?_ ?_ ?_ <;> intro j <;> fin_cases j
  · simp [sign_pos]
  · simp
  · right; norm_num
  · right; norm_num
  · right; norm_num
  · right; norm_num

/-- C88.  With two opposite centres every target row is discarded at the default threshold, even a row equal to a centre, whose angular
dissimilarity to it is 0. -/
theorem C88_discard_counterexample :
    ∃ (cs : List (Fin 2 → ℝ)) (x : Fin 2 → ℝ), x ∈ cs ∧ (0 : ℝ) ∈ DL.dissimRow Real.sqrt (1 / 10 ^ 8) cs x ∧
      ∀ z, DL.keptRow Real.sqrt (1 / 10 ^ 8) (1 / 2) cs z = false := by
  refine ⟨[![1, 0], ![-1, 0]], ![1, 0], by simp, ?_, ?_⟩
  · have h : max (1 : ℝ) (10 ^ 8)⁻¹ = 1 := max_eq_left (by norm_num)
    simp [DL.dissimRow, DL.cosine, Fin.sum_univ_two, h]
  · intro z
    simp [DL.keptRow, DL.similarityRow, DL.cosine, DL.maxOf, Fin.sum_univ_two, List.finRange_succ]

/-- C88.  Without a fitted clustering the loss raises `ValueError`; a source batch with a single class (and clusters of that class only)
raises `ZeroDivisionError`. -/
theorem C88_errors {K : Type} [Field K] [LinearOrder K] (sqrt ex : K → K) (pow2 : Nat → K) (e eps thr : K) (classThr : Nat)
    (sigmas : Option (List K)) (cs : List (Fin d → K)) (ys : List Int) (Xs Xt : List (Fin d → K)) :
    DL.cdd sqrt ex pow2 e eps thr classThr sigmas none ys Xs Xt = .error .valueError ∧
      (0 < d → cs.length = 1 → (∀ y ∈ ys, ∀ z ∈ ys, y = z) →
        DL.cdd sqrt ex pow2 e eps thr classThr sigmas (some cs) ys Xs Xt = .error .zeroDivisionError) := by
  refine ⟨rfl, fun hd hc hone => ?_⟩
  obtain ⟨c, rfl⟩ := List.length_eq_one_iff.1 hc
  have hlab : ∀ X : List (Fin d → K), DL.kmPredict sqrt e [c] X = .ok (X.map (fun _ => 0)) := fun X => mapM_ok fun x _ => by
    obtain ⟨i, y, hi, hy, _⟩ := argmin_spec (l := DL.dissimRow sqrt e [c] x) (by simp [DL.dissimRow])
    have : i = 0 := by
      by_contra h
      rw [List.getElem?_eq_none (by simp [DL.dissimRow]; omega)] at hy
      exact absurd hy (by simp)
    rw [hi, this]
  rw [DL.cdd_eq sqrt ex pow2 e eps thr classThr sigmas [c] hd _ hlab]
  have hn : (unique ys).length ≤ 1 := by
    by_contra h
    obtain ⟨x, hx, y, hy, hxy⟩ := one_lt_length_unique.1 (not_le.1 h)
    exact hxy (hone x hx y hy)
  have hfold : ∀ l : List (Fin d → K), ((l.map (fun _ => 0)).map (· + 1)).foldl max 0 ≤ 1 := by
    have : ∀ (l : List Nat) (a : Nat), (∀ x ∈ l, x ≤ 1) → a ≤ 1 → l.foldl max a ≤ 1 := by
      intro l
      induction l with
      | nil => intro a _ ha; exact ha
      | cons x l ih => intro a hl ha; exact ih _ (fun y hy => hl y (List.mem_cons_of_mem _ hy)) (max_le ha (hl x List.mem_cons_self))
    intro l
    refine this _ _ ?_ (by omega)
    intro v hv
    simp only [List.mem_map] at hv
    obtain ⟨_, ⟨_, _, rfl⟩, rfl⟩ := hv
    rfl
  simp only [DL.cddCombine]
  rw [if_pos]
  have hb : (DL.bincount ((Xt.filter (DL.keptRow sqrt e thr [c])).map (fun _ => 0)) (unique ys).length).length ≤ 1 := by
    simp only [DL.bincount, List.length_map, List.length_range]
    exact max_le hn (by simpa using hfold (Xt.filter (DL.keptRow sqrt e thr [c])))
  interval_cases (DL.bincount ((Xt.filter (DL.keptRow sqrt e thr [c])).map (fun _ => 0)) (unique ys).length).length <;> rfl

end Cdd

end Skada

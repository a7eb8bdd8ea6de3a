/-
C86: the Deep CORAL loss.
-/
import Verif.Model.DeepLosses
import Mathlib.Tactic.FieldSimp
import Mathlib.Tactic.Ring
import Mathlib.Tactic.Positivity
import Mathlib.Tactic.Linarith
import Mathlib.Algebra.Order.BigOperators.Ring.Finset

namespace Skada

namespace Spec

/-- Mean of coordinate `j` over the rows. -/
def colAvg {K : Type} [Field K] {d : Nat} (X : List (Fin d → K)) (j : Fin d) : K := (X.map (fun x => x j)).sum / (X.length : K)

/-- Unbiased sample covariance of coordinates `j` and `k`. -/
def sampleCov {K : Type} [Field K] {d : Nat} (X : List (Fin d → K)) (j k : Fin d) : K :=
  (X.map (fun x => (x j - colAvg X j) * (x k - colAvg X k))).sum / ((X.length : K) - 1)

/-- Second moments about zero, with the same normalisation. -/
def moment {K : Type} [Field K] {d : Nat} (X : List (Fin d → K)) (j k : Fin d) : K :=
  (X.map (fun x => x j * x k)).sum / ((X.length : K) - 1)

end Spec

open Spec

section Coral
set_option linter.unusedSectionVars false
variable {K : Type} [Field K] [LinearOrder K] [IsStrictOrderedRing K] {d : Nat}

namespace DL

theorem colMean_eq (X : List (Fin d → K)) : colMean X = colAvg X := by
  funext j; simp [colMean, mean, colAvg]

theorem sum_map_sub_const {α : Type} (l : List α) (f : α → K) (a : K) :
    (l.map (fun x => f x - a)).sum = (l.map f).sum - (l.length : K) * a := by
  induction l with
  | nil => simp
  | cons x l ih => simp only [List.map_cons, List.sum_cons, ih, List.length_cons]; push_cast; ring

theorem colAvg_center (X : List (Fin d → K)) (hX : X ≠ []) (j : Fin d) : colAvg (center X) j = 0 := by
  have hn : (X.length : K) ≠ 0 := by exact_mod_cast (List.length_pos_iff.2 hX).ne'
  have h : colAvg (center X) j = ((X.map (fun x => x j - colAvg X j)).sum) / (X.length : K) := by
    simp [colAvg, center, colMean, mean, List.map_map, Function.comp_def]
  rw [h, sum_map_sub_const X (fun x => x j) (colAvg X j)]
  unfold colAvg
  field_simp
  ring

theorem center_center (X : List (Fin d → K)) : center (center X) = center X := by
  rcases eq_or_ne X [] with rfl | hX
  · rfl
  have h : colMean (center X) = 0 := by
    funext j; rw [colMean_eq, colAvg_center X hX j]; rfl
  conv_lhs => rw [center, h]
  simp

theorem torchCov_center (X : List (Fin d → K)) : torchCov (center X) = torchCov X := by
  unfold torchCov
  rw [center_center]
  simp [center]

theorem torchCov_some (X : List (Fin d → K)) (h : 2 ≤ X.length) : torchCov X = some (sampleCov X) := by
  unfold torchCov
  rw [if_neg (by omega)]
  congr 1
  funext j k
  unfold sampleCov
  rw [Nat.cast_sub (by omega), Nat.cast_one]
  simp only [center, List.map_map, Function.comp_def, Pi.sub_apply, colMean_eq]

theorem torchCov_none (X : List (Fin d → K)) (h : X.length ≤ 1) : torchCov X = none := if_pos h

theorem deepcoral_eq (ac : Bool) (Xs Xt : List (Fin d → K)) (hd : 0 < d) :
    deepcoral ac Xs Xt = .ok (match torchCov Xs, torchCov Xt with
      | some C, some D => some (1 / (4 * (d : K) ^ 2) * ∑ j, ∑ k, (C j k - D j k) ^ 2)
      | _, _ => none) := by
  unfold deepcoral
  rw [if_neg hd.ne']
  cases ac <;> simp only [Bool.false_eq_true, if_false, if_true, torchCov_center] <;> rfl

end DL

/-- C86.  For at least two rows on each side the Deep CORAL loss is the squared Frobenius distance of the two unbiased sample covariance
matrices divided by four times the squared number of features; it is non-negative, symmetric in the two batches, and zero exactly when the
covariances agree. -/
theorem C86_coral (ac : Bool) (Xs Xt : List (Fin d → K)) (hd : 0 < d) (hs : 2 ≤ Xs.length) (ht : 2 ≤ Xt.length) :
    ∃ v : K, DL.deepcoral ac Xs Xt = .ok (some v) ∧ DL.deepcoral ac Xt Xs = .ok (some v) ∧
      4 * (d : K) ^ 2 * v = ∑ j, ∑ k, (sampleCov Xs j k - sampleCov Xt j k) ^ 2 ∧ 0 ≤ v ∧
      (v = 0 ↔ ∀ j k, sampleCov Xs j k = sampleCov Xt j k) := by
  have hd0 : (0 : K) < (d : K) := by exact_mod_cast hd
  refine ⟨1 / (4 * (d : K) ^ 2) * ∑ j, ∑ k, (sampleCov Xs j k - sampleCov Xt j k) ^ 2, ?_, ?_, ?_, ?_, ?_⟩
  · rw [DL.deepcoral_eq ac Xs Xt hd, DL.torchCov_some Xs hs, DL.torchCov_some Xt ht]
  · rw [DL.deepcoral_eq ac Xt Xs hd, DL.torchCov_some Xs hs, DL.torchCov_some Xt ht]
    simp only
    congr 3
    exact Finset.sum_congr rfl fun j _ => Finset.sum_congr rfl fun k _ => by ring
  · field_simp
  · have : 0 ≤ ∑ j, ∑ k, (sampleCov Xs j k - sampleCov Xt j k) ^ 2 :=
      Finset.sum_nonneg fun j _ => Finset.sum_nonneg fun k _ => sq_nonneg _
    positivity
  · constructor
    · intro h j k
      have h0 : ∑ j, ∑ k, (sampleCov Xs j k - sampleCov Xt j k) ^ 2 = 0 := by
        rcases mul_eq_zero.1 h with h1 | h1
        · have : (0 : K) < 1 / (4 * (d : K) ^ 2) := by positivity
          exact absurd h1 this.ne'
        · exact h1
      have h1 := (Finset.sum_eq_zero_iff_of_nonneg (fun j _ => Finset.sum_nonneg fun k _ => sq_nonneg _)).1 h0 j (Finset.mem_univ j)
      have h2 := (Finset.sum_eq_zero_iff_of_nonneg (fun k _ => sq_nonneg _)).1 h1 k (Finset.mem_univ k)
      exact sub_eq_zero.1 (pow_eq_zero_iff (two_ne_zero) |>.1 h2)
    · intro h
      simp [h]

/-- Two batches of two rows with variances 2 and 8 in one feature: the loss is `(2 - 8)² / 4 = 9`. -/
example : DL.deepcoral false [![(0 : ℚ)], ![2]] [![1], ![5]] = .ok (some 9) := by decide +kernel

/-- C86.  The loss does not change when the rows of either batch are reordered, nor when a constant vector is added to all rows of either
batch. -/
theorem C86_invariant (ac : Bool) (Xs Xt Xs' Xt' : List (Fin d → K)) (a b : Fin d → K) (hs : Xs'.Perm (Xs.map (fun x => x + a)))
    (ht : Xt'.Perm (Xt.map (fun x => x + b))) : DL.deepcoral ac Xs' Xt' = DL.deepcoral ac Xs Xt := by
  rcases Nat.eq_zero_or_pos d with h0 | hd
  · unfold DL.deepcoral; simp only [if_pos h0]
  have key : ∀ (X X' : List (Fin d → K)) (a : Fin d → K), X'.Perm (X.map (fun x => x + a)) → DL.torchCov X' = DL.torchCov X := by
    intro X X' a hp
    have hl : X'.length = X.length := by rw [hp.length_eq, List.length_map]
    rcases Nat.lt_or_ge X.length 2 with h | h
    · rw [DL.torchCov_none X (by omega), DL.torchCov_none X' (by omega)]
    · rw [DL.torchCov_some X h, DL.torchCov_some X' (by omega)]
      have hn : (X.length : K) ≠ 0 := by
        have : 0 < X.length := by omega
        exact_mod_cast this.ne'
      have hm : ∀ j, colAvg X' j = colAvg X j + a j := by
        intro j
        unfold colAvg
        rw [hl, (hp.map (fun x => x j)).sum_eq, List.map_map]
        have : (X.map ((fun x => x j) ∘ fun x => x + a)).sum = (X.map (fun x => x j)).sum + (X.length : K) * a j := by
          simp [Function.comp_def, List.sum_map_add]
        rw [this]
        field_simp
      congr 1
      funext j k
      unfold sampleCov
      rw [hl, (hp.map _).sum_eq, List.map_map]
      congr 3
      funext x
      simp only [Function.comp_def, Pi.add_apply, hm]
      ring
  rw [DL.deepcoral_eq ac Xs Xt hd, DL.deepcoral_eq ac Xs' Xt' hd, key Xs Xs' a hs, key Xt Xt' b ht]

/-- C86.  `assume_centered` changes nothing: `torch.cov` centres its input in any case.  The documented meaning ("If True, data are not
centered before computation") does not hold, see `C86_centered_counterexample`. -/
theorem C86_flag (Xs Xt : List (Fin d → K)) : DL.deepcoral true Xs Xt = DL.deepcoral false Xs Xt := by
  rcases Nat.eq_zero_or_pos d with h0 | hd
  · unfold DL.deepcoral; simp only [if_pos h0]
  · rw [DL.deepcoral_eq true Xs Xt hd, DL.deepcoral_eq false Xs Xt hd]

/-- C86.  With `assume_centered=True` the loss is 0 on batches whose uncentred second moments differ. -/
theorem C86_centered_counterexample :
    ∃ Xs Xt : List (Fin 1 → ℚ), DL.deepcoral true Xs Xt = .ok (some 0) ∧
      ∑ j, ∑ k, (moment Xs j k - moment Xt j k) ^ 2 ≠ 0 :=
  ⟨[![0], ![2]], [![10], ![12]], by decide +kernel, by decide +kernel⟩

/-- C86.  A batch with a single row gives NaN, features without columns a `ZeroDivisionError`. -/
theorem C86_errors (ac : Bool) (Xs Xt : List (Fin d → K)) :
    (d = 0 → DL.deepcoral ac Xs Xt = .error .zeroDivisionError) ∧
      (0 < d → (Xs.length ≤ 1 ∨ Xt.length ≤ 1) → DL.deepcoral ac Xs Xt = .ok none) := by
  constructor
  · intro h
    unfold DL.deepcoral
    simp only [if_pos h]
  · intro hd h
    rw [DL.deepcoral_eq ac Xs Xt hd]
    rcases h with h | h
    · rw [DL.torchCov_none Xs h]
    · rw [DL.torchCov_none Xt h]
      cases DL.torchCov Xs <;> rfl

example : DL.deepcoral false [![(0 : ℚ)]] [![1], ![5]] = .ok none := by decide +kernel

end Coral

end Skada

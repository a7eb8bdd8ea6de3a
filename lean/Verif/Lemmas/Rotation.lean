/-
Lemmas for C148: arrays whose rows go through a linear map, statistics and spectral functions in other coordinates.
-/
import Verif.Props.Geometry
import Verif.Props.Mapping
import Verif.Props.Twice
import Verif.Model.DeepLosses
import Verif.Spec.Rotation
import Mathlib.LinearAlgebra.Matrix.SemiringInverse

namespace Skada
open Np Spec Map

namespace Rotation

section Arrays
variable {K : Type} [Zero K] {d e : Nat}

theorem putMask_turn {α β : Type} (g : α → β) (m : List Bool) (out vals : List α) :
    Np.putMask m (out.map g) (vals.map g) = (Np.putMask m out vals).map g := by
  induction m generalizing out vals with
  | nil => cases out <;> rfl
  | cons b m ih =>
    cases b with
    | true =>
      cases out with
      | nil => rfl
      | cons x out =>
        cases vals with
        | nil => rfl
        | cons v vals => simp [Np.putMask, ih]
    | false =>
      cases out with
      | nil => rfl
      | cons x out => simp [Np.putMask, ih]

theorem boolAssign_turn {α β : Type} (g : α → β) (out : List α) (m : List Bool) (vals : List α) :
    Np.boolAssign (out.map g) m (vals.map g) = (Np.boolAssign out m vals).map (List.map g) := by
  unfold Np.boolAssign
  simp only [List.length_map]
  by_cases h : out.length ≠ m.length
  · simp only [if_pos h]; rfl
  · simp only [if_neg h]
    by_cases h2 : vals.length = m.count true
    · simp only [if_pos h2, putMask_turn]; rfl
    · simp only [if_neg h2]
      match vals with
      | [] => rfl
      | [v] => simp only [List.map_cons, List.map_nil]; rw [← List.map_replicate, putMask_turn]; rfl
      | _ :: _ :: _ => rfl

theorem mergeArrays_turn (g : (Fin d → K) → (Fin e → K)) (h0 : g (fun _ => 0) = fun _ => 0) (s t : NArr (Fin d → K)) (sd : List Int) :
    mergeArrays (mapArr g s) (mapArr g t) sd = (mergeArrays s t sd).map (mapArr g) := by
  have hz : ∀ (n : Nat) (tl : List Nat), List.replicate n (Cell.zero tl : Fin e → K) = (List.replicate n (Cell.zero tl : Fin d → K)).map g := by
    intro n tl; rw [List.map_replicate]; exact congrArg _ h0.symm
  have hc : ∀ (t : DType) (l : List (Fin d → K)), (l.map g).map (Cell.cast t) = (l.map (Cell.cast t)).map g := by
    intro t l; rw [List.map_map, List.map_map]; rfl
  unfold mergeArrays
  simp only [mapArr, List.length_map, ne_eq, List.map_eq_nil_iff, hz, hc, boolAssign_turn]
  split
  · rcases Np.boolAssign _ _ _ with e | o
    · rfl
    · simp only [Except.map, boolAssign_turn]
      rcases Np.boolAssign _ _ _ with e | o <;> rfl
  · split
    · rcases Np.boolAssign _ _ _ with e | o <;> rfl
    · rcases Np.boolAssign _ _ _ with e | o <;> rfl

omit [Zero K] in
theorem normArr_turn (g : (Fin d → K) → (Fin e → K)) (s : NArr (Fin d → K)) : normArr (some (mapArr g s)) = mapArr g (normArr (some s)) := by
  simp only [normArr, mapArr, List.map_eq_nil_iff]
  split <;> rfl

theorem filler_turn (g : (Fin d → K) → (Fin e → K)) (h0 : g (fun _ => 0) = fun _ => 0) (p : NArr (Fin d → K)) (k : Nat) :
    filler (mapArr g p) k = (filler p k).map (mapArr g) := by
  have : g (fun _ => 0) = fun _ => 0 := h0
  simp only [filler, mapArr, Cell.yType, Cell.const, Except.map, List.map_replicate, this]

theorem fillPair_turn (g : (Fin d → K) → (Fin e → K)) (h0 : g (fun _ => 0) = fun _ => 0) (p : NArr (Fin d → K) × NArr (Fin d → K)) (n : Nat) :
    fillPair (mapArr g p.1, mapArr g p.2) n = (fillPair p n).map (fun q => (mapArr g q.1, mapArr g q.2)) := by
  have hl : ∀ a : NArr (Fin d → K), (mapArr g a).rows.length = a.rows.length := fun a => by simp [mapArr]
  have hn : ∀ a : NArr (Fin d → K), ((mapArr g a).rows = []) = (a.rows = []) := fun a => by simp [mapArr]
  unfold fillPair
  simp only [hl, hn, filler_turn g h0]
  split
  · split
    · rcases filler _ _ with e | f <;> rfl
    · rfl
  · split
    · split
      · rcases filler _ _ with e | f <;> rfl
      · rfl
    · rfl

theorem mergeN_turn (g : (Fin d → K) → (Fin e → K)) (h0 : g (fun _ => 0) = fun _ => 0) (s t : NArr (Fin d → K)) (sd : List Int) :
    mergeN (mapArr g s) (mapArr g t) sd = (mergeN s t sd).map (mapArr g) := by
  have hl : ∀ a : NArr (Fin d → K), (mapArr g a).rows.length = a.rows.length := fun a => by simp [mapArr]
  have hn : ∀ a : NArr (Fin d → K), ((mapArr g a).rows = []) = (a.rows = []) := fun a => by simp [mapArr]
  have ht : ∀ a : NArr (Fin d → K), (mapArr g a).tail = a.tail := fun a => rfl
  have hp : ∀ (l : List Int) (p : NArr (Fin d → K) × NArr (Fin d → K)),
      mergePair l (mapArr g p.1, mapArr g p.2) = (mergePair l p).map (mapArr g) := by
    intro l p
    unfold mergePair
    rw [fillPair_turn g h0]
    rcases fillPair p l.length with e | q
    · rfl
    · simp only [Except.map, hl, mergeArrays_turn g h0]
      split <;> rfl
  unfold mergeN sourceTargetMerge
  simp only [pairUp, List.mapM_cons, List.mapM_nil, checkPair, normArr_turn, ne_eq, hn, ht, List.length_cons, List.length_nil]
  by_cases h1 : (normArr (some s)).rows = [] ∧ (normArr (some t)).rows = []
  · simp only [if_pos h1]; rfl
  · simp only [if_neg h1]
    by_cases h2 : ¬ (normArr (some s)).rows = [] ∧ ¬ (normArr (some t)).rows = [] ∧ ¬ (normArr (some s)).tail = (normArr (some t)).tail
    · simp only [if_pos h2]; rfl
    · simp only [if_neg h2, bind, Except.bind, pure, Except.pure, inferDomain, hl, List.mapM_cons, List.mapM_nil]
      rcases extractSourceIndices _ with e | m
      · rfl
      · simp only [hp _ (normArr (some s), normArr (some t))]
        rcases mergePair _ (normArr (some s), normArr (some t)) with e | o <;> rfl

theorem splitN_turn {α β : Type} (g : α → β) (X : NArr α) (sd : List Int) :
    splitN (mapArr g X) sd = (splitN X sd).map (fun r => (mapArr g r.1, mapArr g r.2)) := by
  unfold splitN
  simp only [mapArr, RW.splitX_map]
  rcases RW.splitX X.rows sd with e | ⟨a, b⟩ <;> rfl

end Arrays

section Statistics
open Matrix
variable {K : Type} [Field K] {d : Nat} {Q : Matrix (Fin d) (Fin d) K}

theorem turn_zero (Q : Matrix (Fin d) (Fin d) K) : turn Q (fun _ => 0) = fun _ => 0 := by
  have : (fun _ => 0 : Fin d → K) = 0 := rfl
  rw [this]; exact Matrix.zero_vecMul Q

theorem turn_sub (Q : Matrix (Fin d) (Fin d) K) (x y : Fin d → K) : turn Q (x - y) = turn Q x - turn Q y := Matrix.sub_vecMul Q x y

theorem transpose_mul (h : IsTurn Q) : Q.transpose * Q = 1 := mul_eq_one_comm.1 h

theorem dot_turn (h : IsTurn Q) (x y : Fin d → K) : turn Q x ⬝ᵥ turn Q y = x ⬝ᵥ y := by
  have h' : Q * Q.transpose = 1 := h
  rw [turn, turn, ← Matrix.mulVec_transpose Q y, Matrix.dotProduct_mulVec, Matrix.vecMul_vecMul, h', Matrix.vecMul_one]

theorem sum_turn (Q : Matrix (Fin d) (Fin d) K) (X : List (Fin d → K)) (j : Fin d) :
    ((X.map (turn Q)).map (fun x => x j)).sum = ∑ k, (X.map (fun x => x k)).sum * Q k j := by
  induction X with
  | nil => simp
  | cons x X ih =>
    simp only [List.map_cons, List.sum_cons, ih, add_mul, Finset.sum_add_distrib]
    rfl

theorem colMean_turn (Q : Matrix (Fin d) (Fin d) K) (X : List (Fin d → K)) : Map.colMean (X.map (turn Q)) = turn Q (Map.colMean X) := by
  funext j
  simp only [Map.colMean, sum_turn, List.length_map, turn, Matrix.vecMul, dotProduct]
  rw [Finset.sum_div]
  refine Finset.sum_congr rfl fun k _ => ?_
  ring

/-- The sum of the products of two features. -/
def scatter (X : List (Fin d → K)) : Matrix (Fin d) (Fin d) K := Matrix.of fun i j => (X.map (fun x => x i * x j)).sum

theorem scatter_turn (Q : Matrix (Fin d) (Fin d) K) (X : List (Fin d → K)) : scatter (X.map (turn Q)) = Q.transpose * scatter X * Q := by
  induction X with
  | nil => ext i j; simp [scatter, Matrix.mul_apply]
  | cons x X ih =>
    have hc : ∀ (x : Fin d → K) X, scatter (x :: X) = Matrix.vecMulVec x x + scatter X := by
      intro x X; ext i j; simp [scatter, Matrix.vecMulVec_apply]
    rw [List.map_cons, hc, hc, ih, Matrix.mul_add, Matrix.add_mul]
    congr 1
    rw [Matrix.mul_vecMulVec, Matrix.vecMulVec_mul, Matrix.mulVec_transpose]
    rfl

theorem empCov_scatter (ac : Bool) (X : List (Fin d → K)) :
    empCov ac X = (1 / (X.length : K)) • scatter (X.map (fun x => x - if ac then (fun _ => 0) else Map.colMean X)) := by
  ext i j
  simp only [empCov, scatter, Matrix.of_apply, Matrix.smul_apply, List.map_map, Function.comp_def, Pi.sub_apply, smul_eq_mul]
  ring

theorem center_turn (Q : Matrix (Fin d) (Fin d) K) (X : List (Fin d → K)) (m : Fin d → K) :
    (X.map (turn Q)).map (fun x => x - turn Q m) = (X.map (fun x => x - m)).map (turn Q) := by
  simp only [List.map_map, Function.comp_def, turn_sub]

theorem empCov_turn (Q : Matrix (Fin d) (Fin d) K) (ac : Bool) (X : List (Fin d → K)) :
    empCov ac (X.map (turn Q)) = Q.transpose * empCov ac X * Q := by
  have hm : (if ac then (fun _ => 0) else Map.colMean (X.map (turn Q)) : Fin d → K) = turn Q (if ac then (fun _ => 0) else Map.colMean X) := by
    cases ac with
    | true => exact (turn_zero Q).symm
    | false => exact colMean_turn Q X
  rw [empCov_scatter, empCov_scatter, hm, center_turn, scatter_turn, List.length_map, Matrix.mul_smul, Matrix.smul_mul]

theorem trace_turn (h : IsTurn Q) (C : Matrix (Fin d) (Fin d) K) : (Q.transpose * C * Q).trace = C.trace := by
  have h' : Q * Q.transpose = 1 := h
  rw [Matrix.trace_mul_comm, ← Matrix.mul_assoc, h', Matrix.one_mul]

theorem estimateCov_turn (h : IsTurn Q) (auto : List (Fin d → K) → Matrix (Fin d) (Fin d) K)
    (hauto : ∀ X, auto (X.map (turn Q)) = Q.transpose * auto X * Q) (shrinkage : Option (Option K)) (ac : Bool) (X : List (Fin d → K)) :
    estimateCov auto shrinkage ac (X.map (turn Q)) = Q.transpose * estimateCov auto shrinkage ac X * Q := by
  have hs : ∀ (s : K) (C : Matrix (Fin d) (Fin d) K), (Matrix.of fun i j => (1 - s) * C i j + (if i = j then s * ((∑ k, C k k) / (d : K)) else 0)) =
      (1 - s) • C + (s * (C.trace / (d : K))) • (1 : Matrix (Fin d) (Fin d) K) := by
    intro s C; ext i j
    simp only [Matrix.of_apply, Matrix.add_apply, Matrix.smul_apply, smul_eq_mul, Matrix.one_apply, Matrix.trace, Matrix.diag]
    split <;> ring
  match shrinkage with
  | none => exact empCov_turn Q ac X
  | some none => exact hauto X
  | some (some s) =>
    simp only [estimateCov, hs, empCov_turn, trace_turn h, Matrix.mul_add, Matrix.add_mul, Matrix.mul_smul, Matrix.smul_mul, Matrix.mul_one,
      transpose_mul h]

/-- A function of the eigenvalues does not depend on the choice of the eigenvectors. -/
theorem spectral_unique {A B : Matrix (Fin d) (Fin d) K} {l m : Fin d → K} (hA : A * A.transpose = 1) (hB : B * B.transpose = 1)
    (h : A * Matrix.diagonal l * A.transpose = B * Matrix.diagonal m * B.transpose) (f : K → K) :
    A * Matrix.diagonal (fun i => f (l i)) * A.transpose = B * Matrix.diagonal (fun i => f (m i)) * B.transpose := by
  have hA' : A.transpose * A = 1 := mul_eq_one_comm.1 hA
  have hB' : B.transpose * B = 1 := mul_eq_one_comm.1 hB
  have h1 : Matrix.diagonal l * (A.transpose * B) = (A.transpose * B) * Matrix.diagonal m := by
    calc Matrix.diagonal l * (A.transpose * B) = A.transpose * A * Matrix.diagonal l * A.transpose * B := by
          rw [hA', Matrix.one_mul, Matrix.mul_assoc]
      _ = A.transpose * (A * Matrix.diagonal l * A.transpose) * B := by simp only [Matrix.mul_assoc]
      _ = A.transpose * B * Matrix.diagonal m * (B.transpose * B) := by rw [h]; simp only [Matrix.mul_assoc]
      _ = _ := by rw [hB', Matrix.mul_one]
  have h2 : Matrix.diagonal (fun i => f (l i)) * (A.transpose * B) = (A.transpose * B) * Matrix.diagonal (fun i => f (m i)) := by
    ext i j
    have := congrFun (congrFun h1 i) j
    rw [Matrix.diagonal_mul, Matrix.mul_diagonal] at this ⊢
    by_cases h0 : (A.transpose * B) i j = 0
    · rw [h0]; ring
    · have : l i = m j := mul_right_cancel₀ h0 (this.trans (mul_comm _ _))
      rw [this, mul_comm]
  calc A * Matrix.diagonal (fun i => f (l i)) * A.transpose
      = A * (Matrix.diagonal (fun i => f (l i)) * (A.transpose * B)) * B.transpose := by
        simp only [Matrix.mul_assoc, hB, Matrix.mul_one]
    _ = (A * A.transpose) * B * Matrix.diagonal (fun i => f (m i)) * B.transpose := by rw [h2]; simp only [Matrix.mul_assoc]
    _ = _ := by rw [hA, Matrix.one_mul]

theorem spectral_turn (h : IsTurn Q) {eigh : Matrix (Fin d) (Fin d) K → (Fin d → K) × Matrix (Fin d) (Fin d) K} {C : Matrix (Fin d) (Fin d) K}
    (h1 : Diagonalises eigh C) (h2 : Diagonalises eigh (Q.transpose * C * Q)) (f : K → K) :
    (eigh (Q.transpose * C * Q)).2 * Matrix.diagonal (fun i => f ((eigh (Q.transpose * C * Q)).1 i)) * (eigh (Q.transpose * C * Q)).2.transpose =
      Q.transpose * ((eigh C).2 * Matrix.diagonal (fun i => f ((eigh C).1 i)) * (eigh C).2.transpose) * Q := by
  obtain ⟨a1, a2⟩ := h1
  obtain ⟨b1, b2⟩ := h2
  have := spectral_unique (A := (eigh (Q.transpose * C * Q)).2) (B := Q.transpose * (eigh C).2) (m := (eigh C).1) b1
    (by rw [Matrix.transpose_mul, Matrix.transpose_transpose, Matrix.mul_assoc, ← Matrix.mul_assoc _ _ Q, a1, Matrix.one_mul, transpose_mul h])
    (by
      rw [← b2, Matrix.transpose_mul, Matrix.transpose_transpose]
      conv_lhs => rw [a2]
      simp only [Matrix.mul_assoc]) f
  rw [this, Matrix.transpose_mul, Matrix.transpose_transpose]
  simp only [Matrix.mul_assoc]

end Statistics

end Rotation
end Skada

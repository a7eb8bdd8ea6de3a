/-
C122: what transfer subspace learning optimises and what it stores.
-/
import Verif.Props.Optim
import Verif.Props.DeepMMD
import Verif.Props.Subspace
import Mathlib.LinearAlgebra.Matrix.PosDef
import Mathlib.Analysis.Matrix.Spectrum
import Mathlib.Analysis.Matrix.PosDef

namespace Skada

namespace Spec

variable {d p : Nat}

/-- Of the symmetric matrices `chol` factorises exactly the positive definite ones, as `L Lᵀ`. -/
def Cholesky (chol : Matrix (Fin p) (Fin p) ℝ → Option (Matrix (Fin p) (Fin p) ℝ)) : Prop :=
  (∀ M, M.PosDef → ∃ L, chol M = some L) ∧ ∀ M L, M.IsSymm → chol M = some L → M.PosDef ∧ L * L.transpose = M

/-- `qr W` has orthonormal columns and `W = qr W * R` for some `R`. -/
def IsQr (qr : Matrix (Fin d) (Fin p) ℝ → Matrix (Fin d) (Fin p) ℝ) : Prop :=
  ∀ W, (qr W).transpose * qr W = 1 ∧ ∃ R : Matrix (Fin p) (Fin p) ℝ, W = qr W * R

/-- Covariance of the rows (dividing by their number). -/
noncomputable def rowCov (Z : List (Fin p → ℝ)) : Matrix (Fin p) (Fin p) ℝ :=
  Matrix.of fun i j => (Z.map (fun z => (z i - (Z.map (fun z => z i)).sum / Z.length) * (z j - (Z.map (fun z => z j)).sum / Z.length))).sum
    / Z.length

/-- The covariance shrunk towards a multiple of the identity. -/
noncomputable def shrunkCov (reg : ℝ) (Z : List (Fin p → ℝ)) : Matrix (Fin p) (Fin p) ℝ :=
  (1 - reg) • rowCov Z + (reg * (rowCov Z).trace) • 1

/-- `exp (-½ √((x-y)ᵀ S⁻¹ (x-y)))`. -/
noncomputable def mahaKer (S : Matrix (Fin p) (Fin p) ℝ) (x y : Fin p → ℝ) : ℝ :=
  Real.exp (-(1 / 2) * Real.sqrt (dotProduct (x - y) (S⁻¹.mulVec (x - y))))

/-- The divergence of two projected samples: mean kernel values within the samples minus twice the mean across, each with
the kernel of the sum of the covariances of the two samples compared. -/
noncomputable def tslDiv (reg : ℝ) (Zs Zt : List (Fin p → ℝ)) : ℝ :=
  pairMean (mahaKer ((2 : ℝ) • shrunkCov reg Zs)) Zs Zs + pairMean (mahaKer ((2 : ℝ) • shrunkCov reg Zt)) Zt Zt
    - 2 * pairMean (mahaKer (shrunkCov reg Zs + shrunkCov reg Zt)) Zs Zt

/-- All rows are equal. -/
def AllEqual (Z : List (Fin p → ℝ)) : Prop := ∀ z ∈ Z, ∀ z' ∈ Z, z = z'

end Spec

open Spec Optim

namespace Optim
variable {d p : Nat}

theorem torchCov_eq (reg : ℝ) (Z : List (Fin p → ℝ)) : Subsp.torchCov reg Z = shrunkCov reg Z := rfl

theorem dist_vecMul (L : Matrix (Fin p) (Fin p) ℝ) (x y : Fin p → ℝ) :
    DL.dist Real.sqrt (Matrix.vecMul x L) (Matrix.vecMul y L) = Real.sqrt (dotProduct (x - y) ((L * L.transpose).mulVec (x - y))) := by
  unfold DL.dist
  congr 1
  rw [← Matrix.mulVec_mulVec, Matrix.dotProduct_mulVec, Matrix.mulVec_transpose]
  simp only [dotProduct, Matrix.sub_vecMul, Pi.sub_apply]
  exact Finset.sum_congr rfl fun j _ => by ring

theorem meanGauss_eq (L : Matrix (Fin p) (Fin p) ℝ) (S : Matrix (Fin p) (Fin p) ℝ) (h : L * L.transpose = S⁻¹) (A B : List (Fin p → ℝ)) :
    meanGauss Real.exp Real.sqrt L A B = pairMean (mahaKer S) A B := by
  unfold meanGauss pairMean DL.mean mahaKer
  simp only [dist_vecMul, h, List.length_map, List.length_product, Nat.cast_mul]

theorem rowCov_quad (Z : List (Fin p → ℝ)) (c : Fin p → ℝ) :
    dotProduct c ((rowCov Z).mulVec c) =
      (Z.map (fun z => (∑ i, c i * (z i - (Z.map (fun z => z i)).sum / Z.length)) ^ 2)).sum / Z.length := by
  have key : ∀ (Y : List (Fin p → ℝ)) (μ : Fin p → ℝ),
      ∑ i, c i * ∑ j, (Y.map (fun z => (z i - μ i) * (z j - μ j))).sum * c j = (Y.map (fun z => (∑ i, c i * (z i - μ i)) ^ 2)).sum := by
    intro Y μ
    induction Y with
    | nil => simp
    | cons z Y ih =>
      simp only [List.map_cons, List.sum_cons, add_mul, Finset.sum_add_distrib, mul_add]
      rw [ih]
      congr 1
      rw [sq, Finset.sum_mul_sum]
      refine Finset.sum_congr rfl fun i _ => ?_
      rw [Finset.mul_sum]
      exact Finset.sum_congr rfl fun j _ => by ring
  simp only [dotProduct, Matrix.mulVec, rowCov, Matrix.of_apply]
  rw [← key Z (fun i => (Z.map (fun z => z i)).sum / Z.length), Finset.sum_div]
  refine Finset.sum_congr rfl fun i _ => ?_
  rw [mul_div_assoc, Finset.sum_div]
  congr 1
  exact Finset.sum_congr rfl fun j _ => by ring

theorem rowCov_psd (Z : List (Fin p → ℝ)) : (rowCov Z).PosSemidef := by
  rw [Matrix.posSemidef_iff_dotProduct_mulVec]
  refine ⟨?_, fun c => ?_⟩
  · ext i j
    simp only [Matrix.conjTranspose_apply, rowCov, Matrix.of_apply, star_trivial]
    congr 2
    exact List.map_congr_left fun z _ => mul_comm _ _
  · rw [star_trivial, rowCov_quad]
    refine div_nonneg (List.sum_nonneg fun x hx => ?_) (Nat.cast_nonneg _)
    obtain ⟨z, -, rfl⟩ := List.mem_map.1 hx
    positivity

theorem rowCov_trace (Z : List (Fin p → ℝ)) :
    (rowCov Z).trace = (∑ i, (Z.map (fun z => (z i - (Z.map (fun z => z i)).sum / Z.length) ^ 2)).sum) / Z.length := by
  unfold Matrix.trace
  simp only [Matrix.diag_apply, rowCov, Matrix.of_apply]
  rw [Finset.sum_div]
  refine Finset.sum_congr rfl fun i _ => ?_
  congr 2
  exact List.map_congr_left fun z _ => by ring

theorem mean_of_const {Z : List (Fin p → ℝ)} {w : Fin p → ℝ} (hne : Z ≠ []) (h : ∀ z ∈ Z, z = w) (i : Fin p) :
    (Z.map (fun z => z i)).sum / Z.length = w i := by
  have hl : (Z.length : ℝ) ≠ 0 := by
    have := List.length_pos_iff.2 hne
    exact_mod_cast this.ne'
  have : Z.map (fun z => z i) = List.replicate Z.length (w i) := by
    rw [← List.map_const']
    exact List.map_congr_left fun z hz => by rw [h z hz]
  rw [this, List.sum_replicate, nsmul_eq_mul]
  field_simp

theorem rowCov_const {Z : List (Fin p → ℝ)} (h : AllEqual Z) : rowCov Z = 0 := by
  cases Z with
  | nil => ext i j; simp [rowCov]
  | cons w Z =>
    ext i j
    have hm := fun i => mean_of_const (Z := w :: Z) (w := w) (by simp) (fun z hz => h z hz w (by simp)) i
    simp only [rowCov, Matrix.of_apply, hm, Matrix.zero_apply]
    rw [List.sum_eq_zero, zero_div]
    intro x hx
    obtain ⟨z, hz, rfl⟩ := List.mem_map.1 hx
    rw [h z hz w (by simp)]
    ring

theorem rowCov_trace_pos {Z : List (Fin p → ℝ)} (h : ¬ AllEqual Z) : 0 < (rowCov Z).trace := by
  rw [rowCov_trace]
  unfold AllEqual at h
  push Not at h
  obtain ⟨z, hz, z', hz', hne⟩ := h
  have hl : (0 : ℝ) < Z.length := by
    have := List.length_pos_of_mem hz
    exact_mod_cast this
  refine div_pos ?_ hl
  have hnn : ∀ i : Fin p, ∀ x ∈ Z.map (fun z => (z i - (Z.map (fun z => z i)).sum / Z.length) ^ 2), (0 : ℝ) ≤ x := by
    intro i x hx
    obtain ⟨z, -, rfl⟩ := List.mem_map.1 hx
    positivity
  rcases (Finset.sum_nonneg fun i _ => List.sum_nonneg (hnn i) : (0 : ℝ) ≤ ∑ i, _).lt_or_eq with hlt | heq
  · exact hlt
  · exfalso
    apply hne
    have h0 := (Finset.sum_eq_zero_iff_of_nonneg fun i _ => List.sum_nonneg (hnn i)).1 heq.symm
    have hmem : ∀ w ∈ Z, ∀ i, w i = (Z.map (fun z => z i)).sum / Z.length := by
      intro w hw i
      have hs := h0 i (Finset.mem_univ i)
      have hle := List.single_le_sum (hnn i) _ (List.mem_map.2 ⟨w, hw, rfl⟩)
      rw [hs] at hle
      have := pow_eq_zero_iff (two_ne_zero) |>.1 (le_antisymm hle (sq_nonneg _))
      linarith
    funext i
    rw [hmem z hz i, hmem z' hz' i]

theorem shrunkCov_posDef {reg : ℝ} (h0 : 0 < reg) (h1 : reg ≤ 1) {Z : List (Fin p → ℝ)} (h : ¬ AllEqual Z) : (shrunkCov reg Z).PosDef := by
  unfold shrunkCov
  refine Matrix.PosDef.posSemidef_add ((rowCov_psd Z).smul (by linarith)) ?_
  exact Matrix.PosDef.one.smul (mul_pos h0 (rowCov_trace_pos h))

theorem shrunkCov_symm (reg : ℝ) (Z : List (Fin p → ℝ)) : (shrunkCov reg Z).IsSymm := by
  have h := (rowCov_psd Z).isHermitian
  rw [Matrix.IsHermitian, Matrix.conjTranspose_eq_transpose_of_trivial] at h
  unfold shrunkCov
  rw [Matrix.IsSymm, Matrix.transpose_add, Matrix.transpose_smul, Matrix.transpose_smul, h, Matrix.transpose_one]

theorem twice_symm (reg : ℝ) (Z : List (Fin p → ℝ)) : ((2 : ℝ) • shrunkCov reg Z).IsSymm := (shrunkCov_symm reg Z).smul 2

theorem sum_symm (reg : ℝ) (Z Z' : List (Fin p → ℝ)) : (shrunkCov reg Z + shrunkCov reg Z').IsSymm :=
  (shrunkCov_symm reg Z).add (shrunkCov_symm reg Z')

theorem precision_of_posDef {chol : Matrix (Fin p) (Fin p) ℝ → Option (Matrix (Fin p) (Fin p) ℝ)} (hc : Cholesky chol)
    {S : Matrix (Fin p) (Fin p) ℝ} (hS : S.PosDef) : ∃ L, precision chol S = .ok L ∧ L * L.transpose = S⁻¹ := by
  obtain ⟨L, hL⟩ := hc.1 _ hS.inv
  refine ⟨L, ?_, (hc.2 _ _ ?_ hL).2⟩
  swap
  · have := hS.inv.isHermitian
    rwa [Matrix.IsHermitian, Matrix.conjTranspose_eq_transpose_of_trivial] at this
  unfold precision
  rw [if_neg hS.det_pos.ne', hL]

/-- What a successful call of `precision` has found. -/
theorem precision_ok {chol : Matrix (Fin p) (Fin p) ℝ → Option (Matrix (Fin p) (Fin p) ℝ)} (hc : Cholesky chol)
    {S L : Matrix (Fin p) (Fin p) ℝ} (hS : S.IsSymm) (h : precision chol S = .ok L) : S.det ≠ 0 ∧ S⁻¹.PosDef ∧ L * L.transpose = S⁻¹ := by
  unfold precision at h
  split_ifs at h with hd
  cases hL : chol S⁻¹ with
  | none => rw [hL] at h; cases h
  | some L' =>
    rw [hL] at h
    cases h
    exact ⟨hd, hc.2 _ _ (by rw [Matrix.IsSymm, Matrix.transpose_nonsing_inv, hS]) hL⟩

theorem precision_error {chol : Matrix (Fin p) (Fin p) ℝ → Option (Matrix (Fin p) (Fin p) ℝ)} {S : Matrix (Fin p) (Fin p) ℝ} {e : PyErr}
    (h : precision chol S = .error e) : e = .runtimeError := by
  unfold precision at h
  split_ifs at h
  · cases h; rfl
  · cases hL : chol S⁻¹ with
    | none => rw [hL] at h; cases h; rfl
    | some L' => rw [hL] at h; cases h

/-- The value of a successful `_D`, and its only error. -/
theorem tslD_cases {chol : Matrix (Fin p) (Fin p) ℝ → Option (Matrix (Fin p) (Fin p) ℝ)} (hc : Cholesky chol) (reg : ℝ)
    (W : Matrix (Fin d) (Fin p) ℝ) (Xs Xt : List (Fin d → ℝ)) :
    tslD Real.exp Real.sqrt chol reg W Xs Xt = .error .runtimeError ∨
    tslD Real.exp Real.sqrt chol reg W Xs Xt = .ok (tslDiv reg (proj W Xs) (proj W Xt)) := by
  unfold tslD
  simp only [torchCov_eq]
  cases h1 : precision chol ((2 : ℝ) • shrunkCov reg (proj W Xs)) with
  | error e => left; rw [precision_error h1]; rfl
  | ok L1 =>
    cases h2 : precision chol (shrunkCov reg (proj W Xs) + shrunkCov reg (proj W Xt)) with
    | error e => left; rw [precision_error h2]; rfl
    | ok L2 =>
      cases h3 : precision chol ((2 : ℝ) • shrunkCov reg (proj W Xt)) with
      | error e => left; rw [precision_error h3]; rfl
      | ok L3 =>
        right
        simp only [bind, Except.bind, pure, Except.pure]
        rw [meanGauss_eq _ _ (precision_ok hc (twice_symm _ _) h1).2.2, meanGauss_eq _ _ (precision_ok hc (sum_symm _ _ _) h2).2.2, meanGauss_eq _ _ (precision_ok hc (twice_symm _ _) h3).2.2]
        rfl

theorem mahaKer_bounds (S : Matrix (Fin p) (Fin p) ℝ) (x y : Fin p → ℝ) : 0 ≤ mahaKer S x y ∧ mahaKer S x y ≤ 1 := by
  refine ⟨(Real.exp_pos _).le, ?_⟩
  unfold mahaKer
  rw [Real.exp_le_one_iff]
  have := Real.sqrt_nonneg (dotProduct (x - y) (S⁻¹.mulVec (x - y)))
  linarith

theorem mahaKer_comm (S : Matrix (Fin p) (Fin p) ℝ) (x y : Fin p → ℝ) : mahaKer S x y = mahaKer S y x := by
  unfold mahaKer
  have : y - x = -(x - y) := by abel
  rw [this, Matrix.mulVec_neg, neg_dotProduct_neg]

theorem pairMean_comm (k : (Fin p → ℝ) → (Fin p → ℝ) → ℝ) (hk : ∀ x y, k x y = k y x) (A B : List (Fin p → ℝ)) :
    pairMean k A B = pairMean k B A := by
  unfold pairMean
  rw [DL.sum_product, DL.sum_product, mul_comm (A.length : ℝ)]
  congr 1
  induction A with
  | nil => simp
  | cons a A ih =>
    simp only [List.map_cons, List.sum_cons, List.sum_map_add, ih]
    congr 1
    exact congrArg _ (List.map_congr_left fun y _ => hk a y)

theorem pairMean_perm (k : (Fin p → ℝ) → (Fin p → ℝ) → ℝ) {A A' B B' : List (Fin p → ℝ)} (hA : A.Perm A') (hB : B.Perm B') :
    pairMean k A B = pairMean k A' B' := by
  unfold pairMean
  rw [hA.length_eq, hB.length_eq]
  exact congrArg (· / _) ((hA.product hB).map _).sum_eq

theorem rowCov_perm {Z Z' : List (Fin p → ℝ)} (h : Z.Perm Z') : rowCov Z = rowCov Z' := by
  ext i j
  have hm : ∀ i, (Z.map (fun z => z i)).sum = (Z'.map (fun z => z i)).sum := fun i => (h.map _).sum_eq
  simp only [rowCov, Matrix.of_apply, hm, h.length_eq]
  rw [(h.map _).sum_eq]

/-! ### Change of basis -/

theorem proj_mul (W : Matrix (Fin d) (Fin p) ℝ) (A : Matrix (Fin p) (Fin p) ℝ) (X : List (Fin d → ℝ)) :
    proj (W * A) X = (proj W X).map (fun z => Matrix.vecMul z A) := by
  unfold proj
  rw [List.map_map]
  exact List.map_congr_left fun x _ => by simp [Matrix.vecMul_vecMul]

theorem rowCov_map (A : Matrix (Fin p) (Fin p) ℝ) (Z : List (Fin p → ℝ)) :
    rowCov (Z.map (fun z => Matrix.vecMul z A)) = A.transpose * rowCov Z * A := by
  have hmean : ∀ i, ((Z.map (fun z => Matrix.vecMul z A)).map (fun z => z i)).sum / ((Z.map (fun z => Matrix.vecMul z A)).length : ℝ)
      = Matrix.vecMul (fun k => (Z.map (fun z => z k)).sum / Z.length) A i := by
    intro i
    rw [List.map_map, List.length_map]
    simp only [Matrix.vecMul, dotProduct, Function.comp_def]
    have : ∀ Y : List (Fin p → ℝ), (Y.map (fun z => ∑ k, z k * A k i)).sum = ∑ k, (Y.map (fun z => z k)).sum * A k i := by
      intro Y
      induction Y with
      | nil => simp
      | cons z Y ih => simp only [List.map_cons, List.sum_cons, ih, add_mul, Finset.sum_add_distrib]
    rw [this, Finset.sum_div]
    exact Finset.sum_congr rfl fun k _ => by ring
  ext i j
  rw [rowCov, Matrix.of_apply]
  simp only [hmean]
  rw [List.map_map, List.length_map]
  have hsub : ∀ (z : Fin p → ℝ) (μ : Fin p → ℝ) (i : Fin p), Matrix.vecMul z A i - Matrix.vecMul μ A i = Matrix.vecMul (z - μ) A i := by
    intro z μ i; rw [Matrix.sub_vecMul]; rfl
  simp only [Function.comp_def, hsub]
  rw [Matrix.mul_apply]
  simp only [Matrix.mul_apply, Matrix.transpose_apply, rowCov, Matrix.of_apply]
  have key : ∀ (Y : List (Fin p → ℝ)) (μ : Fin p → ℝ),
      (Y.map (fun z => Matrix.vecMul (z - μ) A i * Matrix.vecMul (z - μ) A j)).sum =
        ∑ l, (∑ k, A k i * (Y.map (fun z => (z k - μ k) * (z l - μ l))).sum) * A l j := by
    intro Y μ
    induction Y with
    | nil => simp
    | cons z Y ih =>
      simp only [List.map_cons, List.sum_cons, ih, mul_add, Finset.sum_add_distrib, add_mul]
      congr 1
      simp only [Matrix.vecMul, dotProduct, Pi.sub_apply]
      rw [Finset.sum_mul_sum, Finset.sum_comm]
      refine Finset.sum_congr rfl fun l _ => ?_
      rw [Finset.sum_mul]
      exact Finset.sum_congr rfl fun k _ => by ring
  rw [key, Finset.sum_div]
  refine Finset.sum_congr rfl fun l _ => ?_
  rw [Finset.sum_mul, Finset.sum_mul, Finset.sum_div]
  exact Finset.sum_congr rfl fun k _ => by ring

theorem shrunkCov_map (reg : ℝ) (A : Matrix (Fin p) (Fin p) ℝ) (hA : A.transpose * A = 1) (Z : List (Fin p → ℝ)) :
    shrunkCov reg (Z.map (fun z => Matrix.vecMul z A)) = A.transpose * shrunkCov reg Z * A := by
  have hA' : A * A.transpose = 1 := mul_eq_one_comm.1 hA
  unfold shrunkCov
  rw [rowCov_map]
  have ht : (A.transpose * rowCov Z * A).trace = (rowCov Z).trace := by
    rw [Matrix.trace_mul_comm, ← Matrix.mul_assoc, hA', Matrix.one_mul]
  rw [ht, Matrix.mul_add, Matrix.add_mul, Matrix.mul_smul, Matrix.smul_mul, Matrix.mul_smul, Matrix.smul_mul, Matrix.mul_one, hA]

theorem inv_conj (A S : Matrix (Fin p) (Fin p) ℝ) (hA : A.transpose * A = 1) (hS : S.det ≠ 0) :
    (A.transpose * S * A)⁻¹ = A.transpose * S⁻¹ * A := by
  have hA' : A * A.transpose = 1 := mul_eq_one_comm.1 hA
  refine Matrix.inv_eq_right_inv ?_
  have e : A.transpose * S * A * (A.transpose * S⁻¹ * A) = A.transpose * (S * (A * A.transpose) * S⁻¹) * A := by
    simp only [Matrix.mul_assoc]
  rw [e, hA', Matrix.mul_one, Matrix.mul_nonsing_inv S (isUnit_iff_ne_zero.2 hS), Matrix.mul_one, hA]

theorem det_conj (A S : Matrix (Fin p) (Fin p) ℝ) (hA : A.transpose * A = 1) : (A.transpose * S * A).det = S.det := by
  rw [Matrix.det_mul, Matrix.det_mul, mul_comm (A.transpose.det), mul_assoc, ← Matrix.det_mul, hA, Matrix.det_one, mul_one]

theorem posDef_conj (A S : Matrix (Fin p) (Fin p) ℝ) (hA : A.transpose * A = 1) : (A.transpose * S * A).PosDef ↔ S.PosDef := by
  have hA' : A * A.transpose = 1 := mul_eq_one_comm.1 hA
  have hinj : ∀ B : Matrix (Fin p) (Fin p) ℝ, B.transpose * B = 1 → Function.Injective B.mulVec := by
    intro B hB v w hvw
    have := congrArg (B.transpose.mulVec) hvw
    simpa [Matrix.mulVec_mulVec, hB] using this
  have go : ∀ (B T : Matrix (Fin p) (Fin p) ℝ), B.transpose * B = 1 → T.PosDef → (B.transpose * T * B).PosDef := by
    intro B T hB hT
    have := hT.conjTranspose_mul_mul_same (hinj B hB)
    simpa [Matrix.conjTranspose_eq_transpose_of_trivial] using this
  refine ⟨fun h => ?_, go A S hA⟩
  have := go A.transpose _ (by rw [Matrix.transpose_transpose]; exact hA') h
  have e : A.transpose.transpose * (A.transpose * S * A) * A.transpose = (A * A.transpose) * S * (A * A.transpose) := by
    simp only [Matrix.transpose_transpose, Matrix.mul_assoc]
  rwa [e, hA', Matrix.one_mul, Matrix.mul_one] at this

/-- `precision` fails for a matrix iff it fails in a rotated basis. -/
theorem precision_conj {chol : Matrix (Fin p) (Fin p) ℝ → Option (Matrix (Fin p) (Fin p) ℝ)} (hc : Cholesky chol)
    (A S : Matrix (Fin p) (Fin p) ℝ) (hA : A.transpose * A = 1) (hS : S.IsSymm) :
    (∃ L, precision chol (A.transpose * S * A) = .ok L) ↔ ∃ L, precision chol S = .ok L := by
  have key : ∀ T : Matrix (Fin p) (Fin p) ℝ, T.IsSymm → ((∃ L, precision chol T = .ok L) ↔ T.det ≠ 0 ∧ T⁻¹.PosDef) := by
    intro T hT
    refine ⟨fun ⟨L, hL⟩ => ⟨(precision_ok hc hT hL).1, (precision_ok hc hT hL).2.1⟩, fun ⟨h1, h2⟩ => ?_⟩
    obtain ⟨L, hL⟩ := hc.1 _ h2
    exact ⟨L, by unfold precision; rw [if_neg h1, hL]⟩
  have hAS : (A.transpose * S * A).IsSymm := by
    rw [Matrix.IsSymm, Matrix.transpose_mul, Matrix.transpose_mul, Matrix.transpose_transpose, hS, Matrix.mul_assoc]
  rw [key _ hAS, key _ hS, det_conj A S hA]
  refine and_congr_right fun hd => ?_
  rw [inv_conj A S hA hd, posDef_conj A _ hA]

theorem mahaKer_conj (A S : Matrix (Fin p) (Fin p) ℝ) (hA : A.transpose * A = 1) (hS : S.det ≠ 0) (x y : Fin p → ℝ) :
    mahaKer (A.transpose * S * A) (Matrix.vecMul x A) (Matrix.vecMul y A) = mahaKer S x y := by
  have hA' : A * A.transpose = 1 := mul_eq_one_comm.1 hA
  unfold mahaKer
  rw [inv_conj A S hA hS, ← Matrix.sub_vecMul]
  congr 3
  rw [← Matrix.mulVec_mulVec, ← Matrix.mulVec_mulVec, ← Matrix.mulVec_transpose A, Matrix.mulVec_mulVec (M := A),
    hA', Matrix.one_mulVec, Matrix.dotProduct_mulVec, ← Matrix.mulVec_transpose, Matrix.transpose_transpose, Matrix.mulVec_mulVec, hA',
    Matrix.one_mulVec]

theorem pairMean_map (k k' : (Fin p → ℝ) → (Fin p → ℝ) → ℝ) (f : (Fin p → ℝ) → Fin p → ℝ) (h : ∀ x y, k' (f x) (f y) = k x y)
    (A B : List (Fin p → ℝ)) : pairMean k' (A.map f) (B.map f) = pairMean k A B := by
  unfold pairMean
  rw [DL.sum_product, DL.sum_product, List.length_map, List.length_map, List.map_map]
  congr 2
  refine List.map_congr_left fun x _ => ?_
  rw [Function.comp_apply, List.map_map]
  exact congrArg _ (List.map_congr_left fun y _ => h x y)

theorem tslD_ok_iff {chol : Matrix (Fin p) (Fin p) ℝ → Option (Matrix (Fin p) (Fin p) ℝ)} (reg : ℝ)
    (W : Matrix (Fin d) (Fin p) ℝ) (Xs Xt : List (Fin d → ℝ)) :
    (∃ v, tslD Real.exp Real.sqrt chol reg W Xs Xt = .ok v) ↔
      (∃ L, precision chol ((2 : ℝ) • shrunkCov reg (proj W Xs)) = .ok L) ∧
      (∃ L, precision chol (shrunkCov reg (proj W Xs) + shrunkCov reg (proj W Xt)) = .ok L) ∧
      (∃ L, precision chol ((2 : ℝ) • shrunkCov reg (proj W Xt)) = .ok L) := by
  unfold tslD
  simp only [torchCov_eq]
  cases h1 : precision chol ((2 : ℝ) • shrunkCov reg (proj W Xs)) with
  | error e => simp [bind, Except.bind]
  | ok L1 =>
    cases h2 : precision chol (shrunkCov reg (proj W Xs) + shrunkCov reg (proj W Xt)) with
    | error e => simp [bind, Except.bind]
    | ok L2 =>
      cases h3 : precision chol ((2 : ℝ) • shrunkCov reg (proj W Xt)) with
      | error e => simp [bind, Except.bind]
      | ok L3 => simp [bind, Except.bind, pure, Except.pure]

theorem tslD_basis {chol : Matrix (Fin p) (Fin p) ℝ → Option (Matrix (Fin p) (Fin p) ℝ)} (hc : Cholesky chol) (reg : ℝ)
    (W : Matrix (Fin d) (Fin p) ℝ) (A : Matrix (Fin p) (Fin p) ℝ) (hA : A.transpose * A = 1) (Xs Xt : List (Fin d → ℝ)) :
    tslD Real.exp Real.sqrt chol reg (W * A) Xs Xt = tslD Real.exp Real.sqrt chol reg W Xs Xt := by
  have hsm : ∀ (c : ℝ) (S : Matrix (Fin p) (Fin p) ℝ), c • (A.transpose * S * A) = A.transpose * (c • S) * A := by
    intro c S; rw [Matrix.mul_smul, Matrix.smul_mul]
  have hadd : ∀ S T : Matrix (Fin p) (Fin p) ℝ, A.transpose * S * A + A.transpose * T * A = A.transpose * (S + T) * A := by
    intro S T; rw [Matrix.mul_add, Matrix.add_mul]
  have hiff : (∃ v, tslD Real.exp Real.sqrt chol reg (W * A) Xs Xt = .ok v) ↔ ∃ v, tslD Real.exp Real.sqrt chol reg W Xs Xt = .ok v := by
    rw [tslD_ok_iff, tslD_ok_iff, proj_mul, proj_mul, shrunkCov_map reg A hA, shrunkCov_map reg A hA, hsm, hsm, hadd,
      precision_conj hc A _ hA (twice_symm _ _), precision_conj hc A _ hA (sum_symm _ _ _), precision_conj hc A _ hA (twice_symm _ _)]
  rcases tslD_cases hc reg W Xs Xt with h | h
  · rcases tslD_cases hc reg (W * A) Xs Xt with h' | h'
    · rw [h, h']
    · obtain ⟨v, hv⟩ := hiff.1 ⟨_, h'⟩
      rw [h] at hv; cases hv
  · rcases tslD_cases hc reg (W * A) Xs Xt with h' | h'
    · obtain ⟨v, hv⟩ := hiff.2 ⟨_, h⟩
      rw [h'] at hv; cases hv
    · rw [h, h']
      obtain ⟨⟨L1, h1⟩, ⟨L2, h2⟩, ⟨L3, h3⟩⟩ := (tslD_ok_iff reg W Xs Xt).1 ⟨_, h⟩
      congr 1
      unfold tslDiv
      rw [proj_mul, proj_mul, shrunkCov_map reg A hA, shrunkCov_map reg A hA, hsm, hsm, hadd]
      rw [pairMean_map _ _ _ (mahaKer_conj A _ hA (precision_ok hc (twice_symm _ _) h1).1), pairMean_map _ _ _ (mahaKer_conj A _ hA (precision_ok hc (sum_symm _ _ _) h2).1),
        pairMean_map _ _ _ (mahaKer_conj A _ hA (precision_ok hc (twice_symm _ _) h3).1)]

theorem trace_basis (W : Matrix (Fin d) (Fin p) ℝ) (A : Matrix (Fin p) (Fin p) ℝ) (hA : A.transpose * A = 1) (C : Matrix (Fin d) (Fin d) ℝ) :
    ((W * A).transpose * C * (W * A)).trace = (W.transpose * C * W).trace := by
  have hA' : A * A.transpose = 1 := mul_eq_one_comm.1 hA
  have e : (W * A).transpose * C * (W * A) = A.transpose * (W.transpose * C * W * A) := by
    rw [Matrix.transpose_mul]; simp only [Matrix.mul_assoc]
  rw [e, Matrix.trace_mul_comm, Matrix.mul_assoc, hA', Matrix.mul_one]

theorem tslF_basis {β : Type} [LinearOrder β] (base : Base) (ls reg : ℝ) (W : Matrix (Fin d) (Fin p) ℝ) (A : Matrix (Fin p) (Fin p) ℝ)
    (hA : A.transpose * A = 1) (Xs : List (Fin d → ℝ)) (ys : List β) :
    tslF Real.exp Real.sqrt base ls reg (W * A) Xs ys = tslF Real.exp Real.sqrt base ls reg W Xs ys := by
  cases base with
  | pca => simp only [tslF, Subsp.tslPca, trace_basis W A hA]
  | flda => simp only [tslF, Subsp.tslFlda, trace_basis W A hA]
  | lpp =>
    simp only [tslF, Subsp.tslLpp]
    congr 1
    have e : ∀ (V : Matrix (Fin d) (Fin p) ℝ) (X : Matrix (Fin Xs.length) (Fin d) ℝ) (M : Matrix (Fin Xs.length) (Fin Xs.length) ℝ),
        V.transpose * X.transpose * M * X * V = V.transpose * (X.transpose * M * X) * V := by
      intro V X M; simp only [Matrix.mul_assoc]
    rw [e, e, trace_basis W A hA]

theorem tslLoss_basis {β : Type} [LinearOrder β] {chol : Matrix (Fin p) (Fin p) ℝ → Option (Matrix (Fin p) (Fin p) ℝ)} (hc : Cholesky chol)
    (base : Base) (ls reg mu : ℝ) (W : Matrix (Fin d) (Fin p) ℝ) (A : Matrix (Fin p) (Fin p) ℝ) (hA : A.transpose * A = 1)
    (Xs : List (Fin d → ℝ)) (ys : List β) (Xt : List (Fin d → ℝ)) :
    tslLoss Real.exp Real.sqrt chol base ls reg mu Xs ys Xt (W * A) = tslLoss Real.exp Real.sqrt chol base ls reg mu Xs ys Xt W := by
  unfold tslLoss
  rw [tslD_basis hc reg W A hA, tslF_basis base ls reg W A hA]

theorem eyeCols_orth (h : p ≤ d) : (eyeCols d p : Matrix (Fin d) (Fin p) ℝ).transpose * (eyeCols d p : Matrix (Fin d) (Fin p) ℝ) = 1 := by
  ext i j
  simp only [Matrix.mul_apply, Matrix.transpose_apply, eyeCols, Matrix.of_apply, mul_ite, mul_one, mul_zero]
  rw [Finset.sum_eq_single (⟨j.val, by omega⟩ : Fin d)]
  · by_cases hij : i = j
    · subst hij; simp
    · have : ¬ j.val = i.val := fun h => hij (Fin.ext h.symm)
      simp [hij, this]
  · intro k _ hk
    rw [if_neg]
    intro h
    exact hk (Fin.ext h)
  · simp

/-- The covariance of `n` rows in at least `n` dimensions is singular. -/
theorem rowCov_singular {Z : List (Fin p → ℝ)} (hp : 0 < p) (hn : Z.length ≤ p) : (rowCov Z).det = 0 := by
  cases Z with
  | nil =>
    have : rowCov ([] : List (Fin p → ℝ)) = 0 := rowCov_const (fun z hz => by simp at hz)
    have hne : Nonempty (Fin p) := ⟨⟨0, hp⟩⟩
    rw [this, Matrix.det_zero]
  | cons w Z' =>
  generalize hZ : w :: Z' = Z at *
  have hpos : 0 < Z.length := by rw [← hZ]; simp
  set μ : Fin p → ℝ := fun i => (Z.map (fun z => z i)).sum / Z.length with hμ
  let f : (Fin p → ℝ) →ₗ[ℝ] (Fin Z.length → ℝ) :=
    { toFun := fun c k => ∑ i, c i * (Z[k] i - μ i)
      map_add' := by intro a b; funext k; simp [add_mul, Finset.sum_add_distrib]
      map_smul' := by intro a b; funext k; simp [Finset.mul_sum, mul_assoc] }
  have hsum : ∀ c, ∑ k, f c k = 0 := by
    intro c
    have hlist : ∀ g : (Fin p → ℝ) → ℝ, ∑ k : Fin Z.length, g Z[k] = (Z.map g).sum := by
      intro g
      rw [← List.sum_ofFn]
      congr 1
      exact List.ext_getElem (by simp) (fun n h1 h2 => by simp)
    have hz : ∀ i, ∑ k : Fin Z.length, (Z[k] i - μ i) = 0 := by
      intro i
      rw [Finset.sum_sub_distrib, hlist (fun z => z i)]
      simp only [Finset.sum_const, Finset.card_univ, Fintype.card_fin, nsmul_eq_mul, hμ]
      have : (Z.length : ℝ) ≠ 0 := by exact_mod_cast hpos.ne'
      field_simp
      ring
    show ∑ k : Fin Z.length, ∑ i, c i * (Z[k] i - μ i) = 0
    rw [Finset.sum_comm]
    exact Finset.sum_eq_zero fun i _ => by rw [← Finset.mul_sum, hz, mul_zero]
  have hninj : ¬ Function.Injective f := by
    intro hinj
    have hle := LinearMap.finrank_le_finrank_of_injective hinj
    simp only [Module.finrank_fintype_fun_eq_card, Fintype.card_fin] at hle
    have heq : p = Z.length := le_antisymm hle hn
    have hsurj : Function.Surjective f := (LinearMap.injective_iff_surjective_of_finrank_eq_finrank
      (by simp only [Module.finrank_fintype_fun_eq_card, Fintype.card_fin]; exact heq)).1 hinj
    obtain ⟨c, hcc⟩ := hsurj (fun _ => 1)
    have := hsum c
    rw [hcc] at this
    simp at this
    exact hpos.ne' (by rw [this]; rfl)
  rw [← LinearMap.ker_eq_bot, Submodule.eq_bot_iff] at hninj
  push Not at hninj
  obtain ⟨c, hck, hc0⟩ := hninj
  rw [LinearMap.mem_ker] at hck
  have hq : dotProduct c ((rowCov Z).mulVec c) = 0 := by
    rw [rowCov_quad, List.sum_eq_zero, zero_div]
    intro x hx
    obtain ⟨z, hz, rfl⟩ := List.mem_map.1 hx
    obtain ⟨k, hk, rfl⟩ := List.getElem_of_mem hz
    have : f c ⟨k, hk⟩ = 0 := by rw [hck]; rfl
    have h2 : ∑ i, c i * (Z[k] i - μ i) = 0 := this
    rw [h2]; ring
  have hv : (rowCov Z).mulVec c = 0 := ((rowCov_psd Z).dotProduct_mulVec_zero_iff c).1 (by rw [star_trivial]; exact hq)
  exact Matrix.exists_mulVec_eq_zero_iff.1 ⟨c, hc0, hv⟩

end Optim

open Optim

section
variable {d p : Nat} {β : Type}

/-! ### C122 -/

/-- **C122 (divergence)** With a shrinkage `0 < reg ≤ 1` and at least two distinct projected rows on each side the divergence
always exists; it is the stated combination of mean kernel values and lies between −2 and 2. -/
theorem C122_divergence (chol : Matrix (Fin p) (Fin p) ℝ → Option (Matrix (Fin p) (Fin p) ℝ)) (hc : Cholesky chol) (reg : ℝ)
    (h0 : 0 < reg) (h1 : reg ≤ 1) (W : Matrix (Fin d) (Fin p) ℝ) (Xs Xt : List (Fin d → ℝ))
    (hs : ¬ AllEqual (Xs.map (fun x => Matrix.vecMul x W))) (ht : ¬ AllEqual (Xt.map (fun x => Matrix.vecMul x W))) :
    tslD Real.exp Real.sqrt chol reg W Xs Xt =
      .ok (tslDiv reg (Xs.map (fun x => Matrix.vecMul x W)) (Xt.map (fun x => Matrix.vecMul x W))) ∧
    |tslDiv reg (Xs.map (fun x => Matrix.vecMul x W)) (Xt.map (fun x => Matrix.vecMul x W))| ≤ 2 := by
  have pS := shrunkCov_posDef h0 h1 hs
  have pT := shrunkCov_posDef h0 h1 ht
  obtain ⟨L1, l1, -⟩ := precision_of_posDef hc (pS.smul (show (0 : ℝ) < 2 by norm_num))
  obtain ⟨L2, l2, -⟩ := precision_of_posDef hc (pS.add pT)
  obtain ⟨L3, l3, -⟩ := precision_of_posDef hc (pT.smul (show (0 : ℝ) < 2 by norm_num))
  have hok := (tslD_ok_iff (chol := chol) reg W Xs Xt).2 ⟨⟨L1, l1⟩, ⟨L2, l2⟩, ⟨L3, l3⟩⟩
  refine ⟨?_, ?_⟩
  · rcases tslD_cases hc reg W Xs Xt with h | h
    · obtain ⟨v, hv⟩ := hok
      rw [h] at hv; cases hv
    · exact h
  · have hne : ∀ Z : List (Fin p → ℝ), ¬ AllEqual Z → Z ≠ [] := by
      rintro _ h rfl
      exact h fun z hz => by simp at hz
    have b1 := DL.pairMean_bounds _ 1 (mahaKer_bounds ((2 : ℝ) • shrunkCov reg (Xs.map (fun x => Matrix.vecMul x W)))) _ _ (hne _ hs) (hne _ hs)
    have b2 := DL.pairMean_bounds _ 1 (mahaKer_bounds ((2 : ℝ) • shrunkCov reg (Xt.map (fun x => Matrix.vecMul x W)))) _ _ (hne _ ht) (hne _ ht)
    have b3 := DL.pairMean_bounds _ 1 (mahaKer_bounds (shrunkCov reg (Xs.map (fun x => Matrix.vecMul x W)) +
      shrunkCov reg (Xt.map (fun x => Matrix.vecMul x W)))) _ _ (hne _ hs) (hne _ ht)
    unfold tslDiv
    rw [abs_le]
    constructor <;> linarith [b1.1, b1.2, b2.1, b2.2, b3.1, b3.2]

/-- **C122 (errors)** The divergence cannot be computed, whatever the shrinkage, if all projected rows of one side are equal (one
row, for example); and without shrinkage it cannot be computed if one side has at most as many rows as there are components. -/
theorem C122_errors (chol : Matrix (Fin p) (Fin p) ℝ → Option (Matrix (Fin p) (Fin p) ℝ)) (hc : Cholesky chol) (hp : 0 < p) (reg : ℝ)
    (W : Matrix (Fin d) (Fin p) ℝ) (Xs Xt : List (Fin d → ℝ))
    (h : AllEqual (Xs.map (fun x => Matrix.vecMul x W)) ∨ AllEqual (Xt.map (fun x => Matrix.vecMul x W)) ∨
      (reg = 0 ∧ (Xs.length ≤ p ∨ Xt.length ≤ p))) :
    tslD Real.exp Real.sqrt chol reg W Xs Xt = .error .runtimeError := by
  have hne : Nonempty (Fin p) := ⟨⟨0, hp⟩⟩
  have hconst : ∀ Z : List (Fin p → ℝ), AllEqual Z → ((2 : ℝ) • shrunkCov reg Z).det = 0 := by
    intro Z hZ
    have : shrunkCov reg Z = 0 := by
      unfold shrunkCov
      rw [rowCov_const hZ]
      simp
    rw [this, smul_zero, Matrix.det_zero]
  have hsing : ∀ Z : List (Fin p → ℝ), reg = 0 → Z.length ≤ p → ((2 : ℝ) • shrunkCov reg Z).det = 0 := by
    intro Z hr hZ
    have : shrunkCov reg Z = rowCov Z := by
      unfold shrunkCov
      rw [hr]
      simp
    rw [this, Matrix.det_smul, rowCov_singular hp hZ, mul_zero]
  have hd : ((2 : ℝ) • shrunkCov reg (proj W Xs)).det = 0 ∨ ((2 : ℝ) • shrunkCov reg (proj W Xt)).det = 0 := by
    rcases h with h | h | ⟨hr, h | h⟩
    · exact .inl (hconst _ h)
    · exact .inr (hconst _ h)
    · exact .inl (hsing _ hr (by unfold proj; rwa [List.length_map]))
    · exact .inr (hsing _ hr (by unfold proj; rwa [List.length_map]))
  rcases tslD_cases hc reg W Xs Xt with h | h
  · exact h
  · exfalso
    obtain ⟨⟨L1, h1⟩, -, ⟨L3, h3⟩⟩ := (tslD_ok_iff reg W Xs Xt).1 ⟨_, h⟩
    rcases hd with hd | hd
    · exact (precision_ok hc (twice_symm _ _) h1).1 hd
    · exact (precision_ok hc (twice_symm _ _) h3).1 hd

/-- **C122 (symmetry)** Exchanging the domains changes neither the divergence nor whether it exists. -/
theorem C122_symm (chol : Matrix (Fin p) (Fin p) ℝ → Option (Matrix (Fin p) (Fin p) ℝ)) (hc : Cholesky chol) (reg : ℝ)
    (W : Matrix (Fin d) (Fin p) ℝ) (Xs Xt : List (Fin d → ℝ)) :
    tslD Real.exp Real.sqrt chol reg W Xs Xt = tslD Real.exp Real.sqrt chol reg W Xt Xs := by
  have hiff : (∃ v, tslD Real.exp Real.sqrt chol reg W Xs Xt = .ok v) ↔ ∃ v, tslD Real.exp Real.sqrt chol reg W Xt Xs = .ok v := by
    rw [tslD_ok_iff, tslD_ok_iff, add_comm (shrunkCov reg (proj W Xt))]
    exact ⟨fun ⟨a, b, c⟩ => ⟨c, b, a⟩, fun ⟨a, b, c⟩ => ⟨c, b, a⟩⟩
  have hv : tslDiv reg (proj W Xs) (proj W Xt) = tslDiv reg (proj W Xt) (proj W Xs) := by
    unfold tslDiv
    rw [add_comm (shrunkCov reg (proj W Xt)), pairMean_comm _ (mahaKer_comm _) (proj W Xt) (proj W Xs)]
    ring
  rcases tslD_cases hc reg W Xs Xt with h | h <;> rcases tslD_cases hc reg W Xt Xs with h' | h'
  · rw [h, h']
  · obtain ⟨v, hv⟩ := hiff.2 ⟨_, h'⟩
    rw [h] at hv; cases hv
  · obtain ⟨v, hv⟩ := hiff.1 ⟨_, h⟩
    rw [h'] at hv; cases hv
  · rw [h, h', hv]

/-- **C122 (same samples)** For the same rows in another order the divergence is 0 whenever it exists. -/
theorem C122_same (chol : Matrix (Fin p) (Fin p) ℝ → Option (Matrix (Fin p) (Fin p) ℝ)) (hc : Cholesky chol) (reg : ℝ)
    (W : Matrix (Fin d) (Fin p) ℝ) (Xs Xt : List (Fin d → ℝ)) (hperm : Xs.Perm Xt) (v : ℝ)
    (h : tslD Real.exp Real.sqrt chol reg W Xs Xt = .ok v) : v = 0 := by
  rcases tslD_cases hc reg W Xs Xt with h' | h'
  · rw [h'] at h; cases h
  · rw [h'] at h
    cases h
    have hz : (proj W Xs).Perm (proj W Xt) := hperm.map _
    have hs : shrunkCov reg (proj W Xs) = shrunkCov reg (proj W Xt) := by
      unfold shrunkCov
      rw [rowCov_perm hz]
    unfold tslDiv
    rw [hs, two_smul, pairMean_perm _ hz hz, pairMean_perm _ hz (List.Perm.refl _)]
    ring

/-- **C122 (basis)** The loss depends only on the subspace: another orthonormal basis of it gives the same loss, or the same
error, for each of the three base methods. -/
theorem C122_basis [LinearOrder β] (chol : Matrix (Fin p) (Fin p) ℝ → Option (Matrix (Fin p) (Fin p) ℝ)) (hc : Cholesky chol)
    (base : Base) (ls reg mu : ℝ) (V V' : Matrix (Fin d) (Fin p) ℝ) (hV : V.transpose * V = 1) (hV' : V'.transpose * V' = 1)
    (hspan : Submodule.span ℝ (Set.range V.col) = Submodule.span ℝ (Set.range V'.col))
    (Xs : List (Fin d → ℝ)) (ys : List β) (Xt : List (Fin d → ℝ)) :
    tslLoss Real.exp Real.sqrt chol base ls reg mu Xs ys Xt V = tslLoss Real.exp Real.sqrt chol base ls reg mu Xs ys Xt V' := by
  have hR : ∃ R : Matrix (Fin p) (Fin p) ℝ, V = V' * R := by
    have : ∀ j, ∃ r : Fin p → ℝ, V'.mulVec r = V.col j := by
      intro j
      have hm : V.col j ∈ Submodule.span ℝ (Set.range V'.col) := by
        rw [← hspan]
        exact Submodule.subset_span ⟨j, rfl⟩
      rw [← Matrix.range_mulVecLin] at hm
      obtain ⟨r, hr⟩ := hm
      exact ⟨r, hr⟩
    choose r hr using this
    refine ⟨Matrix.of fun i j => r j i, ?_⟩
    ext i j
    have := congrFun (hr j) i
    simp only [Matrix.mulVec, dotProduct, Matrix.col_apply] at this
    rw [← this, Matrix.mul_apply]
    rfl
  obtain ⟨R, hR⟩ := hR
  have hRR : R.transpose * R = 1 := by
    have e : V.transpose * V = R.transpose * (V'.transpose * V') * R := by
      rw [hR, Matrix.transpose_mul]; simp only [Matrix.mul_assoc]
    rw [hV, hV', Matrix.mul_one] at e
    exact e.symm
  rw [hR, tslLoss_basis hc base ls reg mu V' R hRR]

/-- **C122 (fit)** What `fit` stores has `min n_components d` orthonormal columns (`n_components` defaults to the smaller side of
the data), and its loss on the source rows, the source labels and the target rows is not above that of keeping the first
coordinates. -/
theorem C122_fit [LinearOrder β] (chol : ∀ p, Matrix (Fin p) (Fin p) ℝ → Option (Matrix (Fin p) (Fin p) ℝ)) (hc : ∀ p, Cholesky (chol p))
    (qr : ∀ p, Matrix (Fin d) (Fin p) ℝ → Matrix (Fin d) (Fin p) ℝ) (hq : ∀ p, p ≤ d → IsQr (qr p))
    (lbfgs : ∀ p, Lbfgs (Matrix (Fin d) (Fin p) ℝ) ℝ) (hd : ∀ p, Descends (lbfgs p))
    (grad : ∀ p, List (Matrix (Fin d) (Fin p) ℝ) → List (List (Option ℝ)))
    (base : Base) (ls reg mu tol : ℝ) (maxIter : Nat) (nComponents : Option Nat)
    (X : List (Fin d → ℝ)) (y : List β) (sd : List Int) (hX : X ≠ []) (hlen : sd.length = X.length) (hy : sd.length = y.length)
    (out : Σ p, Matrix (Fin d) (Fin p) ℝ)
    (h : tslFit Real.exp Real.sqrt chol qr lbfgs grad base ls reg mu tol maxIter nComponents X (some y) (.vec sd) = .ok out) :
    out.1 = min (nComponents.getD (min X.length d)) d ∧
    out.2.transpose * out.2 = 1 ∧
    ∃ v v0, tslLoss Real.exp Real.sqrt (chol out.1) base ls reg mu (sourceRows sd X) (sourceRows sd y) (targetRows sd X) out.2 = .ok v ∧
      tslLoss Real.exp Real.sqrt (chol out.1) base ls reg mu (sourceRows sd X) (sourceRows sd y) (targetRows sd X)
        (Matrix.of fun i j => if i.val = j.val then 1 else 0) = .ok v0 ∧ v ≤ v0 := by
  have hsd := RW.sd_ne hX hlen
  simp only [tslFit, RW.check_ok hX hlen, bind, Except.bind, RW.splitX_ok hsd hlen, RW.splitX_ok hsd hy] at h
  generalize hp : tslCols nComponents X.length d = p at h
  have hpd : p ≤ d := by rw [← hp]; exact min_le_right _ _
  cases ho : tslOptimize Real.exp Real.sqrt (chol p) (qr p) (lbfgs p) (grad p) base ls reg mu tol maxIter (sourceRows sd X) (sourceRows sd y)
      (targetRows sd X) with
  | error e => rw [ho] at h; cases h
  | ok V =>
    rw [ho] at h
    cases h
    refine ⟨?_, ?_⟩
    · exact hp.symm
    unfold tslOptimize at ho
    cases hm : torchMinimize (lbfgs p) (tslFunc Real.exp Real.sqrt (chol p) (qr p) base ls reg mu (sourceRows sd X) (sourceRows sd y)
        (targetRows sd X)) (grad p) (.one (eyeCols d p)) tol maxIter with
    | error e => rw [hm] at ho; cases ho
    | ok o =>
      rw [hm] at ho
      obtain ⟨hval, -, hone, hdesc⟩ := (C120_result (lbfgs p) _ (grad p) (.one (eyeCols d p)) tol maxIter).2 o hm
      obtain ⟨hl, v0, hv0, hle⟩ := hdesc (hd p)
      obtain ⟨W, hW⟩ := hone.2 hl
      simp only [bind, Except.bind, hW] at ho
      cases ho
      rw [hW] at hval
      refine ⟨(hq p hpd W).1, o.val, v0, hval, ?_, hle⟩
      obtain ⟨hQ, R, hR⟩ := hq p hpd (eyeCols d p)
      have hE := eyeCols_orth hpd
      have hRR : R.transpose * R = 1 := by
        have e : (qr p (eyeCols d p) * R).transpose * (qr p (eyeCols d p) * R) =
            R.transpose * ((qr p (eyeCols d p)).transpose * qr p (eyeCols d p)) * R := by
          rw [Matrix.transpose_mul]; simp only [Matrix.mul_assoc]
        rw [← hR, hE, hQ, Matrix.mul_one] at e
        exact e.symm
      have hb := tslLoss_basis (hc p) base ls reg mu (qr p (eyeCols d p)) R hRR (sourceRows sd X) (sourceRows sd y) (targetRows sd X)
      rw [← hR] at hb
      exact hb.trans hv0

/-- **C122 (fit, `base_method="pca"`)** For PCA this says: compared with keeping the first coordinates, what is lost in source
scatter (times `1 - reg`) is at most `mu` times what is gained in divergence. -/
theorem C122_fit_pca [LinearOrder β] (chol : ∀ p, Matrix (Fin p) (Fin p) ℝ → Option (Matrix (Fin p) (Fin p) ℝ)) (hc : ∀ p, Cholesky (chol p))
    (qr : ∀ p, Matrix (Fin d) (Fin p) ℝ → Matrix (Fin d) (Fin p) ℝ) (hq : ∀ p, p ≤ d → IsQr (qr p))
    (lbfgs : ∀ p, Lbfgs (Matrix (Fin d) (Fin p) ℝ) ℝ) (hd : ∀ p, Descends (lbfgs p))
    (grad : ∀ p, List (Matrix (Fin d) (Fin p) ℝ) → List (List (Option ℝ)))
    (ls reg mu tol : ℝ) (maxIter : Nat) (nComponents : Option Nat)
    (X : List (Fin d → ℝ)) (y : List β) (sd : List Int) (hX : X ≠ []) (hlen : sd.length = X.length) (hy : sd.length = y.length)
    (p : Nat) (V : Matrix (Fin d) (Fin p) ℝ)
    (h : tslFit Real.exp Real.sqrt chol qr lbfgs grad .pca ls reg mu tol maxIter nComponents X (some y) (.vec sd) = .ok ⟨p, V⟩) :
    let E : Matrix (Fin d) (Fin p) ℝ := Matrix.of fun i j => if i.val = j.val then 1 else 0
    let div := fun W : Matrix (Fin d) (Fin p) ℝ => tslDiv reg ((sourceRows sd X).map (fun x => Matrix.vecMul x W))
      ((targetRows sd X).map (fun x => Matrix.vecMul x W))
    (1 - reg) * (scatter E (sourceRows sd X) - scatter V (sourceRows sd X)) ≤ mu * (div E - div V) := by
  intro E div
  obtain ⟨hp, hV, v, v0, hv, hv0, hle⟩ :=
    C122_fit chol hc qr hq lbfgs hd grad .pca ls reg mu tol maxIter nComponents X y sd hX hlen hy ⟨p, V⟩ h
  simp only at hp hV hv hv0
  have hpd : p ≤ d := by rw [hp]; exact min_le_right _ _
  have hE : E.transpose * E = 1 := eyeCols_orth hpd
  have key : ∀ (W : Matrix (Fin d) (Fin p) ℝ) (u : ℝ), W.transpose * W = 1 →
      tslLoss Real.exp Real.sqrt (chol p) .pca ls reg mu (sourceRows sd X) (sourceRows sd y) (targetRows sd X) W = .ok u →
      u = - ((1 - reg) * scatter W (sourceRows sd X) + reg * (p : ℝ) * scatter (1 : Matrix (Fin d) (Fin d) ℝ) (sourceRows sd X)) + mu * div W := by
    intro W u hW hu
    unfold tslLoss at hu
    rcases tslD_cases (hc p) reg W (sourceRows sd X) (targetRows sd X) with h' | h'
    · rw [h'] at hu; cases hu
    · rw [h'] at hu
      cases hu
      rw [← (C70_pca_regularised reg W (sourceRows sd X) hW).1]
      rfl
  rw [key V v hV hv, key E v0 hE hv0] at hle
  linarith

namespace Optim

theorem maha_one (c : ℝ) (x y : Fin 1 → ℝ) : mahaKer (c • (1 : Matrix (Fin 1) (Fin 1) ℝ)) x y =
    Real.exp (-(1 / 2) * Real.sqrt ((x 0 - y 0) ^ 2 / c)) := by
  unfold mahaKer
  congr 3
  have : (c • (1 : Matrix (Fin 1) (Fin 1) ℝ))⁻¹ = c⁻¹ • 1 := by
    ext i j
    fin_cases i; fin_cases j
    simp
  rw [this, Matrix.smul_mulVec, Matrix.one_mulVec]
  simp [dotProduct]
  ring

theorem shrunk_one (reg v : ℝ) (Z : List (Fin 1 → ℝ)) (h : rowCov Z 0 0 = v) : shrunkCov reg Z = v • 1 := by
  ext i j
  fin_cases i; fin_cases j
  simp [shrunkCov, Matrix.trace, h]
  ring

end Optim

/-- **C122 (the divergence is not a divergence)** The three means use three different kernels, so the value can be negative, and is
then below that of identical samples: the source rows `-1, 1` and as target nine times `0` and once `1000`. -/
theorem C122_negative_counterexample (chol : Matrix (Fin 1) (Fin 1) ℝ → Option (Matrix (Fin 1) (Fin 1) ℝ)) (hc : Cholesky chol) (reg : ℝ) :
    ∃ v, tslD (d := 1) Real.exp Real.sqrt chol reg 1 [fun _ => -1, fun _ => 1] (List.replicate 9 (fun _ => 0) ++ [fun _ => 1000]) = .ok v ∧
      v < 0 ∧
      tslD (d := 1) Real.exp Real.sqrt chol reg 1 [fun _ => -1, fun _ => 1] [fun _ => -1, fun _ => 1] = .ok 0 := by
  have hproj : ∀ X : List (Fin 1 → ℝ), proj (1 : Matrix (Fin 1) (Fin 1) ℝ) X = X := by
    intro X; unfold proj; simp
  set S : List (Fin 1 → ℝ) := [fun _ => -1, fun _ => 1] with hS
  set T : List (Fin 1 → ℝ) := List.replicate 9 (fun _ => 0) ++ [fun _ => 1000] with hT
  have s1 : shrunkCov reg S = (1 : ℝ) • 1 := shrunk_one reg 1 S (by simp [rowCov, hS])
  have s2 : shrunkCov reg T = (90000 : ℝ) • 1 := shrunk_one reg 90000 T (by simp [rowCov, hT, List.replicate]; norm_num)
  have pd : ∀ c : ℝ, 0 < c → (c • (1 : Matrix (Fin 1) (Fin 1) ℝ)).PosDef := fun c hc => Matrix.PosDef.one.smul hc
  have e1 : (2 : ℝ) • (1 : ℝ) • (1 : Matrix (Fin 1) (Fin 1) ℝ) = (2 : ℝ) • 1 := by rw [one_smul]
  have e2 : (1 : ℝ) • (1 : Matrix (Fin 1) (Fin 1) ℝ) + (90000 : ℝ) • 1 = (90001 : ℝ) • 1 := by rw [← add_smul]; norm_num
  have e3 : (2 : ℝ) • (90000 : ℝ) • (1 : Matrix (Fin 1) (Fin 1) ℝ) = (180000 : ℝ) • 1 := by rw [smul_smul]; norm_num
  have ex : ∀ c : ℝ, 0 < c → ∃ L, precision chol (c • 1) = .ok L := fun c h =>
    let ⟨L, hL, _⟩ := precision_of_posDef hc (pd c h); ⟨L, hL⟩
  have hok : ∃ v, tslD (d := 1) Real.exp Real.sqrt chol reg 1 S T = .ok v := by
    rw [tslD_ok_iff, hproj, hproj, s1, s2, e1, e2, e3]
    exact ⟨ex _ (by norm_num), ex _ (by norm_num), ex _ (by norm_num)⟩
  have hok' : ∃ v, tslD (d := 1) Real.exp Real.sqrt chol reg 1 S S = .ok v := by
    rw [tslD_ok_iff, hproj, s1, e1, ← two_smul ℝ ((1 : ℝ) • (1 : Matrix (Fin 1) (Fin 1) ℝ)), e1]
    exact ⟨ex _ (by norm_num), ex _ (by norm_num), ex _ (by norm_num)⟩
  obtain ⟨v, hv⟩ := hok
  obtain ⟨w, hw⟩ := hok'
  have hw0 := C122_same chol hc reg 1 S S (List.Perm.refl _) w hw
  subst hw0
  refine ⟨v, hv, ?_, hw⟩
  rcases tslD_cases hc reg 1 S T with h | h
  · rw [h] at hv; cases hv
  · rw [h] at hv
    cases hv
    rw [hproj, hproj]
    unfold tslDiv
    rw [s1, s2, e1, e2, e3]
    have b2 : pairMean (mahaKer ((180000 : ℝ) • (1 : Matrix (Fin 1) (Fin 1) ℝ))) T T ≤ 1 :=
      (DL.pairMean_bounds _ 1 (mahaKer_bounds _) T T (by simp [hT]) (by simp [hT])).2
    have b1 : pairMean (mahaKer ((2 : ℝ) • (1 : Matrix (Fin 1) (Fin 1) ℝ))) S S = 1 / 2 + 1 / 2 * Real.exp (-(1 / 2) * Real.sqrt 2) := by
      unfold pairMean
      rw [DL.sum_product]
      simp only [hS, List.map_cons, List.map_nil, List.sum_cons, List.sum_nil, maha_one, List.length_cons, List.length_nil]
      norm_num
      ring
    have b3 : 9 / 10 * (1 - 1 / 600) ≤ pairMean (mahaKer ((90001 : ℝ) • (1 : Matrix (Fin 1) (Fin 1) ℝ))) S T := by
      unfold pairMean
      rw [DL.sum_product]
      simp only [hS, hT, List.replicate, List.map_cons, List.map_nil, List.cons_append, List.nil_append, List.sum_cons,
        List.sum_nil, maha_one, List.length_cons, List.length_nil]
      have g : 1 - 1 / 600 ≤ Real.exp (-(1 / 2) * Real.sqrt ((1 : ℝ) / 90001)) := by
        have h1 := Real.add_one_le_exp (-(1 / 2) * Real.sqrt ((1 : ℝ) / 90001))
        have h2 : Real.sqrt ((1 : ℝ) / 90001) ≤ 1 / 300 := by
          rw [Real.sqrt_le_left (by norm_num)]
          norm_num
        linarith
      have p1 := (Real.exp_pos (-(1 / 2) * Real.sqrt ((-1 - 1000 : ℝ) ^ 2 / 90001))).le
      have p2 := (Real.exp_pos (-(1 / 2) * Real.sqrt ((1 - 1000 : ℝ) ^ 2 / 90001))).le
      norm_num at g p1 p2 ⊢
      linarith
    have b4 : Real.exp (-(1 / 2) * Real.sqrt 2) ≤ 1000 / 1900 := by
      have h1 : (7 / 5 : ℝ) ≤ Real.sqrt 2 := by
        exact Real.le_sqrt_of_sq_le (by norm_num)
      have h2 : (1900 / 1000 : ℝ) ≤ Real.exp (1 / 2 * Real.sqrt 2) := by
        have := Real.quadratic_le_exp_of_nonneg (show (0 : ℝ) ≤ 1 / 2 * Real.sqrt 2 by positivity)
        nlinarith
      have h3 : Real.exp (-(1 / 2) * Real.sqrt 2) * Real.exp (1 / 2 * Real.sqrt 2) = 1 := by
        rw [← Real.exp_add, ← Real.exp_zero]
        congr 1
        ring
      have := Real.exp_pos (-(1 / 2) * Real.sqrt 2)
      nlinarith
    rw [b1]
    nlinarith

/-! ### Cases meeting the hypotheses -/

/-- A factorisation as assumed exists in every dimension. -/
theorem Optim.exists_cholesky (p : Nat) : ∃ chol : Matrix (Fin p) (Fin p) ℝ → Option (Matrix (Fin p) (Fin p) ℝ), Cholesky chol := by
  classical
  have h : ∀ M : Matrix (Fin p) (Fin p) ℝ, M.PosDef → ∃ L : Matrix (Fin p) (Fin p) ℝ, L * L.transpose = M := by
    intro M hM
    have hs := hM.isHermitian.spectral_theorem
    rw [Unitary.conjStarAlgAut_apply] at hs
    set U : Matrix (Fin p) (Fin p) ℝ := (hM.isHermitian.eigenvectorUnitary).1 with hU
    refine ⟨U * Matrix.diagonal (fun i => Real.sqrt (hM.isHermitian.eigenvalues i)), ?_⟩
    rw [Matrix.transpose_mul, Matrix.diagonal_transpose, Matrix.mul_assoc, ← Matrix.mul_assoc (Matrix.diagonal _),
      Matrix.diagonal_mul_diagonal]
    have he : (fun i => Real.sqrt (hM.isHermitian.eigenvalues i) * Real.sqrt (hM.isHermitian.eigenvalues i)) =
        (RCLike.ofReal ∘ hM.isHermitian.eigenvalues : Fin p → ℝ) := by
      funext i
      rw [Real.mul_self_sqrt (hM.posSemidef.eigenvalues_nonneg i)]
      rfl
    rw [he, ← Matrix.mul_assoc]
    exact hs.symm
  refine ⟨fun M => if hM : M.PosDef then some (Classical.choose (h M hM)) else none, fun M hM => ⟨_, dif_pos hM⟩, ?_⟩
  intro M L _ hL
  simp only at hL
  split_ifs at hL with hM
  cases hL
  exact ⟨hM, Classical.choose_spec (h M hM)⟩

/-- In one dimension: dividing by the absolute value (1 for the zero matrix). -/
example : IsQr (d := 1) (p := 1) (fun W => if W 0 0 = 0 then 1 else Matrix.of fun _ _ => W 0 0 / |W 0 0|) := by
  intro W
  by_cases h : W 0 0 = 0
  · simp only [h, if_true]
    exact ⟨by simp, W, by simp⟩
  · simp only [h, if_false]
    have h' : |W 0 0| ≠ 0 := abs_ne_zero.2 h
    refine ⟨?_, Matrix.of fun _ _ => |W 0 0|, ?_⟩
    · ext i j
      fin_cases i; fin_cases j
      simp only [Matrix.mul_apply, Matrix.transpose_apply, Matrix.of_apply, Finset.univ_unique, Finset.sum_singleton, Fin.zero_eta,
        Matrix.one_apply_eq]
      rw [div_mul_div_comm, abs_mul_abs_self, div_self (mul_ne_zero h h)]
    · ext i j
      fin_cases i; fin_cases j
      simp only [Matrix.mul_apply, Matrix.of_apply, Finset.univ_unique, Finset.sum_singleton, Fin.zero_eta]
      field_simp

/-- Two distinct rows on each side. -/
example : ¬ AllEqual (([![0, 1], ![1, 1]] : List (Fin 2 → ℝ)).map (fun x => Matrix.vecMul x (1 : Matrix (Fin 2) (Fin 2) ℝ))) := by
  intro h
  have := h ![0, 1] (by simp) ![1, 1] (by simp)
  exact absurd (congrFun this 0) (by simp)

/-- A fit that returns: one feature, source rows `-1, 1`, target rows `0, 3`, PCA; the optimiser stays at the start. -/
example (chol : ∀ p, Matrix (Fin p) (Fin p) ℝ → Option (Matrix (Fin p) (Fin p) ℝ)) (hc : ∀ p, Cholesky (chol p)) :
    ∃ out, tslFit (d := 1) Real.exp Real.sqrt chol (fun _ W => W) (fun _ => stay) (fun _ _ => []) .pca 2 (1 / 100) (1 / 10) (1 / 100) 100
      none [fun _ => -1, fun _ => 1, fun _ => 0, fun _ => 3] (some [(0 : Nat), 1, 0, 1]) (.vec [1, 1, -2, -2]) = .ok out := by
  simp only [tslFit, RW.check_ok (X := [fun _ : Fin 1 => -1, fun _ => 1, fun _ => 0, fun _ => (3 : ℝ)]) (sd := [1, 1, -2, -2]) (by simp) (by simp),
    bind, Except.bind, RW.splitX_ok (X := [fun _ : Fin 1 => -1, fun _ => 1, fun _ => 0, fun _ => (3 : ℝ)]) (sd := [1, 1, -2, -2]) (by simp) (by simp),
    RW.splitX_ok (X := [(0 : Nat), 1, 0, 1]) (sd := [1, 1, -2, -2]) (by simp) (by simp), List.length_cons, List.length_nil]
  have h1 : sourceRows [1, 1, -2, -2] [fun _ : Fin 1 => -1, fun _ => 1, fun _ => 0, fun _ => (3 : ℝ)] = [fun _ => -1, fun _ => 1] := by rfl
  have h2 : targetRows [1, 1, -2, -2] [fun _ : Fin 1 => -1, fun _ => 1, fun _ => 0, fun _ => (3 : ℝ)] = [fun _ => 0, fun _ => 3] := by rfl
  rw [h1, h2]
  have hE : (eyeCols 1 1 : Matrix (Fin 1) (Fin 1) ℝ) = 1 := by
    ext i j; fin_cases i; fin_cases j; rfl
  have hD := (C122_divergence (chol 1) (hc 1) (1 / 100) (by norm_num) (by norm_num) (eyeCols 1 1)
    [fun _ => -1, fun _ => 1] [fun _ => 0, fun _ => 3] (by
      rw [hE]
      intro h
      have := h (fun _ => -1) (by simp) (fun _ => 1) (by simp)
      have := congrFun this 0
      norm_num at this) (by
      rw [hE]
      intro h
      have := h (fun _ => 0) (by simp) (fun _ => 3) (by simp)
      have := congrFun this 0
      norm_num at this)).1
  have hloss : ∀ ys : List Nat, ∃ v, tslLoss Real.exp Real.sqrt (chol 1) .pca 2 (1 / 100) (1 / 10) [fun _ => -1, fun _ => 1] ys [fun _ => 0, fun _ => 3]
      (eyeCols 1 1) = .ok v := by
    intro ys
    unfold tslLoss
    rw [hD]
    exact ⟨_, rfl⟩
  obtain ⟨v, hv⟩ := hloss (sourceRows [1, 1, -2, -2] [(0 : Nat), 1, 0, 1])
  generalize hq : tslCols none (0 + 1 + 1 + 1 + 1) 1 = q
  have hq1 : q = 1 := by rw [← hq]; rfl
  subst hq1
  have ho : ∃ W, tslOptimize (d := 1) (p := 1) Real.exp Real.sqrt (chol 1) (fun W => W) stay (fun _ => []) .pca 2 (1 / 100) (1 / 10) (1 / 100) 100
      [fun _ => -1, fun _ => 1] (sourceRows [1, 1, -2, -2] [(0 : Nat), 1, 0, 1]) [fun _ => 0, fun _ => 3] = .ok W := by
    obtain ⟨w, hm⟩ := minimize_returns (lbfgs := stay)
      (loss := tslFunc Real.exp Real.sqrt (chol 1) (fun W => W) .pca 2 (1 / 100) (1 / 10) [fun _ => -1, fun _ => 1]
        (sourceRows [1, 1, -2, -2] [(0 : Nat), 1, 0, 1]) [fun _ => 0, fun _ => 3]) (grad := fun _ => []) (x0 := .one (eyeCols 1 1)) (tol := 1 / 100)
      (maxIter := 100) (s := { final := [eyeCols 1 1], last := [eyeCols 1 1] }) (v := v) (by simp [Pack.toList])
      (by
        have hv' : tslFunc Real.exp Real.sqrt (chol 1) (fun W => W) .pca 2 (1 / 100) (1 / 10) [fun _ => -1, fun _ => 1]
          (sourceRows [1, 1, -2, -2] [(0 : Nat), 1, 0, 1]) [fun _ => 0, fun _ => 3] [eyeCols 1 1] = .ok v := hv
        simp only [stay, Pack.toList, bind, Except.bind, pure, Except.pure, hv']) hv
    refine ⟨eyeCols 1 1, ?_⟩
    unfold tslOptimize
    rw [hm]
    rfl
  obtain ⟨W, hW⟩ := ho
  rw [hW]
  exact ⟨_, rfl⟩

/-- Two rows in the plane: without shrinkage the covariance of two components is singular. -/
example (chol : Matrix (Fin 2) (Fin 2) ℝ → Option (Matrix (Fin 2) (Fin 2) ℝ)) (hc : Cholesky chol) (Xt : List (Fin 2 → ℝ)) :
    tslD Real.exp Real.sqrt chol 0 (1 : Matrix (Fin 2) (Fin 2) ℝ) [![0, 1], ![1, 1]] Xt = .error .runtimeError :=
  C122_errors chol hc (by norm_num) 0 1 _ _ (.inr (.inr ⟨rfl, .inl (by simp)⟩))

end
end Skada

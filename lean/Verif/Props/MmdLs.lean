/-
C121: the mapping learned by MMDLSConS is at least as good as no mapping; what the labels have to do with it.
-/
import Verif.Props.Optim
import Verif.Props.DeepMMD
import Verif.Lemmas.Np
import Mathlib.LinearAlgebra.Matrix.PosDef

namespace Skada

namespace Spec

variable {d m n : Nat}

/-- The kernel `exp (-γ ‖x - y‖)`. -/
noncomputable def lapKer (γ : ℝ) (x y : Fin d → ℝ) : ℝ := Real.exp (-(γ * eucl x y))

/-- Squared maximum mean discrepancy of two weighted samples: `‖∑ a_i φ(A_i) - ∑ b_i φ(B_i)‖²` for the kernel `k`. -/
def wmmd2 (k : (Fin d → ℝ) → (Fin d → ℝ) → ℝ) (a : Fin m → ℝ) (A : Fin m → Fin d → ℝ) (b : Fin n → ℝ) (B : Fin n → Fin d → ℝ) : ℝ :=
  (∑ i, ∑ j, a i * a j * k (A i) (A j)) + (∑ i, ∑ j, b i * b j * k (B i) (B j)) - 2 * ∑ i, ∑ j, b i * a j * k (B i) (A j)

/-- The weights the objective gives to the source rows: column averages of `L (L + r I)⁻¹`, `L` the kernel matrix. -/
noncomputable def lsWeights (γ r : ℝ) (Xs : Fin m → Fin d → ℝ) (j : Fin m) : ℝ :=
  let L : Matrix (Fin m) (Fin m) ℝ := Matrix.of fun i j => lapKer γ (Xs i) (Xs j)
  (∑ i, (L * (L + r • (1 : Matrix (Fin m) (Fin m) ℝ))⁻¹) i j) / m

/-- How far scales are from one and offsets from zero, per row. -/
noncomputable def lsDeviation (W B : Fin m → Fin d → ℝ) : ℝ := (∑ i, ∑ j, ((W i j - 1) ^ 2 + B i j ^ 2)) / m

end Spec

open Spec Optim

namespace Optim
variable {d m n : Nat}

theorem lsKernel_eq (γ : ℝ) (x y : Fin d → ℝ) : lsKernel Real.exp Real.sqrt γ x y = lapKer γ x y := by
  unfold lsKernel lapKer
  rw [DL.dist_eq, neg_mul]

theorem lapKer_psd {ι : Type} [Fintype ι] {γ : ℝ} (hγ : 0 ≤ γ) (x : ι → Fin d → ℝ) : Ker.PSD (fun i j => lapKer γ (x i) (x j)) := by
  have h := Ker.psd_laplace (fun i => (WithLp.toLp 2 (x i) : EuclideanSpace ℝ (Fin d))) hγ
  refine h.congr' fun i j => ?_
  unfold lapKer
  rw [DL.eucl_eq_norm]

theorem lapKer_comm (γ : ℝ) (x y : Fin d → ℝ) : lapKer γ x y = lapKer γ y x := by
  unfold lapKer; rw [DL.eucl_comm]

theorem lapKer_self (γ : ℝ) (x : Fin d → ℝ) : lapKer γ x x = 1 := by
  unfold lapKer; rw [DL.eucl_self]; simp

theorem wmmd2_nonneg {γ : ℝ} (hγ : 0 ≤ γ) (a : Fin m → ℝ) (A : Fin m → Fin d → ℝ) (b : Fin n → ℝ) (B : Fin n → Fin d → ℝ) :
    0 ≤ wmmd2 (lapKer γ) a A b B := by
  have h := (lapKer_psd hγ (Sum.elim A B)).2 (Sum.elim a (fun i => - b i))
  simp only [Fintype.sum_sum_type, Sum.elim_inl, Sum.elim_inr] at h
  have e : ∑ x : Fin m, ∑ y : Fin n, a x * -b y * lapKer γ (A x) (B y) = - ∑ i, ∑ j, b i * a j * lapKer γ (B i) (A j) := by
    rw [Finset.sum_comm, ← Finset.sum_neg_distrib]
    refine Finset.sum_congr rfl fun i _ => ?_
    rw [← Finset.sum_neg_distrib]
    refine Finset.sum_congr rfl fun j _ => ?_
    rw [lapKer_comm]; ring
  have e2 : ∑ x : Fin n, ∑ y : Fin m, -b x * a y * lapKer γ (B x) (A y) = - ∑ i, ∑ j, b i * a j * lapKer γ (B i) (A j) := by
    simp only [neg_mul, Finset.sum_neg_distrib]
  simp only [Finset.sum_add_distrib] at h
  rw [e, e2] at h
  unfold wmmd2
  simp only [neg_mul_neg] at h
  linarith

theorem sum_entries {k : Nat} (M : Matrix (Fin m) (Fin k) ℝ) : ∑ i, ∑ j, M i j = dotProduct (fun _ => 1) (M.mulVec (fun _ => 1)) := by
  simp [dotProduct, Matrix.mulVec]

theorem sum_conj (ω Km : Matrix (Fin m) (Fin m) ℝ) :
    ∑ i, ∑ j, (ω * Km * ω.transpose) i j = ∑ a, ∑ b, (∑ i, ω i a) * (∑ i, ω i b) * Km a b := by
  have hv : ω.transpose.mulVec (fun _ => (1 : ℝ)) = fun a => ∑ i, ω i a := by
    funext a; simp [Matrix.mulVec, dotProduct]
  rw [sum_entries, ← Matrix.mulVec_mulVec, ← Matrix.mulVec_mulVec, Matrix.dotProduct_mulVec, ← Matrix.mulVec_transpose, hv]
  simp only [dotProduct, Matrix.mulVec]
  refine Finset.sum_congr rfl fun a _ => ?_
  rw [Finset.mul_sum]
  exact Finset.sum_congr rfl fun b _ => by ring

theorem sum_cross (ω : Matrix (Fin m) (Fin m) ℝ) (Kc : Matrix (Fin n) (Fin m) ℝ) :
    ∑ i, ∑ j, (Kc * ω.transpose) i j = ∑ t, ∑ b, (∑ i, ω i b) * Kc t b := by
  have hv : ω.transpose.mulVec (fun _ => (1 : ℝ)) = fun a => ∑ i, ω i a := by
    funext a; simp [Matrix.mulVec, dotProduct]
  rw [sum_entries, ← Matrix.mulVec_mulVec, hv]
  simp only [dotProduct, Matrix.mulVec, one_mul]
  refine Finset.sum_congr rfl fun a _ => Finset.sum_congr rfl fun b _ => by ring

/-- The objective is the weighted discrepancy up to a constant of the target rows, plus the penalty. -/
theorem obj_eq {k : Nat} (γ regM : ℝ) (hm : 0 < m) (hn : 0 < n) (Xs : Matrix (Fin m) (Fin d) ℝ) (Xt : Matrix (Fin n) (Fin d) ℝ)
    (ω : Matrix (Fin m) (Fin m) ℝ) (R : Matrix (Fin m) (Fin k) ℝ) (G H : Matrix (Fin k) (Fin d) ℝ) :
    mmdlsObj (lsKernel Real.exp Real.sqrt γ) regM Xs Xt ω R G H + (∑ i, ∑ j, (1 / (n : ℝ)) * (1 / n) * lapKer γ (Xt i) (Xt j)) =
      wmmd2 (lapKer γ) (fun j => (∑ i, ω i j) / m) (fun i j => (R * G) i j * Xs i j + (R * H) i j) (fun _ => 1 / (n : ℝ)) Xt
        + regM * lsDeviation (fun i j => (R * G) i j) (fun i j => (R * H) i j) := by
  have hm' : (m : ℝ) ≠ 0 := by exact_mod_cast hm.ne'
  have hn' : (n : ℝ) ≠ 0 := by exact_mod_cast hn.ne'
  have hof : ∀ x, (Matrix.of fun i j => (R * G) i j * Xs i j + (R * H) i j : Matrix (Fin m) (Fin d) ℝ) x =
      fun j => (R * G) x j * Xs x j + (R * H) x j := fun _ => rfl
  unfold mmdlsObj wmmd2 lsDeviation
  simp only [sum_conj, sum_cross, Matrix.of_apply, lsKernel_eq, hof]
  have e1 : ∀ Kx : Fin m → Fin m → ℝ, ∑ a, ∑ b, (∑ i, ω i a) / m * ((∑ i, ω i b) / m) * Kx a b
      = 1 / (m : ℝ) ^ 2 * ∑ a, ∑ b, (∑ i, ω i a) * (∑ i, ω i b) * Kx a b := by
    intro Kx
    rw [Finset.mul_sum]
    refine Finset.sum_congr rfl fun a _ => ?_
    rw [Finset.mul_sum]
    refine Finset.sum_congr rfl fun b _ => ?_
    field_simp
  have e2 : ∀ Kx : Fin n → Fin m → ℝ, ∑ t, ∑ b, 1 / (n : ℝ) * ((∑ i, ω i b) / m) * Kx t b
      = 1 / (m * n : ℝ) * ∑ t, ∑ b, (∑ i, ω i b) * Kx t b := by
    intro Kx
    rw [Finset.mul_sum]
    refine Finset.sum_congr rfl fun a _ => ?_
    rw [Finset.mul_sum]
    refine Finset.sum_congr rfl fun b _ => ?_
    field_simp
  have e3 : ∑ i, ∑ j, (((R * G) i j - 1) ^ 2 + (R * H) i j ^ 2) = (∑ i, ∑ j, ((R * G) i j - 1) ^ 2) + ∑ i, ∑ j, (R * H) i j ^ 2 := by
    simp only [Finset.sum_add_distrib]
  rw [e1 (fun a b => lapKer γ (fun j => (R * G) a j * Xs a j + (R * H) a j) (fun j => (R * G) b j * Xs b j + (R * H) b j)),
    e2 (fun t b => lapKer γ (Xt t) (fun j => (R * G) b j * Xs b j + (R * H) b j)), e3]
  ring

theorem smoother_ok {γ r : ℝ} (hγ : 0 ≤ γ) (hr : 0 < r) (Xs : Fin m → Fin d → ℝ) :
    let L : Matrix (Fin m) (Fin m) ℝ := Matrix.of fun i j => lsKernel Real.exp Real.sqrt γ (Xs i) (Xs j)
    smoother r L = .ok (L * (L + r • (1 : Matrix (Fin m) (Fin m) ℝ))⁻¹) := by
  intro L
  have hL : L.PosSemidef := by
    have h := (Ker.psd_iff _).1 (lapKer_psd hγ Xs)
    have e : L = Matrix.of fun i j => lapKer γ (Xs i) (Xs j) := by
      ext i j; exact lsKernel_eq γ _ _
    rw [e]; exact h
  have hpd : (L + r • (1 : Matrix (Fin m) (Fin m) ℝ)).PosDef := by
    have h1 : (r • (1 : Matrix (Fin m) (Fin m) ℝ)).PosDef := Matrix.PosDef.one.smul hr
    exact Matrix.PosDef.posSemidef_add hL h1
  unfold smoother
  rw [if_neg hpd.det_pos.ne']

/-- What a successful optimisation has done. -/
theorem optimize_ok {β : Type} [LinearOrder β] {γ regK regM tol : ℝ} {maxIter : Nat}
    {lbfgs : ∀ k, Lbfgs (Matrix (Fin k) (Fin d) ℝ) ℝ} {grad : ∀ k, List (Matrix (Fin k) (Fin d) ℝ) → List (List (Option ℝ))}
    {Xs : Matrix (Fin m) (Fin d) ℝ} {Xt : Matrix (Fin n) (Fin d) ℝ} {y : Labels β} {M : LsMap ℝ m (y.cols m) d}
    (hd : Descends (lbfgs (y.cols m)))
    (h : mmdlsOptimize Real.exp Real.sqrt γ regK regM tol maxIter lbfgs grad Xs Xt y = .ok M) :
    ∃ ω R, smoother regK (Matrix.of fun i j => lsKernel Real.exp Real.sqrt γ (Xs i) (Xs j)) = .ok ω ∧
      lsR regK (Matrix.of fun i j => lsKernel Real.exp Real.sqrt γ (Xs i) (Xs j)) y = .ok R ∧
      0 < m ∧ 0 < n ∧ M.W = R * M.G ∧ M.B = R * M.H ∧
      mmdlsObj (lsKernel Real.exp Real.sqrt γ) regM Xs Xt ω R M.G M.H ≤
        mmdlsObj (lsKernel Real.exp Real.sqrt γ) regM Xs Xt ω R (Matrix.of fun _ _ => 1) 0 := by
  unfold mmdlsOptimize at h
  cases hω : smoother regK (Matrix.of fun i j => lsKernel Real.exp Real.sqrt γ (Xs i) (Xs j)) with
  | error e => simp only [hω, bind, Except.bind] at h; cases h
  | ok ω =>
    cases hR : lsR regK (Matrix.of fun i j => lsKernel Real.exp Real.sqrt γ (Xs i) (Xs j)) y with
    | error e => simp only [hω, hR, bind, Except.bind] at h; cases h
    | ok R =>
      simp only [hω, hR, bind, Except.bind] at h
      refine ⟨ω, R, rfl, rfl, ?_⟩
      split at h
      · cases h
      · rename_i out hout
        obtain ⟨hval, -, -, hdesc⟩ := (C120_result _ _ _ _ _ _).2 out hout
        obtain ⟨-, v0, hv0, hle⟩ := hdesc hd
        unfold lsResult at h
        split at h
        · rename_i G H hx
          cases h
          rw [hx] at hval
          simp only [Pack.toList, lsFunc] at hval hv0
          by_cases h0 : m = 0 ∨ n = 0
          · rw [if_pos h0] at hv0; cases hv0
          · rw [if_neg h0] at hv0 hval
            simp only [Except.ok.injEq] at hv0 hval
            rw [← hv0, ← hval] at hle
            push Not at h0
            exact ⟨Nat.pos_of_ne_zero h0.1, Nat.pos_of_ne_zero h0.2, rfl, rfl, hle⟩
        · cases h

theorem discrete_rows {β : Type} [LinearOrder β] (y : List β) (hy : y.length = m) (regK : ℝ) (L : Matrix (Fin m) (Fin m) ℝ)
    (R : Matrix (Fin m) (Fin ((Labels.discrete y).cols m)) ℝ) (h : lsR regK L (.discrete y) = .ok R) :
    R * (Matrix.of fun _ _ => (1 : ℝ) : Matrix (Fin ((Labels.discrete y).cols m)) (Fin d) ℝ) = Matrix.of fun _ _ => 1 := by
  cases h
  ext i j
  simp only [Matrix.mul_apply, Matrix.of_apply, mul_one]
  have hi : i.val < y.length := by rw [hy]; exact i.2
  have hmem : y[i.val] ∈ Np.unique y := Np.mem_unique.2 (List.getElem_mem hi)
  obtain ⟨c, hc, hce⟩ := List.getElem_of_mem hmem
  change (∑ j : Fin (Np.unique y).length, if y[i]? = (Np.unique y)[j]? then (1 : ℝ) else 0) = 1
  rw [Finset.sum_eq_single (⟨c, hc⟩ : Fin (Np.unique y).length)]
  · rw [if_pos]
    simp only [Fin.getElem?_fin, List.getElem?_eq_getElem hi, List.getElem?_eq_getElem hc, hce]
  · intro b _ hb
    rw [if_neg]
    intro hcon
    apply hb
    have hnd : (Np.unique y).Nodup := Np.nodup_unique y
    have e : (Np.unique y)[b.val]? = (Np.unique y)[c]? := by
      simp only [Fin.getElem?_fin] at hcon
      rw [← hcon, List.getElem?_eq_getElem hi, List.getElem?_eq_getElem hc, hce]
    exact Fin.ext (List.getElem?_inj b.2 hnd |>.1 e)
  · intro hn
    exact absurd (Finset.mem_univ _) hn

end Optim

section C121
variable {d m n : Nat} {β : Type} [LinearOrder β]

/-- **C121 (classification)** For class labels, any data and any descent optimiser: the mapped source rows `W ⊙ X + B`
together with the penalty are at most as far from the target rows, in the maximum mean discrepancy for the kernel
`exp(-γ‖x-y‖)` with the weights `lsWeights` on the source rows, as the unmapped source rows are.  With a non-negative penalty
factor the discrepancy itself has not grown. -/
theorem C121_improves_partial (γ regK regM tol : ℝ) (hγ : 0 ≤ γ) (hr : 0 < regK) (hM : 0 ≤ regM) (maxIter : Nat)
    (lbfgs : ∀ k, Lbfgs (Matrix (Fin k) (Fin d) ℝ) ℝ) (grad : ∀ k, List (Matrix (Fin k) (Fin d) ℝ) → List (List (Option ℝ)))
    (Xs : Matrix (Fin m) (Fin d) ℝ) (Xt : Matrix (Fin n) (Fin d) ℝ) (y : List β) (hy : y.length = m)
    (hd : ∀ k, Descends (lbfgs k)) (M : LsMap ℝ m ((Labels.discrete y).cols m) d)
    (h : mmdlsOptimize Real.exp Real.sqrt γ regK regM tol maxIter lbfgs grad Xs Xt (.discrete y) = .ok M) :
    wmmd2 (lapKer γ) (lsWeights γ regK Xs) (fun i j => M.W i j * Xs i j + M.B i j) (fun _ => 1 / (n : ℝ)) Xt
        + regM * lsDeviation M.W M.B
      ≤ wmmd2 (lapKer γ) (lsWeights γ regK Xs) Xs (fun _ => 1 / (n : ℝ)) Xt ∧
    wmmd2 (lapKer γ) (lsWeights γ regK Xs) (fun i j => M.W i j * Xs i j + M.B i j) (fun _ => 1 / (n : ℝ)) Xt
      ≤ wmmd2 (lapKer γ) (lsWeights γ regK Xs) Xs (fun _ => 1 / (n : ℝ)) Xt := by
  obtain ⟨ω, R, hω, hR, hm, hn, hW, hB, hle⟩ := optimize_ok (hd _) h
  have hω' := smoother_ok hγ hr Xs
  simp only at hω'
  rw [hω] at hω'
  have hwt : (fun j => (∑ i, ω i j) / (m : ℝ)) = lsWeights γ regK Xs := by
    funext j
    unfold lsWeights
    have e : (Matrix.of fun i j => lsKernel Real.exp Real.sqrt γ (Xs i) (Xs j) : Matrix (Fin m) (Fin m) ℝ)
        = Matrix.of fun i j => lapKer γ (Xs i) (Xs j) := by
      ext i j; exact lsKernel_eq γ _ _
    rw [e] at hω'
    cases hω'
    rfl
  have h1 := obj_eq γ regM hm hn Xs Xt ω R M.G M.H
  have h2 := obj_eq γ regM hm hn Xs Xt ω R (Matrix.of fun _ _ => 1) 0
  have hone := discrete_rows (d := d) y hy regK _ R hR
  rw [hwt, ← hW, ← hB] at h1
  rw [hwt, hone, Matrix.mul_zero] at h2
  have hid : (fun (i : Fin m) (j : Fin d) => (Matrix.of fun _ _ => (1 : ℝ) : Matrix (Fin m) (Fin d) ℝ) i j * Xs i j
      + (0 : Matrix (Fin m) (Fin d) ℝ) i j) = Xs := by
    funext i j; simp
  have hdev : lsDeviation (fun (i : Fin m) (j : Fin d) => (Matrix.of fun _ _ => (1 : ℝ) : Matrix (Fin m) (Fin d) ℝ) i j)
      (fun i j => (0 : Matrix (Fin m) (Fin d) ℝ) i j) = 0 := by
    simp [lsDeviation]
  rw [hid, hdev, mul_zero, add_zero] at h2
  have hnn : 0 ≤ lsDeviation M.W M.B := by
    unfold lsDeviation
    exact div_nonneg (Finset.sum_nonneg fun i _ => Finset.sum_nonneg fun j _ => by positivity) (Nat.cast_nonneg m)
  have hmain : wmmd2 (lapKer γ) (lsWeights γ regK Xs) (fun i j => M.W i j * Xs i j + M.B i j) (fun _ => 1 / (n : ℝ)) Xt
        + regM * lsDeviation M.W M.B
      ≤ wmmd2 (lapKer γ) (lsWeights γ regK Xs) Xs (fun _ => 1 / (n : ℝ)) Xt := by
    rw [← h2]
    have : lsDeviation M.W M.B = lsDeviation (fun i j => M.W i j) (fun i j => M.B i j) := rfl
    rw [this, ← h1]
    linarith
  exact ⟨hmain, by nlinarith [mul_nonneg hM hnn]⟩

omit [LinearOrder β] in
/-- **C121 (rows of the stored matrices)** For class labels the scales and offsets of a source row are the row of `G_` and `H_`
(the matrices used for new rows) at the position of its class among the sorted distinct labels. -/
theorem C121_class_rows [LinearOrder β] (γ regK regM tol : ℝ) (maxIter : Nat)
    (lbfgs : ∀ k, Lbfgs (Matrix (Fin k) (Fin d) ℝ) ℝ) (grad : ∀ k, List (Matrix (Fin k) (Fin d) ℝ) → List (List (Option ℝ)))
    (Xs : Matrix (Fin m) (Fin d) ℝ) (Xt : Matrix (Fin n) (Fin d) ℝ) (y : List β) (hy : y.length = m)
    (hd : ∀ k, Descends (lbfgs k)) (M : LsMap ℝ m ((Labels.discrete y).cols m) d)
    (h : mmdlsOptimize Real.exp Real.sqrt γ regK regM tol maxIter lbfgs grad Xs Xt (.discrete y) = .ok M)
    (i : Fin m) (c : Fin ((Labels.discrete y).cols m)) (hi : y[i.val]? = (Np.unique y)[c.val]?) : M.W i = M.G c ∧ M.B i = M.H c := by
  obtain ⟨ω, R, -, hR, -, -, hW, hB, -⟩ := optimize_ok (hd _) h
  have hiy : i.val < y.length := by rw [hy]; exact i.2
  have hcl : c.val < (Np.unique y).length := c.2
  have hrow : ∀ c', R i c' = if c' = c then 1 else 0 := by
    intro c'
    cases hR
    simp only [Matrix.of_apply, Fin.getElem?_fin, hi]
    by_cases hcc : c' = c
    · subst hcc; simp
    · rw [if_neg hcc, if_neg]
      intro e
      exact hcc (Fin.ext ((List.getElem?_inj hcl (Np.nodup_unique y)).1 e).symm)
  rw [hW, hB]
  constructor <;> funext j <;> simp [Matrix.mul_apply, hrow]

omit [LinearOrder β] in
/-- **C121 (one map per class)** For class labels, source rows of the same class get the same scales and offsets. -/
theorem C121_per_class [LinearOrder β] (γ regK regM tol : ℝ) (maxIter : Nat)
    (lbfgs : ∀ k, Lbfgs (Matrix (Fin k) (Fin d) ℝ) ℝ) (grad : ∀ k, List (Matrix (Fin k) (Fin d) ℝ) → List (List (Option ℝ)))
    (Xs : Matrix (Fin m) (Fin d) ℝ) (Xt : Matrix (Fin n) (Fin d) ℝ) (y : List β)
    (hd : ∀ k, Descends (lbfgs k)) (M : LsMap ℝ m ((Labels.discrete y).cols m) d)
    (h : mmdlsOptimize Real.exp Real.sqrt γ regK regM tol maxIter lbfgs grad Xs Xt (.discrete y) = .ok M)
    (i i' : Fin m) (hi : y[i.val]? = y[i'.val]?) : M.W i = M.W i' ∧ M.B i = M.B i' := by
  obtain ⟨ω, R, -, hR, -, -, hW, hB, -⟩ := optimize_ok (hd _) h
  have hrow : R i = R i' := by
    cases hR
    funext c
    simp only [Matrix.of_apply, Fin.getElem?_fin, hi]
  rw [hW, hB]
  constructor <;> funext j <;> simp only [Matrix.mul_apply, hrow]

/-- **C121 (never fails)** With a positive `reg_k` and `gamma ≥ 0` the matrix inverted is invertible for all data, so the fit
succeeds whenever the optimiser does. -/
theorem C121_returns (γ regK regM tol : ℝ) (hγ : 0 ≤ γ) (hr : 0 < regK) (maxIter : Nat)
    (lbfgs : ∀ k, Lbfgs (Matrix (Fin k) (Fin d) ℝ) ℝ) (grad : ∀ k, List (Matrix (Fin k) (Fin d) ℝ) → List (List (Option ℝ)))
    (Xs : Matrix (Fin m) (Fin d) ℝ) (Xt : Matrix (Fin n) (Fin d) ℝ) (hm : 0 < m) (hn : 0 < n) (y : Labels β)
    (hret : ∀ k c t it x0, (∀ p : List (Matrix (Fin k) (Fin d) ℝ), p.length = x0.length → ∃ v, c p = .ok v) →
      ∃ s, lbfgs k c t it x0 = .ok s ∧ s.final.length = x0.length) :
    ∃ M, mmdlsOptimize Real.exp Real.sqrt γ regK regM tol maxIter lbfgs grad Xs Xt y = .ok M := by
  have hω := smoother_ok hγ hr Xs
  simp only at hω
  have hR : ∃ R, lsR regK (Matrix.of fun i j => lsKernel Real.exp Real.sqrt γ (Xs i) (Xs j)) y = .ok R := by
    cases y with
    | discrete y => exact ⟨_, rfl⟩
    | continuous y => exact ⟨_, hω⟩
  obtain ⟨R, hR⟩ := hR
  unfold mmdlsOptimize
  simp only [hω, hR, bind, Except.bind]
  have h0 : ¬ (m = 0 ∨ n = 0) := by omega
  set ω := (Matrix.of fun i j => lsKernel Real.exp Real.sqrt γ (Xs i) (Xs j) : Matrix (Fin m) (Fin m) ℝ) *
    ((Matrix.of fun i j => lsKernel Real.exp Real.sqrt γ (Xs i) (Xs j)) + regK • 1)⁻¹ with hωd
  have h2 : ∀ p, p.length = 2 → ∃ v, lsFunc (lsKernel Real.exp Real.sqrt γ) regM Xs Xt ω R p = .ok v := by
    intro p hp
    rcases p with _ | ⟨G, _ | ⟨H, _ | ⟨_, _⟩⟩⟩
    · cases hp
    · cases hp
    · exact ⟨_, if_neg h0⟩
    · simp at hp
  obtain ⟨s, hs, hlen⟩ := hret (y.cols m) (fun p => do
      let v ← lsFunc (lsKernel Real.exp Real.sqrt γ) regM Xs Xt ω R p
      return (v, grad _ p)) tol maxIter
    [Matrix.of fun _ _ => 1, 0] (fun p hp => by
      obtain ⟨v, hv⟩ := h2 p hp
      exact ⟨(v, grad _ p), by simp only [hv]; rfl⟩)
  obtain ⟨v, hv⟩ := h2 s.final hlen
  obtain ⟨w, hw⟩ := minimize_returns (x0 := .many [Matrix.of fun _ _ => 1, 0]) (by simp [Pack.toList]) hs hv
  rw [hw]
  rcases hf : s.final with _ | ⟨G, _ | ⟨H, _ | ⟨_, _⟩⟩⟩
  · rw [hf] at hlen; cases hlen
  · rw [hf] at hlen; cases hlen
  · exact ⟨_, rfl⟩
  · rw [hf] at hlen; simp at hlen

/-- Two source rows of two classes, one target row; the optimiser tries larger parameters and keeps the better ones. -/
example : ∃ M, mmdlsOptimize (β := ℕ) Real.exp Real.sqrt 1 (1 / 10) (1 / 100) (1 / 100) 10
      (fun _ => tryOnce (fun p => p.map (fun A => A + Matrix.of fun _ _ => 1)))
      (fun _ _ => []) (!![0; 1] : Matrix (Fin 2) (Fin 1) ℝ) (!![2] : Matrix (Fin 1) (Fin 1) ℝ) (.discrete [5, 7]) = .ok M :=
  C121_returns 1 (1 / 10) (1 / 100) (1 / 100) (by norm_num) (by norm_num) 10 _ _ _ _ (by norm_num) (by norm_num) _
    (fun k c t it x0 hc => by
      obtain ⟨v, hv⟩ := hc x0 rfl
      obtain ⟨v', hv'⟩ := hc (x0.map (fun A => A + Matrix.of fun _ _ => 1)) (by simp)
      simp only [tryOnce, hv, hv', bind, Except.bind, pure, Except.pure]
      refine ⟨_, rfl, ?_⟩
      dsimp only
      split_ifs <;> simp)

/-- **C121 (weights)** If the rows are distinct and `reg_k = 0`, `gamma > 0`, the source rows count equally: the quantity
of `C121_improves_partial` is then the ordinary maximum mean discrepancy. -/
theorem C121_weights (γ : ℝ) (hγ : 0 < γ) (Xs : Fin m → Fin d → ℝ) (hinj : Function.Injective Xs) (j : Fin m) :
    lsWeights γ 0 Xs j = 1 / m := by
  unfold lsWeights
  set L : Matrix (Fin m) (Fin m) ℝ := Matrix.of fun i j => lapKer γ (Xs i) (Xs j) with hL
  have hpsd : L.PosSemidef := (Ker.psd_iff _).1 (lapKer_psd hγ.le Xs)
  have hker : ∀ c : Fin m → ℝ, L.mulVec c = 0 → c = 0 := by
    intro c hc
    funext i
    have hinj' : Function.Injective (fun i => (WithLp.toLp 2 (Xs i) : EuclideanSpace ℝ (Fin d))) := by
      intro a b hab
      exact hinj (by simpa using hab)
    refine Ker.laplace_strict _ hinj' hγ ?_ i
    have : ∑ i, ∑ j, c i * c j * lapKer γ (Xs i) (Xs j) = dotProduct c (L.mulVec c) := by
      simp only [dotProduct, Matrix.mulVec, Finset.mul_sum, hL, Matrix.of_apply]
      refine Finset.sum_congr rfl fun i _ => Finset.sum_congr rfl fun j _ => by ring
    rw [hc, dotProduct_zero] at this
    rw [← this]
    refine Finset.sum_congr rfl fun i _ => Finset.sum_congr rfl fun j _ => ?_
    unfold lapKer
    rw [DL.eucl_eq_norm]
  have hdet : IsUnit L.det := by
    rw [isUnit_iff_ne_zero]
    intro h0
    obtain ⟨v, hv, hv0⟩ := Matrix.exists_mulVec_eq_zero_iff.2 h0
    exact hv (hker v hv0)
  simp only [zero_smul, add_zero, Matrix.mul_nonsing_inv L hdet]
  congr 1
  simp [Matrix.one_apply]

example : lsWeights 1 0 ![![0], ![1], ![3]] 2 = 1 / 3 := by
  have := C121_weights (d := 1) (m := 3) 1 one_pos ![![0], ![1], ![3]] (by
    intro a b h
    fin_cases a <;> fin_cases b <;> simp at h ⊢) 2
  simpa using this

omit [LinearOrder β] in
/-- **C121 (labels in regression, refuted)** The documentation says that scales and offsets are functions of the label,
`W(y)`, `B(y)`.  For continuous labels the labels are never used: any two label vectors give the same mapping (for all data,
parameters, optimisers). -/
theorem C121_labels_counterexample [LinearOrder β] (γ regK regM tol : ℝ) (maxIter : Nat)
    (lbfgs : ∀ k, Lbfgs (Matrix (Fin k) (Fin d) ℝ) ℝ) (grad : ∀ k, List (Matrix (Fin k) (Fin d) ℝ) → List (List (Option ℝ)))
    (Xs : Matrix (Fin m) (Fin d) ℝ) (Xt : Matrix (Fin n) (Fin d) ℝ) (y y' : List β) :
    mmdlsOptimize Real.exp Real.sqrt γ regK regM tol maxIter lbfgs grad Xs Xt (.continuous y) =
      mmdlsOptimize Real.exp Real.sqrt γ regK regM tol maxIter lbfgs grad Xs Xt (.continuous y') := by
  unfold mmdlsOptimize lsR
  rfl

/-- **C121 (start in regression, refuted)** For continuous labels the optimisation does not start at the identity: for every
`gamma > 0` and `reg_k > 0`, one source row and one target row, both equal to 1, and the optimiser that stays at the start
(`max_iter = 0`), the returned mapping moves the source row away from the target row: the discrepancy grows. -/
theorem C121_start_counterexample (γ regK regM tol : ℝ) (hγ : 0 < γ) (hr : 0 < regK) (y : List β) :
    ∃ M, mmdlsOptimize (m := 1) (n := 1) (d := 1) Real.exp Real.sqrt γ regK regM tol 0 (fun _ => stay) (fun _ _ => [])
        (fun _ _ => 1) (fun _ _ => 1) (.continuous y) = .ok M ∧
      M.W 0 0 = 1 / (1 + regK) ∧ M.B 0 0 = 0 ∧
      wmmd2 (d := 1) (m := 1) (n := 1) (lapKer γ) (lsWeights (d := 1) γ regK (fun _ _ => 1)) (fun _ _ => 1) (fun _ => 1) (fun _ _ => 1)
        < wmmd2 (d := 1) (m := 1) (n := 1) (lapKer γ) (lsWeights (d := 1) γ regK (fun _ _ => 1)) (fun i j => M.W i j * 1 + M.B i j)
          (fun _ => 1) (fun _ _ => 1) := by
  have hγ' := hγ.le
  have hω := smoother_ok (m := 1) (d := 1) hγ' hr (fun _ _ => 1)
  have hL : (Matrix.of fun _ _ => lsKernel Real.exp Real.sqrt γ (fun _ : Fin 1 => 1) (fun _ => 1) : Matrix (Fin 1) (Fin 1) ℝ) = !![1] := by
    ext i j
    simp only [Matrix.of_apply, lsKernel_eq, lapKer_self]
    fin_cases i; fin_cases j; rfl
  have hr1 : (1 : ℝ) + regK ≠ 0 := by positivity
  have hS : (!![1] : Matrix (Fin 1) (Fin 1) ℝ) * (!![1] + regK • (1 : Matrix (Fin 1) (Fin 1) ℝ))⁻¹ = !![1 / (1 + regK)] := by
    have e : (!![1] + regK • (1 : Matrix (Fin 1) (Fin 1) ℝ)) = !![1 + regK] := by
      ext i j; fin_cases i; fin_cases j; simp
    have e2 : (!![1 + regK] : Matrix (Fin 1) (Fin 1) ℝ)⁻¹ = !![1 / (1 + regK)] := by
      refine Matrix.inv_eq_right_inv ?_
      ext i j; fin_cases i; fin_cases j
      simp [Matrix.mul_apply, hr1]
    rw [e, e2]
    ext i j; fin_cases i; fin_cases j
    simp [Matrix.mul_apply]
  simp only [hL, hS] at hω
  obtain ⟨v, hv⟩ : ∃ v, lsFunc (lsKernel Real.exp Real.sqrt γ) regM (m := 1) (n := 1) (d := 1) (k := 1) (fun _ _ => 1) (fun _ _ => 1)
      !![1 / (1 + regK)] !![1 / (1 + regK)] [Matrix.of fun _ _ => 1, 0] = .ok v := by
    unfold lsFunc
    exact ⟨_, if_neg (by decide)⟩
  have hrun := minimize_returns (lbfgs := (stay : Lbfgs (Matrix (Fin 1) (Fin 1) ℝ) ℝ)) (grad := fun _ => []) (tol := tol) (maxIter := 0)
    (x0 := .many [Matrix.of fun _ _ => 1, 0])
    (loss := lsFunc (lsKernel Real.exp Real.sqrt γ) regM (m := 1) (n := 1) (d := 1) (k := 1) (fun _ _ => 1) (fun _ _ => 1)
      !![1 / (1 + regK)] !![1 / (1 + regK)]) (s := { final := [Matrix.of fun _ _ => 1, 0], last := [Matrix.of fun _ _ => 1, 0] })
    (by simp [Pack.toList]) (by simp only [stay, Pack.toList, hv, bind, Except.bind, pure, Except.pure]) hv
  obtain ⟨w, hw⟩ := hrun
  refine ⟨{ W := !![1 / (1 + regK)] * Matrix.of fun _ _ => 1, B := !![1 / (1 + regK)] * 0, G := Matrix.of fun _ _ => 1, H := 0 }, ?_, ?_, ?_, ?_⟩
  · unfold mmdlsOptimize lsR
    simp only [hL, hω, bind, Except.bind]
    erw [hw]
    rfl
  · simp [Matrix.mul_apply]
  · simp
  · have hwt : lsWeights (m := 1) (d := 1) γ regK (fun _ _ => 1) = fun _ => 1 / (1 + regK) := by
      funext j
      unfold lsWeights
      have e : (Matrix.of fun _ _ => lapKer γ (fun _ : Fin 1 => 1) (fun _ => 1) : Matrix (Fin 1) (Fin 1) ℝ) = !![1] := by
        rw [← hL]; ext i j; exact (lsKernel_eq γ _ _).symm
      simp only [e, hS]
      fin_cases j
      simp
    have hlt : lapKer γ (fun _ : Fin 1 => (1 : ℝ)) (fun _ => 1 / (1 + regK)) < 1 := by
      unfold lapKer
      rw [Real.exp_lt_one_iff, neg_lt_zero]
      refine mul_pos hγ (Real.sqrt_pos.2 ?_)
      have : (1 : ℝ) - 1 / (1 + regK) ≠ 0 := by
        rw [sub_ne_zero]
        intro h
        field_simp at h
        linarith
      simp only [Finset.univ_unique, Finset.sum_const, Finset.card_singleton, one_smul]
      positivity
    have hp : (0 : ℝ) < 1 / (1 + regK) := by positivity
    have hrow : ∀ i : Fin 1, (fun j => (!![1 / (1 + regK)] * Matrix.of fun _ _ => (1 : ℝ) : Matrix (Fin 1) (Fin 1) ℝ) i j * 1
        + (!![1 / (1 + regK)] * (0 : Matrix (Fin 1) (Fin 1) ℝ)) i j) = fun _ => 1 / (1 + regK) := by
      intro i; funext j; fin_cases i; fin_cases j; simp [Matrix.mul_apply]
    unfold wmmd2
    simp only [hwt, hrow, lapKer_self, Finset.univ_unique, Finset.sum_const, Finset.card_singleton, one_smul]
    nlinarith [mul_lt_mul_of_pos_left hlt hp]

end C121

end Skada

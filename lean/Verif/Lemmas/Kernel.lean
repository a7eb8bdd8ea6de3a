/-
Positive semidefinite kernels over the reals: the Gaussian kernel and the kernel `exp (-β ‖x - y‖)` on Euclidean space.
-/
import Mathlib.Analysis.Matrix.Order
import Mathlib.Analysis.SpecialFunctions.Exponential
import Mathlib.Analysis.SpecialFunctions.ImproperIntegrals
import Mathlib.Analysis.InnerProductSpace.PiL2
import Mathlib.Analysis.SpecialFunctions.Integrability.Basic
import Mathlib.Algebra.Polynomial.Eval.Degree
import Mathlib.Algebra.Polynomial.Degree.Operations

namespace Skada.Ker

open MeasureTheory Set

variable {ι : Type} [Fintype ι]

/-- A symmetric kernel on a finite index set whose quadratic form is non-negative. -/
def PSD (k : ι → ι → ℝ) : Prop := (∀ i j, k i j = k j i) ∧ ∀ c : ι → ℝ, 0 ≤ ∑ i, ∑ j, c i * c j * k i j

theorem psd_iff (k : ι → ι → ℝ) : PSD k ↔ (Matrix.of k).PosSemidef := by
  rw [Matrix.posSemidef_iff_dotProduct_mulVec]
  have hq : ∀ c : ι → ℝ, dotProduct (star c) ((Matrix.of k).mulVec c) = ∑ i, ∑ j, c i * c j * k i j := by
    intro c
    simp only [dotProduct, Matrix.mulVec, Finset.mul_sum, Matrix.of_apply, Pi.star_apply, star_trivial]
    refine Finset.sum_congr rfl fun i _ => Finset.sum_congr rfl fun j _ => by ring
  constructor
  · rintro ⟨h1, h2⟩
    refine ⟨?_, fun c => ?_⟩
    · ext i j
      simp [Matrix.conjTranspose_apply, h1 i j]
    · rw [hq]; exact h2 c
  · rintro ⟨h1, h2⟩
    refine ⟨fun i j => ?_, fun c => ?_⟩
    · have := congrFun (congrFun h1 i) j
      simpa [Matrix.conjTranspose_apply] using this.symm
    · have := h2 c
      rwa [hq] at this

theorem PSD.mul {k l : ι → ι → ℝ} (hk : PSD k) (hl : PSD l) : PSD (fun i j => k i j * l i j) := by
  rw [psd_iff] at *
  exact hk.hadamard hl

theorem PSD.one : PSD (fun _ _ : ι => (1 : ℝ)) := by
  refine ⟨fun _ _ => rfl, fun c => ?_⟩
  have : ∑ i, ∑ j, c i * c j * 1 = (∑ i, c i) * ∑ j, c j := by
    rw [Finset.sum_mul_sum]; simp
  rw [this]
  exact mul_self_nonneg _

theorem PSD.pow {k : ι → ι → ℝ} (hk : PSD k) (m : ℕ) : PSD (fun i j => k i j ^ m) := by
  induction m with
  | zero => simpa using PSD.one
  | succ m ih => simpa [pow_succ] using ih.mul hk

theorem PSD.smul {k : ι → ι → ℝ} (hk : PSD k) {a : ℝ} (ha : 0 ≤ a) : PSD (fun i j => a * k i j) := by
  refine ⟨fun i j => by dsimp only; rw [hk.1 i j], fun c => ?_⟩
  have : ∑ i, ∑ j, c i * c j * (a * k i j) = a * ∑ i, ∑ j, c i * c j * k i j := by
    simp only [Finset.mul_sum]
    refine Finset.sum_congr rfl fun i _ => Finset.sum_congr rfl fun j _ => by ring
  rw [this]
  exact mul_nonneg ha (hk.2 c)

theorem PSD.add {k l : ι → ι → ℝ} (hk : PSD k) (hl : PSD l) : PSD (fun i j => k i j + l i j) := by
  refine ⟨fun i j => by dsimp only; rw [hk.1 i j, hl.1 i j], fun c => ?_⟩
  simp only [mul_add, Finset.sum_add_distrib]
  exact add_nonneg (hk.2 c) (hl.2 c)

theorem PSD.congr' {k l : ι → ι → ℝ} (hk : PSD k) (h : ∀ i j, k i j = l i j) : PSD l := by
  have : k = l := by funext i j; exact h i j
  exact this ▸ hk

theorem PSD.sum {κ : Type} (s : Finset κ) {k : κ → ι → ι → ℝ} (hk : ∀ a ∈ s, PSD (k a)) : PSD (fun i j => ∑ a ∈ s, k a i j) := by
  classical
  induction s using Finset.induction_on with
  | empty => exact ⟨fun _ _ => rfl, fun c => by simp⟩
  | insert a s ha ih =>
    simp only [Finset.sum_insert ha]
    exact (hk a (by simp)).add (ih fun b hb => hk b (by simp [hb]))

/-- Scaling row `i` and column `i` by `f i`. -/
theorem PSD.conj {k : ι → ι → ℝ} (hk : PSD k) (f : ι → ℝ) : PSD (fun i j => f i * f j * k i j) := by
  refine ⟨fun i j => by dsimp only; rw [hk.1 i j]; ring, fun c => ?_⟩
  refine (hk.2 (fun i => c i * f i)).trans_eq ?_
  refine Finset.sum_congr rfl fun i _ => Finset.sum_congr rfl fun j _ => by ring

/-- The entrywise exponential of a positive semidefinite kernel is positive semidefinite. -/
theorem PSD.exp {k : ι → ι → ℝ} (hk : PSD k) : PSD (fun i j => Real.exp (k i j)) := by
  refine ⟨fun i j => by dsimp only; rw [hk.1 i j], fun c => ?_⟩
  have hN : ∀ N : ℕ, PSD (fun i j => ∑ m ∈ Finset.range N, (1 / (m.factorial : ℝ)) * k i j ^ m) := fun N =>
    PSD.sum _ fun m _ => (hk.pow m).smul (by positivity)
  have ht : ∀ x : ℝ, Filter.Tendsto (fun N => ∑ m ∈ Finset.range N, (1 / (m.factorial : ℝ)) * x ^ m) Filter.atTop (nhds (Real.exp x)) := by
    intro x
    have := (NormedSpace.expSeries_div_hasSum_exp (𝔸 := ℝ) x).tendsto_sum_nat
    rw [← Real.exp_eq_exp_ℝ] at this
    refine this.congr fun N => Finset.sum_congr rfl fun m _ => by ring
  refine ge_of_tendsto' (f := fun N => ∑ i, ∑ j, c i * c j * ∑ m ∈ Finset.range N, (1 / (m.factorial : ℝ)) * k i j ^ m) (x := Filter.atTop) ?_
    (fun N => (hN N).2 c)
  exact tendsto_finsetSum _ fun i _ => tendsto_finsetSum _ fun j _ => (ht _).const_mul _

/-! ### Euclidean space -/

variable {E : Type} [NormedAddCommGroup E] [InnerProductSpace ℝ E]

theorem psd_inner (x : ι → E) : PSD (fun i j => inner ℝ (x i) (x j)) := by
  refine ⟨fun i j => real_inner_comm _ _, fun c => ?_⟩
  have : ∑ i, ∑ j, c i * c j * inner ℝ (x i) (x j) = inner ℝ (∑ i, c i • x i) (∑ j, c j • x j) := by
    rw [sum_inner]
    refine Finset.sum_congr rfl fun i _ => ?_
    rw [inner_sum]
    refine Finset.sum_congr rfl fun j _ => ?_
    rw [real_inner_smul_left, real_inner_smul_right]; ring
  rw [this]
  exact real_inner_self_nonneg

/-- The Gaussian kernel is positive semidefinite. -/
theorem psd_gauss (x : ι → E) {t : ℝ} (ht : 0 ≤ t) : PSD (fun i j => Real.exp (-(t * ‖x i - x j‖ ^ 2))) := by
  have h := ((psd_inner x).smul (a := 2 * t) (by positivity)).exp.conj (fun i => Real.exp (-(t * ‖x i‖ ^ 2)))
  refine ⟨fun i j => by dsimp only; rw [norm_sub_rev], fun c => ?_⟩
  refine (h.2 c).trans_eq ?_
  refine Finset.sum_congr rfl fun i _ => Finset.sum_congr rfl fun j _ => ?_
  dsimp only
  rw [← Real.exp_add, ← Real.exp_add, norm_sub_sq_real]
  congr 2
  ring

/-! ### The square root as an integral of `1 - exp` -/

noncomputable def g (u : ℝ) : ℝ := (1 - Real.exp (-u)) * u ^ (-(3 / 2) : ℝ)

theorem g_nonneg {u : ℝ} (hu : 0 < u) : 0 ≤ g u := by
  unfold g
  have : Real.exp (-u) ≤ 1 := Real.exp_le_one_iff.2 (by linarith)
  exact mul_nonneg (by linarith) (Real.rpow_nonneg hu.le _)

theorem g_measurable : Measurable g := by
  unfold g
  fun_prop

theorem g_integrable : IntegrableOn g (Ioi 0) := by
  rw [← Ioc_union_Ioi_eq_Ioi (zero_le_one' ℝ)]
  refine IntegrableOn.union ?_ ?_
  · have h1 : IntegrableOn (fun u : ℝ => u ^ (-(1 / 2) : ℝ)) (Ioc 0 1) :=
      (intervalIntegral.intervalIntegrable_rpow' (by norm_num)).1
    refine Integrable.mono' h1 g_measurable.aestronglyMeasurable ?_
    refine (ae_restrict_iff' measurableSet_Ioc).2 (Filter.Eventually.of_forall fun u hu => ?_)
    rw [Real.norm_of_nonneg (g_nonneg hu.1)]
    unfold g
    have h2 : 1 - Real.exp (-u) ≤ u := by have := Real.add_one_le_exp (-u); linarith
    have h3 : u ^ (-(1 / 2) : ℝ) = u * u ^ (-(3 / 2) : ℝ) := by
      rw [show (-(1 / 2) : ℝ) = 1 + -(3 / 2) by norm_num, Real.rpow_add hu.1, Real.rpow_one]
    rw [h3]
    exact mul_le_mul_of_nonneg_right h2 (Real.rpow_nonneg hu.1.le _)
  · have h1 : IntegrableOn (fun u : ℝ => u ^ (-(3 / 2) : ℝ)) (Ioi 1) := integrableOn_Ioi_rpow_of_lt (by norm_num) one_pos
    refine Integrable.mono' h1 g_measurable.aestronglyMeasurable ?_
    refine (ae_restrict_iff' measurableSet_Ioi).2 (Filter.Eventually.of_forall fun u hu => ?_)
    have hu0 : (0 : ℝ) < u := one_pos.trans hu
    rw [Real.norm_of_nonneg (g_nonneg hu0)]
    unfold g
    have : 0 < Real.exp (-u) := Real.exp_pos _
    exact mul_le_of_le_one_left (Real.rpow_nonneg hu0.le _) (by linarith)

theorem g_integral_pos : 0 < ∫ u in Ioi 0, g u := by
  rw [setIntegral_pos_iff_support_of_nonneg_ae ((ae_restrict_iff' measurableSet_Ioi).2 (Filter.Eventually.of_forall fun u hu => g_nonneg hu))
    g_integrable]
  have : Function.support g ∩ Ioi 0 = Ioi 0 := by
    refine inter_eq_right.2 fun u hu => ?_
    have hu0 : (0 : ℝ) < u := hu
    unfold g
    have h1 : Real.exp (-u) < 1 := by rw [← Real.exp_zero]; exact Real.exp_lt_exp.2 (by linarith)
    exact (mul_pos (by linarith) (Real.rpow_pos_of_pos hu0 _)).ne'
  rw [this]
  simp

theorem scaled {a : ℝ} (ha : 0 ≤ a) :
    IntegrableOn (fun t : ℝ => (1 - Real.exp (-(t * a ^ 2))) * t ^ (-(3 / 2) : ℝ)) (Ioi 0) ∧
      ∫ t in Ioi (0 : ℝ), (1 - Real.exp (-(t * a ^ 2))) * t ^ (-(3 / 2) : ℝ) = a * ∫ u in Ioi 0, g u := by
  rcases ha.eq_or_lt with h | h
  · rw [← h]; simp
  have ha2 : 0 < a ^ 2 := by positivity
  have hpt : ∀ t ∈ Ioi (0 : ℝ), (1 - Real.exp (-(t * a ^ 2))) * t ^ (-(3 / 2) : ℝ) = (a ^ 3) * g (a ^ 2 * t) := by
    intro t ht
    have ht0 : (0 : ℝ) < t := ht
    unfold g
    rw [Real.mul_rpow ha2.le ht0.le, mul_comm t (a ^ 2)]
    have : (a ^ 2) ^ (-(3 / 2) : ℝ) = (a ^ 3)⁻¹ := by
      rw [← Real.rpow_natCast a 2, ← Real.rpow_mul h.le, ← Real.rpow_natCast a 3, ← Real.rpow_neg h.le]
      norm_num
    rw [this]
    field_simp
  constructor
  · rw [integrableOn_congr_fun hpt measurableSet_Ioi]
    refine Integrable.const_mul ?_ _
    exact (integrableOn_Ioi_comp_mul_left_iff g 0 ha2).2 (by simpa using g_integrable)
  · rw [setIntegral_congr_fun measurableSet_Ioi hpt, integral_const_mul, integral_comp_mul_left_Ioi g 0 ha2]
    simp only [mul_zero, smul_eq_mul]
    field_simp

/-- Distances are of negative type. -/
theorem negative_type (x : ι → E) (c : ι → ℝ) (hc : ∑ i, c i = 0) : ∑ i, ∑ j, c i * c j * ‖x i - x j‖ ≤ 0 := by
  have hC := g_integral_pos
  have hint : ∀ i j, IntegrableOn (fun t : ℝ => c i * c j * ((1 - Real.exp (-(t * ‖x i - x j‖ ^ 2))) * t ^ (-(3 / 2) : ℝ))) (Ioi 0) :=
    fun i j => (scaled (norm_nonneg (x i - x j))).1.const_mul _
  have h1 : (∑ i, ∑ j, c i * c j * ‖x i - x j‖) * (∫ u in Ioi 0, g u) =
      ∫ t in Ioi (0 : ℝ), ∑ i, ∑ j, c i * c j * ((1 - Real.exp (-(t * ‖x i - x j‖ ^ 2))) * t ^ (-(3 / 2) : ℝ)) := by
    rw [integral_finsetSum _ fun i _ => integrable_finsetSum _ fun j _ => hint i j, Finset.sum_mul]
    refine Finset.sum_congr rfl fun i _ => ?_
    rw [integral_finsetSum _ fun j _ => hint i j, Finset.sum_mul]
    refine Finset.sum_congr rfl fun j _ => ?_
    rw [integral_const_mul, (scaled (norm_nonneg (x i - x j))).2]
    ring
  have h2 : ∫ t in Ioi (0 : ℝ), ∑ i, ∑ j, c i * c j * ((1 - Real.exp (-(t * ‖x i - x j‖ ^ 2))) * t ^ (-(3 / 2) : ℝ)) ≤ 0 := by
    refine setIntegral_nonpos measurableSet_Ioi fun t ht => ?_
    have ht0 : (0 : ℝ) < t := ht
    have h3 : ∑ i, ∑ j, c i * c j * ((1 - Real.exp (-(t * ‖x i - x j‖ ^ 2))) * t ^ (-(3 / 2) : ℝ)) =
        -(t ^ (-(3 / 2) : ℝ)) * ∑ i, ∑ j, c i * c j * Real.exp (-(t * ‖x i - x j‖ ^ 2)) := by
      have h4 : ∑ i, ∑ j, c i * c j * t ^ (-(3 / 2) : ℝ) = 0 := by
        have : ∀ i, ∑ j, c i * c j * t ^ (-(3 / 2) : ℝ) = c i * t ^ (-(3 / 2) : ℝ) * ∑ j, c j := by
          intro i; rw [Finset.mul_sum]; exact Finset.sum_congr rfl fun j _ => by ring
        simp [this, hc]
      have h5 : ∑ i, ∑ j, c i * c j * ((1 - Real.exp (-(t * ‖x i - x j‖ ^ 2))) * t ^ (-(3 / 2) : ℝ)) =
          ∑ i, ∑ j, c i * c j * t ^ (-(3 / 2) : ℝ) +
            -(t ^ (-(3 / 2) : ℝ)) * ∑ i, ∑ j, c i * c j * Real.exp (-(t * ‖x i - x j‖ ^ 2)) := by
        rw [Finset.mul_sum, ← Finset.sum_add_distrib]
        refine Finset.sum_congr rfl fun i _ => ?_
        rw [Finset.mul_sum, ← Finset.sum_add_distrib]
        exact Finset.sum_congr rfl fun j _ => by ring
      rw [h5, h4, zero_add]
    rw [h3]
    exact mul_nonpos_of_nonpos_of_nonneg (by simpa using Real.rpow_nonneg ht0.le _) ((psd_gauss x ht0.le).2 c)
  rw [← h1] at h2
  by_contra hlt
  push Not at hlt
  exact absurd h2 (not_le.2 (mul_pos hlt hC))

/-- `‖x‖ + ‖y‖ - ‖x - y‖` is positive semidefinite. -/
theorem psd_dist (x : ι → E) : PSD (fun i j => ‖x i‖ + ‖x j‖ - ‖x i - x j‖) := by
  refine ⟨fun i j => by dsimp only; rw [norm_sub_rev]; ring, fun c => ?_⟩
  have h := negative_type (ι := Option ι) (fun o => o.elim 0 x) (fun o => o.elim (-∑ i, c i) c) (by simp [Fintype.sum_option])
  simp only [Fintype.sum_option, Option.elim_none, Option.elim_some, sub_zero, zero_sub, norm_neg, norm_zero, mul_zero, zero_add] at h
  rw [Finset.sum_add_distrib] at h
  have e1 : ∑ i, -(∑ i, c i) * c i * ‖x i‖ = -((∑ i, c i) * ∑ i, c i * ‖x i‖) := by
    rw [← neg_mul, Finset.mul_sum]; exact Finset.sum_congr rfl fun i _ => by ring
  have e2 : ∑ i, c i * -(∑ i, c i) * ‖x i‖ = -((∑ i, c i) * ∑ i, c i * ‖x i‖) := by
    rw [← neg_mul, Finset.mul_sum]; exact Finset.sum_congr rfl fun i _ => by ring
  rw [e1, e2] at h
  have e3 : ∑ i, ∑ j, c i * c j * (‖x i‖ + ‖x j‖ - ‖x i - x j‖) =
      2 * ((∑ i, c i) * ∑ i, c i * ‖x i‖) - ∑ i, ∑ j, c i * c j * ‖x i - x j‖ := by
    have a1 : (∑ i, c i * ‖x i‖) * (∑ i, c i) = ∑ i, ∑ j, c i * c j * ‖x i‖ := by
      rw [Finset.sum_mul_sum]; exact Finset.sum_congr rfl fun i _ => Finset.sum_congr rfl fun j _ => by ring
    have a2 : (∑ i, c i) * (∑ i, c i * ‖x i‖) = ∑ i, ∑ j, c i * c j * ‖x j‖ := by
      rw [Finset.sum_mul_sum]; exact Finset.sum_congr rfl fun i _ => Finset.sum_congr rfl fun j _ => by ring
    have a3 : 2 * ((∑ i, c i) * ∑ i, c i * ‖x i‖) = (∑ i, c i * ‖x i‖) * (∑ i, c i) + (∑ i, c i) * (∑ i, c i * ‖x i‖) := by ring
    rw [a3, a1, a2, ← Finset.sum_add_distrib, ← Finset.sum_sub_distrib]
    refine Finset.sum_congr rfl fun i _ => ?_
    rw [← Finset.sum_add_distrib, ← Finset.sum_sub_distrib]
    exact Finset.sum_congr rfl fun j _ => by ring
  rw [e3]
  linarith

/-- The kernel `exp (-β ‖x - y‖)` is positive semidefinite. -/
theorem psd_laplace (x : ι → E) {b : ℝ} (hb : 0 ≤ b) : PSD (fun i j => Real.exp (-(b * ‖x i - x j‖))) := by
  have h := ((psd_dist x).smul hb).exp.conj (fun i => Real.exp (-(b * ‖x i‖)))
  refine ⟨fun i j => by dsimp only; rw [norm_sub_rev], fun c => ?_⟩
  refine (h.2 c).trans_eq ?_
  refine Finset.sum_congr rfl fun i _ => Finset.sum_congr rfl fun j _ => ?_
  dsimp only
  rw [← Real.exp_add, ← Real.exp_add]
  congr 2
  ring

/-! ### Strict positive definiteness -/

theorem PSD.null {k : ι → ι → ℝ} (hk : PSD k) {c : ι → ℝ} (h : ∑ i, ∑ j, c i * c j * k i j = 0) (j : ι) : ∑ i, c i * k i j = 0 := by
  have hm := (psd_iff k).1 hk
  have hq : dotProduct (star c) ((Matrix.of k).mulVec c) = 0 := by
    rw [← h]
    simp only [dotProduct, Matrix.mulVec, Finset.mul_sum, Matrix.of_apply, Pi.star_apply, star_trivial]
    refine Finset.sum_congr rfl fun i _ => Finset.sum_congr rfl fun j _ => by ring
  have := congrFun ((hm.dotProduct_mulVec_zero_iff c).1 hq) j
  simp only [Matrix.mulVec, dotProduct, Matrix.of_apply, Pi.zero_apply] at this
  rw [← this]
  exact Finset.sum_congr rfl fun i _ => by rw [hk.1 i j]; ring

theorem PSD.exp_null {k : ι → ι → ℝ} (hk : PSD k) {c : ι → ℝ} (h : ∑ i, ∑ j, c i * c j * Real.exp (k i j) = 0) (m : ℕ) :
    ∑ i, ∑ j, c i * c j * k i j ^ m = 0 := by
  have hs : HasSum (fun m : ℕ => ∑ i, ∑ j, c i * c j * (k i j ^ m / (m.factorial : ℝ))) (∑ i, ∑ j, c i * c j * Real.exp (k i j)) := by
    refine hasSum_sum fun i _ => hasSum_sum fun j _ => HasSum.mul_left _ ?_
    have := NormedSpace.expSeries_div_hasSum_exp (𝔸 := ℝ) (k i j)
    rwa [← Real.exp_eq_exp_ℝ] at this
  rw [h] at hs
  have hq : ∀ m : ℕ, ∑ i, ∑ j, c i * c j * (k i j ^ m / (m.factorial : ℝ)) = (∑ i, ∑ j, c i * c j * k i j ^ m) / (m.factorial : ℝ) := by
    intro m
    simp only [Finset.sum_div]
    exact Finset.sum_congr rfl fun i _ => Finset.sum_congr rfl fun j _ => by ring
  have h0 : ∀ m : ℕ, 0 ≤ ∑ i, ∑ j, c i * c j * (k i j ^ m / (m.factorial : ℝ)) := by
    intro m; rw [hq]; exact div_nonneg ((hk.pow m).2 c) (by positivity)
  have := congrFun ((hasSum_zero_iff_of_nonneg h0).1 hs) m
  rw [hq] at this
  simpa [Nat.factorial_ne_zero] using this

/-- If all moments `∑ c i * v i ^ m` vanish, so does the mass of `c` on each value. -/
theorem moments_zero {c v : ι → ℝ} (h : ∀ m : ℕ, ∑ i, c i * v i ^ m = 0) (w : ℝ) : ∑ i with v i = w, c i = 0 := by
  classical
  have hP : ∀ P : Polynomial ℝ, ∑ i, c i * P.eval (v i) = 0 := by
    intro P
    simp only [Polynomial.eval_eq_sum_range, Finset.mul_sum]
    rw [Finset.sum_comm]
    refine Finset.sum_eq_zero fun m _ => ?_
    have : ∑ i, c i * (P.coeff m * v i ^ m) = P.coeff m * ∑ i, c i * v i ^ m := by
      rw [Finset.mul_sum]; exact Finset.sum_congr rfl fun i _ => by ring
    rw [this, h m, mul_zero]
  set P : Polynomial ℝ := ∏ u ∈ (Finset.univ.image v).erase w, (Polynomial.X - Polynomial.C u) with hPdef
  have hw : P.eval w ≠ 0 := by
    rw [hPdef, Polynomial.eval_prod]
    refine Finset.prod_ne_zero_iff.2 fun u hu => ?_
    simp only [Polynomial.eval_sub, Polynomial.eval_X, Polynomial.eval_C]
    exact sub_ne_zero.2 (Finset.ne_of_mem_erase hu).symm
  have hv : ∀ i, v i ≠ w → P.eval (v i) = 0 := by
    intro i hi
    rw [hPdef, Polynomial.eval_prod]
    refine Finset.prod_eq_zero (i := v i) (Finset.mem_erase.2 ⟨hi, Finset.mem_image_of_mem _ (Finset.mem_univ i)⟩) ?_
    simp
  have := hP P
  have h2 : ∑ i, c i * P.eval (v i) = (∑ i with v i = w, c i) * P.eval w := by
    rw [Finset.sum_mul, Finset.sum_filter]
    refine Finset.sum_congr rfl fun i _ => ?_
    split_ifs with hi
    · rw [hi]
    · rw [hv i hi, mul_zero]
  rw [h2] at this
  exact (mul_eq_zero.1 this).resolve_right hw

/-- The kernel `exp (-β ‖x - y‖)`, `β > 0`, is strictly positive definite on distinct points. -/
theorem laplace_strict (x : ι → E) (hx : Function.Injective x) {b : ℝ} (hb : 0 < b) {c : ι → ℝ}
    (h : ∑ i, ∑ j, c i * c j * Real.exp (-(b * ‖x i - x j‖)) = 0) (i : ι) : c i = 0 := by
  classical
  set a : ι → ℝ := fun i => c i * Real.exp (-(b * ‖x i‖)) with ha
  have hg := (psd_dist x).smul hb.le
  have hq : ∑ i, ∑ j, a i * a j * Real.exp (b * (‖x i‖ + ‖x j‖ - ‖x i - x j‖)) = 0 := by
    rw [← h]
    refine Finset.sum_congr rfl fun i _ => Finset.sum_congr rfl fun j _ => ?_
    simp only [ha]
    have e : Real.exp (-(b * ‖x i - x j‖)) =
        Real.exp (-(b * ‖x i‖)) * Real.exp (-(b * ‖x j‖)) * Real.exp (b * (‖x i‖ + ‖x j‖ - ‖x i - x j‖)) := by
      rw [← Real.exp_add, ← Real.exp_add]; congr 1; ring
    rw [e]; ring
  have hmom : ∀ j (m : ℕ), ∑ i, a i * (b * (‖x i‖ + ‖x j‖ - ‖x i - x j‖)) ^ m = 0 := fun j m =>
    (hg.pow m).null (hg.exp_null hq m) j
  have hall : ∀ j, a j = 0 := by
    by_contra hcon
    push Not at hcon
    obtain ⟨j0, hj0⟩ := hcon
    obtain ⟨j, hj, hmax⟩ := Finset.exists_max_image (Finset.univ.filter fun i => a i ≠ 0) (fun i => ‖x i‖) ⟨j0, by simp [hj0]⟩
    have hz := moments_zero (hmom j) (b * (‖x j‖ + ‖x j‖ - ‖x j - x j‖))
    have hsingle : ∑ i with b * (‖x i‖ + ‖x j‖ - ‖x i - x j‖) = b * (‖x j‖ + ‖x j‖ - ‖x j - x j‖), a i = a j := by
      refine Finset.sum_eq_single_of_mem j (by simp) fun i hi hij => ?_
      by_contra hai
      have h1 := hmax i (by simp [hai])
      have h2 := mul_left_cancel₀ hb.ne' (Finset.mem_filter.1 hi).2
      simp only [sub_self, norm_zero, sub_zero] at h2
      have h3 : ‖x i - x j‖ ≤ 0 := by linarith
      exact hij (hx (sub_eq_zero.1 (norm_eq_zero.1 (le_antisymm h3 (norm_nonneg _)))))
    rw [hsingle] at hz
    simp only [Finset.mem_filter] at hj
    exact hj.2 hz
  have := hall i
  simp only [ha] at this
  exact (mul_eq_zero.1 this).resolve_right (Real.exp_ne_zero _)

end Skada.Ker

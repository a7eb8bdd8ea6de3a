/-
Real entropy of probability lists.
-/
import Mathlib.Analysis.SpecialFunctions.Log.NegMulLog
import Mathlib.Algebra.BigOperators.Group.List.Lemmas
import Mathlib.Algebra.Order.BigOperators.Group.List
import Mathlib.Algebra.BigOperators.Ring.List

namespace Skada

theorem sum_map_le_sum_map {β : Type} {f g : β → ℝ} {l : List β} (h : ∀ x ∈ l, f x ≤ g x) : (l.map f).sum ≤ (l.map g).sum :=
  List.sum_le_sum h

theorem le_sum_of_mem {l : List ℝ} (h0 : ∀ x ∈ l, 0 ≤ x) {x : ℝ} (hx : x ∈ l) : x ≤ l.sum :=
  List.single_le_sum h0 _ hx

/-- Gibbs' inequality against the uniform distribution. -/
theorem entropy_le_log {r : List ℝ} (h0 : ∀ x ∈ r, 0 ≤ x) (h1 : r.sum = 1) :
    (r.map (fun x => Real.negMulLog x)).sum ≤ Real.log r.length := by
  have hne : r ≠ [] := by rintro rfl; simp at h1
  have hC : (0 : ℝ) < r.length := by exact_mod_cast List.length_pos_iff.2 hne
  have key : ∀ x ∈ r, Real.negMulLog x ≤ x * Real.log r.length + (1 / (r.length : ℝ) - x) := by
    intro x hx
    rcases (h0 x hx).eq_or_lt with h | h
    · rw [← h]; simp
    · have hpos : 0 < 1 / ((r.length : ℝ) * x) := by positivity
      have := Real.log_le_sub_one_of_pos hpos
      rw [one_div, Real.log_inv, Real.log_mul hC.ne' h.ne'] at this
      have h2 := mul_le_mul_of_nonneg_left this h.le
      unfold Real.negMulLog
      have h3 : x * (((r.length : ℝ) * x)⁻¹ - 1) = 1 / (r.length : ℝ) - x := by
        field_simp
      rw [h3] at h2
      linarith
  refine (sum_map_le_sum_map key).trans ?_
  rw [List.sum_map_add, List.sum_map_mul_right, List.map_id', h1]
  have : ∀ l : List ℝ, (l.map (fun x => 1 / (r.length : ℝ) - x)).sum = l.length * (1 / (r.length : ℝ)) - l.sum := by
    intro l
    induction l with
    | nil => simp
    | cons a l ih => simp only [List.map_cons, List.sum_cons, ih, List.length_cons]; push_cast; ring
  rw [this, h1]
  field_simp
  linarith

theorem entropy_nonneg {r : List ℝ} (h0 : ∀ x ∈ r, 0 ≤ x) (h1 : r.sum = 1) :
    0 ≤ (r.map (fun x => Real.negMulLog x)).sum := by
  apply List.sum_nonneg
  intro v hv
  obtain ⟨x, hx, rfl⟩ := List.mem_map.1 hv
  exact Real.negMulLog_nonneg (h0 x hx) (h1 ▸ le_sum_of_mem h0 hx)

end Skada

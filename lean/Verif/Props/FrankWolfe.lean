import Verif.Lemmas.FrankWolfe
import Mathlib.Tactic.NormNum
import Mathlib.Data.Fin.VecNotation
import Mathlib.Data.Rat.Defs
import Mathlib.Algebra.Order.Ring.Rat
import Mathlib.Algebra.Order.Ring.Unbundled.Rat
import Mathlib.Algebra.Field.Rat

/-!
# Properties of the Frank-Wolfe solver (C28, C29, C30, C61)

`Spec.Feasible c clb cub x` is `0 ≤ x` and `clb ≤ ⟨c, x⟩ ≤ cub`.  `K` is any ordered field.
-/

namespace Skada
open FW

variable {K : Type} [Field K] [LinearOrder K] [IsStrictOrderedRing K] {n : Nat}

namespace Spec

/-- The documented objective `1/2 xᵀQx + xᵀc` (`c = None` drops the linear term). -/
def qpObjective (Q : Fin n → Fin n → K) (c : Option (Fin n → K)) (x : Fin n → K) : K :=
  1 / 2 * ∑ i, ∑ j, x i * Q i j * x j + c.elim 0 (fun c => ∑ i, x i * c i)

/-- An explicit bound on the suboptimality after `T` iterations; it is a constant divided by
`T + 1`.  `w` is the total mass allowed by the constraint, `x0` the caller's starting point. -/
def qpGap (Q : Fin n → Fin n → K) (a : Fin n → K) (w : K) (x0 : Option (Fin n → K)) (T : Nat) : K :=
  2 * (∑ i, ∑ j, |Q i j| * (w / a i + x0.elim 0 (fun x => |x i|))
    * (w / a j + x0.elim 0 (fun x => |x j|))) / ((T : K) + 1)

end Spec

omit [LinearOrder K] [IsStrictOrderedRing K] in
theorem qpFunc_eq (Q : Fin n → Fin n → K) (c : Option (Fin n → K)) (x : Fin n → K) :
    qpFunc Q c x = Spec.qpObjective Q c x := by
  have e : dot x (matVec Q x) = ∑ i, ∑ j, x i * Q i j * x j := by
    simp only [dot, matVec, Finset.mul_sum]
    exact Finset.sum_congr rfl fun i _ => Finset.sum_congr rfl fun j _ => by ring
  cases c with
  | none => simp [qpFunc, Spec.qpObjective, e]
  | some c =>
    simp only [qpFunc, Spec.qpObjective, Option.elim_some]
    rw [e]
    rfl

/-- **C28.** With positive coefficients, `0 ≤ clb ≤ cub`, any gradient oracle, any starting point
(also an infeasible one or the default) and any positive number of iterations, `frank_wolfe` returns
a non-negative vector with `clb ≤ ⟨c, x⟩ ≤ cub`. -/
theorem C28_feasible (jac : (Fin n → K) → Fin n → K) (c : Fin n → K) (clb cub : K)
    (x0 : Option (Fin n → K)) (maxIter : Nat) (hn : 0 < n) (hc : ∀ i, 0 < c i) (h0 : 0 ≤ clb)
    (h1 : clb ≤ cub) (hm : 0 < maxIter) :
    ∃ x, frankWolfe jac c clb cub x0 maxIter = .ok x ∧
      (∀ i, 0 ≤ x i) ∧ clb ≤ ∑ i, c i * x i ∧ ∑ i, c i * x i ≤ cub := by
  obtain ⟨m, rfl⟩ : ∃ m, maxIter = m + 1 := ⟨maxIter - 1, by omega⟩
  obtain ⟨x, hx, hf⟩ := loop_feasible hn (jac := jac) (x0 := x0.getD (defaultX0 c clb cub)) hc h0 h1 m
  exact ⟨x, hx, hf.1, hf.2.1, hf.2.2⟩

omit [IsStrictOrderedRing K] in
/-- **C28.** On an empty vector the solver raises `ValueError` (from `argmin`). -/
theorem C28_empty (jac : (Fin 0 → K) → Fin 0 → K) (c : Fin 0 → K) (clb cub : K)
    (x0 : Option (Fin 0 → K)) (maxIter : Nat) (hm : 0 < maxIter) :
    frankWolfe jac c clb cub x0 maxIter = .error .valueError := by
  obtain ⟨m, rfl⟩ : ∃ m, maxIter = m + 1 := ⟨maxIter - 1, by omega⟩
  exact loop_empty m

/-- The hypothesis of at least one iteration is needed: the default starting point violates the
constraint (for `c = 1`, `clb = cub = 1` it is the zero vector). -/
theorem C28_zero_iterations :
    ∃ x, frankWolfe (n := 2) (fun x => x) (fun _ => (1 : ℚ)) 1 1 none 0 = .ok x ∧
      ¬ (1 ≤ ∑ i, (1 : ℚ) * x i) := by
  refine ⟨_, rfl, ?_⟩
  simp [defaultX0]

example : (frankWolfe (n := 2) (fun x => ![x 0 - 1, 2 * x 1]) ![(1 : ℚ), 2] 1 3 none 3).map
    (fun x => (x 0, x 1)) = .ok (1, 1 / 6) := by decide +kernel

/-- **C29.** Every iteration moves towards a feasible point that minimises the linearised objective
over the *whole* feasible set: if `m` iterations gave `x`, then `m + 1` iterations give
`(1 - γ) x + γ v` with `γ = 2 / (m + 2)`, `v` feasible and `⟨jac x, v⟩ ≤ ⟨jac x, z⟩` for every
feasible `z`. -/
theorem C29_direction (jac : (Fin n → K) → Fin n → K) (c : Fin n → K) (clb cub : K)
    (x0 : Option (Fin n → K)) (m : Nat) (x : Fin n → K) (hn : 0 < n) (hc : ∀ i, 0 < c i)
    (h0 : 0 ≤ clb) (h1 : clb ≤ cub) (hx : frankWolfe jac c clb cub x0 m = .ok x) :
    ∃ v, Spec.Feasible c clb cub v ∧
      (∀ z, Spec.Feasible c clb cub z → ∑ i, jac x i * v i ≤ ∑ i, jac x i * z i) ∧
      frankWolfe jac c clb cub x0 (m + 1)
        = .ok (fun i => (1 - 2 / ((m : K) + 2)) * x i + 2 / ((m : K) + 2) * v i) := by
  obtain ⟨v, hf, hmin, hl⟩ := loop_step hn (jac := jac) hc h0 h1 hx
  refine ⟨v, hf, hmin, ?_⟩
  have e : (((m + 1 : Nat) : K) + 1) = (m : K) + 2 := by push_cast; ring
  rw [e] at hl
  exact hl

example : (frankWolfe (n := 2) (fun _ => ![1, -3]) ![(1 : ℚ), 2] 1 3 none 1).map
    (fun x => (x 0, x 1)) = .ok (0, 3 / 2) := by decide +kernel

/-- **C61.** Convergence rate.  For an objective that is convex and has curvature at most `C` on the
feasible set (and at the starting point), the value after `T ≥ 1` iterations is within
`2 C / (T + 1)` of the value at *every* feasible point. -/
theorem C61_rate (f : (Fin n → K) → K) (jac : (Fin n → K) → Fin n → K) (c : Fin n → K)
    (clb cub C : K) (x0 : Fin n → K) (T : Nat) (hn : 0 < n) (hc : ∀ i, 0 < c i)
    (h0 : 0 ≤ clb) (h1 : clb ≤ cub) (hT : 0 < T)
    (hconv : ∀ x z, (x = x0 ∨ Spec.Feasible c clb cub x) → Spec.Feasible c clb cub z →
      f x + ∑ i, jac x i * (z i - x i) ≤ f z)
    (hsmooth : ∀ x v γ, (x = x0 ∨ Spec.Feasible c clb cub x) → Spec.Feasible c clb cub v →
      0 ≤ γ → γ ≤ 1 →
      f (fun i => (1 - γ) * x i + γ * v i)
        ≤ f x + γ * ∑ i, jac x i * (v i - x i) + γ ^ 2 * C / 2)
    (hC : 0 ≤ C) :
    ∃ x, frankWolfe jac c clb cub (some x0) T = .ok x ∧ Spec.Feasible c clb cub x ∧
      ∀ z, Spec.Feasible c clb cub z → f x ≤ f z + 2 * C / ((T : K) + 1) := by
  obtain ⟨m, rfl⟩ : ∃ m, T = m + 1 := ⟨T - 1, by omega⟩
  exact loop_rate hn hc h0 h1 hconv hsmooth hC m

/-- The hypotheses of `C61_rate` are met, e.g., by the linear objective `⟨g, x⟩` with `C = 0` … -/
example (g : Fin 3 → ℚ) (x0 : Fin 3 → ℚ) (T : Nat) (hT : 0 < T) :
    ∃ x, frankWolfe (fun _ => g) (fun _ => 1) 1 1 (some x0) T = .ok x ∧
      Spec.Feasible (fun _ => 1) 1 1 x ∧
      ∀ z, Spec.Feasible (fun _ => 1) 1 1 z →
        ∑ i, g i * x i ≤ ∑ i, g i * z i + 2 * 0 / ((T : ℚ) + 1) := by
  refine C61_rate (fun x => ∑ i, g i * x i) (fun _ => g) _ 1 1 0 x0 T (by decide) (by simp)
    (by norm_num) le_rfl hT ?_ ?_ le_rfl
  · intro x z _ _
    rw [← Finset.sum_add_distrib]
    exact Finset.sum_le_sum fun i _ => le_of_eq (by ring)
  · intro x v γ _ _ _ _
    rw [Finset.mul_sum, ← Finset.sum_add_distrib]
    simp only [mul_zero, zero_div, add_zero]
    exact Finset.sum_le_sum fun i _ => le_of_eq (by ring)

/-- The box argument shared by the two `qp_solve` theorems. -/
theorem qp_frankWolfe (Q : Fin n → Fin n → K) (c : Option (Fin n → K)) (a : Fin n → K) (lo hi : K)
    (x0 : Option (Fin n → K)) (T : Nat) (hn : 0 < n) (ha : ∀ i, 0 < a i) (h0 : 0 ≤ lo)
    (h1 : lo ≤ hi) (hs : ∀ i j, Q i j = Q j i)
    (hpsd : ∀ d : Fin n → K, 0 ≤ ∑ i, ∑ j, Q i j * d i * d j) (hT : 0 < T) :
    ∃ x, frankWolfe (qpJac Q c) a lo hi x0 T = .ok x ∧ Spec.Feasible a lo hi x ∧
      ∀ z, Spec.Feasible a lo hi z →
        Spec.qpObjective Q c x ≤ Spec.qpObjective Q c z + Spec.qpGap Q a hi x0 T := by
  obtain ⟨m, rfl⟩ : ∃ m, T = m + 1 := ⟨T - 1, by omega⟩
  have hhi : 0 ≤ hi := h0.trans h1
  have hb : ∀ i, 0 ≤ hi / a i := fun i => div_nonneg hhi (ha i).le
  have hx : ∀ i, 0 ≤ x0.elim 0 (fun x => |x i|) := by
    intro i; cases x0 <;> simp
  obtain ⟨x, hx, hf, hr⟩ := qp_rate hn (Q := Q) (q := c) (x0 := x0.getD (defaultX0 a lo hi))
    (D := fun i => hi / a i + x0.elim 0 (fun x => |x i|)) ha h0 h1 hs hpsd
    (fun i => le_add_of_nonneg_right (hx i)) (by
      intro v hv i
      have b := feasible_box ha hv i
      cases x0 with
      | some x0 =>
        simp only [Option.getD_some, Option.elim_some]
        calc |v i - x0 i| ≤ |v i| + |x0 i| := abs_sub _ _
          _ ≤ _ := by rw [abs_of_nonneg b.1]; linarith [b.2]
      | none =>
        simp only [Option.getD_none, Option.elim_none, add_zero]
        have hn' : (1 : K) ≤ n := by exact_mod_cast hn
        have d0 : 0 ≤ defaultX0 a lo hi i := by
          have := ha i
          have : 0 ≤ hi - lo := by linarith
          unfold defaultX0; positivity
        have d1 : defaultX0 a lo hi i ≤ hi / a i := by
          unfold defaultX0
          rw [div_le_iff₀ (by linarith), one_div, inv_mul_eq_div, div_mul_eq_mul_div,
            div_le_div_iff_of_pos_right (ha i)]
          nlinarith
        rw [abs_le]
        constructor <;> linarith [b.1, b.2]) m
  refine ⟨x, hx, hf, fun z hz => ?_⟩
  have := hr z hz
  rw [qpFunc_eq, qpFunc_eq] at this
  exact this

/-- **C30 (partial: one equality row).** `min 1/2 xᵀQx + xᵀc, ⟨a, x⟩ = r, x ≥ 0` with `Q` symmetric
positive semidefinite, `a > 0`, `r ≥ 0`: `qp_solve(solver="frank-wolfe")` returns a point satisfying
all constraints, its objective value, and that value exceeds the objective of *no* feasible point by
more than `qpGap = O(1 / max_iter)`. -/
theorem C30_equality_partial (scipy : Py ((Fin n → K) × K)) (Q : Fin n → Fin n → K)
    (c : Option (Fin n → K)) (a : Fin n → K) (r : K) (b : Option (List K))
    (x0 : Option (Fin n → K)) (T : Nat) (hn : 0 < n) (ha : ∀ i, 0 < a i) (hr : 0 ≤ r)
    (hs : ∀ i j, Q i j = Q j i) (hpsd : ∀ d : Fin n → K, 0 ≤ ∑ i, ∑ j, Q i j * d i * d j)
    (hT : 0 < T) :
    ∃ x, qpSolve scipy "frank-wolfe" Q c none b (some [a]) (some [r]) x0 T
        = .ok (x, Spec.qpObjective Q c x) ∧
      (∀ i, 0 ≤ x i) ∧ ∑ i, a i * x i = r ∧
      ∀ z, (∀ i, 0 ≤ z i) → ∑ i, a i * z i = r →
        Spec.qpObjective Q c x ≤ Spec.qpObjective Q c z + Spec.qpGap Q a r x0 T := by
  obtain ⟨x, hx, hf, hb⟩ := qp_frankWolfe Q c a r r x0 T hn ha hr le_rfl hs hpsd hT
  refine ⟨x, ?_, hf.1, le_antisymm hf.2.2 hf.2.1, fun z hz he =>
    hb z ⟨hz, he.ge, he.le⟩⟩
  simp [qpSolve, qpFrankWolfe, qpChecks, at?, atOpt, hx, qpFunc_eq, bind, Except.bind, pure,
    Except.pure]

/-- **C30 (partial: two opposite inequality rows).** `min 1/2 xᵀQx + xᵀc, lo ≤ ⟨a, x⟩ ≤ hi, x ≥ 0`,
given as `A = [a, -a]`, `b = [hi, -lo]`. -/
theorem C30_two_rows_partial (scipy : Py ((Fin n → K) × K)) (Q : Fin n → Fin n → K)
    (c : Option (Fin n → K)) (a : Fin n → K) (lo hi : K) (beq : Option (List K))
    (x0 : Option (Fin n → K)) (T : Nat) (hn : 0 < n) (ha : ∀ i, 0 < a i) (h0 : 0 ≤ lo)
    (h1 : lo ≤ hi)
    (hs : ∀ i j, Q i j = Q j i) (hpsd : ∀ d : Fin n → K, 0 ≤ ∑ i, ∑ j, Q i j * d i * d j)
    (hT : 0 < T) :
    ∃ x, qpSolve scipy "frank-wolfe" Q c (some [a, fun i => - a i]) (some [hi, -lo]) none beq x0 T
        = .ok (x, Spec.qpObjective Q c x) ∧
      (∀ i, 0 ≤ x i) ∧ ∑ i, a i * x i ≤ hi ∧ ∑ i, (- a i) * x i ≤ - lo ∧
      ∀ z, (∀ i, 0 ≤ z i) → ∑ i, a i * z i ≤ hi → ∑ i, (- a i) * z i ≤ - lo →
        Spec.qpObjective Q c x ≤ Spec.qpObjective Q c z + Spec.qpGap Q a hi x0 T := by
  obtain ⟨x, hx, hf, hb⟩ := qp_frankWolfe Q c a lo hi x0 T hn ha h0 h1 hs hpsd hT
  have neg : ∀ z : Fin n → K, ∑ i, (- a i) * z i = - ∑ i, a i * z i := by
    intro z; rw [← Finset.sum_neg_distrib]; exact Finset.sum_congr rfl fun i _ => by ring
  refine ⟨x, ?_, hf.1, hf.2.2, by rw [neg]; linarith [hf.2.1], fun z hz he he' =>
    hb z ⟨hz, by rw [neg] at he'; linarith, he⟩⟩
  have hcl : allclose a (fun i => - - a i) = true := by
    simp only [allclose, neg_neg, sub_self, abs_zero, decide_eq_true_eq]
    intro i
    positivity
  have hlt : ¬ (hi < lo) := not_lt.2 h1
  have hx' : frankWolfe (qpJac Q c) a (- -lo) hi x0 T = .ok x := by rw [neg_neg]; exact hx
  have hlt' : ¬ (hi < - -lo) := by rw [neg_neg]; exact hlt
  simp only [qpSolve, qpFrankWolfe, qpChecks, at?, atOpt, bind, Except.bind, pure, Except.pure,
    hcl, hlt', hx', qpFunc_eq, List.length_cons, List.length_nil, Nat.reduceAdd, gt_iff_lt,
    lt_irrefl, ↓reduceIte, List.getElem?_cons_zero, List.getElem?_cons_succ, Bool.not_true,
    Bool.false_eq_true, Nat.one_lt_ofNat, String.reduceEq]

/-- A concrete run of the two-row form, with `Q` the identity and the bounds `1 ≤ x₀ + x₁ ≤ 2`: the
gap after 3 iterations is bounded by `2 · (2·2 + 2·2) / 4`. -/
example (scipy : Py ((Fin 2 → ℚ) × ℚ)) :
    ∃ x, qpSolve scipy "frank-wolfe" (fun i j : Fin 2 => if i = j then (1 : ℚ) else 0) none
        (some [fun _ => 1, fun _ => - 1]) (some [2, -1]) none none none 3
        = .ok (x, Spec.qpObjective (fun i j : Fin 2 => if i = j then (1 : ℚ) else 0) none x) ∧
      (∀ i, 0 ≤ x i) := by
  obtain ⟨x, h, h', _⟩ := C30_two_rows_partial scipy (fun i j : Fin 2 => if i = j then (1 : ℚ) else 0)
    none (fun _ => 1) 1 2 none none 3 (by decide) (by simp) (by norm_num) (by norm_num)
    (by intro i j; simp [eq_comm]) (by
      intro d
      simp only [Fin.sum_univ_two]
      simp
      nlinarith [sq_nonneg (d 0), sq_nonneg (d 1)]) (by decide)
  exact ⟨x, h, h'⟩

omit [IsStrictOrderedRing K] in
/-- **C30.** The shapes outside the documented ones raise `ValueError`: several equality rows, more
than two inequality rows, two rows that are not opposite, crossed bounds, no constraint at all. -/
theorem C30_rejects (scipy : Py ((Fin n → K) × K)) (Q : Fin n → Fin n → K)
    (c : Option (Fin n → K)) (A : Option (List (Fin n → K))) (b : Option (List K))
    (Aeq : Option (List (Fin n → K))) (beq : Option (List K)) (x0 : Option (Fin n → K)) (T : Nat)
    (h : (∃ E, Aeq = some E ∧ 1 < E.length) ∨
      (∃ R, A = some R ∧ 2 < R.length) ∨
      (∃ r s, A = some [r, s] ∧ ∃ i, 1 / 100000000 + 1 / 100000 * |s i| < |r i + s i|) ∨
      (∃ r s u v, A = some [r, s] ∧ b = some [u, v] ∧ u < -v) ∨
      (A = none ∧ Aeq = none)) :
    qpSolve scipy "frank-wolfe" Q c A b Aeq beq x0 T = .error .valueError := by
  have hq : ∀ (r s : Fin n → K) i, 1 / 100000000 + 1 / 100000 * |s i| < |r i + s i| →
      allclose r (fun i => - s i) = false := by
    intro r s i hi
    simp only [allclose, decide_eq_false_iff_not, not_forall, not_le]
    exact ⟨i, by rw [abs_neg, sub_neg_eq_add]; exact hi⟩
  have hchk : qpChecks A b Aeq = .error .valueError ∨ (A = none ∧ Aeq = none) := by
    rcases h with ⟨E, rfl, hE⟩ | ⟨R, rfl, hR⟩ | ⟨r, s, rfl, i, hi⟩ | ⟨r, s, u, v, rfl, rfl, hu⟩ | h
    · left; simp [qpChecks, hE, bind, Except.bind, throw, throwThe, MonadExceptOf.throw]
    · left
      cases Aeq with
      | none =>
        simp [qpChecks, hR, bind, Except.bind, throw, throwThe, MonadExceptOf.throw]
      | some E =>
        by_cases hE : 1 < E.length <;>
        simp [qpChecks, hR, hE, bind, Except.bind, throw, throwThe, MonadExceptOf.throw]
    · left
      cases Aeq with
      | none =>
        simp [qpChecks, hq r s i hi, at?, bind, Except.bind, throw, throwThe, MonadExceptOf.throw]
      | some E =>
        by_cases hE : 1 < E.length <;>
        simp [qpChecks, hE, hq r s i hi, at?, bind, Except.bind, throw, throwThe,
          MonadExceptOf.throw]
    · left
      cases hcl : allclose r (fun i => - s i) <;> cases Aeq with
      | none =>
        simp [qpChecks, hcl, hu, at?, atOpt, bind, Except.bind, throw, throwThe,
          MonadExceptOf.throw]
      | some E =>
        by_cases hE : 1 < E.length <;>
        simp [qpChecks, hE, hcl, hu, at?, atOpt, bind, Except.bind, throw, throwThe,
          MonadExceptOf.throw]
    · exact Or.inr h
  rcases hchk with h | ⟨rfl, rfl⟩
  · simp [qpSolve, qpFrankWolfe, h, bind, Except.bind]
  · simp [qpSolve, qpFrankWolfe, qpChecks, bind, Except.bind, pure, Except.pure]

omit [IsStrictOrderedRing K] in
/-- **C30.** An unknown solver name raises `ValueError`; `"scipy"` never reaches this solver. -/
theorem C30_solver (scipy : Py ((Fin n → K) × K)) (s : String) (Q : Fin n → Fin n → K)
    (c : Option (Fin n → K)) (A : Option (List (Fin n → K))) (b : Option (List K))
    (Aeq : Option (List (Fin n → K))) (beq : Option (List K)) (x0 : Option (Fin n → K)) (T : Nat)
    (h : s ≠ "frank-wolfe") :
    qpSolve scipy s Q c A b Aeq beq x0 T
      = if s = "scipy" then scipy else .error .valueError := by
  simp [qpSolve, h]

/-- **C30 is false for one inequality row**, a shape the documentation lists as supported: the row
is treated as an equality, so the minimiser is missed whatever the number of iterations.  Minimising
`x²/2` under `x ≤ 1`, `x ≥ 0` returns `1` instead of `0`. -/
theorem C30_counterexample (scipy : Py ((Fin 1 → ℚ) × ℚ)) (T : Nat) (hT : 0 < T) :
    ∃ x, qpSolve scipy "frank-wolfe" (fun _ _ => (1 : ℚ)) none (some [fun _ => 1]) (some [1]) none
        none none T = .ok (x, 1 / 2) ∧ x 0 = 1 ∧
      Spec.qpObjective (fun _ _ => (1 : ℚ)) none (fun _ : Fin 1 => (0 : ℚ)) = 0 := by
  obtain ⟨x, hx, _, h1, h2⟩ := C28_feasible (qpJac (fun _ _ => (1 : ℚ)) none) (fun _ : Fin 1 => 1)
    1 1 none T (by decide) (by simp) (by norm_num) le_rfl hT
  have e : x 0 = 1 := by simp at h1 h2; exact le_antisymm h2 h1
  refine ⟨x, ?_, e, by simp [Spec.qpObjective]⟩
  simp [qpSolve, qpFrankWolfe, qpChecks, at?, atOpt, hx, qpFunc, dot, matVec, e, bind, Except.bind,
    pure, Except.pure]

/-- Further disagreement: when both `Aeq` and `A` are given, `A` is silently ignored, so the result
can violate `A x ≤ b`. Here `x = 1` is forced and `x ≤ 0` is ignored. -/
theorem C30_counterexample_ignored (scipy : Py ((Fin 1 → ℚ) × ℚ)) (T : Nat) (hT : 0 < T) :
    ∃ x v, qpSolve scipy "frank-wolfe" (fun _ _ => (1 : ℚ)) none (some [fun _ => 1]) (some [0])
        (some [fun _ => 1]) (some [1]) none T = .ok (x, v) ∧
      ¬ (∑ i : Fin 1, (1 : ℚ) * x i ≤ 0) := by
  obtain ⟨x, hx, _, h1, h2⟩ := C28_feasible (qpJac (fun _ _ => (1 : ℚ)) none) (fun _ : Fin 1 => 1)
    1 1 none T (by decide) (by simp) (by norm_num) le_rfl hT
  refine ⟨x, qpFunc (fun _ _ => (1 : ℚ)) none x, ?_, by linarith⟩
  simp [qpSolve, qpFrankWolfe, qpChecks, at?, atOpt, hx, bind, Except.bind, pure, Except.pure]

end Skada

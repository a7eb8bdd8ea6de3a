/-
Properties of JDOT and OT label propagation (skada/_ot.py): C36 (label propagation), C37 (outer loop), C38 (class costs),
C72 (JDOT regression descends), C73 (reweighted data and losses of JDOT classification).
-/
import Verif.Model.OT
import Verif.Lemmas.Mapping
import Verif.Props.Reweight
import Verif.Lemmas.Arg
import Mathlib.Tactic.Linarith
import Mathlib.Tactic.Ring
import Mathlib.Tactic.FieldSimp
import Mathlib.Algebra.BigOperators.Field
import Mathlib.Algebra.Order.BigOperators.Group.Finset
import Mathlib.Algebra.Order.Archimedean.Basic
import Mathlib.Data.Rat.Cast.Order

namespace Skada
open Np Spec RW Map OT

/-! ### C37: the outer loop -/

section Loop
set_option linter.unusedSectionVars false
variable {K : Type} [Field K] [LinearOrder K] [IsStrictOrderedRing K] {ns nt : Nat} {E : Type}

/-- The iterations of a JDOT solver without any stopping rule. -/
def Spec.traj (body : Nat → (Fin ns → Fin nt → K) → Iter E K ns nt) (Ml : Fin ns → Fin nt → K) : Nat → Iter E K ns nt
  | 0 => body 0 Ml
  | i + 1 => body (i + 1) (traj body Ml i).Ml

/-- Both losses changed by at least `tol` between iterations `i` and `i + 1`. -/
def Spec.Moving (tr : Nat → Iter E K ns nt) (tol : K) (i : Nat) : Prop :=
  tol ≤ |(tr (i + 1)).lossOt - (tr i).lossOt| ∧ tol ≤ |(tr (i + 1)).lossTgt - (tr i).lossTgt|

/-- What a solver returns when it stops after iteration `i`. -/
def Spec.resultAt (tr : Nat → Iter E K ns nt) (i : Nat) : E × List K × List K × Sol K ns nt :=
  ((tr i).est, (List.range (i + 1)).map (fun j => (tr j).lossOt), (List.range (i + 1)).map (fun j => (tr j).lossTgt),
    (tr i).sol)

theorem loop_gen (body : Nat → (Fin ns → Fin nt → K) → Iter E K ns nt) (tol : K) (Ml : Fin ns → Fin nt → K) (n i : Nat) :
    ∃ k, i ≤ k ∧ k ≤ i + n ∧
      jdotLoop body tol n (i + 1) (traj body Ml i).Ml (some (traj body Ml i))
        ((List.range (i + 1)).map (fun j => (traj body Ml j).lossOt))
        ((List.range (i + 1)).map (fun j => (traj body Ml j).lossTgt)) = .ok (resultAt (traj body Ml) k) ∧
      (∀ j, i ≤ j → j + 1 < k → Moving (traj body Ml) tol j) ∧
      (k < i + n → i < k ∧ ¬ Moving (traj body Ml) tol (k - 1)) := by
  induction n generalizing i with
  | zero => exact ⟨i, le_refl _, le_refl _, rfl, fun j h1 h2 => by omega, fun h => by omega⟩
  | succ n ih =>
    have hb : body (i + 1) (traj body Ml i).Ml = traj body Ml (i + 1) := rfl
    have hlo : (List.range (i + 1)).map (fun j => (traj body Ml j).lossOt) ++ [(traj body Ml (i + 1)).lossOt]
        = (List.range (i + 1 + 1)).map (fun j => (traj body Ml j).lossOt) := by simp [List.range_succ]
    have hlt : (List.range (i + 1)).map (fun j => (traj body Ml j).lossTgt) ++ [(traj body Ml (i + 1)).lossTgt]
        = (List.range (i + 1 + 1)).map (fun j => (traj body Ml j).lossTgt) := by simp [List.range_succ]
    simp only [jdotLoop, hb, hlo, hlt]
    by_cases h1 : |(traj body Ml (i + 1)).lossOt - (traj body Ml i).lossOt| < tol
    · rw [if_pos h1]
      exact ⟨i + 1, by omega, by omega, rfl, fun j a b => by omega,
        fun _ => ⟨by omega, fun h => absurd h.1 (not_le.2 h1)⟩⟩
    · rw [if_neg h1]
      by_cases h2 : |(traj body Ml (i + 1)).lossTgt - (traj body Ml i).lossTgt| < tol
      · rw [if_pos h2]
        exact ⟨i + 1, by omega, by omega, rfl, fun j a b => by omega,
          fun _ => ⟨by omega, fun h => absurd h.2 (not_le.2 h2)⟩⟩
      · rw [if_neg h2]
        obtain ⟨k, ha, hb, hr, hm, hs⟩ := ih (i + 1)
        refine ⟨k, by omega, by omega, hr, fun j hj hk => ?_, fun hk => ?_⟩
        · rcases Nat.eq_or_lt_of_le hj with rfl | hj
          · exact ⟨not_lt.1 h1, not_lt.1 h2⟩
          · exact hm j hj hk
        · obtain ⟨h3, h4⟩ := hs (by omega)
          exact ⟨by omega, h4⟩

/-- C37. With `n ≥ 1` allowed iterations a JDOT solver stops after some iteration `k < n` (counted from 0) and returns the
estimator and OT solution of exactly that iteration, with one loss entry per executed iteration; before it, every iteration
changed both losses by at least `tol`, and it stopped early only because a loss changed by less. -/
theorem C37_loop (body : Nat → (Fin ns → Fin nt → K) → Iter E K ns nt) (tol : K) (Ml : Fin ns → Fin nt → K) (n : Nat)
    (hn : 0 < n) :
    ∃ k, k < n ∧ jdotLoop body tol n 0 Ml none [] [] = .ok (resultAt (traj body Ml) k) ∧
      (∀ j, j + 1 < k → Moving (traj body Ml) tol j) ∧
      (k + 1 < n → 0 < k ∧ ¬ Moving (traj body Ml) tol (k - 1)) := by
  obtain ⟨n, rfl⟩ : ∃ m, n = m + 1 := ⟨n - 1, by omega⟩
  obtain ⟨k, ha, hb, hr, hm, hs⟩ := loop_gen body tol Ml n 0
  refine ⟨k, by omega, ?_, fun j hj => hm j (by omega) hj, fun hk => hs (by omega)⟩
  rw [← hr]
  rfl

/-- C37 (no iterations). `n_iter_max=0` raises `UnboundLocalError`. -/
theorem C37_zero_iterations (body : Nat → (Fin ns → Fin nt → K) → Iter E K ns nt) (tol : K) (Ml : Fin ns → Fin nt → K) :
    jdotLoop body tol 0 0 Ml none [] [] = .error .unboundLocalError := rfl

/-- A run with losses 8, 4, 2, 1, 1/2, … that stops after four of ten iterations. -/
example : (jdotLoop (K := ℚ) (ns := 0) (nt := 0) (E := Nat)
    (fun i _ => ⟨8 / 2 ^ i, 80 / 2 ^ i, i, ⟨fun _ _ => 0, 0⟩, fun _ _ => 0⟩) 2 10 0 (fun _ _ => 0) none [] []).map
      (fun r => (r.1, r.2.1)) = .ok (3, [8, 4, 2, 1]) := by decide +kernel

end Loop

/-! ### C72: JDOT regression descends -/

section Descent
set_option linter.unusedSectionVars false
variable {K : Type} [Field K] [LinearOrder K] [IsStrictOrderedRing K] {ns nt : Nat} {E : Type}

/-- A transport plan between the marginals `a` and `b`. -/
structure Spec.Coupling (a : Fin ns → K) (b : Fin nt → K) (T : Fin ns → Fin nt → K) : Prop where
  nonneg : ∀ s t, 0 ≤ T s t
  row : ∀ s, ∑ t, T s t = a s
  col : ∀ t, ∑ s, T s t = b t

/-- `ot.solve` solves the transport problem exactly. -/
def Spec.Solves (solve : (Fin ns → Fin nt → K) → (Fin ns → K) → (Fin nt → K) → Sol K ns nt) (a : Fin ns → K)
    (b : Fin nt → K) : Prop :=
  ∀ M, Coupling a b (solve M a b).plan ∧ (solve M a b).value = inner M (solve M a b).plan ∧
    ∀ T, Coupling a b T → (solve M a b).value ≤ inner M T

/-- `fit` minimises the `b`-weighted squared error among the predictors of the estimator. -/
def Spec.LeastSquares (fit : (Fin nt → K) → E) (predict : E → Fin nt → K) (b : Fin nt → K) : Prop :=
  ∀ y e, ∑ t, b t * (y t - predict (fit y) t) ^ 2 ≤ ∑ t, b t * (y t - predict e t) ^ 2

theorem inner_sqDist (ys : Fin ns → K) (T : Fin ns → Fin nt → K) (a : Fin ns → K) (b : Fin nt → K) (hT : Coupling a b T)
    (hb : ∀ t, b t ≠ 0) (f : Fin nt → K) :
    inner (sqDist ys f) T = ∑ t, b t * (transported ys T b t - f t) ^ 2 +
      ∑ t, ((∑ s, ys s ^ 2 * T s t) - b t * transported ys T b t ^ 2) := by
  unfold inner sqDist
  rw [Finset.sum_comm, ← Finset.sum_add_distrib]
  refine Finset.sum_congr rfl fun t _ => ?_
  have h1 : ∑ s, (ys s - f t) ^ 2 * T s t
      = ∑ s, ys s ^ 2 * T s t - 2 * f t * (∑ s, ys s * T s t) + f t ^ 2 * ∑ s, T s t := by
    rw [Finset.mul_sum, Finset.mul_sum, ← Finset.sum_sub_distrib, ← Finset.sum_add_distrib]
    exact Finset.sum_congr rfl fun s _ => by ring
  have h2 : ∑ s, ys s * T s t = b t * transported ys T b t := by
    unfold transported; rw [mul_div_cancel₀ _ (hb t)]
  rw [h1, h2, hT.col t]
  ring

theorem inner_cost (alpha : K) (Mf Ml T : Fin ns → Fin nt → K) :
    inner (fun s t => (1 - alpha) * Mf s t + alpha * Ml s t) T = (1 - alpha) * inner Mf T + alpha * inner Ml T := by
  unfold inner
  rw [Finset.mul_sum, Finset.mul_sum, ← Finset.sum_add_distrib]
  refine Finset.sum_congr rfl fun s _ => ?_
  rw [Finset.mul_sum, Finset.mul_sum, ← Finset.sum_add_distrib]
  exact Finset.sum_congr rfl fun t _ => by ring

/-- The label cost used in iteration `i`. -/
def regCost (tr : Nat → Iter E K ns nt) (ys : Fin ns → K) : Nat → Fin ns → Fin nt → K
  | 0 => sqDist ys (fun _ => 0)
  | i + 1 => (tr i).Ml

variable (solve : (Fin ns → Fin nt → K) → (Fin ns → K) → (Fin nt → K) → Sol K ns nt) (fit : (Fin nt → K) → E)
  (predict : E → Fin nt → K) (alpha : K) (Mf : Fin ns → Fin nt → K) (ys : Fin ns → K) (a : Fin ns → K) (b : Fin nt → K)

/-- The trajectory of `solve_jdot_regression`. -/
def Spec.regTraj : Nat → Iter E K ns nt := traj (regBody solve fit predict alpha Mf ys a b) (sqDist ys (fun _ => 0))

theorem reg_lossOt (hs : Solves solve a b) (i : Nat) :
    (regTraj solve fit predict alpha Mf ys a b i).lossOt
      = (1 - alpha) * inner Mf (regTraj solve fit predict alpha Mf ys a b i).sol.plan +
        alpha * inner (regCost (regTraj solve fit predict alpha Mf ys a b) ys i)
          (regTraj solve fit predict alpha Mf ys a b i).sol.plan := by
  cases i with
  | zero =>
    show (regBody solve fit predict alpha Mf ys a b 0 _).lossOt = _
    simp only [regBody, if_true]
    rw [(hs _).2.1]
    have : jdotCost alpha Mf (sqDist ys fun _ => 0) 0 = fun s t => (1 - alpha) * Mf s t + 0 * Mf s t := by
      funext s t; simp [jdotCost]
    congr 1
    show inner (jdotCost alpha Mf (sqDist ys fun _ => 0) 0) (solve (jdotCost alpha Mf (sqDist ys fun _ => 0) 0) a b).plan = (1 - alpha) * inner Mf (solve (jdotCost alpha Mf (sqDist ys fun _ => 0) 0) a b).plan
    generalize (solve (jdotCost alpha Mf (sqDist ys fun _ => 0) 0) a b).plan = T
    unfold inner jdotCost
    rw [Finset.mul_sum]
    refine Finset.sum_congr rfl fun s _ => ?_
    rw [Finset.mul_sum]
    exact Finset.sum_congr rfl fun t _ => by simp [mul_assoc]
  | succ i =>
    show (regBody solve fit predict alpha Mf ys a b (i + 1) (regTraj solve fit predict alpha Mf ys a b i).Ml).lossOt = _
    simp only [regBody]
    rw [if_neg (by omega), (hs _).2.1]
    exact inner_cost alpha Mf (regTraj solve fit predict alpha Mf ys a b i).Ml _

theorem reg_plan (hs : Solves solve a b) (i : Nat) :
    Coupling a b (regTraj solve fit predict alpha Mf ys a b i).sol.plan := by
  cases i <;> exact (hs _).1

/-- C72. If the OT solver is exact, the estimator is an exact (`b`-weighted) least-squares fit over a class containing the zero
predictor, and `alpha ≥ 0`, the OT loss of JDOT regression never increases from one iteration to the next. -/
theorem C72_descent (hs : Solves solve a b) (hf : LeastSquares fit predict b) (h0 : ∃ e, predict e = fun _ => 0)
    (ha : 0 ≤ alpha) (hb : ∀ t, b t ≠ 0) (i : Nat) :
    (regTraj solve fit predict alpha Mf ys a b (i + 1)).lossOt ≤ (regTraj solve fit predict alpha Mf ys a b i).lossOt := by
  have hT := reg_plan solve fit predict alpha Mf ys a b hs i
  set tr := regTraj solve fit predict alpha Mf ys a b with htr
  -- the new plan is at least as good as the old one for the new cost
  have h1 : (tr (i + 1)).lossOt ≤ (1 - alpha) * inner Mf (tr i).sol.plan + alpha * inner (tr i).Ml (tr i).sol.plan := by
    rw [← inner_cost]
    show (regBody solve fit predict alpha Mf ys a b (i + 1) (tr i).Ml).lossOt ≤ _
    simp only [regBody]
    rw [if_neg (by omega)]
    have := (hs (jdotCost alpha Mf (tr i).Ml (i + 1))).2.2 _ hT
    have e : jdotCost alpha Mf (tr i).Ml (i + 1) = fun s t => (1 - alpha) * Mf s t + alpha * (tr i).Ml s t := by
      funext s t; simp [jdotCost]
    rw [e] at this ⊢
    exact this
  -- the new predictor is at least as good as the old one for the old plan
  have hMl : (tr i).Ml = sqDist ys (predict (fit (transported ys (tr i).sol.plan b))) := by
    cases i <;> rfl
  have h2 : inner (tr i).Ml (tr i).sol.plan ≤ inner (regCost tr ys i) (tr i).sol.plan := by
    have hprev : ∃ e, regCost tr ys i = sqDist ys (predict e) := by
      cases i with
      | zero => obtain ⟨e, he⟩ := h0; exact ⟨e, by rw [he]; rfl⟩
      | succ i => cases i with
        | zero => exact ⟨fit (transported ys (tr 0).sol.plan b), rfl⟩
        | succ i => exact ⟨fit (transported ys (tr (i + 1)).sol.plan b), rfl⟩
    obtain ⟨e, he⟩ := hprev
    rw [he, hMl, inner_sqDist ys _ a b hT hb, inner_sqDist ys _ a b hT hb]
    have := hf (transported ys (tr i).sol.plan b) e
    linarith
  rw [reg_lossOt solve fit predict alpha Mf ys a b hs i]
  have := mul_le_mul_of_nonneg_left h2 ha
  linarith

/-- C72 (stopping). Under the same assumptions, non-negative costs and `tol > 0`, the solver stops by itself: the index `k` of the
last iteration satisfies `(k - 1) · tol ≤` first OT loss, whatever `n_iter_max` is. -/
theorem C72_stops (hs : Solves solve a b) (hf : LeastSquares fit predict b) (h0 : ∃ e, predict e = fun _ => 0)
    (ha : 0 ≤ alpha) (ha1 : alpha ≤ 1) (hb : ∀ t, b t ≠ 0) (hM : ∀ s t, 0 ≤ Mf s t) (tol : K) (n : Nat) (hn : 0 < n) :
    ∃ k, jdotLoop (regBody solve fit predict alpha Mf ys a b) tol n 0 (sqDist ys (fun _ => 0)) none [] []
        = .ok (resultAt (regTraj solve fit predict alpha Mf ys a b) k) ∧
      ((k - 1 : Nat) : K) * tol ≤ (regTraj solve fit predict alpha Mf ys a b 0).lossOt := by
  obtain ⟨k, -, hr, hm, -⟩ := C37_loop (regBody solve fit predict alpha Mf ys a b) tol (sqDist ys (fun _ => 0)) n hn
  refine ⟨k, hr, ?_⟩
  have hd := C72_descent solve fit predict alpha Mf ys a b hs hf h0 ha hb
  set tr := regTraj solve fit predict alpha Mf ys a b with htr
  have hnn : ∀ i, 0 ≤ (tr i).lossOt := by
    intro i
    rw [reg_lossOt solve fit predict alpha Mf ys a b hs i]
    have hT := reg_plan solve fit predict alpha Mf ys a b hs i
    have hc : ∀ s t, 0 ≤ regCost tr ys i s t := by
      intro s t
      cases i with
      | zero => exact sq_nonneg _
      | succ i => cases i <;> exact sq_nonneg _
    have n1 : 0 ≤ inner Mf (tr i).sol.plan :=
      Finset.sum_nonneg fun s _ => Finset.sum_nonneg fun t _ => mul_nonneg (hM s t) (hT.nonneg s t)
    have n2 : 0 ≤ inner (regCost tr ys i) (tr i).sol.plan :=
      Finset.sum_nonneg fun s _ => Finset.sum_nonneg fun t _ => mul_nonneg (hc s t) (hT.nonneg s t)
    have := mul_nonneg (sub_nonneg.2 ha1) n1
    have := mul_nonneg ha n2
    linarith
  have key : ∀ j, j + 1 ≤ k → ((j : Nat) : K) * tol + (tr j).lossOt ≤ (tr 0).lossOt := by
    intro j
    induction j with
    | zero => intro _; simp
    | succ j ih =>
      intro hj
      have h1 := ih (by omega)
      have h2 := (hm j (by omega)).1
      have h3 : |(tr (j + 1)).lossOt - (tr j).lossOt| = (tr j).lossOt - (tr (j + 1)).lossOt := by
        rw [abs_of_nonpos (by have := hd j; linarith)]; ring
      have h4 : tol ≤ (tr j).lossOt - (tr (j + 1)).lossOt := by rw [← h3]; exact h2
      push_cast
      linarith
  rcases Nat.eq_zero_or_pos k with rfl | hk
  · simp; exact hnn 0
  · have := key (k - 1) (by omega)
    have := hnn (k - 1)
    linarith


theorem sum_marginal {n : Nat} (w : Option (Fin n → K)) (hn : 0 < n) (hw : ∀ v, w = some v → (∑ j, v j) ≠ 0) :
    ∑ i, marginal w i = 1 := by
  cases w with
  | none =>
    have : (n : K) ≠ 0 := by exact_mod_cast hn.ne'
    simp [marginal, this]
  | some v =>
    have := hw v rfl
    simp only [marginal]
    rw [← Finset.sum_div, div_self this]

/-- C72 (marginals). Whatever non-negative sample weights are given (not all zero on a side), both marginals handed to the OT
solver are probability vectors proportional to the weights. -/
theorem C72_marginals {n : Nat} (w : Option (Fin n → K)) (hn : 0 < n) (hw : ∀ v, w = some v → ∀ j, 0 ≤ v j)
    (hp : ∀ v, w = some v → ∃ j, 0 < v j) :
    (∑ i, marginal w i = 1) ∧ (∀ i, 0 ≤ marginal w i) ∧
      (∀ v, w = some v → ∀ i j, marginal w i * v j = marginal w j * v i) ∧ (w = none → ∀ i j, marginal w i = marginal w j) := by
  have hs : ∀ v, w = some v → 0 < ∑ j, v j := by
    intro v hv
    obtain ⟨j, hj⟩ := hp v hv
    exact Finset.sum_pos' (fun i _ => hw v hv i) ⟨j, Finset.mem_univ _, hj⟩
  refine ⟨sum_marginal w hn (fun v hv => (hs v hv).ne'), fun i => ?_, fun v hv i j => ?_, fun hv i j => ?_⟩
  · cases w with
    | none => simp only [marginal]; positivity
    | some v => exact div_nonneg (hw v rfl i) (hs v rfl).le
  · subst hv; simp only [marginal]; ring
  · subst hv; rfl

/-- C72 (`solve_jdot_regression` itself). With exact OT, exact least squares, `0 ≤ alpha ≤ 1`, non-negative feature costs and
positive target weights, the reported OT losses are non-increasing and the number of iterations is bounded independently of
`n_iter_max`: `(k - 1) · tol` is at most the first loss, where `k + 1` iterations were executed. -/
theorem C72_regression (ws : Option (Fin ns → K)) (wt : Option (Fin nt → K)) (hs : Solves solve (marginal ws) (marginal wt))
    (hf : LeastSquares fit predict (marginal wt)) (h0 : ∃ e, predict e = fun _ => 0) (ha : 0 ≤ alpha) (ha1 : alpha ≤ 1)
    (hw : ∀ v, wt = some v → ∀ j, 0 < v j) (hM : ∀ s t, 0 ≤ Mf s t) (tol : K) (n : Nat) (hn : 0 < n) :
    ∃ e l0 los lts sol, jdotRegression solve fit predict alpha Mf ys ws wt n tol = .ok (e, l0 :: los, lts, sol) ∧
      lts.length = los.length + 1 ∧ los.length < n ∧ (l0 :: los).Pairwise (fun x y => y ≤ x) ∧
      ((los.length - 1 : Nat) : K) * tol ≤ l0 := by
  have hb : ∀ t, marginal wt t ≠ 0 := by
    intro t
    cases wt with
    | none =>
      have : (nt : K) ≠ 0 := by exact_mod_cast (Fin.pos t).ne'
      simp [marginal, this]
    | some v =>
      have h1 : 0 < ∑ j, v j := Finset.sum_pos (fun i _ => hw v rfl i) ⟨t, Finset.mem_univ _⟩
      exact div_ne_zero (hw v rfl t).ne' h1.ne'
  obtain ⟨k, hr, hk⟩ := C72_stops solve fit predict alpha Mf ys (marginal ws) (marginal wt) hs hf h0 ha ha1 hb hM tol n hn
  have hd := C72_descent solve fit predict alpha Mf ys (marginal ws) (marginal wt) hs hf h0 ha hb
  have hkn : k < n := by
    obtain ⟨k', h1, h2, -⟩ := C37_loop (regBody solve fit predict alpha Mf ys (marginal ws) (marginal wt)) tol
      (sqDist ys (fun _ => 0)) n hn
    rw [h2] at hr
    have := congrArg (fun r : Py (E × List K × List K × Sol K ns nt) => (r.toOption.map (fun q => q.2.1.length))) hr
    simp [resultAt, Except.toOption] at this
    omega
  have hr' : jdotRegression solve fit predict alpha Mf ys ws wt n tol = _ := hr
  set tr := regTraj solve fit predict alpha Mf ys (marginal ws) (marginal wt)
  have hmono : ∀ i j, i ≤ j → (tr j).lossOt ≤ (tr i).lossOt := by
    intro i j hij
    induction hij with
    | refl => exact le_refl _
    | step _ ih => exact le_trans (hd _) ih
  have hcons : (List.range (k + 1)).map (fun j => (tr j).lossOt)
      = (tr 0).lossOt :: (List.range k).map (fun j => (tr (j + 1)).lossOt) := by
    rw [List.range_succ_eq_map]; simp [Function.comp_def]
  refine ⟨(tr k).est, (tr 0).lossOt, (List.range k).map (fun j => (tr (j + 1)).lossOt),
    (List.range (k + 1)).map (fun j => (tr j).lossTgt), (tr k).sol, ?_, ?_, ?_, ?_, ?_⟩
  · rw [hr', resultAt, hcons]
  · simp
  · simpa using hkn
  · rw [← hcons, List.pairwise_map]
    exact List.pairwise_lt_range.imp (fun h => hmono _ _ h.le)
  · simpa using hk

/-- C37 (`solve_jdot_regression`). The returned estimator is fitted on the labels `Σ_s ys_s T_st / b_t` transported by the returned
plan, and the last target loss is its mean squared error on these labels. -/
theorem C37_regression_result (ws : Option (Fin ns → K)) (wt : Option (Fin nt → K)) (tol : K) (n : Nat) (e : E) (los lts : List K)
    (sol : Sol K ns nt) (h : jdotRegression solve fit predict alpha Mf ys ws wt n tol = .ok (e, los, lts, sol)) :
    let yth := fun t => (∑ s, ys s * sol.plan s t) / marginal wt t
    e = fit yth ∧ lts.getLast? = some ((∑ t, (yth t - predict e t) ^ 2) / nt) := by
  have hn : 0 < n := by
    rcases n with _ | n
    · cases h
    · omega
  obtain ⟨k, -, hr, -⟩ := C37_loop (regBody solve fit predict alpha Mf ys (marginal ws) (marginal wt)) tol
    (sqDist ys (fun _ => 0)) n hn
  have h' := h
  unfold jdotRegression at h'
  rw [hr] at h'
  simp only [resultAt, Except.ok.injEq, Prod.mk.injEq] at h'
  obtain ⟨rfl, -, rfl, rfl⟩ := h'
  rw [List.range_succ]
  simp only [List.map_append, List.map_cons, List.map_nil, List.getLast?_append, List.getLast?_singleton, Option.some_or]
  cases k <;> exact ⟨rfl, rfl⟩

end Descent


/-- A setting meeting the hypotheses of C72: one source row labelled 3, one target row, the only coupling, constant
predictors. The losses are 9/2, 0 and the solver stops after two iterations. -/
example : let solve : (Fin 1 → Fin 1 → ℚ) → (Fin 1 → ℚ) → (Fin 1 → ℚ) → Sol ℚ 1 1 := fun M _ _ => ⟨fun _ _ => 1, M 0 0⟩
    Solves solve (marginal none) (marginal none) ∧
    LeastSquares (E := ℚ) (fun y => y 0) (fun e _ => e) (marginal (n := 1) none) ∧
    (jdotRegression (E := ℚ) solve (fun y => y 0) (fun e _ => e) (1 / 2) (fun _ _ => 0) (fun _ => 3) none none 10
      (1 / 100)).map (fun r => (r.1, r.2.1)) = .ok (3, [9 / 2, 0]) := by
  refine ⟨fun M => ⟨⟨fun _ _ => by norm_num, fun s => by simp [marginal], fun t => by simp [marginal]⟩, ?_, ?_⟩, ?_, ?_⟩
  · simp [inner]
  · intro T hT
    have := hT.row 0
    simp [marginal] at this
    simp [inner, this]
  · intro y e
    simp [marginal]
    exact sq_nonneg _
  · simp [jdotRegression, jdotLoop, regBody, jdotCost, inner, transported, sqDist, marginal, Except.map]
    norm_num

/-! ### C38: class costs -/

section Costs
set_option linter.unusedSectionVars false
variable {K : Type} [Field K] [LinearOrder K] [IsStrictOrderedRing K] {α β : Type}

/-- C38 (two classes, negation). With one decision value per row the "hinge" cost is the same for both classes, whatever the
decision value is: it does not separate the classes at all. -/
theorem C38_counterexample [DecidableEq β] (c0 c1 : β) (hc : c0 ≠ c1) (v : K) :
    hingeCost (oneHot [c0, c1] c0) (.binary v) = hingeCost (oneHot [c0, c1] c1) (.binary v) ∧
      hingeCost (oneHot [c0, c1] c0) (.binary v) = max 0 (1 - v) + max 0 (1 + v) := by
  simp only [hingeCost, oneHot, RW.indicator, Scores.expand, List.map_cons, List.map_nil, List.zipWith_cons_cons,
    List.zipWith_nil_left, List.sum_cons, List.sum_nil, if_true, if_neg hc, if_neg hc.symm, hinge, add_zero]
  have e1 : (1 : K) - (2 * 1 - 1) * v = 1 - v := by ring
  have e2 : (1 : K) - (2 * 0 - 1) * v = 1 + v := by ring
  rw [e1, e2]
  exact ⟨by ring, rfl⟩

theorem hinge_gap {u v : K} (h : u < v) : hinge v - hinge (-v) < hinge u - hinge (-u) := by
  unfold hinge
  rcases le_total 0 (1 - v) with h1 | h1 <;> rcases le_total 0 (1 - u) with h2 | h2 <;>
    rcases le_total 0 (1 - -v) with h3 | h3 <;> rcases le_total 0 (1 - -u) with h4 | h4 <;>
    simp only [max_eq_left h1, max_eq_right h1, max_eq_left h2, max_eq_right h2, max_eq_left h3, max_eq_right h3,
      max_eq_left h4, max_eq_right h4] <;> linarith

theorem hinge_rest [DecidableEq β] (labels : List β) (f : List K) (c : β) (hc : c ∉ labels) :
    (List.zipWith (fun y f => hinge ((2 * y - 1) * f)) (oneHot labels c) f).sum
      = (List.zipWith (fun _ f => hinge (-f)) labels f).sum := by
  unfold oneHot RW.indicator
  rw [List.zipWith_map_left]
  congr 1
  induction labels generalizing f with
  | nil => rfl
  | cons b labels ih =>
    cases f with
    | nil => rfl
    | cons x f =>
      simp only [List.mem_cons, not_or] at hc
      simp only [List.zipWith_cons_cons, if_neg hc.1]
      rw [ih f hc.2]
      congr 2; ring

/-- The "hinge" cost of class `c` is a constant (the cost of "no class") plus `h(f_c) - h(-f_c)`. -/
theorem hinge_split [DecidableEq β] {labels : List β} (hn : labels.Nodup) {f : List K} {i : Nat} {c : β} {v : K}
    (hc : labels[i]? = some c) (hv : f[i]? = some v) :
    hingeCost (oneHot labels c) (.multi f)
      = (List.zipWith (fun _ f => hinge (-f)) labels f).sum + (hinge v - hinge (-v)) := by
  unfold hingeCost Scores.expand
  induction labels generalizing f i with
  | nil => simp at hc
  | cons b labels ih =>
    cases f with
    | nil => simp at hv
    | cons x f =>
      rw [List.nodup_cons] at hn
      cases i with
      | zero =>
        simp only [List.getElem?_cons_zero, Option.some.injEq] at hc hv
        subst hc; subst hv
        have := hinge_rest labels f b hn.1
        unfold oneHot RW.indicator at this ⊢
        simp only [List.map_cons, List.zipWith_cons_cons, List.sum_cons, if_true]
        rw [this]
        have e : (2 * 1 - 1) * x = x := by ring
        rw [e]; ring
      | succ i =>
        simp only [List.getElem?_cons_succ] at hc hv
        have hbc : ¬ c = b := by
          rintro rfl
          exact hn.1 (List.mem_of_getElem? hc)
        have := ih hn.2 hc hv
        unfold oneHot RW.indicator at this ⊢
        simp only [List.map_cons, List.zipWith_cons_cons, List.sum_cons, if_neg hbc]
        rw [this]
        have e : (2 * 0 - 1) * x = -x := by ring
        rw [e]; ring

/-- C38 (what holds: one decision value per class, i.e. three or more classes, "hinge"). The cost of one class is smaller than
the cost of another exactly when its decision value is larger. -/
theorem C38_hinge_partial [DecidableEq β] {labels : List β} (hn : labels.Nodup) {f : List K} {i j : Nat} {c c' : β} {u v : K}
    (hi : labels[i]? = some c) (hu : f[i]? = some u) (hj : labels[j]? = some c') (hv : f[j]? = some v) :
    hingeCost (oneHot labels c) (.multi f) < hingeCost (oneHot labels c') (.multi f) ↔ v < u := by
  rw [hinge_split hn hi hu, hinge_split hn hj hv]
  constructor
  · intro h
    by_contra hle
    rcases (not_lt.1 hle).lt_or_eq with h1 | h1
    · have := hinge_gap h1; linarith
    · subst h1; exact lt_irrefl _ h
  · intro h
    have := hinge_gap h
    linarith

/-- C38 (any number of classes, "multinomial"). The cost of a class is minus the log-probability predicted for it, so it is
smaller than the cost of another class exactly when the predicted log-probability is larger. -/
theorem C38_multinomial [DecidableEq β] {labels : List β} (hn : labels.Nodup) {lp : List K} {i j : Nat} {c c' : β} {u v : K}
    (hi : labels[i]? = some c) (hu : lp[i]? = some u) (hj : labels[j]? = some c') (hv : lp[j]? = some v) :
    logCost (oneHot labels c) lp = -u ∧
      (logCost (oneHot labels c) lp < logCost (oneHot labels c') lp ↔ v < u) := by
  have h1 : logCost (oneHot labels c) lp = -u := by rw [← listDot_indicator hn hi hu]; rfl
  have h2 : logCost (oneHot labels c') lp = -v := by rw [← listDot_indicator hn hj hv]; rfl
  exact ⟨h1, by rw [h1, h2, neg_lt_neg_iff]⟩

/-- C38 (which cost is used). Without an estimator every cost is 10, for any metric name; with one, an unknown metric and a
missing scoring method are `ValueError`s, and `predict_log_proba` is preferred to `predict_proba`. -/
theorem C38_dispatch (metric : String) (e : ClassEst α K) (y : List K) (x : α) :
    classCost metric (none : Option (ClassEst α K)) y x = .ok 10 ∧
    (metric ≠ "multinomial" → metric ≠ "hinge" → classCost metric (some e) y x = .error .valueError) ∧
    (e.decision = none → classCost "hinge" (some e) y x = .error .valueError) ∧
    (e.logProba = none → e.proba = none → classCost "multinomial" (some e) y x = .error .valueError) ∧
    (∀ f, e.decision = some f → classCost "hinge" (some e) y x = .ok (hingeCost y (f x))) ∧
    (∀ f, e.logProba = some f → classCost "multinomial" (some e) y x = .ok (logCost y (f x))) ∧
    (∀ f, e.logProba = none → e.proba = some f → classCost "multinomial" (some e) y x = .ok (logCost y (f x))) := by
  refine ⟨rfl, fun h1 h2 => by simp [classCost, h1, h2], fun h => by simp [classCost, h], fun h1 h2 => by simp [classCost, h1, h2],
    fun f h => by simp [classCost, h], fun f h => by simp [classCost, h], fun f h1 h2 => by simp [classCost, h1, h2]⟩

/-- A confident decision value 3 for class 1: costs 4 and 4 with two classes; with one value per class the costs differ. -/
example : hingeCost (oneHot [0, 1] 1) (.binary (3 : ℚ)) = 4 ∧ hingeCost (oneHot [0, 1] 0) (.binary (3 : ℚ)) = 4 ∧
    hingeCost (oneHot [0, 1, 2] 1) (.multi [-2, 3, -2]) = (0 : ℚ) ∧
    hingeCost (oneHot [0, 1, 2] 0) (.multi [-2, 3, -2]) = (7 : ℚ) ∧
    logCost (oneHot [0, 1] 1) [-5, -1] = (1 : ℚ) := by decide +kernel

end Costs

/-! ### C73: data and losses of JDOT classification -/

section Data
set_option linter.unusedSectionVars false
variable {K : Type} [Field K] [LinearOrder K] [IsStrictOrderedRing K] {α β : Type}

/-- The full weighted data set: every target row with every label, in row-major order. -/
def Spec.allPairs (Xt : List α) (Yth : List (List K)) (labels : List β) : List (α × β × K) :=
  (List.zipWith (fun x r => List.zipWith (fun c w => (x, c, w)) labels r) Xt Yth).flatten

theorem zip_blocks (Xt : List α) (Yth : List (List K)) (labels : List β) (hl : Yth.length = Xt.length)
    (hr : ∀ r ∈ Yth, r.length = labels.length) :
    (Xt.flatMap (fun x => List.replicate labels.length x)).zip
      ((List.replicate Yth.length labels).flatten.zip Yth.flatten) = allPairs Xt Yth labels := by
  unfold allPairs
  induction Xt generalizing Yth with
  | nil => simp
  | cons x Xt ih =>
    cases Yth with
    | nil => simp at hl
    | cons r Yth =>
      have h1 : r.length = labels.length := hr r (by simp)
      simp only [List.flatMap_cons, List.length_cons, List.replicate_succ, List.flatten_cons, List.zipWith_cons_cons]
      rw [List.zip_append h1.symm, List.zip_append (by simp [h1]), ih Yth (by simpa using hl) (fun r h => hr r (by simp [h]))]
      congr 1
      clear ih hr hl
      induction labels generalizing r with
      | nil => simp
      | cons c labels ih =>
        cases r with
        | nil => simp at h1
        | cons w r =>
          simp only [List.length_cons, List.replicate_succ, List.zip_cons_cons, List.zipWith_cons_cons]
          rw [ih r (by simpa using h1)]

/-- C73. The weighted training set of JDOT classification pairs every target row with every label and that entry of the
transported label matrix, in row-major order, and drops exactly the entries not above `thr_weights · max`. -/
theorem C73_data (Xt : List α) (Yth : List (List K)) (labels : List β) (thr maxY : K) (hl : Yth.length = Xt.length)
    (hr : ∀ r ∈ Yth, r.length = labels.length) :
    dataJdot Xt Yth labels thr maxY = (allPairs Xt Yth labels).filter (fun t => decide (thr * maxY < t.2.2)) := by
  rw [← zip_blocks Xt Yth labels hl hr]; rfl

theorem mem_allPairs {Xt : List α} {Yth : List (List K)} {labels : List β} {x : α} {c : β} {w : K} :
    (x, c, w) ∈ allPairs Xt Yth labels ↔ ∃ (t k : Nat) (r : List K), Xt[t]? = some x ∧ Yth[t]? = some r ∧ labels[k]? = some c ∧
      r[k]? = some w := by
  unfold allPairs
  rw [List.mem_flatten]
  constructor
  · rintro ⟨l, hl, hx⟩
    obtain ⟨t, ht, rfl⟩ := List.getElem_of_mem hl
    rw [List.length_zipWith] at ht
    rw [List.getElem_zipWith] at hx
    obtain ⟨k, hk, he⟩ := List.getElem_of_mem hx
    rw [List.length_zipWith] at hk
    rw [List.getElem_zipWith] at he
    injection he with e1 e2
    injection e2 with e2 e3
    exact ⟨t, k, Yth[t]'(by omega), by rw [List.getElem?_eq_getElem (by omega), e1], List.getElem?_eq_getElem _,
      by rw [List.getElem?_eq_getElem (by omega), e2], by rw [List.getElem?_eq_getElem (by omega), e3]⟩
  · rintro ⟨t, k, r, h1, h2, h3, h4⟩
    refine ⟨List.zipWith (fun c w => (x, c, w)) labels r, List.mem_of_getElem? (i := t) ?_, List.mem_of_getElem? (i := k) ?_⟩
    · rw [List.getElem?_zipWith, h1, h2]
    · rw [List.getElem?_zipWith, h3, h4]

/-- C73 (membership). A labelled row occurs in the training set with weight `w` exactly when `w` is the entry of the transported
label matrix for that target row and that label, and exceeds the threshold. -/
theorem C73_membership (Xt : List α) (Yth : List (List K)) (labels : List β) (thr maxY : K) (hl : Yth.length = Xt.length)
    (hr : ∀ r ∈ Yth, r.length = labels.length) (x : α) (c : β) (w : K) :
    (x, c, w) ∈ dataJdot Xt Yth labels thr maxY ↔ thr * maxY < w ∧
      ∃ (t k : Nat) (r : List K), Xt[t]? = some x ∧ Yth[t]? = some r ∧ labels[k]? = some c ∧ r[k]? = some w := by
  rw [C73_data Xt Yth labels thr maxY hl hr, List.mem_filter, mem_allPairs]
  simp [and_comm]

variable {ns nt : Nat}

/-- `T.T.dot(Ys) * nt` (skada/_ot.py:463) written out: `nt` times the mass sent to target `t` by the source rows labelled `c`. -/
def Spec.transportedLabels [DecidableEq β] (T : Fin ns → Fin nt → K) (ys : Fin ns → β) (labels : List β) : List (List K) :=
  List.ofFn (fun t => labels.map (fun c => (nt : K) * ∑ s, if ys s = c then T s t else 0))

theorem allPairs_ofFn (x : Fin nt → α) (w : Fin nt → β → K) (labels : List β) :
    allPairs (List.ofFn x) (List.ofFn (fun t => labels.map (w t))) labels
      = (List.ofFn (fun t => labels.map (fun c => (x t, c, w t c)))).flatten := by
  unfold allPairs
  congr 1
  apply List.ext_getElem
  · simp
  · intro n h1 h2
    simp only [List.getElem_zipWith, List.getElem_ofFn, List.zipWith_map_right]
    rw [List.zipWith_self]

theorem sum_allPairs (x : Fin nt → α) (w : Fin nt → β → K) (labels : List β) (g : α × β × K → K) :
    ((allPairs (List.ofFn x) (List.ofFn (fun t => labels.map (w t))) labels).map g).sum
      = ∑ t, (labels.map (fun c => g (x t, c, w t c))).sum := by
  rw [allPairs_ofFn, List.map_flatten, List.sum_flatten, List.map_map, List.map_ofFn, List.sum_ofFn]
  simp [Function.comp_def]

theorem sum_labels [DecidableEq β] (labels : List β) (hn : labels.Nodup) (c : β) (hc : c ∈ labels) (f : β → K) :
    (labels.map (fun b => if c = b then f b else 0)).sum = f c := by
  induction labels with
  | nil => simp at hc
  | cons b labels ih =>
    rw [List.nodup_cons] at hn
    simp only [List.map_cons, List.sum_cons]
    by_cases h : c = b
    · subst h
      have : (labels.map (fun b => if c = b then f b else 0)).sum = 0 := by
        apply List.sum_eq_zero
        intro v hv
        obtain ⟨b, hb, rfl⟩ := List.mem_map.1 hv
        rw [if_neg]; rintro rfl; exact hn.1 hb
      simp [this]
    · rw [if_neg h, zero_add]
      exact ih hn.2 (by simpa [h] using hc)

theorem list_sum_finset_comm (labels : List β) (f : Fin ns → β → K) :
    (labels.map (fun c => ∑ s, f s c)).sum = ∑ s, (labels.map (f s)).sum := by
  induction labels with
  | nil => simp
  | cons b labels ih => simp only [List.map_cons, List.sum_cons, ih, Finset.sum_add_distrib]

/-- Keeping every entry, the weighted training loss is `nt` times the label part of the OT cost. -/
theorem total_loss [DecidableEq β] (x : Fin nt → α) (T : Fin ns → Fin nt → K) (ys : Fin ns → β) (labels : List β)
    (hn : labels.Nodup) (hy : ∀ s, ys s ∈ labels) (cost : β → α → K) :
    ((allPairs (List.ofFn x) (transportedLabels T ys labels) labels).map (fun r => cost r.2.1 r.1 * r.2.2)).sum
      = (nt : K) * inner (fun s t => cost (ys s) (x t)) T := by
  unfold transportedLabels
  rw [sum_allPairs x (fun t c => (nt : K) * ∑ s, if ys s = c then T s t else 0) labels]
  unfold inner
  rw [Finset.sum_comm, Finset.mul_sum]
  refine Finset.sum_congr rfl fun t _ => ?_
  have : ∀ c, cost c (x t) * ((nt : K) * ∑ s, if ys s = c then T s t else 0)
      = ∑ s, (nt : K) * (if ys s = c then cost c (x t) * T s t else 0) := by
    intro c
    rw [Finset.mul_sum, Finset.mul_sum]
    refine Finset.sum_congr rfl fun s _ => ?_
    split <;> ring
  simp only [this]
  rw [list_sum_finset_comm, Finset.mul_sum]
  refine Finset.sum_congr rfl fun s _ => ?_
  have h2 := sum_labels labels hn (ys s) (hy s) (fun c => (nt : K) * (cost c (x t) * T s t))
  rw [← h2]
  congr 1
  apply List.map_congr_left
  intro b _
  split <;> simp

theorem sum_filter_split (l : List (α × β × K)) (p : α × β × K → Bool) (g : α × β × K → K) :
    (l.map g).sum = ((l.filter p).map g).sum + ((l.filter (fun r => !p r)).map g).sum := by
  induction l with
  | nil => simp
  | cons a l ih => cases h : p a <;> simp [h, ih] <;> ring

/-- C73 (losses agree). Let `c(k, x)` be the class cost of the fitted estimator. When thresholding only drops zero entries, the
target loss reported by JDOT classification equals the label part of the next OT objective, `⟨Ml, T⟩`, with the current plan. -/
theorem C73_loss [DecidableEq β] (x : Fin nt → α) (T : Fin ns → Fin nt → K) (ys : Fin ns → β) (labels : List β)
    (hn : labels.Nodup) (hy : ∀ s, ys s ∈ labels) (cost : β → α → K) (thr maxY : K) (ht : 0 < nt)
    (hz : ∀ r ∈ transportedLabels T ys labels, ∀ w ∈ r, w = 0 ∨ thr * maxY < w) :
    tgtLoss cost (dataJdot (List.ofFn x) (transportedLabels T ys labels) labels thr maxY) / (nt : K)
      = inner (fun s t => cost (ys s) (x t)) T := by
  have hne : (nt : K) ≠ 0 := by exact_mod_cast ht.ne'
  rw [C73_data _ _ _ _ _ (by simp [transportedLabels]) (by
    intro r hr
    simp only [transportedLabels, List.mem_ofFn] at hr
    obtain ⟨t, rfl⟩ := hr; simp)]
  have h1 := total_loss x T ys labels hn hy cost
  rw [sum_filter_split _ (fun t => decide (thr * maxY < t.2.2))] at h1
  have h2 : (((allPairs (List.ofFn x) (transportedLabels T ys labels) labels).filter
      (fun r => !decide (thr * maxY < r.2.2))).map (fun r => cost r.2.1 r.1 * r.2.2)).sum = 0 := by
    apply List.sum_eq_zero
    intro v hv
    obtain ⟨⟨a, c, w⟩, hm, rfl⟩ := List.mem_map.1 hv
    rw [List.mem_filter, mem_allPairs] at hm
    obtain ⟨⟨t, k, r, -, h4, -, h6⟩, hlt⟩ := hm
    simp only [Bool.not_eq_true', decide_eq_false_iff_not] at hlt
    rcases hz r (List.mem_of_getElem? h4) w (List.mem_of_getElem? h6) with h | h
    · simp [h]
    · exact absurd h hlt
  rw [h2, add_zero] at h1
  unfold tgtLoss
  rw [h1, mul_div_cancel_left₀ _ hne]

/-- C73 (general threshold). For non-negative costs the reported target loss never exceeds `⟨Ml, T⟩`, and falls short of it by at
most the threshold times the average over target rows of the summed class costs. -/
theorem C73_loss_bounds [DecidableEq β] (x : Fin nt → α) (T : Fin ns → Fin nt → K) (ys : Fin ns → β) (labels : List β)
    (hn : labels.Nodup) (hy : ∀ s, ys s ∈ labels) (cost : β → α → K) (thr maxY : K) (ht : 0 < nt)
    (hc : ∀ c t, 0 ≤ cost c (x t)) (hT : ∀ s t, 0 ≤ T s t) (h0 : 0 ≤ thr * maxY) :
    let loss := tgtLoss cost (dataJdot (List.ofFn x) (transportedLabels T ys labels) labels thr maxY) / (nt : K)
    let full := inner (fun s t => cost (ys s) (x t)) T
    loss ≤ full ∧ full ≤ loss + thr * maxY * ((∑ t, (labels.map (fun c => cost c (x t))).sum) / (nt : K)) := by
  have hpos : (0 : K) < nt := by exact_mod_cast ht
  have hne : (nt : K) ≠ 0 := hpos.ne'
  simp only
  rw [C73_data _ _ _ _ _ (by simp [transportedLabels]) (by
    intro r hr
    simp only [transportedLabels, List.mem_ofFn] at hr
    obtain ⟨t, rfl⟩ := hr; simp)]
  have h1 := total_loss x T ys labels hn hy cost
  rw [sum_filter_split _ (fun t => decide (thr * maxY < t.2.2))] at h1
  have hmem : ∀ a c w, (a, c, w) ∈ allPairs (List.ofFn x) (transportedLabels T ys labels) labels → 0 ≤ cost c a ∧ 0 ≤ w := by
    intro a c w hm
    rw [mem_allPairs] at hm
    obtain ⟨t, k, r, h3, h4, -, h6⟩ := hm
    rw [List.getElem?_ofFn] at h3
    have htt : t < nt := by by_contra h; simp [h] at h3
    rw [dif_pos htt] at h3
    injection h3 with h3
    subst h3
    refine ⟨hc c _, ?_⟩
    have h4 := List.mem_of_getElem? h4
    simp only [transportedLabels, List.mem_ofFn] at h4
    obtain ⟨t', rfl⟩ := h4
    obtain ⟨b, -, rfl⟩ := List.mem_map.1 (List.mem_of_getElem? h6)
    exact mul_nonneg hpos.le (Finset.sum_nonneg fun s _ => by split; exacts [hT _ _, le_refl _])
  have hd0 : 0 ≤ (((allPairs (List.ofFn x) (transportedLabels T ys labels) labels).filter
      (fun r => !decide (thr * maxY < r.2.2))).map (fun r => cost r.2.1 r.1 * r.2.2)).sum := by
    apply List.sum_nonneg
    intro v hv
    obtain ⟨⟨a, c, w⟩, hm, rfl⟩ := List.mem_map.1 hv
    have := hmem a c w (List.mem_filter.1 hm).1
    exact mul_nonneg this.1 this.2
  have hd1 : (((allPairs (List.ofFn x) (transportedLabels T ys labels) labels).filter
      (fun r => !decide (thr * maxY < r.2.2))).map (fun r => cost r.2.1 r.1 * r.2.2)).sum
      ≤ thr * maxY * ∑ t, (labels.map (fun c => cost c (x t))).sum := by
    have e : ∑ t, (labels.map (fun c => cost c (x t))).sum
        = ((allPairs (List.ofFn x) (transportedLabels T ys labels) labels).map (fun r => cost r.2.1 r.1)).sum := by
      unfold transportedLabels
      rw [sum_allPairs x (fun t c => (nt : K) * ∑ s, if ys s = c then T s t else 0) labels]
    rw [e]
    generalize hL : allPairs (List.ofFn x) (transportedLabels T ys labels) labels = L at hmem
    clear hL e h1 hd0
    induction L with
    | nil => simp
    | cons r L ih =>
      have ih := ih (fun a c w h => hmem a c w (by simp [h]))
      obtain ⟨a, c, w⟩ := r
      have hr := hmem a c w (by simp)
      by_cases hlt : thr * maxY < w
      · simp only [List.filter_cons, hlt, decide_true, Bool.not_true, Bool.false_eq_true, if_false, List.map_cons, List.sum_cons]
        have := mul_nonneg h0 hr.1
        rw [mul_add]; linarith
      · simp only [List.filter_cons, hlt, decide_false, Bool.not_false, if_true, List.map_cons, List.sum_cons]
        have := mul_le_mul_of_nonneg_left (not_lt.1 hlt) hr.1
        rw [mul_add]; linarith
  set A := (((allPairs (List.ofFn x) (transportedLabels T ys labels) labels).filter
      (fun t => decide (thr * maxY < t.2.2))).map (fun r => cost r.2.1 r.1 * r.2.2)).sum with hA
  have hloss : tgtLoss cost ((allPairs (List.ofFn x) (transportedLabels T ys labels) labels).filter
      (fun t => decide (thr * maxY < t.2.2))) = A := rfl
  rw [hloss]
  constructor
  · rw [div_le_iff₀ hpos]; linarith
  · rw [← mul_div_assoc, ← add_div, le_div_iff₀ hpos]; linarith

/-- Two target rows, labels 5 and 7, threshold a tenth of the largest entry: the small entry is dropped. -/
example : dataJdot (K := ℚ) ["a", "b"] [[1, 1 / 20], [1 / 2, 1]] [5, 7] (1 / 10) 1
    = [("a", 5, 1), ("b", 5, 1 / 2), ("b", 7, 1)] := by decide +kernel

end Data

/-! ### C36: label propagation -/

section Prop36
set_option linter.unusedSectionVars false
variable {K : Type} [Field K] [LinearOrder K] [IsStrictOrderedRing K] {α : Type}

/-- Writing values into the target rows: target row `i` receives the value whose position is its rank among the target rows. -/
theorem assign_targets {γ : Type} {sd : List Int} {out vals : List γ} (hl : sd.length = out.length)
    (hv : vals.length = nTarget sd) :
    ∃ o, boolAssign out (sd.map (fun d => decide (d < 0))) vals = .ok o ∧ o.length = out.length ∧
      (∀ (i : Nat) (d : Int), sd[i]? = some d → 0 ≤ d → o[i]? = out[i]?) ∧
      (∀ (i : Nat) (d : Int), sd[i]? = some d → d < 0 → o[i]? = vals[nTarget (sd.take i)]?) := by
  have hm : (sd.map (fun d => decide (d < 0))).length = out.length := by simpa using hl
  have hc : vals.length = (sd.map (fun d => decide (d < 0))).count true := by rw [count_map_true]; exact hv
  refine ⟨_, boolAssign_ok hm.symm hc, length_putMask _ _ _, fun i d hd h0 => ?_, fun i d hd h0 => ?_⟩
  · have hl' : sd.length = (putMask (sd.map (fun d => decide (d < 0))) out vals).length := by rw [length_putMask]; exact hl
    have e : sd.map (fun d => decide (0 ≤ d)) = (sd.map (fun d => decide (d < 0))).map (!·) := by
      simp [List.map_map, Function.comp_def, ← decide_not]
    rw [at_source hl' hd h0, at_source hl hd h0, ← sel_source, ← sel_source, e, sel_not_putMask hm hc]
  · have hl' : sd.length = (putMask (sd.map (fun d => decide (d < 0))) out vals).length := by rw [length_putMask]; exact hl
    rw [at_target hl' hd h0, ← sel_target, sel_putMask_same hm hc]

theorem rank_lt {sd : List Int} {i : Nat} {d : Int} (hd : sd[i]? = some d) (h0 : d < 0) :
    nTarget (sd.take i) < nTarget sd := by
  have hi : i < sd.length := by
    by_contra h; rw [List.getElem?_eq_none (by omega)] at hd; simp at hd
  rw [List.getElem?_eq_getElem hi, Option.some.injEq] at hd
  have : sd = sd.take i ++ sd[i] :: sd.drop (i + 1) := by
    rw [← List.drop_eq_getElem_cons hi, List.take_append_drop]
  conv_rhs => rw [this]
  unfold nTarget
  rw [List.countP_append, List.countP_cons, hd]
  simp [h0]

/-- The winning class: it occurs among the source labels, no class has more mass, and it is the smallest such class. -/
def Spec.Winner (mass : Int → K) (ys : List Int) (c : Int) : Prop :=
  c ∈ ys ∧ (∀ c' ∈ ys, mass c' ≤ mass c) ∧ ∀ c' ∈ ys, mass c ≤ mass c' → c ≤ c'

theorem propLabel_spec (G : List (List K)) (ys : List Int) (hy : ys ≠ []) (j : Nat) :
    ∃ c, propLabel G ys j = .ok c ∧ Winner (fun c => classMass G ys c j) ys c := by
  have hu : unique ys ≠ [] := by
    obtain ⟨y, ys', rfl⟩ := List.exists_cons_of_ne_nil hy
    intro h
    have : y ∈ unique (y :: ys') := mem_unique.2 (by simp)
    rw [h] at this; simp at this
  obtain ⟨k, m, h1, h2, h3, h4⟩ := argmax_spec (l := (unique ys).map (fun c => classMass G ys c j)) (by simpa using hu)
  rw [List.getElem?_map] at h2
  cases hk : (unique ys)[k]? with
  | none => rw [hk] at h2; simp at h2
  | some c =>
    rw [hk] at h2
    simp only [Option.map_some, Option.some.injEq] at h2
    subst h2
    refine ⟨c, by simp [propLabel, h1, ok_bind, hk, pure_ok], mem_unique.1 (List.mem_of_getElem? hk), fun c' hc' => ?_,
      fun c' hc' hle => ?_⟩
    · exact h3 _ (List.mem_map_of_mem (mem_unique.2 hc'))
    · by_contra hlt
      obtain ⟨k', hk', he⟩ := List.getElem_of_mem (mem_unique.2 hc')
      have hk2 : k < (unique ys).length := by
        by_contra h; rw [List.getElem?_eq_none (by omega)] at hk; simp at hk
      have hlt' : k' < k := by
        by_contra hge
        rcases Nat.eq_or_lt_of_le (not_lt.1 hge) with h | h
        · subst h; rw [List.getElem?_eq_getElem hk2, Option.some.injEq] at hk; omega
        · have := List.pairwise_iff_getElem.1 (pairwise_unique ys) k k' hk2 hk' h
          rw [List.getElem?_eq_getElem hk2, Option.some.injEq] at hk
          omega
      have := h4 k' (classMass G ys c' j) hlt' (by rw [List.getElem?_map, List.getElem?_eq_getElem hk', he]; rfl)
      exact absurd hle (not_le.2 this)

theorem splitY_ok {β : Type} {w : Option (List β)} {sd : List Int} (hsd : sd ≠ []) (hw : ∀ v, w = some v → sd.length = v.length) :
    splitY w sd = .ok (w.map (sourceRows sd), w.map (targetRows sd)) := by
  cases w with
  | none => rfl
  | some v => simp [splitY, splitX_ok hsd (hw v rfl)]

theorem check_labels {X : List α} {Y : List Num} {sd : List Int} (hX : X ≠ []) (hy : Y.length = X.length) (hsd : sd ≠ []) :
    checkXyDomain X Y (.vec sd) {} = .ok (X, Y, sd) := by
  have hyn : Y ≠ [] := by rintro rfl; exact hX (List.length_eq_zero_iff.1 (by simpa using hy.symm))
  simp [checkXyDomain, hX, hyn, extractSourceIndices, hsd, hy, checkFlags_default]

/-- The mass a plan sends to target column `j` from the source rows of class `c`. -/
def Spec.massFrom (G : List (List K)) (ys : List Int) (c : Int) (j : Nat) : K :=
  (((G.zip ys).filter (fun r => decide (r.2 = c))).map (fun r => r.1.getD j 0)).sum

theorem classMass_eq (G : List (List K)) (ys : List Int) (c : Int) (j : Nat) : classMass G ys c j = massFrom G ys c j := by
  unfold classMass massFrom
  induction G generalizing ys with
  | nil => simp
  | cons g G ih =>
    cases ys with
    | nil => simp
    | cons y ys =>
      simp only [List.zipWith_cons_cons, List.sum_cons, List.zip_cons_cons, List.filter_cons]
      rw [ih ys]
      by_cases h : y = c <;> simp [h]

/-- Weights of one side: proportional to the given ones with sum one, or uniform. -/
def Spec.sideWeights (n : Nat) : Option (List K) → List K
  | none => List.replicate n (1 / (n : K))
  | some w => w.map (fun v => v / w.sum)

theorem propWeights_eq (n : Nat) (w : Option (List K)) : propWeights n w = sideWeights n w := by cases w <;> rfl

/-- C36 (discrete labels). OT label propagation returns `X` unchanged, masks every source label with -1 and gives each target row the class
with the largest mass transported to that very row (the smallest such class on ties), where the plan is the one computed for the
source and target rows in their order in `X` and for the normalised weights. -/
theorem C36_discrete (plan : List α → List α → List K → List K → List (List K)) (X : List α) (y : List Int) (sd : List Int)
    (w : Option (List K)) (hy : y.length = X.length) (hlen : sd.length = X.length)
    (hw : ∀ v, w = some v → v.length = X.length) (hs : 0 < nSource sd) :
    ∃ yout, otLabelProp plan X y (.vec sd) w = .ok (X, yout) ∧ yout.length = X.length ∧
      (∀ (i : Nat) (d : Int), sd[i]? = some d → 0 ≤ d → yout[i]? = some (-1)) ∧
      (∀ (i : Nat) (d : Int), sd[i]? = some d → d < 0 → ∃ c, yout[i]? = some c ∧
        Winner (fun c => massFrom (plan (sourceRows sd X) (targetRows sd X)
          (sideWeights (sourceRows sd X).length (w.map (sourceRows sd)))
          (sideWeights (targetRows sd X).length (w.map (targetRows sd)))) (sourceRows sd y) c (nTarget (sd.take i)))
          (sourceRows sd y) c) := by
  simp only [← classMass_eq, ← propWeights_eq]
  have hsd : sd ≠ [] := by rintro rfl; simp [nSource] at hs
  have hX : X ≠ [] := by rintro rfl; exact hsd (List.length_eq_zero_iff.1 (by simpa using hlen))
  have hyn : y ≠ [] := by rintro rfl; exact hX (List.length_eq_zero_iff.1 (by simpa using hy.symm))
  have hck := check_labels (X := X) (Y := y.map (fun v : Int => Num.fin (v : ℚ))) hX (by simp [hy]) hsd
  have hys : sourceRows sd y ≠ [] := sourceRows_ne (by omega) hs
  set G := plan (sourceRows sd X) (targetRows sd X)
          (propWeights (sourceRows sd X).length (w.map (sourceRows sd)))
          (propWeights (targetRows sd X).length (w.map (targetRows sd))) with hG
  choose f hf1 hf2 using fun j => propLabel_spec G (sourceRows sd y) hys j
  have hm : (List.range (targetRows sd X).length).mapM (propLabel G (sourceRows sd y))
      = .ok ((List.range (targetRows sd X).length).map f) := mapM_ok (fun j _ => hf1 j)
  obtain ⟨o, ho1, ho2, ho3, ho4⟩ := assign_targets (sd := sd) (out := y.map (fun _ => (-1 : Int)))
    (vals := (List.range (targetRows sd X).length).map f) (by simp; omega) (by simp [length_targetRows hlen])
  refine ⟨o, ?_, by simpa [hy] using ho2, fun i d hd h0 => ?_, fun i d hd h0 => ?_⟩
  · unfold otLabelProp
    rw [hck]
    simp only [ok_bind]
    rw [splitX_ok hsd hlen, splitX_ok hsd (by omega), splitY_ok hsd (fun v hv => by rw [hw v hv, hlen])]
    simp only [ok_bind, ← hG]
    rw [hm]
    simp only [ok_bind]
    rw [ho1]
    rfl
  · rw [ho3 i d hd h0, List.getElem?_map]
    have : i < y.length := by
      by_contra h; rw [List.getElem?_eq_none (by omega)] at hd; simp at hd
    simp [this]
  · refine ⟨f (nTarget (sd.take i)), ?_, hf2 _⟩
    rw [ho4 i d hd h0, List.getElem?_map, List.getElem?_range (by rw [length_targetRows hlen]; exact rank_lt hd h0)]
    rfl

theorem convex_bound (col ys : List K) (hl : col.length = ys.length) (hc : ∀ g ∈ col, 0 ≤ g) (lo hi : K)
    (hb : ∀ v ∈ ys, lo ≤ v ∧ v ≤ hi) :
    lo * col.sum ≤ (List.zipWith (· * ·) col ys).sum ∧ (List.zipWith (· * ·) col ys).sum ≤ hi * col.sum := by
  induction col generalizing ys with
  | nil => simp
  | cons g col ih =>
    cases ys with
    | nil => simp at hl
    | cons v ys =>
      obtain ⟨h1, h2⟩ := ih ys (by simpa using hl) (fun g h => hc g (by simp [h])) (fun v h => hb v (by simp [h]))
      obtain ⟨h3, h4⟩ := hb v (by simp)
      have hg := hc g (by simp)
      have := mul_le_mul_of_nonneg_left h3 hg
      have := mul_le_mul_of_nonneg_left h4 hg
      simp only [List.zipWith_cons_cons, List.sum_cons, mul_add]
      constructor <;> nlinarith

/-- The value propagated to the target row of rank `j`: the plan-weighted average of the source labels. -/
def Spec.barycentre (G : List (List K)) (ys : List K) (j : Nat) : K :=
  (List.zipWith (· * ·) (G.map (fun g => g.getD j 0)) ys).sum / (G.map (fun g => g.getD j 0)).sum

/-- C36 (continuous labels). Source labels become NaN; each target row receives the average of the source labels weighted by the
mass the plan sends to that row, which lies within the range of the source labels.  The hypotheses on the plan say that it is
non-negative with the requested (positive) target marginal. -/
theorem C36_continuous (plan : List α → List α → List K → List K → List (List K)) (X : List α) (y : List K) (sd : List Int)
    (w : Option (List K)) (hX : X ≠ []) (hy : y.length = X.length) (hlen : sd.length = X.length)
    (hw : ∀ v, w = some v → v.length = X.length) (G : List (List K)) (wt : List K)
    (hwt : wt = sideWeights (targetRows sd X).length (w.map (targetRows sd)))
    (hG : G = plan (sourceRows sd X) (targetRows sd X) (sideWeights (sourceRows sd X).length (w.map (sourceRows sd))) wt)
    (hGl : G.length = (sourceRows sd y).length) (hG0 : ∀ g ∈ G, ∀ v ∈ g, 0 ≤ v)
    (hcol : ∀ j, (G.map (fun g => g.getD j 0)).sum = wt.getD j 0) (hpos : ∀ j, j < nTarget sd → 0 < wt.getD j 0) :
    ∃ yout, otLabelPropReg plan X y (.vec sd) w = .ok (X, yout) ∧ yout.length = X.length ∧
      (∀ (i : Nat) (d : Int), sd[i]? = some d → 0 ≤ d → yout[i]? = some none) ∧
      (∀ (i : Nat) (d : Int), sd[i]? = some d → d < 0 →
        yout[i]? = some (some (barycentre G (sourceRows sd y) (nTarget (sd.take i)))) ∧
        ∀ lo hi, (∀ v ∈ sourceRows sd y, lo ≤ v ∧ v ≤ hi) →
          lo ≤ barycentre G (sourceRows sd y) (nTarget (sd.take i)) ∧ barycentre G (sourceRows sd y) (nTarget (sd.take i)) ≤ hi) := by
  rw [← propWeights_eq] at hwt hG
  have hsd : sd ≠ [] := sd_ne hX hlen
  obtain ⟨o, ho1, ho2, ho3, ho4⟩ := assign_targets (sd := sd) (out := y.map (fun _ => (none : Option K)))
    (vals := (List.range (targetRows sd X).length).map (fun j =>
      some ((List.zipWith (fun g y => g.getD j 0 * y) G (sourceRows sd y)).sum / wt.getD j 0)))
    (by simp; omega) (by simp [length_targetRows hlen])
  refine ⟨o, ?_, by simpa [hy] using ho2, fun i d hd h0 => ?_, fun i d hd h0 => ⟨?_, ?_⟩⟩
  · unfold otLabelPropReg
    rw [check_ok hX hlen]
    simp only [ok_bind]
    rw [splitX_ok hsd hlen, splitX_ok hsd (by omega), splitY_ok hsd (fun v hv => by rw [hw v hv, hlen])]
    simp only [ok_bind, ← hwt, ← hG]
    rw [ho1]
    rfl
  · rw [ho3 i d hd h0, List.getElem?_map]
    have : i < y.length := by
      by_contra h; rw [List.getElem?_eq_none (by omega)] at hd; simp at hd
    simp [this]
  · rw [ho4 i d hd h0, List.getElem?_map, List.getElem?_range (by rw [length_targetRows hlen]; exact rank_lt hd h0)]
    simp only [Option.map_some, barycentre, hcol, List.zipWith_map_left]
  · intro lo hi hb
    have hp := hpos _ (rank_lt hd h0)
    have := convex_bound (G.map (fun g => g.getD (nTarget (sd.take i)) 0)) (sourceRows sd y) (by simpa using hGl) (by
      intro g hg
      obtain ⟨r, hr, rfl⟩ := List.mem_map.1 hg
      rw [List.getD_eq_getElem?_getD]
      cases hv : r[nTarget (sd.take i)]? with
      | none => simp
      | some v => exact hG0 r hr v (List.mem_of_getElem? hv)) lo hi hb
    unfold barycentre
    rw [hcol] at this ⊢
    exact ⟨by rw [le_div_iff₀ hp]; exact this.1, by rw [div_le_iff₀ hp]; exact this.2⟩

/-! #### JCPOT -/

/-- The target rows handed to the solver: domain after domain, in increasing order of the domain label. -/
def Spec.byDomain (sd : List Int) (X : List α) (ks : List Int) : List α :=
  ((ks.filter (fun d => decide (d < 0))).map (fun d => domainRows d sd X)).flatten

theorem split_first {γ : Type} (key : γ → Int) (k : Int) (l : List γ) (hs : l.Pairwise (fun a b => key a ≤ key b))
    (hk : ∀ a ∈ l, k ≤ key a) :
    l = l.filter (fun a => decide (key a = k)) ++ l.filter (fun a => decide (k < key a)) := by
  induction l with
  | nil => rfl
  | cons a l ih =>
    rw [List.pairwise_cons] at hs
    have hka := hk a (by simp)
    by_cases h : key a = k
    · have := ih hs.2 (fun b hb => hk b (by simp [hb]))
      simp only [List.filter_cons, h, decide_true, if_true, lt_irrefl, decide_false, Bool.false_eq_true, if_false, List.cons_append]
      rw [← this]
    · have hgt : k < key a := lt_of_le_of_ne hka (Ne.symm h)
      have h1 : l.filter (fun a => decide (key a = k)) = [] := by
        rw [List.filter_eq_nil_iff]
        intro b hb
        have := hs.1 b hb
        simp; omega
      have h2 : l.filter (fun a => decide (k < key a)) = l := by
        rw [List.filter_eq_self]
        intro b hb
        have := hs.1 b hb
        simp; omega
      simp [h, hgt, h1, h2]

theorem group_sorted {γ : Type} (key : γ → Int) (ks : List Int) (hks : ks.Pairwise (· < ·)) (l : List γ)
    (hs : l.Pairwise (fun a b => key a ≤ key b)) (hm : ∀ a ∈ l, key a ∈ ks) :
    (ks.map (fun k => l.filter (fun a => decide (key a = k)))).flatten = l := by
  induction ks generalizing l with
  | nil =>
    cases l with
    | nil => rfl
    | cons a l => exact absurd (hm a (by simp)) (by simp)
  | cons k ks ih =>
    rw [List.pairwise_cons] at hks
    have hk : ∀ a ∈ l, k ≤ key a := by
      intro a ha
      rcases List.mem_cons.1 (hm a ha) with h | h
      · omega
      · exact (hks.1 _ h).le
    conv_rhs => rw [split_first key k l hs hk]
    rw [List.map_cons, List.flatten_cons]
    congr 1
    rw [← ih hks.2 (l.filter (fun a => decide (k < key a))) (hs.filter _) (by
      intro a ha
      rw [List.mem_filter] at ha
      rcases List.mem_cons.1 (hm a ha.1) with h | h
      · have := of_decide_eq_true ha.2; omega
      · exact h)]
    congr 1
    apply List.map_congr_left
    intro k' hk'
    rw [List.filter_filter]
    apply List.filter_congr
    intro a _
    have := hks.1 k' hk'
    by_cases h : key a = k' <;> simp [h, this]

/-- If the target rows already come domain after domain in increasing label order, the regrouping does nothing. -/
theorem byDomain_sorted {X : List α} {sd : List Int} {ks : List Int} (hlen : sd.length = X.length)
    (hks : ks.Pairwise (· < ·)) (hm : ∀ d, d ∈ ks ↔ d ∈ sd) (hs : (sd.filter (fun d => decide (d < 0))).Pairwise (· ≤ ·)) :
    byDomain sd X ks = targetRows sd X := by
  unfold byDomain targetRows domainRows
  have hz : ((sd.zip X).filter (fun r => decide (r.1 < 0))).Pairwise (fun a b => a.1 ≤ b.1) := by
    have e : ((sd.zip X).filter (fun r => decide (r.1 < 0))).map Prod.fst = sd.filter (fun d => decide (d < 0)) := by
      have h1 : sd = (sd.zip X).map Prod.fst := (List.map_fst_zip (by omega)).symm
      conv_rhs => rw [h1, List.filter_map]
      rfl
    rw [← e, List.pairwise_map] at hs
    exact hs
  have := group_sorted (Prod.fst : Int × α → Int) (ks.filter (fun d => decide (d < 0))) (hks.filter _) _ hz (by
    intro a ha
    rw [List.mem_filter] at ha ⊢
    exact ⟨(hm _).2 (List.of_mem_zip ha.1).1, ha.2⟩)
  conv_rhs => rw [← this]
  rw [List.map_flatten, List.map_map]
  congr 1
  apply List.map_congr_left
  intro d hd
  simp only [Function.comp_apply]
  rw [List.filter_filter]
  congr 1
  apply List.filter_congr
  intro a _
  have hd0 := of_decide_eq_true (List.mem_filter.1 hd).2
  by_cases h : a.1 = d <;> simp [h, hd0]

theorem domArrays_map (X : List α) (sd : List Int) (ks : List Int) :
    domArrays (ks.map (fun d => (d, ([some X] : List (Option (List α))).map (fun a => a.map (domainRows d sd)))))
      = ks.map (fun d => domainRows d sd X) := by
  simp [domArrays]

/-- What the solver of JCPOT is given: the source domains in increasing label order, a single one twice. -/
def Spec.jcpotSources {γ : Type} (sd : List Int) (a : List γ) (ks : List Int) : List (List γ) :=
  let s := (ks.filter (fun d => decide (0 ≤ d))).map (fun d => domainRows d sd a)
  if s.length = 1 then s ++ s else s

theorem jcpot_value (scores : List (List α) → List (List Int) → List α → List (List K)) (X : List α) (y : List Int)
    (sd : List Int) (hX : X ≠ []) (hy : y.length = X.length) (hlen : sd.length = X.length)
    (hrow : ∀ Xs ys Xt, ∀ r ∈ scores Xs ys Xt, r ≠ []) (hn : ∀ Xs ys Xt, (scores Xs ys Xt).length = nTarget sd) :
    ∃ (ks : List Int) (yout : List Int), ks.Pairwise (· < ·) ∧ (∀ d, d ∈ ks ↔ d ∈ sd) ∧
      jcpot scores X y (.vec sd) = .ok (X, yout) ∧ yout.length = X.length ∧
      (∀ (i : Nat) (d : Int), sd[i]? = some d → 0 ≤ d → yout[i]? = some (-1)) ∧
      (∀ (i : Nat) (d : Int), sd[i]? = some d → d < 0 → ∃ (k : Nat) (r : List K) (v : K), yout[i]? = some (k : Int) ∧
        (scores (jcpotSources sd X ks) (jcpotSources sd y ks) (byDomain sd X ks))[nTarget (sd.take i)]? = some r ∧
        r[k]? = some v ∧ ∀ u ∈ r, u ≤ v) := by
  have hsd : sd ≠ [] := sd_ne hX hlen
  obtain ⟨ks, hks, hm, h1⟩ := C06_per_domain_value [some X] sd (by simp) hsd (by simp [hlen])
  obtain ⟨ks', hks', hm', h2⟩ := C06_per_domain_value [some y] sd (by simp) hsd (by simp; omega)
  have : ks' = ks := List.Pairwise.eq_of_mem_iff hks' hks (fun d => by rw [hm, hm'])
  subst this
  set S := scores (jcpotSources sd X ks') (jcpotSources sd y ks') (byDomain sd X ks') with hS
  have hne : ∀ r : List K, r ≠ [] → ∃ (k : Nat) (v : K), argmax r = .ok k ∧ r[k]? = some v ∧ ∀ u ∈ r, u ≤ v := by
    intro r hr
    obtain ⟨k, v, e1, e2, e3, -⟩ := argmax_spec hr
    exact ⟨k, v, e1, e2, e3⟩
  classical
  let f : List K → Nat := fun r => if h : r ≠ [] then (hne r h).choose else 0
  have hf : ∀ r (h : r ≠ []), argmax r = .ok (f r) ∧ ∃ v, r[f r]? = some v ∧ ∀ u ∈ r, u ≤ v := by
    intro r h
    have e : f r = (hne r h).choose := dif_pos h
    obtain ⟨v, e1, e2⟩ := (hne r h).choose_spec
    rw [e]
    exact ⟨e1, v, e2⟩
  have hmm : S.mapM (fun r => argmax r) = .ok (S.map f) := mapM_ok (fun r hr => (hf r (hrow _ _ _ r hr)).1)
  obtain ⟨o, ho1, ho2, ho3, ho4⟩ := assign_targets (sd := sd) (out := y.map (fun _ => (-1 : Int)))
    (vals := (S.map f).map (fun k : Nat => (k : Int))) (by simp; omega) (by simp [hS, hn])
  refine ⟨ks', o, hks, hm, ?_, by simpa [hy] using ho2, fun i d hd h0 => ?_, fun i d hd h0 => ?_⟩
  · unfold jcpot
    rw [check_labels hX (by simp [hy]) hsd]
    simp only [ok_bind]
    rw [h1, h2]
    simp only [ok_bind]
    rw [domArrays_map, domArrays_map, domArrays_map]
    have e : (if ((ks'.filter (fun d => decide (0 ≤ d))).map (fun d => domainRows d sd y)).length = 1
        then (((ks'.filter (fun d => decide (0 ≤ d))).map (fun d => domainRows d sd X)) ++
              ((ks'.filter (fun d => decide (0 ≤ d))).map (fun d => domainRows d sd X)),
            ((ks'.filter (fun d => decide (0 ≤ d))).map (fun d => domainRows d sd y)) ++
              ((ks'.filter (fun d => decide (0 ≤ d))).map (fun d => domainRows d sd y)))
        else (((ks'.filter (fun d => decide (0 ≤ d))).map (fun d => domainRows d sd X)),
            ((ks'.filter (fun d => decide (0 ≤ d))).map (fun d => domainRows d sd y))))
        = (jcpotSources sd X ks', jcpotSources sd y ks') := by
      simp only [jcpotSources, List.length_map]
      split <;> rfl
    rw [e]
    simp only
    have e2 : ((ks'.filter (fun d => decide (d < 0))).map (fun d => domainRows d sd X)).flatten = byDomain sd X ks' := rfl
    rw [e2, ← hS, hmm]
    simp only [ok_bind]
    rw [ho1]
    rfl
  · rw [ho3 i d hd h0, List.getElem?_map]
    have : i < y.length := by
      by_contra h; rw [List.getElem?_eq_none (by omega)] at hd; simp at hd
    simp [this]
  · have hlt : nTarget (sd.take i) < S.length := by rw [hS, hn]; exact rank_lt hd h0
    have hr := hrow _ _ _ _ (List.getElem_mem hlt)
    obtain ⟨-, v, hv1, hv2⟩ := hf _ hr
    refine ⟨f S[nTarget (sd.take i)], S[nTarget (sd.take i)], v, ?_, List.getElem?_eq_getElem hlt, hv1, hv2⟩
    rw [ho4 i d hd h0]
    simp [hlt]

/-- C36 (JCPOT, what holds). Source labels are masked, `X` is returned unchanged, and *if the target rows come grouped by domain in
increasing label order*, the solver sees the target rows in their order in `X` and the label of target row `i` is the index `k` of
the largest class score of that very row — a class label only if the classes are numbered `0, 1, …`. -/
theorem C36_jcpot_partial (scores : List (List α) → List (List Int) → List α → List (List K)) (X : List α) (y : List Int)
    (sd : List Int) (hX : X ≠ []) (hy : y.length = X.length) (hlen : sd.length = X.length)
    (hrow : ∀ Xs ys Xt, ∀ r ∈ scores Xs ys Xt, r ≠ []) (hn : ∀ Xs ys Xt, (scores Xs ys Xt).length = nTarget sd)
    (hs : (sd.filter (fun d => decide (d < 0))).Pairwise (· ≤ ·)) :
    ∃ (Xs : List (List α)) (ys : List (List Int)) (yout : List Int),
      jcpot scores X y (.vec sd) = .ok (X, yout) ∧ yout.length = X.length ∧
      (∀ (i : Nat) (d : Int), sd[i]? = some d → 0 ≤ d → yout[i]? = some (-1)) ∧
      (∀ (i : Nat) (d : Int), sd[i]? = some d → d < 0 → ∃ (k : Nat) (r : List K) (v : K), yout[i]? = some (k : Int) ∧
        (scores Xs ys (targetRows sd X))[nTarget (sd.take i)]? = some r ∧ r[k]? = some v ∧ ∀ u ∈ r, u ≤ v) := by
  obtain ⟨ks, yout, hks, hm, h1, h2, h3, h4⟩ := jcpot_value scores X y sd hX hy hlen hrow hn
  rw [byDomain_sorted hlen hks hm hs] at h4
  exact ⟨_, _, yout, h1, h2, h3, h4⟩

/-- C36 (JCPOT, negation: order). Two target domains labelled -2 and -3 in this order (the order `DomainAwareDataset.pack` produces):
the row of domain -2 receives the label computed for the row of domain -3 and vice versa.  Here the score of a row is read off the
row itself: row `k` wins class `k`. -/
theorem C36_jcpot_order_counterexample :
    ∃ (scores : List (List Nat) → List (List Int) → List Nat → List (List ℚ)),
      (∀ Xs ys Xt, scores Xs ys Xt = Xt.map (fun x => if x = 0 then [1, 0] else [0, 1])) ∧
      jcpot scores [5, 0, 1] [0, -1, -1] (.vec [1, -2, -3]) = .ok ([5, 0, 1], [-1, 1, 0]) :=
  ⟨_, fun _ _ _ => rfl, by decide +kernel⟩

/-- C36 (JCPOT, negation: labels). With classes 3 and 7 the propagated labels are 0 and 1, which are not class labels. -/
theorem C36_jcpot_label_counterexample :
    ∃ (scores : List (List Nat) → List (List Int) → List Nat → List (List ℚ)),
      (∀ Xs ys Xt, scores Xs ys Xt = Xt.map (fun x => if x = 0 then [1, 0] else [0, 1])) ∧
      jcpot scores [5, 6, 0, 1] [3, 7, -1, -1] (.vec [1, 1, -2, -2]) = .ok ([5, 6, 0, 1], [-1, -1, 0, 1]) :=
  ⟨_, fun _ _ _ => rfl, by decide +kernel⟩

/-- A concrete propagation: classes 3 and 7, interleaved rows. -/
example : otLabelProp (K := ℚ) (fun _ _ _ _ => [[1 / 4, 1 / 4], [0, 1 / 6], [1 / 4, 1 / 12]]) ["s0", "t0", "s1", "t1", "s2"]
    [3, -1, 7, -1, 7] (.vec [1, -2, 1, -2, 1]) none = .ok (["s0", "t0", "s1", "t1", "s2"], [-1, 3, -1, 3, -1]) := by
  decide +kernel

example : otLabelPropReg (K := ℚ) (fun _ _ _ _ => [[1 / 2, 1 / 4], [0, 1 / 4]]) ["s0", "t0", "s1", "t1"]
    [3, 0, 7, 0] (.vec [1, -2, 1, -2]) none = .ok (["s0", "t0", "s1", "t1"], [none, some 3, none, some 5]) := by
  decide +kernel

end Prop36

end Skada

import Verif.Model.QpScipy
import Verif.Props.FrankWolfe
import Verif.Props.Reweight

/-!
# C125, C126: quadratic programs through SciPy, and the weights of kernel mean matching

The contract of `scipy.optimize.minimize` is `Spec.SolverOk ε δ`: the reported value belongs to the reported point, and a
result reported as a success is feasible up to `δ` and stationary up to `ε` for the derivative it was given.
-/

set_option linter.unusedSectionVars false

namespace Skada
open FW

variable {K : Type} [Field K] [LinearOrder K] [IsStrictOrderedRing K]

namespace Spec
open QP

/-- The constraints as documented by `qp_solve`, up to `δ`: `lb ≤ x ≤ ub`, `A x ≤ b`, `Aeq x = beq`, each ignored if `None`. -/
structure QPFeasible {n : Nat} (δ : K) (A : Option (List (Fin n → K))) (b : Option (List K)) (Aeq : Option (List (Fin n → K)))
    (beq lb ub : Option (List K)) (x : Fin n → K) : Prop where
  ineq : ∀ rows v, A = some rows → b = some v → ∀ (k : Nat) row r, rows[k]? = some row → v[k]? = some r →
    ∑ i, row i * x i ≤ r + δ
  eq : ∀ rows v, Aeq = some rows → beq = some v → ∀ (k : Nat) row r, rows[k]? = some row → v[k]? = some r →
    |∑ i, row i * x i - r| ≤ δ
  lower : ∀ l, lb = some l → ∀ (i : Fin n) v, l[i.val]? = some v → v ≤ x i + δ
  upper : ∀ u, ub = some u → ∀ (i : Fin n) v, u[i.val]? = some v → x i ≤ v + δ

/-- What SciPy understands by a lower bound of one row (a NaN bound is met by nothing). -/
def Above (δ : K) (l : Bnd K) (k : Nat) (v : K) : Prop :=
  match l with
  | .inf => True
  | .nan => False
  | .vec l => ∀ r, l[k]? = some r → r ≤ v + δ

/-- What SciPy understands by an upper bound of one row. -/
def Below (δ : K) (u : Bnd K) (k : Nat) (v : K) : Prop :=
  match u with
  | .inf => True
  | .nan => False
  | .vec u => ∀ r, u[k]? = some r → v ≤ r + δ

/-- The points SciPy regards as feasible for a call, up to `δ`. -/
def CallFeasible {n : Nat} (δ : K) (call : Call K n) (x : Fin n → K) : Prop :=
  (∀ bs, call.bounds = some bs → ∀ (i : Fin n) p, bs[i.val]? = some p →
    (∀ l, p.1 = some l → l ≤ x i + δ) ∧ (∀ u, p.2 = some u → x i ≤ u + δ)) ∧
  ∀ c ∈ call.constraints, ∀ (k : Nat) row, c.rows[k]? = some row →
    Above δ c.lb k (∑ i, row i * x i) ∧ Below δ c.ub k (∑ i, row i * x i)

/-- The contract of `scipy.optimize.minimize(method="SLSQP")`. -/
def SolverOk {n : Nat} (ε δ : K) (minimize : Call K n → Py (Result K n)) : Prop :=
  ∀ call r, minimize call = .ok r → r.fn = call.func r.x ∧
    (r.success = true → CallFeasible δ call r.x ∧
      ∀ z, CallFeasible 0 call z → -ε ≤ ∑ i, call.jac r.x i * (z i - r.x i))

open Classical in
/-- A solver that succeeds exactly where the given point is exactly feasible and stationary. -/
noncomputable def oracle {n : Nat} (p : Fin n → K) (call : Call K n) : Py (Result K n) :=
  if CallFeasible 0 call p ∧ ∀ z, CallFeasible 0 call z → 0 ≤ ∑ i, call.jac p i * (z i - p i) then
    .ok ⟨p, call.func p, true, ""⟩
  else .ok ⟨call.x0, call.func call.x0, false, "failed"⟩

end Spec

namespace QP
open Spec

variable {n : Nat}

theorem oracle_ok (p : Fin n → K) : SolverOk 0 0 (oracle p) := by
  intro call r h
  unfold oracle at h
  split_ifs at h with hc
  · cases h
    exact ⟨rfl, fun _ => ⟨hc.1, fun z hz => by rw [neg_zero]; exact hc.2 z hz⟩⟩
  · cases h
    exact ⟨rfl, fun h => by cases h⟩

/-- The call made by `_qp_solve_scipy`. -/
def theCall (Q : Fin n → Vec K n) (c : Option (Vec K n))
    (A : Option (List (Vec K n))) (b : Option (List K)) (Aeq : Option (List (Vec K n))) (beq : Option (List K))
    (lb ub : Option (List K)) (x0 : Option (Vec K n)) (tol : K) (maxIter : Nat) (verbose : Bool) : Call K n :=
  { func := qpFunc Q c
    jac := qpJac Q c
    x0 := x0.getD (fun _ => 1)
    bounds := bounds lb ub
    constraints := constraints A b Aeq beq
    tol := tol
    maxiter := maxIter
    disp := verbose }

theorem getElem?_lt_some {β : Type} {l : List β} (h : l.length = n) (i : Fin n) : ∃ v, l[i.val]? = some v :=
  ⟨l[i.val]'(by omega), List.getElem?_eq_getElem _⟩

/-- The call describes the documented feasible set. -/
theorem feasible_iff (δ : K) (Q : Fin n → Vec K n) (c : Option (Vec K n))
    (A : Option (List (Vec K n))) (b : Option (List K)) (Aeq : Option (List (Vec K n))) (beq : Option (List K))
    (lb ub : Option (List K)) (x0 : Option (Vec K n)) (tol : K) (maxIter : Nat) (verbose : Bool)
    (hb : A ≠ none → b ≠ none) (he : Aeq ≠ none → beq ≠ none)
    (hl : ∀ l, lb = some l → l.length = n) (hu : ∀ u, ub = some u → u.length = n) (x : Fin n → K) :
    CallFeasible δ (theCall Q c A b Aeq beq lb ub x0 tol maxIter verbose) x ↔ QPFeasible δ A b Aeq beq lb ub x := by
  have hbd : (∀ bs, bounds lb ub = some bs → ∀ (i : Fin n) p, bs[i.val]? = some p →
      (∀ l, p.1 = some l → l ≤ x i + δ) ∧ (∀ u, p.2 = some u → x i ≤ u + δ)) ↔
      (∀ l, lb = some l → ∀ (i : Fin n) v, l[i.val]? = some v → v ≤ x i + δ) ∧
      (∀ u, ub = some u → ∀ (i : Fin n) v, u[i.val]? = some v → x i ≤ v + δ) := by
    cases lb with
    | none =>
      cases ub with
      | none => simp [bounds]
      | some u =>
        simp only [bounds, Option.some.injEq, forall_eq', List.getElem?_map, Option.map_eq_some_iff]
        constructor
        · intro h
          exact ⟨by simp, fun i v hv => (h i _ ⟨v, hv, rfl⟩).2 v rfl⟩
        · rintro ⟨-, h⟩ i p ⟨v, hv, rfl⟩
          exact ⟨by simp, fun w hw => by cases hw; exact h i v hv⟩
    | some l =>
      cases ub with
      | none =>
        simp only [bounds, Option.some.injEq, forall_eq', List.getElem?_map, Option.map_eq_some_iff]
        constructor
        · intro h
          exact ⟨fun i v hv => (h i _ ⟨v, hv, rfl⟩).1 v rfl, by simp⟩
        · rintro ⟨h, -⟩ i p ⟨v, hv, rfl⟩
          exact ⟨fun w hw => by cases hw; exact h i v hv, by simp⟩
      | some u =>
        have hl := hl l rfl
        have hu := hu u rfl
        simp only [bounds, Option.some.injEq, forall_eq', List.getElem?_zipWith_eq_some]
        constructor
        · intro h
          refine ⟨fun i v hv => ?_, fun i v hv => ?_⟩
          · obtain ⟨w, hw⟩ := getElem?_lt_some hu i
            exact (h i _ ⟨v, w, hv, hw, rfl⟩).1 v rfl
          · obtain ⟨w, hw⟩ := getElem?_lt_some hl i
            exact (h i _ ⟨w, v, hw, hv, rfl⟩).2 v rfl
        · rintro ⟨h1, h2⟩ i p ⟨v, w, hv, hw, rfl⟩
          exact ⟨fun a ha => by cases ha; exact h1 i v hv, fun a ha => by cases ha; exact h2 i w hw⟩
  have hA : (∀ c ∈ (match A with | none => [] | some A => [(⟨A, .inf, Bnd.ofOption b⟩ : LinCon K n)]), ∀ (k : Nat) row,
      c.rows[k]? = some row → Above δ c.lb k (∑ i, row i * x i) ∧ Below δ c.ub k (∑ i, row i * x i)) ↔
      (∀ rows v, A = some rows → b = some v → ∀ (k : Nat) row r, rows[k]? = some row → v[k]? = some r →
        ∑ i, row i * x i ≤ r + δ) := by
    cases A with
    | none => simp
    | some A =>
      cases b with
      | none => exact absurd rfl (hb (by simp))
      | some b =>
        simp only [List.mem_singleton, forall_eq, Bnd.ofOption, Above, Below, true_and, Option.some.injEq]
        constructor
        · rintro h _ _ rfl rfl k row r hr hv
          exact h k row hr r hv
        · intro h k row hr r hv
          exact h _ _ rfl rfl k row r hr hv
  have hE : (∀ c ∈ (match Aeq with | none => [] | some A => [(⟨A, Bnd.ofOption beq, Bnd.ofOption beq⟩ : LinCon K n)]),
      ∀ (k : Nat) row,
      c.rows[k]? = some row → Above δ c.lb k (∑ i, row i * x i) ∧ Below δ c.ub k (∑ i, row i * x i)) ↔
      (∀ rows v, Aeq = some rows → beq = some v → ∀ (k : Nat) row r, rows[k]? = some row → v[k]? = some r →
        |∑ i, row i * x i - r| ≤ δ) := by
    cases Aeq with
    | none => simp
    | some A =>
      cases beq with
      | none => exact absurd rfl (he (by simp))
      | some b =>
        simp only [List.mem_singleton, forall_eq, Bnd.ofOption, Above, Below, Option.some.injEq]
        constructor
        · rintro h _ _ rfl rfl k row r hr hv
          have h1 := (h k row hr).1 r hv
          have h2 := (h k row hr).2 r hv
          rw [abs_le]
          constructor <;> linarith
        · intro h k row hr
          refine ⟨fun r hv => ?_, fun r hv => ?_⟩ <;>
          · have := abs_le.1 (h _ _ rfl rfl k row r hr hv)
            linarith [this.1, this.2]
  unfold CallFeasible
  show (∀ bs, bounds lb ub = some bs → _) ∧ (∀ c ∈ constraints A b Aeq beq, _) ↔ _
  rw [hbd]
  unfold constraints
  simp only [List.mem_append, or_imp, forall_and] at hA hE ⊢
  constructor
  · rintro ⟨⟨h1, h2⟩, ⟨h3, h3'⟩, h4, h4'⟩
    exact ⟨hA.1 ⟨h3, h4⟩, hE.1 ⟨h3', h4'⟩, h1, h2⟩
  · rintro ⟨h1, h2, h3, h4⟩
    exact ⟨⟨h3, h4⟩, ⟨(hA.2 h1).1, (hE.2 h2).1⟩, (hA.2 h1).2, (hE.2 h2).2⟩

theorem qp_taylor {Q : Fin n → Vec K n} (hs : ∀ i j, Q i j = Q j i) (q : Option (Vec K n)) (x v : Vec K n) :
    qpFunc Q q v = qpFunc Q q x + ∑ i, qpJac Q q x i * (v i - x i)
        + (∑ i, ∑ j, Q i j * (v i - x i) * (v j - x j)) / 2 := by
  have := qp_expand hs q x v 1
  simp only [sub_self, zero_mul, one_mul, zero_add, one_pow] at this
  exact this

theorem taylor_symm {Q : Fin n → Vec K n} (q : Option (Vec K n))
    (h : ∀ x v : Vec K n, qpFunc Q q v = qpFunc Q q x + ∑ i, qpJac Q q x i * (v i - x i)
        + (∑ i, ∑ j, Q i j * (v i - x i) * (v j - x j)) / 2) (a b : Fin n) : Q a b = Q b a := by
  have key : ∀ x d : Vec K n, ∑ i, ∑ j, Q i j * x i * d j = ∑ i, ∑ j, Q i j * d i * x j := by
    intro x d
    have := h x (fun i => x i + d i)
    have e : ∀ i, x i + d i - x i = d i := fun i => by ring
    simp only [e] at this
    have hq : ∀ x : Vec K n, qpFunc Q q x = 1 / 2 * ∑ i, ∑ j, Q i j * x i * x j + q.elim 0 (fun c => ∑ i, x i * c i) := by
      intro x
      rw [qpFunc_eq]
      unfold qpObjective
      congr 2
      exact Finset.sum_congr rfl fun i _ => Finset.sum_congr rfl fun j _ => by ring
    have hj : ∑ i, qpJac Q q x i * d i = ∑ i, ∑ j, Q i j * d i * x j + q.elim 0 (fun c => ∑ i, d i * c i) := by
      cases q with
      | none =>
        simp only [qpJac, matVec, Finset.sum_mul, Option.elim, add_zero]
        exact Finset.sum_congr rfl fun i _ => Finset.sum_congr rfl fun j _ => by ring
      | some c =>
        simp only [qpJac, matVec, add_mul, Finset.sum_add_distrib, Finset.sum_mul, Option.elim]
        congr 1
        · exact Finset.sum_congr rfl fun i _ => Finset.sum_congr rfl fun j _ => by ring
        · exact Finset.sum_congr rfl fun i _ => by ring
    rw [hq, hq, hj] at this
    have hsq : ∑ i, ∑ j, Q i j * (x i + d i) * (x j + d j) = ∑ i, ∑ j, Q i j * x i * x j + ∑ i, ∑ j, Q i j * x i * d j
        + ∑ i, ∑ j, Q i j * d i * x j + ∑ i, ∑ j, Q i j * d i * d j := by
      simp only [← Finset.sum_add_distrib]
      exact Finset.sum_congr rfl fun i _ => Finset.sum_congr rfl fun j _ => by ring
    have hlin : q.elim 0 (fun c => ∑ i, (x i + d i) * c i) = q.elim 0 (fun c => ∑ i, x i * c i) + q.elim 0 (fun c => ∑ i, d i * c i) := by
      cases q with
      | none => simp
      | some c => simp only [Option.elim, add_mul, Finset.sum_add_distrib]
    rw [hsq, hlin] at this
    linarith
  have := key (Pi.single a 1) (Pi.single b 1)
  simpa [Pi.single_apply] using this

end QP

section
open QP Spec
variable {n : Nat}

/-! ### C125 -/

/-- **C125 (call)** `qp_solve(solver="scipy")` makes one call to SciPy and returns its point and its value; it warns exactly if SciPy
does not report success. The call states the documented problem: the objective `½ xᵀQx + xᵀc`, the documented feasible set, the
starting point of ones; and the derivative it passes is the derivative of the objective if and only if `Q` is symmetric. -/
theorem C125_call (Q : Fin n → Fin n → K) (c : Option (Fin n → K)) (A : Option (List (Fin n → K))) (b : Option (List K))
    (Aeq : Option (List (Fin n → K))) (beq lb ub : Option (List K)) (x0 : Option (Fin n → K)) (tol : K) (maxIter : Nat)
    (verbose log : Bool) (hb : A ≠ none → b ≠ none) (he : Aeq ≠ none → beq ≠ none)
    (hl : ∀ l, lb = some l → l.length = n) (hu : ∀ u, ub = some u → u.length = n) :
    ∃ call : Call K n,
      (∀ minimize : Call K n → Py (Result K n),
        (∀ e, minimize call = .error e → qpSolveAll minimize "scipy" Q c A b Aeq beq lb ub x0 tol maxIter verbose log = .error e) ∧
        ∀ r, minimize call = .ok r →
          ∃ out, qpSolveAll minimize "scipy" Q c A b Aeq beq lb ub x0 tol maxIter verbose log = .ok out ∧
            out.x = r.x ∧ out.val = r.fn ∧ (out.warnings = [] ↔ r.success = true) ∧ (r.success = false → out.warnings = [r.message]) ∧
            out.log = if log then some r else none) ∧
      (∀ x, call.func x = qpObjective Q c x) ∧
      (∀ δ x, CallFeasible δ call x ↔ QPFeasible δ A b Aeq beq lb ub x) ∧
      ((∀ x z, call.func z = call.func x + ∑ i, call.jac x i * (z i - x i) + (∑ i, ∑ j, Q i j * (z i - x i) * (z j - x j)) / 2) ↔
        ∀ i j, Q i j = Q j i) ∧
      call.x0 = x0.getD (fun _ => 1) ∧ call.tol = tol ∧ call.maxiter = maxIter := by
  refine ⟨theCall Q c A b Aeq beq lb ub x0 tol maxIter verbose, fun minimize => ⟨fun e h => ?_, fun r h => ?_⟩, fun x => qpFunc_eq Q c x,
    fun δ x => feasible_iff δ Q c A b Aeq beq lb ub x0 tol maxIter verbose hb he hl hu x,
    ⟨fun h i j => taylor_symm c h i j, fun hs x z => qp_taylor hs c x z⟩, rfl, rfl, rfl⟩
  · unfold qpSolveAll qpScipy
    rw [if_pos rfl]
    change (minimize (theCall Q c A b Aeq beq lb ub x0 tol maxIter verbose) >>= _) = _
    rw [h]; rfl
  · refine ⟨⟨r.x, r.fn, if log then some r else none, if r.success then [] else [r.message]⟩, ?_, rfl, rfl, ?_, ?_, rfl⟩
    · unfold qpSolveAll qpScipy
      rw [if_pos rfl]
      change (minimize (theCall Q c A b Aeq beq lb ub x0 tol maxIter verbose) >>= _) = _
      rw [h]; rfl
    · cases r.success <;> simp
    · intro h; simp [h]

/-- **C125** For a symmetric positive semidefinite `Q`, a result of `qp_solve(solver="scipy")` that came without a warning is
feasible (up to the solver's `δ`), its value is the documented objective, and no feasible point is better by more than the
solver's `ε`. -/
theorem C125_optimal (ε δ : K) (minimize : Call K n → Py (Result K n)) (hm : SolverOk ε δ minimize)
    (Q : Fin n → Fin n → K) (c : Option (Fin n → K)) (A : Option (List (Fin n → K))) (b : Option (List K))
    (Aeq : Option (List (Fin n → K))) (beq lb ub : Option (List K)) (x0 : Option (Fin n → K)) (tol : K) (maxIter : Nat)
    (verbose log : Bool) (hb : A ≠ none → b ≠ none) (he : Aeq ≠ none → beq ≠ none)
    (hl : ∀ l, lb = some l → l.length = n) (hu : ∀ u, ub = some u → u.length = n)
    (hs : ∀ i j, Q i j = Q j i) (hpsd : ∀ d : Fin n → K, 0 ≤ ∑ i, ∑ j, Q i j * d i * d j)
    (out : Out K n) (ho : qpSolveAll minimize "scipy" Q c A b Aeq beq lb ub x0 tol maxIter verbose log = .ok out)
    (hw : out.warnings = []) :
    QPFeasible δ A b Aeq beq lb ub out.x ∧ out.val = qpObjective Q c out.x ∧
      ∀ z, QPFeasible 0 A b Aeq beq lb ub z → qpObjective Q c out.x ≤ qpObjective Q c z + ε := by
  obtain ⟨call, hcall, hf, hfeas, hjac, -⟩ := C125_call Q c A b Aeq beq lb ub x0 tol maxIter verbose log hb he hl hu
  obtain ⟨h1, h2⟩ := hcall minimize
  cases hr : minimize call with
  | error e => rw [h1 e hr] at ho; cases ho
  | ok r =>
    obtain ⟨out', ho', hx, hv, hwarn, -⟩ := h2 r hr
    rw [ho'] at ho
    cases ho
    obtain ⟨hfn, hsucc⟩ := hm call r hr
    obtain ⟨hfe, hst⟩ := hsucc (hwarn.1 hw)
    refine ⟨?_, ?_, fun z hz => ?_⟩
    · rw [hx]; exact (hfeas δ _).1 hfe
    · rw [hv, hfn, hf, hx]
    · have ht := hjac.2 hs r.x z
      have := hst z ((hfeas 0 z).2 hz)
      rw [hf, hf] at ht
      have hp := hpsd (fun i => z i - r.x i)
      rw [hx]
      linarith

/-- A solver meeting the contract that succeeds: `½ (x² + y²)` under `x + y = 2`, `x ≥ 0`, `y ≥ 0` gives `(1, 1)` without a warning. -/
example : SolverOk 0 0 (oracle (![1, 1] : Fin 2 → ℚ)) ∧
    ∃ out, qpSolveAll (oracle (![1, 1] : Fin 2 → ℚ)) "scipy" (fun i j => if i = j then 1 else 0) none none none (some [fun _ => 1]) (some [2])
      (some [0, 0]) none none (1 / 1000000) 1000 false false = .ok out ∧ out.x = ![1, 1] ∧ out.warnings = [] := by
  refine ⟨oracle_ok _, ⟨![1, 1], qpFunc (fun i j => if i = j then 1 else 0) none ![1, 1], none, []⟩, ?_, rfl, rfl⟩
  have hf := fun x => feasible_iff 0 (fun i j : Fin 2 => if i = j then (1 : ℚ) else 0) none none none (some [fun _ => 1]) (some [2])
      (some [0, 0]) none none (1 / 1000000) 1000 false (by simp) (by simp) (by simp) (by simp) x
  have hor : oracle (![1, 1] : Fin 2 → ℚ) (theCall (fun i j : Fin 2 => if i = j then (1 : ℚ) else 0) none none none (some [fun _ => 1]) (some [2])
      (some [0, 0]) none none (1 / 1000000) 1000 false) = .ok ⟨![1, 1], qpFunc (fun i j => if i = j then 1 else 0) none ![1, 1], true, ""⟩ := by
    unfold oracle
    rw [if_pos]
    · rfl
    · refine ⟨(hf _).2 ⟨by simp, ?_, ?_, by simp⟩, fun z hz => ?_⟩
      · intro rows v hr hv k row r hk hrk
        cases hr; cases hv
        match k with
        | 0 => cases hk; cases hrk; norm_num [Fin.sum_univ_two]
        | k + 1 => simp at hk
      · intro l hl i v hv
        cases hl
        fin_cases i <;> cases hv <;> norm_num
      · have := ((hf z).1 hz).eq _ _ rfl rfl 0 _ _ rfl rfl
        have := abs_le.1 this
        simp [theCall, qpJac, matVec, Fin.sum_univ_two] at this ⊢
        linarith [this.1]
  unfold qpSolveAll qpScipy
  rw [if_pos rfl]
  change (oracle (![1, 1] : Fin 2 → ℚ) (theCall (fun i j : Fin 2 => if i = j then (1 : ℚ) else 0) none none none (some [fun _ => 1]) (some [2])
      (some [0, 0]) none none (1 / 1000000) 1000 false) >>= _) = _
  rw [hor]; rfl

/-- **C125 (failure)** If SciPy reports a failure, the point and its value are still returned, with a warning (the documentation promises
`None` for the value). -/
theorem C125_failure (ε δ : K) (minimize : Call K n → Py (Result K n)) (hm : SolverOk ε δ minimize)
    (Q : Fin n → Fin n → K) (c : Option (Fin n → K)) (A : Option (List (Fin n → K))) (b : Option (List K))
    (Aeq : Option (List (Fin n → K))) (beq lb ub : Option (List K)) (x0 : Option (Fin n → K)) (tol : K) (maxIter : Nat)
    (verbose log : Bool) (out : Out K n)
    (ho : qpSolveAll minimize "scipy" Q c A b Aeq beq lb ub x0 tol maxIter verbose log = .ok out) :
    out.val = qpObjective Q c out.x ∧ out.warnings.length ≤ 1 ∧ out.log.isSome = log := by
  unfold qpSolveAll qpScipy at ho
  rw [if_pos rfl] at ho
  cases hr : minimize (theCall Q c A b Aeq beq lb ub x0 tol maxIter verbose) with
  | error e =>
    change (minimize (theCall Q c A b Aeq beq lb ub x0 tol maxIter verbose) >>= _) = _ at ho
    rw [hr] at ho; cases ho
  | ok r =>
    change (minimize (theCall Q c A b Aeq beq lb ub x0 tol maxIter verbose) >>= _) = _ at ho
    rw [hr] at ho
    cases ho
    refine ⟨?_, ?_, ?_⟩
    · rw [(hm _ r hr).1]; exact qpFunc_eq Q c _
    · show (if r.success = true then [] else [r.message]).length ≤ 1
      split <;> simp
    · show (if log = true then some r else none).isSome = log
      cases log <;> rfl

/-- C125 (a matrix without its right-hand side). `A` without `b`, or `Aeq` without `beq`, is not ignored: the right-hand side becomes NaN, no point is feasible,
and a solver that keeps its contract never reports a success, so every result comes with a warning. -/
theorem C125_missing_side (ε δ : K) (minimize : Call K n → Py (Result K n)) (hm : SolverOk ε δ minimize)
    (Q : Fin n → Fin n → K) (c : Option (Fin n → K)) (A : Option (List (Fin n → K))) (b : Option (List K))
    (Aeq : Option (List (Fin n → K))) (beq lb ub : Option (List K)) (x0 : Option (Fin n → K)) (tol : K) (maxIter : Nat)
    (verbose log : Bool) (row : Fin n → K) (rows : List (Fin n → K))
    (h : (A = some (row :: rows) ∧ b = none) ∨ (Aeq = some (row :: rows) ∧ beq = none)) (out : Out K n)
    (ho : qpSolveAll minimize "scipy" Q c A b Aeq beq lb ub x0 tol maxIter verbose log = .ok out) : out.warnings ≠ [] := by
  unfold qpSolveAll qpScipy at ho
  rw [if_pos rfl] at ho
  cases hr : minimize (theCall Q c A b Aeq beq lb ub x0 tol maxIter verbose) with
  | error e =>
    change (minimize (theCall Q c A b Aeq beq lb ub x0 tol maxIter verbose) >>= _) = _ at ho
    rw [hr] at ho; cases ho
  | ok r =>
    change (minimize (theCall Q c A b Aeq beq lb ub x0 tol maxIter verbose) >>= _) = _ at ho
    rw [hr] at ho
    cases ho
    intro hw
    have hsucc : r.success = true := by
      by_contra hf
      simp only [hf] at hw
      cases hw
    obtain ⟨-, hf⟩ := hm _ r hr
    obtain ⟨⟨-, hcon⟩, -⟩ := hf hsucc
    rcases h with ⟨rfl, rfl⟩ | ⟨rfl, rfl⟩
    · exact (hcon ⟨row :: rows, .inf, .nan⟩ (List.mem_append_left _ (List.mem_singleton.2 rfl)) 0 row rfl).2
    · exact (hcon ⟨row :: rows, .nan, .nan⟩ (List.mem_append_right _ (List.mem_singleton.2 rfl)) 0 row rfl).2

/-- A solver that gives up at its starting point keeps the contract, and `A` without `b` is then answered with its message. -/
example : SolverOk 0 0 (fun call : Call ℚ 1 => .ok ⟨call.x0, call.func call.x0, false, "nan"⟩) ∧
    ∃ out, qpSolveAll (fun call : Call ℚ 1 => .ok ⟨call.x0, call.func call.x0, false, "nan"⟩) "scipy" (fun _ _ => 1) none (some [fun _ => 1]) none
      none none none none none 1 1 false false = .ok out ∧ out.warnings = ["nan"] :=
  ⟨fun call r h => by cases h; exact ⟨rfl, fun h => by cases h⟩, _, rfl, rfl⟩

/-- The right-hand sides `b` and `beq` without their matrices have no effect. -/
theorem C125_ignored (minimize : Call K n → Py (Result K n)) (solver : String) (Q : Fin n → Fin n → K) (c : Option (Fin n → K))
    (A : Option (List (Fin n → K))) (b b' beq beq' lb ub : Option (List K)) (x0 : Option (Fin n → K)) (tol : K) (maxIter : Nat)
    (verbose log : Bool) :
    qpSolveAll minimize solver Q c none b none beq lb ub x0 tol maxIter verbose log
      = qpSolveAll minimize solver Q c none b' none beq' lb ub x0 tol maxIter verbose log ∧
    qpSolveAll minimize solver Q c A b none beq lb ub x0 tol maxIter verbose log
      = qpSolveAll minimize solver Q c A b none beq' lb ub x0 tol maxIter verbose log := by
  unfold qpSolveAll
  refine ⟨?_, ?_⟩
  · split_ifs
    · rfl
    · rfl
    · rfl
  · split_ifs
    · rfl
    · cases A <;> rfl
    · rfl

/-- **C125 (solvers)** The `frank-wolfe` solver ignores `lb`, `ub`, `tol`, `verbose` and `log` (no third component even with
`log=True`), never warns, and any other name is an error. -/
theorem C125_frank_wolfe (minimize : Call K n → Py (Result K n)) (Q : Fin n → Fin n → K) (c : Option (Fin n → K))
    (A : Option (List (Fin n → K))) (b : Option (List K)) (Aeq : Option (List (Fin n → K))) (beq lb ub lb' ub' : Option (List K))
    (x0 : Option (Fin n → K)) (tol tol' : K) (maxIter : Nat) (verbose log verbose' log' : Bool) :
    qpSolveAll minimize "frank-wolfe" Q c A b Aeq beq lb ub x0 tol maxIter verbose log
      = qpSolveAll minimize "frank-wolfe" Q c A b Aeq beq lb' ub' x0 tol' maxIter verbose' log' ∧
    (∀ out, qpSolveAll minimize "frank-wolfe" Q c A b Aeq beq lb ub x0 tol maxIter verbose log = .ok out →
      out.log = none ∧ out.warnings = [] ∧ out.val = qpObjective Q c out.x) ∧
    ∀ s, s ≠ "scipy" → s ≠ "frank-wolfe" →
      qpSolveAll minimize s Q c A b Aeq beq lb ub x0 tol maxIter verbose log = .error .valueError := by
  refine ⟨rfl, fun out h => ?_, fun s h1 h2 => by simp [qpSolveAll, h1, h2]⟩
  unfold qpSolveAll at h
  rw [if_neg (by decide), if_pos rfl] at h
  unfold qpFrankWolfe at h
  cases hc : qpChecks A b Aeq with
  | error e => rw [hc] at h; cases h
  | ok u =>
    rw [hc] at h
    simp only [bind, Except.bind, pure, Except.pure] at h
    split at h
    · cases h
    · rename_i v hv
      cases h
      refine ⟨rfl, rfl, ?_⟩
      rw [← qpFunc_eq]
      repeat' split at hv
      all_goals first
        | (cases hv; done)
        | (cases hv; rfl)

/-- **C125 is false if `Q` is not symmetric**, although the objective only depends on its symmetric part (documented without that
condition): for `½ (x² + y²)` written with an antisymmetric part, under `x ≥ 1`, every successful exact solver run
gives `(1, 1)` with value `1`, while `(1, 0)` is feasible with value `½`. -/
theorem C125_nonsymmetric_counterexample :
    let Q : Fin 2 → Fin 2 → ℚ := ![![1, 1], ![-1, 1]]
    (∀ d : Fin 2 → ℚ, 0 ≤ ∑ i, ∑ j, Q i j * d i * d j) ∧
    (∀ minimize : Call ℚ 2 → Py (Result ℚ 2), SolverOk 0 0 minimize → ∀ out,
      qpSolveAll minimize "scipy" Q none none none none none (some [1, -10]) none none (1 / 1000000) 1000 false false = .ok out →
      out.warnings = [] → out.x = ![1, 1] ∧ out.val = 1) ∧
    QPFeasible 0 none none none none (some [1, -10]) none (![1, 0] : Fin 2 → ℚ) ∧ qpObjective Q none ![1, 0] = 1 / 2 := by
  intro Q
  have hfe : ∀ x : Fin 2 → ℚ, QPFeasible 0 none none none none (some [1, -10]) none x ↔ 1 ≤ x 0 ∧ -10 ≤ x 1 := by
    intro x
    constructor
    · intro h
      have h0 := h.lower _ rfl 0 1 rfl
      have h1 := h.lower _ rfl 1 (-10) rfl
      constructor <;> linarith
    · rintro ⟨h0, h1⟩
      refine ⟨by simp, by simp, ?_, by simp⟩
      intro l hl i v hv
      cases hl
      fin_cases i
      · cases hv; simpa using h0
      · cases hv; simpa using h1
  refine ⟨?_, ?_, ?_, ?_⟩
  · intro d
    simp only [Fin.sum_univ_two, Q, Matrix.cons_val_zero, Matrix.cons_val_one]
    nlinarith [sq_nonneg (d 0), sq_nonneg (d 1)]
  · intro minimize hm out ho hw
    cases hr : minimize (theCall Q none none none none none (some [1, -10]) none none (1 / 1000000) 1000 false) with
    | error e =>
      unfold qpSolveAll qpScipy at ho
      rw [if_pos rfl] at ho
      change (minimize (theCall Q none none none none none (some [1, -10]) none none (1 / 1000000) 1000 false) >>= _) = _ at ho
      rw [hr] at ho; cases ho
    | ok r =>
      unfold qpSolveAll qpScipy at ho
      rw [if_pos rfl] at ho
      change (minimize (theCall Q none none none none none (some [1, -10]) none none (1 / 1000000) 1000 false) >>= _) = _ at ho
      rw [hr] at ho
      cases ho
      have hsucc : r.success = true := by
        by_contra hc
        have : (if r.success = true then [] else [r.message]) = [] := hw
        rw [if_neg hc] at this
        cases this
      obtain ⟨hfn, hh⟩ := hm _ r hr
      obtain ⟨hf, hst⟩ := hh hsucc
      have fi := fun x => feasible_iff 0 Q none none none none none (some [1, -10]) none none (1 / 1000000) 1000 false (by simp) (by simp)
        (by simp) (by simp) x
      have hx := (hfe _).1 ((fi _).1 hf)
      have := hst ![1, 1] ((fi _).2 ((hfe _).2 (by norm_num)))
      simp only [theCall, qpJac, matVec, Fin.sum_univ_two, Q, Matrix.cons_val_zero, Matrix.cons_val_one, neg_zero] at this
      have h0 : r.x 0 = 1 := by nlinarith [sq_nonneg (r.x 0 - 1), sq_nonneg (r.x 1 - 1), hx.1]
      have h1 : r.x 1 = 1 := by
        rw [h0] at this
        nlinarith [sq_nonneg (r.x 1 - 1)]
      refine ⟨?_, ?_⟩
      · show r.x = _
        funext i
        fin_cases i
        · exact h0
        · exact h1
      · show r.fn = 1
        rw [hfn]
        simp [theCall, qpFunc, dot, matVec, Fin.sum_univ_two, Q, h0, h1]
        norm_num
  · exact (hfe _).2 (by norm_num)
  · simp [qpObjective, Fin.sum_univ_two, Q]

/-- A run without a warning in the counterexample. -/
example : ∃ out, qpSolveAll (oracle (![1, 1] : Fin 2 → ℚ)) "scipy" ![![1, 1], ![-1, 1]] none none none none none (some [1, -10]) none none
    (1 / 1000000) 1000 false false = .ok out ∧ out.warnings = [] := by
  refine ⟨⟨![1, 1], qpFunc ![![1, 1], ![-1, 1]] none ![1, 1], none, []⟩, ?_, rfl⟩
  have hf := fun x => feasible_iff (0 : ℚ) ![![1, 1], ![-1, 1]] none none none none none (some [1, -10]) none none
    (1 / 1000000) 1000 false (by simp) (by simp) (by simp) (by simp) x
  have hor : oracle (![1, 1] : Fin 2 → ℚ) (theCall ![![1, 1], ![-1, 1]] none none none none none (some [1, -10]) none none
    (1 / 1000000) 1000 false) = .ok ⟨![1, 1], qpFunc ![![1, 1], ![-1, 1]] none ![1, 1], true, ""⟩ := by
    unfold oracle
    rw [if_pos]
    · rfl
    · refine ⟨(hf _).2 ⟨by simp, by simp, ?_, by simp⟩, fun z hz => ?_⟩
      · intro l hl i v hv
        cases hl
        fin_cases i <;> cases hv <;> norm_num
      · have := ((hf z).1 hz).lower _ rfl 0 1 rfl
        simp [theCall, qpJac, matVec, Fin.sum_univ_two] at this ⊢
        linarith
  unfold qpSolveAll qpScipy
  rw [if_pos rfl]
  change (oracle (![1, 1] : Fin 2 → ℚ) (theCall ![![1, 1], ![-1, 1]] none none none none none (some [1, -10]) none none
    (1 / 1000000) 1000 false) >>= _) = _
  rw [hor]; rfl

end
end Skada

import Verif.Model.Np
import Mathlib.Algebra.Order.Field.Basic
import Mathlib.Algebra.BigOperators.Fin
import Mathlib.Data.Fintype.BigOperators
import Mathlib.Algebra.Order.BigOperators.Ring.Finset

/-!
# The quadratic-programming helpers of `skada/utils.py`

Vectors of length `n` are functions `Fin n → K` over an arbitrary ordered field `K` (so the theorems
hold over `ℝ` and are executable over `ℚ`); floating-point rounding is not modelled.  Array shapes
are therefore right by construction: numpy broadcasting errors for wrongly shaped `Q`, `c`, `x0` are
not modelled.  A division by a zero coefficient gives `inf` in numpy and `0` in `K`; every theorem
about values assumes positive coefficients.  Matrices of constraints are lists of rows.
-/

namespace Skada
namespace FW

variable {K : Type} [Field K] [LinearOrder K] [IsStrictOrderedRing K] {n : Nat}

/-- A vector of length `n`. -/
abbrev Vec (K : Type) (n : Nat) := Fin n → K

/-- The direction point chosen in one iteration, skada/utils.py:956-963.
`np.argmin` of the empty array raises `ValueError`. -/
def vertex (c g : Vec K n) (clb cub : K) : Py (Vec K n) := do
  let invC : Vec K n := fun i => 1 / c i
  let product : Vec K n := fun i => g i * invC i
  let index ← Np.argmin (List.ofFn product)
  if h : index < n then
    let v := if product ⟨index, h⟩ ≥ 0 then invC ⟨index, h⟩ * clb else invC ⟨index, h⟩ * cub
    return fun i => if i.val = index then v else 0
  else .error .indexError

/-- One iteration `k` of the loop, skada/utils.py:955-965. -/
def step (jac : Vec K n → Vec K n) (c : Vec K n) (clb cub : K) (k : Nat) (x : Vec K n) :
    Py (Vec K n) := do
  let vect ← vertex c (jac x) clb cub
  let lr : K := 2 / ((k : K) + 1)
  return fun i => (1 - lr) * x i + lr * vect i

/-- `for k in range(1, max_iter + 1)`, skada/utils.py:955-966: the state after `m` iterations. -/
def loop (jac : Vec K n → Vec K n) (c : Vec K n) (clb cub : K) (x0 : Vec K n) : Nat → Py (Vec K n)
  | 0 => .ok x0
  | m + 1 => do
    let x ← loop jac c clb cub x0 m
    step jac c clb cub (m + 1) x

/-- The starting point used when `x0` is `None`, skada/utils.py:950-951. -/
def defaultX0 (c : Vec K n) (clb cub : K) : Vec K n :=
  fun i => (1 / c i) * ((cub - clb) / 2) / (n : K)

/-- `frank_wolfe`, skada/utils.py:918-966. -/
def frankWolfe (jac : Vec K n → Vec K n) (c : Vec K n) (clb cub : K) (x0 : Option (Vec K n))
    (maxIter : Nat) : Py (Vec K n) :=
  loop jac c clb cub (x0.getD (defaultX0 c clb cub)) maxIter

/-- `Q @ x`. -/
def matVec (Q : Fin n → Vec K n) (x : Vec K n) : Vec K n := fun i => ∑ j, Q i j * x j

/-- `x @ y`. -/
def dot (x y : Vec K n) : K := ∑ i, x i * y i

/-- `func`, skada/utils.py:890-897. -/
def qpFunc (Q : Fin n → Vec K n) (c : Option (Vec K n)) (x : Vec K n) : K :=
  match c with
  | none => 1 / 2 * dot x (matVec Q x)
  | some c => 1 / 2 * dot x (matVec Q x) + dot x c

/-- `jac`, skada/utils.py:893-900. -/
def qpJac (Q : Fin n → Vec K n) (c : Option (Vec K n)) (x : Vec K n) : Vec K n :=
  match c with
  | none => matVec Q x
  | some c => fun i => matVec Q x i + c i

/-- `np.allclose(u, v)` with the default tolerances `rtol=1e-5`, `atol=1e-8`. -/
def allclose (u v : Vec K n) : Bool :=
  decide (∀ i, |u i - v i| ≤ 1 / 100000000 + 1 / 100000 * |v i|)

/-- `l[i]` for a Python list / first axis of an array with a non-negative literal index. -/
def at? {α : Type} (l : List α) (i : Nat) : Py α :=
  match l[i]? with
  | some a => .ok a
  | none => .error .indexError

/-- `b[0]` where `b` may be `None` (`TypeError: 'NoneType' object is not subscriptable`). -/
def atOpt (l : Option (List K)) (i : Nat) : Py K :=
  match l with
  | none => .error .typeError
  | some l => at? l i

/-- The shape checks at the top of `_qp_solve_frank_wolfe`, skada/utils.py:871-888. -/
def qpChecks (A : Option (List (Vec K n))) (b : Option (List K)) (Aeq : Option (List (Vec K n))) :
    Py Unit := do
  match Aeq with
  | some Aeq => if Aeq.length > 1 then throw .valueError
  | none => pure ()
  match A with
  | none => pure ()
  | some A =>
    if A.length > 2 then throw .valueError
    if A.length = 2 then
      let a0 ← at? A 0
      let a1 ← at? A 1
      if !(allclose a0 (fun i => - a1 i)) then throw .valueError
      let b0 ← atOpt b 0
      let b1 ← atOpt b 1
      if b0 < - b1 then throw .valueError

/-- `_qp_solve_frank_wolfe`, skada/utils.py:818-915. -/
def qpFrankWolfe (Q : Fin n → Vec K n) (c : Option (Vec K n)) (A : Option (List (Vec K n)))
    (b : Option (List K)) (Aeq : Option (List (Vec K n))) (beq : Option (List K))
    (x0 : Option (Vec K n)) (maxIter : Nat) : Py (Vec K n × K) := do
  qpChecks A b Aeq
  let x ← match Aeq, A with
    | some Aeq, _ => do
      let a ← at? Aeq 0
      let r ← atOpt beq 0
      frankWolfe (qpJac Q c) a r r x0 maxIter
    | none, some A =>
      if A.length > 1 then do
        let a ← at? A 0
        let b1 ← atOpt b 1
        let b0 ← atOpt b 0
        frankWolfe (qpJac Q c) a (- b1) b0 x0 maxIter
      else do
        let a ← at? A 0
        let r ← atOpt b 0
        frankWolfe (qpJac Q c) a r r x0 maxIter
    | none, none => .error .valueError
  return (x, qpFunc Q c x)

/-- `qp_solve`, skada/utils.py:605-700.  The `scipy` branch (an SLSQP call) is the parameter
`scipy`; `lb`, `ub`, `tol`, `verbose`, `log` only reach that branch. -/
def qpSolve (scipy : Py (Vec K n × K)) (solver : String) (Q : Fin n → Vec K n)
    (c : Option (Vec K n)) (A : Option (List (Vec K n)))
    (b : Option (List K)) (Aeq : Option (List (Vec K n))) (beq : Option (List K))
    (x0 : Option (Vec K n)) (maxIter : Nat) : Py (Vec K n × K) :=
  if solver = "scipy" then scipy
  else if solver = "frank-wolfe" then qpFrankWolfe Q c A b Aeq beq x0 maxIter
  else .error .valueError

end FW
end Skada

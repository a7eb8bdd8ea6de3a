import Mathlib.LinearAlgebra.Matrix.NonsingularInverse
import Verif.Model.Reweight

/-!
# `qp_solve` with both solvers, and kernel mean matching on top of it

`scipy.optimize.minimize` is the parameter `minimize`; everything `skada` does around it is modelled: the objective and
its derivative, the constraint objects, the bounds, the starting point, the warning and the returned tuple.
-/

namespace Skada
namespace QP
open FW RW

variable {K : Type} [Field K] [LinearOrder K]

/-- The bound vector of a SciPy constraint: absent (infinite), `None` (which NumPy turns into NaN), or a vector. -/
inductive Bnd (K : Type)
  | inf
  | nan
  | vec (v : List K)
deriving DecidableEq

/-- What a caller may pass for `b` and `beq`: `None` becomes NaN inside `LinearConstraint`. -/
def Bnd.ofOption : Option (List K) → Bnd K
  | none => .nan
  | some v => .vec v

/-- `scipy.optimize.LinearConstraint(rows, lb, ub)`. -/
structure LinCon (K : Type) (n : Nat) where
  rows : List (Vec K n)
  lb : Bnd K
  ub : Bnd K

/-- The arguments of `scipy.optimize.minimize(..., method="SLSQP")`, skada/utils.py:797-805.  In a pair of bounds `none`
stands for `-inf` on the left and `inf` on the right. -/
structure Call (K : Type) (n : Nat) where
  func : Vec K n → K
  jac : Vec K n → Vec K n
  x0 : Vec K n
  bounds : Option (List (Option K × Option K))
  constraints : List (LinCon K n)
  tol : K
  maxiter : Nat
  disp : Bool

/-- The fields of `OptimizeResult` that are read, skada/utils.py:807-810. -/
structure Result (K : Type) (n : Nat) where
  x : Vec K n
  fn : K
  success : Bool
  message : String

/-- `constraints`, skada/utils.py:762-766. -/
def constraints {n : Nat} (A : Option (List (Vec K n))) (b : Option (List K)) (Aeq : Option (List (Vec K n)))
    (beq : Option (List K)) : List (LinCon K n) :=
  (match A with
    | none => []
    | some A => [⟨A, .inf, Bnd.ofOption b⟩]) ++
  (match Aeq with
    | none => []
    | some Aeq => [⟨Aeq, Bnd.ofOption beq, Bnd.ofOption beq⟩])

/-- `bounds`, skada/utils.py:785-794 (`zip` stops at the shorter list). -/
def bounds : Option (List K) → Option (List K) → Option (List (Option K × Option K))
  | none, none => none
  | none, some ub => some (ub.map (fun u => (none, some u)))
  | some lb, none => some (lb.map (fun l => (some l, none)))
  | some lb, some ub => some (List.zipWith (fun l u => (some l, some u)) lb ub)

/-- What `qp_solve` returns: `x`, the value, the solver's record if `log` (a third component), and the warnings issued. -/
structure Out (K : Type) (n : Nat) where
  x : Vec K n
  val : K
  log : Option (Result K n)
  warnings : List String

/-- `_qp_solve_scipy`, skada/utils.py:703-815. -/
def qpScipy {n : Nat} (minimize : Call K n → Py (Result K n)) (Q : Fin n → Vec K n) (c : Option (Vec K n))
    (A : Option (List (Vec K n))) (b : Option (List K)) (Aeq : Option (List (Vec K n))) (beq : Option (List K))
    (lb ub : Option (List K)) (x0 : Option (Vec K n)) (tol : K) (maxIter : Nat) (verbose log : Bool) : Py (Out K n) := do
  let r ← minimize
    { func := qpFunc Q c
      jac := qpJac Q c
      x0 := x0.getD (fun _ => 1)
      bounds := bounds lb ub
      constraints := constraints A b Aeq beq
      tol := tol
      maxiter := maxIter
      disp := verbose }
  return { x := r.x
           val := r.fn
           log := if log then some r else none
           warnings := if r.success then [] else [r.message] }

/-- `qp_solve`, skada/utils.py:605-700, with both branches. `lb`, `ub`, `tol`, `verbose` and `log` do not reach the
`frank-wolfe` branch, which always returns a pair and never warns. -/
def qpSolveAll {n : Nat} (minimize : Call K n → Py (Result K n)) (solver : String) (Q : Fin n → Vec K n) (c : Option (Vec K n))
    (A : Option (List (Vec K n))) (b : Option (List K)) (Aeq : Option (List (Vec K n))) (beq : Option (List K))
    (lb ub : Option (List K)) (x0 : Option (Vec K n)) (tol : K) (maxIter : Nat) (verbose log : Bool) : Py (Out K n) :=
  if solver = "scipy" then qpScipy minimize Q c A b Aeq beq lb ub x0 tol maxIter verbose log
  else if solver = "frank-wolfe" then do
    let (x, v) ← qpFrankWolfe Q c A b Aeq beq x0 maxIter
    return { x := x, val := v, log := none, warnings := [] }
  else .error .valueError

variable {α : Type}

/-- `KMMReweightAdapter._weights_optimization`, skada/_reweight.py:1059-1102, with the whole call of `qp_solve`. The kernel
with its parameters is `k`; the second component is the warnings issued. -/
def kmmOptimizeAll (minimize : ∀ n, Call K n → Py (Result K n)) (k : α → α → K) (sqrt : K → K) (eps : Option K) (B tol : K)
    (solver : String) (maxIter : Nat) (Xs Xt : List α) : Py (List K × List String) := do
  if Xs = [] ∨ Xt = [] then throw .valueError
  let ns := Xs.length
  let e := kmmEps sqrt eps ns
  let kappa : Vec K ns := fun i => (ns : K) * mean (Xt.map (fun t => k Xs[i] t))
  let out ← qpSolveAll (minimize ns) solver (fun i j => k Xs[i] Xs[j]) (some (fun i => - kappa i))
    (some [fun _ => 1, fun _ => -1]) (some [(ns : K) * (1 + e), -((ns : K) * (1 - e))]) none none
    (some (List.replicate ns 0)) (some (List.replicate ns B)) none tol maxIter false false
  return (List.ofFn out.x, out.warnings)

/-- `KMMReweightAdapter.fit`, skada/_reweight.py:1032-1057: the source weights, the source rows, and the warnings. -/
def kmmFitAll (minimize : ∀ n, Call K n → Py (Result K n)) (k : α → α → K) (sqrt : K → K) (eps : Option K) (B tol : K)
    (solver : String) (maxIter : Nat) (X : List α) (sd : SDArg) : Py ((List K × List α) × List String) := do
  let (X, sd) ← checkXDomain X sd { allowMultiSource := true, allowMultiTarget := true }
  let (Xs, Xt) ← splitX X sd
  let (w, warns) ← kmmOptimizeAll minimize k sqrt eps B tol solver maxIter Xs Xt
  return ((w, Xs), warns)

/-- `fit_transform` of `KMMReweightAdapter`, skada/_reweight.py:54-76, 1104-1125: the weights and the warnings. -/
def kmmFitTransform [DecidableEq α] (minimize : ∀ n, Call K n → Py (Result K n)) (k : α → α → K) (sqrt : K → K)
    (eps : Option K) (B tol : K) (solver : String) (maxIter : Nat) (smooth : Bool) (X : List α) (sd : SDArg) :
    Py (List (Option K) × List String) := do
  let (fitted, warns) ← kmmFitAll minimize k sqrt eps B tol solver maxIter X sd
  let w ← kmmWeights k smooth fitted X sd
  return (w, warns)

/-! ### MMD target shift -/

variable {β : Type}

/-- `omega = L @ np.linalg.inv(L + self.reg * np.eye(m))`, skada/_reweight.py:1257-1259 (`LinAlgError`, a `ValueError`, for a
singular matrix). `S` are the labelled source rows, `l` the kernel on labels. -/
noncomputable def tarsOmega (l : β → β → K) (reg : K) (S : List (α × β)) : Py (Matrix (Fin S.length) (Fin S.length) K) :=
  let L : Matrix (Fin S.length) (Fin S.length) K := fun i j => l S[i].2 S[j].2
  if (L + reg • 1).det = 0 then .error .valueError else .ok (L * (L + reg • 1)⁻¹)

/-- The quadratic program of `MMDTarSReweightAdapter._weights_optimization` and the call of `qp_solve`,
skada/_reweight.py:1258-1260, 1272-1304, for a given matrix `R`: the weights `R @ alpha`, `alpha` and the warnings. -/
noncomputable def tarsProgram {c : Nat} (minimize : ∀ n, Call K n → Py (Result K n)) (k : α → α → K) (sqrt : K → K) (tol : K)
    (maxIter : Nat) (S : List (α × β)) (Xt : List α) (omega : Matrix (Fin S.length) (Fin S.length) K)
    (R : Matrix (Fin S.length) (Fin c) K) : Py (List K × List K × List String) := do
  let m := S.length
  let Kss : Matrix (Fin m) (Fin m) K := fun i j => k S[i].1 S[j].1
  let A := omega * Kss * omega.transpose
  let M : Vec K m := fun j => ∑ l, (Xt.map (fun t => k t S[l].1)).sum * omega j l
  let P := R.transpose * A * R + (1 / 1000000000000 : K) • 1
  let q : Vec K c := fun j => -((m : K) / (Xt.length : K)) * ∑ i, M i * R i j
  let eps := 10 / (4 * sqrt m)
  let col : Vec K c := fun j => ∑ i, R i j
  let cons := List.ofFn (fun i => fun j => -R i j) ++ [fun j => -col j] ++ List.ofFn (fun i => R i) ++ [col]
  let b := List.replicate m 0 ++ [-((m : K) * (1 - eps))] ++ List.replicate m 10 ++ [(m : K) * (1 + eps)]
  let out ← qpSolveAll (minimize c) "scipy" P (some q) (some cons) (some b) none none none none none tol maxIter false false
  return (List.ofFn (fun i => ∑ j, R i j * out.x j), List.ofFn out.x, out.warnings)

/-- The discrete case after the split into rows, skada/_reweight.py:1256-1304: `R` is the class indicator. -/
noncomputable def tarsOnClasses [DecidableEq β] (minimize : ∀ n, Call K n → Py (Result K n)) (k : α → α → K) (l : β → β → K)
    (sqrt : K → K) (reg tol : K) (maxIter : Nat) (S : List (α × β)) (Xt : List α) (classes : List β) :
    Py (List K × List K × List String) :=
  match tarsOmega l reg S with
  | .error e => .error e
  | .ok omega => tarsProgram minimize k sqrt tol maxIter S Xt omega
    (fun i (j : Fin classes.length) => if S[i].2 = classes[j] then 1 else 0)

/-- The continuous case after the split into rows, skada/_reweight.py:1256-1304: `R = omega`. -/
noncomputable def tarsOnValues (minimize : ∀ n, Call K n → Py (Result K n)) (k : α → α → K) (l : β → β → K)
    (sqrt : K → K) (reg tol : K) (maxIter : Nat) (S : List (α × β)) (Xt : List α) : Py (List K × List K × List String) :=
  match tarsOmega l reg S with
  | .error e => .error e
  | .ok omega => tarsProgram minimize k sqrt tol maxIter S Xt omega omega

/-- `MMDTarSReweightAdapter._weights_optimization` for discrete labels, skada/_reweight.py:1249-1304. -/
noncomputable def tarsDiscrete [LinearOrder β] (minimize : ∀ n, Call K n → Py (Result K n)) (k : α → α → K) (l : β → β → K)
    (sqrt : K → K) (reg tol : K) (maxIter : Nat) (Xs Xt : List α) (ys : List β) : Py (List K × List K × List String) :=
  if Xs = [] ∨ Xt = [] then .error .valueError
  else tarsOnClasses minimize k l sqrt reg tol maxIter (Xs.zip ys) Xt (Np.unique ys)

/-- `MMDTarSReweightAdapter._weights_optimization` for continuous labels, skada/_reweight.py:1249-1304 (`R = omega`). -/
noncomputable def tarsContinuous (minimize : ∀ n, Call K n → Py (Result K n)) (k : α → α → K) (l : β → β → K)
    (sqrt : K → K) (reg tol : K) (maxIter : Nat) (Xs Xt : List α) (ys : List β) : Py (List K × List K × List String) :=
  if Xs = [] ∨ Xt = [] then .error .valueError
  else tarsOnValues minimize k l sqrt reg tol maxIter (Xs.zip ys) Xt

end QP
end Skada

/-
`torch_minimize` (skada/utils.py:969-1037) and the two optimisation problems it solves:
`MMDLSConSMappingAdapter._mapping_optimization` (skada/_mapping.py:1030-1097) and
`TransferSubspaceLearningAdapter.fit` (skada/_subspace.py:786-911).

Numbers are those of an ordered field `K`; `exp`, `sqrt`, the Cholesky factor, the QR factor and the L-BFGS optimiser are
parameters.  Rounding is not modelled.
-/
import Verif.Model.Reweight
import Verif.Model.Subspace
import Verif.Model.DeepLosses
import Mathlib.LinearAlgebra.Matrix.NonsingularInverse

namespace Skada
namespace Optim

variable {K : Type} [Field K] [LinearOrder K]

/-! ### torch_minimize -/

/-- What `torch.optim.LBFGS.step` leaves behind: the parameters in their final state and the point at which the closure was
called last (the attributes `x.grad` hold the gradient of that call). -/
structure Stop (T : Type) where
  final : List T
  last : List T

/-- One call of the closure of skada/utils.py:1013-1017 at a point: loss and flattened gradient of every parameter (`none`
is NaN). -/
abbrev Closure (T K : Type) := List T → Py (K × List (List (Option K)))

/-- `torch.optim.LBFGS(x0, max_iter, tolerance_grad, line_search_fn="strong_wolfe").step(closure)`
(skada/utils.py:1006-1011, 1019): external, a parameter.  Arguments: closure, `tolerance_grad`, `max_iter`, start. -/
abbrev Lbfgs (T K : Type) := Closure T K → K → Nat → List T → Py (Stop T)

/-- The argument `x0` and the solution: one array, or a list (tuple) of arrays. -/
inductive Pack (T : Type)
  | one (x : T)
  | many (xs : List T)
  deriving DecidableEq

/-- `if type(x0) not in (list, tuple): x0 = [x0]`, skada/utils.py:1002-1004 (the copies have the same values). -/
def Pack.toList {T : Type} : Pack T → List T
  | .one x => [x]
  | .many xs => xs

/-- `solution = solution[0]` when there is one array, skada/utils.py:1032-1034. -/
def Pack.ofList {T : Type} : List T → Pack T
  | [x] => .one x
  | xs => .many xs

/-- `max(|v|, m)`; NaN (`none`) wins. -/
def maxAbs : Option K → Option K → Option K
  | some v, some m => some (max |v| m)
  | _, _ => none

/-- `torch.cat([...]).abs().max()`, skada/utils.py:1021: `none` is NaN. -/
def gradMax (g : List (List (Option K))) : Option K := g.flatten.foldr maxAbs (some 0)

/-- Solution, value and whether the convergence warning was issued. -/
structure Outcome (T K : Type) where
  x : Pack T
  val : K
  warned : Bool
  deriving DecidableEq

/-- `torch_minimize`, skada/utils.py:997-1037.  An empty list of parameters is refused by the optimiser (`ValueError`); if the
gradient is NaN the comparison on line 1026 is false. -/
def torchMinimize {T : Type} (lbfgs : Lbfgs T K) (loss : List T → Py K) (grad : List T → List (List (Option K)))
    (x0 : Pack T) (tol : K) (maxIter : Nat) : Py (Outcome T K) := do
  let start := x0.toList
  if start.length = 0 then throw .valueError
  let s ← lbfgs (fun p => do let v ← loss p; return (v, grad p)) tol maxIter start
  let warned := match gradMax (grad s.last) with
    | none => false
    | some g => decide (tol < g)
  let val ← loss s.final
  return { x := Pack.ofList s.final, val := val, warned := warned }

/-! ### MMDLSConS -/

section MMDLS
variable {d : Nat} {β : Type}

/-- `torch.exp(-gamma * torch.cdist(., ., p=2))` at one pair of rows, skada/_mapping.py:1054, 1078-1079. -/
def lsKernel (exp sqrt : K → K) (gamma : K) (x y : Fin d → K) : K := exp (-gamma * DL.dist sqrt x y)

/-- `L @ torch.linalg.inv(L + reg_k * torch.eye(m))`, skada/_mapping.py:1055, 1065; a singular matrix is an error of torch. -/
noncomputable def smoother {m : Nat} (regK : K) (L : Matrix (Fin m) (Fin m) K) : Py (Matrix (Fin m) (Fin m) K) :=
  let M := L + regK • (1 : Matrix (Fin m) (Fin m) K)
  if M.det = 0 then .error .runtimeError else .ok (L * M⁻¹)

/-- `func`, skada/_mapping.py:1072-1085. -/
def mmdlsObj {m n k : Nat} (ker : (Fin d → K) → (Fin d → K) → K) (regM : K) (Xs : Matrix (Fin m) (Fin d) K)
    (Xt : Matrix (Fin n) (Fin d) K) (omega : Matrix (Fin m) (Fin m) K) (R : Matrix (Fin m) (Fin k) K)
    (G H : Matrix (Fin k) (Fin d) K) : K :=
  let W := R * G
  let B := R * H
  let Xn : Matrix (Fin m) (Fin d) K := Matrix.of fun i j => W i j * Xs i j + B i j
  let Kn : Matrix (Fin m) (Fin m) K := Matrix.of fun i j => ker (Xn i) (Xn j)
  let Kc : Matrix (Fin n) (Fin m) K := Matrix.of fun i j => ker (Xt i) (Xn j)
  let cons := (1 / (m : K) ^ 2) * (∑ i, ∑ j, (omega * Kn * omega.transpose) i j)
    - (2 / ((m : K) * (n : K))) * (∑ i, ∑ j, (Kc * omega.transpose) i j)
  let reg := (1 / (m : K)) * ((∑ i, ∑ j, (W i j - 1) ^ 2) + (∑ i, ∑ j, B i j ^ 2))
  cons + regM * reg

/-- `func(*x0)`, skada/_mapping.py:1072-1085, on the list of parameters; without rows on a side the divisions by `m` and `n` fail. -/
def lsFunc {m n k : Nat} (ker : (Fin d → K) → (Fin d → K) → K) (regM : K) (Xs : Matrix (Fin m) (Fin d) K)
    (Xt : Matrix (Fin n) (Fin d) K) (omega : Matrix (Fin m) (Fin m) K) (R : Matrix (Fin m) (Fin k) K) :
    List (Matrix (Fin k) (Fin d) K) → Py K
  | [G, H] => if m = 0 ∨ n = 0 then .error .zeroDivisionError else .ok (mmdlsObj ker regM Xs Xt omega R G H)
  | _ => .error .typeError

/-- The source labels as `_find_y_type` sees them (skada/_mapping.py:1040): classes or real values. -/
inductive Labels (β : Type)
  | discrete (y : List β)
  | continuous (y : List β)

/-- The columns of `R`: one per class, or one per source row; skada/_mapping.py:1058-1065, 1070. -/
def Labels.cols [LinearOrder β] (m : Nat) : Labels β → Nat
  | .discrete y => (Np.unique y).length
  | .continuous _ => m

/-- `R`, skada/_mapping.py:1057-1065. -/
noncomputable def lsR [LinearOrder β] {m : Nat} (regK : K) (L : Matrix (Fin m) (Fin m) K) :
    (y : Labels β) → Py (Matrix (Fin m) (Fin (y.cols m)) K)
  | .discrete y => .ok (Matrix.of fun i c => if y[i]? = (Np.unique y)[c]? then 1 else 0)
  | .continuous _ => smoother regK L

/-- The four matrices of the fitted mapping: `W_`, `B_` (one row per source row), `G_`, `H_`. -/
structure LsMap (K : Type) (m k d : Nat) where
  W : Matrix (Fin m) (Fin d) K
  B : Matrix (Fin m) (Fin d) K
  G : Matrix (Fin k) (Fin d) K
  H : Matrix (Fin k) (Fin d) K

/-- `(G, H), _ = ...; W = R @ G; B = R @ H`, skada/_mapping.py:1091-1097. -/
def lsResult {m k : Nat} (R : Matrix (Fin m) (Fin k) K) : Pack (Matrix (Fin k) (Fin d) K) → Py (LsMap K m k d)
  | .many [G, H] => .ok { W := R * G, B := R * H, G := G, H := H }
  | _ => .error .valueError

/-- `MMDLSConSMappingAdapter._mapping_optimization`, skada/_mapping.py:1030-1097.  `grad` is the gradient of the objective
computed by torch.  The import error branch is left out. -/
noncomputable def mmdlsOptimize [LinearOrder β] {m n : Nat} (exp sqrt : K → K) (gamma regK regM tol : K) (maxIter : Nat)
    (lbfgs : ∀ k, Lbfgs (Matrix (Fin k) (Fin d) K) K)
    (grad : ∀ k, List (Matrix (Fin k) (Fin d) K) → List (List (Option K)))
    (Xs : Matrix (Fin m) (Fin d) K) (Xt : Matrix (Fin n) (Fin d) K) (y : Labels β) : Py (LsMap K m (y.cols m) d) := do
  let L : Matrix (Fin m) (Fin m) K := Matrix.of fun i j => lsKernel exp sqrt gamma (Xs i) (Xs j)
  let omega ← smoother regK L
  let R ← lsR regK L y
  let G0 : Matrix (Fin (y.cols m)) (Fin d) K := Matrix.of fun _ _ => 1
  let out ← torchMinimize (lbfgs _) (lsFunc (lsKernel exp sqrt gamma) regM Xs Xt omega R) (grad _) (.many [G0, 0]) tol maxIter
  lsResult R out.x

end MMDLS

/-! ### Transfer subspace learning -/

section TSL
variable {d p : Nat} {β : Type}

/-- `X @ W`, row by row. -/
def proj (W : Matrix (Fin d) (Fin p) K) (X : List (Fin d → K)) : List (Fin p → K) := X.map (fun x => Matrix.vecMul x W)

/-- `torch.linalg.cholesky(torch.linalg.inv(sigma))`, skada/_subspace.py:800-802: singular and non-positive matrices are errors. -/
noncomputable def precision (chol : Matrix (Fin p) (Fin p) K → Option (Matrix (Fin p) (Fin p) K)) (S : Matrix (Fin p) (Fin p) K) :
    Py (Matrix (Fin p) (Fin p) K) :=
  if S.det = 0 then .error .runtimeError
  else match chol S⁻¹ with
    | none => .error .runtimeError
    | some L => .ok L

/-- `torch.mean(torch.exp(-0.5 * torch.cdist(A @ L, B @ L)))`, skada/_subspace.py:803-807. -/
def meanGauss (exp sqrt : K → K) (L : Matrix (Fin p) (Fin p) K) (A B : List (Fin p → K)) : K :=
  DL.mean ((A ×ˢ B).map (fun ab => exp (-(1 / 2) * DL.dist sqrt (Matrix.vecMul ab.1 L) (Matrix.vecMul ab.2 L))))

/-- `TransferSubspaceLearningAdapter._D`, skada/_subspace.py:786-807. -/
noncomputable def tslD (exp sqrt : K → K) (chol : Matrix (Fin p) (Fin p) K → Option (Matrix (Fin p) (Fin p) K)) (reg : K)
    (W : Matrix (Fin d) (Fin p) K) (Xs Xt : List (Fin d → K)) : Py K := do
  let Zs := proj W Xs
  let Zt := proj W Xt
  let s1 := Subsp.torchCov reg Zs
  let s2 := Subsp.torchCov reg Zt
  let L11 ← precision chol ((2 : K) • s1)
  let L12 ← precision chol (s1 + s2)
  let L22 ← precision chol ((2 : K) • s2)
  return meanGauss exp sqrt L11 Zs Zs + meanGauss exp sqrt L22 Zt Zt - 2 * meanGauss exp sqrt L12 Zs Zt

/-- The three values of `base_method`. -/
inductive Base
  | pca | flda | lpp
  deriving DecidableEq

/-- `_F`, skada/_subspace.py:809-835. -/
def tslF [LinearOrder β] (exp sqrt : K → K) (base : Base) (lengthScale reg : K) (W : Matrix (Fin d) (Fin p) K)
    (Xs : List (Fin d → K)) (ys : List β) : K :=
  match base with
  | .pca => Subsp.tslPca reg W Xs
  | .flda => Subsp.tslFlda (fun n => sqrt (n : K)) reg W Xs ys
  | .lpp => Subsp.tslLpp (fun x y => exp (-DL.dist sqrt x y / lengthScale)) W
      (Matrix.of fun i : Fin Xs.length => Xs[i]) (fun i => ys[i]?)

/-- The loss at a projection with orthonormal columns, skada/_subspace.py:896-898. -/
noncomputable def tslLoss [LinearOrder β] (exp sqrt : K → K) (chol : Matrix (Fin p) (Fin p) K → Option (Matrix (Fin p) (Fin p) K))
    (base : Base) (lengthScale reg mu : K) (Xs : List (Fin d → K)) (ys : List β) (Xt : List (Fin d → K))
    (W : Matrix (Fin d) (Fin p) K) : Py K := do
  let D ← tslD exp sqrt chol reg W Xs Xt
  return tslF exp sqrt base lengthScale reg W Xs ys + mu * D

/-- `func(*x0)`, skada/_subspace.py:894-898, on the list of parameters; `qr W` is `torch.linalg.qr(W)[0]`. -/
noncomputable def tslFunc [LinearOrder β] (exp sqrt : K → K)
    (chol : Matrix (Fin p) (Fin p) K → Option (Matrix (Fin p) (Fin p) K)) (qr : Matrix (Fin d) (Fin p) K → Matrix (Fin d) (Fin p) K)
    (base : Base) (lengthScale reg mu : K) (Xs : List (Fin d → K)) (ys : List β) (Xt : List (Fin d → K)) :
    List (Matrix (Fin d) (Fin p) K) → Py K
  | [W] => tslLoss exp sqrt chol base lengthScale reg mu Xs ys Xt (qr W)
  | _ => .error .typeError

/-- `torch.eye(d)[:, :n]`, skada/_subspace.py:901-902. -/
def eyeCols (d p : Nat) : Matrix (Fin d) (Fin p) K := Matrix.of fun i j => if i.val = j.val then 1 else 0

/-- The number of columns of `W`: slicing a `d × d` matrix gives at most `d` columns, skada/_subspace.py:873-876, 902. -/
def tslCols (nComponents : Option Nat) (rows d : Nat) : Nat := min (nComponents.getD (min rows d)) d

/-- Lines 878-909 of `fit` (skada/_subspace.py): the matrix stored as `W_`.  `qr W` is `np.linalg.qr(W)[0]`. -/
noncomputable def tslOptimize [LinearOrder β] (exp sqrt : K → K) (chol : Matrix (Fin p) (Fin p) K → Option (Matrix (Fin p) (Fin p) K))
    (qr : Matrix (Fin d) (Fin p) K → Matrix (Fin d) (Fin p) K) (lbfgs : Lbfgs (Matrix (Fin d) (Fin p) K) K)
    (grad : List (Matrix (Fin d) (Fin p) K) → List (List (Option K)))
    (base : Base) (lengthScale reg mu tol : K) (maxIter : Nat)
    (Xs : List (Fin d → K)) (ys : List β) (Xt : List (Fin d → K)) : Py (Matrix (Fin d) (Fin p) K) := do
  let out ← torchMinimize lbfgs (tslFunc exp sqrt chol qr base lengthScale reg mu Xs ys Xt) grad (.one (eyeCols d p)) tol maxIter
  match out.x with
  | .one W => return qr W
  | .many _ => throw .typeError

/-- `TransferSubspaceLearningAdapter.fit`, skada/_subspace.py:837-911, with the number of columns it chooses.  The import
error branch is left out; missing labels are an error of
`torch.tensor(None)` (`RuntimeError`). -/
noncomputable def tslFit [LinearOrder β] (exp sqrt : K → K) (chol : ∀ p, Matrix (Fin p) (Fin p) K → Option (Matrix (Fin p) (Fin p) K))
    (qr : ∀ p, Matrix (Fin d) (Fin p) K → Matrix (Fin d) (Fin p) K) (lbfgs : ∀ p, Lbfgs (Matrix (Fin d) (Fin p) K) K)
    (grad : ∀ p, List (Matrix (Fin d) (Fin p) K) → List (List (Option K)))
    (base : Base) (lengthScale reg mu tol : K) (maxIter : Nat) (nComponents : Option Nat)
    (X : List (Fin d → K)) (y : Option (List β)) (sd : SDArg) : Py (Σ p, Matrix (Fin d) (Fin p) K) := do
  let (X, sd) ← checkXDomain X sd {}
  let (Xs, Xt) ← RW.splitX X sd
  match y with
  | none => throw .runtimeError
  | some y => do
    let (ys, _) ← RW.splitX y sd
    let p := tslCols nComponents X.length d
    let W ← tslOptimize exp sqrt (chol p) (qr p) (lbfgs p) (grad p) base lengthScale reg mu tol maxIter Xs ys Xt
    return ⟨p, W⟩

end TSL

end Optim
end Skada

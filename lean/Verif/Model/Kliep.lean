/-
`KLIEPReweightAdapter` as an object (skada/_reweight.py:447-579): the parameter `gamma` with its automatic scaling, the
likelihood cross-validation, and what `fit` does to the object.

Rows are `Fin d → K`; `exp` and `log` are parameters; NaN is `none`.  `random_state` enters through the drawn indices.
-/
import Verif.Model.Reweight

namespace Skada
namespace RW

variable {K : Type} [Field K] [LinearOrder K] {d : Nat}

/-- One value of `gamma`: a number, `"scale"`, `"auto"`, or another string. -/
inductive Gamma (K : Type)
  | num (g : K)
  | scale
  | auto
  | other (s : String)
  deriving DecidableEq

/-- The parameter `gamma`: a value, or a list of values. -/
inductive GammaParam (K : Type)
  | one (g : Gamma K)
  | many (gs : List (Gamma K))
  deriving DecidableEq

/-- All entries of the array, row by row. -/
def entries (X : List (Fin d → K)) : List K := X.flatMap List.ofFn

/-- `X.var()`: the variance over all entries, skada/_reweight.py:573. -/
def var (X : List (Fin d → K)) : K :=
  mean ((entries X).map (fun v => (v - mean (entries X)) ^ 2))

/-- `_auto_scale_gammas`, skada/_reweight.py:567-579, for dense data (`check_array` refuses sparse data). -/
def autoScale (X : List (Fin d → K)) : Gamma K → Gamma K
  | .scale => .num (if var X ≠ 0 then 1 / ((d : K) * var X) else 1)
  | .auto => .num (1 / (d : K))
  | g => g

/-- The kernel value of `pairwise_kernels(metric="rbf", gamma=g)`. -/
def rbf (exp : K → K) (g : K) (x y : Fin d → K) : K := exp (-g * ∑ i, (x i - y i) ^ 2)

/-- What `rbf_kernel` does with `gamma`: it needs a number (`-gamma` of a string is a `TypeError`). -/
def gammaNum : Gamma K → Py K
  | .num g => .ok g
  | _ => .error .typeError

/-- The constructor arguments apart from `gamma` and `cv`, and the functions and draws the fit uses.  `draw` gives the indices
drawn by `rng.choice(np.arange(n), min(n, n_centers))` for `n` target rows: `draw none` in the final fit, `draw (some (i, j))`
in fold `j` of candidate `i` (with an integer `random_state` they do not depend on the place). -/
structure KliepEnv (K : Type) where
  exp : K → K
  log : K → K
  eps : K
  tol : K
  maxIter : Nat
  draw : Option (Nat × Nat) → Nat → List Nat

/-- `_weights_optimization`, skada/_reweight.py:498-523: the objective is `np.sum(np.log(A @ alpha + EPS))`, at the start
without `EPS`. -/
def weightsOpt (E : KliepEnv K) (place : Option (Nat × Nat)) (gamma : Gamma K) (Xs Xt : List (Fin d → K)) :
    Py (Option (List K) × List (Fin d → K)) := do
  let idx := E.draw place Xt.length
  let centers ← Np.take Xt idx
  if centers = [] then throw .valueError
  let g ← gammaNum gamma
  kliepOptimize (rbf E.exp g) E.eps E.tol
    (fun Xt centers alpha => (Xt.map (fun x => E.log (rowDot (rbf E.exp g) centers alpha x + E.eps))).sum)
    ((Xt.map (fun x => E.log (rowDot (rbf E.exp g) centers (List.replicate centers.length 1) x))).sum)
    E.maxIter Xs Xt idx

/-- `sklearn.model_selection.KFold(k)` (what `check_cv` makes of an integer), `split` of `n` rows: contiguous blocks, the first
`n % k` with one row more.  The pairs are (train, test). -/
def kfold (k n : Nat) : Py (List (List Nat × List Nat)) :=
  if k < 2 ∨ n < k then .error .valueError
  else .ok ((List.range k).map (fun j =>
    let lo := j * (n / k) + min j (n % k)
    let hi := lo + n / k + (if j < n % k then 1 else 0)
    ((List.range n).filter (fun i => decide (i < lo ∨ hi ≤ i)), (List.range n).filter (fun i => decide (lo ≤ i ∧ i < hi)))))

/-- `np.mean` of numbers one of which may be NaN; the mean of no numbers is NaN. -/
def meanNan (l : List (Option K)) : Option K :=
  if l = [] ∨ l.any (fun v => v.isNone) = true then none else some (mean (l.filterMap id))

/-- `np.argmax`: the first NaN if there is one, else the first maximum. -/
def argmaxNan (l : List (Option K)) : Py Nat :=
  match l.findIdx? (fun v => v.isNone) with
  | some i => .ok i
  | none => Np.argmax (l.filterMap id)

/-- The held-out log-likelihood in one fold, skada/_reweight.py:539-548. -/
def foldLik (E : KliepEnv K) (place : Nat × Nat) (gamma : Gamma K) (Xs Xt : List (Fin d → K)) (fold : List Nat × List Nat) :
    Py (Option K) := do
  let train ← Np.take Xt fold.1
  let (alpha, centers) ← weightsOpt E (some place) gamma Xs train
  let test ← Np.take Xt fold.2
  let g ← gammaNum gamma
  if test = [] then throw .valueError
  return alpha.map (fun a => mean (test.map (fun x => E.log (rowDot (rbf E.exp g) centers a x + E.eps))))

/-- The likelihoods of the candidates, skada/_reweight.py:536-549; `folds` is `cv.split`. -/
def logLiks (E : KliepEnv K) (folds : Nat → Py (List (List Nat × List Nat))) (gammas : List (Gamma K)) (Xs Xt : List (Fin d → K)) :
    Py (List (Option K)) :=
  gammas.zipIdx.mapM (fun (g, i) => do
    let fs ← folds Xt.length
    let ls ← fs.zipIdx.mapM (fun (f, j) => foldLik E (i, j) g Xs Xt f)
    return meanNan ls)

/-- `_likelihood_cross_validation`, skada/_reweight.py:525-552 (the shuffled `index` is not used). -/
def likelihoodCV (E : KliepEnv K) (folds : Nat → Py (List (List Nat × List Nat))) (gammas : List (Gamma K)) (Xs Xt : List (Fin d → K)) :
    Py (Gamma K) := do
  let ls ← logLiks E folds gammas Xs Xt
  let i ← argmaxNan ls
  match gammas[i]? with
  | some g => return g
  | none => throw .indexError

/-- The fitted attributes `best_gamma_`, `alpha_`, `centers_`. -/
structure KliepFitted (K : Type) (d : Nat) where
  gamma : Gamma K
  alpha : Option (List K)
  centers : List (Fin d → K)
  deriving DecidableEq

/-- `fit`, skada/_reweight.py:464-496: the parameter `gamma` of the object afterwards (line 487 overwrites it), and the fitted
attributes or the exception. -/
def fitObj (E : KliepEnv K) (folds : Nat → Py (List (List Nat × List Nat))) (gamma : GammaParam K) (X : List (Fin d → K)) (sd : SDArg) :
    GammaParam K × Py (KliepFitted K d) :=
  match checkXDomain X sd { allowMultiSource := true, allowMultiTarget := true } with
  | .error e => (gamma, .error e)
  | .ok (X, sd) =>
    match splitX X sd with
    | .error e => (gamma, .error e)
    | .ok (Xs, Xt) =>
      match gamma with
      | .one g => (.one g, do
          let best := autoScale X g
          let (alpha, centers) ← weightsOpt E none best Xs Xt
          return { gamma := best, alpha := alpha, centers := centers })
      | .many gs =>
        let gs := gs.map (autoScale X)
        (.many gs, do
          let best ← likelihoodCV E folds gs Xs Xt
          let (alpha, centers) ← weightsOpt E none best Xs Xt
          return { gamma := best, alpha := alpha, centers := centers })

/-- `compute_weights` after a fit, skada/_reweight.py:554-565. -/
def weightsObj (E : KliepEnv K) (F : KliepFitted K d) (X : List (Fin d → K)) (sd : SDArg) : Py (List (Option K)) := do
  let g ← gammaNum F.gamma
  kliepWeights (rbf E.exp g) (F.alpha, F.centers) X sd

end RW
end Skada

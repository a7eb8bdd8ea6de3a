/-
The reweighting adapters (skada/_reweight.py).

Numbers live in an arbitrary ordered field `K` (exact arithmetic).  A computed weight is an `Option K`: `none` stands
for the non-finite results `inf`/`nan` that numpy produces for a division by zero.  Density estimators, domain
classifiers, kernels, nearest-neighbour search, `exp`, `sqrt`, `log` are parameters: a fitted estimator is a function of
its training rows, and its `score_samples` / `predict_proba` / `predict` acts row by row; scikit-learn rejects an empty
batch with `ValueError`.  `clone` of an unfitted estimator yields an equal unfitted estimator.
-/
import Verif.Model.SplitMerge
import Verif.Model.FrankWolfe

namespace Skada
namespace RW

variable {α : Type} {K : Type} [Field K] [LinearOrder K]

/-- `a / b` in numpy: non-finite when `b` is zero. -/
def fdiv (a b : K) : Option K := if b = 0 then none else some (a / b)

/-- `a.mean()` of a non-empty array. -/
def mean (l : List K) : K := l.sum / (l.length : K)

/-- A row-wise estimator method applied to a batch (scikit-learn's `check_array` rejects an empty batch). -/
def batch {β : Type} (f : α → β) (X : List α) : Py (List β) :=
  if X = [] then .error .valueError else .ok (X.map f)

/-- `(source_idx,) = np.where(extract_source_indices(sample_domain))`, skada/_reweight.py:131-132, 242-243, 354-357,
557-558, 807-809. -/
def sourceIdx (sd : List Int) : Py (List Nat) :=
  match extractSourceIndices sd with
  | .error e => .error e
  | .ok m => .ok (Np.flatnonzero m)

/-- `weights = np.zeros(n); weights[source_idx] = source_weights`, skada/_reweight.py:143-144, 251-252, 362-363,
563-564, 1122-1124. -/
def scatterZeros (n : Nat) (idx : List Nat) (sw : List (Option K)) : Py (List (Option K)) :=
  Np.idxAssign (List.replicate n (some 0)) idx sw

/-- The `X_source, X_target = source_target_split(X, sample_domain=…)` call made by every `fit`. -/
def splitX (X : List α) (sd : List Int) : Py (List α × List α) :=
  match sourceTargetSplit [some X] sd with
  | .error e => .error e
  | .ok [(some s, some t)] => .ok (s, t)
  | .ok _ => .error .valueError

/-- Lines 137-141: division by the mean, with the uniform fallback `1 / len`. -/
def normaliseMean (sw : List K) : List (Option K) :=
  if mean sw ≠ 0 then sw.map (fun w => fdiv w (mean sw))
  else sw.map (fun _ => fdiv 1 (sw.length : K))

/-- `DensityReweightAdapter.fit`, skada/_reweight.py:100-126: the pair of fitted log-densities.  `kde` is the cloned
weight estimator: training rows (rejected when empty) to a log-density. -/
def densityFit (kde : List α → α → K) (X : List α) (sd : SDArg) : Py ((α → K) × (α → K)) := do
  let (X, sd) ← checkXDomain X sd {}
  let (Xs, Xt) ← splitX X sd
  if Xs = [] then throw .valueError
  if Xt = [] then throw .valueError
  return (kde Xs, kde Xt)

/-- `DensityReweightAdapter.compute_weights`, skada/_reweight.py:128-145. -/
def densityWeights (exp : K → K) (fitted : (α → K) × (α → K)) (X : List α) (sd : SDArg) : Py (List (Option K)) := do
  let (X, sd) ← checkXDomain X sd { allowSource := true }
  let idx ← sourceIdx sd
  let Xs ← Np.take X idx
  let ws ← batch fitted.1 Xs
  let wt ← batch fitted.2 Xs
  let sw := List.zipWith (fun t s => exp (t - s)) wt ws
  scatterZeros X.length idx (normaliseMean sw)

/-- `GaussianReweightAdapter`, skada/_reweight.py:213-253: `pdf` is the multivariate normal density fitted to a set of
rows (mean and shrunk covariance).  The ratio is not normalised. -/
def gaussianFitWeights (pdf : List α → α → K) (Xfit : List α) (sdFit : SDArg) (X : List α) (sd : SDArg) :
    Py (List (Option K)) := do
  let (Xf, sdf) ← checkXDomain Xfit sdFit {}
  let (Xs, Xt) ← splitX Xf sdf
  let (X, sd) ← checkXDomain X sd { allowSource := true }
  let idx ← sourceIdx sd
  let Xq ← Np.take X idx
  scatterZeros X.length idx (Xq.map (fun x => fdiv (pdf Xt x) (pdf Xs x)))

/-- The labels given to the domain classifier, skada/_reweight.py:344-345: ones, then `y_domain[source_idx] = 0`. -/
def domainLabels (n : Nat) (idx : List Nat) : Py (List Int) :=
  Np.idxAssign (List.replicate n 1) idx (idx.map (fun _ => 0))

/-- `DiscriminatorReweightAdapter.fit`, skada/_reweight.py:324-349.  `clf` maps training rows and labels to the
probability of class `1` (column 1 of `predict_proba`). -/
def discriminatorFit (clf : List α → List Int → α → K) (X : List α) (sd : SDArg) : Py (α → K) := do
  let (X, sd) ← checkXDomain X sd {}
  let idx ← sourceIdx sd
  let yd ← domainLabels X.length idx
  return clf X yd

/-- `np.clip(p, eps, 1.0)`. -/
def clip (eps p : K) : K := min (max p eps) 1

/-- `DiscriminatorReweightAdapter.compute_weights`, skada/_reweight.py:351-364; `eps` is `EPS`. -/
def discriminatorWeights (eps : K) (proba : α → K) (X : List α) (sd : SDArg) : Py (List (Option K)) := do
  let (X, sd) ← checkXDomain X sd { allowSource := true }
  let idx ← sourceIdx sd
  let Xs ← Np.take X idx
  let p ← batch proba Xs
  let sw := (p.map (clip eps)).map (fun p => (1 - p) / p)
  scatterZeros X.length idx (sw.map (fun w => fdiv w (mean sw)))

/-! ### KLIEP -/

/-- The parameters fixed during `_weights_optimization`: the two kernel matrices are given by the kernel `k` (an rbf
kernel with the chosen `gamma`), the target rows, the source rows and the drawn centers. -/
structure Kliep (α K : Type) (m : Nat) where
  k : α → α → K
  Xs : List α
  Xt : List α
  centers : Fin m → α

namespace Kliep
variable {m : Nat} (P : Kliep α K m)

/-- `b = np.mean(pairwise_kernels(X_source, centers), axis=0)`, skada/_reweight.py:506-507. -/
def b (j : Fin m) : K := mean (P.Xs.map (fun x => P.k x (P.centers j)))

/-- `(A @ alpha)` at one row `x`, skada/_reweight.py:505, 562. -/
def kernelAt (alpha : Fin m → K) (x : α) : K := ∑ j, P.k x (P.centers j) * alpha j

/-- One iteration, skada/_reweight.py:513-516; `none` when a division by zero occurs. -/
def step (eps : K) (alpha : Fin m → K) : Option (Fin m → K) := do
  if P.Xt.any (fun x => decide (P.kernelAt alpha x = 0)) then none
  let a1 : Fin m → K := fun j =>
    alpha j + eps * (P.Xt.map (fun x => P.k x (P.centers j) * (1 / P.kernelAt alpha x))).sum
  let bb := ∑ j, P.b j * P.b j
  if bb = 0 then none
  let ba := ∑ j, P.b j * a1 j
  let a2 : Fin m → K := fun j => a1 j + (1 - ba) * P.b j / bb
  let a3 : Fin m → K := fun j => if 0 < a2 j then a2 j else 0
  let bc := ∑ j, P.b j * a3 j
  if bc = 0 then none
  return fun j => a3 j / bc

/-- The loop, skada/_reweight.py:511-521: stop when the objective changes by less than `tol`.  `obj` is
`np.sum(np.log(A @ alpha + EPS))`. -/
def loop (eps tol : K) (obj : (Fin m → K) → K) : Nat → K → (Fin m → K) → Option (Fin m → K)
  | 0, _, alpha => some alpha
  | n + 1, oldObj, alpha => do
    let alpha ← P.step eps alpha
    if |obj alpha - oldObj| < tol then return alpha
    loop eps tol obj n (obj alpha) alpha

end Kliep

/-- `KLIEPReweightAdapter._weights_optimization`, skada/_reweight.py:498-523, for given draws `draw` of
`rng.choice(np.arange(n_targets), n_centers)`.  `obj0` is the initial objective `np.sum(np.log(A @ ones))`.  An empty
kernel argument is a `ValueError`. Result: `alpha` and the centers; a `none` alpha is non-finite. -/
def kliepOptimize (k : α → α → K) (eps tol : K) (obj : List α → List α → List K → K) (obj0 : K) (maxIter : Nat)
    (Xs Xt : List α) (draw : List Nat) : Py (Option (List K) × List α) := do
  let centers ← Np.take Xt draw
  if Xt = [] ∨ centers = [] ∨ Xs = [] then throw .valueError
  let P : Kliep α K centers.length := ⟨k, Xs, Xt, fun j => centers[j]⟩
  let alpha := P.loop eps tol (fun a => obj Xt centers (List.ofFn a)) maxIter obj0 (fun _ => 1)
  return (alpha.map List.ofFn, centers)

/-- `KLIEPReweightAdapter.fit` with a scalar `gamma` (skada/_reweight.py:464-496); the kernel `k` already contains the
(auto-scaled) `gamma`. -/
def kliepFit (k : α → α → K) (eps tol : K) (obj : List α → List α → List K → K) (obj0 : K) (maxIter : Nat)
    (draw : List Nat) (X : List α) (sd : SDArg) : Py (Option (List K) × List α) := do
  let (X, sd) ← checkXDomain X sd { allowMultiSource := true, allowMultiTarget := true }
  let (Xs, Xt) ← splitX X sd
  kliepOptimize k eps tol obj obj0 maxIter Xs Xt draw

/-- `A @ alpha` for one row. -/
def rowDot (k : α → α → K) (centers : List α) (alpha : List K) (x : α) : K :=
  (List.zipWith (fun c a => k x c * a) centers alpha).sum

/-- `KLIEPReweightAdapter.compute_weights`, skada/_reweight.py:554-565. -/
def kliepWeights (k : α → α → K) (fitted : Option (List K) × List α) (X : List α) (sd : SDArg) :
    Py (List (Option K)) := do
  let (X, sd) ← checkXDomain X sd { allowSource := true }
  let idx ← sourceIdx sd
  let Xs ← Np.take X idx
  if Xs = [] then throw .valueError
  scatterZeros X.length idx (Xs.map (fun x => fitted.1.map (fun a => rowDot k fitted.2 a x)))

/-- `gammas[np.argmax(log_liks)]`, skada/_reweight.py:525-552; `lik` is the mean held-out log-likelihood of a gamma
(computed by the inner loop, lines 538-549). -/
def bestGamma {γ : Type} (lik : γ → K) (gammas : List γ) : Py γ := do
  let i ← Np.argmax (gammas.map lik)
  match gammas[i]? with
  | some g => return g
  | none => throw .indexError

/-! ### Nearest neighbours -/

/-- `X[~source_idx]` for an integer index array: `~i` is `-i-1`, i.e. position `n - 1 - i`, skada/_reweight.py:817. -/
def takeInvert (X : List α) (idx : List Nat) : Py (List α) :=
  Np.take X (idx.map (fun i => X.length - 1 - i))

/-- `weights[unique] += counts` with `unique, counts = np.unique(predictions, return_counts=True)`,
skada/_reweight.py:800-802. -/
def addCounts (w : List K) (pred : List Nat) : Py (List K) :=
  let u := Np.unique pred
  match Np.take w u with
  | .error e => .error e
  | .ok old => Np.idxAssign w u (List.zipWith (fun o i => o + (pred.count i : K)) old u)

/-- `_get_weights`, skada/_reweight.py:794-803.  `knn Xs x` is the label predicted for `x` by the classifier trained on
`(Xs, arange(len(Xs)))`. -/
def nnGetWeights (knn : List α → α → Nat) (laplace : Bool) (Xs Xt : List α) : Py (List K) := do
  if Xs = [] then throw .valueError
  let pred ← batch (knn Xs) Xt
  addCounts (List.replicate Xs.length (if laplace then 1 else 0)) pred

/-- `NearestNeighborReweightAdapter.compute_weights`, skada/_reweight.py:805-818.  The estimator chosen on lines 811-815
is never used afterwards; refitting it can only fail on an empty batch, which `_get_weights` rejects as well. -/
def nnWeights (knn : List α → α → Nat) (laplace : Bool) (X : List α) (sd : SDArg) : Py (List K) := do
  let (X, sd) ← checkXDomain X sd { allowSource := true }
  let idx ← sourceIdx sd
  let Xs ← Np.take X idx
  let Xt ← takeInvert X idx
  let sw ← nnGetWeights knn laplace Xs Xt
  Np.idxAssign (List.replicate X.length 1) idx sw

/-! ### Kernel mean matching -/

/-- The resolved tolerance, skada/_reweight.py:1081-1084. -/
def kmmEps (sqrt : K → K) (eps : Option K) (ns : Nat) : K :=
  match eps with
  | none => (sqrt ns - 1) / sqrt ns
  | some e => e

/-- `KMMReweightAdapter._weights_optimization`, skada/_reweight.py:1059-1102.  `scipy ub` is the result of the SLSQP
branch of `qp_solve` with upper bounds `ub`; as in the code, `lb` and `ub` (built from `B`) only reach that branch. -/
def kmmOptimize (k : α → α → K) (sqrt : K → K) (eps : Option K) (B : K) (solver : String) (maxIter : Nat)
    (scipy : ∀ n, FW.Vec K n → Py (FW.Vec K n × K)) (Xs Xt : List α) : Py (List K) := do
  if Xs = [] ∨ Xt = [] then throw .valueError
  let ns := Xs.length
  let e := kmmEps sqrt eps ns
  let kappa : FW.Vec K ns := fun i => (ns : K) * mean (Xt.map (fun t => k Xs[i] t))
  let (w, _) ← FW.qpSolve (scipy ns (fun _ => B)) solver (fun i j => k Xs[i] Xs[j]) (some (fun i => - kappa i))
    (some [fun _ => 1, fun _ => -1]) (some [(ns : K) * (1 + e), -((ns : K) * (1 - e))]) none none none maxIter
  return List.ofFn w

/-- `KMMReweightAdapter.fit`, skada/_reweight.py:1032-1057: the source weights and the source rows. -/
def kmmFit (k : α → α → K) (sqrt : K → K) (eps : Option K) (B : K) (solver : String) (maxIter : Nat)
    (scipy : ∀ n, FW.Vec K n → Py (FW.Vec K n × K)) (X : List α) (sd : SDArg) : Py (List K × List α) := do
  let (X, sd) ← checkXDomain X sd { allowMultiSource := true, allowMultiTarget := true }
  let (Xs, Xt) ← splitX X sd
  let w ← kmmOptimize k sqrt eps B solver maxIter scipy Xs Xt
  return (w, Xs)

/-- `KMMReweightAdapter.compute_weights`, skada/_reweight.py:1104-1125. -/
def kmmWeights [DecidableEq α] (k : α → α → K) (smooth : Bool) (fitted : List K × List α) (X : List α) (sd : SDArg) :
    Py (List (Option K)) := do
  let (X, sd) ← checkXDomain X sd { allowSource := true }
  let m ← extractSourceIndices sd
  let Xs ← Np.boolIndex X m
  let sw ← if fitted.2 = Xs ∧ smooth = false then pure fitted.1
    else if Xs = [] then throw .valueError
    else pure (Xs.map (rowDot k fitted.2 fitted.1))
  scatterZeros X.length (Np.flatnonzero m) (sw.map some)

/-! ### MMD target shift -/

/-- The class-indicator row `R[i, :]` of one label, skada/_reweight.py:1265-1267, 1349-1351. -/
def indicator {β : Type} [DecidableEq β] (classes : List β) (y : β) : List K :=
  classes.map (fun c => if y = c then 1 else 0)

/-- `R @ alpha` for one row. -/
def listDot (r a : List K) : K := (List.zipWith (· * ·) r a).sum

/-- `MMDTarSReweightAdapter.fit` for discrete labels (skada/_reweight.py:1249-1333): the quadratic program is solved by
SciPy, so its solution `alpha` (one entry per class) is a parameter. Result: source weights, source rows, classes. -/
def tarsFit {β : Type} [LinearOrder β] (solve : List α → List α → List β → List K) (X : List α) (y : List β) (sd : SDArg) :
    Py (List K × List K × List α × List β) := do
  let (X, sd) ← checkXDomain X sd {}
  let (Xs, Xt) ← splitX X sd
  let (ys, _) ← splitX y sd
  if Xs = [] ∨ Xt = [] then throw .valueError
  let alpha := solve Xs Xt ys
  let classes := Np.unique ys
  return (ys.map (fun c => listDot (indicator classes c) alpha), alpha, Xs, classes)

/-- `MMDTarSReweightAdapter.compute_weights` for discrete labels, skada/_reweight.py:1335-1362.  The label validation of
`check_X_y_domain` is reduced to the length check. `tiny` is `1e-13`. -/
def tarsWeights {β : Type} [DecidableEq α] [DecidableEq β] (tiny : K) (fitted : List K × List K × List α × List β) (X : List α)
    (y : List β) (sd : List Int) : Py (List K) := do
  if X.length ≠ y.length then throw .valueError
  let m ← extractSourceIndices sd
  let Xs ← Np.boolIndex X m
  let sw ← if fitted.2.2.1 = Xs then pure fitted.1
    else do
      let ys ← Np.boolIndex y m
      pure (ys.map (fun c => listDot (indicator fitted.2.2.2 c) fitted.2.1))
  let w ← Np.idxAssign (List.replicate X.length 0) (Np.flatnonzero m) sw
  return w.map (· + tiny)

/-- `BaseReweightAdapter.fit_transform`, skada/_reweight.py:54-76: `X` unchanged and the weights. -/
def fitTransform {φ ω : Type} (fit : List α → SDArg → Py φ) (weights : φ → List α → SDArg → Py ω) (X : List α) (sd : SDArg) :
    Py (List α × ω) := do
  let fitted ← fit X sd
  let w ← weights fitted X sd
  return (X, w)

end RW
end Skada

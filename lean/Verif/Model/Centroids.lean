/-
Model of the callback `ComputeSourceCentroids` (skada/deep/callbacks.py:14-75).

The network in evaluation mode maps rows to features one by one (`feat`); `e` is the clamp of the norm in `F.normalize` (torch: 1e-12).
-/
import Verif.Model.Deep
import Verif.Model.SphKMeans

namespace Skada.Centroids
open Np Deep

variable {K α : Type} [Field K] [LinearOrder K] {d : Nat}

/-- `DomainAwareNet.predict_features` (skada/deep/base.py:643-666) of raw rows: `np.concatenate` of no batches is a `ValueError`. -/
def predictFeatures (feat : α → Fin d → K) (X : List α) : Py (List (Fin d → K)) :=
  if X.isEmpty then .error .valueError else .ok (X.map feat)

/-- `F.normalize(x, p=2, dim=1)` of one row (skada/deep/callbacks.py:60) -/
def clampNormalize (sqrt : K → K) (e : K) (x : Fin d → K) : Fin d → K := fun j => x j / max (sqrt (∑ i, x i ^ 2)) e

/-- The centroid of class `c`, if it has rows (skada/deep/callbacks.py:57-62) -/
def classCentroid (sqrt : K → K) (e : K) (fs : List (Fin d → K)) (ys : List Int) (c : Nat) : Py (Option (Fin d → K)) :=
  let m := ys.map (fun y => decide (y = (c : Int)))
  if true ∈ m then (boolIndex fs m).map (fun rows => some (rows.map (clampNormalize sqrt e)).sum) else .ok none

/-- The source centroids (skada/deep/callbacks.py:53-64): classes `0, …, n_classes - 1`; `torch.stack` of nothing is a `RuntimeError`. -/
def sourceCentroids (sqrt : K → K) (e : K) (fs : List (Fin d → K)) (ys : List Int) : Py (List (Fin d → K)) := do
  let cs ← (List.range (unique ys).length).mapM (classCentroid sqrt e fs ys)
  if (cs.filterMap id).isEmpty then .error .runtimeError else .ok (cs.filterMap id)

/-- `on_epoch_begin` (skada/deep/callbacks.py:22-75): the fitted clustering of the target that is stored in the criterion. -/
def epochBegin (sqrt : K → K) (e eCos rtol tol : K) (maxIter : Nat) (feat : α → Fin d → K) (s : DS K α Int) : Py (SKM.Run K d) := do
  let src ← selectSource (-1) s true
  let tgt ← selectTarget (-1) s true
  let fs ← predictFeatures feat src.X
  let ft ← predictFeatures feat tgt.X
  let cs ← sourceCentroids sqrt e fs src.y
  SKM.fit sqrt eCos rtol tol (unique src.y).length maxIter (some (cs.map some)) [] ft

end Skada.Centroids

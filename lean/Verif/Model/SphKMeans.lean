/-
Model of `SphericalKMeans` (skada/deep/utils.py:101-337).

Rows and centres are vectors over an ordered field (exact arithmetic), `none` is a vector of NaN (a row of norm zero after `X / norm`, or a
sum containing one).  The random initial rows are an argument.  `e` is the lower clamp of the norms in `cosine_similarity` (torch: 1e-8).
Conversion to tensors and devices are not modelled.
-/
import Verif.Model.DeepLosses

namespace Skada.SKM

open Np

variable {K : Type} [Field K] [LinearOrder K] {d : Nat}

/-- A row or centre; `none` if it is NaN. -/
abbrev Vec (K : Type) (d : Nat) := Option (Fin d → K)

/-- `X / torch.norm(X, dim=1, keepdim=True)`, one row (skada/deep/utils.py:194, 169); `0 / 0` is NaN. -/
def normalize (sqrt : K → K) : Vec K d → Vec K d
  | none => none
  | some x => if sqrt (∑ j, x j ^ 2) = 0 then none else some (fun j => x j / sqrt (∑ j, x j ^ 2))

/-- `0.5 * (1 - cosine_similarity)` of one pair (skada/deep/utils.py:310-312, 331-332) -/
def dis (sqrt : K → K) (e : K) : Vec K d → Vec K d → Option K
  | some x, some c => some (1 / 2 * (1 - DL.cosine sqrt e x c))
  | _, _ => none

/-- `torch.argmin`: a NaN counts as smallest, the first extremum is returned; no entries are an `IndexError`. -/
def nanArgmin (l : List (Option K)) : Py Nat :=
  if l = [] then .error .indexError
  else match l.findIdx? (fun x => x.isNone) with
    | some i => .ok i
    | none => argmin (l.map (fun x => x.getD 0))

/-- The labels of the rows (skada/deep/utils.py:245-246, 289-290) -/
def assign (sqrt : K → K) (e : K) (cs X : List (Vec K d)) : Py (List Nat) :=
  X.mapM (fun x => nanArgmin (cs.map (fun c => dis sqrt e x c)))

/-- Sum of rows, NaN if one of them is. -/
def sumRows : List (Vec K d) → Vec K d
  | [] => some 0
  | none :: _ => none
  | some x :: l => (sumRows l).map (fun s => x + s)

/-- The new centres (skada/deep/utils.py:249-252): one per old centre, zero when empty or beyond `n_clusters`. -/
def update (nClusters m : Nat) (X : List (Vec K d)) (labels : List Nat) : List (Vec K d) :=
  (List.range m).map (fun k =>
    if k < nClusters ∧ k ∈ labels then sumRows (((X.zip labels).filter (fun p => decide (p.2 = k))).map Prod.fst) else some 0)

/-- `torch.allclose(centroids, new_centroids, atol=tol)` on one pair of centres; `rtol` is torch's `1e-5`. -/
def closeVec (rtol tol : K) : Vec K d → Vec K d → Bool
  | some a, some b => (List.finRange d).all (fun j => decide (|a j - b j| ≤ tol + rtol * |b j|))
  | _, _ => false

/-- `torch.allclose` of the two lists of centres. -/
def close (rtol tol : K) (a b : List (Vec K d)) : Bool := (List.zipWith (closeVec rtol tol) a b).all id

/-- A run: inertia (NaN is `none`), centres, last value of `n_iter`. -/
structure Run (K : Type) (d : Nat) where
  /-- `inertia` -/
  inertia : Option K
  /-- `centroids` -/
  centers : List (Vec K d)
  /-- `n_iter` -/
  nIter : Nat

/-- Sum of optional numbers, NaN if one is. -/
def sumOpt : List (Option K) → Option K
  | [] => some 0
  | none :: _ => none
  | some x :: l => (sumOpt l).map (fun s => x + s)

/-- `_compute_dissimilarity_loss(X, centroids[labels])` (skada/deep/utils.py:262, 314-337) -/
def inertia (sqrt : K → K) (e : K) (X cs : List (Vec K d)) (labels : List Nat) : Option K :=
  sumOpt (List.zipWith (fun x l => dis sqrt e x (cs.getD l none)) X labels)

/-- The loop of `_run_single_kmean` (skada/deep/utils.py:223-264): `fuel` iterations are left, `it` is the next `n_iter`, `last` the labels and
`n_iter` of the previous iteration.  With `max_iter = 0` the name `labels` is unbound. -/
def loop (sqrt : K → K) (e rtol tol : K) (nClusters : Nat) (X : List (Vec K d)) : Nat → Nat → List (Vec K d) → Option (List Nat × Nat) → Py (Run K d)
  | 0, _, cs, some (labels, it) => .ok ⟨inertia sqrt e X cs labels, cs, it⟩
  | 0, _, _, none => .error .unboundLocalError
  | fuel + 1, it, cs, _ => do
    let labels ← assign sqrt e cs X
    let new := update nClusters cs.length X labels
    if close rtol tol cs new then .ok ⟨inertia sqrt e X cs labels, cs, it⟩
    else loop sqrt e rtol tol nClusters X fuel (it + 1) new (some (labels, it))

/-- `inertia < best_inertia` on floats, false if one is NaN (skada/deep/utils.py:205) -/
def ltNan : Option K → Option K → Bool
  | some a, some b => decide (a < b)
  | _, _ => false

/-- The restarts (skada/deep/utils.py:201-208); `inits` are the random initial centres of each restart, `best` the best run so far. -/
def restarts (run : List (Vec K d) → Py (Run K d)) : List (List (Vec K d)) → Option (Run K d) → Py (Option (Run K d))
  | [], best => .ok best
  | c :: inits, best => do
    let r ← run c
    restarts run inits (match best with
      | none => some r
      | some b => if ltNan r.inertia b.inertia then some r else some b)

/-- `_init_centroids` (skada/deep/utils.py:163-169) for the permutation `perm`, on the normalised data. -/
def initCentroids (sqrt : K → K) (nClusters : Nat) (X : List (Vec K d)) (perm : List Nat) : List (Vec K d) :=
  (perm.take nClusters).map (fun i => normalize sqrt (X.getD i none))

/-- `fit` (skada/deep/utils.py:171-221): `perms` has `n_init` entries.  The result holds `cluster_centers_`, `inertia_` and, in `nIter`,
`n_iter_`, one more than `best_n_iter`; without restarts that is `None + 1`. -/
def fit (sqrt : K → K) (e rtol tol : K) (nClusters maxIter : Nat) (initial : Option (List (Vec K d))) (perms : List (List Nat))
    (data : List (Fin d → K)) : Py (Run K d) := do
  let X := data.map (fun x => normalize sqrt (some x))
  let run := fun cs => loop sqrt e rtol tol nClusters X maxIter 0 cs none
  let best ← match initial with
    | some cs => (run cs).map some
    | none => restarts run (perms.map (initCentroids sqrt nClusters X)) none
  match best with
  | none => .error .typeError
  | some r => .ok { r with nIter := r.nIter + 1 }

/-- `predict` (skada/deep/utils.py:266-290) of a fitted model -/
def predict (sqrt : K → K) (e : K) (r : Run K d) (data : List (Fin d → K)) : Py (List Nat) :=
  assign sqrt e r.centers (data.map some)

end Skada.SKM

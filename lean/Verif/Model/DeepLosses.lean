/-
Model of skada/deep/losses.py: the divergences added to the training loss of the deep methods.

A batch of features is a list of rows `Fin d → K` over an ordered field (exact arithmetic, no gradients); `sqrt`, `exp`, `log`, the power
function, the per-sample criterion, the optimal-transport solver, the singular values and the top-k choice are parameters.  A `none` result
is a NaN loss.  Devices and dtypes are not modelled; both batches have the same number of features (a mismatch is an error in torch).
-/
import Verif.Model.Np
import Mathlib.Algebra.Order.Field.Basic
import Mathlib.Algebra.BigOperators.Fin
import Mathlib.Data.Matrix.Mul
import Mathlib.Data.List.Sort
import Mathlib.Algebra.BigOperators.Group.List.Lemmas

namespace Skada.DL

open Np

variable {K : Type} [Field K] [LinearOrder K] {d : Nat}

/-- `torch.mean` of a non-empty list of numbers (the callers treat empty batches). -/
def mean (l : List K) : K := l.sum / (l.length : K)

/-- `torch.cdist(x, y)` at one pair of rows: the Euclidean distance. -/
def dist (sqrt : K → K) (x y : Fin d → K) : K := sqrt (∑ j, (x j - y j) ^ 2)

/-! ### Deep CORAL -/

/-- `features.mean(0)` (skada/deep/losses.py:45-46) -/
def colMean (X : List (Fin d → K)) : Fin d → K := fun j => mean (X.map (fun x => x j))

/-- `features - features.mean(0)` (skada/deep/losses.py:45-46) -/
def center (X : List (Fin d → K)) : List (Fin d → K) := X.map (fun x => x - colMean X)

/-- `torch.cov(features.T)` (skada/deep/losses.py:47-48): the rows are centred inside `torch.cov`, the sum of products is divided by
`n - 1`; with one row (or none) that is `0 / 0`, so every entry is NaN. -/
def torchCov (X : List (Fin d → K)) : Option (Fin d → Fin d → K) :=
  if X.length ≤ 1 then none
  else some (fun j k => ((center X).map (fun x => x j * x k)).sum / ((X.length - 1 : Nat) : K))

/-- `deepcoral_loss` (skada/deep/losses.py:20-52).  `1 / (4 * dim**2)` with `dim = 0` is a `ZeroDivisionError`. -/
def deepcoral (assumeCentered : Bool) (Xs Xt : List (Fin d → K)) : Py (Option K) :=
  let Xs' := if assumeCentered then Xs else center Xs
  let Xt' := if assumeCentered then Xt else center Xt
  if d = 0 then .error .zeroDivisionError
  else .ok (match torchCov Xs', torchCov Xt' with
    | some C, some D => some (1 / (4 * (d : K) ^ 2) * ∑ j, ∑ k, (C j k - D j k) ^ 2)
    | _, _ => none)

/-! ### Maximum mean discrepancy (DAN) -/

/-- `_gaussian_kernel` (skada/deep/losses.py:130-138) at one pair of rows, all bandwidths non-zero: `sum_s exp(-dist / s)`; the distance is
not squared. -/
def kernel (sqrt ex : K → K) (sigmas : List K) (x y : Fin d → K) : K :=
  (sigmas.map (fun s => ex (-(1 / s * dist sqrt x y)))).sum

/-- `torch.mean(kernel(x, y))` (skada/deep/losses.py:145-147) for non-empty batches. -/
def meanKernel (k : (Fin d → K) → (Fin d → K) → K) (X Y : List (Fin d → K)) : K :=
  (X.map (fun x => (Y.map (fun y => k x y)).sum)).sum / ((X.length : K) * (Y.length : K))

/-- `_maximum_mean_discrepancy` (skada/deep/losses.py:141-149); the mean over an empty batch is NaN. -/
def mmd (k : (Fin d → K) → (Fin d → K) → K) (X Y : List (Fin d → K)) : Option K :=
  if X = [] ∨ Y = [] then none else some (meanKernel k X X + meanKernel k Y Y - 2 * meanKernel k X Y)

/-- `torch.median` of a non-empty list: the lower of the two middle values. -/
def medianLow (l : List K) : K := (l.insertionSort (· ≤ ·)).getD ((l.length - 1) / 2) 0

/-- All pairwise distances of a batch, row by row (`torch.cdist(features_s, features_s)`, skada/deep/losses.py:180, 272) -/
def pairDists (sqrt : K → K) (X : List (Fin d → K)) : List K := X.flatMap (fun x => X.map (fun y => dist sqrt x y))

/-- The default bandwidths `2**-8 * 2**(i/2) * (median + eps)` (skada/deep/losses.py:178-187 and 270-279); `pow2 i` is `2 ** (i / 2)`. -/
def defaultSigmas (sqrt : K → K) (pow2 : Nat → K) (eps : K) (Xs : List (Fin d → K)) : List K :=
  (List.range 33).map (fun i : Nat => 1 / 2 ^ 8 * pow2 i * (medianLow (pairDists sqrt Xs) + eps))

/-- `dan_loss` (skada/deep/losses.py:152-195).  `sigmas = none` is the default.  A zero bandwidth makes the diagonal of the kernel
`exp(-(inf * 0))`, a NaN. -/
def dan (sqrt ex : K → K) (pow2 : Nat → K) (eps : K) (sigmas : Option (List K)) (Xs Xt : List (Fin d → K)) : Option K :=
  let sg := sigmas.getD (defaultSigmas sqrt pow2 eps Xs)
  if (0 : K) ∈ sg then none else mmd (kernel sqrt ex sg) Xs Xt

/-! ### Contrastive domain discrepancy (CAN) -/

/-- `torch.nn.functional.cosine_similarity` of two vectors: each norm is clamped from below by `e` (torch's default `1e-8`). -/
def cosine (sqrt : K → K) (e : K) {m : Nat} (x y : Fin m → K) : K :=
  (∑ j, x j * y j) / (max (sqrt (∑ j, x j ^ 2)) e * max (sqrt (∑ j, y j ^ 2)) e)

/-- `SphericalKMeans._compute_dissimilarity_matrix` (skada/deep/utils.py:292-312), one row: `0.5 * (1 - cosine)` to every centre. -/
def dissimRow (sqrt : K → K) (e : K) (centers : List (Fin d → K)) (x : Fin d → K) : List K :=
  centers.map (fun c => 1 / 2 * (1 - cosine sqrt e x c))

/-- `SphericalKMeans.predict` (skada/deep/utils.py:266-290): for each row the first centre of smallest dissimilarity. -/
def kmPredict (sqrt : K → K) (e : K) (centers X : List (Fin d → K)) : Py (List Nat) :=
  X.mapM (fun x => argmin (dissimRow sqrt e centers x))

/-- Row `x` of `F.cosine_similarity(features_t.unsqueeze(1), cluster_centers_.unsqueeze(0))` (skada/deep/losses.py:256-258).  The call
keeps the default `dim=1`, which is the axis of the centres: entry `j` is the cosine of `(x_j, …, x_j)` with the `j`-th coordinates of the
centres. -/
def similarityRow (sqrt : K → K) (e : K) (centers : List (Fin d → K)) (x : Fin d → K) : List K :=
  (List.finRange d).map (fun j => cosine sqrt e (fun _ : Fin centers.length => x j) (fun k => centers[k] j))

/-- The largest entry of a list (0 for the empty list, which the callers exclude). -/
def maxOf : List K → K
  | [] => 0
  | a :: l => l.foldl max a

/-- Target rows that are kept (skada/deep/losses.py:259): `0.5 * (1 - similarities.max(dim=1)) < distance_threshold`. -/
def keptRow (sqrt : K → K) (e thr : K) (centers : List (Fin d → K)) (x : Fin d → K) : Bool :=
  decide (1 / 2 * (1 - maxOf (similarityRow sqrt e centers x)) < thr)

/-- `torch.bincount(labels, minlength=m)` (skada/deep/losses.py:264) -/
def bincount (labels : List Nat) (m : Nat) : List Nat :=
  (List.range (max m ((labels.map (· + 1)).foldl max 0))).map (fun c => labels.count c)

/-- One sum `(kernel * mask).sum() / mask.sum()**2` with a one-dimensional mask (skada/deep/losses.py:290-298 and 301-309): the mask
selects columns only, every row of the batch is summed.  0 for an empty class. -/
def selfTerm (k : (Fin d → K) → (Fin d → K) → K) {β : Type} [DecidableEq β] (X : List (Fin d → K)) (y : List β) (c : β) : K :=
  if 0 < y.count c then
    (X.map (fun x => ((X.zip y).map (fun p => k x p.1 * (if p.2 = c then 1 else 0))).sum)).sum / (y.count c : K) ^ 2
  else 0

/-- `e3` (skada/deep/losses.py:312-322): the two-dimensional mask, but again divided by the square of its sum. -/
def crossTerm (k : (Fin d → K) → (Fin d → K) → K) (Xs : List (Fin d → K)) (ys : List Int) (Xt : List (Fin d → K)) (lt : List Nat)
    (c1 c2 : Nat) : K :=
  if 0 < ys.count (c1 : Int) * lt.count c2 then
    ((Xs.zip ys).map (fun p => ((Xt.zip lt).map (fun q =>
      k p.1 q.1 * ((if p.2 = (c1 : Int) then 1 else 0) * (if q.2 = c2 then 1 else 0)))).sum)).sum
      / ((ys.count (c1 : Int) * lt.count c2 : Nat) : K) ^ 2
  else 0

/-- `e1 + e2 - 2 * e3` for one pair of classes (skada/deep/losses.py:289-325) -/
def pairTerm (k : (Fin d → K) → (Fin d → K) → K) (Xs : List (Fin d → K)) (ys : List Int) (Xt : List (Fin d → K)) (lt : List Nat)
    (c1 c2 : Nat) : K :=
  selfTerm k Xs ys (c1 : Int) + selfTerm k Xt lt c2 - 2 * crossTerm k Xs ys Xt lt c1 c2

/-- The pairs `c1 ≤ c2 < n_classes` of the double loop, both classes valid (skada/deep/losses.py:286-288) -/
def classPairs (n : Nat) (valid : Nat → Bool) : List (Nat × Nat) :=
  ((List.range n).flatMap (fun c1 => ((List.range n).filter (fun c2 => decide (c1 ≤ c2))).map (fun c2 => (c1, c2)))).filter
    (fun p => valid p.1 && valid p.2)

/-- The double loop and the final combination (skada/deep/losses.py:284-331) on the kept target rows `Xt` with cluster labels `lt`;
`counts` are the class counts.  With one entry in `valid_classes` the inter-class sum is the Python integer 0 and `0 / 0` is a
`ZeroDivisionError`; with no entry the intra-class division fails first. -/
def cddCombine (k : (Fin d → K) → (Fin d → K) → K) (classThr nClasses : Nat) (counts : List Nat) (Xs : List (Fin d → K)) (ys : List Int)
    (Xt : List (Fin d → K)) (lt : List Nat) : Py K :=
  let valid := fun c : Nat => decide (classThr ≤ counts.getD c 0)
  let pairs := classPairs nClasses valid
  let intra := ((pairs.filter (fun p => decide (p.1 = p.2))).map (fun p => pairTerm k Xs ys Xt lt p.1 p.2)).sum
  let inter := ((pairs.filter (fun p => !decide (p.1 = p.2))).map (fun p => pairTerm k Xs ys Xt lt p.1 p.2)).sum
  let L := counts.length
  if L ^ 2 - L = 0 then .error .zeroDivisionError
  else .ok (intra / (L : K) - inter / ((L ^ 2 - L : Nat) : K))

/-- `cdd_loss` (skada/deep/losses.py:198-333).  `centers = none`: `target_kmeans` is not a `SphericalKMeans` (line 246-250).  The
bandwidths are given (`sigmas`) or the default of the source batch; all are taken non-zero.  `ys` has one label per row of `Xs`.  A batch without feature columns is an
`IndexError` of `max(dim=1)`. -/
def cdd (sqrt ex : K → K) (pow2 : Nat → K) (e eps thr : K) (classThr : Nat) (sigmas : Option (List K)) (centers : Option (List (Fin d → K)))
    (ys : List Int) (Xs Xt : List (Fin d → K)) : Py K := do
  let nClasses := (unique ys).length
  match centers with
  | none => .error .valueError
  | some cs =>
    let labels ← kmPredict sqrt e cs Xt
    if d = 0 then .error .indexError
    else
      let kept := (Xt.zip labels).filter (fun p => keptRow sqrt e thr cs p.1)
      let counts := bincount (kept.map Prod.snd) nClasses
      let kept2 := kept.filter (fun p => decide (classThr ≤ counts.getD p.2 0))
      let sg := sigmas.getD (defaultSigmas sqrt pow2 eps Xs)
      cddCombine (kernel sqrt ex sg) classThr nClasses counts Xs ys (kept2.map Prod.fst) (kept2.map Prod.snd)

/-! ### Minimum class confusion -/

variable {c : Nat}

/-- `probability_scaling` (skada/deep/losses.py:352-367), one row -/
def softmaxT (ex : K → K) (T : K) (y : Fin c → K) : Fin c → K := fun j => ex (y j / T) / ∑ k, ex (y k / T)

/-- `1 + exp(-H)` of one row, `H` its entropy with `eps` inside the logarithm (skada/deep/losses.py:398-399) -/
def certainty (ex lg : K → K) (eps : K) (p : Fin c → K) : K := 1 + ex (- (- ∑ j, p j * lg (p j + eps)))

/-- The weights `W` (skada/deep/losses.py:399) -/
def mccWeights (ex lg : K → K) (eps : K) (P : List (Fin c → K)) : List K :=
  P.map (fun p => certainty ex lg eps p / mean (P.map (certainty ex lg eps)))

/-- The class correlation matrix `C` (skada/deep/losses.py:400-401) -/
def correlation (P : List (Fin c → K)) (W : List K) : Fin c → Fin c → K :=
  fun j k => (List.zipWith (fun p w => p j * (w * p k)) P W).sum

/-- `mcc_loss` (skada/deep/losses.py:370-410).  An empty batch, no class or a zero temperature give NaN. -/
def mcc (ex lg : K → K) (T eps : K) (Y : List (Fin c → K)) : Option K :=
  if Y = [] ∨ c = 0 ∨ T = 0 then none
  else
    let P := Y.map (softmaxT ex T)
    let C := correlation P (mccWeights ex lg eps P)
    let Ct := fun j k => C j k / ∑ l, C j l
    some ((∑ j, ∑ k, |Ct j k - (if j = k then Ct j j else 0)|) / (c : K))

/-! ### Graph alignment (SPA) -/

variable {n : Nat}

/-- `_adj` (skada/deep/losses.py:413-429); `F.normalize` clamps the norm from below by `e` (torch's default `1e-12`). -/
def adj (sqrt ex : K → K) (e : K) (metric : String) (X : Fin n → Fin d → K) : Py (Fin n → Fin n → K) :=
  if metric = "cos" then
    .ok (fun i j => ∑ f, (X i f / max (sqrt (∑ l, X i l ^ 2)) e) * (X j f / max (sqrt (∑ l, X j l ^ 2)) e))
  else if metric = "gauss" then .ok (fun i j => ex (-(1 / 2) * dist sqrt (X i) (X j) ^ 2 / (3 / 2) ^ 2))
  else if metric = "euc" then .ok (fun i j => dist sqrt (X i) (X j))
  else .error .valueError

/-- `_laplacian` (skada/deep/losses.py:432-451).  A zero (`laplac1`) or non-positive (`laplac3`) degree `v + eps` gives infinite or NaN
entries, which `torch.linalg.svd` refuses with a `RuntimeError` (recorded here). -/
def laplacian (sqrt : K → K) (eps : K) (kind : String) (A : Fin n → Fin n → K) : Py (Fin n → Fin n → K) :=
  let v := fun i => ∑ j, A i j
  if kind = "laplac1" then
    if (List.finRange n).any (fun i => decide (v i + eps = 0)) then .error .runtimeError
    else .ok (fun i j => -(1 / (v i + eps)) * A i j)
  else if kind = "laplac2" then .ok (fun i j => (if i = j then v i else 0) - A i j)
  else if kind = "laplac3" then
    if (List.finRange n).any (fun i => decide (v i + eps ≤ 0)) then .error .runtimeError
    else .ok (fun i j => (if i = j then 1 else 0) - 1 / sqrt (v i + eps) * A i j * (1 / sqrt (v j + eps)))
  else .error .valueError

/-- `s_v - t_v` on vectors of singular values: equal lengths, or one of length 1 (broadcast), otherwise a `RuntimeError`. -/
def subBroadcast (a b : List K) : Py (List K) :=
  if a.length = b.length then .ok (List.zipWith (· - ·) a b)
  else match a, b with
    | [x], b => .ok (b.map (fun y => x - y))
    | a, [y] => .ok (a.map (fun x => x - y))
    | _, _ => .error .runtimeError

/-- `gda_loss` (skada/deep/losses.py:454-478).  `svals n A` are the singular values of the `n × n` matrix `A`. -/
def gda {m : Nat} (sqrt ex : K → K) (svals : ∀ n : Nat, (Fin n → Fin n → K) → List K) (e eps : K) (metric kind : String)
    (S : Fin n → Fin d → K) (T : Fin m → Fin d → K) : Py K := do
  let a ← adj sqrt ex e metric S
  let b ← adj sqrt ex e metric T
  let a ← laplacian sqrt eps kind a
  let b ← laplacian sqrt eps kind b
  let r ← subBroadcast (svals n a) (svals m b)
  .ok (sqrt ((r.map (fun x => x ^ 2)).sum))

/-! ### Neighbour-aware pseudo-labels (SPA) -/

/-- The squared distances of a row to the memory, the columns of the batch set to `+inf` (`none`) (skada/deep/losses.py:501-502). -/
def memDist (sqrt : K → K) (memory : List (Fin d → K)) (idx : List Nat) (x : Fin d → K) : List (Option K) :=
  memory.mapIdx (fun i m => if i ∈ idx then none else some (dist sqrt x m ^ 2))

/-- Row of `w.mm(memory_outputs)` (skada/deep/losses.py:507-511) when the neighbours are `nb`: weight `1/K` on each neighbour. -/
def neighbourMean (outputs : List (Fin c → K)) (nb : List Nat) (kk : Nat) : Fin c → K :=
  fun j => ((outputs.mapIdx (fun i o => (if i ∈ nb then 1 / (kk : K) else 0) * o j))).sum

/-- `nap_loss` (skada/deep/losses.py:481-515).  `topk dist k` are the indices returned by `torch.topk(-dis, k)` for one row, `ce` the
cross-entropy of one row of logits with a class.  A column index outside the memory is an `IndexError`, `K` larger than the memory a
`RuntimeError`; `memory_outputs` must have as many rows as `memory_features` (`RuntimeError` of `mm`). -/
def nap (sqrt : K → K) (ce : (Fin c → K) → Nat → K) (topk : List (Option K) → Nat → List Nat) (tiny : K)
    (Xt : List (Fin d → K)) (Yt : List (Fin c → K)) (memory : List (Fin d → K)) (outputs : List (Fin c → K)) (idx : List Nat) (kk : Nat) :
    Py K := do
  if idx.any (fun i => decide (memory.length ≤ i)) then .error .indexError
  else if memory.length < kk then .error .runtimeError
  else if outputs.length ≠ memory.length then .error .runtimeError
  else
    let rows := Xt.map (fun x => List.ofFn (neighbourMean outputs (topk (memDist sqrt memory idx x) kk) kk))
    let pred ← rows.mapM argmax
    let weight := List.zipWith (fun r p => r.getD p 0) rows pred
    let losses := List.zipWith ce Yt pred
    if Yt.length ≠ Xt.length then .error .valueError
    else .ok ((List.zipWith (· * ·) weight losses).sum / (weight.sum + tiny))

/-! ### Deep JDOT -/

/-- `loss_target = criterion(y_target_matrix, y_s.repeat(len(y_s), 1)).T` (skada/deep/losses.py:108-113) for the default cross-entropy,
`ce` the loss of one row of logits: the input has shape `(nt, C, nt)` with entry `[i, :, j] = y_pred_t[i]`, the target `(ns, ns)` with
entry `[i, j] = y_s[j]`; different batch sizes are a `ValueError`. -/
def jdotClassCost {Y : Type} (ce : (Fin c → K) → Y → K) (ys : List Y) (Yt : List (Fin c → K)) : Py (List (List K)) :=
  if Yt.length ≠ ys.length then .error .valueError
  else
    let out := Yt.map (fun p => ys.map (fun y => ce p y))
    .ok ((List.range ys.length).map (fun j => out.map (fun r => r.getD j 0)))

/-- The ground cost `M = reg_dist * dist + reg_cl * loss_target` (skada/deep/losses.py:106-114); shapes that do not match are a
`RuntimeError`. -/
def jdotCost {Y : Type} (sqrt : K → K) (ce : (Fin c → K) → Y → K) (regDist regCl : K) (ys : List Y) (Yt : List (Fin c → K))
    (Xs Xt : List (Fin d → K)) : Py (List (List K)) := do
  let l ← jdotClassCost ce ys Yt
  if Xs.length ≠ ys.length ∨ Xt.length ≠ Yt.length then .error .runtimeError
  else .ok (List.zipWith (fun x r => List.zipWith (fun y v => regDist * dist sqrt x y ^ 2 + regCl * v) Xt r) Xs l)

/-- The weights of one side (skada/deep/losses.py:117-124): given, or `1.0 / len(features)` for each row (`ZeroDivisionError` for an empty
batch). -/
def jdotWeights (w : Option (List K)) (X : List (Fin d → K)) : Py (List K) :=
  match w with
  | some w => .ok w
  | none => if X = [] then .error .zeroDivisionError else .ok (List.replicate X.length (1 / (X.length : K)))

/-- `deepjdot_loss` (skada/deep/losses.py:55-127); `emd2 a b M` is the exact transport cost. -/
def deepjdot {Y : Type} (sqrt : K → K) (ce : (Fin c → K) → Y → K) (emd2 : List K → List K → List (List K) → Py K) (regDist regCl : K)
    (ys : List Y) (Yt : List (Fin c → K)) (Xs Xt : List (Fin d → K)) (ws wt : Option (List K)) : Py K := do
  let M ← jdotCost sqrt ce regDist regCl ys Yt Xs Xt
  let a ← jdotWeights ws Xs
  let b ← jdotWeights wt Xt
  emd2 a b M

end Skada.DL

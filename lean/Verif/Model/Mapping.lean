/-
The mapping adapters (skada/_mapping.py): optimal-transport mapping, multi-domain linear Monge alignment, CORAL and
MMD location-scale mapping.

External optimisers (POT transports, Bures-Wasserstein barycenters, `eigh`, the torch optimiser) are parameters.
Real-valued rows are vectors over a field `K` (exact arithmetic).
-/
import Verif.Model.SplitMerge
import Verif.Model.Reweight
import Mathlib.Data.Matrix.Mul
import Mathlib.Data.Matrix.Diagonal

namespace Skada
namespace Map

open Matrix

/-- Rows of a two-dimensional float array with `d` columns.  Conversions of float arrays are exact; `const` (the filler
for a missing side) and `yType` are never used by the adapters, which always pass complete halves. -/
instance instCellVec {d : Nat} {K : Type} [Zero K] : Cell (Fin d → K) where
  zero _ := fun _ => 0
  cast _ r := r
  const _ _ := fun _ => 0
  yType _ := .ok .continuous

variable {α : Type}

/-- `X_source, X_target = source_target_split(X, sample_domain=…)` on arrays (same dtype and trailing shape). -/
def splitN (X : NArr α) (sd : List Int) : Py (NArr α × NArr α) := do
  let (s, t) ← RW.splitX X.rows sd
  return (⟨X.dtype, X.tail, s⟩, ⟨X.dtype, X.tail, t⟩)

/-- `X_adapt, _ = source_target_merge(X_source, X_target, sample_domain=…)`. -/
def mergeN [Cell α] (s t : NArr α) (sd : List Int) : Py (NArr α) :=
  match sourceTargetMerge [some s, some t] (some sd) with
  | .error e => .error e
  | .ok ([m], _) => .ok m
  | .ok _ => .error .valueError

/-- `source_target_split` of the optional labels. -/
def splitY {β : Type} (y : Option (List β)) (sd : List Int) : Py (Option (List β) × Option (List β)) :=
  match y with
  | none => .ok (none, none)
  | some y => match RW.splitX y sd with
    | .error e => .error e
    | .ok (a, b) => .ok (some a, some b)

/-! ### `BaseOTMappingAdapter` -/

/-- `BaseOTMappingAdapter.fit`, skada/_mapping.py:38-62.  `ot Xs ys Xt yt` is `ot_transport_.fit(Xs=…, ys=…, Xt=…,
yt=…)`; it returns the fitted `transform(Xs=…)`. -/
def otFit {β : Type} (ot : NArr α → Option (List β) → NArr α → Option (List β) → Py (NArr α → Py (NArr α)))
    (X : NArr α) (y : Option (List β)) (sd : SDArg) : Py (NArr α → Py (NArr α)) := do
  let (rows, sd) ← checkXDomain X.rows sd {}
  let (Xs, Xt) ← splitN { X with rows := rows } sd
  let (ys, yt) ← splitY y sd
  ot Xs ys Xt yt

/-- `BaseOTMappingAdapter.transform`, skada/_mapping.py:84-103. -/
def otTransform [Cell α] (T : NArr α → Py (NArr α)) (X : NArr α) (sd : SDArg) (allowSource : Bool) : Py (NArr α) := do
  let (rows, sd) ← checkXDomain X.rows sd { allowSource := allowSource }
  let (Xs, Xt) ← splitN { X with rows := rows } sd
  let Xs ← if 0 < Xs.rows.length then T Xs else pure Xs
  mergeN Xs Xt sd

/-- `BaseOTMappingAdapter.fit_transform`, skada/_mapping.py:64-82. -/
def otFitTransform [Cell α] {β : Type}
    (ot : NArr α → Option (List β) → NArr α → Option (List β) → Py (NArr α → Py (NArr α)))
    (X : NArr α) (y : Option (List β)) (sd : SDArg) : Py (NArr α) := do
  let T ← otFit ot X y sd
  otTransform T X sd true

/-! ### Multi-domain linear Monge alignment -/

section Monge
variable {K : Type} [Field K] {d : Nat}

/-- `np.average(X, axis=0, weights=w)` for non-negative weights of non-zero sum. -/
def wmean (w : List K) (X : List (Fin d → K)) : Fin d → K :=
  fun j => (List.zipWith (fun a x => a * x j) w X).sum / w.sum

/-- `_get_cov_mean`, skada/_mapping.py:522-549, with explicit weights (`w=None` means all ones, line 541-542). -/
def covMeanW (w : List K) (X : List (Fin d → K)) (bias : Bool) : Matrix (Fin d) (Fin d) K × (Fin d → K) :=
  let mean := if bias then wmean w X else fun _ => 0
  let X := X.map (fun x => x - mean)
  (Matrix.of fun i j => (List.zipWith (fun a x => a * x i * x j) w X).sum / w.sum, mean)

/-- `_get_cov_mean(X, w, bias)`, skada/_mapping.py:541-549. -/
def getCovMean (X : List (Fin d → K)) (w : Option (List K)) (bias : Bool) :
    Matrix (Fin d) (Fin d) K × (Fin d → K) :=
  covMeanW (w.getD (List.replicate X.length 1)) X bias

end Monge

/-- `MultiLinearMongeAlignmentAdapter.fit`, skada/_mapping.py:604-665.  `covMean` is `_get_cov_mean` of one domain's
rows, `bary` the barycenter of the list of source statistics (`np.stack` of an empty list is a `ValueError`), `mapping`
turns the statistics of one domain and the barycenter into a row map `x ↦ x·A + b`.  The result is the dictionary
`mappings_`; `update` puts the target domains after the source domains (the keys are disjoint). -/
def mongeFit {γ β : Type} (covMean : List α → γ) (bary : List γ → β) (mapping : γ → β → α → α) (X : List α) (sd : SDArg) :
    Py (List (Int × (α → α))) := do
  let (X, sd) ← checkXDomain X sd {}
  let (sources, targets) ← perDomainSplit [some X] sd
  let stats := fun (l : List (Int × List (Option (List α)))) =>
    l.map (fun kv => (kv.1, covMean (match kv.2 with | [some X] => X | _ => [])))
  if sources = [] then throw .valueError
  let b := bary ((stats sources).map Prod.snd)
  return (stats sources ++ stats targets).map (fun kv => (kv.1, mapping kv.2 b))

/-- Dictionary lookup. -/
def lookup {β : Type} (dict : List (Int × β)) (k : Int) : Py β :=
  match dict.find? (fun kv => decide (kv.1 = k)) with
  | some kv => .ok kv.2
  | none => .error .keyError

/-- The loop over domains, skada/_mapping.py:696-698: `X_adapt[sel] = X[sel].dot(A) + b`.  The assignment converts to the
dtype of `X_adapt`, which is the dtype of `X` (line 694). -/
def mongeLoop [Cell α] (maps : List (Int × (α → α))) (X : NArr α) :
    List (Int × List Nat) → List α → Py (List α)
  | [], out => .ok out
  | (dom, idx) :: rest, out => do
    let f ← lookup maps dom
    let xs ← Np.take X.rows idx
    let out ← Np.idxAssign out idx (xs.map (fun x => Cell.cast X.dtype (f x)))
    mongeLoop maps X rest out

/-- `MultiLinearMongeAlignmentAdapter.transform`, skada/_mapping.py:687-700.  `allow_source` is ignored there. -/
def mongeTransform [Cell α] (maps : List (Int × (α → α))) (X : NArr α) (sd : SDArg) : Py (NArr α) := do
  let (rows, sd) ← checkXDomain X.rows sd {}
  let idx ← extractDomainsIndices sd
  let out ← mongeLoop maps { X with rows := rows } idx rows
  return { X with rows := out }

/-! ### CORAL -/

section Coral
variable {K : Type} [Field K] {d : Nat}

/-- `np.mean(X, axis=0)`. -/
def colMean (X : List (Fin d → K)) : Fin d → K := fun j => (X.map (fun x => x j)).sum / (X.length : K)

/-- `sklearn.covariance.empirical_covariance`: the second moment about the mean (about 0 when `assume_centered`). -/
def empCov (assumeCentered : Bool) (X : List (Fin d → K)) : Matrix (Fin d) (Fin d) K :=
  let m : Fin d → K := if assumeCentered then fun _ => 0 else colMean X
  Matrix.of fun i j => (X.map (fun x => (x i - m i) * (x j - m j))).sum / (X.length : K)

/-- `_estimate_covariance`, skada/_utils.py:42-56, for `shrinkage=None` and a numeric shrinkage
(`shrunk_covariance`: `(1-s)·C + s·trace(C)/d·I`). The `"auto"` choice (Ledoit-Wolf) is `auto`. -/
def estimateCov (auto : List (Fin d → K) → Matrix (Fin d) (Fin d) K) (shrinkage : Option (Option K))
    (assumeCentered : Bool) (X : List (Fin d → K)) : Matrix (Fin d) (Fin d) K :=
  match shrinkage with
  | some none => auto X
  | none => empCov assumeCentered X
  | some (some s) =>
    let C := empCov assumeCentered X
    Matrix.of fun i j => (1 - s) * C i j + (if i = j then s * ((∑ k, C k k) / (d : K)) else 0)

/-- `_sqrtm`, skada/_mapping.py:755-778: `(eigvecs * np.sqrt(eigvals)) @ eigvecs.T`; `eigh` returns eigenvalues and the
matrix of eigenvectors (columns). -/
def sqrtm (sqrt : K → K) (eigh : Matrix (Fin d) (Fin d) K → (Fin d → K) × Matrix (Fin d) (Fin d) K)
    (C : Matrix (Fin d) (Fin d) K) : Matrix (Fin d) (Fin d) K :=
  let (l, V) := eigh C
  (Matrix.of fun i j => V i j * sqrt (l j)) * V.transpose

/-- `_invsqrtm`, skada/_mapping.py:781-804: `(eigvecs * 1.0 / np.sqrt(eigvals)) @ eigvecs.T`. -/
def invsqrtm (sqrt : K → K) (eigh : Matrix (Fin d) (Fin d) K → (Fin d → K) × Matrix (Fin d) (Fin d) K)
    (C : Matrix (Fin d) (Fin d) K) : Matrix (Fin d) (Fin d) K :=
  let (l, V) := eigh C
  (Matrix.of fun i j => V i j * 1 / sqrt (l j)) * V.transpose

/-- Fitted attributes of `CORALAdapter`. -/
structure Coral (K : Type) (d : Nat) where
  meanSource : Fin d → K
  meanTarget : Fin d → K
  covSourceInvSqrt : Matrix (Fin d) (Fin d) K
  covTargetSqrt : Matrix (Fin d) (Fin d) K

/-- `CORALAdapter.fit`, skada/_mapping.py:845-877. An empty side is rejected by the covariance estimator. -/
def coralFit (cov : List (Fin d → K) → Matrix (Fin d) (Fin d) K)
    (sqrtM invsqrtM : Matrix (Fin d) (Fin d) K → Matrix (Fin d) (Fin d) K)
    (X : NArr (Fin d → K)) (sd : SDArg) : Py (Coral K d) := do
  let (rows, sd) ← checkXDomain X.rows sd {}
  let (Xs, Xt) ← splitN { X with rows := rows } sd
  if Xs.rows.length = 0 ∨ Xt.rows.length = 0 then throw .valueError
  return { meanSource := colMean Xs.rows, meanTarget := colMean Xt.rows
           covSourceInvSqrt := invsqrtM (cov Xs.rows), covTargetSqrt := sqrtM (cov Xt.rows) }

/-- `CORALAdapter.transform`, skada/_mapping.py:899-930. Arithmetic on an array yields a float array. -/
def coralTransform (F : Coral K d) (assumeCentered : Bool) (X : NArr (Fin d → K)) (sd : SDArg) (allowSource : Bool) :
    Py (NArr (Fin d → K)) := do
  let (rows, sd) ← checkXDomain X.rows sd { allowSource := allowSource }
  let (Xs, Xt) ← splitN { X with rows := rows } sd
  let Xs := if 0 < Xs.rows.length then
      let c := if assumeCentered then Xs.rows else Xs.rows.map (fun x => x - F.meanSource)
      let c := c.map (fun x => x ᵥ* F.covSourceInvSqrt)
      let c := c.map (fun x => x ᵥ* F.covTargetSqrt)
      { Xs with dtype := .float, rows := c }
    else Xs
  let Xt := if 0 < Xt.rows.length ∧ assumeCentered = false then
      { Xt with dtype := .float, rows := Xt.rows.map (fun x => x - F.meanTarget) }
    else Xt
  mergeN Xs Xt sd

/-- `CORALAdapter.fit_transform`, skada/_mapping.py:879-897. -/
def coralFitTransform (cov : List (Fin d → K) → Matrix (Fin d) (Fin d) K)
    (sqrtM invsqrtM : Matrix (Fin d) (Fin d) K → Matrix (Fin d) (Fin d) K) (assumeCentered : Bool)
    (X : NArr (Fin d → K)) (sd : SDArg) : Py (NArr (Fin d → K)) := do
  let F ← coralFit cov sqrtM invsqrtM X sd
  coralTransform F assumeCentered X sd true

end Coral

/-! ### MMD location-scale mapping -/

section MMDLS
variable {K : Type} [Field K] [LinearOrder K] {d : Nat} {β : Type}

/-- `R @ G` for one row of the indicator matrix `R`: entry `j`, skada/_mapping.py:1057-1062, 1094-1095, 1170-1173. -/
def classParam [DecidableEq β] (classes : List β) (G : List (Fin d → K)) (c : β) : Fin d → K :=
  fun j => RW.listDot (RW.indicator classes c) (G.map (fun g => g j))

/-- Fitted attributes for discrete labels: training source rows, per-row scales and offsets, classes and the
per-class parameters `G_`, `H_`. -/
structure MmdLs (K : Type) (d : Nat) (β : Type) where
  Xs : List (Fin d → K)
  W : List (Fin d → K)
  B : List (Fin d → K)
  classes : List β
  G : List (Fin d → K)
  H : List (Fin d → K)

/-- `MMDLSConSMappingAdapter.fit` for discrete labels, skada/_mapping.py:1030-1129.  `opt Xs Xt ys` are the optimised
per-class parameters `(G, H)`. -/
def mmdlsFit [LinearOrder β] (opt : List (Fin d → K) → List (Fin d → K) → List β → List (Fin d → K) × List (Fin d → K))
    (X : List (Fin d → K)) (y : List β) (sd : SDArg) : Py (MmdLs K d β) := do
  let (X, sd) ← checkXDomain X sd {}
  let (Xs, Xt) ← RW.splitX X sd
  let (ys, _) ← RW.splitX y sd
  let (G, H) := opt Xs Xt ys
  let classes := Np.unique ys
  return { Xs := Xs, W := ys.map (classParam classes G), B := ys.map (classParam classes H)
           classes := classes, G := G, H := H }

/-- `W * X_source + B`, row by row. -/
def scaleShift (W B X : List (Fin d → K)) : List (Fin d → K) :=
  List.zipWith (fun wb x => fun j => wb.1 j * x j + wb.2 j) (W.zip B) X

/-- `np.argmin(pairwise_distances(X_new, X_source_), axis=1)` for one row. -/
def nearest (dist : (Fin d → K) → (Fin d → K) → K) (Xs : List (Fin d → K)) (x : Fin d → K) : Py Nat :=
  Np.argmin (Xs.map (dist x))

/-- `MMDLSConSMappingAdapter.transform`, skada/_mapping.py:1151-1183, for a fit with discrete labels (`self.discrete_`
true); the second validation on lines 1166-1167 repeats the first. -/
def mmdlsTransform [DecidableEq β] (dist : (Fin d → K) → (Fin d → K) → K) (F : MmdLs K d β) (X : NArr (Fin d → K))
    (y : Option (List β)) (sd : SDArg) (allowSource : Bool) : Py (NArr (Fin d → K)) := do
  let (rows, sd) ← checkXDomain X.rows sd { allowSource := allowSource }
  let m ← extractSourceIndices sd
  let Xs ← Np.boolIndex rows m
  let Xt ← Np.boolIndex rows (m.map (!·))
  if Xs.length = 0 then mergeN { X with rows := Xs } { X with rows := Xt } sd
  else do
    let (W, B) ←
      if F.Xs = Xs then pure (F.W, F.B)
      else match y with
        | some y => do
          let ys ← Np.boolIndex y m
          pure (ys.map (classParam F.classes F.G), ys.map (classParam F.classes F.H))
        | none => do
          let idx ← Xs.mapM (nearest dist F.Xs)
          let W ← Np.take F.W idx
          let B ← Np.take F.B idx
          pure (W, B)
    mergeN ⟨.float, X.tail, scaleShift W B Xs⟩ { X with rows := Xt } sd

end MMDLS

end Map
end Skada

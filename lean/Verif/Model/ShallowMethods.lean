/-
The adapters of the shallow methods as pipeline steps: what the factories `CORAL`, `MultiLinearMongeAlignment`,
`MMDLSConSMapping` (skada/_mapping.py), `SubspaceAlignment`, `TransferComponentAnalysis`, `TransferJointMatching`,
`TransferSubspaceLearning` (skada/_subspace.py) and `OTLabelProp`, `JCPOTLabelProp` (skada/_ot.py) put before the base estimator.

Rows are lists of numbers of an ordered field `K`; the adapters see the first `d` entries as a vector.
-/
import Verif.Model.PipelineRun
import Verif.Model.Subspace
import Verif.Model.OT

namespace Skada
namespace Shallow

variable {K σ : Type} [Field K] [LinearOrder K]

/-- A row of `d` numbers. -/
def vecRow (d : Nat) (r : List K) : Fin d → K := fun j => r.getD j 0

/-- Vectors as rows of an array. -/
def toRows {p : Nat} (r : Py (List (Fin p → K))) : Py (List (List K)) :=
  match r with
  | .error e => .error e
  | .ok out => .ok (out.map List.ofFn)

/-- Rows as vectors. -/
def vecs (d : Nat) (X : List (List K)) : List (Fin d → K) := X.map (vecRow d)

/-- The step of `CORAL(base_estimator, reg, assume_centered)`, skada/_mapping.py:933-973. -/
def coralEst {d : Nat} (wrap : Map.Coral K d → σ) (unwrap : σ → Map.Coral K d)
    (cov : List (Fin d → K) → Matrix (Fin d) (Fin d) K)
    (sqrtM invsqrtM : Matrix (Fin d) (Fin d) K → Matrix (Fin d) (Fin d) K) (assumeCentered : Bool) : Est (List K) σ :=
  mapEst wrap unwrap (fun X _ sd => Map.coralFit cov sqrtM invsqrtM ⟨.float, [d], vecs d X⟩ sd)
    (fun F X sd allowSource => toRows (rowsOf (Map.coralTransform F assumeCentered ⟨.float, [d], vecs d X⟩ sd allowSource)))

/-- `SubspaceAlignmentAdapter.fit`, skada/_subspace.py:70-108: the two fitted PCA objects; `pca p X` is
`PCA(p).fit(X)`. -/
def saFit {d : Nat} (pca : ∀ p, List (Fin d → K) → Subsp.Pca K d p) (n : Option Nat) (X : List (Fin d → K)) (sd : SDArg) :
    Py (Σ p, Subsp.Pca K d p × Subsp.Pca K d p) :=
  match Subsp.saFitArgs n X sd with
  | .error e => .error e
  | .ok (Xs, Xt, p) => .ok ⟨p, pca p Xs, pca p Xt⟩

/-- The step of `SubspaceAlignment`, skada/_subspace.py:169-211. -/
def saEst {d : Nat} (wrap : (Σ p, Subsp.Pca K d p × Subsp.Pca K d p) → σ)
    (unwrap : σ → Σ p, Subsp.Pca K d p × Subsp.Pca K d p)
    (pca : ∀ p, List (Fin d → K) → Subsp.Pca K d p) (n : Option Nat) : Est (List K) σ :=
  mapEst wrap unwrap (fun X _ sd => saFit pca n (vecs d X) sd)
    (fun F X sd allowSource => toRows (rowsOf (Subsp.saTransform F.2.1 F.2.2 ⟨.float, [d], vecs d X⟩ sd allowSource)))

/-- `TransferSubspaceLearningAdapter.fit`, skada/_subspace.py:837-911: `opt Xs ys Xt` is the optimised and orthogonalised
matrix (lines 878-906). -/
def tslFit {d p : Nat} (opt : List (Fin d → K) → List Num → List (Fin d → K) → Matrix (Fin d) (Fin p) K)
    (X : List (Fin d → K)) (y : Option (List Num)) (sd : SDArg) : Py (Matrix (Fin d) (Fin p) K) := do
  let (X, sd) ← checkXDomain X sd {}
  let (Xs, Xt) ← RW.splitX X sd
  match y with
  | none => throw .typeError
  | some y => do
    let (ys, _) ← RW.splitX y sd
    return opt Xs ys Xt

/-- The step of `TransferSubspaceLearning`, skada/_subspace.py:956-1026. -/
def tslEst {d p : Nat} (wrap : Matrix (Fin d) (Fin p) K → σ) (unwrap : σ → Matrix (Fin d) (Fin p) K)
    (opt : List (Fin d → K) → List Num → List (Fin d → K) → Matrix (Fin d) (Fin p) K) : Est (List K) σ :=
  mapEst wrap unwrap (fun X y sd => tslFit opt (vecs d X) y sd)
    (fun W X sd allowSource => toRows (rowsOf (Subsp.tslTransform W ⟨.float, [d], vecs d X⟩ sd allowSource)))

/-- The step of `TransferComponentAnalysis` (skada/_subspace.py:365-414) and `TransferJointMatching`
(skada/_subspace.py:643-696): kernel `k`, `eig` the components computed from the kernel matrix. -/
def kernelEst {p : Nat} (wrap : Subsp.Embedding (List K) K p → σ) (unwrap : σ → Subsp.Embedding (List K) K p)
    (k : List K → List K → K) (eig : List (List K) → Nat → Nat → Py (List (Fin p → K))) : Est (List K) σ :=
  mapEst wrap unwrap (fun X _ sd => Subsp.kernelFit k eig X sd)
    (fun F X sd allowSource => toRows (Subsp.kernelTransform k F X sd allowSource))

/-- The step of `MultiLinearMongeAlignment`, skada/_mapping.py:703-752, on float data: the parameters as in
`Map.mongeFit`. -/
def mongeEst {γ β : Type} [Cell (List K)] (wrap : List (Int × (List K → List K)) → σ)
    (unwrap : σ → List (Int × (List K → List K))) (covMean : List (List K) → γ) (bary : List γ → β)
    (mapping : γ → β → List K → List K) (d : Nat) : Est (List K) σ :=
  mapEst wrap unwrap (fun X _ sd => Map.mongeFit covMean bary mapping X sd)
    (fun maps X sd _ => rowsOf (Map.mongeTransform maps ⟨.float, [d], X⟩ sd))

/-- A discrete label as a number (labels that are not finite do not occur where this is used). -/
def labelNum : Num → ℚ
  | .fin q => q
  | _ => 0

/-- The step of `MMDLSConSMapping`, skada/_mapping.py:1186-1226, for discrete labels.  `fit_transform` calls `transform`
without the labels (line 1149). -/
def mmdlsEst {d : Nat} (wrap : Map.MmdLs K d ℚ → σ) (unwrap : σ → Map.MmdLs K d ℚ)
    (dist : (Fin d → K) → (Fin d → K) → K)
    (opt : List (Fin d → K) → List (Fin d → K) → List ℚ → List (Fin d → K) × List (Fin d → K)) : Est (List K) σ :=
  mapEst wrap unwrap
    (fun X y sd => match y with
      | none => .error .typeError
      | some y => Map.mmdlsFit opt (vecs d X) (y.map labelNum) sd)
    (fun F X sd allowSource => toRows (rowsOf (Map.mmdlsTransform dist F ⟨.float, [d], vecs d X⟩ none sd allowSource)))

/-- A discrete label as an integer. -/
def labelInt : Num → Int
  | .fin q => q.num
  | _ => 0

/-- An adapter that proposes labels, as a pipeline step: `OTLabelPropAdapter` (skada/_ot.py:767-857) and
`JCPOTLabelPropAdapter` (skada/_ot.py:905-984), whose `transform` is that of `BaseAdapter`.  `prop X y sd` is the result of
`fit_transform`.  Simplification: no `sample_weight`. -/
def labelEst {α : Type} (state : σ) (prop : List α → List Int → SDArg → Py (List α × List Int)) : Est α σ where
  hasTransform := true
  hasFitTransform := true
  fitReq := [("sample_domain", .yes)]
  fitTransformReq := adapterReq
  transformReq := adapterReq
  fit _ := .error .notImplementedError
  fitTransform c := match sdArg (c.params.get "sample_domain") with
    | .error e => .error e
    | .ok sd => match c.y with
      | none => .error .valueError
      | some y => match prop c.X (y.map labelInt) sd with
        | .error e => .error e
        | .ok (X, l) => .ok (state, .triple X (some (l.map (fun v : Int => Num.fin (v : ℚ)))) [])
  transform _ X p := baseTransform X p

end Shallow
end Skada

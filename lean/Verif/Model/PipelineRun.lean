/-
Evaluation of a fitted DA pipeline (`predict`, `predict_proba`, `score`, …) and the adapters of skada/_reweight.py and
skada/_mapping.py as pipeline steps.
-/
import Verif.Model.Selectors
import Verif.Model.Reweight
import Verif.Model.Mapping

namespace Skada

variable {α β σ : Type}

/-- `Shared._route_to_estimator` (skada/base.py:442-451) for any method: `query fitted call` is the method of the fitted
base estimator, `req` its routing request. -/
def Sel.sharedRoute (s : Sel α σ) (req : Request) (query : σ → Call α → Py β) (fitted : σ) (X : List α)
    (y : Option (List Num)) (params : Dict) : Py β :=
  match prepareRouting s.final s.est.hasTransform req params with
  | .error e => .error e
  | .ok routed => match Sel.removeMasked s.est.hasTransform X y routed with
    | .error e => .error e
    | .ok (X, y, routed) => query fitted ⟨X, y, routed⟩

/-- `sklearn.pipeline.Pipeline.predict(X, **params)` and its siblings (trusted external behaviour), for a pipeline of
`Shared` selectors: `transform` for every step but the last, then the method of the last; every step receives the
parameters that its `keep` lets through.  Simplification: a `transform` that does not return an array is an error. -/
def pipelineRoute : List ((String → Bool) × Sel α σ × σ) → (String → Bool) × Sel α σ × σ → Request →
    (σ → Call α → Py β) → List α → Option (List Num) → Dict → Py β
  | [], (keep, s, f), req, query, X, y, params =>
    s.sharedRoute req query f X y (params.filter (fun kv => keep kv.1))
  | (keep, s, f) :: rest, last, req, query, X, y, params =>
    match s.sharedTransform f X (params.filter (fun kv => keep kv.1)) with
    | .error e => .error e
    | .ok (.arr X') => pipelineRoute rest last req query X' y params
    | .ok _ => .error .typeError

/-- Python truth of a keyword argument such as `allow_source` (arrays do not occur here). -/
def truthy : Param Num → Bool
  | .none => false
  | .scalar v => decide (v ≠ .fin 0)
  | .arr l => !l.isEmpty

/-- `BaseAdapter.transform` (skada/base.py:85-105): validation, then the rows as they are. -/
def baseTransform (X : List α) (params : Dict) : Py (StepOut α) :=
  match sdArg (params.get "sample_domain") with
  | .error e => .error e
  | .ok sd => match checkXDomain X sd { allowSource := truthy (params.get "allow_source") } with
    | .error e => .error e
    | .ok (X, _) => .ok (.arr X)

/-- A weight as a number of a numpy array. -/
def weightNum : Option ℚ → Num
  | some q => .fin q
  | none => .nan

/-- The requests of an adapter (skada/base.py:74-75): `fit_transform` combines those of `fit` and `transform`. -/
def adapterReq : Request := [("allow_source", .yes), ("sample_domain", .yes)]

/-- `BaseReweightAdapter` (skada/_reweight.py:38-76) as a pipeline step, for any `fit` and `compute_weights`.  `wrap`
embeds its fitted state in the type of fitted states of the pipeline. -/
def reweightEst {φ : Type} (wrap : φ → σ) (fit : List α → Option (List Num) → SDArg → Py φ)
    (weights : φ → List α → Option (List Num) → SDArg → Py (List (Option ℚ))) : Est α σ where
  hasTransform := true
  hasFitTransform := true
  fitReq := [("sample_domain", .yes)]
  fitTransformReq := adapterReq
  transformReq := adapterReq
  fit c := match sdArg (c.params.get "sample_domain") with
    | .error e => .error e
    | .ok sd => match fit c.X c.y sd with
      | .error e => .error e
      | .ok f => .ok (wrap f)
  fitTransform c := match sdArg (c.params.get "sample_domain") with
    | .error e => .error e
    | .ok sd => match fit c.X c.y sd with
      | .error e => .error e
      | .ok f => match weights f c.X c.y sd with
        | .error e => .error e
        | .ok w => .ok (wrap f, .pair c.X [("sample_weight", .arr (w.map weightNum))])
  transform _ X p := baseTransform X p

/-- An adapter whose `fit_transform` is `fit` and then `transform` with `allow_source=True` on the same arguments, as a
pipeline step: the mapping adapters (skada/_mapping.py:84-103, 667-685, 880-897, 1131-1149) and the subspace adapters
(skada/_subspace.py:147-166, 344-362, 511-529, 913-931).  `wrap` and `unwrap` embed its fitted state in the type of fitted
states of the pipeline. -/
def mapEst {φ : Type} (wrap : φ → σ) (unwrap : σ → φ) (fit : List α → Option (List Num) → SDArg → Py φ)
    (tr : φ → List α → SDArg → Bool → Py (List α)) : Est α σ where
  hasTransform := true
  hasFitTransform := true
  fitReq := [("sample_domain", .yes)]
  fitTransformReq := adapterReq
  transformReq := adapterReq
  fit c := match sdArg (c.params.get "sample_domain") with
    | .error e => .error e
    | .ok sd => match fit c.X c.y sd with
      | .error e => .error e
      | .ok f => .ok (wrap f)
  fitTransform c := match sdArg (c.params.get "sample_domain") with
    | .error e => .error e
    | .ok sd => match fit c.X c.y sd with
      | .error e => .error e
      | .ok f => match tr f c.X sd true with
        | .error e => .error e
        | .ok out => .ok (wrap f, .arr out)
  transform f X p := match sdArg (p.get "sample_domain") with
    | .error e => .error e
    | .ok sd => match tr (unwrap f) X sd (truthy (p.get "allow_source")) with
      | .error e => .error e
      | .ok out => .ok (.arr out)

/-- The rows of a result. -/
def rowsOf (r : Py (NArr α)) : Py (List α) :=
  match r with
  | .error e => .error e
  | .ok a => .ok a.rows

/-- `BaseOTMappingAdapter` (skada/_mapping.py:38-103) as a pipeline step on float arrays with rows of shape `tail`. -/
def otEst (wrap : (NArr (List Num) → Py (NArr (List Num))) → σ)
    (unwrap : σ → NArr (List Num) → Py (NArr (List Num)))
    (ot : NArr (List Num) → Option (List Num) → NArr (List Num) → Option (List Num) →
    Py (NArr (List Num) → Py (NArr (List Num)))) (tail : List Nat) : Est (List Num) σ :=
  mapEst wrap unwrap (fun X y sd => Map.otFit ot ⟨.float, tail, X⟩ y sd)
    (fun T X sd allowSource => rowsOf (Map.otTransform T ⟨.float, tail, X⟩ sd allowSource))

end Skada

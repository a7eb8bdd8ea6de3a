/-
A DA pipeline as an object: what its selectors store over a history of `fit`, `set_params` and evaluation calls (skada/base.py).

`sklearn.pipeline.Pipeline` (without `memory`) fits its steps in place, one after the other; this part is trusted external behaviour.
Exceptions that the metadata routing of the pipeline raises before the first step is reached are not modelled here (see C130).
-/
import Verif.Model.PipelineSteps

namespace Skada.Life

variable {α β σ : Type}

/-- A step of a pipeline object: the parameters that reach it, the selector as it is configured now, and what the last fit stored in it: the fitted
estimators (`base_estimator_` or `estimators_`) with the configuration they were cloned from (skada/base.py:435-438, 479-487, 719-724). -/
structure PStep (α σ : Type) where
  keep : String → Bool
  step : Step α σ
  stored : Option (Step α σ × Fitted σ)

/-- The fitted estimators that `Shared._fit` stores in a call of `fit` or `fit_transform` (skada/base.py:408-439): the estimator is stored once its own
method has returned, also if something fails later (`merge_in`, line 423, or `transform`, line 422). -/
def sharedStores (s : Sel α σ) (c : Cont α) (y : Option (List Num)) (params : Dict) : Option (Fitted σ) :=
  match (s.sharedFit (if s.est.hasFitTransform then .fitTransform else .fit) c y params).2 with
  | .error _ => none
  | .ok r => some (.one r.1.1)

/-- The fitted estimators stored by `selector.fit_transform(X_container, y, **params)`: `Shared` (skada/base.py:413-423), `PerDomain` (lines 490-505), `SelectSource` and
`SelectTarget` (lines 574-577) and `SelectSourceTarget` (lines 727-738); `none` if nothing is stored. -/
def storesOnFitTransform (st : Step α σ) (c : Cont α) (y : Option (List Num)) (params : Dict) : Option (Fitted σ) :=
  match st with
  | .shared s => sharedStores s c y params
  | .perDomain s =>
    if s.est.hasFitTransform then
      match (s.perDomainFit .fitTransform c y params).2 with
      | .error _ => none
      | .ok r => some (.perDomain (r.1.map (fun o => (o.1, o.2.2.1))))
    else none
  | .select side s => match preFilter side c y params with
    | .error _ => none
    | .ok (c', y', params') => sharedStores s c' y' params'
  | .sourceTarget s => match (s.fit (if s.source.hasFitTransform then .fitTransform else .fit) c y params).2 with
    | .error _ => none
    | .ok r => some (.sourceTarget r.src r.tgt)

/-- Store new fitted estimators, or keep the old ones. -/
def PStep.store (p : PStep α σ) (f : Option (Fitted σ)) : PStep α σ :=
  match f with
  | none => p
  | some f => { p with stored := some (p.step, f) }

/-- The loop over the steps in `Pipeline.fit`: the object afterwards and how the call ended. -/
def fitLoop [Cell α] : List (PStep α σ) → Cont α → Option (List Num) → Dict → List (PStep α σ) × Py Unit
  | [], _, _, _ => ([], .ok ())
  | [p], c, y, params => match (p.step.fit c y (params.filter (fun kv => p.keep kv.1))).2 with
    | .error e => ([p], .error e)
    | .ok r => ([p.store (some r.1)], .ok ())
  | p :: rest, c, y, params =>
    let q := params.filter (fun kv => p.keep kv.1)
    let p' := p.store (storesOnFitTransform p.step c y q)
    match (p.step.fitTransform c y q).2 with
    | .error e => (p' :: rest, .error e)
    | .ok (_, c', y') => (p' :: (fitLoop rest c' y' params).1, (fitLoop rest c' y' params).2)

/-- `pipeline.fit(X, y, **params)`. -/
def fit [Cell α] (ps : List (PStep α σ)) (X : List α) (y : Option (List Num)) (params : Dict) : List (PStep α σ) × Py Unit :=
  if ps.dropLast.any (fun p => !p.step.isTransformer) then (ps, .error .typeError)
  else fitLoop ps (Cont.fromInput (.array X)) y params

/-- `pipeline.predict(X, **params)` and its siblings: `transform` for every step but the last, `ask` (the method, by what the last selector has stored) for the
last.  A selector without fitted estimators raises `NotFittedError`, which is a `ValueError` (`check_is_fitted`, skada/base.py:443, 508, 741). -/
def eval [Cell α] (ask : Step α σ → Fitted σ → List α → Option (List Num) → Dict → Py β) :
    List (PStep α σ) → List α → Option (List Num) → Dict → Py β
  | [], _, _, _ => .error .valueError
  | [p], X, y, params => match p.stored with
    | none => .error .valueError
    | some (st, f) => ask st f X y (params.filter (fun kv => p.keep kv.1))
  | p :: rest, X, y, params => match p.stored with
    | none => .error .valueError
    | some (st, f) => match st.transform f X (params.filter (fun kv => p.keep kv.1)) with
      | .error e => .error e
      | .ok X' => eval ask rest X' y params

/-- What a user does with a pipeline object.  `setParams k st`: after `set_params` the selector of step `k` is configured like `st`
(skada/base.py:260-280, 663-681); the parameters of the base estimator change, the fitted clone does not.  Simplified: the
methods and metadata requests of the base estimator are taken to be the same before and after, as they are for hyper-parameters.  `evaluate` stands for any call of `predict`, `transform`,
`score`, … -/
inductive Op (α σ : Type)
  | fit (X : List α) (y : Option (List Num)) (params : Dict)
  | setParams (k : Nat) (st : Step α σ)
  | evaluate

/-- The object after an operation. -/
def step [Cell α] (ps : List (PStep α σ)) : Op α σ → List (PStep α σ)
  | .fit X y params => (fit ps X y params).1
  | .setParams k st => ps.modify k (fun p => { p with step := st })
  | .evaluate => ps

/-- The object after a history of operations. -/
def run [Cell α] (ps : List (PStep α σ)) (ops : List (Op α σ)) : List (PStep α σ) := ops.foldl step ps

/-- `get_estimator` (skada/base.py:403-406, 456-459, 683-687): no argument for `Shared`, `SelectSource` and `SelectTarget`, a domain label for `PerDomain` (`KeyError` if there
is no estimator for it), a side for `SelectSourceTarget`; an unfitted selector raises `NotFittedError`. -/
def getEstimator (p : PStep α σ) (key : Option EKey) : Py σ :=
  match p.step, key with
  | .shared _, some _ | .select _ _, some _ | .perDomain _, none | .sourceTarget _, none => .error .typeError
  | .sourceTarget _, some (.label _) => .error .assertionError
  | _, key => match p.stored with
    | none => .error .valueError
    | some (_, .one f) => .ok f
    | some (_, .perDomain l) => match key with
      | some (.label d) => match l.lookup d with
        | some f => .ok f
        | none => .error .keyError
      | _ => .error .keyError
    | some (_, .sourceTarget f g) => match key with
      | some (.side .source) => .ok f
      | _ => .ok g

end Skada.Life

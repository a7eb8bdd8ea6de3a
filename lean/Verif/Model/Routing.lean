/-
Metadata routing of a DA pipeline: the routers that the selectors of skada/base.py declare, and what
`sklearn.pipeline.Pipeline` makes of them.

The routers are skada's code.  The interpretation of routers (`MetadataRouter`, `MethodMetadataRequest`,
`process_routing`) and the router of a `Pipeline` are scikit-learn's, modelled from its documented behaviour and part of
the trusted base.  Simplification: base estimators are plain consumers, they do not route metadata themselves.
-/
import Verif.Model.PipelineSteps

namespace Skada.Route

variable {α β σ : Type}

/-- The methods that take part in routing; `fit_transform` is composed of `fit` and `transform`. -/
inductive Meth
  | fit | partialFit | transform | predict | predictProba | predictLogProba | decisionFunction | score | fitTransform
  deriving DecidableEq, Repr

/-- The requests of an estimator for its simple methods (the value at `fitTransform` is not used). -/
abbrev Reqs := Meth → Request

/-- Two requests in one: `requests.update(…)` after the test for conflicting values (scikit-learn). -/
def compose (a b : Request) : Py Request :=
  if b.any (fun r => a.any (fun q => decide (q.1 = r.1) && decide (q.2 ≠ r.2))) then .error .valueError
  else .ok (a ++ b.filter (fun r => !a.any (fun q => decide (q.1 = r.1))))

/-- `getattr(metadata_request, method)` (scikit-learn). -/
def Reqs.of (r : Reqs) : Meth → Py Request
  | .fitTransform => compose (r .fit) (r .transform)
  | m => .ok (r m)

/-- `_get_param_names(return_alias=True)` (scikit-learn): all names but those that are refused, aliases in place of the
names they stand for. -/
def names (req : Request) : List String :=
  req.filterMap (fun r => match r.2 with
    | .no => none
    | .name a => some a
    | .yes | .unset | .warn => some r.1)

/-- What every selector asks for itself (skada/base.py:115-133 and :207). -/
def selfReqs : Reqs
  | .fit | .partialFit | .transform => [("sample_domain", .yes)]
  | .predict | .predictProba | .predictLogProba | .score | .decisionFunction =>
    [("sample_domain", .yes), ("allow_source", .yes)]
  | .fitTransform => []

/-- The method mapping of a selector's router, pairs of callee and caller (skada/base.py:221-229, :626-633, :636-643). -/
def selMapping : List (Meth × Meth) :=
  [(.fit, .fit), (.partialFit, .partialFit), (.transform, .transform), (.predict, .predict),
    (.predictProba, .predictProba), (.predictLogProba, .predictLogProba), (.decisionFunction, .decisionFunction),
    (.score, .score)]

/-- `router.add(name=estimator, …)`: one entry per name (scikit-learn). -/
def addChild : List (String × Reqs) → String → Reqs → List (String × Reqs)
  | [], k, r => [(k, r)]
  | (k', r') :: d, k, r => if k' = k then (k', r) :: d else (k', r') :: addChild d k r

/-- The children of the router of a selector around one estimator (skada/base.py:217-230). -/
def oneChild (base : Reqs) : List (String × Reqs) := addChild [] "estimator" base

/-- The children of the router of `SelectSourceTarget` (skada/base.py:623-644): both estimators are added under the same
name. -/
def twoChildren (source : Reqs) (target : Option Reqs) : List (String × Reqs) :=
  match target with
  | none => addChild [] "estimator" source
  | some t => addChild (addChild [] "estimator" source) "estimator" t

/-- The names that the children of a selector accept for a method of the selector (scikit-learn,
`MetadataRouter._get_param_names` with `ignore_self_request=True`). -/
def childNames (children : List (String × Reqs)) (m : Meth) : Py (List String) := do
  let l ← children.mapM (fun c => (selMapping.filter (fun p => decide (p.2 = m))).mapM (fun p => do
    let r ← c.2.of p.1
    return names r))
  return (l.map List.flatten).flatten

/-- All names that a selector accepts for one of its methods (scikit-learn, `MetadataRouter._get_param_names`). -/
def selNames (children : List (String × Reqs)) (m : Meth) : Py (List String) := do
  let own ← selfReqs.of m
  let l ← childNames children m
  return names own ++ l

/-- The parameters handed to a method of a selector (scikit-learn, `MetadataRouter._route_params`).  The test for
different objects under one name compares values here, both come from the same dictionary. -/
def selRoute (children : List (String × Reqs)) (m : Meth) (params : Dict) : Py Dict := do
  let own ← selfReqs.of m
  let res ← routeParams own params
  let l ← childNames children m
  let child : Dict := params.filter (fun kv => decide (kv.1 ∈ l))
  if child.any (fun kv => res.has kv.1 && decide (res.get kv.1 ≠ kv.2)) then .error .valueError
  else .ok (res.update child)

/-! ### The pipeline (scikit-learn) -/

/-- The method mapping of `Pipeline` for its steps, pairs of callee and caller: all steps but the last have to offer
`fit_transform`. -/
def pipeMapping (last : Bool) : List (Meth × Meth) :=
  if last then
    [(.fitTransform, .fitTransform), (.fit, .fit), (.predict, .predict), (.predictProba, .predictProba),
      (.decisionFunction, .decisionFunction), (.predictLogProba, .predictLogProba), (.transform, .transform), (.score, .score)]
  else
    [(.fitTransform, .fit), (.fitTransform, .fitTransform), (.transform, .predict), (.transform, .predictProba),
      (.transform, .decisionFunction), (.transform, .predictLogProba), (.transform, .transform), (.transform, .score)]

/-- The callees of a step for a method of the pipeline. -/
def callees (last : Bool) (caller : Meth) : List Meth :=
  ((pipeMapping last).filter (fun p => decide (p.2 = caller))).map Prod.fst

/-- The steps of a pipeline with the mark of the last one. -/
def marked {γ : Type} : List γ → List (Bool × γ)
  | [] => []
  | [a] => [(true, a)]
  | a :: b :: l => (false, a) :: marked (b :: l)

/-- All names that a pipeline accepts for one of its methods; each step is given by the children of its router. -/
def pipeNames (steps : List (List (String × Reqs))) (caller : Meth) : Py (List String) := do
  let l ← (marked steps).mapM (fun s => do
    let l' ← (callees s.1 caller).mapM (selNames s.2)
    return l'.flatten)
  return l.flatten

/-- `process_routing(pipeline, caller, **params)`: for each step the parameters of each callee; without parameters nothing
is looked at, a name that nobody asks for is a `TypeError`. -/
def pipeRoute (steps : List (List (String × Reqs))) (caller : Meth) (params : Dict) : Py (List (List (Meth × Dict))) :=
  if params.isEmpty then .ok ((marked steps).map (fun s => (callees s.1 caller).map (fun m => (m, []))))
  else do
    let l ← pipeNames steps caller
    if params.any (fun kv => decide (kv.1 ∉ l)) then .error .typeError
    else (marked steps).mapM (fun s => (callees s.1 caller).mapM (fun m => do
      let d ← selRoute s.2 m params
      return (m, d)))

/-- `routed_params[name].get(method, {})` -/
def paramsFor (l : List (Meth × Dict)) (m : Meth) : Dict := (l.lookup m).getD []

/-! ### Fitting -/

/-- The requests of a base estimator, as far as fitting a pipeline is concerned. -/
def estReqs (e : Est α σ) : Reqs
  | .fit => e.fitReq
  | .transform => e.transformReq
  | _ => []

/-- The children of the router of a step. -/
def stepChildren : Step α σ → List (String × Reqs)
  | .shared s | .perDomain s | .select _ s => oneChild (estReqs s.est)
  | .sourceTarget s => twoChildren (estReqs s.source) (s.target.map estReqs)

/-- The loop of `Pipeline.fit`: `fit_transform` for every step but the last, `fit` for the last, each with its routed
parameters. -/
def fitLoop [Cell α] : List (Step α σ × List (Meth × Dict)) → Cont α → Option (List Num) →
    Run α (List (Fitted σ) × Option (List Num))
  | [], _, y => ([], .ok ([], y))
  | [(st, routed)], c, y => match st.fit c y (paramsFor routed .fit) with
    | (calls, .error e) => (calls, .error e)
    | (calls, .ok (f, y')) => (calls, .ok ([f], y'))
  | (st, routed) :: rest, c, y => match st.fitTransform c y (paramsFor routed .fitTransform) with
    | (calls, .error e) => (calls, .error e)
    | (calls, .ok (f, c', y')) => match fitLoop rest c' y' with
      | (calls', .error e) => (calls ++ calls', .error e)
      | (calls', .ok (fs, y'')) => (calls ++ calls', .ok (f :: fs, y''))

/-- `Pipeline.fit(X, y, **params)` of a pipeline of selectors; the rejection of a step that is no transformer and the
rejection of parameters are both `TypeError`s, so their order is of no account. -/
def fit [Cell α] (steps : List (Step α σ)) (X : List α) (y : Option (List Num)) (params : Dict) :
    Run α (List (Fitted σ) × Option (List Num)) :=
  if steps.dropLast.any (fun st => !st.isTransformer) then ([], .error .typeError)
  else match pipeRoute (steps.map stepChildren) .fit params with
    | .error e => ([], .error e)
    | .ok routed => fitLoop (steps.zip routed) (Cont.fromInput (.array X)) y

/-! ### Evaluation -/

/-- The requests of the last base estimator for an evaluation method. -/
def lastReqs (caller : Meth) (req : Request) : Reqs := fun m => if m = caller then req else []

/-- The loop of `Pipeline.predict` and its siblings: `transform` for every step but the last, then the method of the last
(a `Shared` selector), each with its routed parameters. -/
def evalLoop [Cell α] (last : Sel α σ × σ) (req : Request) (query : σ → Call α → Py β) (caller : Meth)
    (y : Option (List Num)) : List (Step α σ × Fitted σ) → List (List (Meth × Dict)) → List α → Py β
  | [], routed, X => last.1.sharedRoute req query last.2 X y (paramsFor (routed.headD []) caller)
  | (st, f) :: rest, routed, X => match st.transform f X (paramsFor (routed.headD []) .transform) with
    | .error e => .error e
    | .ok X' => evalLoop last req query caller y rest routed.tail X'

/-- `Pipeline.predict(X, **params)` and its siblings, with the routing of the parameters.  Not modelled:
`Pipeline.score` adds `sample_weight=None` to the parameters. -/
def eval [Cell α] (steps : List (Step α σ × Fitted σ)) (last : Sel α σ × σ) (req : Request)
    (query : σ → Call α → Py β) (caller : Meth) (X : List α) (y : Option (List Num)) (params : Dict) : Py β :=
  match pipeRoute (steps.map (fun s => stepChildren s.1) ++ [oneChild (lastReqs caller req)]) caller params with
  | .error e => .error e
  | .ok routed => evalLoop last req query caller y steps routed X

end Skada.Route

/-
Evaluation of a fitted DA pipeline whose steps are any selectors (skada/base.py).
-/
import Verif.Model.PipelineRun

namespace Skada

variable {α β σ : Type}

/-- `transform` of a fitted base estimator as `_merge_domain_outputs` sees it: anything else than an array fails the
assertion of skada/_utils.py:208, as a number does. -/
def Est.transformQuery (e : Est α σ) (f : σ) (c : Call α) : Py (QOut α) :=
  match e.transform f c.X c.params with
  | .error err => .error err
  | .ok (.arr X) => .ok (.arr ⟨.float, [], X⟩)
  | .ok _ => .ok (.number .nan)

/-- `selector.transform(X, **params)` for each kind of selector: `Shared`, `SelectSource` and `SelectTarget`
(skada/base.py:442-451, inherited; nothing is filtered at this point), `PerDomain` (skada/base.py:507-533) and
`SelectSourceTarget` (skada/base.py:740-768).  Simplification: the output has to be an array.  The last case does not
occur, each selector is fitted by its own `fit_transform`. -/
def Step.transform [Cell α] (st : Step α σ) (f : Fitted σ) (X : List α) (params : Dict) : Py (List α) :=
  match st, f with
  | .shared s, .one f => match s.sharedTransform f X params with
    | .error e => .error e
    | .ok (.arr X') => .ok X'
    | .ok _ => .error .typeError
  | .select _ s, .one f => match s.sharedTransform f X params with
    | .error e => .error e
    | .ok (.arr X') => .ok X'
    | .ok _ => .error .typeError
  | .perDomain s, .perDomain l => rowsOf (s.perDomainRoute s.est.transformReq l s.est.transformQuery X none params)
  | .sourceTarget s, .sourceTarget fs ft =>
    rowsOf (s.route true s.source.transformReq (s.target.getD s.source).transformReq
      ((s.source, fs), (s.target.getD s.source, ft)) (fun e => e.1.transformQuery e.2) X none params)
  | _, _ => .error .attributeError

/-- `sklearn.pipeline.Pipeline.predict(X, **params)` and its siblings (trusted external behaviour), for a pipeline of any
selectors with a `Shared` one at the end: `transform` for every step but the last, then the method of the last; every
step receives the parameters that its `keep` lets through. -/
def stepsRoute [Cell α] : List ((String → Bool) × Step α σ × Fitted σ) → (String → Bool) × Sel α σ × σ → Request →
    (σ → Call α → Py β) → List α → Option (List Num) → Dict → Py β
  | [], (keep, s, f), req, query, X, y, params =>
    s.sharedRoute req query f X y (params.filter (fun kv => keep kv.1))
  | (keep, st, f) :: rest, last, req, query, X, y, params =>
    match st.transform f X (params.filter (fun kv => keep kv.1)) with
    | .error e => .error e
    | .ok X' => stepsRoute rest last req query X' y params

end Skada

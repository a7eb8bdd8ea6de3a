/-
The methods of fitted (or not yet fitted) self-labelling estimators — GradualEstimator (skada/_gradual_da.py) and DASVMClassifier
(skada/_self_labeling.py) — and both estimators as the last step of a pipeline.
-/
import Verif.Model.SelfLabel
import Verif.Model.PipelineRun

namespace Skada
namespace SL

/-! ### GradualEstimator -/

section Gradual
variable {α E γ : Type}

/-- The attribute `base_estimator` of a `GradualEstimator`: `None`, not yet fitted, or fitted with state `e`.  The same object is
trained in place by `fit` (skada/_gradual_da.py:118-139). -/
inductive GBase (E : Type) where
  | missing
  | unfitted
  | fitted (e : E)

/-- `predict` (skada/_gradual_da.py:229-236; `supports = true`), `predict_proba` (251-260) and `predict_log_proba` (275-286).
`answer` is the method of the base estimator, called with the keyword arguments; `NotFittedError` is a `ValueError`. -/
def gradAsk (supports : Bool) (answer : E → List α → Dict → Py γ) (b : GBase E) (X : List α) (kwargs : Dict) : Py γ :=
  match b with
  | .missing => .error .valueError
  | .unfitted => .error .valueError
  | .fitted e => if supports then answer e X kwargs else .error .valueError

/-- `score`, skada/_gradual_da.py:303-309: `(base_estimator.predict(X) == y).sum() / len(y)`.  Simplification: the comparison of
arrays of different lengths is a `ValueError` (numpy broadcasts an array of length one). -/
def gradScore {β : Type} [DecidableEq β] (predict : E → List α → Py (List β)) (b : GBase E) (X : List α) (y : List β) : Py ℚ :=
  match b with
  | .missing => .error .valueError
  | .unfitted => .error .valueError
  | .fitted e => match predict e X with
    | .error err => .error err
    | .ok p =>
      if p.length ≠ y.length then .error .valueError
      else .ok (((List.zipWith (fun a b => decide (a = b)) p y).count true : ℚ) / (y.length : ℚ))

variable {K : Type} [Field K] [LinearOrder K] {d : Nat} {β : Type}

/-- `GradualEstimator.fit`, skada/_gradual_da.py:89-144, with the choice of the base estimator (118-128): the given one, or an
`MLPClassifier` with `max_iter=100`. -/
def gradFitAny (mlp : GLearner K d β E) (given : Option (GLearner K d β E × Option Nat))
    (coupling : List (Fin d → K) → List β → List (Fin d → K) → List β → List (List K)) (alpha : ℚ) (advanced : Bool)
    (nSteps : Nat) (X : List (Fin d → K)) (y : List β) (sd : List Int) : Py (GFit K d β E) :=
  match given with
  | none => gradFit mlp coupling alpha advanced nSteps (some 100) X y sd
  | some (L, maxIter) => gradFit L coupling alpha advanced nSteps maxIter X y sd

/-- The attributes `estimators_` and `intermediate_data_` (absent: `none`) after the first `fit`, skada/_gradual_da.py:106, 130-133,
140-143. -/
def gradSaved (saveEstimators saveData : Bool) (g : GFit K d β E) : List E × Option (List (List (Fin d → K) × List β)) :=
  (if saveEstimators then g.ests else [], if saveData then some g.data else none)

end Gradual

/-! ### DASVMClassifier -/

section DASVM
variable {α β E K γ : Type}

/-- `predict` (skada/_self_labeling.py:276-280) and `decision_function` (298-303): the method of `base_estimator_`, an
`AttributeError` before `fit`. -/
def dasvmAsk (answer : E → List α → Dict → Py γ) (state : Option (Fitted E)) (X : List α) (kwargs : Dict) : Py γ :=
  match state with
  | none => .error .attributeError
  | some f => answer f.final X kwargs

/-- `predict_proba` (skada/_self_labeling.py:282-296): available if `base_estimator` has it, answered by `base_estimator`. -/
def dasvmAskProba (available : Bool) (answer : E → List α → Dict → Py γ) (state : Option (Fitted E)) (X : List α)
    (kwargs : Dict) : Py γ :=
  if available then match state with
    | none => .error .valueError
    | some f => answer f.base X kwargs
  else .error .attributeError

/-- `score` (skada/_self_labeling.py:305-313): the flag says whether the "Source domain detected" warning is issued; `answer` is
`base_estimator_.score(X, y, sample_weight=…)`. -/
def dasvmScore (answer : E → List α → List β → Option (List K) → Py γ) (state : Option (Fitted E)) (X : List α) (y : List β)
    (sd : Option (List Int)) (sw : Option (List K)) : Py (Bool × γ) :=
  match state with
  | none => .error .valueError
  | some f => match answer f.final X y sw with
    | .error e => .error e
    | .ok v => .ok (match sd with | none => false | some sd => sd.any (fun d => decide (0 ≤ d)), v)

end DASVM

/-! ### As the last step of a pipeline -/

section Pipeline
variable {α σ F γ : Type}

/-- The routing request of `fit` of both classes (skada/_gradual_da.py:52 and 89, skada/_self_labeling.py:56 and 137). -/
def selfFitReq : Request := [("sample_domain", .yes)]

/-- The routing requests of `predict`, `predict_proba`, `predict_log_proba`, `score` and `decision_function` of both classes
(skada/_gradual_da.py:53-63, skada/_self_labeling.py:58-68).  Simplification: the unset request for `sample_weight` in `score` of
`DASVMClassifier` is left out (no weights are passed). -/
def selfReq : Request := [("allow_source", .no), ("sample_domain", .no)]

/-- Either estimator as a pipeline step; `fit X y sample_domain` is `gradFit` or `dasvmFit`.  Simplification: missing labels are a
`TypeError`. -/
def selfEst (wrap : F → σ) (fit : List α → List Num → List Int → Py F) : Est α σ where
  hasTransform := false
  hasFitTransform := false
  fitReq := selfFitReq
  fitTransformReq := []
  transformReq := []
  fit c := match domainsOf (c.params.get "sample_domain"), c.y with
    | .error e, _ => .error e
    | .ok _, none => .error .typeError
    | .ok sd, some y => match fit c.X y sd with
      | .error e => .error e
      | .ok f => .ok (wrap f)
  fitTransform _ := .error .attributeError
  transform _ _ _ := .error .attributeError

/-- A method called with keyword arguments. -/
def selfQuery (ask : σ → List α → Dict → Py γ) (f : σ) (c : Call α) : Py γ := ask f c.X c.params

/-- A method called with labels; the parameters that reach it through a pipeline never contain anything (`selfReq`). -/
def selfScore (ask : σ → List α → List Num → Py γ) (f : σ) (c : Call α) : Py γ :=
  match c.y with
  | none => .error .typeError
  | some y => if c.params.isEmpty then ask f c.X y else .error .typeError

/-- A row-wise method of a base estimator that takes no keyword arguments, such as `predict` of scikit-learn's classifiers (trusted
external behaviour): `TypeError` for any. -/
def rowwise {E β : Type} (f : E → α → β) (e : E) (X : List α) (kwargs : Dict) : Py (List β) :=
  if kwargs.isEmpty then RW.batch (f e) X else .error .typeError

end Pipeline

end SL
end Skada

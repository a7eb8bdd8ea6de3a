/-
Cross-validation of a DA pipeline: scikit-learn's `cross_validate(pipeline, X, y, cv=splitter, scoring=scorer, params={sample_domain, target_labels})`
with a splitter of skada/model_selection.py and a scorer of skada/metrics.py.

The loop of `cross_validate` is library behaviour (sklearn/model_selection/_validation.py: `cross_validate`, `_fit_and_score`, `_score`,
`_warn_or_raise_about_fit_failures`), with the default `error_score=nan`.  The splitters, the pipeline and the scorers are the models of skada's code.
-/
import Verif.Model.Splitters
import Verif.Model.Selectors

namespace Skada.CV

variable {α β F S : Type}

/-- The data: rows, labels, domain labels, and (for `SupervisedScorer`, skada/metrics.py:76-87) the true labels given as `target_labels`. -/
structure Data (α β : Type) where
  X : List α
  y : List Num
  sd : List Int
  tl : Option (List β)

/-- `_safe_split` and `_check_method_params`: the rows of all arrays at the positions `idx`. -/
def Data.at (d : Data α β) (idx : List Nat) : Py (Data α β) := do
  let X ← Np.take d.X idx
  let y ← Np.take d.y idx
  let sd ← Np.take d.sd idx
  match d.tl with
  | none => .ok ⟨X, y, sd, none⟩
  | some l => match Np.take l idx with
    | .error e => .error e
    | .ok t => .ok ⟨X, y, sd, some t⟩

/-- What happened in a fold. -/
inductive Result (S : Type) where
  | fitFailed
  | scoreFailed
  | score (s : S)
  deriving DecidableEq

/-- `_fit_and_score` of a clone of the estimator: exceptions of `fit` and of the scorer are caught. -/
def foldRun (fit : List α → List Num → List Int → Py F) (score : F → Data α β → Py S) (d : Data α β) (f : Fold) : Py (Result S) := do
  let tr ← d.at f.1
  let te ← d.at f.2
  match fit tr.X tr.y tr.sd with
  | .error _ => .ok .fitFailed
  | .ok m => match score m te with
    | .error _ => .ok .scoreFailed
    | .ok s => .ok (.score s)

/-- The test score that is reported: NaN (`none`) after a failure. -/
def Result.value : Result S → Option S
  | .score s => some s
  | _ => none

/-- `cross_validate`: an `IndexError` without a fold (`_aggregate_score_dicts`), a `ValueError` if no fit succeeded. -/
def crossValidate [DecidableEq S] (fit : List α → List Num → List Int → Py F) (score : F → Data α β → Py S) (folds : Py (List Fold)) (d : Data α β) :
    Py (List (Option S)) := do
  let fs ← folds
  let rs ← fs.mapM (foldRun fit score d)
  if rs = [] then .error .indexError
  else if rs.all (fun r => decide (r = .fitFailed)) then .error .valueError else .ok (rs.map Result.value)

/-- A splitter with all its random draws: the folds it yields (skada/model_selection.py:51-179, 199-297, 522-593). -/
inductive Splitter where
  | sourceTarget (test train : Size) (draws : List (List Nat × List Nat))
  | leaveOneOut (maxSplits : Nat) (test train : Size) (order : List Nat) (draw : Int → List Nat × List Nat)
  | domain (us : ℚ) (test train : Size) (draws : List (List Nat × List Nat))

/-- `cv.split(X, y, sample_domain=sd)`; none of the three looks at `y`, which is only checked by `indexable` for its length. -/
def Splitter.split (s : Splitter) (X : List α) (y : List Num) (sd : List Int) : Py (List Fold) :=
  if y.length ≠ X.length then .error .valueError
  else match s with
    | .sourceTarget test train draws => sourceTargetShuffleSplit X (.vec sd) test train draws
    | .leaveOneOut m test train order draw => leaveOneDomainOut X (.vec sd) m test train order draw
    | .domain us test train draws => domainShuffleSplit X (.vec sd) us test train draws

/-- The pipeline's `fit` in a fold: the training rows' domain labels are the only parameter; the labels handed in are not seen afterwards. -/
def fitPipeline {σ : Type} [Cell α] (steps : List ((String → Bool) × Step α σ)) (X : List α) (y : List Num) (sd : List Int) :
    Py (List (Fitted σ)) :=
  match (pipelineFit steps X (some y) [("sample_domain", domParam sd)]).2 with
  | .error e => .error e
  | .ok r => .ok r.1

end Skada.CV

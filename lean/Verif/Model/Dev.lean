/-
`DeepEmbeddedValidation._score` as a whole (skada/metrics.py:388-479): choice of the features, split of the source rows, domain classifier,
weights and the control-variate formula (`devScore` of Verif/Model/Scorers.lean).

Rows of `X` and of features have one type `α` (arrays of any shape).  The random permutation of `train_test_split`, its test size, the domain
classifier, the loss and the estimator are parameters.
-/
import Verif.Model.Scorers
import Verif.Model.PipelineRun

namespace Skada.Score

open Np

variable {α ρ σ : Type}
variable {K : Type} [Field K] [LinearOrder K] [IsStrictOrderedRing K]

/-- A step of a fitted pipeline as `_score` uses it: its `transform`, called without any metadata, or `none` when the step has no such method. -/
abbrev Step (α : Type) := Option (List α → Py (List α))

/-- A `Shared` selector of a fitted pipeline as such a step (skada/base.py:296-298 and `_estimator_has`). -/
def selStep (s : Sel α σ) (fitted : σ) : Step α :=
  if s.est.hasTransform then
    some (fun X => match s.sharedTransform fitted X [] with
      | .error e => .error e
      | .ok (.arr X') => .ok X'
      | .ok _ => .error .typeError)
  else none

/-- `Pipeline.transform(X)` (trusted external behaviour): the steps in turn. -/
def chain : List (Step α) → List α → Py (List α)
  | [], X => .ok X
  | none :: _, _ => .error .attributeError
  | some f :: l, X => match f X with
    | .error e => .error e
    | .ok X' => chain l X'

/-- Index of the last step with a `transform` method (skada/metrics.py:417-423). -/
def lastIdx (steps : List (Step α)) : Option Nat :=
  (List.range steps.length).reverse.find? (fun i => match steps[i]? with
    | some (some _) => true
    | _ => false)

/-- The function that computes the features from a pipeline (skada/metrics.py:416-430): the pipeline up to that step, or the identity. -/
def pipeFeatures (steps : List (Step α)) : List α → Py (List α) :=
  match lastIdx steps with
  | some i => chain (steps.take (i + 1))
  | none => fun X => .ok X

/-- The estimator given to the scorer: without `predict_proba`, a network (its `layer_name`, `predict_features`, `predict_proba`) or a pipeline
(its steps, `predict_proba`).  `predict_proba` receives `sample_domain` and `allow_source=True`. -/
inductive DevEst (α ρ : Type) where
  | noProba
  | network (layerSet : Bool) (feat : List α → Py (List α)) (proba : List α → List Int → Py (List ρ))
  | pipeline (steps : List (Step α)) (proba : List α → List Int → Py (List ρ))

/-- Lines 400-430: feature function and `predict_proba`, or the exception. -/
def DevEst.parts : DevEst α ρ → Py ((List α → Py (List α)) × (List α → List Int → Py (List ρ)))
  | .noProba => .error .attributeError
  | .network layerSet feat proba => if layerSet then .ok (feat, proba) else .error .valueError
  | .pipeline steps proba => .ok (pipeFeatures steps, proba)

/-- `train_test_split(…, test_size=0.33)` on `n` rows as index lists (trusted external behaviour): `perm` is the drawn permutation and
`nTest = ceil(0.33 n)`; no training row left is a `ValueError` (also for `n = 0`). -/
def trainTest (n nTest : Nat) (perm : List Nat) : Py (List Nat × List Nat) :=
  if n ≤ nTest then .error .valueError else .ok ((perm.drop nTest).take (n - nTest), perm.take nTest)

/-- Lines 459-479 on the features of training, validation and target rows.  `fitDC rows labels` is `_fit_adapt` (lines 388-397) followed by
`predict_proba` of the fitted clone: the probabilities of the classes 0 (target) and 1 (source) of a row.  A source probability 0 gives infinite
or undefined weights and the score is NaN. -/
def devOnFeatures (gib : Bool) (fitDC : List α → List Nat → Py (α → K × K)) (loss : List Num → List ρ → Py (Losses K)) (Ftr Fv Ft : List α)
    (yv : List Num) (pv : Py (List ρ)) : Py (Option K) := do
  let dc ← fitDC (Ftr ++ Ft) (List.replicate Ftr.length 1 ++ List.replicate Ft.length 0)
  let pred := Fv.map dc
  if Ft.length = 0 then .error .zeroDivisionError
  else do
    let p ← pv
    let err ← loss yv p
    if pred.any (fun q => decide (q.2 = 0)) then
      if pred.length ≠ err.len then .error .assertionError else .ok none
    else devScore gib (devWeights Ftr.length Ft.length (pred.map Prod.fst) (pred.map Prod.snd)) err

/-- `DeepEmbeddedValidation._score` (skada/metrics.py:399-479). -/
def dev (gib : Bool) (est : DevEst α ρ) (fitDC : List α → List Nat → Py (α → K × K)) (loss : List Num → List ρ → Py (Losses K))
    (nTest : Nat → Nat) (perm : Nat → List Nat) (X : List α) (y : List Num) (sd : SDArg) : Py (Option K) := do
  let (feat, proba) ← est.parts
  let (X, y, sd) ← checkXyDomain X y sd {}
  let src ← extractSourceIndices sd
  let Xs ← boolIndex X src
  let ys ← boolIndex y src
  let sds ← boolIndex sd src
  let (tr, va) ← trainTest Xs.length (nTest Xs.length) (perm Xs.length)
  let Xtr ← take Xs tr
  let Xv ← take Xs va
  let yv ← take ys va
  let sdv ← take sds va
  let Ftr ← feat Xtr
  let Fv ← feat Xv
  let Xt ← boolIndex X (src.map (!·))
  let Ft ← feat Xt
  devOnFeatures gib fitDC loss Ftr Fv Ft yv (proba Xv sdv)

end Skada.Score

/-
`JDOTRegressor` and `JDOTClassifier` (skada/_ot.py:500-764) with the solvers they call, including the failures of the base
estimator.

The OT solver (POT), the base estimator and the feature distance are parameters; arithmetic is exact in an ordered field `K`.
-/
import Verif.Model.OT
import Verif.Model.PipelineRun

namespace Skada
namespace OT

section
variable {K : Type} [Field K] [LinearOrder K]

/-- `jdotLoop` for an iteration that may raise: the loop of `solve_jdot_regression` (skada/_ot.py:291-337) and
`solve_jdot_classification` (444-497). -/
def jdotLoopE {E : Type} {ns nt : Nat} (body : Nat → (Fin ns → Fin nt → K) → Py (Iter E K ns nt)) (tol : K) :
    Nat → Nat → (Fin ns → Fin nt → K) → Option (Iter E K ns nt) → List K → List K →
      Py (E × List K × List K × Sol K ns nt)
  | 0, _, _, none, _, _ => .error .unboundLocalError
  | 0, _, _, some r, los, lts => .ok (r.est, los, lts, r.sol)
  | n + 1, i, Ml, prev, los, lts =>
    match body i Ml with
    | .error e => .error e
    | .ok r =>
      let los := los ++ [r.lossOt]
      let lts := lts ++ [r.lossTgt]
      match prev with
      | none => jdotLoopE body tol n (i + 1) r.Ml (some r) los lts
      | some q =>
        if |r.lossOt - q.lossOt| < tol then .ok (r.est, los, lts, r.sol)
        else if |r.lossTgt - q.lossTgt| < tol then .ok (r.est, los, lts, r.sol)
        else jdotLoopE body tol n (i + 1) r.Ml (some r) los lts

variable {α : Type} {ns nt : Nat}

/-- A base regressor: `fit X y sample_weight` (`none`: the argument is not given) and `predict`, one value per row. -/
structure Regressor (α E K : Type) where
  fit : List α → List K → Option (List K) → Py E
  predict : E → α → K

/-- One iteration of `solve_jdot_regression`, skada/_ot.py:291-320, with a base estimator that may raise.  The estimator gets
the target weights as given (line 284). -/
def regBodyE {E : Type} (solve : (Fin ns → Fin nt → K) → (Fin ns → K) → (Fin nt → K) → Sol K ns nt) (R : Regressor α E K)
    (alpha : K) (Mf : Fin ns → Fin nt → K) (x : Fin nt → α) (ys : Fin ns → K) (wt : Option (Fin nt → K))
    (a : Fin ns → K) (b : Fin nt → K) (i : Nat) (Ml : Fin ns → Fin nt → K) : Py (Iter E K ns nt) :=
  let sol := solve (jdotCost alpha Mf Ml i) a b
  let lossOt := if i = 0 then sol.value + alpha * inner Ml sol.plan else sol.value
  let yth := transported ys sol.plan b
  match R.fit (List.ofFn x) (List.ofFn yth) (wt.map List.ofFn) with
  | .error e => .error e
  | .ok est =>
    let pred : Fin nt → K := fun t => R.predict est (x t)
    .ok { lossOt := lossOt, est := est, sol := sol, Ml := sqDist ys pred
          lossTgt := (∑ t, (yth t - pred t) ^ 2) / (nt : K) }

/-! ### Classification -/

/-- A base classifier: `fit` on a weighted data set and the methods that the class costs use. -/
structure Classifier (α β E K : Type) where
  fit : List (α × β × K) → Py E
  view : E → ClassEst α K

/-- The two rows of `Ys[:, None, :] * Yt_pred[None, :, :]` (skada/_ot.py:60-77, 171-188) after numpy broadcasting. -/
def broadcastRow (y f : List K) : Py (List K × List K) :=
  if f.length = y.length then .ok (y, f)
  else if f.length = 1 then .ok (y, List.replicate y.length (f.headD 0))
  else if y.length = 1 then .ok (List.replicate f.length (y.headD 0), f)
  else .error .valueError

/-- One entry of `get_jdot_class_cost_matrix` for a fitted estimator (skada/_ot.py:57-85), one row of
`get_tgt_loss_jdot_class` (168-196): `classCost` with numpy's broadcasting. -/
def clsCost (metric : String) (e : ClassEst α K) (y : List K) (x : α) : Py K :=
  let entry (f : List K) (cost : List K → List K → K) : Py K := match broadcastRow y f with
    | .error err => .error err
    | .ok (y, f) => .ok (cost y f)
  if metric = "multinomial" then
    match e.logProba, e.proba with
    | some f, _ => entry (f x) logCost
    | none, some f => entry (f x) logCost
    | none, none => .error .valueError
  else if metric = "hinge" then
    match e.decision with
    | some f => entry (f x).expand (fun y f => hingeCost y (.multi f))
    | none => .error .valueError
  else .error .valueError

/-- `np.max`; `ValueError` on an empty array. -/
def maxEntry : List K → Py K
  | [] => .error .valueError
  | v :: l => .ok (l.foldl max v)

/-- `T.T.dot(Ys) * nt`, skada/_ot.py:463, for the one-hot rows of the source labels. -/
def labelMass {β : Type} [DecidableEq β] (T : Fin ns → Fin nt → K) (ys : Fin ns → β) (labels : List β) : List (List K) :=
  List.ofFn (fun t => labels.map (fun c => (∑ s, T s t * (if ys s = c then 1 else 0)) * (nt : K)))

/-- One iteration of `solve_jdot_classification`, skada/_ot.py:444-480. -/
def clsBodyE {β E : Type} [DecidableEq β] (solve : (Fin ns → Fin nt → K) → (Fin ns → K) → (Fin nt → K) → Sol K ns nt)
    (C : Classifier α β E K) (metric : String) (alpha thr : K) (Mf : Fin ns → Fin nt → K) (x : Fin nt → α) (ys : Fin ns → β)
    (labels : List β) (a : Fin ns → K) (b : Fin nt → K) (i : Nat) (Ml : Fin ns → Fin nt → K) : Py (Iter E K ns nt) :=
  let sol := solve (jdotCost alpha Mf Ml i) a b
  let lossOt := if i = 0 then sol.value + alpha * inner Ml sol.plan else sol.value
  let Yth := labelMass sol.plan ys labels
  match maxEntry Yth.flatten with
  | .error e => .error e
  | .ok m =>
    let data := dataJdot (List.ofFn x) Yth labels thr m
    match C.fit data with
    | .error e => .error e
    | .ok est =>
      match (List.ofFn ys).mapM (fun c => (List.ofFn x).mapM (fun u => clsCost metric (C.view est) (oneHot labels c) u)) with
      | .error e => .error e
      | .ok M =>
        match data.mapM (fun r => clsCost metric (C.view est) (oneHot labels r.2.1) r.1) with
        | .error e => .error e
        | .ok costs =>
          .ok { lossOt := lossOt, est := est, sol := sol
                Ml := fun s t => (M.getD s []).getD t 0
                lossTgt := (List.zipWith (fun c r => c * r.2.2) costs data).sum / (nt : K) }

/-! ### The classes -/

/-- What `fit` stores: `estimator_`, `lst_loss_ot_`, `lst_loss_tgt_labels_` and `sol_` (its plan by rows, its value). -/
structure JdotOut (E K : Type) where
  est : E
  lossOt : List K
  lossTgt : List K
  plan : List (List K)
  value : K

/-- `self.estimator_, self.lst_loss_ot_, self.lst_loss_tgt_labels_, self.sol_ = res`, skada/_ot.py:593 and 723. -/
def JdotOut.of {E : Type} : Py (E × List K × List K × Sol K ns nt) → Py (JdotOut E K)
  | .error e => .error e
  | .ok (e, los, lts, sol) => .ok ⟨e, los, lts, List.ofFn (fun s => List.ofFn (sol.plan s)), sol.value⟩

/-- Entry `i` of an array. -/
def entries {n : Nat} (l : List K) : Fin n → K := fun i => l.getD i 0

/-- `ot.dist(Xs, Xt)`. -/
def crossDist (dist : α → α → K) (Xs Xt : List α) : Fin Xs.length → Fin Xt.length → K := fun s t => dist Xs[s] Xt[t]

/-- No division `0 / 0` in the set-up: both sides have rows, not all distances are zero, no side has total weight zero
(skada/_ot.py:274, 280, 285 and 424, 430, 434). -/
def Proper (M : Fin ns → Fin nt → K) (ws : Option (Fin ns → K)) (wt : Option (Fin nt → K)) : Prop :=
  0 < ns ∧ 0 < nt ∧ (∑ s, ∑ t, M s t) ≠ 0 ∧ (∀ w, ws = some w → (∑ s, w s) ≠ 0) ∧ (∀ w, wt = some w → (∑ t, w t) ≠ 0)

/-- Total weight of a side is not zero. -/
def weightOk {n : Nat} : Option (Fin n → K) → Bool
  | none => true
  | some w => decide ((∑ i, w i) ≠ 0)

theorem weightOk_iff {n : Nat} (w : Option (Fin n → K)) : weightOk w = true ↔ ∀ v, w = some v → (∑ i, v i) ≠ 0 := by
  cases w <;> simp [weightOk]

instance (M : Fin ns → Fin nt → K) (ws : Option (Fin ns → K)) (wt : Option (Fin nt → K)) : Decidable (Proper M ws wt) :=
  decidable_of_iff (0 < ns ∧ 0 < nt ∧ (∑ s, ∑ t, M s t) ≠ 0 ∧ weightOk ws = true ∧ weightOk wt = true)
    (by rw [weightOk_iff, weightOk_iff]; rfl)

/-- `Mf / Mf.mean()`, skada/_ot.py:273-274 and 423-424. -/
def normalised (M : Fin ns → Fin nt → K) : Fin ns → Fin nt → K :=
  fun s t => M s t / ((∑ s, ∑ t, M s t) / ((ns : K) * (nt : K)))

/-- `JDOTRegressor.fit`, skada/_ot.py:573-593, with `solve_jdot_regression` (199-337).  `num` reads a source label as a number.
`undef` stands for whatever happens when the set-up divides `0 / 0`, or a target weight is zero (then `yth` contains NaN). -/
def jdotRegressorFit {β E : Type}
    (solve : ∀ ns nt, (Fin ns → Fin nt → K) → (Fin ns → K) → (Fin nt → K) → Sol K ns nt) (dist : α → α → K)
    (R : Regressor α E K) (num : β → K) (alpha : K) (nIterMax : Nat) (tol : K) (undef : Py (JdotOut E K)) (X : List α)
    (y : Option (List β)) (sw : Option (List K)) (sd : List Int) : Py (JdotOut E K) := do
  let (Xs, Xt) ← RW.splitX X sd
  let (ys, _) ← Map.splitY y sd
  let (ws, wt) ← Map.splitY sw sd
  match ys, ws with
  | none, none => throw .typeError          -- `len(ys)`
  | none, some _ => throw .attributeError   -- `ys.reshape`
  | some ys, ws =>
    let M := crossDist dist Xs Xt
    let ws : Option (Fin Xs.length → K) := ws.map entries
    let wt : Option (Fin Xt.length → K) := wt.map entries
    let yv : Fin Xs.length → K := entries (ys.map num)
    if Proper M ws wt ∧ ∀ t, marginal wt t ≠ 0 then
      JdotOut.of (jdotLoopE (regBodyE (solve _ _) R alpha (normalised M) (fun t => Xt[t]) yv wt (marginal ws) (marginal wt))
        tol nIterMax 0 (sqDist yv (fun _ => 0)) none [] [])
    else undef

/-- `JDOTClassifier.fit`, skada/_ot.py:701-723, with `solve_jdot_classification` (340-497).  The classes are the distinct source
labels in increasing order (`OneHotEncoder`).  `ys` and `Xs` always have the same length here, both are selected by the same
mask; the test only makes the indexing total.  `undef` as in `jdotRegressorFit`. -/
def jdotClassifierFit {β E : Type} [LinearOrder β]
    (solve : ∀ ns nt, (Fin ns → Fin nt → K) → (Fin ns → K) → (Fin nt → K) → Sol K ns nt) (dist : α → α → K)
    (C : Classifier α β E K) (metric : String) (alpha thr : K) (nIterMax : Nat) (tol : K) (undef : Py (JdotOut E K))
    (X : List α) (y : Option (List β)) (sw : Option (List K)) (sd : List Int) : Py (JdotOut E K) := do
  let (Xs, Xt) ← RW.splitX X sd
  let (ys, _) ← Map.splitY y sd
  let (ws, wt) ← Map.splitY sw sd
  match ys, ws with
  | none, none => throw .typeError          -- `len(ys)`
  | none, some _ => throw .attributeError   -- `ys.reshape`
  | some ys, ws =>
    let M := crossDist dist Xs Xt
    let ws : Option (Fin Xs.length → K) := ws.map entries
    let wt : Option (Fin Xt.length → K) := wt.map entries
    if h : Proper M ws wt ∧ ys.length = Xs.length then
      let yv : Fin Xs.length → β := fun s => ys[s]'(by rw [h.2]; exact s.2)
      JdotOut.of (jdotLoopE (clsBodyE (solve _ _) C metric alpha thr (normalised M) (fun t => Xt[t]) yv (Np.unique ys)
        (marginal ws) (marginal wt)) tol nIterMax 0 (fun _ _ => 10) none [] [])
    else undef

/-- `predict` (skada/_ot.py:595-603, 725-733) and `predict_proba` (744-754) of a fitted object: `answer` is the method of
`estimator_`.  The flag says whether the "Source domain detected" warning is issued. -/
def jdotPredict {E γ : Type} (answer : E → List α → Py γ) (state : Option (JdotOut E K)) (X : List α)
    (sd : Option (List Int)) : Py (Bool × γ) :=
  match state with
  | none => .error .valueError   -- `NotFittedError`
  | some f => match answer f.est X with
    | .error e => .error e
    | .ok v => .ok (match sd with | none => false | some sd => sd.any (fun d => decide (0 ≤ d)), v)

/-- `score` (skada/_ot.py:605-613, 756-764): `answer` is `estimator_.score(X, y, sample_weight=…)`. -/
def jdotScore {E β γ : Type} (answer : E → List α → List β → Option (List K) → Py γ) (state : Option (JdotOut E K))
    (X : List α) (y : List β) (sd : Option (List Int)) (sw : Option (List K)) : Py (Bool × γ) :=
  match state with
  | none => .error .valueError
  | some f => match answer f.est X y sw with
    | .error e => .error e
    | .ok v => .ok (match sd with | none => false | some sd => sd.any (fun d => decide (0 ≤ d)), v)

/-- `available_if(_check_proba)` in front of `predict_proba` (skada/_ot.py:735-743): decided by `base_estimator`. -/
def jdotPredictProba {E γ : Type} (baseHasProba : Bool) (answer : E → List α → Py γ) (state : Option (JdotOut E K))
    (X : List α) (sd : Option (List Int)) : Py (Bool × γ) :=
  if baseHasProba then jdotPredict answer state X sd else .error .attributeError

/-- What the expression `est.fit(…)` evaluates to. -/
inductive FitValue | itself | none

/-- `fit` of either class as a method call: new state and value of the call.  Neither body has a `return` statement
(skada/_ot.py:573-593, 701-723). -/
def jdotFitCall {E : Type} (fit : Py (JdotOut E K)) : Py (Option (JdotOut E K) × FitValue) :=
  match fit with
  | .error e => .error e
  | .ok f => .ok (some f, .none)

/-- The chained call `est.fit(…).predict(X)`. -/
def jdotChained {E γ : Type} (fit : Py (JdotOut E K)) (answer : E → List α → Py γ) (X : List α) (sd : Option (List Int)) :
    Py (Bool × γ) :=
  match jdotFitCall fit with
  | .error e => .error e
  | .ok (state, .itself) => jdotPredict answer state X sd
  | .ok (_, .none) => .error .attributeError

/-- The constructors (skada/_ot.py:548-571, 672-699): `ValueError` for a base estimator without `fit` or `predict`; the default
is `LinearRegression` or `LogisticRegression`. -/
def jdotInit {B : Type} (default : B) (base : Option (B × Bool × Bool)) : Py B :=
  match base with
  | none => .ok default
  | some (b, hasFit, hasPredict) => if !hasFit || !hasPredict then .error .valueError else .ok b

end

/-! ### As the last step of a pipeline -/

section
variable {α σ E : Type}

/-- A `sample_weight` argument as numbers. -/
def weightsArg : Param Num → Option (List ℚ)
  | .arr l => some (l.map (fun v => match v with | .fin q => q | _ => 0))
  | .scalar _ | .none => none

/-- The routing requests of `fit` of both classes: those of `DAEstimator` (skada/base.py:121) and the signature
(skada/_ot.py:573, 701). -/
def jdotFitReq : Request := [("sample_domain", .yes), ("sample_weight", .unset)]

/-- The routing requests of `predict` of both classes (skada/base.py:123; skada/_ot.py:595, 725). -/
def jdotPredictReq : Request := [("allow_source", .yes), ("sample_domain", .yes), ("sample_weight", .unset)]

/-- `JDOTRegressor` or `JDOTClassifier` as a pipeline step; `fit X y sample_weight sample_domain` is `jdotRegressorFit` or
`jdotClassifierFit`. -/
def jdotEst (wrap : JdotOut E ℚ → σ)
    (fit : List α → Option (List Num) → Option (List ℚ) → List Int → Py (JdotOut E ℚ)) : Est α σ where
  hasTransform := false
  hasFitTransform := false
  fitReq := jdotFitReq
  fitTransformReq := []
  transformReq := []
  fit c := match domainsOf (c.params.get "sample_domain") with
    | .error e => .error e
    | .ok sd => match fit c.X c.y (weightsArg (c.params.get "sample_weight")) sd with
      | .error e => .error e
      | .ok f => .ok (wrap f)
  fitTransform _ := .error .attributeError
  transform _ _ _ := .error .attributeError

/-- The keyword arguments in the signatures of `JDOTRegressor.predict` (skada/_ot.py:595). -/
def regressorArgs : List String := ["sample_domain", "sample_weight"]

/-- The keyword arguments in the signature of `JDOTClassifier.predict` and `predict_proba` (skada/_ot.py:725, 744-746). -/
def classifierArgs : List String := ["sample_domain", "sample_weight", "allow_source"]

/-- Calling a method with keyword arguments: a `TypeError` for one that is not in the signature. -/
def jdotQuery {γ : Type} (unwrap : σ → JdotOut E ℚ) (args : List String) (answer : E → List α → Py γ) (f : σ) (c : Call α) :
    Py (Bool × γ) :=
  if c.params.all (fun kv => decide (kv.1 ∈ args)) then
    match c.params.get "sample_domain" with
    | .none => jdotPredict answer (some (unwrap f)) c.X none
    | p => match domainsOf p with
      | .error e => .error e
      | .ok sd => jdotPredict answer (some (unwrap f)) c.X (some sd)
  else .error .typeError

end

end OT
end Skada

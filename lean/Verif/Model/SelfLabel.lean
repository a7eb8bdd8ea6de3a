/-
Self-labelling estimators: DASVM (skada/_self_labeling.py) and gradual domain adaptation (skada/_gradual_da.py).

Base estimators and the OT coupling are parameters; decision values and features are exact elements of an ordered field `K`.
Estimator methods act row by row and reject an empty batch (`RW.batch`).
-/
import Verif.Model.Mapping
import Mathlib.Data.List.Sort
import Mathlib.Data.Rat.Floor

namespace Skada
namespace SL

/-! ### DASVM -/

section DASVM
variable {K : Type} [Field K] [LinearOrder K] {α β E : Type}

/-- A decision array: two columns, or one dimension only (`np.ones(X.shape[0])`, skada/_self_labeling.py:134). -/
inductive Dec (K : Type) where
  | two (rows : List (K × K))
  | one (rows : List K)

/-- Lines 101-103: `for ll in range(n): if ~condition[ll]: idx[idx >= ll] += 1`, from position `ll` on. -/
def shiftIdx : Nat → List Bool → List Nat → List Nat
  | _, [], idx => idx
  | ll, c :: cs, idx => shiftIdx (ll + 1) cs (if c then idx else idx.map (fun i => if ll ≤ i then i + 1 else i))

/-- `indices_list[ll] = True` for every `ll` in `idx`, lines 106-108. -/
def markAll (mask : List Bool) (idx : List Nat) : Py (List Bool) :=
  if idx.any (fun i => decide (mask.length ≤ i)) then .error .indexError
  else .ok (idx.foldl (fun m i => m.set i true) mask)

/-- `np.unique(np.argmax(d[condition], axis=0))`, line 98. -/
def bestIdx (condition : List Bool) (d : Dec K) : Py (List Nat) :=
  match d with
  | .two rows => do
    let r ← Np.boolIndex rows condition
    let a ← Np.argmax (r.map Prod.fst)
    let b ← Np.argmax (r.map Prod.snd)
    return Np.unique [a, b]
  | .one rows => do
    let r ← Np.boolIndex rows condition
    let a ← Np.argmax r
    return [a]

/-- One pass of the loop body, lines 98-108. -/
def selectOnce (condition : List Bool) (d : Dec K) (mask : List Bool) : Py (List Bool) := do
  let idx ← bestIdx condition d
  markAll mask (shiftIdx 0 condition idx)

/-- `for _ in range(n)`. -/
def repeatM : Nat → (List Bool → Py (List Bool)) → List Bool → Py (List Bool)
  | 0, _, m => .ok m
  | n + 1, f, m => match f m with
    | .error e => .error e
    | .ok m => repeatM n f m

/-- `_find_points_next_step`, skada/_self_labeling.py:89-108, with `n_class = 2` (set at line 159): the new value of
`indices_list`.  `condition` is computed once, before the loop.  `k` is a natural number (a negative `k` behaves like 0). -/
def findPoints (k : Nat) (mask : List Bool) (d : Dec K) (cond : List Bool) : Py (List Bool) :=
  let condition := List.zipWith (fun a b => !a && b) mask cond
  repeatM (min k ((condition.count true + 1) / 2)) (selectOnce condition d) mask

/-- A base estimator: `fit` may raise; `predict` and `decision_function` act on rows. -/
structure Learner (α β E K : Type) where
  fit : List α → List β → Py E
  predict : E → α → β
  decision : E → α → K

/-- `_get_decision`, skada/_self_labeling.py:124-135. -/
def getDecision (L : Learner α β E K) (e : E) (X : List α) (mask : List Bool) : Py (Dec K) :=
  if 0 < mask.count false then do
    let df ← RW.batch (L.decision e) (Np.sel (mask.map (!·)) X)
    let dec ← Np.boolAssign (X.map (fun _ => (1 : K))) (mask.map (!·)) df
    return .two (dec.map (fun x => (-x + 1, x + 1)))
  else .ok (.one (X.map (fun _ => 1)))

/-- `np.sum(np.logical_and(D < 1, D > 0), axis=1) > 0`, lines 192-201 and 246-251: `axis=1` does not exist for a one-dimensional
array. -/
def inMargin (d : Dec K) : Py (List Bool) :=
  match d with
  | .two rows => .ok (rows.map (fun p => (decide (p.1 < 1) && decide (0 < p.1)) || (decide (p.2 < 1) && decide (0 < p.2))))
  | .one _ => .error .axisError

/-- The loop variables of `fit`, with the lists kept under `save_estimators` and `save_indices`. -/
structure St (E : Type) where
  est : E
  del : List Bool
  add : List Bool
  margin : List Bool
  ests : List E
  dels : List (List Bool)
  adds : List (List Bool)

/-- Lines 164-208: first estimator and first selection. -/
def dasvmInit (L : Learner α β E K) (k : Nat) (Xs : List α) (ys : List β) (Xt : List α) : Py (St E) := do
  let del := Xs.map (fun _ => false)
  let add := Xt.map (fun _ => false)
  let e ← L.fit Xs ys
  let ds ← RW.batch (L.decision e) Xs
  let dt ← RW.batch (L.decision e) Xt
  let D := dt.map (fun x => (-x, x))
  let D' := D.map (fun p => (-|p.1 - 2 + 1|, -|p.2 - 2 + 1|))
  let del' ← findPoints k del (.two (ds.map (fun x => (-x, x)))) (Xs.map (fun _ => true))
  let margin ← inMargin (.two D)
  let add' ← findPoints k add (.two D') margin
  return ⟨e, del', add', margin, [e], [del, del'], [add, add']⟩

/-- One iteration of the loop, lines 215-258. -/
def dasvmStep [DecidableEq β] (L : Learner α β E K) (k : Nat) (Xs : List α) (ys : List β) (Xt : List α) (s : St E) :
    Py (St E) := do
  let semi ← RW.batch (L.predict s.est) (Np.sel s.add Xt)
  let e ← L.fit (Np.sel (s.del.map (!·)) Xs ++ Np.sel s.add Xt) (Np.sel (s.del.map (!·)) ys ++ semi)
  let add := List.zipWith (fun a x => a && decide (L.predict e x = L.predict s.est x)) s.add Xt
  let ds ← getDecision L e Xs s.del
  let dt ← getDecision L e Xt add
  let del' ← findPoints k s.del ds (Xs.map (fun _ => true))
  let margin ← inMargin dt
  let add' ← findPoints k add dt margin
  return ⟨e, del', add', margin, s.ests ++ [e], s.dels ++ [del'], s.adds ++ [add']⟩

/-- The loop `for i in range(1, max_iter)`, lines 211-258. -/
def dasvmLoop [DecidableEq β] (L : Learner α β E K) (k : Nat) (Xs : List α) (ys : List β) (Xt : List α) :
    Nat → St E → Py (St E)
  | 0, s => .ok s
  | n + 1, s =>
    if s.margin.count true = 0 then .ok s
    else match dasvmStep L k Xs ys Xt s with
      | .error e => .error e
      | .ok s' => dasvmLoop L k Xs ys Xt n s'

/-- The fitted object: `base_estimator_` (final), `base_estimator` (fitted in place on the sources, line 172-173) and the saved
lists. -/
structure Fitted (E : Type) where
  final : E
  base : E
  ests : List E
  dels : List (List Bool)
  adds : List (List Bool)
  deriving DecidableEq

/-- `DASVMClassifier.fit`, skada/_self_labeling.py:137-274. -/
def dasvmFit [DecidableEq β] (L : Learner α β E K) (k maxIter : Nat) (X : List α) (y : List β) (sd : SDArg) :
    Py (Fitted E) := do
  let (X, sd) ← checkXDomain X sd {}
  let (Xs, Xt) ← RW.splitX X sd
  let (ys, _) ← RW.splitX y sd
  let s0 ← dasvmInit L k Xs ys Xt
  let s ← dasvmLoop L k Xs ys Xt (maxIter - 1) s0
  let yt ← RW.batch (L.predict s.est) Xt
  let e ← L.fit Xt yt
  return ⟨e, s0.est, s.ests ++ [e], s.dels ++ [Xs.map (fun _ => true)], s.adds ++ [Xt.map (fun _ => true)]⟩

/-- `predict` (line 280) uses `base_estimator_`. -/
def dasvmPredict (L : Learner α β E K) (f : Fitted E) (x : α) : β := L.predict f.final x

/-- `predict_proba` (line 296) uses `base_estimator`; `proba` is the estimator's method. -/
def dasvmPredictProba {P : Type} (proba : E → α → P) (f : Fitted E) (x : α) : P := proba f.base x

end DASVM

/-! ### Gradual domain adaptation -/

section Gradual
variable {K : Type} [Field K] [LinearOrder K] {d : Nat}

/-- `int(x)`. -/
def trunc (x : ℚ) : Int := if 0 ≤ x then ⌊x⌋ else ⌈x⌉

/-- `l[i]` for a Python integer index. -/
def pyIndex {γ : Type} (l : List γ) (i : Int) : Py γ :=
  let j := if i < 0 then i + l.length else i
  if j < 0 then .error .indexError
  else match l[j.toNat]? with
    | none => .error .indexError
    | some v => .ok v

/-- `_cut_off_gamma`, skada/_gradual_da.py:146-153, for an `n × m` coupling: `(max_index, mask)`. -/
def cutOff (alpha : ℚ) (m : Nat) (gamma : List (List K)) : Py (Int × List (List Bool)) := do
  let n := gamma.length
  let maxIndex := trunc (min (alpha * ((n : ℚ) + m)) (((n * m : Nat) : ℚ) - 1))
  let threshold ← pyIndex (gamma.flatten.insertionSort (· ≤ ·)) (-maxIndex - 1)
  return (maxIndex, gamma.map (fun r => r.map (fun v => decide (threshold ≤ v))))

/-- `_advanced_cut_off_gamma`, skada/_gradual_da.py:155-167. -/
def advancedCutOff (m : Nat) (gamma : List (List K)) : Py (Int × List (List Bool)) := do
  let rowIdx ← gamma.mapM (fun r => Np.argmax r)
  let colIdx ← (List.range m).mapM (fun j => Np.argmax (gamma.map (fun r => r.getD j 0)))
  let mask := (List.range gamma.length).map (fun i => (List.range m).map (fun j =>
    decide (rowIdx[i]? = some j) || decide (colIdx[j]? = some i)))
  return ((mask.flatten.count true : Int) - 1, mask)

/-- `np.argwhere(mask)`: the positions of the `True` entries in row-major order. -/
def argwhere (mask : List (List Bool)) : List (Nat × Nat) :=
  mask.zipIdx.flatMap (fun ri => (Np.flatnonzero ri.1).map (fun j => (ri.2, j)))

/-- One interpolated sample, skada/_gradual_da.py:197-199. -/
def interp (nSteps step : Nat) (xs xt : Fin d → K) : Fin d → K :=
  fun c => ((nSteps : K) - step) * xs c / (nSteps : K) + (step : K) * xt c / (nSteps : K)

/-- `for idx, (i, j) in enumerate(...)`: write row `idx` of `X_step`. -/
def fillRows (nSteps step : Nat) (Xs Xt : List (Fin d → K)) :
    Nat → List (Nat × Nat) → List (Fin d → K) → Py (List (Fin d → K))
  | _, [], out => .ok out
  | idx, (i, j) :: l, out =>
    match Xs[i]?, Xt[j]? with
    | some xs, some xt =>
      if idx < out.length then fillRows nSteps step Xs Xt (idx + 1) l (out.set idx (interp nSteps step xs xt))
      else .error .indexError
    | _, _ => .error .indexError

/-- The samples of `generate_data_at_step`, skada/_gradual_da.py:191-199. -/
def generate (nSteps step : Nat) (Xs Xt : List (Fin d → K)) (maxIndex : Int) (mask : List (List Bool)) :
    Py (List (Fin d → K)) :=
  if maxIndex + 1 < 0 then .error .valueError
  else fillRows nSteps step Xs Xt 0 (argwhere mask) (List.replicate (maxIndex + 1).toNat (fun _ => 0))

/-- A base estimator with an optional `max_iter` attribute. -/
structure GLearner (K : Type) (d : Nat) (β E : Type) where
  fit : Option Nat → List (Fin d → K) → List β → Py E
  predict : E → (Fin d → K) → β

/-- What `fit` leaves behind: the base estimator's `max_iter` and state, `estimators_`, `intermediate_data_`. -/
structure GFit (K : Type) (d : Nat) (β E : Type) where
  maxIter : Option Nat
  est : E
  ests : List E
  data : List (List (Fin d → K) × List β)

/-- Steps `step, step + 1, …` of the loop at skada/_gradual_da.py:134-143, `n` of them.  `max_iter += 100` raises
`AttributeError` on an estimator without that attribute. -/
def gradLoop {β E : Type} (L : GLearner K d β E) (nSteps : Nat) (Xs Xt : List (Fin d → K)) (maxIndex : Int)
    (mask : List (List Bool)) : Nat → Nat → GFit K d β E → Py (GFit K d β E)
  | 0, _, g => .ok g
  | n + 1, step, g => do
    let Xst ← generate nSteps step Xs Xt maxIndex mask
    let yst ← RW.batch (L.predict g.est) Xst
    match g.maxIter with
    | none => .error .attributeError
    | some mi =>
      let e ← L.fit (some (mi + 100)) Xst yst
      gradLoop L nSteps Xs Xt maxIndex mask n (step + 1) ⟨some (mi + 100), e, g.ests ++ [e], g.data ++ [(Xst, yst)]⟩

/-- `GradualEstimator.fit`, skada/_gradual_da.py:89-144, for a given base estimator with attribute `max_iter`.  `coupling` is
`ot_method.fit(...).coupling_`. -/
def gradFit {β E : Type} (L : GLearner K d β E)
    (coupling : List (Fin d → K) → List β → List (Fin d → K) → List β → List (List K)) (alpha : ℚ) (advanced : Bool)
    (nSteps : Nat) (maxIter : Option Nat) (X : List (Fin d → K)) (y : List β) (sd : List Int) : Py (GFit K d β E) := do
  let src := sd.map (fun v => decide (0 ≤ v))
  let tgt := sd.map (fun v => decide (v < 0))
  let Xs ← Np.boolIndex X src
  let ys ← Np.boolIndex y src
  let Xt ← Np.boolIndex X tgt
  let yt ← Np.boolIndex y tgt
  let gamma := coupling Xs ys Xt yt
  let (maxIndex, mask) ← if advanced then advancedCutOff Xt.length gamma else cutOff alpha Xt.length gamma
  let e ← L.fit maxIter Xs ys
  gradLoop L nSteps Xs Xt maxIndex mask nSteps 1 ⟨maxIter, e, [e], []⟩

end Gradual

end SL
end Skada

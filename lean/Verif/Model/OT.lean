/-
Joint distribution optimal transport and label propagation (skada/_ot.py).

The OT solver (POT), the base estimators and the loss functions are parameters; arithmetic is exact in an ordered field `K`.
Arrays indexed by source (target) rows are functions on `Fin ns` (`Fin nt`).
-/
import Verif.Model.Mapping

namespace Skada
namespace OT

section JDOT
variable {K : Type} [Field K] [LinearOrder K] {ns nt : Nat}

/-- The result of `ot.solve`: `sol.plan` and `sol.value`. -/
structure Sol (K : Type) (ns nt : Nat) where
  plan : Fin ns → Fin nt → K
  value : K

/-- What one iteration of a JDOT solver leaves behind: the losses appended to the two lists, the fitted estimator, the OT
solution and the next label cost `Ml`. -/
structure Iter (E K : Type) (ns nt : Nat) where
  lossOt : K
  lossTgt : K
  est : E
  sol : Sol K ns nt
  Ml : Fin ns → Fin nt → K

/-- The loop shared by `solve_jdot_regression` (skada/_ot.py:291-337) and `solve_jdot_classification` (444-497).  `body i Ml` is
iteration `i`.  The lists are kept in order; `prev` are the losses of the previous iteration (`lst[-2]`).  After zero iterations
the `return` statement reads the unset `sol`. -/
def jdotLoop {E : Type} (body : Nat → (Fin ns → Fin nt → K) → Iter E K ns nt) (tol : K) :
    Nat → Nat → (Fin ns → Fin nt → K) → Option (Iter E K ns nt) → List K → List K →
      Py (E × List K × List K × Sol K ns nt)
  | 0, _, _, none, _, _ => .error .unboundLocalError
  | 0, _, _, some r, los, lts => .ok (r.est, los, lts, r.sol)
  | n + 1, i, Ml, prev, los, lts =>
    let r := body i Ml
    let los := los ++ [r.lossOt]
    let lts := lts ++ [r.lossTgt]
    match prev with
    | none => jdotLoop body tol n (i + 1) r.Ml (some r) los lts
    | some q =>
      if |r.lossOt - q.lossOt| < tol then .ok (r.est, los, lts, r.sol)
      else if |r.lossTgt - q.lossTgt| < tol then .ok (r.est, los, lts, r.sol)
      else jdotLoop body tol n (i + 1) r.Ml (some r) los lts

/-- `np.ones((n,)) / n` or `w / w.sum()`, skada/_ot.py:276-283 and 427-434. -/
def marginal {n : Nat} (w : Option (Fin n → K)) : Fin n → K :=
  match w with
  | none => fun _ => 1 / (n : K)
  | some w => fun i => w i / ∑ j, w j

/-- The cost matrix of iteration `i`, skada/_ot.py:292-296 and 445-449. -/
def jdotCost (alpha : K) (Mf Ml : Fin ns → Fin nt → K) (i : Nat) : Fin ns → Fin nt → K :=
  fun s t => if i > 0 then (1 - alpha) * Mf s t + alpha * Ml s t else (1 - alpha) * Mf s t

/-- `np.sum(Ml * T)`. -/
def inner (M T : Fin ns → Fin nt → K) : K := ∑ s, ∑ t, M s t * T s t

/-- `ys.T.dot(T) / b`, skada/_ot.py:310. -/
def transported (ys : Fin ns → K) (T : Fin ns → Fin nt → K) (b : Fin nt → K) : Fin nt → K :=
  fun t => (∑ s, ys s * T s t) / b t

/-- `ot.dist(ys.reshape(-1, 1), y.reshape(-1, 1))`: squared differences. -/
def sqDist (ys : Fin ns → K) (y : Fin nt → K) : Fin ns → Fin nt → K := fun s t => (ys s - y t) ^ 2

/-- One iteration of `solve_jdot_regression`, skada/_ot.py:291-320.  `Mf` is the normalised feature cost; `fit yth` is
`estimator.fit(Xt, yth, **kwargs)`, `predict` evaluates a fitted estimator on `Xt`. -/
def regBody {E : Type} (solve : (Fin ns → Fin nt → K) → (Fin ns → K) → (Fin nt → K) → Sol K ns nt)
    (fit : (Fin nt → K) → E) (predict : E → Fin nt → K) (alpha : K) (Mf : Fin ns → Fin nt → K) (ys : Fin ns → K)
    (a : Fin ns → K) (b : Fin nt → K) (i : Nat) (Ml : Fin ns → Fin nt → K) : Iter E K ns nt :=
  let sol := solve (jdotCost alpha Mf Ml i) a b
  let lossOt := if i = 0 then sol.value + alpha * inner Ml sol.plan else sol.value
  let yth := transported ys sol.plan b
  let est := fit yth
  let pred := predict est
  { lossOt := lossOt, est := est, sol := sol, Ml := sqDist ys pred
    lossTgt := (∑ t, (yth t - pred t) ^ 2) / (nt : K) }

/-- `solve_jdot_regression`, skada/_ot.py:199-337: initial label cost against the zero prediction (line 289). -/
def jdotRegression {E : Type} (solve : (Fin ns → Fin nt → K) → (Fin ns → K) → (Fin nt → K) → Sol K ns nt)
    (fit : (Fin nt → K) → E) (predict : E → Fin nt → K) (alpha : K) (Mf : Fin ns → Fin nt → K) (ys : Fin ns → K)
    (ws : Option (Fin ns → K)) (wt : Option (Fin nt → K)) (nIterMax : Nat) (tol : K) :
    Py (E × List K × List K × Sol K ns nt) :=
  jdotLoop (regBody solve fit predict alpha Mf ys (marginal ws) (marginal wt)) tol nIterMax 0
    (sqDist ys (fun _ => 0)) none [] []

/-! ### Class costs -/

/-- `max(0, 1 - t)`. -/
def hinge (t : K) : K := max 0 (1 - t)

/-- What an estimator offers for the class costs. `decision` is one value per row (binary) or one per class. -/
inductive Scores (K : Type) where
  | binary (v : K)
  | multi (v : List K)

/-- `np.repeat(Yt_pred.reshape(-1, 1), 2, axis=1)` for one-dimensional decision values, skada/_ot.py:75-76 and 186-187. -/
def Scores.expand {K : Type} : Scores K → List K
  | .binary v => [v, v]
  | .multi v => v

/-- One entry of the "hinge" cost: `np.maximum(0, 1 - (2 y - 1) * f).sum()`, skada/_ot.py:71-77 and 182-188. -/
def hingeCost (y : List K) (f : Scores K) : K :=
  (List.zipWith (fun y f => hinge ((2 * y - 1) * f)) y f.expand).sum

/-- One entry of the "multinomial" cost: `-np.sum(y * log_proba)`, skada/_ot.py:60 and 171. -/
def logCost (y logp : List K) : K := - (List.zipWith (· * ·) y logp).sum

/-- Methods of the estimator relevant to the class costs; `logProba` is `predict_log_proba`, `proba` is
`predict_proba` composed with `log(· + 1e-16)`. -/
structure ClassEst (α K : Type) where
  logProba : Option (α → List K)
  proba : Option (α → List K)
  decision : Option (α → Scores K)

/-- One entry of `get_jdot_class_cost_matrix`, skada/_ot.py:53-85: one-hot source label `y`, target row `x`. -/
def classCost {α : Type} (metric : String) (est : Option (ClassEst α K)) (y : List K) (x : α) : Py K :=
  match est with
  | none => .ok 10
  | some e =>
    if metric = "multinomial" then
      match e.logProba, e.proba with
      | some f, _ => .ok (logCost y (f x))
      | none, some f => .ok (logCost y (f x))
      | none, none => .error .valueError
    else if metric = "hinge" then
      match e.decision with
      | some f => .ok (hingeCost y (f x))
      | none => .error .valueError
    else .error .valueError

/-- One row of `OneHotEncoder().fit_transform(ys)`. -/
def oneHot {β : Type} [DecidableEq β] (labels : List β) (c : β) : List K := RW.indicator labels c

/-- `get_data_jdot_class`, skada/_ot.py:88-132: `thr = thr_weights * max(Yth)`; repeat rows, tile labels, flatten weights,
keep entries above the threshold. Returned as a list of `(x, label, weight)`. -/
def dataJdot {α β : Type} (Xt : List α) (Yth : List (List K)) (labels : List β) (thrWeights : K) (maxY : K) :
    List (α × β × K) :=
  let thr := thrWeights * maxY
  let Xh := Xt.flatMap (fun x => List.replicate labels.length x)
  let yh := (List.replicate Yth.length labels).flatten
  let wh := Yth.flatten
  (Xh.zip (yh.zip wh)).filter (fun r => decide (thr < r.2.2))

/-- `get_tgt_loss_jdot_class`, skada/_ot.py:135-196, for the triples of `dataJdot`: `cost` is `logCost` or `hingeCost` of the
row's label and prediction. -/
def tgtLoss {α β : Type} (cost : β → α → K) (data : List (α × β × K)) : K :=
  (data.map (fun r => cost r.2.1 r.1 * r.2.2)).sum

end JDOT

/-! ### Label propagation -/

section LabelProp
variable {K : Type} [Field K] [LinearOrder K] {α : Type}

/-- `G.T.dot(Y)` for target column `j` and class `c`: the mass transported to `j` from source rows of class `c`. `G` is a list
of rows (one per source row). -/
def classMass (G : List (List K)) (ys : List Int) (c : Int) (j : Nat) : K :=
  (List.zipWith (fun g y => g.getD j 0 * (if y = c then 1 else 0)) G ys).sum

/-- `classes[np.argmax(yht, axis=1)]` for target `j`, skada/_ot.py:829-837. -/
def propLabel (G : List (List K)) (ys : List Int) (j : Nat) : Py Int := do
  let classes := Np.unique ys
  let k ← Np.argmax (classes.map (fun c => classMass G ys c j))
  match classes[k]? with
  | some c => pure c
  | none => .error .indexError

/-- The weights: normalised `sample_weight` of each side or `ot.unif`, skada/_ot.py:814-823. -/
def propWeights (n : Nat) (w : Option (List K)) : List K :=
  match w with
  | some w => w.map (· / w.sum)
  | none => List.replicate n (1 / (n : K))

/-- `OTLabelPropAdapter.fit_transform` for discrete labels, skada/_ot.py:811-857: `(X, yout)`.  `plan Xs Xt ws wt` is
`ot.solve(...).plan`. -/
def otLabelProp (plan : List α → List α → List K → List K → List (List K)) (X : List α) (y : List Int) (sd : SDArg)
    (w : Option (List K)) : Py (List α × List Int) := do
  let (X, _, sd) ← checkXyDomain X (y.map (fun v : Int => Num.fin (v : ℚ))) sd {}
  let (Xs, Xt) ← RW.splitX X sd
  let (ys, _) ← RW.splitX y sd
  let (ws, wt) ← Map.splitY w sd
  let G := plan Xs Xt (propWeights Xs.length ws) (propWeights Xt.length wt)
  let yht ← (List.range Xt.length).mapM (propLabel G ys)
  let yout ← Np.boolAssign (y.map (fun _ => -1)) (sd.map (fun d => decide (d < 0))) yht
  return (X, yout)

/-- The continuous branch, skada/_ot.py:839-850: `G.T.dot(ys) / wt` on the targets, NaN (`none`) elsewhere.  `check_X_y_domain` on a
given `sample_domain` is represented by its `X` part. -/
def otLabelPropReg (plan : List α → List α → List K → List K → List (List K)) (X : List α) (y : List K) (sd : SDArg)
    (w : Option (List K)) : Py (List α × List (Option K)) := do
  let (X, sd) ← checkXDomain X sd {}
  let (Xs, Xt) ← RW.splitX X sd
  let (ys, _) ← RW.splitX y sd
  let (ws, wt) ← Map.splitY w sd
  let wt := propWeights Xt.length wt
  let G := plan Xs Xt (propWeights Xs.length ws) wt
  let yht := (List.range Xt.length).map (fun j =>
    some ((List.zipWith (fun g y => g.getD j 0 * y) G ys).sum / wt.getD j 0))
  let yout ← Np.boolAssign (y.map (fun _ => (none : Option K))) (sd.map (fun d => decide (d < 0))) yht
  return (X, yout)

/-- `[X for X, y in d.values()]`, skada/_ot.py:954-961. -/
def domArrays {γ : Type} (l : List (Int × List (Option (List γ)))) : List (List γ) :=
  l.map (fun kv => match kv.2 with | [some X] => X | _ => [])

/-- `JCPOTLabelPropAdapter.fit_transform`, skada/_ot.py:949-984.  `scores Xs ys Xt` is
`JCPOTTransport.fit(...).transform_labels(ys)`: one row of class scores per row of the concatenated target data.  A single
source domain is passed twice (lines 957-959). -/
def jcpot (scores : List (List α) → List (List Int) → List α → List (List K)) (X : List α) (y : List Int) (sd : SDArg) :
    Py (List α × List Int) := do
  let (X, _, sd) ← checkXyDomain X (y.map (fun v : Int => Num.fin (v : ℚ))) sd {}
  let (sources, targets) ← perDomainSplit [some X] sd
  let (sourcesY, _) ← perDomainSplit [some y] sd
  let Xs := domArrays sources
  let ys := domArrays sourcesY
  let (Xs, ys) := if ys.length = 1 then (Xs ++ Xs, ys ++ ys) else (Xs, ys)
  let Xt := (domArrays targets).flatten
  let yh ← (scores Xs ys Xt).mapM (fun r => Np.argmax r)
  let yout ← Np.boolAssign (y.map (fun _ => -1)) (sd.map (fun d => decide (d < 0))) (yh.map (fun k : Nat => (k : Int)))
  return (X, yout)

end LabelProp

end OT
end Skada

/-
Model of skada/metrics.py: the seven domain-aware scorers.

Estimators, wrapped scorers, density estimators, `exp`, `log`, `sqrt` and the power function are parameters.  Numbers are elements of an ordered
field (exact arithmetic); where NumPy can produce NaN, the value is an `Option` with `none` for NaN.  Warnings are not modelled.  Every
`_score` starts with `check_X_y_domain(X, y, sample_domain, allow_nd=True)` and `extract_source_indices`.
-/
import Verif.Model.Domain
import Verif.Model.SplitMerge
import Mathlib.Algebra.Order.Field.Basic

namespace Skada.Score

open Np

variable {α β : Type}
variable {K : Type} [Field K] [LinearOrder K] [IsStrictOrderedRing K]

/-- `self._sign * score` with `sign=1 if greater_is_better else -1` (skada/metrics.py:72, 81, 208, …) -/
def signed (greaterIsBetter : Bool) (s : K) : K := (if greaterIsBetter then 1 else -1) * s

/-- `np.mean` of a list (of a non-empty one; empty lists are handled by the callers). -/
def mean (l : List K) : K := l.sum / l.length

/-! ### SupervisedScorer -/

/-- `_estimator_score` (skada/metrics.py:36-37), used when `scoring=None`: the keyword `sample_domain` is dropped.  `score` is the
estimator's own method, its third argument the `sample_domain` it receives. -/
def estimatorScore (score : List α → List β → SDArg → Py K) (X : List α) (y : List β) (_sd : List Int) : Py K := score X y .none

/-- `SupervisedScorer._score` (skada/metrics.py:76-87).  `scoring X y sd` is the wrapped scorer applied to the estimator.  Subscripting
`target_labels=None` is a `TypeError`. -/
def supervised (gib : Bool) (scoring : List α → List β → List Int → Py K) (X : List α) (y : List Num) (sd : SDArg)
    (targetLabels : Option (List β)) : Py K := do
  let (X, _, sd) ← checkXyDomain X y sd {}
  let src ← extractSourceIndices sd
  let Xt ← boolIndex X (src.map (!·))
  let yt ← match targetLabels with
    | none => .error .typeError
    | some t => boolIndex t (src.map (!·))
  let sdt ← boolIndex sd (src.map (!·))
  let s ← scoring Xt yt sdt
  .ok (signed gib s)

/-! ### ImportanceWeightedScorer -/

/-- The weights (skada/metrics.py:189-195).  `ratio t s` is `np.exp(t - s)` for the log-densities `t`, `s` of type `L`. -/
def iwWeights {L : Type} (ratio : L → L → K) (wt ws : List L) : List K :=
  let w := List.zipWith ratio wt ws
  if w.sum ≠ 0 then w.map (fun x => x / w.sum) else w.map (fun _ => 1 / (w.length : K))

/-- `ImportanceWeightedScorer._score` with `_fit` (skada/metrics.py:139-208).  `fit rows` is the log-density of a fresh clone of the weight
estimator fitted on `rows`; `accepts` tells whether the estimator's `score` consumes `sample_weight` (line 167); `scorer X y sd w` is the
wrapped scorer with `allow_source=True`.  Rows are flattened before fitting (lines 183-184), which does not change their number. -/
def importanceWeighted {L : Type} (gib accepts : Bool) (fit : List α → Py (α → L)) (ratio : L → L → K)
    (scorer : List α → List Num → List Int → List K → Py K) (X : List α) (y : List Num) (sd : SDArg) : Py K := do
  if !accepts then .error .valueError
  let (X, y, sd) ← checkXyDomain X y sd {}
  let src ← extractSourceIndices sd
  let Xs ← boolIndex X src
  let Xt ← boolIndex X (src.map (!·))
  let ys ← boolIndex y src
  let fs ← fit Xs
  let ft ← fit Xt
  let sds ← boolIndex sd src
  let s ← scorer Xs ys sds (iwWeights ratio (Xs.map ft) (Xs.map fs))
  .ok (signed gib s)

/-! ### PredictionEntropyScorer -/

inductive Reduction where
  | none | sum | mean
  deriving DecidableEq

/-- The check of `PredictionEntropyScorer.__init__` (skada/metrics.py:248-252). -/
def reductionOf (s : String) : Py Reduction :=
  if s = "none" then .ok .none else if s = "mean" then .ok .mean else if s = "sum" then .ok .sum else .error .valueError

/-- What a scorer returns: a number or, for `reduction="none"`, a matrix. -/
inductive Out (K : Type) where
  | scalar (x : K)
  | matrix (m : List (List K))
  deriving DecidableEq

/-- One entry of `entropy_per_sample` (skada/metrics.py:271-273); `none` is the log-probability `-inf`. -/
def entropyEntry (p : K) : Option K → K
  | none => 0
  | some l => -p * l

/-- The whole matrix. -/
def entropyEntries (proba : List (List K)) (logProba : List (List (Option K))) : List (List K) :=
  List.zipWith (List.zipWith entropyEntry) proba logProba

/-- Lines 274-279. -/
def reduce (gib : Bool) (red : Reduction) (m : List (List K)) : Out K :=
  match red with
  | .none => .matrix (m.map (fun r => r.map (signed gib)))
  | .sum => .scalar (signed gib m.flatten.sum)
  | .mean => .scalar (signed gib (mean m.flatten))

/-- The log-probabilities (skada/metrics.py:265-270): `predict_log_proba`, or without such a method `np.log(proba + 1e-7)`. -/
def logProbaOf (logProba : Option (List α → List Int → Py (List (List (Option K))))) (lg : K → Option K) (p : List (List K))
    (Xt : List α) (sdt : List Int) : Py (List (List (Option K))) :=
  match logProba with
  | some f => f Xt sdt
  | none => .ok (p.map (fun r => r.map (fun x => lg (x + 1 / 10000000))))

/-- `PredictionEntropyScorer._score` (skada/metrics.py:254-279).  `proba` is `predict_proba` (`none`: no such method); `logProba` is
`predict_log_proba` (`none`: no such method); `lg` is the logarithm. -/
def predictionEntropy (gib : Bool) (red : Reduction) (proba : Option (List α → List Int → Py (List (List K))))
    (logProba : Option (List α → List Int → Py (List (List (Option K))))) (lg : K → Option K) (X : List α) (y : List Num) (sd : SDArg) :
    Py (Out K) :=
  match proba with
  | none => .error .attributeError
  | some proba => do
    let (X, _, sd) ← checkXyDomain X y sd {}
    let src ← extractSourceIndices sd
    let Xt ← boolIndex X (src.map (!·))
    let sdt ← boolIndex sd (src.map (!·))
    let p ← proba Xt sdt
    let lp ← logProbaOf logProba lg p Xt sdt
    .ok (reduce gib red (entropyEntries p lp))

/-! ### SoftNeighborhoodDensity -/

/-- Inner product of two rows. -/
def dot (a b : List K) : K := (List.zipWith (· * ·) a b).sum

/-- `Normalizer(norm="l2")` on one row: a zero row is left as it is (sklearn). -/
def l2row (sqrt : K → K) (r : List K) : List K :=
  let n := sqrt (dot r r)
  if n = 0 then r else r.map (fun x => x / n)

/-- `proba @ proba.T / T` with the diagonal negated (skada/metrics.py:329-330). -/
def similarity (T : K) (P : List (List K)) : List (List K) :=
  P.mapIdx (fun i a => P.mapIdx (fun j b => if i = j then -(dot a b / T) else dot a b / T))

/-- Largest entry of a non-empty list (0 for the empty one, never used). -/
def maxOf : List K → K
  | [] => 0
  | x :: l => l.foldl max x

/-- Smallest entry of a non-empty list (0 for the empty one, never used). -/
def minOf : List K → K
  | [] => 0
  | x :: l => l.foldl min x

/-- sklearn's `softmax` on one row: subtract the maximum, exponentiate, divide by the sum. -/
def softmaxRow (ex : K → K) (r : List K) : List K :=
  let e := r.map (fun x => ex (x - maxOf r))
  e.map (fun x => x / e.sum)

/-- `np.sum(-s * np.log(s), axis=1)` for one row (skada/metrics.py:333): `0 * log 0` is NaN. -/
def rowEntropy (lg : K → K) (r : List K) : Option K :=
  if 0 ∈ r then none else some ((r.map (fun s => -s * lg s)).sum)

/-- `SoftNeighborhoodDensity._score` (skada/metrics.py:315-334). -/
def softNeighborhood (gib : Bool) (T : K) (proba : Option (List α → List Int → Py (List (List K)))) (sqrt ex lg : K → K)
    (X : List α) (y : List Num) (sd : SDArg) : Py (Option K) :=
  match proba with
  | none => .error .attributeError
  | some proba => do
    let (X, _, sd) ← checkXyDomain X y sd {}
    let src ← extractSourceIndices sd
    let Xt ← boolIndex X (src.map (!·))
    let sdt ← boolIndex sd (src.map (!·))
    let p ← proba Xt sdt
    let S := (similarity T (p.map (l2row sqrt))).map (softmaxRow ex)
    .ok ((S.mapM (rowEntropy lg)).map (fun e => signed gib (mean e)))

/-! ### DeepEmbeddedValidation -/

/-- The per-sample losses returned by `loss_func`: a one-dimensional array, as the default loss gives, or a column. -/
inductive Losses (K : Type) where
  | flat (e : List K)
  | column (e : List K)
  deriving DecidableEq

/-- Number of losses, `error.shape[0]`. -/
def Losses.len : Losses K → Nat
  | .flat e => e.length
  | .column e => e.length

/-- The columns of `weights * error` (skada/metrics.py:470): `weights` has shape `(n, 1)`; with a one-dimensional `error` NumPy
broadcasts to an `(n, n)` matrix, with a column it multiplies row by row. -/
def weightedColumns (w : List K) : Losses K → List (List K)
  | .flat e => e.map (fun ej => w.map (fun wi => wi * ej))
  | .column e => [List.zipWith (· * ·) w e]

/-- Sample covariance with `n - 1` (`np.cov`, `np.var(ddof=1)`). -/
def cov (a b : List K) : K :=
  (List.zipWith (fun x y => (x - mean a) * (y - mean b)) a b).sum / ((a.length : K) - 1)

/-- The domain ratio weights (skada/metrics.py:462); `pt`, `ps` are the two columns of `domain_pred`. -/
def devWeights (nTrain nTarget : Nat) (pt ps : List K) : List K :=
  List.zipWith (fun t s => (nTrain : K) / nTarget * t / s) pt ps

/-- The control-variate formula (skada/metrics.py:467-479).  One validation row only: covariance and variance are NaN. -/
def devScore (gib : Bool) (w : List K) (error : Losses K) : Py (Option K) :=
  if w.length ≠ error.len then .error .assertionError
  else
    let cols := weightedColumns w error
    match cols ++ [w] with
    | a :: b :: _ =>
      if w.length < 2 then .ok none
      else
        let eta := if cov w w = 0 then 0 else -cov a b / cov w w
        .ok (some (signed gib (mean cols.flatten + eta * mean w - eta)))
    | _ => .error .indexError

/-- `cross_entropy_loss` (skada/metrics.py:481-511): row `y_true` of the identity matrix selects the probability, so a negative label
counts from the end and one outside `[-C, C)` is an `IndexError`. -/
def crossEntropy (lg : K → K) (eps : K) (y : Int) (p : List K) : Py K :=
  let C : Int := p.length
  if y < -C ∨ C ≤ y then .error .indexError
  else
    let k := (if y < 0 then y + C else y).toNat
    .ok (-((List.zipWith (· * ·) ((List.range p.length).map (fun j => if j = k then 1 else 0))
      (p.map (fun x => lg (min (max x eps) (1 - eps))))).sum))

/-! ### CircularValidation -/

/-- `LabelEncoder().fit(l).transform(l)`: rank among the sorted distinct values. -/
def encode (l : List ℚ) : List ℚ := l.map (fun v : ℚ => (((unique l).idxOf v : Nat) : ℚ))

/-- `le.inverse_transform`: values that are not a position among the classes raise `ValueError`. -/
def decode (classes : List ℚ) (l : List ℚ) : Py (List ℚ) :=
  l.mapM (fun v : ℚ => if v.den = 1 ∧ 0 ≤ v then
    match classes[v.num.toNat]? with
    | some c => .ok c
    | none => .error .valueError
    else .error .valueError)

/-- `CircularValidation._score` (skada/metrics.py:559-648).  `predict` is the fitted estimator, `refit X y sd X' sd'` the prediction on
`X'`, `sd'` of its copy fitted on `X`, `y`, `sd`.  Predictions are finite numbers.  Array types: labels fit into the type of `y`. -/
def circular (gib : Bool) (scorer : List Num → List ℚ → Py K) (predict : List α → List Int → Py (List ℚ))
    (refit : List α → List Num → List Int → List α → List Int → Py (List ℚ)) (X : List α) (y : List Num) (sd : SDArg) : Py K := do
  let (X, y, sd) ← checkXyDomain X y sd {}
  let _ ← checkYMasking y
  let src ← extractSourceIndices sd
  let Xt ← boolIndex X (src.map (!·))
  let sdt ← boolIndex sd (src.map (!·))
  let pt ← predict Xt sdt
  let ys ← boolIndex y src
  match unique pt with
  | [c] => do
    let s ← scorer ys (ys.map (fun _ => c))
    .ok (signed gib s)
  | classes => do
    let ty ← findYType ys
    let enc := if ty = .discrete then encode pt else pt
    let bsd := sd.map (fun d => -d)
    let by0 := y.map (fun _ => Num.fin 0)
    let by1 ← boolAssign by0 (src.map (!·)) (enc.map Num.fin)
    let by2 ← boolFill by1 src (if ty = .discrete then .fin (-1) else .nan)
    let Xs ← boolIndex X src
    let bsds ← boolIndex bsd src
    let ps ← refit X by2 bsd Xs bsds
    let ps ← if ty = .discrete then decode classes ps else .ok ps
    let s ← scorer ys ps
    .ok (signed gib s)

/-! ### MixValScorer -/

inductive Ice where
  | both | intra | inter
  deriving DecidableEq

/-- The check of `MixValScorer.__init__` (skada/metrics.py:714-715). -/
def iceOf (s : String) : Py Ice :=
  if s = "both" then .ok .both else if s = "intra" then .ok .intra else if s = "inter" then .ok .inter else .error .valueError

/-- One ICE score (skada/metrics.py:768-788): NaN for no rows, else the wrapped scorer on the chosen mixed rows, all with domain -1. -/
def ice (scorer : List (List K) → List β → List Int → Py K) (mix : List (List K)) (lab : List β) (idx : List Nat) : Py (Option K) :=
  if idx = [] then .ok none
  else do
    let m ← take mix idx
    let l ← take lab idx
    let s ← scorer m l (idx.map (fun _ => -1))
    .ok (some s)

/-- `np.nanmean` of two values (NaN if both are). -/
def nanmean2 : Option K → Option K → Option K
  | some a, some b => some ((a + b) / 2)
  | some a, none => some a
  | none, some b => some b
  | none, none => none

/-- `MixValScorer._score` (skada/metrics.py:717-797).  `perm` is `rng.permutation(n_target)`; `predict` the estimator's predictions;
rows are lists of features. -/
def mixVal [DecidableEq β] (gib : Bool) (alpha : K) (kind : Ice) (scorer : List (List K) → List β → List Int → Py K)
    (predict : List (List K) → List Int → Py (List β)) (perm : List Nat) (X : List (List K)) (y : List Num) (sd : SDArg) :
    Py (Option K) := do
  let (X, _, sd) ← checkXyDomain X y sd {}
  let src ← extractSourceIndices sd
  let Xt ← boolIndex X (src.map (!·))
  match ← findYType y with
  | .continuous => .error .valueError
  | .discrete => do
    let sdt ← boolIndex sd (src.map (!·))
    let la ← predict Xt sdt
    let lb ← take la perm
    let same := flatnonzero (List.zipWith (fun a b => decide (a = b)) la lb)
    let diff := flatnonzero (List.zipWith (fun a b => decide (a ≠ b)) la lb)
    let Xp ← take Xt perm
    let mix := List.zipWith (List.zipWith (fun a b => alpha * a + (1 - alpha) * b)) Xt Xp
    let lab := if 1 / 2 ≤ alpha then la else lb
    let s ← if kind = .inter then .ok none else ice scorer mix lab same
    let d ← if kind = .intra then .ok none else ice scorer mix lab diff
    let r := match kind with
      | .both => nanmean2 s d
      | .intra => s
      | .inter => d
    .ok (r.map (signed gib))

/-! ### MaNoScorer -/

/-- The check of `MaNoScorer.__init__` (skada/metrics.py:848-849). -/
def manoInit (p : K) : Py Unit := if p ≤ 0 then .error .valueError else .ok ()

/-- `logits -= np.max(logits, axis=1, keepdims=True)` on one row (skada/metrics.py:919), done in place. -/
def shiftRow (r : List K) : List K := r.map (fun x => x - maxOf r)

/-- The rest of `_stable_softmax` on a shifted row (skada/metrics.py:920-922). -/
def expRow (ex : K → K) (r : List K) : List K :=
  let e := r.map ex
  e.map (fun x => x / e.sum)

/-- `_taylor_softmax` on one row (skada/metrics.py:924-931); a zero sum gives `0/0`, NaN. -/
def taylorRow (r : List K) : Option (List K) :=
  let t := r.map (fun x => 1 + x + x ^ 2 / 2)
  let u := t.map (fun x => x - minOf t)
  if u.sum = 0 then none else some (u.map (fun x => x / u.sum))

/-- `_get_criterion` (skada/metrics.py:892-901).  `_stable_softmax` shifts the caller's `logits` in place, so the shifted matrix is returned too. -/
def criterion (ex lg : K → K) (logits : List (List K)) : K × List (List K) :=
  let sh := logits.map shiftRow
  (-(mean ((sh.map (expRow ex)).flatten.map lg)), sh)

/-- `_softrun` (skada/metrics.py:903-914).  `logits` is the matrix left behind by `criterion`. -/
def softrun (ex : K → K) (logits : List (List K)) (crit threshold : K) : Option (List (List K)) :=
  if threshold < crit then some ((logits.map shiftRow).map (expRow ex)) else logits.mapM taylorRow

/-- `np.mean(proba**p) ** (1/p)` (skada/metrics.py:888); `pw` is the power function. -/
def manoAggregate (pw : K → K → K) (p : K) (proba : List (List K)) : K :=
  pw (mean (proba.flatten.map (fun x => pw x p))) (1 / p)

/-- How the estimator gives its predictions (skada/metrics.py:852-885): a scikit-learn pipeline with `predict_proba`, or a network with
logits whose `layer_name` may be unset. -/
inductive Predictor (α K : Type) where
  | noProba
  | pipeline (proba : List α → List Int → Py (List (List K)))
  | network (layerSet : Bool) (infer : List α → Py (List (List K)))

/-- `MaNoScorer._score` (skada/metrics.py:851-890). -/
def mano (gib : Bool) (p threshold : K) (pw : K → K → K) (ex lg : K → K) (est : Predictor α K) (X : List α) (y : List Num) (sd : SDArg) :
    Py (Option K) :=
  match est with
  | .noProba => .error .attributeError
  | est => do
    let (X, y, sd) ← checkXyDomain X y sd {}
    let src ← extractSourceIndices sd
    let Xt ← boolIndex X (src.map (!·))
    let sdt ← boolIndex sd (src.map (!·))
    match ← findYType y with
    | .continuous => .error .valueError
    | .discrete => do
      let proba ← match est with
        | .noProba => .error .attributeError
        | .pipeline f => do let q ← f Xt sdt; .ok (some q)
        | .network layerSet infer =>
          if !layerSet then .error .valueError
          else do
            let logits ← infer Xt
            let (crit, sh) := criterion ex lg logits
            .ok (softrun ex sh crit threshold)
      .ok (proba.map (fun q => signed gib (manoAggregate pw p q)))

end Skada.Score

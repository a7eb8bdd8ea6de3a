/-
Model of the adversarial deep methods: skada/deep/_adversarial.py, the domain classifier of skada/deep/modules.py, `SPALoss` of
skada/deep/_graph_alignment.py, the epoch counter of skada/deep/callbacks.py and `check_generator` of skada/deep/utils.py.

Numbers are elements of an ordered field, `exp` and `log` are parameters; NaN is `none`.  The layers of the domain classifier before its
final `Softmax` are an arbitrary function of the batch.  Autograd is modelled only for the gradient reversal layer.
-/
import Verif.Model.DeepLosses

namespace Skada.Adv

open Np

variable {K : Type} [Field K] [LinearOrder K] {d c : Nat}

/-! ### Domain classifier -/

/-- `DomainClassifier.forward` without `squeeze` (skada/deep/modules.py:170-196).  The layers before the softmax are `layers`; `nn.Softmax()`
without a dimension normalises the rows of a two-dimensional input. -/
def domainClassifier (ex : K → K) (layers : List (Fin d → K) → List (Fin c → K)) (X : List (Fin d → K)) : List (Fin c → K) :=
  (layers X).map (DL.softmaxT ex 1)

/-- `.squeeze()` of the output of a classifier with one class (skada/deep/modules.py:196), more than one row. -/
def squeeze1 (P : List (Fin 1 → K)) : List K := P.map (fun p => p 0)

/-- A layer of the tape: its value and the map from the gradient of the output to the gradient of the input. -/
structure Layer (A B : Type) where
  /-- forward -/
  fwd : A → B
  /-- backward at an input -/
  bwd : A → B → A

/-- Composition of layers: the chain rule of autograd. -/
def Layer.comp {A B C : Type} (g : Layer B C) (f : Layer A B) : Layer A C :=
  ⟨fun x => g.fwd (f.fwd x), fun x dz => f.bwd x (g.bwd (f.fwd x) dz)⟩

/-- `GradientReversalLayer` (skada/deep/modules.py:136-153) on vectors -/
def reversal (alpha : K) : Layer (Fin d → K) (Fin d → K) := ⟨fun x => x, fun _ g => fun j => -(g j) * alpha⟩

/-! ### Binary cross-entropy, DANN and CDAN -/

/-- `log` as clamped in `torch.nn.BCELoss` -/
def clampLog (lg : K → K) (p : K) : K := if p ≤ 0 then -100 else max (lg p) (-100)

/-- The binary cross-entropy of one prediction `p` and label `y` -/
def bceTerm (lg : K → K) (p y : K) : K := -(y * clampLog lg p + (1 - y) * clampLog lg (1 - p))

/-- `torch.nn.BCELoss()`: sizes must agree, predictions must lie in [0, 1], the mean over an empty batch is NaN. -/
def bceLoss (lg : K → K) (P Y : List K) : Py (Option K) :=
  if P.length ≠ Y.length then .error .valueError
  else if P.any (fun p => decide (p < 0) || decide (1 < p)) then .error .runtimeError
  else if P = [] then .ok none
  else .ok (some (DL.mean (List.zipWith (bceTerm lg) P Y)))

/-- Sum of two losses -/
def addLoss (a b : Option K) : Option K :=
  match a, b with
  | some x, some y => some (x + y)
  | _, _ => none

/-- `DANNLoss.forward` (skada/deep/_adversarial.py:52-73) for one-dimensional domain predictions -/
def dannLoss (crit : List K → List K → Py (Option K)) (ps pt : List K) : Py (Option K) := do
  let a ← crit ps (List.replicate ps.length 0)
  let b ← crit pt (List.replicate pt.length 1)
  return addLoss a b

/-- `CDANLoss.forward` (skada/deep/_adversarial.py:178-203): the sizes of the labels are those of the features. -/
def cdanLoss {F : Type} (crit : List K → List K → Py (Option K)) (ps pt : List K) (fs ft : List F) : Py (Option K) := do
  let a ← crit ps (List.replicate fs.length 0)
  let b ← crit pt (List.replicate ft.length 1)
  return addLoss a b

/-! ### Multilinear map of CDAN -/

/-- `bmm(y_pred.unsqueeze(2), features.unsqueeze(1)).view(-1, n_features * n_classes)` (skada/deep/_adversarial.py:268-270): row by row the outer
product of the predictions and the features, flattened. -/
def multilinear (Y X : List (List K)) : List (List K) :=
  List.zipWith (fun y x => y.flatMap (fun a => x.map (fun b => a * b))) Y X

/-- `torch.mm(row, R)` for one row; `R` has one list per input dimension, `D` columns. -/
def mulRow (D : Nat) (x : List K) (R : List (List K)) : List K :=
  (List.range D).map (fun k => (List.zipWith (fun a r => a * r.getD k 0) x R).sum)

/-- `_RandomLayer.forward` on two inputs (skada/deep/_adversarial.py:577-589); `root D` is `math.pow(D, 1/2)`. -/
def randomMap (root : Nat → K) (D : Nat) (R0 R1 : List (List K)) (X Y : List (List K)) : List (List K) :=
  List.zipWith (fun x y => List.zipWith (fun a b => a / root D * b) (mulRow D x R0) (mulRow D y R1)) X Y

/-- The input of the domain classifier in `CDANModule.forward` (skada/deep/_adversarial.py:254-273); `randn` gives the two random matrices. -/
def cdanInput (root : Nat → K) (maxF F C : Nat) (R0 R1 : List (List K)) (X Y : List (List K)) : List (List K) :=
  if F * C > maxF then randomMap root maxF R0 R1 X Y else multilinear Y X

/-- The input size of the domain classifier that `CDAN` creates (skada/deep/_adversarial.py:345-355) -/
def cdanSize (maxF : Nat) (numFeatures nClasses : Option Nat) : Py Nat :=
  match numFeatures, nClasses with
  | none, _ => .error .valueError
  | some _, none => .error .valueError
  | some f, some c => .ok (min (f * c) maxF)

/-! ### Generators -/

/-- State of a torch generator: seed and number of values drawn since. -/
structure Gen where
  /-- seed -/
  seed : Int
  /-- values drawn -/
  used : Nat
deriving DecidableEq

/-- What is passed as `seed` to `check_generator`. -/
inductive SeedArg
  | none
  | int (n : Int)
  | gen (g : Gen)
  | other

/-- Which generator is returned: the global one or the given one. -/
inductive GenRef
  | global
  | given (g : Gen)

/-- `check_generator` (skada/deep/utils.py:39-63): the returned generator and the state of the global one afterwards.  `torch.random.manual_seed`
reseeds the global generator; `fresh` is the random seed used for `None`. -/
def checkGenerator (fresh : Int) (a : SeedArg) (global : Gen) : Py (GenRef × Gen) :=
  match a with
  | .none => .ok (.global, ⟨fresh, 0⟩)
  | .int n => .ok (.global, ⟨n, 0⟩)
  | .gen g => .ok (.given g, global)
  | .other => .error .valueError

/-- One training forward pass of `CDANModule` with an integer `random_state` as far as the global generator is concerned
(skada/deep/_adversarial.py:249-263, 569-575): the network draws `net` values (dropout), then, if the random layer is used, the generator is reseeded
and `F * D + C * D` values are drawn.  The result is the state at which the network drew its values and the state after the pass. -/
def cdanRng (maxF F C : Nat) (seed : Int) (net : Nat) (g : Gen) : Gen × Gen :=
  let g1 : Gen := ⟨g.seed, g.used + net⟩
  if F * C > maxF then
    match checkGenerator 0 (.int seed) g1 with
    | .ok (_, g2) => (g, ⟨g2.seed, g2.used + (F * maxF + C * maxF)⟩)
    | .error _ => (g, g1)
  else (g, g1)

/-- Several passes, with the states at which the network drew its values. -/
def cdanRuns (maxF F C : Nat) (seed : Int) : List Nat → Gen → List Gen
  | [], _ => []
  | net :: l, g => (cdanRng maxF F C seed net g).1 :: cdanRuns maxF F C seed l (cdanRng maxF F C seed net g).2

/-! ### Margin disparity discrepancy -/

/-- `torch.nn.CrossEntropyLoss()` for one row of scores -/
def crossEntropy (ex lg : K → K) (y : Fin c → K) (k : Fin c) : K := - lg (ex (y k) / ∑ j, ex (y j))

/-- Smoothed probabilities (skada/deep/_adversarial.py:408-412) -/
def smoothProb (ex : K → K) (s : K) (y : Fin c → K) : Fin c → K := fun k => (1 - s) * DL.softmaxT ex 1 y k + s / (c : K)

/-- `ModifiedCrossEntropyLoss.forward` (skada/deep/_adversarial.py:391-421).  `smooth_prob[..., target]` indexes the columns of every row by all
targets, so the mean runs over all pairs of a row and a target; the mean over an empty batch is NaN. -/
def modifiedCE (ex lg : K → K) (s : K) (Y : List (Fin c → K)) (target : List (Fin c)) : Option K :=
  if Y = [] ∨ target = [] then none
  else some (DL.mean (Y.flatMap (fun y => target.map (fun k => lg (1 - smoothProb ex s y k)))))

/-- First largest entry of a non-empty row of scores -/
def argmaxFin [NeZero c] (y : Fin c → K) : Fin c :=
  (List.finRange c).foldl (fun best k => if y best < y k then k else best) 0

/-- `MDDLoss.forward` (skada/deep/_adversarial.py:451-471); `D` are the domain predictions. -/
def mddLoss [NeZero c] (ex lg : K → K) (s gamma : K) (Ys Yt Ds Dt : List (Fin c → K)) : Option K :=
  let ls := Ys.map argmaxFin
  let lt := Yt.map argmaxFin
  let a := if Ds = [] then none else some (DL.mean (List.zipWith (crossEntropy ex lg) Ds ls))
  match a, modifiedCE ex lg s Dt lt with
  | some x, some t => some (gamma * x - t)
  | _, _ => none

/-! ### SPA -/

/-- `SPALoss._scheduler_adv` (skada/deep/_graph_alignment.py:76-83); `max_epochs = 0` is a `ZeroDivisionError`. -/
def schedulerAdv (ex : K → K) (high low alpha : K) (n maxEpochs : Nat) : Py K :=
  if maxEpochs = 0 then .error .zeroDivisionError
  else .ok (2 * (high - low) / (1 + ex (-alpha * (n : K) / (maxEpochs : K))) - (high - low) + low)

/-- `SPALoss._scheduler_nap` (skada/deep/_graph_alignment.py:85-86) -/
def schedulerNap (n maxEpochs : Nat) : Py K :=
  if maxEpochs = 0 then .error .zeroDivisionError else .ok ((n : K) / (maxEpochs : K))

/-- `SPALoss.forward` (skada/deep/_graph_alignment.py:88-132) from its three parts (`gda` uses the metric "gauss", the default Laplacian). -/
def spaLoss (ex : K → K) (crit : List K → List K → Py (Option K)) (gda nap : Py (Option K)) (regAdv regGsa regNap : K) (n maxEpochs : Nat)
    (ps pt : List K) : Py (Option K) := do
  let scale ← schedulerAdv ex 1 0 10 n maxEpochs
  let adv ← dannLoss crit ps pt
  let g ← gda
  let scale' ← schedulerNap n maxEpochs
  let p ← nap
  return addLoss (addLoss (adv.map (fun x => regAdv * scale * x)) (g.map (fun x => regGsa * x))) (p.map (fun x => regNap * scale' * x))

/-- Counters touched by `CountEpochs` (skada/deep/callbacks.py:173-182): the callback's own and the criterion's `n_epochs`. -/
structure Epochs where
  /-- `CountEpochs.n_epochs` -/
  own : Option Nat
  /-- `SPALoss.n_epochs` -/
  crit : Nat
deriving DecidableEq

/-- Training events seen by callbacks. -/
inductive Event
  | trainBegin
  | epochBegin
deriving DecidableEq

/-- `CountEpochs` on one event (skada/deep/callbacks.py:176-182): the counter of the criterion is never reset. -/
def Epochs.step (s : Epochs) : Event → Epochs
  | .trainBegin => { s with own := some 0 }
  | .epochBegin => { s with crit := s.crit + 1 }

/-- The events of one call of `fit` that runs `k` epochs. -/
def fitEvents (k : Nat) : List Event := .trainBegin :: List.replicate k .epochBegin

/-- The counters of a freshly created network (skada/deep/_graph_alignment.py:74) -/
def Epochs.init : Epochs := ⟨none, 0⟩

/-- The counter that the loss sees in each epoch of a run. -/
def Epochs.seen : Epochs → List Event → List Nat
  | _, [] => []
  | s, .trainBegin :: l => Epochs.seen (s.step .trainBegin) l
  | s, .epochBegin :: l => (s.step .epochBegin).crit :: Epochs.seen (s.step .epochBegin) l

end Skada.Adv

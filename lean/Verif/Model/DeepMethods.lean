/-
The deep methods as assembled by their factories: `DeepCoral`, `DAN`, `CAN` (skada/deep/_divergence.py), `MCC` (skada/deep/_class_confusion.py),
`DeepJDOT` (skada/deep/_optimal_transport.py), `DANN`, `CDAN`, `MDD` (skada/deep/_adversarial.py) and `SPA` (skada/deep/_graph_alignment.py).

A factory gives a `Net`: module, criterion, adaptation loss, weight of the adaptation loss, optimiser and callbacks.  Numbers are elements of an
ordered field; `nan` is the (arbitrary) value that stands for NaN when an adaptation loss is NaN, so nothing can be concluded about such
a step.  The attributes that callbacks store on the adaptation loss (clusters of `CAN`, memory and epoch counter of `SPA`) are read from the state.
-/
import Verif.Model.DeepNet

namespace Skada
namespace Deep

variable {σ K α P D F Y : Type} [Field K] [LinearOrder K] {d c : Nat}

/-! ### The base criterion -/

/-- A base criterion: a torch loss with the value of one row and the attribute `reduction`, or a callable without that attribute. -/
inductive BaseCrit (K P Y : Type) where
  | torch (row : P → Y → K) (reduction : String)
  | other (f : List P → List Y → Py (Loss K))

/-- Calling the base criterion.  The mean over no rows is NaN; an unknown reduction is a `ValueError`. -/
def BaseCrit.eval (nan : K) : BaseCrit K P Y → List P → List Y → Py (Loss K)
  | .other f, p, y => f p y
  | .torch row red, p, y =>
    if p.length ≠ y.length then .error .valueError
    else if red = "none" then .ok (.vec (List.zipWith row p y))
    else if red = "mean" then .ok (.scalar (if p = [] then nan else (List.zipWith row p y).sum / (p.length : K)))
    else if red = "sum" then .ok (.scalar (List.zipWith row p y).sum)
    else .error .valueError

/-- `DomainAwareCriterion.__init__`, skada/deep/base.py:59-76: the attribute `reduction` of the base criterion is overwritten. -/
def BaseCrit.init (reduction : String) : BaseCrit K P Y → BaseCrit K P Y
  | .torch row _ => .torch row reduction
  | .other f => .other f

/-! ### Assembling -/

/-- The remaining keyword arguments of the factories: `criterion__reduction` (default "mean"), the optimiser and the callbacks. -/
structure Kw (σ K α Y : Type) where
  reduction : String
  opt : σ → (σ → Py (σ × Option K)) → Py σ
  epochBegin : σ → DS K α Y → Py σ
  batchEnd : σ → Batch K α Y → Py σ

/-- The base module: predictions and layer outputs. -/
abbrev BaseModule (σ K α P F : Type) := σ → List α → Option (Option (List K)) → Py (σ × List P × (String → Option (List F)))

/-- A domain classifier. -/
abbrev Classifier (σ D F : Type) := σ → Option (List F) → Py (σ × List D)

/-- `DomainAwareNet(module=DomainAwareModule, criterion=DomainAwareCriterion, …)` with the arguments of the factories, for instance
skada/deep/_divergence.py:89-99. -/
def domainAware (nan : K) (base : BaseModule σ K α P F) (layer : Option String) (clf : Option (Classifier σ D F)) (crit : BaseCrit K P Y)
    (adapt : σ → AdaptArgs P D F Y → Py K) (reg : K) (kw : Kw σ K α Y) : Net σ K α P D F Y :=
  ⟨⟨base, layer, clf⟩, (crit.init kw.reduction).eval nan, adapt, reg, false, kw.opt, kw.epochBegin, kw.batchEnd⟩

/-- A loss as a number. -/
def orNan (nan : K) (l : Py (Option K)) : Py K := l.map (fun v => v.getD nan)

/-- Losses of the features of both sides; without a layer name they are `None`, which fails with `e`. -/
def withFeatures (a : AdaptArgs P D F Y) (e : PyErr) (f : List F → List F → Py K) : Py K :=
  match a.featuresS, a.featuresT with
  | some s, some t => f s t
  | _, _ => .error e

/-- Losses of the domain predictions of both sides; without a classifier they are `None` (`AttributeError`). -/
def withDomains (a : AdaptArgs P D F Y) (f : List D → List D → Py K) : Py K :=
  match a.domainPredS, a.domainPredT with
  | some s, some t => f s t
  | _, _ => .error .attributeError

/-! ### Divergences -/

/-- `DeepCoral`, skada/deep/_divergence.py:58-100, with `DeepCoralLoss.forward`, lines 47-55. -/
def deepCoral (nan : K) (base : BaseModule σ K α P (Fin d → K)) (layer : Option String) (reg : K) (assumeCentered : Bool) (crit : BaseCrit K P Y)
    (kw : Kw σ K α Y) : Net σ K α P Unit (Fin d → K) Y :=
  domainAware nan base layer none crit (fun _ a => withFeatures a .attributeError fun s t => orNan nan (DL.deepcoral assumeCentered s t)) reg kw

/-- `DAN`, skada/deep/_divergence.py:140-180, with `DANLoss.forward`, lines 129-137; `eps` is the default `1e-7`.  Without features the error is a
`TypeError` of `torch.cdist` (default bandwidths) or an `AttributeError`. -/
def danNet (nan : K) (sqrt ex : K → K) (pow2 : Nat → K) (eps : K) (base : BaseModule σ K α P (Fin d → K)) (layer : Option String) (reg : K)
    (sigmas : Option (List K)) (crit : BaseCrit K P Y) (kw : Kw σ K α Y) : Net σ K α P Unit (Fin d → K) Y :=
  domainAware nan base layer none crit (fun _ a => withFeatures a (if sigmas.isNone then .typeError else .attributeError)
    fun s t => orNan nan (.ok (DL.dan sqrt ex pow2 eps sigmas s t))) reg kw

/-- `CAN`, skada/deep/_divergence.py:248-320, with `CANLoss.forward`, lines 227-245.  `centers st` are the centres of the clusters that
`ComputeSourceCentroids` stored (`none` before).  Missing features are not modelled further (`TypeError`, after the check of the clusters). -/
def canNet (nan : K) (sqrt ex : K → K) (pow2 : Nat → K) (e eps : K) (centers : σ → Option (List (Fin d → K))) (base : BaseModule σ K α P (Fin d → K))
    (layer : Option String) (reg thr : K) (classThr : Nat) (sigmas : Option (List K)) (crit : BaseCrit K P Int) (kw : Kw σ K α Int) :
    Net σ K α P Unit (Fin d → K) Int :=
  domainAware nan base layer none crit (fun st a => withFeatures a (if (centers st).isNone then .valueError else .typeError)
    fun s t => DL.cdd sqrt ex pow2 e eps thr classThr sigmas (centers st) a.ys s t) reg kw

/-! ### Class confusion and optimal transport -/

/-- `MCC`, skada/deep/_class_confusion.py:57-104, with `MCCLoss.forward`, lines 43-54. -/
def mccNet (nan : K) (ex lg : K → K) (eps : K) (base : BaseModule σ K α (Fin c → K) F) (layer : Option String) (reg T : K)
    (crit : BaseCrit K (Fin c → K) Y) (kw : Kw σ K α Y) : Net σ K α (Fin c → K) Unit F Y :=
  domainAware nan base layer none crit (fun _ a => orNan nan (.ok (DL.mcc ex lg T eps a.yPredT))) reg kw

/-- `DeepJDOT`, skada/deep/_optimal_transport.py:72-126, with `DeepJDOTLoss.forward`, lines 51-69: the weight of the adaptation loss is 1. -/
def deepJdotNet (nan : K) (sqrt : K → K) (ce : (Fin c → K) → Y → K) (emd2 : List K → List K → List (List K) → Py K)
    (base : BaseModule σ K α (Fin c → K) (Fin d → K)) (layer : Option String) (regDist regCl : K) (crit : BaseCrit K (Fin c → K) Y) (kw : Kw σ K α Y) :
    Net σ K α (Fin c → K) Unit (Fin d → K) Y :=
  domainAware nan base layer none crit (fun _ a => withFeatures a .typeError fun s t => DL.deepjdot sqrt ce emd2 regDist regCl a.ys a.yPredT s t none none) 1 kw

/-! ### Adversarial methods -/

/-- The domain classifier of `DANN` and `SPA`, skada/deep/_adversarial.py:125-131 and skada/deep/_graph_alignment.py:192-198; `make n` is
`DomainClassifier(num_features=n)`. -/
def chooseClassifier (make : Nat → Classifier σ D F) (given : Option (Classifier σ D F)) (numFeatures : Option Nat) : Py (Classifier σ D F) :=
  match given with
  | some g => .ok g
  | none => match numFeatures with
    | none => .error .valueError
    | some n => .ok (make n)

/-- The discriminator of `MDD`, skada/deep/_adversarial.py:526-534: `n_classes` is handed on unchecked, `nn.Linear(100, None)` is a `TypeError`. -/
def chooseDiscriminator (make : Nat → Nat → Classifier σ D F) (given : Option (Classifier σ D F)) (numFeatures nClasses : Option Nat) :
    Py (Classifier σ D F) :=
  match given with
  | some g => .ok g
  | none => match numFeatures with
    | none => .error .valueError
    | some n => match nClasses with
      | none => .error .typeError
      | some k => .ok (make n k)

/-- `DANN`, skada/deep/_adversarial.py:78-148, with `DANNLoss`, lines 47-75; `dom` is the domain criterion. -/
def dannNet (nan : K) (dom : List K → List K → Py (Option K)) (make : Nat → Classifier σ K F) (base : BaseModule σ K α P F) (layer : Option String)
    (reg : K) (clf : Option (Classifier σ K F)) (numFeatures : Option Nat) (crit : BaseCrit K P Y) (kw : Kw σ K α Y) : Py (Net σ K α P K F Y) := do
  let clf ← chooseClassifier make clf numFeatures
  return domainAware nan base layer (some clf) crit (fun _ a => withDomains a fun s t => orNan nan (Adv.dannLoss dom s t)) reg kw

/-- `MDD`, skada/deep/_adversarial.py:474-553, with `MDDLoss`, lines 445-471; the smoothing of `ModifiedCrossEntropyLoss` is `s` (0.1). -/
def mddNet [NeZero c] (nan : K) (ex lg : K → K) (s : K) (make : Nat → Nat → Classifier σ (Fin c → K) F) (base : BaseModule σ K α (Fin c → K) F)
    (layer : Option String) (reg gamma : K) (clf : Option (Classifier σ (Fin c → K) F)) (numFeatures nClasses : Option Nat)
    (crit : BaseCrit K (Fin c → K) Y) (kw : Kw σ K α Y) : Py (Net σ K α (Fin c → K) (Fin c → K) F Y) := do
  let clf ← chooseDiscriminator make clf numFeatures nClasses
  return domainAware nan base layer (some clf) crit
    (fun _ a => withDomains a fun ds dt => orNan nan (.ok (Adv.mddLoss ex lg s gamma a.yPredS a.yPredT ds dt))) reg kw

/-- The loss of a batch with a `CDANModule`, as `Net.loss` but with `cdanFit`. -/
def Net.lossCdan (T : Net σ K α P D F Y) (cond : List F → List P → List F) (b : Batch K α Y) (st : σ) : Py (σ × Option K) := do
  let (st, o) ← cdanFit T.module cond st b.X b.sd b.w (some b.idx)
  let l ← criterion T.crit (T.adapt st) T.reg T.onTarget o b.y
  let v ← getLoss l b.w b.sd
  return (st, v)

/-- The domain classifier of `CDAN`, skada/deep/_adversarial.py:345-355: its input size comes from `Adv.cdanSize`. -/
def chooseCdan (make : Nat → Classifier σ D F) (given : Option (Classifier σ D F)) (maxFeatures : Nat) (numFeatures nClasses : Option Nat) :
    Py (Classifier σ D F) :=
  match given with
  | some g => .ok g
  | none => (Adv.cdanSize maxFeatures numFeatures nClasses).map make

/-- `CDAN`, skada/deep/_adversarial.py:292-373, with `CDANLoss`, lines 173-203.  Rows of
features and rows conditioned on predictions have one type `F` (for instance lists of any length). -/
def cdanNet (nan : K) (dom : List K → List K → Py (Option K)) (make : Nat → Classifier σ K F) (base : BaseModule σ K α P F)
    (layer : Option String) (reg : K) (maxFeatures : Nat) (clf : Option (Classifier σ K F)) (numFeatures nClasses : Option Nat)
    (crit : BaseCrit K P Y) (kw : Kw σ K α Y) : Py (Net σ K α P K F Y) := do
  let clf ← chooseCdan make clf maxFeatures numFeatures nClasses
  return domainAware nan base layer (some clf) crit
    (fun _ a => withDomains a fun ds dt => withFeatures a .attributeError fun fs ft => orNan nan (Adv.cdanLoss dom ds dt fs ft)) reg kw

/-! ### SPA -/

/-- `SPA`, skada/deep/_graph_alignment.py:138-238, with `SPALoss.forward`, lines 88-135: the weight of the adaptation loss is 1, `K = 5` neighbours, metric
"gauss" and the default Laplacian.  `epoch st` and `bank st` are the attributes `n_epochs` and the memory of the criterion. -/
def spaNet (nan : K) (sqrt ex : K → K) (svals : ∀ n : Nat, (Fin n → Fin n → K) → List K) (e eps : K) (ce : (Fin c → K) → Nat → K)
    (topk : List (Option K) → Nat → List Nat) (tiny : K) (dom : List K → List K → Py (Option K)) (epoch : σ → Nat) (bank : σ → Bank K d c)
    (make : Nat → Classifier σ K (Fin d → K)) (base : BaseModule σ K α (Fin c → K) (Fin d → K)) (layer : Option String) (regAdv regGsa regNap : K)
    (clf : Option (Classifier σ K (Fin d → K))) (numFeatures : Option Nat) (maxEpochs : Nat) (crit : BaseCrit K (Fin c → K) Y) (kw : Kw σ K α Y) :
    Py (Net σ K α (Fin c → K) K (Fin d → K) Y) := do
  let clf ← chooseClassifier make clf numFeatures
  return domainAware nan base layer (some clf) crit
    (fun st a => withDomains a fun ds dt => withFeatures a .attributeError fun fs ft => orNan nan (Adv.spaLoss ex dom
      ((DL.gda sqrt ex svals e eps "gauss" "laplac1" (fun i : Fin fs.length => fs[i]) (fun i : Fin ft.length => ft[i])).map some)
      (((bank st).nap sqrt ce topk tiny ft a.yPredT (a.sampleIdxT.getD []) 5).map some) regAdv regGsa regNap (epoch st) maxEpochs ds dt)) 1 kw

end Deep
end Skada

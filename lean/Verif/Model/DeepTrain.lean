/-
Training of a `DomainAwareNet`: module, data loaders, batches, epochs (skada/deep/base.py, skada/deep/_baseline.py).

`σ` is everything that training changes: parameters, running statistics, optimiser state, attributes of the criterion, random generators.
Networks, losses, optimisers and callbacks are parameters.  Of skorch the training loop is modelled (one optimiser step per batch, callbacks at
the beginning of an epoch and at the end of a batch) with `train_split=None`; gradients are inside the optimiser, which is given the loss as a
function of the state.
-/
import Verif.Model.Deep

namespace Skada
namespace Deep

variable {σ K α P D F Y : Type} [Field K] [DecidableEq Y]

/-! ### The module -/

/-- A `DomainAwareModule`.  `base st X w` is `base_module_(X)` for `w = none` and `base_module_(X, sample_weight=v)` for `w = some v`; it gives the
predictions and the flattened outputs of the named layers that the forward hooks store (skada/deep/utils.py:17-35). -/
structure Module (σ K α P D F : Type) where
  base : σ → List α → Option (Option (List K)) → Py (σ × List P × (String → Option (List F)))
  layer : Option String
  clf : Option (σ → Option (List F) → Py (σ × List D))

/-- `self.intermediate_layers[self.layer_name]`. -/
def layerOf (layers : String → Option (List F)) (n : String) : Py (List F) :=
  match layers n with
  | some f => .ok f
  | none => .error .keyError

/-- The features of the named layer, `None` without a name, skada/deep/base.py:445-448. -/
def featuresOf (M : Module σ K α P D F) (layers : String → Option (List F)) : Py (Option (List F)) :=
  match M.layer with
  | none => .ok none
  | some n => (layerOf layers n).map some

/-- The domain predictions, `None` without a classifier, skada/deep/base.py:450-453. -/
def domainOf (M : Module σ K α P D F) (st : σ) (feats : Option (List F)) : Py (σ × Option (List D)) :=
  match M.clf with
  | none => .ok (st, none)
  | some c => (c st feats).map (fun p => (p.1, some p.2))

/-- `DomainAwareModule.forward` with `is_fit=True`, skada/deep/base.py:439-455. -/
def forwardFit (M : Module σ K α P D F) (st : σ) (X : List α) (sd : List Int) (w : Option (List K)) (idx : Option (List Nat)) :
    Py (σ × Out P D F) := do
  let (st, y, layers) ← M.base st X (w.map some)
  let feats ← featuresOf M layers
  let (st, dom) ← domainOf M st feats
  return (st, ⟨y, dom, feats, sd, idx⟩)

/-- `DomainAwareModule.forward` with `is_fit=False`, skada/deep/base.py:462-463: `sample_weight` is always passed. -/
def forwardEval (M : Module σ K α P D F) (st : σ) (X : List α) (w : Option (List K)) : Py (List P) := do
  let (_, y, _) ← M.base st X (some w)
  return y

/-- `DomainAwareModule.forward` with `return_features=True`, skada/deep/base.py:457-461; a missing layer name is the key `None`. -/
def forwardFeatures (M : Module σ K α P D F) (st : σ) (X : List α) (w : Option (List K)) : Py (List P × List F) := do
  let (_, y, layers) ← M.base st X (some w)
  match M.layer with
  | none => .error .keyError
  | some n => do
    let f ← layerOf layers n
    return (y, f)

/-- `CDANModule.forward` with `is_fit=True`, skada/deep/_adversarial.py:244-284: it has no parameter `sample_weight`, so skorch's call fails when the
batch has weights.  `cond` conditions the features on the predictions (`Adv.cdanInput`). -/
def cdanFit (M : Module σ K α P D F) (cond : List F → List P → List F) (st : σ) (X : List α) (sd : List Int) (w : Option (List K))
    (idx : Option (List Nat)) : Py (σ × Out P D F) :=
  match w with
  | some _ => .error .typeError
  | none => do
    let (st, y, layers) ← M.base st X none
    match M.layer with
    | none => .error .keyError
    | some n => do
      let f ← layerOf layers n
      let (st, dom) ← domainOf M st (some (cond f y))
      return (st, ⟨y, dom, some f, sd, idx⟩)

/-- `CDANModule.forward` with `is_fit=False`, skada/deep/_adversarial.py:285-289. -/
def cdanEval (M : Module σ K α P D F) (st : σ) (X : List α) (w : Option (List K)) : Py (List P) :=
  match w with
  | some _ => .error .typeError
  | none => do
    let (_, y, _) ← M.base st X none
    return y

/-! ### Batches -/

/-- A collated batch. -/
structure Batch (K α Y : Type) where
  X : List α
  sd : List Int
  idx : List Nat
  w : Option (List K)
  y : List Y

/-- torch's default collation of items: column by column; either all items have a weight or none. -/
def collate (l : List (Item K α Y)) : Batch K α Y :=
  ⟨l.map (·.x), l.map (·.d), l.map (·.i), l.mapM (·.w), l.map (·.y)⟩

/-- torch's `BatchSampler` with `drop_last=False`: consecutive groups of `b` (the last one may be shorter).  `fuel` bounds the number of groups. -/
def chunks {β : Type} (b : Nat) : Nat → List β → List (List β)
  | 0, _ => []
  | _ + 1, [] => []
  | fuel + 1, x :: l => (x :: l).take b :: chunks b fuel ((x :: l).drop b)

/-- skorch's `forward_iter` for prediction: the module in evaluation mode on consecutive batches, the results concatenated (skada/deep/base.py:641). -/
def evalBatches (M : Module σ K α P D F) (st : σ) : List (List α) → Py (List P)
  | [] => .ok []
  | c :: r => do
    let p ← forwardEval M st c none
    let q ← evalBatches M st r
    return p ++ q

/-- Predictions for unweighted rows with batch size `b`. -/
def evalAll (M : Module σ K α P D F) (st : σ) (b : Nat) (X : List α) : Py (List P) := evalBatches M st (chunks b X.length X)

/-- A `DomainAwareNet`: module, criterion, optimiser, random shuffles and callbacks. -/
structure Net (σ K α P D F Y : Type) where
  module : Module σ K α P D F
  crit : List P → List Y → Py (Loss K)
  adapt : σ → AdaptArgs P D F Y → Py K
  reg : K
  onTarget : Bool
  opt : σ → (σ → Py (σ × Option K)) → Py σ
  epochBegin : σ → DS K α Y → Py σ
  batchEnd : σ → Batch K α Y → Py σ

/-- The loss of a batch: skorch's `infer` with `is_fit=True`, then `get_loss`, skada/deep/base.py:863-897. -/
def Net.loss (T : Net σ K α P D F Y) (b : Batch K α Y) (st : σ) : Py (σ × Option K) := do
  let (st, o) ← forwardFit T.module st b.X b.sd b.w (some b.idx)
  let l ← criterion T.crit (T.adapt st) T.reg T.onTarget o b.y
  let v ← getLoss l b.w b.sd
  return (st, v)

/-- skorch's `train_step` and `on_batch_end` for one batch of positions. -/
def Net.step (T : Net σ K α P D F Y) (s : DS K α Y) (is : List Nat) (st : σ) : Py σ := do
  let items ← is.mapM (getItem s)
  let st ← T.opt st (T.loss (collate items))
  T.batchEnd st (collate items)

/-- All batches of an epoch. -/
def Net.steps (T : Net σ K α P D F Y) (s : DS K α Y) : List (List Nat) → σ → Py σ
  | [], st => .ok st
  | is :: r, st => do
    let st ← T.step s is st
    T.steps s r st

/-- `n` epochs. -/
def epochs (f : σ → Py σ) : Nat → σ → Py σ
  | 0, st => .ok st
  | n + 1, st => do
    let st ← f st
    epochs f n st

/-- `fit` with a `DomainOnlyDataLoader`, skada/deep/base.py:354-384 and 504-534: one sampler for all epochs, a new shuffle in each.  `shuffle st n` is
the shuffle of `n` positions that the random generator in `st` gives, and the state after it. -/
def Net.fitOnly (T : Net σ K α P D F Y) (shuffle : σ → Nat → List Nat × σ) (used : String) (b n : Nat) (s : DS K α Y) (st : σ) : Py σ := do
  let o ← onlyInit ((iter s).map (·.d)) b used
  epochs (fun st => do
    let st ← T.epochBegin st s
    let is ← onlyIter o (shuffle st o.idx.length).1
    T.steps s (chunks b is.length is) (shuffle st o.idx.length).2) n st

/-- `fit` with a `DomainBalancedDataLoader`, skada/deep/base.py:264-294 and 504-534: batches of `2 * batch_size` rows.  `shuffles st ns nt` are the
shuffles of source and target positions used in the epoch (drawn at its beginning here), and the state after them. -/
def Net.fitBalanced (T : Net σ K α P D F Y) (shuffles : σ → Nat → Nat → (Nat → List Nat) × (Nat → List Nat) × σ) (mode : String) (b n : Nat)
    (s : DS K α Y) (st : σ) : Py σ := do
  let o ← balancedInit ((iter s).map (·.d)) b mode
  epochs (fun st => do
    let st ← T.epochBegin st s
    let r := shuffles st o.pos.length o.neg.length
    let is ← balancedIter o r.1 r.2.1
    T.steps s (chunks (2 * b) is.length is) r.2.2) n st

/-- `SourceOnly` without further callbacks, skada/deep/_baseline.py:16-69: `DummyLoss` is 0. -/
def sourceOnly (M : Module σ K α P D F) (crit : List P → List Y → Py (Loss K)) (opt : σ → (σ → Py (σ × Option K)) → Py σ) : Net σ K α P D F Y :=
  ⟨M, crit, fun _ _ => .ok 0, 0, false, opt, fun st _ => .ok st, fun st _ => .ok st⟩

/-- `TargetOnly` without further callbacks, skada/deep/_baseline.py:72-107. -/
def targetOnly (M : Module σ K α P D F) (crit : List P → List Y → Py (Loss K)) (opt : σ → (σ → Py (σ × Option K)) → Py σ) : Net σ K α P D F Y :=
  ⟨M, crit, fun _ _ => .ok 0, 0, true, opt, fun st _ => .ok st, fun st _ => .ok st⟩

end Deep
end Skada

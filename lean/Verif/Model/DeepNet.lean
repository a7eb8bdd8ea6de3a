/-
What a `DomainAwareNet` adds to its module at prediction time and around training: the output non-linearity (skada/deep/base.py:569-641,
skada/deep/utils.py:65-99), the memory of SPA (skada/deep/callbacks.py:78-170) and the lists of callbacks handed to `CAN` and `SPA`
(skada/deep/_divergence.py:293-303, skada/deep/_graph_alignment.py:200-218).
-/
import Verif.Model.DeepTrain
import Verif.Model.DeepLosses
import Verif.Model.DeepAdv

namespace Skada
namespace Deep

/-! ### Output non-linearity -/

section Nonlin
variable {K α : Type} [Field K]

/-- The value of `predict_nonlinearity`.  A callable gets the tensor of a whole batch. -/
inductive NonlinArg (K : Type) where
  | none
  | auto
  | fn (f : List (List K) → List (List K))
  | other

/-- `isinstance(base_criterion, CrossEntropyLoss)`, skada/deep/utils.py:83. -/
inductive CritKind where
  | crossEntropy
  | other
  deriving DecidableEq

/-- `torch.softmax(row, dim=-1)` of one row; `ex` is the exponential. -/
def softmaxRow (ex : K → K) (r : List K) : List K := r.map (fun v => ex v / (r.map ex).sum)

/-- `_infer_predict_nonlinearity`, skada/deep/utils.py:65-99; `criteria` is the number of criteria of the net. -/
def inferNonlin (ex : K → K) (criteria : Nat) (crit : CritKind) : List (List K) → List (List K) :=
  if criteria ≠ 1 then id
  else match crit with
    | .crossEntropy => List.map (softmaxRow ex)
    | .other => id

/-- `DomainAwareNet._get_predict_nonlinearity` of a fitted net, skada/deep/base.py:598-606. -/
def getNonlin (ex : K → K) (criteria : Nat) (crit : CritKind) : NonlinArg K → Py (List (List K) → List (List K))
  | .none => .ok id
  | .auto => .ok (inferNonlin ex criteria crit)
  | .fn f => .ok f
  | .other => .error .typeError

/-- The rows used for prediction, skada/deep/base.py:638-640. -/
def predictRows (noLabel : Int) (s : DS K α Int) (allowSource : Bool) : Py (DS K α Int) :=
  if allowSource then .ok s else selectTarget noLabel s true

/-- `predict_proba`, skada/deep/base.py:608-641 with skorch's `NeuralNet.predict_proba`: the non-linearity is looked up, the network is run
batch by batch (`b` rows each) and the non-linearity applied to every batch, the results are concatenated (`ValueError` without a batch).
`net` is the module of a fitted net in evaluation mode, row by row. -/
def netProba (ex : K → K) (criteria : Nat) (crit : CritKind) (arg : NonlinArg K) (b : Nat) (noLabel : Int) (net : α → List K) (s : DS K α Int)
    (allowSource : Bool) : Py (List (List K)) := do
  let s ← predictRows noLabel s allowSource
  let nl ← getNonlin ex criteria crit arg
  if s.X = [] then .error .valueError else .ok ((chunks b s.X.length s.X).flatMap (fun c => nl (c.map net)))

/-- `predict`, skada/deep/base.py:536-567. -/
def netPredict [LinearOrder K] (ex : K → K) (criteria : Nat) (crit : CritKind) (arg : NonlinArg K) (b : Nat) (noLabel : Int) (net : α → List K)
    (s : DS K α Int) (allowSource : Bool) : Py (List Nat) := do
  let p ← netProba ex criteria crit arg b noLabel net s allowSource
  p.mapM (fun r => Np.argmax r)

end Nonlin

/-! ### The memory of SPA -/

section Bank
variable {K α : Type} [Field K] {d c : Nat}

/-- `memory_features` and `memory_outputs` of the adaptation criterion. -/
structure Bank (K : Type) (d c : Nat) where
  features : List (Fin d → K)
  outputs : List (Fin c → K)

/-- `MemoryBank.on_train_begin`, skada/deep/callbacks.py:89-130: one row per target row; `draw` are the values of `torch.rand`.  The first row is
passed through the network for the sizes only, which is a `ValueError` for an empty data set. -/
def Bank.begin (sqrt : K → K) (draw : Nat → Fin d → K) (noLabel : Int) (s : DS K α Int) : Py (Bank K d c) :=
  if s.X = [] then .error .valueError
  else do
    let t ← selectTarget noLabel s true
    .ok ⟨(List.range t.X.length).map (fun i j => draw i j / sqrt (∑ k, draw i k ^ 2)), List.replicate t.X.length (fun _ => 1 / (c : K))⟩

/-- What `MemoryBank.on_batch_end` gets: domains, sample indices, and the normalised features and sharpened outputs of the target rows. -/
structure BankBatch (K : Type) (d c : Nat) where
  sd : List Int
  idx : List Nat
  feats : List (Fin d → K)
  outs : List (Fin c → K)

/-- `MemoryBank.on_batch_end`, skada/deep/callbacks.py:132-170: both memories; see `bankStep` for the discarded terms. -/
def Bank.step (momentum : K) (m : Bank K d c) (b : BankBatch K d c) : Py (Bank K d c) := do
  let f ← bankStep momentum m.features b.sd b.idx b.feats
  let o ← bankStep momentum m.outputs b.sd b.idx b.outs
  .ok ⟨f, o⟩

/-- A training run: the beginning and all batches. -/
def Bank.run (momentum : K) (m : Bank K d c) : List (BankBatch K d c) → Py (Bank K d c)
  | [] => .ok m
  | b :: bs => do
    let m ← Bank.step momentum m b
    Bank.run momentum m bs

/-- The pseudo-label term of `SPALoss.forward`, skada/deep/_graph_alignment.py:118-127, with the memory of the criterion. -/
def Bank.nap [LinearOrder K] (sqrt : K → K) (ce : (Fin c → K) → Nat → K) (topk : List (Option K) → Nat → List Nat) (tiny : K) (m : Bank K d c)
    (Xt : List (Fin d → K)) (Yt : List (Fin c → K)) (idx : List Nat) (kk : Nat) : Py K :=
  DL.nap sqrt ce topk tiny Xt Yt m.features m.outputs idx kk

end Bank

/-! ### Lists of callbacks -/

/-- Callbacks: the user's, and those of skada/deep/callbacks.py. -/
inductive CB where
  | user (id : Nat)
  | centroids
  | bank
  | epochs
  deriving DecidableEq, Repr

/-- The constructors that add callbacks of their own. -/
inductive Maker where
  | can
  | spa
  deriving DecidableEq, Repr

/-- The callbacks added by `CAN` (skada/deep/_divergence.py:296-303) and `SPA` (skada/deep/_graph_alignment.py:200-218), in this order. -/
def Maker.own : Maker → List CB
  | .can => [.centroids]
  | .spa => [.bank, .epochs]

/-- The argument `callbacks`: `None`, a single callback, or the list object at a place of the heap. -/
inductive CBArg where
  | none
  | one (c : CB)
  | list (ref : Nat)
  deriving DecidableEq, Repr

/-- The list handed to `DomainAwareNet(callbacks=…)`: a new list for `None` and for a single callback; a list is extended in place with
`append` and handed on (skada/deep/_divergence.py:296-303, skada/deep/_graph_alignment.py:200-214).  The heap is the list of all list
objects; the result is the new heap and the place of the net's list. -/
def Maker.callbacks (m : Maker) (heap : List (List CB)) : CBArg → List (List CB) × Nat
  | .none => (heap ++ [m.own], heap.length)
  | .one c => (heap ++ [c :: m.own], heap.length)
  | .list r => (heap.set r (heap.getD r [] ++ m.own), r)

/-- A program constructing nets one after the other; the result is the heap and the list object of every net. -/
def build (heap : List (List CB)) : List (Maker × CBArg) → List (List CB) × List Nat
  | [] => (heap, [])
  | (m, a) :: r =>
    let (heap, n) := m.callbacks heap a
    let (heap, ns) := build heap r
    (heap, n :: ns)

/-- `on_epoch_begin` of one callback on `n_epochs` of the net's adaptation criterion (skada/deep/callbacks.py:180-182): `CANLoss` has no such
attribute.  The other callbacks do not touch it. -/
def CB.epochBegin (m : Maker) (n : Nat) : CB → Py Nat
  | .epochs => match m with
    | .spa => .ok (n + 1)
    | .can => .error .attributeError
  | _ => .ok n

/-- `on_epoch_begin` of all callbacks of a net made by `m`. -/
def epochBegin (m : Maker) : List CB → Nat → Py Nat
  | [], n => .ok n
  | c :: cs, n => do
    let n ← CB.epochBegin m n c
    epochBegin m cs n

/-- The counter after `e` epochs. -/
def epochsBegin (m : Maker) (cbs : List CB) : Nat → Nat → Py Nat
  | 0, n => .ok n
  | e + 1, n => do
    let n ← epochBegin m cbs n
    epochsBegin m cbs e n

end Deep
end Skada

/-
Model of the life of nets built by the functions of skada.deep: construction around a network of the user, `fit`, `partial_fit`, predictions,
`predict_features` and `sklearn.clone` (skada/deep/base.py:491-534, 608-666, 710-779), on the heap of networks, hooks and wrappers of Verif/Model/Hooks.lean.

Of skorch are modelled: `fit` initialises unless `warm_start` and initialised already, `partial_fit` and `predict_features` initialise if that has not
happened, predictions raise `NotInitializedError` before; `initialize` builds a new `DomainAwareModule` around the stored network and a new optimiser.
`g θ x` and `f θ n x` are the network's prediction and the output of its layer `n` for one row in evaluation mode, `upd` the effect of one training batch on
parameters and optimiser.  Rows are those left after the choice of the target rows (see DeepNet), data sets and batches of `fit` are given.
-/
import Verif.Model.Hooks
import Verif.Model.DeepTrain

namespace Skada.NetLife
open Np Hk

variable {Θ α β φ O : Type}

/-- An exception: a Python one or skorch's `NotInitializedError`. -/
inductive Err where
  | py (e : PyErr)
  | notInitialized
  deriving DecidableEq

/-- A `DomainAwareNet` (skada/deep/base.py:491-502): `module__base_module`, `module__layer_name`, `warm_start`, the `DomainAwareModule` once initialised, the
state of the optimiser. -/
structure Net (O : Type) where
  base : Nat
  layer : Option String
  warm : Bool
  module : Option Nat
  opt : O

/-- All objects. -/
structure World (Θ φ O : Type) where
  heap : Heap Θ (List φ)
  nets : List (Net O)

/-- What a call returns. -/
inductive Seen (β φ : Type) where
  | done
  | predictions (l : List β)
  | features (l : List φ)
  deriving DecidableEq

/-- The functions of the network and of the optimiser. -/
structure Code (Θ α β φ O : Type) where
  g : Θ → α → β
  f : Θ → String → α → φ
  upd : List α → Θ → O → Θ × O
  o0 : O

/-- One operation on the heap, with batches of rows. -/
def Code.exec (C : Code Θ α β φ O) (H : Heap Θ (List φ)) (o : Op Θ (List α)) : Heap Θ (List φ) × Py (Option (List β × Option (List φ))) :=
  Hk.exec (fun θ x => x.map (C.g θ)) (fun θ n x => some (x.map (C.f θ n))) H o

/-- The parameters the wrapper `w` works with. -/
def paramsOf (H : Heap Θ (List φ)) (w : Nat) : Option Θ := (H.wrappers[w]?).bind (fun W => (H.bases[W.base]?).map (·.params))

/-- The training loop over all batches: a training call (`is_fit=True`), then a step of the optimiser.  Losses are part of `upd`. -/
def train (C : Code Θ α β φ O) (H : Heap Θ (List φ)) (w : Nat) (o : O) : List (List α) → Heap Θ (List φ) × O × Py Unit
  | [] => (H, o, .ok ())
  | x :: xs =>
    match C.exec H (.forward w .fit true x) with
    | (H, .error e) => (H, o, .error e)
    | (H, .ok _) =>
      match paramsOf H w with
      | none => (H, o, .error .indexError)
      | some θ => train C (C.exec H (.step w (fun _ => (C.upd x θ o).1))).1 w (C.upd x θ o).2 xs

/-- Evaluation of consecutive batches without gradients (`forward_iter`, `feature_iter`, skada/deep/base.py:710-779). -/
def evaluate (C : Code Θ α β φ O) (H : Heap Θ (List φ)) (w : Nat) (mode : Mode) : List (List α) → Heap Θ (List φ) × Py (List (List β × Option (List φ)))
  | [] => (H, .ok [])
  | x :: xs =>
    match C.exec H (.forward w mode false x) with
    | (H, .error e) => (H, .error e)
    | (H, .ok r) =>
      match evaluate C H w mode xs with
      | (H, .error e) => (H, .error e)
      | (H, .ok rs) => (H, .ok (r.toList ++ rs))

/-- skorch's `initialize` for net number `i`: the net as it is afterwards. -/
def initNet (C : Code Θ α β φ O) (W : World Θ φ O) (i : Nat) (n : Net O) : World Θ φ O × Net O :=
  let n' := { n with module := some W.heap.wrappers.length, opt := C.o0 }
  (⟨(C.exec W.heap (.wrap n.base n.layer)).1, W.nets.set i n'⟩, n')

/-- `partial_fit` of the net `n`, number `i`, whose module is `w`. -/
def learn (C : Code Θ α β φ O) (W : World Θ φ O) (i : Nat) (n : Net O) (batches : List (List α)) : World Θ φ O × Except Err (Seen β φ) :=
  match n.module with
  | none => (W, .error .notInitialized)
  | some w =>
    match train C W.heap w n.opt batches with
    | (H, o, .error e) => (⟨H, W.nets.set i { n with opt := o }⟩, .error (.py e))
    | (H, o, .ok _) => (⟨H, W.nets.set i { n with opt := o }⟩, .ok .done)

/-- Initialise if needed; `again` for a `fit` without warm start. -/
def ensure (C : Code Θ α β φ O) (W : World Θ φ O) (i : Nat) (n : Net O) (again : Bool) : World Θ φ O × Net O :=
  if n.module.isSome && !again then (W, n) else initNet C W i n

/-- Predictions or features of the net's module for consecutive batches of size `bs`, concatenated; no batches are a `ValueError` of `np.concatenate`, a batch
size 0 one of torch. -/
def ask (C : Code Θ α β φ O) (W : World Θ φ O) (n : Net O) (mode : Mode) (bs : Nat) (rows : List α) : World Θ φ O × Except Err (List (List β × Option (List φ))) :=
  match n.module with
  | none => (W, .error .notInitialized)
  | some w =>
    if bs = 0 then (W, .error (.py .valueError))
    else
      match evaluate C W.heap w mode (Deep.chunks bs rows.length rows) with
      | (H, .error e) => ({ W with heap := H }, .error (.py e))
      | (H, .ok rs) => ({ W with heap := H }, if rs.isEmpty then .error (.py .valueError) else .ok rs)

/-- What a program does. -/
inductive Op (Θ α : Type) where
  /-- the user makes a network -/
  | network (θ : Θ) (layers : List String)
  /-- a function of skada.deep makes a net around network `b`, e.g. skada/deep/_divergence.py:89-99 -/
  | net (b : Nat) (layer : Option String) (warm : Bool)
  | fit (i : Nat) (batches : List (List α))
  | partialFit (i : Nat) (batches : List (List α))
  | predict (i bs : Nat) (rows : List α)
  | features (i bs : Nat) (rows : List α)
  /-- `sklearn.clone(net)` -/
  | clone (i : Nat)

/-- One operation: what the objects are afterwards and what the caller sees.  `fit` and `predict_features` (skada/deep/base.py:504-534, 643-666). -/
def exec (C : Code Θ α β φ O) (W : World Θ φ O) : Op Θ α → World Θ φ O × Except Err (Seen β φ)
  | .network θ layers => ({ W with heap := (C.exec W.heap (.new θ layers)).1 }, .ok .done)
  | .net b layer warm =>
    if b < W.heap.bases.length then ({ W with nets := W.nets ++ [⟨b, layer, warm, none, C.o0⟩] }, .ok .done) else (W, .error (.py .indexError))
  | .fit i batches =>
    match W.nets[i]? with
    | none => (W, .error (.py .indexError))
    | some n =>
      let (W, n) := ensure C W i n (!n.warm)
      learn C W i n batches
  | .partialFit i batches =>
    match W.nets[i]? with
    | none => (W, .error (.py .indexError))
    | some n =>
      let (W, n) := ensure C W i n false
      learn C W i n batches
  | .predict i bs rows =>
    match W.nets[i]? with
    | none => (W, .error (.py .indexError))
    | some n =>
      match ask C W n .plain bs rows with
      | (W, .error e) => (W, .error e)
      | (W, .ok rs) => (W, .ok (.predictions (rs.flatMap (·.1))))
  | .features i bs rows =>
    match W.nets[i]? with
    | none => (W, .error (.py .indexError))
    | some n =>
      let (W, n) := ensure C W i n false
      match ask C W n .features bs rows with
      | (W, .error e) => (W, .error e)
      | (W, .ok rs) => (W, .ok (.features (rs.flatMap (fun r => r.2.getD []))))
  | .clone i =>
    match W.nets[i]? with
    | none => (W, .error (.py .indexError))
    | some n =>
      match C.exec W.heap (.copy n.base) with
      | (H, .error e) => ({ W with heap := H }, .error (.py e))
      | (H, .ok _) => (⟨H, W.nets ++ [⟨W.heap.bases.length, n.layer, n.warm, none, C.o0⟩]⟩, .ok .done)

/-- A program. -/
def run (C : Code Θ α β φ O) : World Θ φ O → List (Op Θ α) → World Θ φ O × List (Except Err (Seen β φ))
  | W, [] => (W, [])
  | W, o :: os =>
    let (W1, r) := exec C W o
    let (W2, rs) := run C W1 os
    (W2, r :: rs)

/-- No objects. -/
def nothing : World Θ φ O := ⟨Hk.empty, []⟩

end Skada.NetLife

/-
Pipelines as objects that share parts: which selectors and estimators a pipeline refers to, what building, configuring and fitting
write to them (skada/_pipeline.py:84-109, skada/base.py:209-215, 260-288, 408-439).

Objects are indices into the lists of a heap.  What an estimator learns from the data is a parameter (`Env.step`).
-/
import Verif.Model.Pipeline

namespace Skada
namespace Share

/-- A selector object: the reference to its base estimator (a selector does not copy it, skada/base.py:211), `mask_target_labels`,
`_is_final`, and what its last fit stored (`base_estimator_` and `routing_`). -/
structure Sel (β : Type) where
  base : Nat
  mask : Bool
  final : Bool
  learned : Option β
  deriving DecidableEq

/-- All objects: the settings of the estimators, the selectors, the selectors the user made (in the order they were made), and the selectors of each pipeline. -/
structure Heap (π β : Type) where
  ests : List π
  sels : List (Sel β)
  handles : List Nat
  pipes : List (List Nat)
  deriving DecidableEq

/-- An argument of `make_da_pipeline`: an estimator, a selector the user made, a pipeline.  Names play no role here. -/
inductive ArgRef
  | est (i : Nat) | sel (k : Nat) | pipe (i : Nat)
  deriving DecidableEq

/-- `fit` of one step on the data as the steps before left it: from the settings of the base estimator (which `fit` clones,
skada/base.py:435), `mask_target_labels`, `_is_final`, whether the pipeline calls `fit` (last step) or `fit_transform`.
`predicts` is the attribute `predicts_target_labels`. -/
structure Env (π β σ : Type) where
  step : π → (mask final last : Bool) → σ → Py (β × σ)
  predicts : π → Bool

variable {π β σ : Type}

/-- `_unmark_as_final`, skada/base.py:286-288. -/
def unmark (ss : List (Sel β)) (i : Nat) : List (Sel β) := ss.modify i (fun s => { s with final := false })

/-- `_mark_as_final`, skada/base.py:282-284. -/
def mark (ss : List (Sel β)) (i : Nat) : List (Sel β) := ss.modify i (fun s => { s with final := true })

/-- The first loop, skada/_pipeline.py:87-99: a pipeline contributes its own selectors, un-marked in place.  (`Sum.inl`: a selector, `Sum.inr`: an estimator.)
A reference to nothing is an `IndexError` here. -/
def collect (h : Heap π β) : List ArgRef → List (Sel β) → Py (List (Nat ⊕ Nat)) × List (Sel β)
  | [], ss => (.ok [], ss)
  | .est e :: as, ss =>
    if e < h.ests.length then
      let r := collect h as ss
      (r.1.map (.inr e :: ·), r.2)
    else (.error .indexError, ss)
  | .sel k :: as, ss =>
    match h.handles[k]? with
    | none => (.error .indexError, ss)
    | some i =>
      let r := collect h as ss
      (r.1.map (.inl i :: ·), r.2)
  | .pipe p :: as, ss =>
    match h.pipes[p]? with
    | none => (.error .indexError, ss)
    | some ids =>
      let r := collect h as (ids.foldl unmark ss)
      (r.1.map (ids.map .inl ++ ·), r.2)

/-- `_wrap_with_selectors` with the default selector, skada/_pipeline.py:138-153: estimators get a new selector, selectors stay. -/
def wrap (E : Env π β σ) (ests : List π) : List (Nat ⊕ Nat) → Bool → List (Sel β) → List Nat × List (Sel β)
  | [], _, ss => ([], ss)
  | .inl i :: l, mask, ss =>
    let r := wrap E ests l mask ss
    (i :: r.1, r.2)
  | .inr e :: l, mask, ss =>
    let mask := if (ests[e]?.map E.predicts).getD false then false else mask
    let r := wrap E ests l mask (ss ++ [⟨e, mask, false, none⟩])
    (ss.length :: r.1, r.2)

/-- `make_da_pipeline`, skada/_pipeline.py:84-109. -/
def build (E : Env π β σ) (h : Heap π β) (args : List ArgRef) (mask : Bool) : Heap π β × Py Unit :=
  if args = [] then (h, .error .typeError)
  else
    match collect h args h.sels with
    | (.error e, ss) => ({ h with sels := ss }, .error e)
    | (.ok l, ss) =>
      let r := wrap E h.ests l mask ss
      match r.1.getLast? with
      | none => ({ h with sels := r.2 }, .error .indexError)
      | some i => ({ h with sels := mark r.2 i, pipes := h.pipes ++ [r.1] }, .ok ())

/-- `Pipeline.fit` without `memory`: the steps are fitted in order, each stores what it learned (skada/base.py:426-439). -/
def fitSteps (E : Env π β σ) (ests : List π) : List Nat → σ → List (Sel β) → List (Sel β) × Py Unit
  | [], _, ss => (ss, .ok ())
  | i :: is, x, ss =>
    match ss[i]? with
    | none => (ss, .error .indexError)
    | some s =>
      match ests[s.base]? with
      | none => (ss, .error .indexError)
      | some p =>
        match E.step p s.mask s.final is.isEmpty x with
        | .error e => (ss, .error e)
        | .ok (b, x') => fitSteps E ests is x' (ss.set i { s with learned := some b })

/-- What a user does: create an estimator, a selector of an estimator, a pipeline; set the settings of a step through a pipeline (the base estimator is
changed in place, skada/base.py:279); fit. -/
inductive Op (π σ : Type)
  | newEst (p : π)
  | newSel (e : Nat) (mask : Bool)
  | build (args : List ArgRef) (mask : Bool)
  | set (pipe step : Nat) (p : π)
  | fit (pipe : Nat) (x : σ)

/-- One operation. -/
def Heap.step (E : Env π β σ) (h : Heap π β) : Op π σ → Heap π β × Py Unit
  | .newEst p => ({ h with ests := h.ests ++ [p] }, .ok ())
  | .newSel e mask =>
    if e < h.ests.length then
      ({ h with sels := h.sels ++ [⟨e, mask, false, none⟩], handles := h.handles ++ [h.sels.length] }, .ok ())
    else (h, .error .indexError)
  | .build args mask => build E h args mask
  | .set i j p =>
    match h.pipes[i]?.bind (fun ids => ids[j]?.bind (fun id => h.sels[id]?)) with
    | none => (h, .error .keyError)
    | some s => ({ h with ests := h.ests.set s.base p }, .ok ())
  | .fit i x =>
    match h.pipes[i]? with
    | none => (h, .error .indexError)
    | some ids =>
      let r := fitSteps E h.ests ids x h.sels
      ({ h with sels := r.1 }, r.2)

/-- Nothing yet. -/
def Heap.init : Heap π β := ⟨[], [], [], []⟩

/-- The state after some operations. -/
def Heap.run (E : Env π β σ) (ops : List (Op π σ)) : Heap π β := ops.foldl (fun h o => (h.step E o).1) Heap.init

/-- What the methods of pipeline `i` see of each step: settings of the base estimator, `mask_target_labels`, `_is_final`, what was learned. -/
def Heap.view (h : Heap π β) (i : Nat) : Option (List (Option (π × Bool × Bool × Option β))) :=
  h.pipes[i]?.map (fun ids => ids.map (fun id =>
    h.sels[id]?.bind (fun s => h.ests[s.base]?.map (fun p => (p, s.mask, s.final, s.learned)))))

end Share
end Skada

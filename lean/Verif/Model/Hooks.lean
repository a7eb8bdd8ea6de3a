/-
Model of how networks are wrapped, hooked, shared and cloned: `DomainAwareModule.__init__`, `_setup_hooks`, `get_params`, `__sklearn_clone__`,
`forward` (skada/deep/base.py:405-463), `IntermediateLayerHook` and `_register_forwards_hook` (skada/deep/utils.py:17-35), and what skorch does with a
net built by the functions of skada.deep (`initialize` calls the module class with the stored arguments, without copying them).

Objects live on a heap and are named by their position.  The user's network (`base_module`) has parameters of any type `Θ`; `out` is its forward pass,
`feat θ n x` the flattened output of its layer `n` during the forward pass on `x`, `none` if the pass does not run this layer.  Devices, training mode
and the domain classifier are not modelled here (see DeepNet, DeepTrain).
-/
import Verif.Model.Np

namespace Skada.Hk

open Np

variable {Θ X Y F : Type}

/-- A stored tensor: its values and whether it hangs on a gradient graph (not a leaf). -/
structure Stored (F : Type) where
  val : F
  grad : Bool
  deriving DecidableEq

/-- `IntermediateLayerHook` (skada/deep/utils.py:17-20): the dictionary it writes to and its key. -/
structure Hook where
  dict : Nat
  layer : String
  deriving DecidableEq

/-- A network of the user: parameters, the names of `named_modules()` and the forward hooks registered so far, oldest first. -/
structure Base (Θ : Type) where
  params : Θ
  layers : List String
  hooks : List Hook

/-- A `DomainAwareModule`: its network, its dictionary `intermediate_layers` and its `layer_name`. -/
structure Wrapper where
  base : Nat
  dict : Nat
  layer : Option String
  deriving DecidableEq

/-- All objects. -/
structure Heap (Θ F : Type) where
  bases : List (Base Θ)
  dicts : List (List (String × Stored F))
  wrappers : List Wrapper

/-- `d[k] = v` -/
def put (d : List (String × Stored F)) (k : String) (v : Stored F) : List (String × Stored F) := (k, v) :: d.filter (fun e => decide (e.1 ≠ k))

/-- `d[k]`, `none` for a `KeyError` -/
def get (d : List (String × Stored F)) (k : String) : Option (Stored F) := (d.find? (fun e => decide (e.1 = k))).map Prod.snd

/-- `_register_forwards_hook(module, intermediate_layers, [layer_name])` (skada/deep/utils.py:26-35): one hook on the module of this name, nothing if there
is none. -/
def register (B : Base Θ) (dict : Nat) (layer : Option String) : Base Θ :=
  match layer with
  | some n => if n ∈ B.layers then { B with hooks := B.hooks ++ [⟨dict, n⟩] } else B
  | none => B

/-- `DomainAwareModule.__init__` (skada/deep/base.py:405-416): an empty dictionary and the hooks.  An index without network leaves the heap as it is. -/
def wrap (H : Heap Θ F) (b : Nat) (layer : Option String) : Heap Θ F :=
  match H.bases[b]? with
  | none => H
  | some B => { bases := H.bases.set b (register B H.dicts.length layer), dicts := H.dicts ++ [[]], wrappers := H.wrappers ++ [⟨b, H.dicts.length, layer⟩] }

/-- `IntermediateLayerHook.__call__` (skada/deep/utils.py:22-23), for the hooks one after the other; a layer that is not run does not call its hooks. -/
def fire (feat : Θ → String → X → Option F) (θ : Θ) (grad : Bool) (x : X) : List Hook → List (List (String × Stored F)) → List (List (String × Stored F))
  | [], D => D
  | h :: hs, D =>
    fire feat θ grad x hs (match feat θ h.layer x with
      | some v => D.modify h.dict (fun d => put d h.layer ⟨v, grad⟩)
      | none => D)

/-- How `DomainAwareModule.forward` is called. -/
inductive Mode where
  | fit | features | plain
  deriving DecidableEq

/-- `DomainAwareModule.forward` (skada/deep/base.py:430-463) without weights: the forward pass of the network (its hooks run), then the features are looked
up in the dictionary. -/
def forward (out : Θ → X → Y) (feat : Θ → String → X → Option F) (H : Heap Θ F) (w : Nat) (mode : Mode) (grad : Bool) (x : X) :
    Heap Θ F × Py (Y × Option F) :=
  match H.wrappers[w]? with
  | none => (H, .error .indexError)
  | some W =>
    match H.bases[W.base]? with
    | none => (H, .error .indexError)
    | some B =>
      let D := fire feat B.params grad x B.hooks H.dicts
      let H' := { H with dicts := D }
      let y := out B.params x
      match mode, W.layer with
      | .plain, _ => (H', .ok (y, none))
      | .fit, none => (H', .ok (y, none))
      | .features, none => (H', .error .keyError)
      | _, some n =>
        match get (D.getD W.dict []) n with
        | some v => (H', .ok (y, some v.val))
        | none => (H', .error .keyError)

/-- `copy.deepcopy` of a network, as `sklearn.clone` does with a parameter that is not an estimator: the hooks are copied with their dictionaries, and a
dictionary that holds a tensor on a gradient graph is a `RuntimeError` of torch.  Simplified: all dictionaries are copied, also those no hook of this
network refers to (nothing refers to these copies). -/
def copyBase (H : Heap Θ F) (b : Nat) : Py (Heap Θ F) :=
  match H.bases[b]? with
  | none => .error .indexError
  | some B =>
    if B.hooks.any (fun h => (H.dicts.getD h.dict []).any (fun e => e.2.grad)) then .error .runtimeError
    else .ok { H with bases := H.bases ++ [{ B with hooks := B.hooks.map (fun h => { h with dict := h.dict + H.dicts.length }) }]
                      dicts := H.dicts ++ H.dicts }

/-- `DomainAwareModule.__sklearn_clone__` (skada/deep/base.py:425-428): a copy of the network, a new wrapper around it (`__init__` registers a hook) and
`_setup_hooks` once more. -/
def clone (H : Heap Θ F) (w : Nat) : Py (Heap Θ F) :=
  match H.wrappers[w]? with
  | none => .error .indexError
  | some W => do
    let H ← copyBase H W.base
    let b := H.bases.length - 1
    let d := H.dicts.length
    let H := wrap H b W.layer
    .ok { H with bases := H.bases.modify b (fun B => register B d W.layer) }

/-- What a program does with networks. -/
inductive Op (Θ X : Type) where
  /-- the user makes a network -/
  | new (θ : Θ) (layers : List String)
  /-- `DomainAwareModule(base, layer)` -/
  | wrap (b : Nat) (layer : Option String)
  /-- a call of the wrapper -/
  | forward (w : Nat) (mode : Mode) (grad : Bool) (x : X)
  /-- an optimiser changes the parameters of the wrapper's network -/
  | step (w : Nat) (f : Θ → Θ)
  /-- `sklearn.clone` of a wrapper -/
  | clone (w : Nat)
  /-- `sklearn.clone` of a net whose `module__base_module` is this network -/
  | copy (b : Nat)

/-- One operation and what the caller sees: for calls the prediction and the features, for the others nothing, or an exception. -/
def exec (out : Θ → X → Y) (feat : Θ → String → X → Option F) (H : Heap Θ F) : Op Θ X → Heap Θ F × Py (Option (Y × Option F))
  | .new θ layers => ({ H with bases := H.bases ++ [⟨θ, layers, []⟩] }, .ok none)
  | .wrap b layer => (wrap H b layer, if b < H.bases.length then .ok none else .error .indexError)
  | .forward w mode grad x =>
    let (H', r) := forward out feat H w mode grad x
    (H', r.map some)
  | .step w f =>
    match H.wrappers[w]? with
    | none => (H, .error .indexError)
    | some W => ({ H with bases := H.bases.modify W.base (fun B => { B with params := f B.params }) }, .ok none)
  | .clone w =>
    match clone H w with
    | .ok H' => (H', .ok none)
    | .error e => (H, .error e)
  | .copy b =>
    match copyBase H b with
    | .ok H' => (H', .ok none)
    | .error e => (H, .error e)

/-- A program: the operations in order, with what the caller sees of each. -/
def run (out : Θ → X → Y) (feat : Θ → String → X → Option F) : Heap Θ F → List (Op Θ X) → Heap Θ F × List (Py (Option (Y × Option F)))
  | H, [] => (H, [])
  | H, o :: os =>
    let (H1, r) := exec out feat H o
    let (H2, rs) := run out feat H1 os
    (H2, r :: rs)

/-- No objects. -/
def empty : Heap Θ F := ⟨[], [], []⟩

/-- `net.fit` of a net built by the functions of skada.deep, as seen from its network `b`: skorch's `initialize` makes a new `DomainAwareModule` around
`b` (skada/deep/_divergence.py:89-99 and alike hand over the network itself), then every batch is a training call followed by a step of the optimiser.
The new wrapper is number `w`. -/
def fitOps (b w : Nat) (layer : Option String) (upd : X → Θ → Θ) (batches : List X) : List (Op Θ X) :=
  .wrap b layer :: batches.flatMap (fun x => [.forward w .fit true x, .step w (upd x)])

end Skada.Hk

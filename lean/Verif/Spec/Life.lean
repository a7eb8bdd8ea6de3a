/-
What a user sees of nets around networks: no modules, no hooks, no batches.
-/
import Verif.Spec.Hooks
import Verif.Model.Life

namespace Skada.Spec
open NetLife

/-- A net: its network, its layer, whether it was started (initialised) and the state of its optimiser. -/
structure NetSeen (O : Type) where
  network : Nat
  layer : Option String
  warm : Bool
  started : Bool
  opt : O

/-- Networks and nets. -/
structure Lives (Θ O : Type) where
  networks : List (Network Θ)
  nets : List (NetSeen O)

variable {Θ α β φ O : Type}

/-- Parameters and optimiser after the batches. -/
def trained (C : Code Θ α β φ O) (θ : Θ) (o : O) (batches : List (List α)) : Θ × O := batches.foldl (fun s x => C.upd x s.1 s.2) (θ, o)

/-- The layer is none or exists. -/
def layerOk (layers : List String) (layer : Option String) : Prop := ∀ n, layer = some n → n ∈ layers

instance (layers : List String) (layer : Option String) : Decidable (layerOk layers layer) := by
  unfold layerOk
  cases layer with
  | none => exact .isTrue (by simp)
  | some n => exact decidable_of_iff (n ∈ layers) (by simp)

/-- A net is started, again or for the first time, with a fresh optimiser. -/
def started (C : Code Θ α β φ O) (L : Lives Θ O) (i : Nat) (n : NetSeen O) (again : Bool) : Lives Θ O × NetSeen O :=
  if n.started && !again then (L, n)
  else (⟨L.networks.modify n.network (fun N => { N with watched := N.watched || hasLayer N.layers n.layer }), L.nets.set i { n with started := true, opt := C.o0 }⟩,
    { n with started := true, opt := C.o0 })

/-- Training writes into the network. -/
def learned (C : Code Θ α β φ O) (L : Lives Θ O) (i : Nat) (n : NetSeen O) (batches : List (List α)) : Lives Θ O × Except Err (Seen β φ) :=
  match L.networks[n.network]? with
  | none => (L, .error (.py .indexError))
  | some N =>
    if batches = [] then (L, .ok .done)
    else if layerOk N.layers n.layer then
      (⟨L.networks.set n.network { N with params := (trained C N.params n.opt batches).1, traced := N.watched },
        L.nets.set i { n with opt := (trained C N.params n.opt batches).2 }⟩, .ok .done)
    else ({ L with networks := L.networks.set n.network { N with traced := N.watched } }, .error (.py .keyError))

/-- One operation. -/
def execLives (C : Code Θ α β φ O) (L : Lives Θ O) : NetLife.Op Θ α → Lives Θ O × Except Err (Seen β φ)
  | .network θ layers => ({ L with networks := L.networks ++ [⟨θ, layers, false, false⟩] }, .ok .done)
  | .net b layer warm =>
    if b < L.networks.length then ({ L with nets := L.nets ++ [⟨b, layer, warm, false, C.o0⟩] }, .ok .done) else (L, .error (.py .indexError))
  | .fit i batches =>
    match L.nets[i]? with
    | none => (L, .error (.py .indexError))
    | some n => learned C (started C L i n (!n.warm)).1 i (started C L i n (!n.warm)).2 batches
  | .partialFit i batches =>
    match L.nets[i]? with
    | none => (L, .error (.py .indexError))
    | some n => learned C (started C L i n false).1 i (started C L i n false).2 batches
  | .predict i bs rows =>
    match L.nets[i]? with
    | none => (L, .error (.py .indexError))
    | some n =>
      match L.networks[n.network]? with
      | none => (L, .error (.py .indexError))
      | some N =>
        if n.started = false then (L, .error .notInitialized)
        else if bs = 0 ∨ rows = [] then (L, .error (.py .valueError))
        else ({ L with networks := L.networks.set n.network { N with traced := false } }, .ok (.predictions (rows.map (C.g N.params))))
  | .features i bs rows =>
    match L.nets[i]? with
    | none => (L, .error (.py .indexError))
    | some n =>
      match (started C L i n false).1.networks[n.network]? with
      | none => (L, .error (.py .indexError))
      | some N =>
        if bs = 0 ∨ rows = [] then ((started C L i n false).1, .error (.py .valueError))
        else
          ({ (started C L i n false).1 with networks := (started C L i n false).1.networks.set n.network { N with traced := false } },
            match n.layer with
            | some l => if l ∈ N.layers then .ok (.features (rows.map (C.f N.params l))) else .error (.py .keyError)
            | none => .error (.py .keyError))
  | .clone i =>
    match L.nets[i]? with
    | none => (L, .error (.py .indexError))
    | some n =>
      match L.networks[n.network]? with
      | none => (L, .error (.py .indexError))
      | some N =>
        if N.traced then (L, .error (.py .runtimeError))
        else (⟨L.networks ++ [N], L.nets ++ [⟨L.networks.length, n.layer, n.warm, false, C.o0⟩]⟩, .ok .done)

/-- A program. -/
def runLives (C : Code Θ α β φ O) : Lives Θ O → List (NetLife.Op Θ α) → Lives Θ O × List (Except Err (Seen β φ))
  | L, [] => (L, [])
  | L, o :: os => ((runLives C (execLives C L o).1 os).1, (execLives C L o).2 :: (runLives C (execLives C L o).1 os).2)

end Skada.Spec

/-
What a user expects of wrapped networks: a wrapper is a network and the name of a layer, nothing is remembered between calls.
-/
import Verif.Model.Hooks

namespace Skada.Spec

/-- A network as the user sees it: parameters, names of layers, whether a wrapper listens to one of its layers, and whether the last call since then recorded
gradients. -/
structure Network (Θ : Type) where
  params : Θ
  layers : List String
  watched : Bool
  traced : Bool

/-- The networks, and the wrappers: network and layer. -/
structure Networks (Θ : Type) where
  nets : List (Network Θ)
  wrappers : List (Nat × Option String)

/-- The layer exists. -/
def hasLayer (layers : List String) : Option String → Bool
  | some n => decide (n ∈ layers)
  | none => false

/-- What a call shows: the prediction with the current parameters and, if asked for, the features of the layer in this very call; a layer that does not
exist is a `KeyError`. -/
def answer {Θ X Y F : Type} (out : Θ → X → Y) (feat : Θ → String → X → F) (N : Network Θ) (layer : Option String) (mode : Hk.Mode) (x : X) :
    Py (Option (Y × Option F)) :=
  match mode, layer with
  | .plain, _ => .ok (some (out N.params x, none))
  | .fit, none => .ok (some (out N.params x, none))
  | .features, none => .error .keyError
  | _, some n => if n ∈ N.layers then .ok (some (out N.params x, some (feat N.params n x))) else .error .keyError

/-- One operation. A copy is a new network with the same parameters; it is refused while gradients of the last call are stored. -/
def execNets {Θ X Y F : Type} (out : Θ → X → Y) (feat : Θ → String → X → F) (S : Networks Θ) : Hk.Op Θ X → Networks Θ × Py (Option (Y × Option F))
  | .new θ layers => ({ S with nets := S.nets ++ [⟨θ, layers, false, false⟩] }, .ok none)
  | .wrap b layer =>
    match S.nets[b]? with
    | none => (S, .error .indexError)
    | some N => (⟨S.nets.set b { N with watched := N.watched || hasLayer N.layers layer }, S.wrappers ++ [(b, layer)]⟩, .ok none)
  | .forward w mode grad x =>
    match S.wrappers[w]? with
    | none => (S, .error .indexError)
    | some (b, layer) =>
      match S.nets[b]? with
      | none => (S, .error .indexError)
      | some N => ({ S with nets := S.nets.set b { N with traced := N.watched && grad } }, answer out feat N layer mode x)
  | .step w f =>
    match S.wrappers[w]? with
    | none => (S, .error .indexError)
    | some (b, _) => ({ S with nets := S.nets.modify b (fun N => { N with params := f N.params }) }, .ok none)
  | .clone w =>
    match S.wrappers[w]? with
    | none => (S, .error .indexError)
    | some (b, layer) =>
      match S.nets[b]? with
      | none => (S, .error .indexError)
      | some N =>
        if N.traced then (S, .error .runtimeError)
        else (⟨S.nets ++ [{ N with watched := N.watched || hasLayer N.layers layer }], S.wrappers ++ [(S.nets.length, layer)]⟩, .ok none)
  | .copy b =>
    match S.nets[b]? with
    | none => (S, .error .indexError)
    | some N => if N.traced then (S, .error .runtimeError) else ({ S with nets := S.nets ++ [N] }, .ok none)

/-- A program. -/
def runNets {Θ X Y F : Type} (out : Θ → X → Y) (feat : Θ → String → X → F) : Networks Θ → List (Hk.Op Θ X) → Networks Θ × List (Py (Option (Y × Option F)))
  | S, [] => (S, [])
  | S, o :: os =>
    let (S1, r) := execNets out feat S o
    let (S2, rs) := runNets out feat S1 os
    (S2, r :: rs)

end Skada.Spec

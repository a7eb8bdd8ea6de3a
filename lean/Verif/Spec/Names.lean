/-
What it means that classes are only known by their names: the vocabulary of C138.
-/
import Verif.Model.PipelineSteps
import Verif.Spec.Order

namespace Skada

namespace Spec

variable {α σ γ : Type}

/-- Class `n` (a number `0, 1, 2, …`) is given the name `f n`.  Everything else, among it the mask labels `-1` and NaN, stays as it is. -/
def rename (f : Nat → Nat) : Num → Num
  | .fin q => if q.den = 1 ∧ 0 ≤ q then .fin (f q.num.toNat : Nat) else .fin q
  | v => v

/-- Labels with the classes renamed. -/
def renameY (f : Nat → Nat) : Option (List Num) → Option (List Num) := Option.map (List.map (rename f))

/-- The same call with the classes renamed. -/
def renameCall (f : Nat → Nat) (c : Call α) : Call α := { c with y := renameY f c.y }

/-- The same output with the classes renamed. -/
def renameOut (f : Nat → Nat) : StepOut α → StepOut α
  | .triple X y p => .triple X (renameY f y) p
  | o => o

/-- Labels of a classification problem: integers, among them possibly the mask label `-1`. -/
def Discrete (y : Option (List Num)) : Prop := ∀ l, y = some l → ∀ v ∈ l, v.isIntegral = true

/-- The labels in an output, if there are any, are those of a classification problem. -/
def DiscreteOut (o : StepOut α) : Prop := ∀ X y p, o = .triple X y p → Discrete y

/-- An estimator to which a class is only a name: fitted on data with renamed classes it ends in a state that corresponds (`Q`), and it returns
the same with the classes renamed. -/
structure NameFree (f : Nat → Nat) (Q : σ → σ → Prop) (e : Est α σ) : Prop where
  fit : ∀ c, Discrete c.y → RelPy Q (e.fit c) (e.fit (renameCall f c))
  fitTransform : ∀ c, Discrete c.y →
    RelPy (fun a b => Q a.1 b.1 ∧ b.2 = renameOut f a.2 ∧ DiscreteOut a.2) (e.fitTransform c) (e.fitTransform (renameCall f c))
  transform : ∀ s s', Q s s' → ∀ X p, RelPy (fun a b => b = renameOut f a ∧ DiscreteOut a) (e.transform s X p) (e.transform s' X p)

/-- An estimator whose `fit_transform` returns no labels. -/
def NoLabels (e : Est α σ) : Prop := ∀ c s X y p, e.fitTransform c = .ok (s, .triple X y p) → y = none

/-- Selectors around such estimators. -/
def StepNames (f : Nat → Nat) (Q : σ → σ → Prop) : Step α σ → Prop
  | .shared s => NameFree f Q s.est
  | .select _ s => NameFree f Q s.est
  | .perDomain s => NameFree f Q s.est ∧ NoLabels s.est
  | .sourceTarget s => (NameFree f Q s.source ∧ NoLabels s.source) ∧ NameFree f Q (s.target.getD s.source) ∧ NoLabels (s.target.getD s.source)

end Spec
end Skada

/-
What it means that only the side (source or target) of a domain label counts: the vocabulary of C134.
-/
import Verif.Model.Selectors
import Mathlib.Data.List.Forall2

namespace Skada

namespace Spec

variable {α σ : Type}

/-- Two vectors of domain labels that say the same about who is source and who is target; the labels themselves may differ, and rows of one domain may be of different domains in
the other vector. -/
def SameSides : List Int → List Int → Prop := List.Forall₂ (fun a b => 0 ≤ a ↔ 0 ≤ b)

/-- Two values of a keyword parameter: equal, or domain labels with the same sides. -/
def RelParam (k : String) (v v' : Param Num) : Prop :=
  v = v' ∨ (k = "sample_domain" ∧ ∃ sd sd', SameSides sd sd' ∧ v = domParam sd ∧ v' = domParam sd')

/-- Keyword parameters that differ in the names of domains at most. -/
def RelDict : Dict → Dict → Prop := List.Forall₂ (fun a b => a.1 = b.1 ∧ RelParam a.1 a.2 b.2)

/-- Outputs of a transformer that differ in the names of domains at most. -/
def RelOut : StepOut α → StepOut α → Prop
  | .arr X, .arr X' => X = X'
  | .pair X p, .pair X' p' => X = X' ∧ RelDict p p'
  | .triple X y p, .triple X' y' p' => X = X' ∧ y = y' ∧ RelDict p p'
  | .other, .other => True
  | _, _ => False

/-- Calls that differ in the names of domains at most. -/
def RelCall (c c' : Call α) : Prop := c.X = c'.X ∧ c.y = c'.y ∧ RelDict c.params c'.params

/-- The same exception, or related results. -/
def RelPy {γ δ : Type} (R : γ → δ → Prop) : Py γ → Py δ → Prop
  | .error e, .error e' => e = e'
  | .ok a, .ok b => R a b
  | _, _ => False

/-- Does a request let a parameter of this name through to the estimator? -/
def Asked (req : Request) (k : String) : Prop :=
  ∃ r ∈ req, (r.2 = .yes ∧ r.1 = k) ∨ ∃ a, r.2 = .name a ∧ (r.1 = k ∨ a = k)

/-- An estimator that makes no difference between domain labels of one sign. -/
structure SidesOnly (e : Est α σ) : Prop where
  noAlias : ∀ req, req = e.fitReq ∨ req = e.fitTransformReq ∨ req = e.transformReq → ∀ r ∈ req, r.2 ≠ .name "sample_domain"
  fit : ∀ X y p p', RelDict p p' → (∀ kv ∈ p, Asked e.fitReq kv.1) → e.fit ⟨X, y, p⟩ = e.fit ⟨X, y, p'⟩
  fitTransform : ∀ X y p p', RelDict p p' → (∀ kv ∈ p, Asked e.fitTransformReq kv.1) →
    RelPy (fun a b => a.1 = b.1 ∧ RelOut a.2 b.2) (e.fitTransform ⟨X, y, p⟩) (e.fitTransform ⟨X, y, p'⟩)
  transform : ∀ f X p p', RelDict p p' → (∀ kv ∈ p, Asked e.transformReq kv.1) →
    RelPy RelOut (e.transform f X p) (e.transform f X p')

/-- Runs that make related calls and end in the same exception or in related results. -/
def RelRun {γ δ : Type} (R : γ → δ → Prop) (r : Run α γ) (r' : Run α δ) : Prop :=
  List.Forall₂ RelCall r.1 r'.1 ∧ RelPy R r.2 r'.2

/-- An estimator that in addition never passes domain labels on: `fit_transform` has the same output in both cases. -/
structure SidesEq (e : Est α σ) : Prop extends SidesOnly e where
  fitTransformEq : ∀ X y p p', RelDict p p' → (∀ kv ∈ p, Asked e.fitTransformReq kv.1) →
    e.fitTransform ⟨X, y, p⟩ = e.fitTransform ⟨X, y, p'⟩

/-- Selectors that do not look at single domains: `Shared`, `SelectSource`, `SelectTarget` and `SelectSourceTarget`, around
estimators that do not either. -/
def StepSides : Step α σ → Prop
  | .shared s => SidesOnly s.est
  | .select _ s => SidesOnly s.est
  | .perDomain _ => False
  | .sourceTarget s => SidesEq s.source ∧ SidesEq (s.target.getD s.source)

end Spec
end Skada

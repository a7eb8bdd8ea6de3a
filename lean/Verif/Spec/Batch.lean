/-
What it means that the answer about a sample does not depend on the other samples of the call: the vocabulary of C137.
-/
import Verif.Spec.Order

namespace Skada
namespace Spec

variable {α σ γ δ : Type}

/-- Some of the samples `l`, at least one, in any order and any number of times. -/
structure Part (l l' : List Nat) : Prop where
  sub : ∀ i ∈ l', i ∈ l
  ne : l' ≠ []

/-- If the first computation succeeds, so does the second, with a result that stands in relation `R` to the first one. -/
def Whenever (R : γ → δ → Prop) (a : Py γ) (b : Py δ) : Prop := ∀ x, a = .ok x → ∃ y, b = .ok y ∧ R x y

/-- An estimator whose `transform` treats each sample by itself: if it accepts a batch it accepts every part of it, and returns for the part
what it returned for these samples within the batch. -/
def BatchFree (e : Est α σ) : Prop :=
  ∀ l l', Part l l' → ∀ f X X', Rows l l' X X' → ∀ p p', RowsDict l l' p p' → Whenever (RowsOut l l') (e.transform f X p) (e.transform f X' p')

/-- Selectors around such estimators. -/
def StepBatch : Step α σ → Prop
  | .shared s => BatchFree s.est
  | .select _ s => BatchFree s.est
  | .perDomain s => BatchFree s.est
  | .sourceTarget s => BatchFree s.source ∧ BatchFree (s.target.getD s.source)

/-- A method of a fitted estimator that answers sample by sample. -/
def QueryBatch (query : σ → Call α → Py (List γ)) : Prop :=
  ∀ l l', Part l l' → ∀ f c c', RowsCall l l' c c' → Whenever (Rows l l') (query f c) (query f c')

/-- The same for the methods of estimators inside `PerDomain` or `SelectSourceTarget`, which answer with arrays; `dt` and `tl` are the type and
the shape of the rows of these arrays. -/
def ArrayBatch {τ : Type} (dt : DType) (tl : List Nat) (query : τ → Call α → Py (QOut γ)) : Prop :=
  ∀ l l', Part l l' → ∀ f c c', RowsCall l l' c c' → Whenever (fun a b => match a, b with
      | .arr a, .arr b => a.dtype = dt ∧ a.tail = tl ∧ b.dtype = dt ∧ b.tail = tl ∧ Rows l l' a.rows b.rows
      | .number _, .number _ => True
      | _, _ => False) (query f c) (query f c')

/-- An adapter's `transform` that treats each sample by itself. -/
def TransformBatch {φ : Type} (tr : φ → List α → SDArg → Bool → Py (List α)) : Prop :=
  ∀ f l l', Part l l' → ∀ X X', Rows l l' X X' → ∀ sd sd', RowsSD l l' sd sd' → ∀ b, Whenever (Rows l l') (tr f X sd b) (tr f X' sd' b)

/-- An adapter that answers target samples alike with and without `allow_source`: what it answers without, it answers with it. -/
def AllowSame (e : Est α σ) : Prop :=
  ∀ f X sd r, e.transform f X [("sample_domain", domParam sd)] = .ok r →
    e.transform f X [("sample_domain", domParam sd), ("allow_source", .scalar (.fin 1))] = .ok r

end Spec
end Skada

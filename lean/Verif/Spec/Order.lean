/-
What it means that the order of the samples does not matter: the vocabulary of C136.
-/
import Verif.Model.PipelineSteps
import Verif.Spec.Sides
import Mathlib.Data.List.Forall2

namespace Skada

namespace Spec

variable {α σ γ : Type}

/-- The same samples, each known by a number, in two orders. -/
structure Reorder (l l' : List Nat) : Prop where
  nodup : l.Nodup
  perm : l.Perm l'

/-- Two arrays with one row per sample, the same for each sample, in the two orders. -/
def Rows (l l' : List Nat) (a a' : List γ) : Prop := ∃ f : Nat → γ, a = l.map f ∧ a' = l'.map f

/-- The same for arrays that may be `None`. -/
def RowsOpt (l l' : List Nat) : Option (List γ) → Option (List γ) → Prop
  | none, none => True
  | some a, some a' => Rows l l' a a'
  | _, _ => False

/-- Two values of a keyword parameter: arrays with an entry per sample in the two orders, or equal values that are no arrays. -/
def RowsParam (l l' : List Nat) (v v' : Param Num) : Prop :=
  (∃ a a', Rows l l' a a' ∧ v = .arr a ∧ v' = .arr a') ∨ (v = v' ∧ ∀ a, v ≠ .arr a)

/-- Keyword parameters in the two orders. -/
def RowsDict (l l' : List Nat) : Dict → Dict → Prop := List.Forall₂ (fun a b => a.1 = b.1 ∧ RowsParam l l' a.2 b.2)

/-- The data of a call in the two orders. -/
structure RowsCall (l l' : List Nat) (c c' : Call α) : Prop where
  X : Rows l l' c.X c'.X
  y : RowsOpt l l' c.y c'.y
  params : RowsDict l l' c.params c'.params

/-- The `sample_domain` argument in two orders. -/
def RowsSD (l l' : List Nat) : SDArg → SDArg → Prop
  | .none, .none => True
  | .scalar d, .scalar d' => d = d'
  | .vec s, .vec s' => Rows l l' s s'
  | _, _ => False

/-- Outputs of a transformer, with one row per sample, in the two orders. -/
def RowsOut (l l' : List Nat) : StepOut α → StepOut α → Prop
  | .arr X, .arr X' => Rows l l' X X'
  | .pair X p, .pair X' p' => Rows l l' X X' ∧ RowsDict l l' p p'
  | .triple X y p, .triple X' y' p' => Rows l l' X X' ∧ RowsOpt l l' y y' ∧ RowsDict l l' p p'
  | .other, .other => True
  | _, _ => False

/-- An estimator to which the order of the samples makes no difference: fitted on the same samples in another order it ends in an equivalent
state (`Q`), and what it returns for samples in another order is what it returns for them, in that order. -/
structure OrderFree (Q : σ → σ → Prop) (e : Est α σ) : Prop where
  transformer : e.hasFitTransform = true → e.hasTransform = true
  fit : ∀ l l', Reorder l l' → ∀ c c', RowsCall l l' c c' → RelPy Q (e.fit c) (e.fit c')
  fitTransform : ∀ l l', Reorder l l' → ∀ c c', RowsCall l l' c c' →
    RelPy (fun a b => Q a.1 b.1 ∧ RowsOut l l' a.2 b.2) (e.fitTransform c) (e.fitTransform c')
  transform : ∀ l l', Reorder l l' → ∀ f f', Q f f' → ∀ X X', Rows l l' X X' → ∀ p p', RowsDict l l' p p' →
    RelPy (RowsOut l l') (e.transform f X p) (e.transform f' X' p')

/-- An estimator that never returns `(X, None, params)`, which makes the container forget its labels (skada/base.py:182-187). -/
def KeepsLabels (e : Est α σ) : Prop :=
  (∀ c f X p, e.fitTransform c ≠ .ok (f, .triple X none p)) ∧ ∀ f X p X' p', e.transform f X p ≠ .ok (.triple X' none p')

/-- Selectors around such estimators.  `PerDomain` only around transformers: for a predictor it takes the rows of a domain by their position
before masked rows were removed (skada/base.py:472-484). -/
def StepOrder (Q : σ → σ → Prop) : Step α σ → Prop
  | .shared s => OrderFree Q s.est
  | .select _ s => OrderFree Q s.est
  | .perDomain s => OrderFree Q s.est ∧ s.est.hasTransform = true
  | .sourceTarget s => OrderFree Q s.source ∧ OrderFree Q (s.target.getD s.source)

/-- A `Shared`, `SelectSource` or `SelectTarget` step that does not make the container forget its labels. -/
def Quiet : Step α σ → Prop
  | .shared s => KeepsLabels s.est
  | .select _ s => KeepsLabels s.est
  | _ => False

/-- A `SelectSource` or `SelectTarget` step shortens the data for the steps behind it.  If there are such steps, every parameter has to go
through the selecting step, and from there on to the last step but one the container must not forget the shortened labels. -/
def SelectsOk (p : Dict) : List ((String → Bool) × Step α σ) → Prop
  | [] => True
  | (keep, .select side s) :: rest => SelectsOk p rest ∧ (rest ≠ [] → (∀ kv ∈ p, keep kv.1 = true) ∧ Quiet (.select side s) ∧
      ∀ st ∈ rest.dropLast, Quiet st.2)
  | _ :: rest => SelectsOk p rest

/-- Fitted steps that are equivalent one by one. -/
def FittedRel (Q : σ → σ → Prop) : Fitted σ → Fitted σ → Prop
  | .one a, .one b => Q a b
  | .perDomain l, .perDomain l' => List.Forall₂ (fun a b => a.1 = b.1 ∧ Q a.2 b.2) l l'
  | .sourceTarget a b, .sourceTarget a' b' => Q a a' ∧ Q b b'
  | _, _ => False

/-- Calls with the same samples in two orders. -/
def CallRel (c c' : Call α) : Prop := ∃ l l', Reorder l l' ∧ RowsCall l l' c c'

/-- An adapter's `fit` for which the order of the samples makes no difference, up to an equivalence `R` of fitted states. -/
def FitFree {φ : Type} (R : φ → φ → Prop) (fit : List α → Option (List Num) → SDArg → Py φ) : Prop :=
  ∀ l l', Reorder l l' → ∀ X X', Rows l l' X X' → ∀ y y', RowsOpt l l' y y' → ∀ sd sd', RowsSD l l' sd sd' →
    RelPy R (fit X y sd) (fit X' y' sd')

/-- An adapter's `transform` that treats each sample by itself: samples in another order give the same rows in that order. -/
def TransformFree {φ : Type} (R : φ → φ → Prop) (tr : φ → List α → SDArg → Bool → Py (List α)) : Prop :=
  ∀ f f', R f f' → ∀ l l', Reorder l l' → ∀ X X', Rows l l' X X' → ∀ sd sd', RowsSD l l' sd sd' → ∀ b,
    RelPy (Rows l l') (tr f X sd b) (tr f' X' sd' b)

/-- An adapter's `compute_weights` that gives each sample its weight whatever the order. -/
def WeightsFree {φ ω : Type} (R : φ → φ → Prop) (w : φ → List α → Option (List Num) → SDArg → Py (List ω)) : Prop :=
  ∀ f f', R f f' → ∀ l l', Reorder l l' → ∀ X X', Rows l l' X X' → ∀ y y', RowsOpt l l' y y' → ∀ sd sd', RowsSD l l' sd sd' →
    RelPy (Rows l l') (w f X y sd) (w f' X' y' sd')

end Spec
end Skada

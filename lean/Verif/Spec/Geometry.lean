/-
What it means that only the geometry of the samples matters: the vocabulary of C139.
-/
import Mathlib.Algebra.BigOperators.Fin
import Verif.Spec.Sides

namespace Skada
namespace Spec

variable {α β K : Type}

/-- The square of the distance of two rows. -/
def sqDistance [Field K] {d : Nat} (x y : Fin d → K) : K := ∑ i, (x i - y i) ^ 2

/-- A change of coordinates that keeps all distances: a shift of the origin, a rotation, a reflection, or several of them. -/
def KeepsDistances [Field K] {d : Nat} (g : (Fin d → K) → Fin d → K) : Prop := ∀ x y, sqDistance (g x) (g y) = sqDistance x y

/-- The kernel (or distance) `k'` between moved rows is what `k` is between the original rows. -/
def KeepsKernel (g : α → β) (k : α → α → K) (k' : β → β → K) : Prop := ∀ x y, k' (g x) (g y) = k x y

end Spec
end Skada

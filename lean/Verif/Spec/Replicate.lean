/-
What "every sample listed equally often" means for C142.
-/
import Verif.Spec

namespace Skada
namespace Spec

/-- The list `k` times in a row (`np.concatenate([a] * k)`). -/
def copies {α : Type} (k : Nat) (l : List α) : List α := (List.replicate k l).flatten

/-- A function of a sample set that only looks at proportions: listing the whole set several times does not change it. -/
def CopyBlind {α β : Type} (f : List α → β) : Prop := ∀ (k : Nat) (A : List α), 0 < k → f (copies k A) = f A

end Spec
end Skada

/-
What "no shift" means for C141: the target samples are the source samples, in some order.
-/
import Verif.Spec

namespace Skada
namespace Spec

/-- The target side holds the same samples as the source side (each as often), in some order. -/
def NoShift {α : Type} (sd : List Int) (X : List α) : Prop := (targetRows sd X).Perm (sourceRows sd X)

/-- Weight one for every source sample, zero for every target sample. -/
def unitWeights {K : Type} [Zero K] [One K] (sd : List Int) : List (Option K) := sd.map (fun d => some (if 0 ≤ d then 1 else 0))

/-- A function of a sample set that does not depend on the order in which the samples are listed. -/
def OrderBlind {α β : Type} (f : List α → β) : Prop := ∀ A B : List α, A.Perm B → f A = f B

end Spec
end Skada

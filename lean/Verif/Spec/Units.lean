/-
What C149 is about: the same samples measured in another unit.
-/
import Verif.Spec.Rotation

namespace Skada.Spec

variable {K : Type} {d : Nat}

/-- A sample in another unit: every entry is multiplied by the same number. -/
def inUnit [Mul K] (c : K) (x : Fin d → K) : Fin d → K := fun j => c * x j

/-- What a square root does with a change of units: the root of `c²` times a number is `c` times its root (true for the square root and `c ≥ 0`). -/
def RootOfUnit [Mul K] (sqrt : K → K) (c : K) : Prop := ∀ a, sqrt (c * c * a) = c * sqrt a

/-- The fitted location-scale adapter in another unit: scales stay, samples and offsets are measured in the new unit. -/
def unitLs [Mul K] {β : Type} (c : K) (F : Map.MmdLs K d β) : Map.MmdLs K d β :=
  { F with Xs := F.Xs.map (inUnit c), B := F.B.map (inUnit c), H := F.H.map (inUnit c) }

end Skada.Spec

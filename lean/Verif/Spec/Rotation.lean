/-
What C148 is about: other coordinates for the same samples.
-/
import Verif.Model.Mapping

namespace Skada.Spec

variable {K : Type} {d e : Nat}

/-- A change of orthonormal coordinates: a rotation, a reflection, in particular another order of the features. -/
def IsTurn [CommRing K] (Q : Matrix (Fin d) (Fin d) K) : Prop := Q * Q.transpose = 1

/-- The samples in the coordinates `Q`: every row is multiplied by the matrix. -/
def turn [CommRing K] (Q : Matrix (Fin d) (Fin d) K) (x : Fin d → K) : Fin d → K := Matrix.vecMul x Q

/-- An array whose rows went through a map; the dtype and the shape stay. -/
def mapArr {α β : Type} (g : α → β) (X : NArr α) : NArr β := ⟨X.dtype, X.tail, X.rows.map g⟩

/-- What `numpy.linalg.eigh` guarantees for a symmetric matrix: orthonormal eigenvectors, as columns, and their eigenvalues. No order of the
eigenvalues and no choice of the eigenvectors is assumed. -/
def Diagonalises [CommRing K] (eigh : Matrix (Fin d) (Fin d) K → (Fin d → K) × Matrix (Fin d) (Fin d) K) (C : Matrix (Fin d) (Fin d) K) : Prop :=
  (eigh C).2 * (eigh C).2.transpose = 1 ∧ C = (eigh C).2 * Matrix.diagonal (eigh C).1 * (eigh C).2.transpose

end Skada.Spec

/-
Primitives of the model: Python exceptions as values, and the numpy operations the code uses.

Nothing in this file models skada itself; it fixes the assumed behaviour of Python and numpy
(see "Trusted base" in DESIGN.md).  One-dimensional arrays and the first axis of n-dimensional arrays
are lists; an element of the list is a row.
-/
import Mathlib.Data.List.Basic
import Mathlib.Order.Defs.LinearOrder
import Mathlib.Data.Int.Order.Basic

namespace Skada

/-- The Python exception classes that occur in the modelled code. -/
inductive PyErr
  | valueError | typeError | keyError | indexError | attributeError | assertionError
  | notImplementedError | unboundLocalError | zeroDivisionError | axisError | runtimeError
  deriving DecidableEq, Repr

/-- A Python computation that returns a value or raises. -/
abbrev Py (α : Type _) := Except PyErr α

namespace Np

variable {α : Type _}

/-- Rows of `a` at the `True` positions of the mask, in order (the value of `a[mask]`). -/
def sel : List Bool → List α → List α
  | true :: m, x :: a => x :: sel m a
  | false :: m, _ :: a => sel m a
  | _, _ => []

/-- `a[mask]` for a boolean mask: numpy raises `IndexError` when the lengths differ. -/
def boolIndex (a : List α) (m : List Bool) : Py (List α) :=
  if a.length = m.length then .ok (sel m a) else .error .indexError

/-- Values `vals` written, in order, to the `True` positions of `out`. -/
def putMask : List Bool → List α → List α → List α
  | true :: m, _ :: out, v :: vals => v :: putMask m out vals
  | false :: m, x :: out, vals => x :: putMask m out vals
  | _, out, _ => out

/-- `out[mask] = vals` for a boolean mask.  `IndexError` on a mask of another length, a single value is
broadcast, any other count mismatch is a `ValueError`. -/
def boolAssign (out : List α) (m : List Bool) (vals : List α) : Py (List α) :=
  if out.length ≠ m.length then .error .indexError
  else if vals.length = m.count true then .ok (putMask m out vals)
  else match vals with
    | [v] => .ok (putMask m out (List.replicate (m.count true) v))
    | _ => .error .valueError

/-- `out[mask] = v` with a scalar right-hand side. -/
def boolFill (out : List α) (m : List Bool) (v : α) : Py (List α) :=
  if out.length ≠ m.length then .error .indexError
  else .ok (List.zipWith (fun b x => if b then v else x) m out)

/-- `np.flatnonzero(mask)`, positions counted from `k`. -/
def nonzeroFrom : Nat → List Bool → List Nat
  | _, [] => []
  | k, true :: m => k :: nonzeroFrom (k + 1) m
  | k, false :: m => nonzeroFrom (k + 1) m

/-- `np.flatnonzero(mask)`. -/
def flatnonzero (m : List Bool) : List Nat := nonzeroFrom 0 m

/-- `a[idx]` for an array of non-negative integer indices: `IndexError` when one is out of range. -/
def take (a : List α) : List Nat → Py (List α)
  | [] => .ok []
  | i :: idx =>
    match a[i]? with
    | none => .error .indexError
    | some x =>
      match take a idx with
      | .error e => .error e
      | .ok r => .ok (x :: r)

/-- `out[idx] = vals`, element by element (later writes win). -/
def putAll : List α → List (Nat × α) → List α
  | out, [] => out
  | out, (i, v) :: w => putAll (out.set i v) w

/-- `out[idx] = vals` for integer indices: `IndexError` if an index is out of range, a single value is
broadcast, any other count mismatch is a `ValueError`. -/
def idxAssign (out : List α) (idx : List Nat) (vals : List α) : Py (List α) :=
  if idx.any (fun i => decide (out.length ≤ i)) then .error .indexError
  else if vals.length = idx.length then .ok (putAll out (idx.zip vals))
  else match vals with
    | [v] => .ok (putAll out (idx.map (fun i => (i, v))))
    | _ => .error .valueError

/-- Insertion into a strictly increasing list, dropping duplicates. -/
def insertU [LinearOrder α] (x : α) : List α → List α
  | [] => [x]
  | y :: l => if x < y then x :: y :: l else if y < x then y :: insertU x l else y :: l

/-- `np.unique`: the distinct values in increasing order. -/
def unique [LinearOrder α] (l : List α) : List α := l.foldr insertU []

/-- `np.argmin` position (first minimum), `none` on the empty array (numpy raises `ValueError`). -/
def argminFrom [LinearOrder α] : Nat → List α → Option (Nat × α)
  | _, [] => none
  | k, x :: l =>
    match argminFrom (k + 1) l with
    | none => some (k, x)
    | some (j, y) => if x ≤ y then some (k, x) else some (j, y)

/-- `np.argmin`. -/
def argmin [LinearOrder α] (l : List α) : Py Nat :=
  match argminFrom 0 l with
  | none => .error .valueError
  | some (i, _) => .ok i

/-- `np.argmax` position (first maximum). -/
def argmaxFrom [LinearOrder α] : Nat → List α → Option (Nat × α)
  | _, [] => none
  | k, x :: l =>
    match argmaxFrom (k + 1) l with
    | none => some (k, x)
    | some (j, y) => if y ≤ x then some (k, x) else some (j, y)

/-- `np.argmax`. -/
def argmax [LinearOrder α] (l : List α) : Py Nat :=
  match argmaxFrom 0 l with
  | none => .error .valueError
  | some (i, _) => .ok i

end Np
end Skada

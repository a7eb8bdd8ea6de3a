/-
The forms of input of the deep nets: arrays, dict or DataFrame, torch `Dataset` and `DeepDADataset` (skada/deep/base.py).

Conversions of arrays to tensors (`check_array`, `to_tensor`), dtypes and devices are not modelled; labels, domains and weights are
one-dimensional.
-/
import Verif.Model.Deep

namespace Skada
namespace Deep

variable {K α Y : Type} [DecidableEq Y]

/-- A dict with string keys as far as `_if_given_dict` looks at it.  `none`: the key is missing; `some none` (or `some SD.none`): the value
is `None`.  `others` counts the remaining keys.  For a DataFrame `rows` is its number of rows and the values are columns. -/
structure Dict (K α Y : Type) where
  X : Option (List α)
  y : Option (Option (List Y))
  sd : Option SD
  w : Option (Option (List K))
  others : Nat
  rows : Option Nat

/-- `len(X)`: the number of keys of a dict, the number of rows of a DataFrame. -/
def Dict.len (d : Dict K α Y) : Nat :=
  match d.rows with
  | some n => n
  | none => d.X.toList.length + d.y.toList.length + d.sd.toList.length + d.w.toList.length + d.others

/-- `_if_given_dict`, skada/deep/base.py:1012-1041, and the end of `__init__`. -/
def ifGivenDict (noLabel : Y) (d : Dict K α Y) (y : Option (List Y)) (sd : SD) (w : Option (List K)) : Py (DS K α Y) :=
  match d.X with
  | none => .error .valueError
  | some X => new noLabel X (d.y.getD y) (d.sd.getD sd) (d.w.getD w)

/-- `DeepDADataset(X, y, sample_domain, sample_weight)` for a dict or DataFrame, skada/deep/base.py:966-978 and 1005-1010. -/
def ofDict (noLabel : Y) (d : Dict K α Y) (y : Option (List Y)) (sd : SD) (w : Option (List K)) : Py (DS K α Y) :=
  if d.len = 0 then finish empty else ifGivenDict noLabel d y sd w

/-- An item `(x, y)` of a torch `Dataset`.  `x` and `d` are the entries `X` and `sample_domain` of its first component, `none` when
missing (or when the component is no dict); `w` is the entry `sample_weight`, `none` when missing or `None`. -/
structure Sample (K α Y : Type) where
  x : Option α
  d : Option Int
  w : Option K
  y : Y

/-- The loop of `_process_dataset`, skada/deep/base.py:842-855: data, labels, domains and the weights met. -/
def collect : List (Sample K α Y) → Py (List α × List Y × List Int × List K)
  | [] => .ok ([], [], [], [])
  | s :: l =>
    match s.x, s.d with
    | some x, some d => do
      let (X, y, sd, w) ← collect l
      return (x :: X, s.y :: y, d :: sd, s.w.toList ++ w)
    | _, _ => .error .valueError

/-- `_process_dataset`, skada/deep/base.py:817-861. -/
def processDataset (l : List (Sample K α Y)) : Py (Dict K α Y × List Y) := do
  let (X, y, sd, w) ← collect l
  return (⟨some X, none, some (.vec sd), if w = [] then none else some (some w), 0, none⟩, y)

/-- What may be passed as `X`. -/
inductive Input (K α Y : Type) where
  | arrays (X : List α)
  | dict (d : Dict K α Y)
  | torch (l : List (Sample K α Y))
  | deep (s : DS K α Y)

/-- `DomainAwareNet._prepare_input`, skada/deep/base.py:781-815. -/
def prepareInput (noLabel : Y) (i : Input K α Y) (y : Option (List Y)) (sd : SD) (w : Option (List K)) : Py (DS K α Y) :=
  match i with
  | .deep s => .ok s
  | .torch l => do
    let (d, ys) ← processDataset l
    ofDict noLabel d (some ys) sd w
  | .dict d => ofDict noLabel d y sd w
  | .arrays X => new noLabel X y sd w

/-- `as_dict(sample_indices)`, skada/deep/base.py:1216-1241. -/
def asDict (s : DS K α Y) (sampleIndices : Bool) : Dict K α Y :=
  ⟨some s.X, some (some s.y), some (.vec s.sd), if s.hasW then some (some s.w) else none, if sampleIndices then 1 else 0, none⟩

/-- `as_arrays(return_weights)`, skada/deep/base.py:1243-1267; the weights are missing from the tuple when there are none. -/
def asArrays (s : DS K α Y) (retW : Bool) : List α × List Y × List Int × Option (List K) :=
  (s.X, s.y, s.sd, if s.hasW && retW then some s.w else none)

/-- `domains`, skada/deep/base.py:1269-1277. -/
def domains (s : DS K α Y) : List Int := Np.unique s.sd

end Deep
end Skada

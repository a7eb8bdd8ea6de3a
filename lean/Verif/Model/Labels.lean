/-
Label values, dtypes and the label-type logic of `skada/_utils.py`.
-/
import Verif.Model.Np
import Mathlib.Data.Rat.Defs
import Mathlib.Algebra.Order.Field.Rat

namespace Skada

/-- A number stored in a numpy array: a finite value (exact, rounding is not modelled), NaN or an infinity. -/
inductive Num
  | fin (q : ℚ) | nan | pinf | ninf
  deriving DecidableEq

/-- The two dtype families that matter for the modelled code. -/
inductive DType | int | float
  deriving DecidableEq, Repr

namespace Num

/-- `np.isnan` -/
def isNan : Num → Bool
  | nan => true
  | _ => false

/-- `np.isfinite` -/
def isFinite : Num → Bool
  | fin _ => true
  | _ => false

/-- `v == v.astype(int)`: an integral finite value. -/
def isIntegral : Num → Bool
  | fin q => q.den == 1
  | _ => false

/-- Storing a value in an array of the given dtype.  Float arrays keep it, int arrays truncate towards zero.
Storing NaN or an infinity in an int array is undefined behaviour in C; numpy yields the smallest int64, and so
does the model. -/
def cast : DType → Num → Num
  | .float, v => v
  | .int, fin q => fin (q.num.tdiv q.den : Int)
  | .int, _ => fin (-9223372036854775808 : Int)

/-- `v < -1` with IEEE semantics (false for NaN). -/
def ltNegOne : Num → Bool
  | fin q => decide (q < -1)
  | ninf => true
  | _ => false

/-- `v == -1` -/
def eqNegOne : Num → Bool
  | fin q => decide (q = -1)
  | _ => false

end Num

/-- `Y_Type` (skada/_utils.py:37-39). -/
inductive YType | continuous | discrete
  deriving DecidableEq, Repr

/-- `_find_y_type` (skada/_utils.py:92-127) for one-dimensional numeric labels.
The call `type_of_target(y)` is unfolded to its behaviour on such arrays: a non-integral entry makes the
target continuous (and infinite entries are then rejected with `ValueError`), otherwise it is binary/multiclass. -/
def findYType (y : List Num) : Py YType :=
  if y.any Num.isNan then .ok .continuous
  else if y.any (fun v => !v.isIntegral) then
    if y.any (fun v => !v.isFinite) then .error .valueError else .ok .continuous
  else .ok .discrete

/-- `_find_y_type` (skada/_utils.py:92-127) for two-dimensional numeric arrays (rows of equal width):
NaN is rejected (line 110-113); non-integral data is `continuous(-multioutput)`; integral data of width > 1 is
`multilabel-indicator`/`multiclass-multioutput` and rejected (line 124-127). -/
def findYType2 (y : List (List Num)) : Py YType :=
  if y.any (·.any Num.isNan) then .error .valueError
  else if y.any (·.any (fun v => !v.isIntegral)) then
    if y.any (·.any (fun v => !v.isFinite)) then .error .valueError else .ok .continuous
  else if y.any (fun r => decide (1 < r.length)) then .error .valueError
  else .ok .discrete

/-- `_check_y_masking` (skada/_utils.py:59-89) for one-dimensional labels. -/
def checkYMasking (y : List Num) : Py YType :=
  match findYType y with
  | .error e => .error e
  | .ok .continuous => if y.any Num.isNan then .ok .continuous else .error .valueError
  | .ok .discrete =>
    if y.any Num.ltNegOne || !(y.any Num.eqNegOne) then .error .valueError else .ok .discrete

/-- The masked entries according to the label type: `y == -1` or `isnan(y)` (skada/utils.py:92-95). -/
def maskOf : YType → List Num → List Bool
  | .discrete, y => y.map Num.eqNegOne
  | .continuous, y => y.map Num.isNan

/-- `_DEFAULT_MASKED_TARGET_*_LABEL` chosen by label type (skada/_utils.py:33-34). -/
def maskLabel : YType → Num
  | .discrete => .fin (-1)
  | .continuous => .nan

/-- What an array cell must offer: a zero (`np.zeros_like`), dtype conversion, constant rows of a given
trailing shape (`c * np.ones(shape)`), and `_find_y_type` on arrays of such cells. -/
class Cell (α : Type) where
  zero : List Nat → α
  cast : DType → α → α
  const : List Nat → Num → α
  yType : List α → Py YType

instance : Cell Num where
  zero _ := .fin 0
  cast := Num.cast
  const _ v := v
  yType := findYType

instance : Cell (List Num) where
  zero s := List.replicate (s.headD 0) (.fin 0)
  cast d r := r.map (Num.cast d)
  const s v := List.replicate (s.headD 0) v
  yType := findYType2

/-- A numpy array seen along its first axis: dtype, trailing shape `shape[1:]`, rows. -/
structure NArr (α : Type) where
  dtype : DType
  tail : List Nat
  rows : List α
  deriving DecidableEq

end Skada

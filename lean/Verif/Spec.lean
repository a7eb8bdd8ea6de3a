/-
Small vocabulary used in the statements of the property theorems.  It mentions only lists, so that a
statement can be read without the model.
-/
import Mathlib.Data.List.Basic
import Mathlib.Data.Int.Order.Basic

namespace Skada.Spec

variable {α : Type _}

/-- The rows of `a` whose domain label is non-negative, in order. -/
def sourceRows (sd : List Int) (a : List α) : List α :=
  ((sd.zip a).filter (fun r => decide (0 ≤ r.1))).map Prod.snd

/-- The rows of `a` whose domain label is negative, in order. -/
def targetRows (sd : List Int) (a : List α) : List α :=
  ((sd.zip a).filter (fun r => decide (r.1 < 0))).map Prod.snd

/-- The rows of `a` whose domain label is `d`, in order. -/
def domainRows (d : Int) (sd : List Int) (a : List α) : List α :=
  ((sd.zip a).filter (fun r => decide (r.1 = d))).map Prod.snd

/-- Number of source samples. -/
def nSource (sd : List Int) : Nat := sd.countP (fun d => decide (0 ≤ d))

/-- Number of target samples. -/
def nTarget (sd : List Int) : Nat := sd.countP (fun d => decide (d < 0))

end Skada.Spec

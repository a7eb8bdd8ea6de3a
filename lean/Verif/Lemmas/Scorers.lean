/-
Common start of all scorers: the source and target rows of checked data.
-/
import Verif.Model.Scorers
import Verif.Lemmas.SplitMerge
import Verif.Lemmas.Monad
import Verif.Props.Subsample

namespace Skada
open Np Spec

theorem boolIndex_target {β : Type} {sd : List Int} {a : List β} (h : a.length = sd.length) :
    boolIndex a ((sd.map (fun d => decide (0 ≤ d))).map (!·)) = .ok (targetRows sd a) := by
  rw [boolIndex_ok (by simpa using h), ← tgtMask_eq, sel_target]

theorem boolIndex_source {β : Type} {sd : List Int} {a : List β} (h : a.length = sd.length) :
    boolIndex a (sd.map (fun d => decide (0 ≤ d))) = .ok (sourceRows sd a) := by
  rw [boolIndex_ok (by simpa using h), sel_source]

theorem boolIndex_target_error {β : Type} {sd : List Int} {a : List β} (h : a.length ≠ sd.length) :
    boolIndex a ((sd.map (fun d => decide (0 ≤ d))).map (!·)) = .error .indexError := by
  unfold boolIndex
  rw [if_neg (by simpa using h)]

theorem sd_ne_nil {α : Type} {X : List α} {sd : List Int} (hX : X ≠ []) (hs : sd.length = X.length) : sd ≠ [] := by
  rintro rfl
  exact hX (List.length_eq_zero_iff.1 hs.symm)

end Skada

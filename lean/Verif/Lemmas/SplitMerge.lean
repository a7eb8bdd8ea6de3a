/- Helper lemmas for `source_target_split` / `source_target_merge`. -/
import Verif.Model.SplitMerge
import Verif.Lemmas.Np
import Verif.Spec

namespace Skada
open Np Spec

theorem sel_source {α : Type _} (sd : List Int) (a : List α) :
    sel (sd.map (fun d => decide (0 ≤ d))) a = sourceRows sd a := sel_map _ sd a

theorem sel_target {α : Type _} (sd : List Int) (a : List α) :
    sel (sd.map (fun d => decide (d < 0))) a = targetRows sd a := sel_map _ sd a

theorem tgtMask_eq (sd : List Int) :
    sd.map (fun d => decide (d < 0)) = (sd.map (fun d => decide (0 ≤ d))).map (!·) := by
  simp [List.map_map, Function.comp_def, ← decide_not]

theorem count_map_true {β : Type _} (p : β → Bool) (l : List β) :
    (l.map p).count true = l.countP p := by
  induction l with
  | nil => rfl
  | cons x l ih => cases h : p x <;> simp [h, ih]

theorem nSource_add_nTarget (sd : List Int) : nSource sd + nTarget sd = sd.length := by
  induction sd with
  | nil => rfl
  | cons d sd ih =>
    unfold nSource nTarget at *
    by_cases h : 0 ≤ d
    · have h' : ¬ d < 0 := by omega
      simp [h, h']; omega
    · have h' : d < 0 := by omega
      simp [h, h']; omega

theorem length_sourceRows {α : Type _} {sd : List Int} {a : List α} (h : sd.length = a.length) :
    (sourceRows sd a).length = nSource sd := by
  rw [← sel_source, length_sel (by simpa using h), count_map_true]; rfl

theorem length_targetRows {α : Type _} {sd : List Int} {a : List α} (h : sd.length = a.length) :
    (targetRows sd a).length = nTarget sd := by
  rw [← sel_target, length_sel (by simpa using h), count_map_true]; rfl

theorem ext_of_rows {α : Type _} {sd : List Int} {a b : List α}
    (ha : sd.length = a.length) (hb : sd.length = b.length)
    (h1 : sourceRows sd a = sourceRows sd b) (h2 : targetRows sd a = targetRows sd b) : a = b := by
  apply ext_of_sel (m := sd.map (fun d => decide (0 ≤ d))) (by simpa using ha) (by simpa using hb)
  · rw [sel_source, sel_source, h1]
  · rw [← tgtMask_eq, sel_target, sel_target, h2]

/-- The dtype of a merged pair. -/
def mergedDtype {α : Type} (s t : NArr α) : DType := if s.rows ≠ [] then s.dtype else t.dtype
/-- The trailing shape of a merged pair. -/
def mergedTail {α : Type} (s t : NArr α) : List Nat := if s.rows ≠ [] then s.tail else t.tail

theorem mergeArrays_ok {α : Type} [Cell α] {s t : NArr α} {sd : List Int}
    (hs : s.rows.length = nSource sd) (ht : t.rows.length = nTarget sd) :
    ∃ out, mergeArrays s t sd = .ok ⟨mergedDtype s t, mergedTail s t, out⟩ ∧ out.length = sd.length ∧
      sourceRows sd out = s.rows.map (Cell.cast (mergedDtype s t)) ∧
      targetRows sd out = t.rows.map (Cell.cast (mergedDtype s t)) := by
  have hlen := nSource_add_nTarget sd
  by_cases h1 : s.rows = []
  · -- target only
    have hns : nSource sd = 0 := by rw [← hs, h1]; rfl
    have hd : mergedDtype s t = t.dtype := by simp [mergedDtype, h1]
    have htl : mergedTail s t = t.tail := by simp [mergedTail, h1]
    have hl : t.rows.length = sd.length := by omega
    refine ⟨putMask (sd.map (fun d => decide (d < 0)))
      (List.replicate t.rows.length (Cell.zero t.tail : α)) (t.rows.map (Cell.cast t.dtype)), ?_, ?_, ?_, ?_⟩
    · unfold mergeArrays
      simp only [h1, ne_eq, not_true_eq_false, false_and, if_false]
      rw [boolAssign_ok (by simp [hl]) (by rw [count_map_true, List.length_map, ht]; rfl)]
      simp [hd, htl]
    · rw [length_putMask]; simp [hl]
    · rw [h1, List.map_nil, ← List.length_eq_zero_iff, length_sourceRows (by rw [length_putMask]; simp [hl]), hns]
    · rw [← sel_target, sel_putMask_same (by simp [hl]) (by rw [count_map_true, List.length_map, ht]; rfl), hd]
  · have hd : mergedDtype s t = s.dtype := by simp [mergedDtype, h1]
    have htl : mergedTail s t = s.tail := by simp [mergedTail, h1]
    by_cases h2 : t.rows = []
    · have hnt : nTarget sd = 0 := by rw [← ht, h2]; rfl
      have hl : s.rows.length = sd.length := by omega
      refine ⟨putMask (sd.map (fun d => decide (0 ≤ d)))
        (List.replicate s.rows.length (Cell.zero s.tail : α)) (s.rows.map (Cell.cast s.dtype)), ?_, ?_, ?_, ?_⟩
      · unfold mergeArrays
        simp only [h1, h2, ne_eq, not_true_eq_false, not_false_eq_true, and_false, if_false, if_true]
        rw [boolAssign_ok (by simp [hl]) (by rw [count_map_true, List.length_map, hs]; rfl)]
        simp [hd, htl]
      · rw [length_putMask]; simp [hl]
      · rw [← sel_source, sel_putMask_same (by simp [hl]) (by rw [count_map_true, List.length_map, hs]; rfl), hd]
      · rw [h2, List.map_nil, ← List.length_eq_zero_iff, length_targetRows (by rw [length_putMask]; simp [hl]), hnt]
    · have hl : s.rows.length + t.rows.length = sd.length := by omega
      refine ⟨putMask (sd.map (fun d => decide (d < 0)))
        (putMask (sd.map (fun d => decide (0 ≤ d)))
          (List.replicate (s.rows.length + t.rows.length) (Cell.zero s.tail : α)) (s.rows.map (Cell.cast s.dtype)))
        (t.rows.map (Cell.cast s.dtype)), ?_, ?_, ?_, ?_⟩
      · unfold mergeArrays
        simp only [h1, h2, ne_eq, not_false_eq_true, and_self, if_true]
        rw [boolAssign_ok (by simp [hl]) (by rw [count_map_true, List.length_map, hs]; rfl)]
        simp only
        rw [boolAssign_ok (by rw [length_putMask]; simp [hl]) (by rw [count_map_true, List.length_map, ht]; rfl)]
        simp [hd, htl]
      · rw [length_putMask, length_putMask]; simp [hl]
      · have e : sd.map (fun d => decide (0 ≤ d)) = (sd.map (fun d => decide (d < 0))).map (!·) := by
          simp [tgtMask_eq, List.map_map, Function.comp_def]
        rw [← sel_source, hd]
        conv_lhs => rw [e]
        rw [sel_not_putMask (by rw [length_putMask]; simp [hl]) (by rw [count_map_true, List.length_map, ht]; rfl),
          ← e, sel_putMask_same (by simp [hl]) (by rw [count_map_true, List.length_map, hs]; rfl)]
      · rw [← sel_target, sel_putMask_same (by rw [length_putMask]; simp [hl])
          (by rw [count_map_true, List.length_map, ht]; rfl), hd]

theorem count_src (sd : List Int) :
    (sd.map (fun d => decide (0 ≤ d))).count true = nSource sd := by rw [count_map_true]; rfl

theorem count_tgt (sd : List Int) :
    (sd.map (fun d => !decide (0 ≤ d))).count true = nTarget sd := by
  rw [count_map_true]; unfold nTarget
  congr 1; funext d; rw [← decide_not]; simp

theorem extractSourceIndices_ok {sd : List Int} (h : sd ≠ []) :
    extractSourceIndices sd = .ok (sd.map (fun d => decide (0 ≤ d))) := by simp [extractSourceIndices, h]

/-- When both counts match, nothing is filled in. -/
theorem mergePair_ok {α : Type} [Cell α] {s t : NArr α} {sd : List Int}
    (hs : s.rows.length = nSource sd) (ht : t.rows.length = nTarget sd) :
    mergePair sd (s, t) = mergeArrays s t sd := by
  have hlen := nSource_add_nTarget sd
  have hf : fillPair (s, t) sd.length = .ok (s, t) := by
    unfold fillPair
    by_cases h2 : t.rows = []
    · have : nTarget sd = 0 := by rw [← ht, h2]; rfl
      have : sd.length - s.rows.length = 0 := by omega
      simp [h2, this]
    · by_cases h1 : s.rows = []
      · have : nSource sd = 0 := by rw [← hs, h1]; rfl
        have : sd.length - t.rows.length = 0 := by omega
        simp [h1, h2, this]
      · simp [h1, h2]
  unfold mergePair
  rw [hf]
  simp only [count_src, count_tgt, hs, ht, ne_eq, not_true_eq_false, or_self, if_false]

theorem length_pairUp_flat {β : Type} (l : List (β × β)) :
    pairUp (l.flatMap (fun p => [p.1, p.2])) = l := by
  induction l with
  | nil => rfl
  | cons p l ih => simp [pairUp, ih]

theorem flat_length {β γ : Type} (l : List γ) (f g : γ → β) :
    (l.flatMap (fun p => [f p, g p])).length = 2 * l.length := by
  induction l with
  | nil => rfl
  | cons p l ih => simp [ih]; omega

end Skada

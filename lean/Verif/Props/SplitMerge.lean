/-
Properties C01–C06 and C53: splitting and merging by domain.
-/
import Verif.Lemmas.SplitMerge
import Verif.Props.Domain

namespace Skada
open Np Spec

/-! ### C05: the source/target split -/

/-- C05 (value). `source_target_split` returns, for every array, exactly the source rows and the target rows in
their original order, `None` staying `None`. -/
theorem C05_split_value {α : Type} (arrays : List (Option (List α))) (sd : List Int)
    (ha : arrays ≠ []) (hsd : sd ≠ [])
    (hlen : ∀ a, some a ∈ arrays → a.length = sd.length) :
    sourceTargetSplit arrays sd =
      .ok (arrays.map (fun a => (a.map (sourceRows sd), a.map (targetRows sd)))) := by
  unfold sourceTargetSplit
  rw [if_neg ha, extractSourceIndices_ok hsd]
  apply mapM_ok
  intro a hmem
  cases a with
  | none => rfl
  | some a =>
    have hl := hlen a hmem
    simp only
    rw [boolIndex_ok (by simpa using hl), boolIndex_ok (by simpa using hl), ← tgtMask_eq, sel_source, sel_target]
    rfl

example : sourceTargetSplit [some [(10 : Int), 11, 12, 13], none] [2, -1, 0, -5]
    = .ok [(some [10, 12], some [11, 13]), (none, none)] := by decide

/-- C05 (partition). The two halves keep the order, are disjoint parts of the array and together are all of it;
halves of different arrays stay aligned row by row. -/
theorem C05_split_partition {α β : Type} (sd : List Int) (a : List α) (b : List β)
    (ha : a.length = sd.length) (_hb : b.length = sd.length) :
    (sourceRows sd a).Sublist a ∧ (targetRows sd a).Sublist a ∧
    (sourceRows sd a ++ targetRows sd a).Perm a ∧
    (sourceRows sd a).length + (targetRows sd a).length = a.length ∧
    sourceRows sd (a.zip b) = (sourceRows sd a).zip (sourceRows sd b) ∧
    targetRows sd (a.zip b) = (targetRows sd a).zip (targetRows sd b) := by
  have main : ∀ (sd : List Int) (a : List α), a.length = sd.length →
      (sourceRows sd a).Sublist a ∧ (targetRows sd a).Sublist a ∧
      (sourceRows sd a ++ targetRows sd a).Perm a := by
    intro sd
    induction sd with
    | nil => intro a ha; cases a <;> simp [sourceRows, targetRows] at *
    | cons d sd ih =>
      intro a ha
      cases a with
      | nil => simp at ha
      | cons x a =>
        obtain ⟨h1, h2, h3⟩ := ih a (by simpa using ha)
        unfold sourceRows targetRows at *
        by_cases h : 0 ≤ d
        · have h' : ¬ d < 0 := by omega
          simp only [List.zip_cons_cons, List.filter_cons, h, h', decide_true, decide_false, if_true,
            List.map_cons, Bool.false_eq_true, if_false]
          exact ⟨h1.cons_cons x, h2.cons x, by simpa using h3.cons x⟩
        · have h' : d < 0 := by omega
          simp only [List.zip_cons_cons, List.filter_cons, h, h', decide_true, decide_false, if_true,
            List.map_cons, Bool.false_eq_true, if_false]
          exact ⟨h1.cons x, h2.cons_cons x, List.perm_middle.trans (h3.cons x)⟩
  have zips : ∀ (sd : List Int) (a : List α) (b : List β),
      sourceRows sd (a.zip b) = (sourceRows sd a).zip (sourceRows sd b) ∨ a.length ≠ sd.length ∨ b.length ≠ sd.length := by
    intro sd
    induction sd with
    | nil => intro a b; left; rfl
    | cons d sd ih =>
      intro a b
      cases a with
      | nil => right; left; simp
      | cons x a =>
        cases b with
        | nil => right; right; simp
        | cons y b =>
          rcases ih a b with h | h | h
          · left
            unfold sourceRows at *
            by_cases hd : 0 ≤ d <;> simp [hd, h]
          · right; left; simpa using h
          · right; right; simpa using h
  have zipt : ∀ (sd : List Int) (a : List α) (b : List β),
      targetRows sd (a.zip b) = (targetRows sd a).zip (targetRows sd b) ∨ a.length ≠ sd.length ∨ b.length ≠ sd.length := by
    intro sd
    induction sd with
    | nil => intro a b; left; rfl
    | cons d sd ih =>
      intro a b
      cases a with
      | nil => right; left; simp
      | cons x a =>
        cases b with
        | nil => right; right; simp
        | cons y b =>
          rcases ih a b with h | h | h
          · left
            unfold targetRows at *
            by_cases hd : d < 0 <;> simp [hd, h]
          · right; left; simpa using h
          · right; right; simpa using h
  obtain ⟨h1, h2, h3⟩ := main sd a ha
  refine ⟨h1, h2, h3, ?_, ?_, ?_⟩
  · simpa using h3.length_eq
  · rcases zips sd a b with h | h | h <;> first | exact h | (exact absurd ‹_› h)
  · rcases zipt sd a b with h | h | h <;> first | exact h | (exact absurd ‹_› h)

/-- C05 (errors). An array of another length than `sample_domain` is rejected, never truncated; so are an empty
argument list and an empty `sample_domain`. -/
theorem C05_split_errors {α : Type} (arrays : List (Option (List α))) (sd : List Int) :
    (arrays = [] → sourceTargetSplit arrays sd = .error .valueError) ∧
    (sd = [] → sourceTargetSplit arrays sd = .error .valueError) ∧
    (sd ≠ [] → (∃ a, some a ∈ arrays ∧ a.length ≠ sd.length) →
      sourceTargetSplit arrays sd = .error .indexError) := by
  refine ⟨?_, ?_, ?_⟩
  · rintro rfl; rfl
  · rintro rfl; unfold sourceTargetSplit; split <;> rfl
  · intro hsd ⟨a, ha, hl⟩
    unfold sourceTargetSplit
    rw [if_neg (by rintro rfl; simp at ha), extractSourceIndices_ok hsd]
    apply mapM_error
    · intro x _
      cases x with
      | none => left; exact ⟨_, rfl⟩
      | some b =>
        by_cases hb : b.length = sd.length
        · left
          refine ⟨(some (sourceRows sd b), some (targetRows sd b)), ?_⟩
          simp only
          rw [boolIndex_ok (by simpa using hb), boolIndex_ok (by simpa using hb), ← tgtMask_eq,
            sel_source, sel_target]
        · right; simp [boolIndex, hb]
    · exact ⟨some a, ha, by simp [boolIndex, hl]⟩

example : sourceTargetSplit [some [(1 : Int), 2, 3], some [1, 2]] [1, -1, 1] = .error .indexError := by decide

/-! ### C01: split then merge -/

/-- C01. Merging the two halves of any arrays with the same `sample_domain` returns the arrays: same dtype, same
shape, same row at every position.  `hwf` says that the stored values are representable in the array's own dtype,
which holds for every numpy array. -/
theorem C01_split_merge_roundtrip {α : Type} [Cell α] (As : List (NArr α)) (sd : List Int)
    (hne : As ≠ []) (hsd : sd ≠ [])
    (hlen : ∀ A ∈ As, A.rows.length = sd.length)
    (hwf : ∀ A ∈ As, ∀ r ∈ A.rows, Cell.cast A.dtype r = r) :
    ∃ halves, sourceTargetSplit (As.map (fun A => some A.rows)) sd = .ok halves ∧
      sourceTargetMerge
        ((As.zip halves).flatMap (fun Ah =>
          [Ah.2.1.map (fun r => { Ah.1 with rows := r }), Ah.2.2.map (fun r => { Ah.1 with rows := r })]))
        (some sd) = .ok (As, sd) := by
  refine ⟨As.map (fun A => (some (sourceRows sd A.rows), some (targetRows sd A.rows))), ?_, ?_⟩
  · rw [C05_split_value _ _ (by simpa using hne) hsd]
    · simp
    · intro a ha
      simp only [List.mem_map, Option.some.injEq] at ha
      obtain ⟨A, hA, rfl⟩ := ha
      exact hlen A hA
  · -- the argument list is the flattened list of halves
    let half : NArr α → Option (NArr α) × Option (NArr α) := fun A =>
      (some { A with rows := sourceRows sd A.rows }, some { A with rows := targetRows sd A.rows })
    have hargs : ((As.zip (As.map (fun A => (some (sourceRows sd A.rows), some (targetRows sd A.rows))))).flatMap
        (fun Ah => [Ah.2.1.map (fun r => { Ah.1 with rows := r }), Ah.2.2.map (fun r => { Ah.1 with rows := r })]))
        = (As.map half).flatMap (fun p => [p.1, p.2]) := by
      clear hne hlen hwf
      induction As with
      | nil => rfl
      | cons A As ih => simp [half] at ih ⊢; exact ih
    rw [hargs]
    have hlenpos : 0 < As.length := List.length_pos_iff.2 hne
    unfold sourceTargetMerge
    rw [flat_length, length_pairUp_flat, List.length_map, if_neg (by omega), if_neg (by omega)]
    let nh : NArr α → NArr α × NArr α := fun A => (normArr (half A).1, normArr (half A).2)
    have hcheck : (As.map half).mapM checkPair = .ok (As.map nh) := by
      have := mapM_ok (f := checkPair) (g := fun p => (normArr p.1, normArr p.2)) (l := As.map half) ?_
      · rw [this]; simp [nh]
      · intro p hp
        obtain ⟨A, hA, rfl⟩ := List.mem_map.1 hp
        have hlA := hlen A hA
        have h1 := length_sourceRows (a := A.rows) hlA.symm
        have h2 := length_targetRows (a := A.rows) hlA.symm
        have h3 := nSource_add_nTarget sd
        have h4 : 0 < sd.length := List.length_pos_iff.2 hsd
        unfold checkPair
        by_cases e1 : sourceRows sd A.rows = []
        · by_cases e2 : targetRows sd A.rows = []
          · rw [e1] at h1; rw [e2] at h2; simp at h1 h2; omega
          · simp [half, normArr, emptyArr, e1, e2]
        · by_cases e2 : targetRows sd A.rows = []
          · simp [half, normArr, emptyArr, e1, e2]
          · simp [half, normArr, e1, e2]
    rw [hcheck]
    simp only [if_neg hsd, extractSourceIndices_ok hsd]
    have hmerge : (As.map nh).mapM (mergePair sd) = .ok As := by
      rw [List.mapM_map]
      have := mapM_ok (f := mergePair sd ∘ nh) (g := id) (l := As) ?_
      · rw [this]; simp
      · intro A hA
        have hlA := hlen A hA
        have hs : (nh A).1.rows = sourceRows sd A.rows := by
          simp only [nh, half, normArr]; split
          · rename_i h; rw [h]; rfl
          · rfl
        have ht : (nh A).2.rows = targetRows sd A.rows := by
          simp only [nh, half, normArr]; split
          · rename_i h; rw [h]; rfl
          · rfl
        have hd : mergedDtype (nh A).1 (nh A).2 = A.dtype ∧ mergedTail (nh A).1 (nh A).2 = A.tail := by
          unfold mergedDtype mergedTail
          rw [hs]
          by_cases e1 : sourceRows sd A.rows = []
          · have e2 : targetRows sd A.rows ≠ [] := by
              intro e2
              have h1 := length_sourceRows (a := A.rows) hlA.symm
              have h2 := length_targetRows (a := A.rows) hlA.symm
              rw [e1] at h1; rw [e2] at h2
              have h3 := nSource_add_nTarget sd
              have h4 : 0 < sd.length := List.length_pos_iff.2 hsd
              simp at h1 h2; omega
            simp [nh, half, normArr, e1, e2]
          · simp [nh, half, normArr, e1]
        have hs' : (nh A).1.rows.length = nSource sd := by rw [hs, length_sourceRows hlA.symm]
        have ht' : (nh A).2.rows.length = nTarget sd := by rw [ht, length_targetRows hlA.symm]
        obtain ⟨out, ho, hol, hos, hot⟩ := mergeArrays_ok hs' ht'
        have hmap : ∀ l : List α, (∀ r ∈ l, r ∈ A.rows) → l.map (Cell.cast A.dtype) = l := by
          intro l hl
          have : l.map (Cell.cast A.dtype) = l.map id := List.map_congr_left (fun r hr => hwf A hA r (hl r hr))
          simpa using this
        obtain ⟨sub1, sub2, -⟩ := C05_split_partition sd A.rows A.rows hlA hlA
        rw [hd.1, hs, hmap _ (fun r hr => sub1.subset hr)] at hos
        rw [hd.1, ht, hmap _ (fun r hr => sub2.subset hr)] at hot
        have hout : out = A.rows := ext_of_rows hol.symm hlA.symm hos hot
        show mergePair sd (nh A) = .ok A
        rw [show nh A = ((nh A).1, (nh A).2) from rfl, mergePair_ok hs' ht', ho, hd.1, hd.2, hout]
    rw [hmerge]

/-- A concrete interleaved instance of C01 (two arrays, one of them integer valued). -/
example : sourceTargetMerge [some ⟨.int, [], [Num.fin 1, .fin 3]⟩, some ⟨.int, [], [Num.fin 2]⟩] (some [4, -1, 0])
    = .ok ([⟨.int, [], [Num.fin 1, .fin 2, .fin 3]⟩], [4, -1, 0]) := by decide +kernel

/-! ### C03: the merge accepts exactly matching counts -/

/-- C03 (boundary). Two non-empty arrays of equal row shape and a non-empty `sample_domain` are merged iff the
numbers of source and target labels equal the array lengths; every other input is a `ValueError`. -/
theorem C03_merge_accepts_iff {α : Type} [Cell α] (S T : NArr α) (sd : List Int)
    (hS : S.rows ≠ []) (hT : T.rows ≠ []) (hshape : S.tail = T.tail) (hsd : sd ≠ []) :
    (S.rows.length = nSource sd ∧ T.rows.length = nTarget sd →
      ∃ out, sourceTargetMerge [some S, some T] (some sd) = .ok ([out], sd)) ∧
    (¬ (S.rows.length = nSource sd ∧ T.rows.length = nTarget sd) →
      sourceTargetMerge [some S, some T] (some sd) = .error .valueError) := by
  have hc : checkPair (some S, some T) = .ok (S, T) := by
    simp [checkPair, normArr, hS, hT, hshape]
  have hf : fillPair (S, T) sd.length = .ok (S, T) := by simp [fillPair, hS, hT]
  constructor
  · rintro ⟨h1, h2⟩
    obtain ⟨out, ho, -⟩ := mergeArrays_ok h1 h2
    refine ⟨⟨mergedDtype S T, mergedTail S T, out⟩, ?_⟩
    simp [sourceTargetMerge, pairUp, hc, hsd, extractSourceIndices_ok hsd, mergePair_ok h1 h2, ho]
  · intro h
    have : mergePair sd (S, T) = .error .valueError := by
      unfold mergePair
      rw [hf]
      simp only [count_src, count_tgt]
      rw [if_pos]
      by_contra hcon
      simp only [ne_eq, not_or, not_not] at hcon
      exact h hcon
    simp [sourceTargetMerge, pairUp, hc, hsd, extractSourceIndices_ok hsd, this]

/-- C03 (conservation) and C02: whenever the merge of two non-empty arrays succeeds, the result has one row per
label, its source rows are the source array and its target rows the target array, in order (up to conversion to the
output dtype, which is the dtype of the source array). -/
theorem C03_merge_conserves {α : Type} [Cell α] (S T : NArr α) (sd : List Int)
    (hS : S.rows ≠ []) (hT : T.rows ≠ []) (hsd : sd ≠ [])
    (out : NArr α) (sd' : List Int)
    (h : sourceTargetMerge [some S, some T] (some sd) = .ok ([out], sd')) :
    sd' = sd ∧ out.rows.length = sd.length ∧ out.dtype = S.dtype ∧ out.tail = S.tail ∧
    sourceRows sd out.rows = S.rows.map (Cell.cast S.dtype) ∧
    targetRows sd out.rows = T.rows.map (Cell.cast S.dtype) := by
  by_cases hshape : S.tail = T.tail
  · by_cases hcount : S.rows.length = nSource sd ∧ T.rows.length = nTarget sd
    · obtain ⟨h1, h2⟩ := hcount
      have hc : checkPair (some S, some T) = .ok (S, T) := by
        simp [checkPair, normArr, hS, hT, hshape]
      obtain ⟨o, ho, hol, hos, hot⟩ := mergeArrays_ok h1 h2
      have hd : mergedDtype S T = S.dtype := by simp [mergedDtype, hS]
      have ht : mergedTail S T = S.tail := by simp [mergedTail, hS]
      have : sourceTargetMerge [some S, some T] (some sd) =
          .ok ([⟨mergedDtype S T, mergedTail S T, o⟩], sd) := by
        simp [sourceTargetMerge, pairUp, hc, hsd, extractSourceIndices_ok hsd, mergePair_ok h1 h2, ho]
      rw [this] at h
      cases h
      rw [hd] at hos hot
      exact ⟨rfl, hol, hd, ht, hos, hot⟩
    · rw [(C03_merge_accepts_iff S T sd hS hT hshape hsd).2 hcount] at h; cases h
  · have hc : checkPair (some S, some T) = .error .valueError := by
      simp [checkPair, normArr, hS, hT, hshape]
    have : sourceTargetMerge [some S, some T] (some sd) = .error .valueError := by
      simp [sourceTargetMerge, pairUp, hc]
    rw [this] at h; cases h

example : sourceTargetMerge [some ⟨.int, [], [Num.fin 1]⟩, some ⟨.int, [], [Num.fin 2]⟩] (some [4, -1, 0])
    = .error .valueError := by decide +kernel

/-! ### C02: merge then split -/

/-- C02. If two complete halves of the same dtype are merged, splitting the result returns them. -/
theorem C02_merge_split_roundtrip {α : Type} [Cell α] (S T : NArr α) (sd : List Int)
    (hS : S.rows ≠ []) (hT : T.rows ≠ []) (hsd : sd ≠ [])
    (hdt : S.dtype = T.dtype)
    (hwfS : ∀ r ∈ S.rows, Cell.cast S.dtype r = r) (hwfT : ∀ r ∈ T.rows, Cell.cast T.dtype r = r)
    (out : NArr α) (sd' : List Int)
    (h : sourceTargetMerge [some S, some T] (some sd) = .ok ([out], sd')) :
    sourceTargetSplit [some out.rows] sd' = .ok [(some S.rows, some T.rows)] := by
  obtain ⟨rfl, hl, -, -, hs, ht⟩ := C03_merge_conserves S T sd hS hT hsd out sd' h
  rw [C05_split_value _ _ (by simp) hsd (by intro a ha; simp at ha; rw [ha]; exact hl)]
  have e1 : S.rows.map (Cell.cast S.dtype) = S.rows := by
    have := List.map_congr_left (f := Cell.cast S.dtype) (g := id) hwfS
    simpa using this
  have e2 : T.rows.map (Cell.cast S.dtype) = T.rows := by
    rw [hdt]
    have := List.map_congr_left (f := Cell.cast T.dtype) (g := id) hwfT
    simpa using this
  simp [hs, ht, e1, e2]

example : sourceTargetMerge [some ⟨.float, [2], [[Num.fin 1, .fin 2]]⟩, some ⟨.float, [2], [[Num.fin 3, .fin 4]]⟩]
    (some [-7, 3]) = .ok ([⟨.float, [2], [[Num.fin 3, .fin 4], [Num.fin 1, .fin 2]]⟩], [-7, 3]) := by decide +kernel

/-! ### C04: merged values -/

/-- C04 fails as stated: an integer source array merged with a float target array truncates the target values
(`_merge_arrays` allocates the output with the source dtype, skada/utils.py:585). -/
theorem C04_counterexample :
    ∃ (S T out : NArr Num) (sd : List Int),
      (∀ r ∈ S.rows, Cell.cast S.dtype r = r) ∧ (∀ r ∈ T.rows, Cell.cast T.dtype r = r) ∧
      sourceTargetMerge [some S, some T] (some sd) = .ok ([out], sd) ∧
      targetRows sd out.rows ≠ T.rows := by
  refine ⟨⟨.int, [], [.fin 1]⟩, ⟨.float, [], [.fin (1/2)]⟩, ⟨.int, [], [.fin 1, .fin 0]⟩, [1, -2], ?_, ?_, ?_, ?_⟩
  · decide +kernel
  · decide +kernel
  · decide +kernel
  · decide +kernel

/-- C04 (what holds). If every target value is representable in the dtype of the source array, in particular if the
source array is a float array or both dtypes agree, all values are kept. Missing from the full claim: integer
source with non-integral (or NaN) target values. -/
theorem C04_merged_values_partial {α : Type} [Cell α] (S T : NArr α) (sd : List Int)
    (hS : S.rows ≠ []) (hT : T.rows ≠ []) (hsd : sd ≠ [])
    (hwfS : ∀ r ∈ S.rows, Cell.cast S.dtype r = r) (hrep : ∀ r ∈ T.rows, Cell.cast S.dtype r = r)
    (out : NArr α) (sd' : List Int)
    (h : sourceTargetMerge [some S, some T] (some sd) = .ok ([out], sd')) :
    sourceRows sd out.rows = S.rows ∧ targetRows sd out.rows = T.rows := by
  obtain ⟨-, -, -, -, hs, ht⟩ := C03_merge_conserves S T sd hS hT hsd out sd' h
  have e1 := List.map_congr_left (f := Cell.cast S.dtype) (g := id) hwfS
  have e2 := List.map_congr_left (f := Cell.cast S.dtype) (g := id) hrep
  rw [List.map_id] at e1 e2
  exact ⟨hs.trans e1, ht.trans e2⟩

/-- A float source keeps every target value. -/
theorem C04_float_source_keeps (S T : NArr Num) (sd : List Int)
    (hS : S.rows ≠ []) (hT : T.rows ≠ []) (hsd : sd ≠ []) (hf : S.dtype = .float)
    (out : NArr Num) (sd' : List Int)
    (h : sourceTargetMerge [some S, some T] (some sd) = .ok ([out], sd')) :
    sourceRows sd out.rows = S.rows ∧ targetRows sd out.rows = T.rows :=
  C04_merged_values_partial S T sd hS hT hsd (by rw [hf]; intros; rfl) (by rw [hf]; intros; rfl) out sd' h

/-! ### C53: a missing half is filled with the mask label -/

/-- C53. Merging labels with a missing half (`None` or empty) fills every missing position with the mask value of
the label type (`-1` for classification, NaN for regression) and keeps the given labels; here the target half is
missing. -/
theorem C53_missing_target_filled (S : NArr Num) (sd : List Int) (ty : YType)
    (hS : S.rows ≠ []) (hwf : ∀ r ∈ S.rows, Num.cast S.dtype r = r)
    (hty : findYType S.rows = .ok ty) (hcont : ty = .continuous → S.dtype = .float)
    (hn : S.rows.length = nSource sd) (ht : 0 < nTarget sd)
    (T : Option (NArr Num)) (hT : T = none ∨ ∃ t, T = some t ∧ t.rows = []) :
    ∃ out, sourceTargetMerge [some S, T] (some sd) = .ok ([out], sd) ∧
      out.rows.length = sd.length ∧
      sourceRows sd out.rows = S.rows ∧
      targetRows sd out.rows = List.replicate (nTarget sd) (if ty = .discrete then Num.fin (-1) else Num.nan) := by
  have hlen := nSource_add_nTarget sd
  have hsd : sd ≠ [] := by rintro rfl; simp [nTarget] at ht
  have hTn : normArr T = emptyArr Num := by
    rcases hT with rfl | ⟨t, rfl, ht⟩
    · rfl
    · simp [normArr, ht]
  have hc : checkPair (some S, T) = .ok (S, emptyArr Num) := by
    unfold checkPair
    rw [hTn]
    simp [normArr, hS, emptyArr]
  have hk : sd.length - S.rows.length = nTarget sd := by omega
  let F : NArr Num := ⟨.float, S.tail, List.replicate (nTarget sd) (maskLabel ty)⟩
  have hfill : fillPair (S, emptyArr Num) sd.length = .ok (S, F) := by
    have : (Cell.yType S.rows : Py YType) = .ok ty := hty
    simp [fillPair, emptyArr, hk, ht, filler, this, F, Cell.const]
  have hF : F.rows.length = nTarget sd := by simp [F]
  obtain ⟨o, ho, hol, hos, hot⟩ := mergeArrays_ok (s := S) (t := F) hn hF
  have hd : mergedDtype S F = S.dtype := by simp [mergedDtype, hS]
  have hmp : mergePair sd (S, emptyArr Num) = .ok ⟨mergedDtype S F, mergedTail S F, o⟩ := by
    unfold mergePair
    rw [hfill]
    simp only [count_src, count_tgt, hn, hF, ne_eq, not_true_eq_false, or_self, if_false]
    exact ho
  refine ⟨⟨mergedDtype S F, mergedTail S F, o⟩, ?_, hol, ?_, ?_⟩
  · simp [sourceTargetMerge, pairUp, hc, hsd, extractSourceIndices_ok hsd, hmp]
  · rw [hos, hd]
    have := List.map_congr_left (f := Cell.cast S.dtype) (g := id) hwf
    simpa using this
  · rw [hot, hd]
    simp only [F, List.map_replicate]
    congr 1
    cases ty with
    | discrete =>
      simp only [maskLabel, if_true]
      cases S.dtype
      · show Num.cast .int (.fin (-1)) = .fin (-1)
        decide +kernel
      · rfl
    | continuous =>
      rw [hcont rfl]; rfl

example : sourceTargetMerge [some ⟨.int, [], [Num.fin 1, .fin 0]⟩, none] (some [1, -2, 1])
    = .ok ([⟨.int, [], [Num.fin 1, .fin (-1), .fin 0]⟩], [1, -2, 1]) := by decide +kernel
example : sourceTargetMerge [some ⟨.float, [], [Num.fin (1/2)]⟩, none] (some [-2, 1])
    = .ok ([⟨.float, [], [Num.nan, .fin (1/2)]⟩], [-2, 1]) := by decide +kernel

/-- C53 with the source half missing. -/
theorem C53_missing_source_filled (T : NArr Num) (sd : List Int) (ty : YType)
    (hT : T.rows ≠ []) (hty : findYType T.rows = .ok ty)
    (hn : T.rows.length = nTarget sd) (hs : 0 < nSource sd)
    (S : Option (NArr Num)) (hS : S = none ∨ ∃ s, S = some s ∧ s.rows = []) :
    ∃ out, sourceTargetMerge [S, some T] (some sd) = .ok ([out], sd) ∧
      out.rows.length = sd.length ∧
      targetRows sd out.rows = T.rows ∧
      sourceRows sd out.rows = List.replicate (nSource sd) (if ty = .discrete then Num.fin (-1) else Num.nan) := by
  have hlen := nSource_add_nTarget sd
  have hsd : sd ≠ [] := by rintro rfl; simp [nSource] at hs
  have hSn : normArr S = emptyArr Num := by
    rcases hS with rfl | ⟨t, rfl, ht⟩
    · rfl
    · simp [normArr, ht]
  have hc : checkPair (S, some T) = .ok (emptyArr Num, T) := by
    unfold checkPair
    rw [hSn]
    simp [normArr, hT, emptyArr]
  have hk : sd.length - T.rows.length = nSource sd := by omega
  let F : NArr Num := ⟨.float, T.tail, List.replicate (nSource sd) (maskLabel ty)⟩
  have hfill : fillPair (emptyArr Num, T) sd.length = .ok (F, T) := by
    have : (Cell.yType T.rows : Py YType) = .ok ty := hty
    simp [fillPair, emptyArr, hT, hk, hs, filler, this, F, Cell.const]
  have hF : F.rows.length = nSource sd := by simp [F]
  have hFne : F.rows ≠ [] := by intro h; rw [h] at hF; simp at hF; omega
  obtain ⟨o, ho, hol, hos, hot⟩ := mergeArrays_ok (s := F) (t := T) hF hn
  have hd : mergedDtype F T = .float := by simp [mergedDtype, hFne]; rfl
  have hmp : mergePair sd (emptyArr Num, T) = .ok ⟨mergedDtype F T, mergedTail F T, o⟩ := by
    unfold mergePair
    rw [hfill]
    simp only [count_src, count_tgt, hn, hF, ne_eq, not_true_eq_false, or_self, if_false]
    exact ho
  have hid : ∀ l : List Num, l.map (Cell.cast .float) = l := fun l => by
    have : (Cell.cast .float : Num → Num) = id := rfl
    rw [this, List.map_id]
  refine ⟨⟨mergedDtype F T, mergedTail F T, o⟩, ?_, hol, ?_, ?_⟩
  · simp [sourceTargetMerge, pairUp, hc, hsd, extractSourceIndices_ok hsd, hmp]
  · rw [hot, hd, hid]
  · rw [hos, hd, hid]
    cases ty <;> rfl

example : sourceTargetMerge [none, some ⟨.int, [], [Num.fin 1, .fin 0]⟩] (some [-1, 2, -1])
    = .ok ([⟨.float, [], [Num.fin 1, .fin (-1), .fin 0]⟩], [-1, 2, -1]) := by decide +kernel

/-- C53 for feature matrices (float arrays with rows of width `w`), target half missing: rows of finite numbers, not
all of them integers, are kept and every missing row is filled with NaN; a NaN among the given entries, or integers only
and more than one column, raise `ValueError` — the type of a feature matrix is found as if it were labels. -/
theorem C53_missing_rows_filled (S : List (List Num)) (w : Nat) (sd : List Int)
    (hS : S ≠ []) (hn : S.length = nSource sd) (ht : 0 < nTarget sd)
    (T : Option (NArr (List Num))) (hT : T = none ∨ ∃ t, T = some t ∧ t.rows = []) :
    ((∀ r ∈ S, ∀ v ∈ r, ∃ q, v = .fin q) → (∃ r ∈ S, ∃ v ∈ r, ¬ ∃ z : Int, v = .fin z) →
      ∃ out, sourceTargetMerge [some ⟨.float, [w], S⟩, T] (some sd) = .ok ([out], sd) ∧
        out.rows.length = sd.length ∧ sourceRows sd out.rows = S ∧
        targetRows sd out.rows = List.replicate (nTarget sd) (List.replicate w Num.nan)) ∧
    ((∃ r ∈ S, Num.nan ∈ r) →
      sourceTargetMerge [some ⟨.float, [w], S⟩, T] (some sd) = .error .valueError) ∧
    ((∀ r ∈ S, r.length = w ∧ ∀ v ∈ r, ∃ z : Int, v = .fin z) → 1 < w →
      sourceTargetMerge [some ⟨.float, [w], S⟩, T] (some sd) = .error .valueError) := by
  have hlen := nSource_add_nTarget sd
  have hsd : sd ≠ [] := by rintro rfl; simp [nTarget] at ht
  have hTn : normArr T = emptyArr (List Num) := by
    rcases hT with rfl | ⟨t, rfl, ht⟩
    · rfl
    · simp [normArr, ht]
  have hc : checkPair (some ⟨.float, [w], S⟩, T) = .ok (⟨.float, [w], S⟩, emptyArr (List Num)) := by
    unfold checkPair
    rw [hTn]
    simp [normArr, hS, emptyArr]
  have hk : sd.length - S.length = nTarget sd := by omega
  have hbad : (Cell.yType S : Py YType) = .error .valueError →
      sourceTargetMerge [some ⟨.float, [w], S⟩, T] (some sd) = .error .valueError := by
    intro hty
    have hfill : fillPair ((⟨.float, [w], S⟩ : NArr (List Num)), emptyArr (List Num)) sd.length = .error .valueError := by
      simp [fillPair, emptyArr, hk, ht, filler, hty]
    have hmp : mergePair sd ((⟨.float, [w], S⟩ : NArr (List Num)), emptyArr (List Num)) = .error .valueError := by
      unfold mergePair
      rw [hfill]
    simp [sourceTargetMerge, pairUp, hc, hsd, extractSourceIndices_ok hsd, hmp]
  refine ⟨?_, ?_, ?_⟩
  · intro hfin hni
    have hty : (Cell.yType S : Py YType) = .ok .continuous := by
      show findYType2 S = _
      unfold findYType2
      rw [if_neg, if_pos, if_neg]
      · simp only [List.any_eq_true, not_exists, not_and]
        intro r hr v hv
        obtain ⟨q, rfl⟩ := hfin r hr v hv
        simp [Num.isFinite]
      · obtain ⟨r, hr, v, hv, hi⟩ := hni
        rw [List.any_eq_true]
        refine ⟨r, hr, List.any_eq_true.2 ⟨v, hv, ?_⟩⟩
        rw [Bool.not_eq_true', ← Bool.not_eq_true, Num.isIntegral_iff]
        exact hi
      · simp only [List.any_eq_true, not_exists, not_and]
        intro r hr v hv
        obtain ⟨q, rfl⟩ := hfin r hr v hv
        simp [Num.isNan]
    let F : NArr (List Num) := ⟨.float, [w], List.replicate (nTarget sd) (List.replicate w Num.nan)⟩
    have hfill : fillPair ((⟨.float, [w], S⟩ : NArr (List Num)), emptyArr (List Num)) sd.length = .ok (⟨.float, [w], S⟩, F) := by
      simp [fillPair, emptyArr, hk, ht, filler, hty, F, Cell.const, maskLabel]
    have hF : F.rows.length = nTarget sd := by simp [F]
    obtain ⟨o, ho, hol, hos, hot⟩ := mergeArrays_ok (s := (⟨.float, [w], S⟩ : NArr (List Num))) (t := F) hn hF
    have hd : mergedDtype (⟨.float, [w], S⟩ : NArr (List Num)) F = .float := by simp [mergedDtype, hS]
    have hmp : mergePair sd ((⟨.float, [w], S⟩ : NArr (List Num)), emptyArr (List Num)) =
        .ok ⟨mergedDtype (⟨.float, [w], S⟩ : NArr (List Num)) F, mergedTail (⟨.float, [w], S⟩ : NArr (List Num)) F, o⟩ := by
      unfold mergePair
      rw [hfill]
      simp only [count_src, count_tgt, hn, hF, ne_eq, not_true_eq_false, or_self, if_false]
      exact ho
    have hid : ∀ l : List (List Num), l.map (Cell.cast .float) = l := fun l => by
      have : (Cell.cast .float : List Num → List Num) = id := by
        funext r
        show r.map (Num.cast .float) = r
        have : (Num.cast .float : Num → Num) = id := rfl
        rw [this, List.map_id]
      rw [this, List.map_id]
    refine ⟨⟨mergedDtype (⟨.float, [w], S⟩ : NArr (List Num)) F, mergedTail (⟨.float, [w], S⟩ : NArr (List Num)) F, o⟩,
      ?_, hol, ?_, ?_⟩
    · simp [sourceTargetMerge, pairUp, hc, hsd, extractSourceIndices_ok hsd, hmp]
    · rw [hos, hd, hid]
    · rw [hot, hd, hid]
  · rintro ⟨r, hr, hv⟩
    apply hbad
    show findYType2 S = _
    unfold findYType2
    rw [if_pos]
    exact List.any_eq_true.2 ⟨r, hr, List.any_eq_true.2 ⟨_, hv, rfl⟩⟩
  · intro hint hw
    apply hbad
    show findYType2 S = _
    unfold findYType2
    rw [if_neg, if_neg, if_pos]
    · obtain ⟨r, hr⟩ := List.exists_mem_of_ne_nil S hS
      exact List.any_eq_true.2 ⟨r, hr, by simpa [(hint r hr).1] using hw⟩
    · simp only [List.any_eq_true, not_exists, not_and]
      intro r hr v hv
      rw [Bool.not_eq_true', Bool.not_eq_false, Num.isIntegral_iff]
      exact (hint r hr).2 v hv
    · simp only [List.any_eq_true, not_exists, not_and]
      intro r hr v hv
      obtain ⟨z, rfl⟩ := (hint r hr).2 v hv
      simp [Num.isNan]

example : sourceTargetMerge [some ⟨.float, [2], [[Num.fin (1/2), .fin 1]]⟩, none] (some [-2, 1])
    = .ok ([⟨.float, [2], [[Num.nan, .nan], [.fin (1/2), .fin 1]]⟩], [-2, 1]) := by decide +kernel
example : sourceTargetMerge [some ⟨.float, [2], [[Num.fin 2, .fin 1]]⟩, none] (some [-2, 1]) = .error .valueError := by
  decide +kernel
example : sourceTargetMerge [some ⟨.float, [2], [[Num.fin 2, .nan]]⟩, none] (some [-2, 1]) = .error .valueError := by
  decide +kernel

/-! ### C55: merging without `sample_domain` -/

/-- C55. Without `sample_domain` (`None` or empty) two non-empty arrays are concatenated, source rows (label 1)
first, target rows (label -2) after them. -/
theorem C55_merge_infers_domain {α : Type} [Cell α] (S T : NArr α) (sd : Option (List Int))
    (hsd : sd = none ∨ sd = some [])
    (hS : S.rows ≠ []) (hT : T.rows ≠ []) (hshape : S.tail = T.tail)
    (hwfS : ∀ r ∈ S.rows, Cell.cast S.dtype r = r) (hrep : ∀ r ∈ T.rows, Cell.cast S.dtype r = r) :
    sourceTargetMerge [some S, some T] sd =
      .ok ([⟨S.dtype, S.tail, S.rows ++ T.rows⟩],
        List.replicate S.rows.length 1 ++ List.replicate T.rows.length (-2)) := by
  let l : List Int := List.replicate S.rows.length 1 ++ List.replicate T.rows.length (-2)
  have hl : l ≠ [] := by
    intro h
    have : l.length = 0 := by rw [h]; rfl
    simp only [l, List.length_append, List.length_replicate] at this
    exact hS (List.length_eq_zero_iff.1 (by omega))
  have hc : checkPair (some S, some T) = .ok (S, T) := by
    simp [checkPair, normArr, hS, hT, hshape]
  have hinf : sourceTargetMerge [some S, some T] sd = sourceTargetMerge [some S, some T] (some l) := by
    have e : inferDomain [(S, T)] = l := rfl
    have hp : ([(some S, some T)] : List (Option (NArr α) × Option (NArr α))).mapM checkPair = .ok [(S, T)] := by
      simp [hc]
    rcases hsd with rfl | rfl
    · unfold sourceTargetMerge
      simp only [pairUp, hp, e, if_neg hl]
    · unfold sourceTargetMerge
      simp only [pairUp, hp, e, if_neg hl, if_true]
  have hns : S.rows.length = nSource l := by
    simp [l, nSource, List.countP_append, List.countP_replicate]
  have hnt : T.rows.length = nTarget l := by
    simp [l, nTarget, List.countP_append, List.countP_replicate]
  obtain ⟨out, hout⟩ := (C03_merge_accepts_iff S T l hS hT hshape hl).1 ⟨hns, hnt⟩
  obtain ⟨-, h1, h2, h3, -, -⟩ := C03_merge_conserves S T l hS hT hl out l hout
  obtain ⟨h4, h5⟩ := C04_merged_values_partial S T l hS hT hl hwfS hrep out l hout
  rw [hinf, hout]
  have hrows : out.rows = S.rows ++ T.rows := by
    apply ext_of_rows (sd := l) h1.symm
    · simp [l]
    · rw [h4]
      have e1 : ∀ (a b : List α), sourceRows (List.replicate a.length 1 ++ List.replicate b.length (-2)) (a ++ b) = a := by
        intro a b
        induction a with
        | nil =>
          simp only [sourceRows, List.length_nil, List.replicate_zero, List.nil_append, List.map_eq_nil_iff,
            List.filter_eq_nil_iff]
          rintro ⟨d, x⟩ hm
          have := List.eq_of_mem_replicate (List.of_mem_zip hm).1
          simp [this]
        | cons x a ih =>
          unfold sourceRows at *
          simp only [List.length_cons, List.replicate_succ, List.cons_append, List.zip_cons_cons]
          simp [ih]
      exact (e1 _ _).symm
    · rw [h5]
      have e1 : ∀ (a b : List α), targetRows (List.replicate a.length 1 ++ List.replicate b.length (-2)) (a ++ b) = b := by
        intro a b
        induction a with
        | nil =>
          simp only [targetRows, List.length_nil, List.replicate_zero, List.nil_append]
          induction b with
          | nil => rfl
          | cons y b ih => simpa [List.replicate_succ] using ih
        | cons x a ih =>
          unfold targetRows at *
          simp only [List.length_cons, List.replicate_succ, List.cons_append, List.zip_cons_cons]
          simpa using ih
      exact (e1 _ _).symm
  obtain ⟨od, ot, orows⟩ := out
  simp only at h2 h3 hrows
  subst h2 h3 hrows
  rfl

example : sourceTargetMerge [some ⟨.int, [], [Num.fin 4, .fin 5]⟩, some ⟨.int, [], [Num.fin 6]⟩] none
    = .ok ([⟨.int, [], [Num.fin 4, .fin 5, .fin 6]⟩], [1, 1, -2]) := by decide +kernel

/-! ### C06: per-domain split -/

/-- `domainRows` is boolean selection. -/
theorem sel_domain {α : Type _} (d : Int) (sd : List Int) (a : List α) :
    sel (sd.map (fun e => decide (e = d))) a = domainRows d sd a := sel_map _ sd a

/-- C06 (value). The two dictionaries list the distinct non-negative, respectively negative, labels in increasing
order; the entry of label `d` holds the rows with label `d` of every array, in order. -/
theorem C06_per_domain_value {α : Type} (arrays : List (Option (List α))) (sd : List Int)
    (ha : arrays ≠ []) (hsd : sd ≠ []) (hlen : ∀ a, some a ∈ arrays → a.length = sd.length) :
    ∃ ks : List Int, ks.Pairwise (· < ·) ∧ (∀ d, d ∈ ks ↔ d ∈ sd) ∧
      perDomainSplit arrays sd = .ok
        ((ks.filter (fun d => decide (0 ≤ d))).map (fun d => (d, arrays.map (fun a => a.map (domainRows d sd)))),
         (ks.filter (fun d => decide (d < 0))).map (fun d => (d, arrays.map (fun a => a.map (domainRows d sd))))) := by
  refine ⟨unique sd, pairwise_unique sd, fun d => mem_unique, ?_⟩
  unfold perDomainSplit
  rw [if_neg ha]
  simp only [extractDomainsIndices, if_neg hsd]
  rw [List.mapM_map]
  rw [mapM_ok (g := fun d => (d, arrays.map (fun a => a.map (domainRows d sd))))]
  · simp only [List.filter_map, Function.comp_def]
    have : (fun x : Int => !decide (0 ≤ x)) = (fun x => decide (x < 0)) := by
      funext x; rw [← decide_not]; simp
    rw [this]
  · intro d _
    simp only [Function.comp_def]
    rw [mapM_ok (g := fun a => a.map (domainRows d sd))]
    · rfl
    · intro a hmem
      cases a with
      | none => rfl
      | some a =>
        have := take_flatnonzero (m := sd.map (fun e => decide (e = d))) (a := a)
          (by simpa using (hlen a hmem).symm)
        simp only [this, sel_domain]
        rfl

/-- C06 (nothing lost). The per-domain groups determine the array: two arrays with the same groups are equal, so
the split can be undone. -/
theorem C06_per_domain_injective {α : Type} (sd : List Int) (a b : List α)
    (ha : a.length = sd.length) (hb : b.length = sd.length)
    (h : ∀ d ∈ sd, domainRows d sd a = domainRows d sd b) : a = b := by
  have key : ∀ (sd : List Int) (a b : List α), a.length = sd.length → b.length = sd.length →
      (∀ d, domainRows d sd a = domainRows d sd b) → a = b := by
    intro sd
    induction sd with
    | nil => intro a b ha hb _; cases a <;> cases b <;> simp at *
    | cons e sd ih =>
      intro a b ha hb h
      cases a with
      | nil => simp at ha
      | cons x a =>
        cases b with
        | nil => simp at hb
        | cons y b =>
          have he := h e
          simp [domainRows] at he
          rw [he.1]
          congr 1
          apply ih a b (by simpa using ha) (by simpa using hb)
          intro d
          by_cases hd : e = d
          · subst hd; simpa [domainRows] using he.2
          · have := h d
            simpa [domainRows, hd] using this
  apply key sd a b ha hb
  intro d
  by_cases hd : d ∈ sd
  · exact h d hd
  · have empt : ∀ c : List α, domainRows d sd c = [] := by
      intro c
      simp only [domainRows, List.map_eq_nil_iff, List.filter_eq_nil_iff, decide_eq_true_eq]
      rintro ⟨e, x⟩ hmem rfl
      exact hd (List.of_mem_zip hmem).1
    rw [empt, empt]

/-- C06 (no mixing). Every row of the group of label `d` comes from a position with label `d`, and group sizes add up:
each position belongs to exactly one group. -/
theorem C06_per_domain_members {α : Type} (sd : List Int) (a : List α) (d : Int) (x : α) :
    x ∈ domainRows d sd a ↔ ∃ i : Nat, sd[i]? = some d ∧ a[i]? = some x := by
  simp only [domainRows, List.mem_map, List.mem_filter, decide_eq_true_eq, Prod.exists]
  constructor
  · rintro ⟨e, y, ⟨hm, rfl⟩, rfl⟩
    obtain ⟨i, hi⟩ := List.mem_iff_getElem?.1 hm
    rw [List.getElem?_zip_eq_some] at hi
    exact ⟨i, hi.1, hi.2⟩
  · rintro ⟨i, h1, h2⟩
    exact ⟨d, x, ⟨List.mem_iff_getElem?.2 ⟨i, List.getElem?_zip_eq_some.2 ⟨h1, h2⟩⟩, rfl⟩, rfl⟩

example : perDomainSplit [some [(10 : Int), 11, 12, 13, 14]] [2, -1, 2, 0, -1]
    = .ok ([(0, [some [13]]), (2, [some [10, 12]])], [(-1, [some [11, 14]])]) := by rfl

end Skada

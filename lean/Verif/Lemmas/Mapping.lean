/-
Helper lemmas for the mapping and subspace adapters.
-/
import Verif.Model.Mapping
import Verif.Lemmas.Reweight
import Verif.Lemmas.Monad

namespace Skada
open Np Spec RW

namespace Map

variable {α : Type}

/-- Row `i` of an array, read off the array of source rows. -/
theorem at_source {sd : List Int} {a : List α} {i : Nat} {d : Int} (hl : sd.length = a.length)
    (hd : sd[i]? = some d) (h0 : 0 ≤ d) : a[i]? = (sourceRows sd a)[nSource (sd.take i)]? := by
  induction sd generalizing a i with
  | nil => simp at hd
  | cons e sd ih =>
    cases a with
    | nil => simp at hl
    | cons x a =>
      cases i with
      | zero =>
        simp only [List.getElem?_cons_zero, Option.some.injEq] at hd
        subst hd
        simp [sourceRows, nSource, h0]
      | succ i =>
        simp only [List.getElem?_cons_succ, List.length_cons, Nat.add_right_cancel_iff] at hd hl
        have := ih hl hd
        by_cases he : 0 ≤ e
        · simpa [sourceRows, nSource, he, List.countP_cons] using this
        · simpa [sourceRows, nSource, he, List.countP_cons] using this

theorem at_target {sd : List Int} {a : List α} {i : Nat} {d : Int} (hl : sd.length = a.length)
    (hd : sd[i]? = some d) (h0 : d < 0) : a[i]? = (targetRows sd a)[nTarget (sd.take i)]? := by
  induction sd generalizing a i with
  | nil => simp at hd
  | cons e sd ih =>
    cases a with
    | nil => simp at hl
    | cons x a =>
      cases i with
      | zero =>
        simp only [List.getElem?_cons_zero, Option.some.injEq] at hd
        subst hd
        simp [targetRows, nTarget, h0]
      | succ i =>
        simp only [List.getElem?_cons_succ, List.length_cons, Nat.add_right_cancel_iff] at hd hl
        have := ih hl hd
        by_cases he : e < 0
        · simpa [targetRows, nTarget, he, List.countP_cons] using this
        · simpa [targetRows, nTarget, he, List.countP_cons] using this

theorem splitN_ok {X : NArr α} {sd : List Int} (hsd : sd ≠ []) (hlen : sd.length = X.rows.length) :
    splitN X sd = .ok (⟨X.dtype, X.tail, sourceRows sd X.rows⟩, ⟨X.dtype, X.tail, targetRows sd X.rows⟩) := by
  simp [splitN, splitX_ok hsd hlen, ok_bind, pure_ok]

/-- Merging complete halves. -/
theorem mergeN_ok [Cell α] {s t : NArr α} {sd : List Int} (hsd : sd ≠ [])
    (hs : s.rows.length = nSource sd) (ht : t.rows.length = nTarget sd)
    (htail : s.rows ≠ [] → t.rows ≠ [] → s.tail = t.tail) :
    ∃ out, mergeN s t sd = .ok out ∧ out.rows.length = sd.length ∧
      out.dtype = mergedDtype s t ∧ out.tail = mergedTail s t ∧
      sourceRows sd out.rows = s.rows.map (Cell.cast (mergedDtype s t)) ∧
      targetRows sd out.rows = t.rows.map (Cell.cast (mergedDtype s t)) := by
  have hlen := nSource_add_nTarget sd
  have hpos : 0 < sd.length := List.length_pos_iff.2 hsd
  -- normalised halves
  let s' := normArr (some s)
  let t' := normArr (some t)
  have hs'r : s'.rows = s.rows := by
    show (normArr (some s)).rows = _
    by_cases h : s.rows = [] <;> simp [normArr, h, emptyArr]
  have ht'r : t'.rows = t.rows := by
    show (normArr (some t)).rows = _
    by_cases h : t.rows = [] <;> simp [normArr, h, emptyArr]
  have hc : checkPair (some s, some t) = .ok (s', t') := by
    have h1 : ¬ (s'.rows = [] ∧ t'.rows = []) := by
      rw [hs'r, ht'r]; rintro ⟨a, b⟩
      rw [a] at hs; rw [b] at ht; simp at hs ht; omega
    have h2 : ¬ (s'.rows ≠ [] ∧ t'.rows ≠ [] ∧ s'.tail ≠ t'.tail) := by
      rw [hs'r, ht'r]; rintro ⟨a, b, c⟩
      have e1 : s' = s := by show normArr (some s) = s; simp [normArr, a]
      have e2 : t' = t := by show normArr (some t) = t; simp [normArr, b]
      rw [e1, e2] at c; exact c (htail a b)
    exact (if_neg h1).trans (if_neg h2)
  obtain ⟨o, ho, hol, hos, hot⟩ := mergeArrays_ok (s := s') (t := t') (sd := sd) (by rw [hs'r]; exact hs)
    (by rw [ht'r]; exact ht)
  have hd : mergedDtype s' t' = mergedDtype s t := by
    unfold mergedDtype; rw [hs'r]
    by_cases a : s.rows = []
    · have b : t.rows ≠ [] := by
        intro b; rw [a] at hs; rw [b] at ht; simp at hs ht; omega
      have e2 : t' = t := by show normArr (some t) = t; simp [normArr, b]
      simp [a, e2]
    · have e1 : s' = s := by show normArr (some s) = s; simp [normArr, a]
      simp [a, e1]
  have htl : mergedTail s' t' = mergedTail s t := by
    unfold mergedTail; rw [hs'r]
    by_cases a : s.rows = []
    · have b : t.rows ≠ [] := by
        intro b; rw [a] at hs; rw [b] at ht; simp at hs ht; omega
      have e2 : t' = t := by show normArr (some t) = t; simp [normArr, b]
      simp [a, e2]
    · have e1 : s' = s := by show normArr (some s) = s; simp [normArr, a]
      simp [a, e1]
  rw [hd] at hos hot ho
  rw [htl] at ho
  rw [hs'r] at hos
  rw [ht'r] at hot
  refine ⟨⟨mergedDtype s t, mergedTail s t, o⟩, ?_, hol, rfl, rfl, hos, hot⟩
  have hm : mergePair sd (s', t') = .ok ⟨mergedDtype s t, mergedTail s t, o⟩ := by
    rw [mergePair_ok (by rw [hs'r]; exact hs) (by rw [ht'r]; exact ht), ho]
  have : sourceTargetMerge [some s, some t] (some sd) = .ok ([⟨mergedDtype s t, mergedTail s t, o⟩], sd) := by
    simp [sourceTargetMerge, pairUp, hc, hsd, extractSourceIndices_ok hsd, hm]
  simp [mergeN, this]

/-- The source check of `transform`. -/
theorem check_noSource {X : List α} {sd : List Int} (hX : X ≠ []) (hlen : sd.length = X.length)
    (h : nSource sd = 0) (b : Bool) : checkXDomain X (.vec sd) { allowSource := b } = .ok (X, sd) := by
  refine (C08_check_domain_code X sd _ hX hlen.symm).2 ?_
  rintro (⟨-, d, hd, h0⟩ | h | h | h)
  · unfold nSource at h
    rw [List.countP_eq_zero] at h
    exact absurd h0 (by simpa using h d hd)
  all_goals simp at h

theorem check_source_refused {X : List α} {sd : List Int} (hX : X ≠ []) (hlen : sd.length = X.length)
    (h : 0 < nSource sd) : checkXDomain X (.vec sd) { allowSource := false } = .error .valueError := by
  refine (C08_check_domain_code X sd _ hX hlen.symm).1 ?_
  left
  obtain ⟨d, hd, h0⟩ := List.countP_pos_iff.1 h
  exact ⟨rfl, d, hd, by simpa using h0⟩

/-! ### scattering rows back -/

theorem mem_zip_nonzero {α β : Type} (g : α → β) (m : List Bool) (X : List α) (k j : Nat) (x : α)
    (hm : m[j]? = some true) (hx : X[j]? = some x) :
    (k + j, g x) ∈ (nonzeroFrom k m).zip ((sel m X).map g) := by
  induction m generalizing X k j with
  | nil => simp at hm
  | cons b m ih =>
    cases X with
    | nil => simp at hx
    | cons y X =>
      cases j with
      | zero =>
        simp only [List.getElem?_cons_zero, Option.some.injEq] at hm hx
        subst hm hx
        simp [nonzeroFrom, sel]
      | succ j =>
        simp only [List.getElem?_cons_succ] at hm hx
        have h := ih X (k + 1) j hm hx
        have e : k + 1 + j = k + (j + 1) := by omega
        rw [e] at h
        cases b with
        | true => simp only [nonzeroFrom, sel, List.map_cons, List.zip_cons_cons]; exact List.mem_cons_of_mem _ h
        | false => simpa [nonzeroFrom, sel] using h

/-- `out[mask_positions] = g(X[mask_positions])`, entry by entry. -/
theorem idxAssign_mask {α β : Type} (g : α → β) (m : List Bool) (X : List α) (out : List β)
    (hX : m.length = X.length) (ho : out.length = X.length) :
    ∃ out', idxAssign out (flatnonzero m) ((sel m X).map g) = .ok out' ∧ out'.length = out.length ∧
      ∀ (i : Nat) (x : α), X[i]? = some x →
        (m[i]? = some true → out'[i]? = some (g x)) ∧ (m[i]? = some false → out'[i]? = out[i]?) := by
  have hlt : ∀ i ∈ flatnonzero m, i < out.length := by
    intro i hi
    have := (List.getElem?_eq_some_iff.1 (mem_flatnonzero.1 hi)).1
    omega
  have hl : ((sel m X).map g).length = (flatnonzero m).length := by
    rw [List.length_map, length_sel hX, length_flatnonzero]
  refine ⟨_, idxAssign_ok hlt hl, length_putAll _ _, fun i x hx => ⟨fun hm => ?_, fun hm => ?_⟩⟩
  · apply getElem?_putAll_mem
    · rw [List.map_fst_zip (by rw [hl])]; exact nodup_flatnonzero m
    · have := mem_zip_nonzero g m X 0 i x hm hx
      simpa [flatnonzero] using this
    · have := (List.getElem?_eq_some_iff.1 hm).1; omega
  · apply getElem?_putAll_not_mem
    rw [List.map_fst_zip (by rw [hl]), mem_flatnonzero, hm]
    simp

/-- The loop of `MultiLinearMongeAlignmentAdapter.transform`. -/
theorem mongeLoop_ok [Cell α] (maps : List (Int × (α → α))) (f : Int → α → α) (X : NArr α) (sd : List Int)
    (hlen : sd.length = X.rows.length) (ds : List Int) (hds : ∀ d ∈ ds, lookup maps d = .ok (f d))
    (out : List α) (ho : out.length = X.rows.length) :
    ∃ out', mongeLoop maps X (ds.map (fun d => (d, flatnonzero (sd.map (fun e => decide (e = d)))))) out = .ok out' ∧
      out'.length = out.length ∧
      ∀ (i : Nat) (d : Int) (x : α), sd[i]? = some d → X.rows[i]? = some x →
        out'[i]? = if d ∈ ds then some (Cell.cast X.dtype (f d x)) else out[i]? := by
  induction ds generalizing out with
  | nil => exact ⟨out, rfl, rfl, by simp⟩
  | cons d ds ih =>
    obtain ⟨o1, h1, hl1, hv1⟩ := idxAssign_mask (fun x => Cell.cast X.dtype (f d x))
      (sd.map (fun e => decide (e = d))) X.rows out (by simpa using hlen) ho
    obtain ⟨o2, h2, hl2, hv2⟩ := ih (fun e he => hds e (List.mem_cons_of_mem _ he)) o1 (hl1.trans ho)
    refine ⟨o2, ?_, hl2.trans hl1, ?_⟩
    · simp only [List.map_cons, mongeLoop, hds d (by simp), ok_bind,
        take_flatnonzero (m := sd.map (fun e => decide (e = d))) (a := X.rows) (by simpa using hlen), h1]
      exact h2
    · intro i e x he hx
      rw [hv2 i e x he hx]
      obtain ⟨ht, hf⟩ := hv1 i x hx
      by_cases hed : e = d
      · subst hed
        rw [ht (by simp [he])]
        simp
      · rw [hf (by simp [he, hed])]
        simp [hed]

theorem mongeLoop_key [Cell α] (maps : List (Int × (α → α))) (X : NArr α) (sd : List Int)
    (hlen : sd.length = X.rows.length) (ds : List Int) (h : ∃ d ∈ ds, lookup maps d = .error .keyError)
    (hall : ∀ d ∈ ds, (∃ g, lookup maps d = .ok g) ∨ lookup maps d = .error .keyError)
    (out : List α) (ho : out.length = X.rows.length) :
    mongeLoop maps X (ds.map (fun d => (d, flatnonzero (sd.map (fun e => decide (e = d)))))) out = .error .keyError := by
  induction ds generalizing out with
  | nil => simp at h
  | cons d ds ih =>
    rcases hall d (by simp) with ⟨g, hg⟩ | he
    · obtain ⟨o1, h1, hl1, hv1⟩ := idxAssign_mask (fun x => Cell.cast X.dtype (g x))
        (sd.map (fun e => decide (e = d))) X.rows out (by simpa using hlen) ho
      simp only [List.map_cons, mongeLoop, hg, ok_bind,
        take_flatnonzero (m := sd.map (fun e => decide (e = d))) (a := X.rows) (by simpa using hlen), h1]
      apply ih _ (fun e he => hall e (List.mem_cons_of_mem _ he)) _ (hl1.trans ho)
      obtain ⟨e, he, hk⟩ := h
      rcases List.mem_cons.1 he with rfl | he
      · rw [hg] at hk; cases hk
      · exact ⟨e, he, hk⟩
    · simp only [List.map_cons, mongeLoop, he, err_bind]

end Map
end Skada

/-
Batches, epochs and the rows behind sampled positions.
-/
import Verif.Model.DeepTrain
import Verif.Lemmas.DeepDataset
import Verif.Lemmas.Sampler
import Verif.Lemmas.SelfLabel

namespace Skada
open Np Spec Deep

variable {σ K α P D F Y : Type} [Field K] [DecidableEq Y]

/-! ### Ranks and filters -/

omit [Field K] [DecidableEq Y] in
theorem rankedFrom_filter_map (p : Int → Bool) (b : List Int) (l : List (Rec K α Y)) :
    (rankedFrom b l).filter (fun a => p a.d) = rankedFrom (b.filter p) (l.filter (fun r => p r.d)) := by
  induction l generalizing b with
  | nil => rfl
  | cons r l ih =>
    rw [rankedFrom, List.filter_cons, List.filter_cons, ih, List.filter_append]
    by_cases h : p r.d = true
    · simp only [h, if_true, rankedFrom, List.filter_cons, List.filter_nil]
      rw [List.count_filter h]
    · simp [h]

omit [Field K] [DecidableEq Y] in
theorem ranked_filter_map (p : Int → Bool) (l : List (Rec K α Y)) :
    (ranked l).filter (fun a => p a.d) = ranked (l.filter (fun r => p r.d)) := rankedFrom_filter_map p [] l

omit [Field K] [DecidableEq Y] in
theorem rankedFrom_d (b : List Int) (l : List (Rec K α Y)) : (rankedFrom b l).map (·.d) = l.map (·.d) := by
  induction l generalizing b with
  | nil => rfl
  | cons r l ih => simp [rankedFrom, ih]

theorem take_get {β : Type} {a r : List β} {idx : List Nat} (h : Np.take a idx = .ok r) (q : Nat) : r[q]? = idx[q]?.bind (a[·]?) := by
  induction idx generalizing r q with
  | nil => simp only [Np.take] at h; injection h with h; subst h; simp
  | cons i idx ih =>
    simp only [Np.take] at h
    cases hi : a[i]? with
    | none => rw [hi] at h; simp at h
    | some x =>
      rw [hi] at h
      simp only at h
      cases hr : Np.take a idx with
      | error e => rw [hr] at h; simp at h
      | ok r' =>
        rw [hr] at h
        injection h with h
        subst h
        cases q with
        | zero => simp [hi]
        | succ q => simpa using ih hr q

/-- The row behind the `q`-th selected position. -/
theorem get_flatnonzero {β : Type} (p : β → Bool) (A : List β) (q : Nat) :
    (flatnonzero (A.map p))[q]?.bind (A[·]?) = (A.filter p)[q]? := by
  have h := take_flatnonzero (m := A.map p) (a := A) (by simp)
  rw [← take_get h q]
  congr 1
  have := sel_map_map p id A
  simpa using this

/-! ### Positions and rows -/

theorem onlyLoop_range (idx : List Nat) (n : Nat) (perm : List Nat) :
    onlyLoop idx n perm = (onlyLoop (List.range idx.length) n perm).map (fun ps => ps.map (fun q => idx.getD q 0)) := by
  induction n generalizing perm with
  | zero => rfl
  | succ n ih =>
    cases perm with
    | nil => rfl
    | cons p ps =>
      unfold onlyLoop getIdx
      by_cases hp : p < idx.length
      · rw [List.getElem?_eq_getElem hp, List.getElem?_eq_getElem (by simpa using hp)]
        simp only [ok_bind]
        rw [ih]
        cases onlyLoop (List.range idx.length) n ps with
        | error e => rfl
        | ok r =>
          change Except.ok _ = Except.ok _
          simp [List.getD_eq_getElem?_getD, List.getElem?_eq_getElem hp]
      · rw [List.getElem?_eq_none (by omega), List.getElem?_eq_none (by simpa using hp)]
        rfl

theorem onlyLoop_lt {m n : Nat} {perm ps : List Nat} (h : onlyLoop (List.range m) n perm = .ok ps) : ∀ q ∈ ps, q < m := by
  induction n generalizing perm ps with
  | zero => simp only [onlyLoop] at h; injection h with h; subst h; simp
  | succ n ih =>
    cases perm with
    | nil => simp [onlyLoop] at h
    | cons p perm =>
      unfold onlyLoop at h
      rw [bind_ok_iff] at h
      obtain ⟨i, hi, h⟩ := h
      rw [bind_ok_iff] at h
      obtain ⟨r, hr, h⟩ := h
      injection h with h
      subst h
      intro q hq
      rcases List.mem_cons.1 hq with rfl | hq
      · unfold getIdx at hi
        split at hi
        · simp at hi
        · rename_i j hj
          injection hi with hi
          subst hi
          have := List.mem_of_getElem? hj
          simpa using this
      · exact ih hr q hq

theorem chunks_map {β γ : Type} (g : β → γ) (b fuel : Nat) (l : List β) :
    chunks b fuel (l.map g) = (chunks b fuel l).map (List.map g) := by
  induction fuel generalizing l with
  | zero => rfl
  | succ fuel ih =>
    cases l with
    | nil => rfl
    | cons x l =>
      rw [List.map_cons, chunks, chunks, List.map_cons, ← List.map_cons, ← List.map_take, ← List.map_drop, ih]

theorem mem_chunks {β : Type} {b fuel : Nat} {l c : List β} (h : c ∈ chunks b fuel l) {x : β} (hx : x ∈ c) : x ∈ l := by
  induction fuel generalizing l with
  | zero => simp [chunks] at h
  | succ fuel ih =>
    cases l with
    | nil => simp [chunks] at h
    | cons y l =>
      rw [chunks, List.mem_cons] at h
      rcases h with rfl | h
      · exact List.mem_of_mem_take hx
      · exact List.mem_of_mem_drop (ih h)

/-- One optimiser step and the callbacks, on given items. -/
def itemStep (T : Net σ K α P D F Y) (items : List (Item K α Y)) (st : σ) : Py σ := do
  let st ← T.opt st (T.loss (collate items))
  T.batchEnd st (collate items)

/-- Optimiser steps on given batches of items. -/
def itemSteps (T : Net σ K α P D F Y) : List (List (Item K α Y)) → σ → Py σ
  | [], st => .ok st
  | c :: r, st => do
    let st ← itemStep T c st
    itemSteps T r st

omit [Field K] in
theorem mapM_getItem {noLabel : Y} {s : DS K α Y} {l : List (Rec K α Y)} (h : Holds noLabel s l) (is : List Nat) (hi : ∀ i ∈ is, i < l.length) :
    is.mapM (getItem s) = .ok (is.filterMap (fun i => (ranked l)[i]?)) := by
  induction is with
  | nil => rfl
  | cons i is ih =>
    have hlt : i < (ranked l).length := by unfold ranked; rw [length_rankedFrom]; exact hi i (by simp)
    rw [List.mapM_cons, ih (fun j hj => hi j (by simp [hj])), h.getItem, List.getElem?_eq_getElem hlt]
    simp only [ok_bind, List.filterMap_cons, List.getElem?_eq_getElem hlt]
    rfl

theorem steps_items {noLabel : Y} {s : DS K α Y} {l : List (Rec K α Y)} (h : Holds noLabel s l) (T : Net σ K α P D F Y) (iss : List (List Nat))
    (hi : ∀ is ∈ iss, ∀ i ∈ is, i < l.length) (st : σ) :
    T.steps s iss st = itemSteps T (iss.map (List.filterMap (fun i => (ranked l)[i]?))) st := by
  induction iss generalizing st with
  | nil => rfl
  | cons is iss ih =>
    rw [Net.steps, List.map_cons, itemSteps, Net.step, itemStep, mapM_getItem h is (hi is (by simp))]
    simp only [ok_bind]
    congr 1
    funext st
    exact ih (fun js hj => hi js (by simp [hj])) st

/-- Steps on the positions behind `ps` are steps on the selected rows. -/
theorem steps_selected {noLabel : Y} {s : DS K α Y} {l : List (Rec K α Y)} (h : Holds noLabel s l) (T : Net σ K α P D F Y) (p : Int → Bool)
    (b : Nat) (ps : List Nat) (hps : ∀ q ∈ ps, q < ((ranked l).filter (fun a => p a.d)).length) (st : σ) :
    T.steps s (chunks b (ps.map (fun q => (flatnonzero ((ranked l).map (fun a => p a.d))).getD q 0)).length
        (ps.map (fun q => (flatnonzero ((ranked l).map (fun a => p a.d))).getD q 0))) st =
      itemSteps T ((chunks b ps.length ps).map (List.filterMap (fun q => ((ranked l).filter (fun a => p a.d))[q]?))) st := by
  have hrow : ∀ q ∈ ps, ∃ i a, (flatnonzero ((ranked l).map (fun a => p a.d)))[q]? = some i ∧ (ranked l)[i]? = some a ∧
      ((ranked l).filter (fun a => p a.d))[q]? = some a := by
    intro q hq
    have h1 := get_flatnonzero (fun a : Item K α Y => p a.d) (ranked l) q
    rw [List.getElem?_eq_getElem (hps q hq)] at h1
    obtain ⟨i, hi, ha⟩ := Option.bind_eq_some_iff.1 h1
    exact ⟨i, _, hi, ha, List.getElem?_eq_getElem (hps q hq)⟩
  rw [List.length_map, chunks_map, steps_items h]
  · rw [List.map_map]
    congr 1
    apply List.map_congr_left
    intro c hc
    rw [Function.comp_apply, List.filterMap_map]
    apply List.filterMap_congr
    intro q hq
    obtain ⟨i, a, h1, h2, h3⟩ := hrow q (mem_chunks hc hq)
    rw [Function.comp_apply, List.getD_eq_getElem?_getD, h1, h3]
    exact h2
  · intro is his i hi
    obtain ⟨c, hc, rfl⟩ := List.mem_map.1 his
    obtain ⟨q, hq, rfl⟩ := List.mem_map.1 hi
    obtain ⟨i, a, h1, h2, -⟩ := hrow q (mem_chunks hc hq)
    rw [List.getD_eq_getElem?_getD, h1]
    have := (List.getElem?_eq_some_iff.1 h2).1
    unfold ranked at this
    rwa [length_rankedFrom] at this

theorem epochs_congr {f g : σ → Py σ} (h : ∀ st, f st = g st) (n : Nat) (st : σ) : epochs f n st = epochs g n st := by
  rw [show f = g from funext h]

/-- The rows of one side. -/
def sideOf (used : String) : Int → Bool := if used = "source" then fun d => decide (0 ≤ d) else fun d => decide (d < 0)

theorem onlyInit_eq (sds : List Int) (b : Nat) (used : String) (hu : used = "source" ∨ used = "target") :
    onlyInit sds b used = (fullBatches (flatnonzero (sds.map (sideOf used))).length b).map
      (fun n => ⟨flatnonzero (sds.map (sideOf used)), n⟩) := by
  unfold onlyInit sideOf
  rcases hu with rfl | rfl
  · simp only [if_true, ok_bind]
    cases fullBatches (flatnonzero (sds.map (fun d => decide (0 ≤ d)))).length b <;> rfl
  · rw [if_neg (by decide), if_pos rfl, if_neg (by decide)]
    simp only [ok_bind]
    cases fullBatches (flatnonzero (sds.map (fun d => decide (d < 0)))).length b <;> rfl

/-- The first `m` of `k` shuffled positions. -/
def drawn (k m : Nat) (perm : List Nat) : Py (List Nat) := if k = 0 then .error .valueError else onlyLoop (List.range k) m perm

/-- One epoch over full batches of the given rows. -/
def rowEpoch (T : Net σ K α P D F Y) (sh : σ → Nat → List Nat × σ) (b m : Nat) (A : List (Item K α Y)) (st : σ) : Py σ := do
  let ps ← drawn A.length m (sh st A.length).1
  itemSteps T ((chunks b ps.length ps).map (List.filterMap (fun q => A[q]?))) (sh st A.length).2

/-- Training with a domain-only loader, in terms of the rows of that side. -/
theorem fitOnly_eq {noLabel : Y} {s : DS K α Y} {l : List (Rec K α Y)} (h : Holds noLabel s l) (T : Net σ K α P D F Y)
    (sh : σ → Nat → List Nat × σ) (used : String) (hu : used = "source" ∨ used = "target") (b n : Nat) (st : σ) :
    T.fitOnly sh used b n s st = (do
      let m ← fullBatches (l.filter (fun r => sideOf used r.d)).length b
      epochs (fun st => do
        let st ← T.epochBegin st s
        rowEpoch T sh b m (ranked (l.filter (fun r => sideOf used r.d))) st) n st) := by
  have hA : (ranked l).filter (fun a => sideOf used a.d) = ranked (l.filter (fun r => sideOf used r.d)) := ranked_filter_map (sideOf used) l
  have hAl : (ranked (l.filter (fun r => sideOf used r.d))).length = (l.filter (fun r => sideOf used r.d)).length := by
    unfold ranked; rw [length_rankedFrom]
  have hlen : (flatnonzero ((ranked l).map (fun a => sideOf used a.d))).length = (ranked (l.filter (fun r => sideOf used r.d))).length := by
    rw [length_flatnonzero, count_map_true, List.countP_eq_length_filter, hA]
  unfold Net.fitOnly
  rw [h.iter, onlyInit_eq _ _ _ hu, List.map_map,
    show (sideOf used ∘ fun a : Item K α Y => a.d) = fun a => sideOf used a.d from rfl, hlen, hAl]
  cases fullBatches (l.filter (fun r => sideOf used r.d)).length b with
  | error e => rfl
  | ok m =>
    change epochs _ n st = epochs _ n st
    apply epochs_congr
    intro st
    congr 1
    funext st
    dsimp only
    rw [hlen]
    unfold rowEpoch onlyIter drawn
    dsimp only
    by_cases h0 : flatnonzero ((ranked l).map (fun a => sideOf used a.d)) = []
    · rw [if_pos h0, if_pos (by rw [← hlen, h0]; rfl)]
      rfl
    · rw [if_neg h0, if_neg (by rw [← hlen, List.length_eq_zero_iff]; exact h0), onlyLoop_range, hlen]
      cases hl : onlyLoop (List.range (ranked (l.filter (fun r => sideOf used r.d))).length) m
          (sh st (ranked (l.filter (fun r => sideOf used r.d))).length).1 with
      | error e => rfl
      | ok ps =>
        have := steps_selected h T (sideOf used) b ps (by rw [hA]; exact onlyLoop_lt hl) (sh st (ranked (l.filter (fun r => sideOf used r.d))).length).2
        rw [hA] at this
        exact this

/-! ### Full batches -/

theorem chunks_full {β : Type} (b : Nat) (hb : 0 < b) (q fuel : Nat) (l : List β) (hl : l.length = q * b) (hf : q ≤ fuel) :
    chunks b fuel l = (List.range q).map (fun j => (l.drop (j * b)).take b) := by
  induction q generalizing fuel l with
  | zero =>
    have : l = [] := List.length_eq_zero_iff.1 (by simpa using hl)
    subst this
    cases fuel <;> rfl
  | succ q ih =>
    cases fuel with
    | zero => omega
    | succ fuel =>
      cases l with
      | nil => rw [Nat.succ_mul] at hl; simp at hl; omega
      | cons x l =>
        rw [chunks, ih fuel _ (by rw [List.length_drop, hl, Nat.succ_mul]; omega) (by omega), List.range_succ_eq_map, List.map_cons, List.map_map]
        congr 1
        · simp
        · apply List.map_congr_left
          intro j _
          simp only [Function.comp_apply, List.drop_drop, Nat.succ_mul]
          congr 2; omega

theorem sel_all {β : Type} (l : List β) (m : List Bool) (hl : l.length = m.length) (hm : ∀ v ∈ m, v = true) : Np.boolIndex l m = .ok l := by
  unfold Np.boolIndex
  rw [if_pos hl]
  congr 1
  induction m generalizing l with
  | nil => cases l <;> simp_all [Np.sel]
  | cons v m ih =>
    cases l with
    | nil => simp at hl
    | cons x l =>
      have := hm v (by simp)
      subst this
      rw [Np.sel, ih l (by simpa using hl) (fun w hw => hm w (by simp [hw]))]

theorem sel_none {β : Type} (l : List β) (m : List Bool) (hl : l.length = m.length) (hm : ∀ v ∈ m, v = false) : Np.boolIndex l m = .ok [] := by
  unfold Np.boolIndex
  rw [if_pos hl]
  congr 1
  induction m generalizing l with
  | nil => cases l <;> simp_all [Np.sel]
  | cons v m ih =>
    cases l with
    | nil => simp at hl
    | cons x l =>
      have := hm v (by simp)
      subst this
      rw [Np.sel, ih l (by simpa using hl) (fun w hw => hm w (by simp [hw]))]

omit [DecidableEq Y] in
theorem plus_zero (l : Loss K) : l.plus (0 * 0) = l := by
  cases l <;> simp [Loss.plus]

end Skada

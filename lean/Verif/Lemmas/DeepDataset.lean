/-
Abstract datasets (lists of records) and the relation between them and the tensors of a `DeepDADataset`.
-/
import Verif.Model.Deep
import Verif.Lemmas.Np
import Verif.Lemmas.Monad
import Verif.Lemmas.SplitMerge

namespace Skada
open Np

namespace Spec

/-- One sample: data, label, domain, weight if any. -/
structure Rec (K α Y : Type) where
  x : α
  y : Y
  d : Int
  w : Option K
  deriving DecidableEq

variable {K α Y : Type}

/-- The number of each entry among the entries of the same domain, given the domains met before. -/
def ranksFrom (before : List Int) : List Int → List Nat
  | [] => []
  | d :: l => before.count d :: ranksFrom (before ++ [d]) l

/-- The samples as items: the sample index is the rank of the sample within its domain. -/
def rankedFrom (before : List Int) : List (Rec K α Y) → List (Deep.Item K α Y)
  | [] => []
  | r :: l => ⟨r.x, r.d, before.count r.d, r.w, r.y⟩ :: rankedFrom (before ++ [r.d]) l

/-- The samples as items. -/
def ranked (l : List (Rec K α Y)) : List (Deep.Item K α Y) := rankedFrom [] l

/-- The sample without its weight. -/
def Rec.unweighted (r : Rec K α Y) : Rec K α Y := { r with w := none }

end Spec

open Spec Deep

/-! ### Sample indices -/

theorem length_ranksFrom (b l : List Int) : (ranksFrom b l).length = l.length := by
  induction l generalizing b with
  | nil => rfl
  | cons d l ih => simp [ranksFrom, ih]

theorem getElem?_ranksFrom (b l : List Int) (i : Nat) :
    (ranksFrom b l)[i]? = l[i]?.map (fun d => b.count d + (l.take i).count d) := by
  induction l generalizing b i with
  | nil => simp [ranksFrom]
  | cons d l ih =>
    cases i with
    | zero => simp [ranksFrom]
    | succ i =>
      simp only [ranksFrom, List.getElem?_cons_succ, ih, List.take_succ_cons]
      cases l[i]? with
      | none => rfl
      | some e => simp only [Option.map_some, List.count_append, List.count_cons, List.count_nil]; congr 1; omega

theorem getElem?_putMask_range (m : List Bool) (r : List Nat) (k n : Nat) (hl : m.length = r.length) (hn : m.count true = n) (i : Nat) :
    (putMask m r (List.range' k n))[i]? = if m[i]? = some true then some (k + (m.take i).count true) else r[i]? := by
  induction m generalizing r k n i with
  | nil => cases r <;> simp_all [putMask]
  | cons a m ih =>
    cases r with
    | nil => simp at hl
    | cons x r =>
      simp only [List.length_cons, Nat.add_right_cancel_iff] at hl
      cases a with
      | true =>
        rw [List.count_cons_self] at hn
        subst hn
        rw [List.range'_succ]
        simp only [putMask]
        cases i with
        | zero => simp
        | succ i =>
          simp only [List.getElem?_cons_succ, ih r (k + 1) _ hl rfl, List.take_succ_cons, List.count_cons_self]
          split <;> [(congr 1; omega); rfl]
      | false =>
        rw [List.count_cons_of_ne (by decide)] at hn
        simp only [putMask]
        cases i with
        | zero => simp
        | succ i =>
          simp only [List.getElem?_cons_succ, ih r k n hl hn, List.take_succ_cons, List.count_cons_of_ne (by decide : false ≠ true)]

theorem infer_fold (sd : List Int) (u : List Int) (hu : u.Nodup) (r : List Nat) (hr : r.length = sd.length) (i : Nat) :
    (u.foldl (fun r d => putMask (sd.map (fun v => decide (v = d))) r
      (List.range ((sd.map (fun v => decide (v = d))).count true))) r)[i]? =
      match sd[i]? with
      | none => none
      | some d => if d ∈ u then some ((sd.take i).count d) else r[i]? := by
  induction u generalizing r with
  | nil =>
    simp only [List.foldl_nil, List.not_mem_nil, if_false]
    cases h : sd[i]? with
    | none => simp only [List.getElem?_eq_none_iff] at h ⊢; omega
    | some d => rfl
  | cons e u ih =>
    rw [List.nodup_cons] at hu
    simp only [List.foldl_cons]
    rw [ih hu.2 _ (by rw [length_putMask, hr])]
    cases h : sd[i]? with
    | none => rfl
    | some d =>
      simp only
      by_cases hd : d ∈ u
      · simp [hd]
      · rw [if_neg hd, List.range_eq_range', getElem?_putMask_range _ _ 0 _ (by simp [hr]) rfl, List.getElem?_map, h]
        by_cases hde : d = e
        · subst hde
          simp only [Option.map_some, decide_true, if_true, List.mem_cons, true_or, Nat.zero_add, ← List.map_take]
          congr 1
          rw [count_map_true, List.count]
          apply List.countP_congr
          intro a _
          simp
        · simp [hde, hd]

theorem inferIdx_eq (sd : List Int) : inferIdx sd = ranksFrom [] sd := by
  apply List.ext_getElem?
  intro i
  unfold inferIdx
  simp only
  rw [infer_fold sd _ (nodup_unique sd) _ (by simp), getElem?_ranksFrom]
  cases h : sd[i]? with
  | none => rfl
  | some d =>
    have : d ∈ unique sd := mem_unique.2 (List.mem_of_getElem? h)
    simp [this]

theorem getElem?_rankedFrom {K α Y : Type} (b : List Int) (l : List (Rec K α Y)) (i : Nat) :
    (rankedFrom b l)[i]? = l[i]?.map (fun r => ⟨r.x, r.d, b.count r.d + ((l.take i).map Rec.d).count r.d, r.w, r.y⟩) := by
  induction l generalizing b i with
  | nil => simp [rankedFrom]
  | cons d l ih =>
    cases i with
    | zero => simp [rankedFrom]
    | succ i =>
      simp only [rankedFrom, List.getElem?_cons_succ, ih, List.take_succ_cons]
      cases l[i]? with
      | none => rfl
      | some e =>
        simp only [Option.map_some, List.count_append, List.count_cons, List.count_nil, List.map_cons]
        congr 2; omega

theorem length_rankedFrom {K α Y : Type} (b : List Int) (l : List (Rec K α Y)) : (rankedFrom b l).length = l.length := by
  induction l generalizing b with
  | nil => rfl
  | cons d l ih => simp [rankedFrom, ih]

/-! ### Representation -/

section
set_option linter.unusedSectionVars false
variable {K α Y : Type} [DecidableEq Y]

/-- The tensors hold the weights of the records: all of them, or none. -/
def HoldsW (w : List K) (hasW : Bool) (l : List (Rec K α Y)) : Prop :=
  (w = [] ∧ hasW = false ∧ ∀ r ∈ l, r.w = none) ∨ (l ≠ [] ∧ hasW = true ∧ l.map Rec.w = w.map some)

/-- The dataset holds these records. -/
structure Holds (noLabel : Y) (s : DS K α Y) (l : List (Rec K α Y)) : Prop where
  X : s.X = l.map Rec.x
  y : s.y = l.map Rec.y
  sd : s.sd = l.map Rec.d
  hasY : s.hasY = l.map (fun r => decide (r.y ≠ noLabel))
  w : HoldsW s.w s.hasW l
  idx : s.idx = ranksFrom [] s.sd

theorem HoldsW.length {w : List K} {l : List (Rec K α Y)} (h : HoldsW w true l) : w.length = l.length := by
  rcases h with ⟨-, h, -⟩ | ⟨-, -, h⟩
  · simp at h
  · have := congrArg List.length h; simpa using this.symm

theorem Holds.correct {noLabel : Y} {s : DS K α Y} {l : List (Rec K α Y)} (h : Holds noLabel s l) : isCorrect s = true := by
  unfold isCorrect
  rw [h.X, h.y, h.sd]
  cases hw : s.hasW with
  | false => simp
  | true => have := h.w; rw [hw] at this; simp [this.length]

theorem Holds.getItem {noLabel : Y} {s : DS K α Y} {l : List (Rec K α Y)} (h : Holds noLabel s l) (n : Nat) :
    Deep.getItem s n = match (ranked l)[n]? with
      | some a => .ok a
      | none => .error .indexError := by
  unfold Deep.getItem ranked
  rw [h.X, h.sd, h.idx, h.y, getElem?_rankedFrom, h.sd, getElem?_ranksFrom, List.getElem?_map, List.getElem?_map, List.getElem?_map]
  cases hr : l[n]? with
  | none => simp
  | some r =>
    simp only [Option.map_some, List.map_take]
    rcases h.w with ⟨-, hw, hn⟩ | ⟨-, hw, hn⟩
    · rw [hw, hn r (List.mem_of_getElem? hr)]
      simp
    · rw [hw]
      have hg : (l.map Rec.w)[n]? = (s.w.map some)[n]? := by rw [hn]
      rw [List.getElem?_map, List.getElem?_map, hr] at hg
      cases hv : s.w[n]? with
      | none => rw [hv] at hg; simp at hg
      | some v =>
        rw [hv] at hg
        simp only [Option.map_some, Option.some.injEq] at hg
        simp [hg]

theorem iterFrom_eq {noLabel : Y} {s : DS K α Y} {l : List (Rec K α Y)} (h : Holds noLabel s l) (fuel n : Nat)
    (hf : l.length ≤ n + fuel) : iterFrom s fuel n = (ranked l).drop n := by
  induction fuel generalizing n with
  | zero =>
    rw [List.drop_of_length_le (by unfold ranked; rw [length_rankedFrom]; omega)]
    rfl
  | succ fuel ih =>
    unfold iterFrom
    rw [h.getItem]
    cases hr : (ranked l)[n]? with
    | none =>
      rw [List.drop_of_length_le (by simpa using hr)]
    | some a =>
      simp only
      rw [ih (n + 1) (by omega)]
      rw [List.getElem?_eq_some_iff] at hr
      obtain ⟨hlt, rfl⟩ := hr
      rw [List.drop_eq_getElem_cons hlt]

theorem Holds.iter {noLabel : Y} {s : DS K α Y} {l : List (Rec K α Y)} (h : Holds noLabel s l) : Deep.iter s = ranked l := by
  unfold Deep.iter
  rw [iterFrom_eq h _ 0 (by rw [h.X]; simp)]
  rfl

theorem Holds.len {noLabel : Y} {s : DS K α Y} {l : List (Rec K α Y)} (h : Holds noLabel s l) : Deep.len s = .ok l.length := by
  unfold Deep.len
  rw [if_pos h.correct, h.X]
  simp

/-- Building a dataset from the columns of a list of records. -/
theorem new_ok (noLabel : Y) (l : List (Rec K α Y)) (w : Option (List K)) (hw : HoldsW (w.getD []) (decide (0 < (w.getD []).length)) l) :
    ∃ s, Deep.new noLabel (l.map Rec.x) (some (l.map Rec.y)) (.vec (l.map Rec.d)) w = .ok s ∧ Holds noLabel s l := by
  have e : Deep.new noLabel (l.map Rec.x) (some (l.map Rec.y)) (.vec (l.map Rec.d)) w
      = finish ⟨l.map Rec.x, l.map Rec.y, l.map Rec.d, w.getD [], l.map (fun r => decide (r.y ≠ noLabel)),
          decide (0 < (w.getD []).length), []⟩ := by
    cases l with
    | nil => rfl
    | cons a l => simp only [Deep.new, initSD, List.map_cons, ok_bind, List.map_map]; rfl
  rw [e]
  unfold finish
  simp only
  have h : Holds noLabel (⟨l.map Rec.x, l.map Rec.y, l.map Rec.d, w.getD [], l.map (fun r => decide (r.y ≠ noLabel)),
      decide (0 < (w.getD []).length), inferIdx (l.map Rec.d)⟩ : DS K α Y) l := ⟨rfl, rfl, rfl, rfl, hw, inferIdx_eq _⟩
  have hc := h.correct
  have hc' : isCorrect (⟨l.map Rec.x, l.map Rec.y, l.map Rec.d, w.getD [], l.map (fun r => decide (r.y ≠ noLabel)),
      decide (0 < (w.getD []).length), []⟩ : DS K α Y) = true := hc
  rw [if_pos hc']
  exact ⟨_, rfl, h⟩

theorem holdsW_unweighted (l : List (Rec K α Y)) : HoldsW ([] : List K) (decide (0 < ([] : List K).length)) (l.map Rec.unweighted) :=
  .inl ⟨rfl, rfl, by intro r hr; obtain ⟨a, -, rfl⟩ := List.mem_map.1 hr; rfl⟩

theorem map_some_of_isSome (l : List (Rec K α Y)) (h : ∀ r ∈ l, r.w.isSome) : ∃ w : List K, l.map Rec.w = w.map some := by
  induction l with
  | nil => exact ⟨[], rfl⟩
  | cons a l ih =>
    obtain ⟨w, hw⟩ := ih (fun r hr => h r (by simp [hr]))
    obtain ⟨v, hv⟩ := Option.isSome_iff_exists.1 (h a (by simp))
    exact ⟨v :: w, by simp [hw, hv]⟩

theorem HoldsW.filter {w : List K} {hasW : Bool} {l : List (Rec K α Y)} (h : HoldsW w hasW l) (p : Rec K α Y → Bool) :
    HoldsW (sel (l.map p) w) (decide (0 < (sel (l.map p) w).length)) (l.filter p) := by
  rcases h with ⟨rfl, -, hn⟩ | ⟨-, -, hn⟩
  · have e : sel (l.map p) ([] : List K) = [] := by cases l.map p with | nil => rfl | cons a m => cases a <;> rfl
    rw [e]
    exact .inl ⟨rfl, rfl, fun r hr => hn r (List.mem_of_mem_filter hr)⟩
  · have e : (l.filter p).map Rec.w = (sel (l.map p) w).map some := by
      induction l generalizing w with
      | nil => cases w <;> simp_all [sel]
      | cons a l ih =>
        cases w with
        | nil => simp at hn
        | cons v w =>
          simp only [List.map_cons, List.cons.injEq] at hn
          simp only [List.map_cons, List.filter_cons]
          cases p a with
          | true => simp [sel, hn.1, ih hn.2]
          | false => simp [sel, ih hn.2]
    by_cases hf : l.filter p = []
    · rw [hf] at e ⊢
      have e0 : sel (l.map p) w = [] := by simpa using e.symm
      rw [e0]
      exact .inl ⟨rfl, rfl, by simp⟩
    · have hlen := congrArg List.length e
      simp only [List.length_map] at hlen
      have : 0 < (l.filter p).length := List.length_pos_iff.2 hf
      exact .inr ⟨hf, by simp; omega, e⟩

theorem sel_map_map {β γ : Type} (p : β → Bool) (f : β → γ) (l : List β) : sel (l.map p) (l.map f) = (l.filter p).map f := by
  induction l with
  | nil => rfl
  | cons a l ih =>
    simp only [List.map_cons, List.filter_cons]
    cases p a <;> simp [sel, ih]

/-- Selecting with a mask given by a test on the records. -/
theorem selectMask_ok {noLabel : Y} {s : DS K α Y} {l : List (Rec K α Y)} (h : Holds noLabel s l) (p : Rec K α Y → Bool) (retW : Bool) :
    ∃ t, selectMask noLabel s (l.map p) retW = .ok t ∧
      Holds noLabel t (if retW then l.filter p else (l.filter p).map Rec.unweighted) := by
  have esel : ∀ {γ : Type} (f : Rec K α Y → γ), sel (l.map p) (l.map f) = (l.filter p).map f := fun f => sel_map_map p f l
  unfold selectMask
  rw [h.X, h.y, h.sd, boolIndex_ok (by simp), boolIndex_ok (by simp), boolIndex_ok (by simp), esel, esel, esel]
  simp only [ok_bind]
  cases retW with
  | false =>
    simp only [Bool.and_false, Bool.false_eq_true, if_false]
    have := new_ok noLabel ((l.filter p).map Rec.unweighted) none (holdsW_unweighted _)
    simpa only [List.map_map, Function.comp_def, Rec.unweighted] using this
  | true =>
    cases hh : s.hasW with
    | false =>
      simp only [Bool.and_true, Bool.false_eq_true, if_false, if_true]
      refine new_ok noLabel (l.filter p) none ?_
      have hw := h.w
      rcases hw with ⟨-, -, hn⟩ | ⟨-, ht, -⟩
      · exact .inl ⟨rfl, rfl, fun r hr => hn r (List.mem_of_mem_filter hr)⟩
      · rw [hh] at ht; simp at ht
    | true =>
      have hw := h.w
      rw [hh] at hw
      simp only [Bool.and_true, if_true]
      rw [boolIndex_ok (by rw [hw.length]; simp)]
      exact new_ok noLabel (l.filter p) (some _) (hw.filter p)

end
end Skada

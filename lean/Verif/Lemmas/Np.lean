/- Helper lemmas about the numpy primitives. -/
import Verif.Model.Np
import Mathlib.Data.List.Nodup
import Mathlib.Data.List.Perm.Basic
import Mathlib.Data.List.Sort
import Mathlib.Tactic.Linarith

namespace Skada

theorem mapM_ok {ε α β : Type _} {f : α → Except ε β} {g : α → β} {l : List α}
    (h : ∀ x ∈ l, f x = .ok (g x)) : l.mapM f = .ok (l.map g) := by
  induction l with
  | nil => rfl
  | cons x l ih =>
    rw [List.mapM_cons, h x (by simp), ih (fun y hy => h y (by simp [hy]))]
    rfl

theorem mapM_error {ε α β : Type _} {f : α → Except ε β} {l : List α} {e : ε}
    (h : ∀ x ∈ l, (∃ y, f x = .ok y) ∨ f x = .error e) (hx : ∃ x ∈ l, f x = .error e) :
    l.mapM f = .error e := by
  induction l with
  | nil => simp at hx
  | cons x l ih =>
    rw [List.mapM_cons]
    rcases h x (by simp) with ⟨y, hy⟩ | hy
    · rw [hy]
      have : l.mapM f = .error e := by
        apply ih (fun z hz => h z (by simp [hz]))
        obtain ⟨z, hz, hze⟩ := hx
        rcases List.mem_cons.1 hz with rfl | hz
        · rw [hy] at hze; cases hze
        · exact ⟨z, hz, hze⟩
      rw [this]; rfl
    · rw [hy]; rfl

theorem mapM_eq_ok_iff {ε α β : Type _} {f : α → Except ε β} {l : List α} {r : List β} :
    l.mapM f = .ok r ↔ List.Forall₂ (fun x y => f x = .ok y) l r := by
  induction l generalizing r with
  | nil =>
    constructor
    · intro h; cases h; exact .nil
    · intro h; cases h; rfl
  | cons x l ih =>
    rw [List.mapM_cons]
    constructor
    · intro h
      cases hx : f x with
      | error e => rw [hx] at h; cases h
      | ok y =>
        rw [hx] at h
        cases hl : l.mapM f with
        | error e => rw [hl] at h; cases h
        | ok ys =>
          rw [hl] at h
          cases h
          exact .cons hx (ih.1 hl)
    · intro h
      cases h with
      | cons h1 h2 => rw [h1, ih.2 h2]; rfl

namespace Np
variable {α β : Type _}

theorem sel_map (p : β → Bool) (d : List β) (a : List α) :
    sel (d.map p) a = ((d.zip a).filter (fun r => p r.1)).map Prod.snd := by
  induction d generalizing a with
  | nil => cases a <;> rfl
  | cons x d ih =>
    cases a with
    | nil => cases h : p x <;> simp [sel, h]
    | cons y a =>
      cases h : p x <;> simp [sel, h, ih]

theorem sel_map_self (p : α → Bool) (l : List α) : sel (l.map p) l = l.filter p := by
  induction l with
  | nil => rfl
  | cons x l ih => cases h : p x <;> simp [sel, h, ih]

theorem length_sel {m : List Bool} {a : List α} (h : m.length = a.length) :
    (sel m a).length = m.count true := by
  induction m generalizing a with
  | nil => cases a <;> simp [sel] at *
  | cons b m ih =>
    cases a with
    | nil => simp at h
    | cons x a =>
      have h' : m.length = a.length := by simpa using h
      cases b <;> simp [sel, ih h']

theorem length_putMask (m : List Bool) (out vals : List α) :
    (putMask m out vals).length = out.length := by
  induction m generalizing out vals with
  | nil => cases out <;> simp [putMask]
  | cons b m ih =>
    cases out with
    | nil => cases b <;> simp [putMask]
    | cons x out =>
      cases b with
      | false => simp [putMask, ih]
      | true => cases vals <;> simp [putMask, ih]

theorem sel_putMask_same {m : List Bool} {out vals : List α}
    (h : m.length = out.length) (hv : vals.length = m.count true) :
    sel m (putMask m out vals) = vals := by
  induction m generalizing out vals with
  | nil =>
    cases vals with
    | nil => cases out <;> rfl
    | cons v vals => simp at hv
  | cons b m ih =>
    cases out with
    | nil => simp at h
    | cons x out =>
      have h' : m.length = out.length := by simpa using h
      cases b with
      | false => simp [putMask, sel]; exact ih h' (by simpa using hv)
      | true =>
        cases vals with
        | nil => simp at hv
        | cons v vals => simp [putMask, sel]; exact ih h' (by simpa using hv)

theorem sel_not_putMask {m : List Bool} {out vals : List α}
    (h : m.length = out.length) (hv : vals.length = m.count true) :
    sel (m.map (!·)) (putMask m out vals) = sel (m.map (!·)) out := by
  induction m generalizing out vals with
  | nil => cases out <;> rfl
  | cons b m ih =>
    cases out with
    | nil => simp at h
    | cons x out =>
      have h' : m.length = out.length := by simpa using h
      cases b with
      | false => simp [putMask, sel]; exact ih h' (by simpa using hv)
      | true =>
        cases vals with
        | nil => simp at hv
        | cons v vals => simp [putMask, sel]; exact ih h' (by simpa using hv)

theorem ext_of_sel {m : List Bool} {a b : List α} (ha : m.length = a.length) (hb : m.length = b.length)
    (h1 : sel m a = sel m b) (h2 : sel (m.map (!·)) a = sel (m.map (!·)) b) : a = b := by
  induction m generalizing a b with
  | nil =>
    cases a <;> cases b <;> simp at *
  | cons c m ih =>
    cases a with
    | nil => simp at ha
    | cons x a =>
      cases b with
      | nil => simp at hb
      | cons y b =>
        have ha' : m.length = a.length := by simpa using ha
        have hb' : m.length = b.length := by simpa using hb
        cases c with
        | false =>
          simp [sel] at h1 h2
          rw [h2.1, ih ha' hb' h1 h2.2]
        | true =>
          simp [sel] at h1 h2
          rw [h1.1, ih ha' hb' h1.2 h2]

theorem boolIndex_ok {a : List α} {m : List Bool} (h : a.length = m.length) :
    boolIndex a m = .ok (sel m a) := by simp [boolIndex, h]

theorem boolAssign_ok {out : List α} {m : List Bool} {vals : List α}
    (h : out.length = m.length) (hv : vals.length = m.count true) :
    boolAssign out m vals = .ok (putMask m out vals) := by simp [boolAssign, h, hv]

/-! ### unique -/

section unique
variable [LinearOrder α]

theorem mem_insertU {x y : α} {l : List α} : y ∈ insertU x l ↔ y = x ∨ y ∈ l := by
  induction l with
  | nil => simp [insertU]
  | cons z l ih =>
    unfold insertU
    split
    · simp
    · split
      · simp [ih]; tauto
      · have : x = z := le_antisymm (not_lt.1 ‹_›) (not_lt.1 ‹_›)
        subst this; simp

theorem mem_unique {x : α} {l : List α} : x ∈ unique l ↔ x ∈ l := by
  induction l with
  | nil => simp [unique]
  | cons y l ih =>
    have : unique (y :: l) = insertU y (unique l) := rfl
    rw [this, mem_insertU, ih]; simp

theorem pairwise_insertU {x : α} {l : List α} (h : l.Pairwise (· < ·)) :
    (insertU x l).Pairwise (· < ·) := by
  induction l with
  | nil => simp [insertU]
  | cons z l ih =>
    rw [List.pairwise_cons] at h
    unfold insertU
    split
    · rename_i hxz
      refine List.pairwise_cons.2 ⟨?_, List.pairwise_cons.2 h⟩
      intro a ha
      rcases List.mem_cons.1 ha with rfl | ha
      · exact hxz
      · exact hxz.trans (h.1 a ha)
    · split
      · rename_i hzx
        refine List.pairwise_cons.2 ⟨?_, ih h.2⟩
        intro a ha
        rcases mem_insertU.1 ha with rfl | ha
        · exact hzx
        · exact h.1 a ha
      · exact List.pairwise_cons.2 h

theorem pairwise_unique (l : List α) : (unique l).Pairwise (· < ·) := by
  induction l with
  | nil => simp [unique]
  | cons y l ih => exact pairwise_insertU ih

theorem nodup_unique (l : List α) : (unique l).Nodup :=
  (pairwise_unique l).imp (fun h => ne_of_lt h)

theorem unique_eq_nil {l : List α} : unique l = [] ↔ l = [] := by
  constructor
  · intro h
    cases l with
    | nil => rfl
    | cons x l =>
      have : x ∈ unique (x :: l) := mem_unique.2 (by simp)
      rw [h] at this; simp at this
  · rintro rfl; rfl

theorem length_unique_pos {l : List α} : 0 < (unique l).length ↔ l ≠ [] := by
  rw [List.length_pos_iff, ne_eq, unique_eq_nil]

/-- More than one distinct value. -/
theorem one_lt_length_unique {l : List α} :
    1 < (unique l).length ↔ ∃ x ∈ l, ∃ y ∈ l, x ≠ y := by
  have hn := nodup_unique l
  constructor
  · intro h
    match hu : unique l with
    | [] => simp [hu] at h
    | [x] => simp [hu] at h
    | x :: y :: r =>
      refine ⟨x, mem_unique.1 (by simp [hu]), y, mem_unique.1 (by simp [hu]), ?_⟩
      rw [hu] at hn
      simp at hn
      exact hn.1.1
  · rintro ⟨x, hx, y, hy, hxy⟩
    by_contra hc
    have hx' := mem_unique.2 hx
    have hy' := mem_unique.2 hy
    match hu : unique l with
    | [] => simp [hu] at hx'
    | [z] => simp [hu] at hx' hy'; exact hxy (hx'.trans hy'.symm)
    | z :: w :: r => simp [hu] at hc

end unique

/-! ### flatnonzero, take -/

theorem mem_nonzeroFrom {k i : Nat} {m : List Bool} :
    i ∈ nonzeroFrom k m ↔ ∃ j, i = k + j ∧ m[j]? = some true := by
  induction m generalizing k with
  | nil => simp [nonzeroFrom]
  | cons b m ih =>
    have key : (∃ j, i = k + 1 + j ∧ m[j]? = some true) ↔
        ∃ j, i = k + (j + 1) ∧ m[j]? = some true := by
      constructor <;> rintro ⟨j, h1, h2⟩ <;> exact ⟨j, by omega, h2⟩
    have split0 : (∃ j, i = k + j ∧ (b :: m)[j]? = some true) ↔
        (i = k ∧ b = true) ∨ ∃ j, i = k + (j + 1) ∧ m[j]? = some true := by
      constructor
      · rintro ⟨j, h1, h2⟩
        cases j with
        | zero => left; exact ⟨by simpa using h1, by simpa using h2⟩
        | succ j => right; exact ⟨j, h1, by simpa using h2⟩
      · rintro (⟨h1, h2⟩ | ⟨j, h1, h2⟩)
        · exact ⟨0, by simpa using h1, by simpa using h2⟩
        · exact ⟨j + 1, h1, by simpa using h2⟩
    rw [split0, ← key]
    cases b with
    | false => simp [nonzeroFrom, ih]
    | true => simp [nonzeroFrom, ih]

theorem mem_flatnonzero {i : Nat} {m : List Bool} : i ∈ flatnonzero m ↔ m[i]? = some true := by
  rw [flatnonzero, mem_nonzeroFrom]
  constructor
  · rintro ⟨j, h1, h2⟩; rw [Nat.zero_add] at h1; exact h1 ▸ h2
  · intro h; exact ⟨i, by simp, h⟩

theorem pairwise_nonzeroFrom (k : Nat) (m : List Bool) :
    (nonzeroFrom k m).Pairwise (· < ·) := by
  induction m generalizing k with
  | nil => simp [nonzeroFrom]
  | cons b m ih =>
    cases b with
    | false => exact ih (k + 1)
    | true =>
      refine List.pairwise_cons.2 ⟨?_, ih (k + 1)⟩
      intro i hi
      obtain ⟨j, h1, _⟩ := mem_nonzeroFrom.1 hi
      omega

theorem pairwise_flatnonzero (m : List Bool) : (flatnonzero m).Pairwise (· < ·) :=
  pairwise_nonzeroFrom 0 m

theorem nodup_flatnonzero (m : List Bool) : (flatnonzero m).Nodup :=
  (pairwise_flatnonzero m).imp (fun h => ne_of_lt h)

theorem length_nonzeroFrom (k : Nat) (m : List Bool) :
    (nonzeroFrom k m).length = m.count true := by
  induction m generalizing k with
  | nil => simp [nonzeroFrom]
  | cons b m ih => cases b <;> simp [nonzeroFrom, ih]

theorem length_flatnonzero (m : List Bool) : (flatnonzero m).length = m.count true :=
  length_nonzeroFrom 0 m

theorem take_ok_iff {a : List α} {idx : List Nat} {r : List α} :
    take a idx = .ok r ↔ List.Forall₂ (fun i x => a[i]? = some x) idx r := by
  induction idx generalizing r with
  | nil =>
    constructor
    · intro h; cases h; exact .nil
    · intro h; cases h; rfl
  | cons i idx ih =>
    constructor
    · intro h
      unfold take at h
      split at h
      · cases h
      · split at h
        · cases h
        · cases h
          exact .cons ‹_› (ih.1 ‹_›)
    · intro h
      cases h with
      | cons h1 h2 =>
        unfold take
        rw [h1]
        simp only
        rw [ih.2 h2]

theorem take_error {a : List α} {idx : List Nat} (h : ∃ i ∈ idx, a.length ≤ i) :
    take a idx = .error .indexError := by
  induction idx with
  | nil => simp at h
  | cons i idx ih =>
    unfold take
    split
    · rfl
    · rename_i x hx
      have hi : i < a.length := by
        rcases List.getElem?_eq_some_iff.1 hx with ⟨h, _⟩; exact h
      have : ∃ i ∈ idx, a.length ≤ i := by
        obtain ⟨j, hj, hja⟩ := h
        rcases List.mem_cons.1 hj with rfl | hj
        · omega
        · exact ⟨j, hj, hja⟩
      rw [ih this]

theorem take_ok_of_lt {a : List α} {idx : List Nat} (h : ∀ i ∈ idx, i < a.length) :
    ∃ r, take a idx = .ok r := by
  induction idx with
  | nil => exact ⟨[], rfl⟩
  | cons i idx ih =>
    obtain ⟨r, hr⟩ := ih (fun j hj => h j (by simp [hj]))
    have hi := h i (by simp)
    refine ⟨a[i] :: r, ?_⟩
    unfold take
    rw [List.getElem?_eq_getElem hi]
    simp only
    rw [hr]

theorem take_map_add_one (x : α) (a : List α) (idx : List Nat) :
    take (x :: a) (idx.map (· + 1)) = take a idx := by
  induction idx with
  | nil => rfl
  | cons i idx ih => simp [take, ih]

theorem nonzeroFrom_succ (k : Nat) (m : List Bool) :
    nonzeroFrom (k + 1) m = (nonzeroFrom k m).map (· + 1) := by
  induction m generalizing k with
  | nil => rfl
  | cons b m ih => cases b <;> simp [nonzeroFrom, ih]

/-- Taking the positions of the `True` entries is boolean selection. -/
theorem take_flatnonzero {m : List Bool} {a : List α} (h : m.length = a.length) :
    take a (flatnonzero m) = .ok (sel m a) := by
  induction m generalizing a with
  | nil => cases a <;> rfl
  | cons b m ih =>
    cases a with
    | nil => simp at h
    | cons x a =>
      have h' : m.length = a.length := by simpa using h
      cases b with
      | false =>
        have : flatnonzero (false :: m) = (flatnonzero m).map (· + 1) := by
          simp [flatnonzero, nonzeroFrom, nonzeroFrom_succ]
        rw [this, take_map_add_one, ih h']; rfl
      | true =>
        have : flatnonzero (true :: m) = 0 :: (flatnonzero m).map (· + 1) := by
          simp [flatnonzero, nonzeroFrom, nonzeroFrom_succ]
        rw [this]
        unfold take
        simp only [List.getElem?_cons_zero]
        rw [take_map_add_one, ih h']; rfl

/-! ### putAll, idxAssign -/

theorem length_putAll (out : List α) (w : List (Nat × α)) : (putAll out w).length = out.length := by
  induction w generalizing out with
  | nil => rfl
  | cons p w ih => simp [putAll, ih]

theorem getElem?_putAll_not_mem {out : List α} {w : List (Nat × α)} {i : Nat}
    (h : i ∉ w.map Prod.fst) : (putAll out w)[i]? = out[i]? := by
  induction w generalizing out with
  | nil => rfl
  | cons p w ih =>
    simp at h
    have h2 : i ∉ w.map Prod.fst := by simpa using h.2
    rw [putAll, ih h2, List.getElem?_set_ne (fun e => h.1 e.symm)]

theorem getElem?_putAll_mem {out : List α} {w : List (Nat × α)} {i : Nat} {v : α}
    (hn : (w.map Prod.fst).Nodup) (h : (i, v) ∈ w) (hi : i < out.length) :
    (putAll out w)[i]? = some v := by
  induction w generalizing out with
  | nil => simp at h
  | cons p w ih =>
    rw [List.map_cons, List.nodup_cons] at hn
    rcases List.mem_cons.1 h with rfl | h
    · rw [putAll, getElem?_putAll_not_mem hn.1]
      simp [hi]
    · rw [putAll]; exact ih hn.2 h (by simpa using hi)

theorem idxAssign_ok {out : List α} {idx : List Nat} {vals : List α}
    (h : ∀ i ∈ idx, i < out.length) (hv : vals.length = idx.length) :
    idxAssign out idx vals = .ok (putAll out (idx.zip vals)) := by
  have : idx.any (fun i => decide (out.length ≤ i)) = false := by
    simp only [List.any_eq_false, decide_eq_true_eq, not_le]; exact h
  simp [idxAssign, this, hv]

end Np
end Skada

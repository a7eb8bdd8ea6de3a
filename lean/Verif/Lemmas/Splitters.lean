/- Helper lemmas for the splitters. -/
import Verif.Model.Splitters
import Verif.Lemmas.SplitMerge
import Verif.Props.Domain
import Mathlib.Tactic.Linarith
import Mathlib.Tactic.Push

namespace Skada
open Np

namespace Spec

/-- Row `i` exists and is a source row. -/
def srcAt (sd : List Int) (i : Nat) : Bool := (sd[i]?).any (fun d => decide (0 ≤ d))
/-- Row `i` exists and is a target row. -/
def tgtAt (sd : List Int) (i : Nat) : Bool := (sd[i]?).any (fun d => decide (d < 0))

/-- A valid fold: no index occurs twice in train and test together, all are in range, and train/test have the given
numbers of source and target rows. -/
structure TwoSided (sd : List Int) (srcTrain srcTest tgtTrain tgtTest : Nat) (f : List Nat × List Nat) : Prop where
  nodup : (f.1 ++ f.2).Nodup
  inRange : ∀ i ∈ f.1 ++ f.2, i < sd.length
  srcTrain : f.1.countP (srcAt sd) = srcTrain
  srcTest : f.2.countP (srcAt sd) = srcTest
  tgtTrain : f.1.countP (tgtAt sd) = tgtTrain
  tgtTest : f.2.countP (tgtAt sd) = tgtTest

end Spec
open Spec

theorem srcAt_lt {sd : List Int} {i : Nat} (h : srcAt sd i = true) : i < sd.length := by
  unfold srcAt at h
  by_contra hc
  rw [List.getElem?_eq_none (by omega)] at h
  simp at h

theorem tgtAt_lt {sd : List Int} {i : Nat} (h : tgtAt sd i = true) : i < sd.length := by
  unfold tgtAt at h
  by_contra hc
  rw [List.getElem?_eq_none (by omega)] at h
  simp at h

theorem not_src_of_tgt {sd : List Int} {i : Nat} (h : tgtAt sd i = true) : srcAt sd i = false := by
  unfold tgtAt at h; unfold srcAt
  cases hd : sd[i]? with
  | none => rfl
  | some d => rw [hd] at h; simp at h ⊢; omega

theorem not_tgt_of_src {sd : List Int} {i : Nat} (h : srcAt sd i = true) : tgtAt sd i = false := by
  cases ht : tgtAt sd i with
  | false => rfl
  | true => rw [not_src_of_tgt ht] at h; exact absurd h (by simp)

theorem mem_sourceIdx {sd : List Int} {i : Nat} : i ∈ sourceIdx sd ↔ srcAt sd i = true := by
  unfold sourceIdx srcAt
  rw [mem_flatnonzero, List.getElem?_map]
  cases sd[i]? <;> simp

theorem mem_targetIdx {sd : List Int} {i : Nat} : i ∈ targetIdx sd ↔ tgtAt sd i = true := by
  unfold targetIdx tgtAt
  rw [← tgtMask_eq, mem_flatnonzero, List.getElem?_map]
  cases sd[i]? <;> simp

theorem length_sourceIdx (sd : List Int) : (sourceIdx sd).length = nSource sd := by
  unfold sourceIdx; rw [length_flatnonzero, count_map_true]; rfl

theorem length_targetIdx (sd : List Int) : (targetIdx sd).length = nTarget sd := by
  unfold targetIdx; rw [← tgtMask_eq, length_flatnonzero, count_map_true]; rfl

theorem forall₂_map_eq {α β γ : Type _} {R : α → β → Prop} {g : α → γ} {h : β → γ} {l : List α} {r : List β}
    (hf : List.Forall₂ R l r) (e : ∀ a b, R a b → g a = h b) : l.map g = r.map h := by
  induction hf with
  | nil => rfl
  | cons h1 _ ih => simp [e _ _ h1, ih]

/-- Taking a permutation of all positions gives a permutation of the array. -/
theorem take_perm {α : Type _} {a : List α} {π : List Nat} (h : π.Perm (List.range a.length)) :
    ∃ r, take a π = .ok r ∧ r.Perm a := by
  obtain ⟨r, hr⟩ := take_ok_of_lt (a := a) (idx := π) (fun i hi => by simpa using h.mem_iff.1 hi)
  refine ⟨r, hr, ?_⟩
  have h1 := take_ok_iff.1 hr
  have h2 : π.map (fun i => a[i]?) = r.map some := forall₂_map_eq h1 (fun _ _ h => h)
  have h3 : (π.map (fun i => a[i]?)).Perm ((List.range a.length).map (fun i => a[i]?)) := h.map _
  have h4 : (List.range a.length).map (fun i => a[i]?) = a.map some := by
    apply List.ext_getElem?
    intro i
    rw [List.getElem?_map, List.getElem?_map]
    by_cases hi : i < a.length
    · rw [List.getElem?_range hi, List.getElem?_eq_getElem hi]; simp [hi]
    · rw [List.getElem?_eq_none (l := a) (by omega), List.getElem?_eq_none (by simpa using hi)]; rfl
  rw [h2, h4] at h3
  have h5 := h3.filterMap id
  simpa [List.filterMap_map] using h5

theorem mem_slice {α : Type _} {a : List α} {lo k : Nat} {x : α} (h : x ∈ slice a lo k) : x ∈ a :=
  List.mem_of_mem_drop (List.mem_of_mem_take h)

theorem length_slice {α : Type _} (a : List α) {lo k : Nat} (h : lo + k ≤ a.length) : (slice a lo k).length = k := by
  unfold slice; simp; omega

/-- Two disjoint windows of a duplicate-free list. -/
theorem nodup_slices {α : Type _} {a : List α} (h : a.Nodup) (b k : Nat) :
    (slice a b k ++ slice a 0 b).Nodup := by
  have h1 : (a.take b ++ a.drop b).Nodup := by rw [List.take_append_drop]; exact h
  rw [List.nodup_append] at h1 ⊢
  refine ⟨?_, ?_, ?_⟩
  · exact (List.take_sublist _ _).nodup h1.2.1
  · unfold slice; exact h1.1
  · intro x hx y hy hxy
    subst hxy
    exact h1.2.2 x (by simpa [slice] using hy) x (List.mem_of_mem_take hx) rfl

theorem joinSides_ok {sd : List Int} {ps pt : List Nat} {s t : Nat × Nat} (hps : ps.Nodup) (hpt : pt.Nodup)
    (hs : ∀ i ∈ ps, srcAt sd i = true) (ht : ∀ i ∈ pt, tgtAt sd i = true)
    (hls : s.1 + s.2 ≤ ps.length) (hlt : t.1 + t.2 ≤ pt.length) :
    TwoSided sd s.1 s.2 t.1 t.2 (joinSides (sliceSide ps s) (sliceSide pt t)) := by
  have cs : ∀ lo k, (slice ps lo k).countP (srcAt sd) = (slice ps lo k).length := fun lo k =>
    List.countP_eq_length.2 (fun i hi => hs i (mem_slice hi))
  have cs' : ∀ lo k, (slice pt lo k).countP (srcAt sd) = 0 := fun lo k =>
    List.countP_eq_zero.2 (fun i hi => by rw [not_src_of_tgt (ht i (mem_slice hi))]; simp)
  have ct : ∀ lo k, (slice pt lo k).countP (tgtAt sd) = (slice pt lo k).length := fun lo k =>
    List.countP_eq_length.2 (fun i hi => ht i (mem_slice hi))
  have ct' : ∀ lo k, (slice ps lo k).countP (tgtAt sd) = 0 := fun lo k =>
    List.countP_eq_zero.2 (fun i hi => by rw [not_tgt_of_src (hs i (mem_slice hi))]; simp)
  unfold joinSides sliceSide
  constructor
  · have n1 := nodup_slices hps s.2 s.1
    have n2 := nodup_slices hpt t.2 t.1
    have hd : ∀ i ∈ ps, ∀ j ∈ pt, i ≠ j := by
      intro i hi j hj hij
      subst hij
      have := not_src_of_tgt (ht i hj)
      rw [hs i hi] at this; simp at this
    simp only
    have hperm : ((slice ps s.2 s.1 ++ slice pt t.2 t.1) ++ (slice ps 0 s.2 ++ slice pt 0 t.2)).Perm
        ((slice ps s.2 s.1 ++ slice ps 0 s.2) ++ (slice pt t.2 t.1 ++ slice pt 0 t.2)) := by
      rw [List.append_assoc, List.append_assoc]
      apply List.Perm.append_left
      rw [← List.append_assoc, ← List.append_assoc]
      apply List.Perm.append_right
      exact List.perm_append_comm
    rw [hperm.nodup_iff, List.nodup_append]
    refine ⟨n1, n2, ?_⟩
    intro i hi j hj
    refine hd i ?_ j ?_
    · rcases List.mem_append.1 hi with h | h <;> exact mem_slice h
    · rcases List.mem_append.1 hj with h | h <;> exact mem_slice h
  · intro i hi
    simp only [List.mem_append] at hi
    rcases hi with (h | h) | (h | h)
    · exact srcAt_lt (hs i (mem_slice h))
    · exact tgtAt_lt (ht i (mem_slice h))
    · exact srcAt_lt (hs i (mem_slice h))
    · exact tgtAt_lt (ht i (mem_slice h))
  · simp only [List.countP_append, cs, cs']; rw [length_slice _ (by omega)]; omega
  · simp only [List.countP_append, cs, cs']; rw [length_slice _ (by omega)]; omega
  · simp only [List.countP_append, ct, ct']; rw [length_slice _ (by omega)]; omega
  · simp only [List.countP_append, ct, ct']; rw [length_slice _ (by omega)]; omega

/-- The draws numpy can return for the two sides. -/
def ValidDraw (sd : List Int) (d : List Nat × List Nat) : Prop :=
  d.1.Perm (List.range (nSource sd)) ∧ d.2.Perm (List.range (nTarget sd))

theorem stFold_ok {sd : List Int} {s t : Nat × Nat} {d : List Nat × List Nat} (hd : ValidDraw sd d)
    (hls : s.1 + s.2 ≤ nSource sd) (hlt : t.1 + t.2 ≤ nTarget sd) :
    ∃ f, stFold sd (s, t) d.1 d.2 = .ok f ∧ TwoSided sd s.1 s.2 t.1 t.2 f := by
  obtain ⟨ps, h1, h2⟩ := take_perm (a := sourceIdx sd) (π := d.1) (by rw [length_sourceIdx]; exact hd.1)
  obtain ⟨pt, h3, h4⟩ := take_perm (a := targetIdx sd) (π := d.2) (by rw [length_targetIdx]; exact hd.2)
  refine ⟨_, by unfold stFold; rw [h1]; simp only; rw [h3], ?_⟩
  apply joinSides_ok
  · exact h2.nodup_iff.2 (nodup_flatnonzero _)
  · exact h4.nodup_iff.2 (nodup_flatnonzero _)
  · intro i hi; exact mem_sourceIdx.1 (h2.mem_iff.1 hi)
  · intro i hi; exact mem_targetIdx.1 (h4.mem_iff.1 hi)
  · rw [h2.length_eq, length_sourceIdx]; exact hls
  · rw [h4.length_eq, length_targetIdx]; exact hlt

theorem validate_error {n : Nat} {test train : Size} {d : ℚ} {e : PyErr}
    (h : validateShuffleSplit n test train d = .error e) : e = .valueError := by
  unfold validateShuffleSplit at h
  simp only at h
  repeat' split at h
  all_goals first
    | (injection h with h; exact h.symm)
    | cases h

/-- The contract of `_validate_shuffle_split`. -/
theorem validate_ok {n : Nat} {test train : Size} {d : ℚ} {a b : Nat}
    (h : validateShuffleSplit n test train d = .ok (a, b)) : 0 < a ∧ 0 < b ∧ a + b ≤ n := by
  have hn : (0 : ℚ) ≤ n := Nat.cast_nonneg n
  have hc : ∀ q : ℚ, ¬ (q ≤ 0 ∨ 1 ≤ q) → 0 ≤ ⌈q * n⌉ ∧ ⌈q * n⌉ ≤ n ∧ (0 < n → 0 < ⌈q * n⌉) := by
    intro q hq
    push Not at hq
    refine ⟨Int.ceil_nonneg (mul_nonneg hq.1.le hn), ?_, ?_⟩
    · rw [Int.ceil_le]; push_cast; nlinarith
    · intro h0; rw [Int.ceil_pos]; exact mul_pos hq.1 (by exact_mod_cast h0)
  have hf : ∀ q : ℚ, ¬ (q ≤ 0 ∨ 1 ≤ q) → 0 ≤ ⌊q * n⌋ ∧ ⌊q * n⌋ ≤ n ∧ (0 < n → ⌊q * n⌋ < n) := by
    intro q hq
    push Not at hq
    refine ⟨Int.floor_nonneg.2 (mul_nonneg hq.1.le hn), ?_, ?_⟩
    · have : (⌊q * n⌋ : ℚ) ≤ n := (Int.floor_le _).trans (by nlinarith)
      exact_mod_cast this
    · intro h0
      rw [Int.floor_lt]
      have : (0 : ℚ) < n := by exact_mod_cast h0
      push_cast
      nlinarith
  unfold validateShuffleSplit at h
  rcases test with _ | k | q <;> rcases train with _ | k' | q' <;>
    simp only [Size.bad, reduceCtorEq, false_and, and_false, and_self, if_true, if_false, Bool.or_eq_true,
      decide_eq_true_eq, Option.getD_some, Option.getD_none, Bool.false_eq_true] at h <;>
    split_ifs at h with g1 g2 g3 <;> injection h with h <;> rw [Prod.mk.injEq] at h
  · have := hc d g1; omega
  · omega
  · have := hf q' g1; omega
  · omega
  · omega
  · have := hf q' g2; omega
  · have := hc q g1; omega
  · have := hc q g1; omega
  · have := hc q g1; have := hf q' g2; omega

theorem bothSizes_ok {nS nT : Nat} {test train : Size} {s t : Nat × Nat}
    (h : bothSizes nS nT test train = .ok (s, t)) :
    (0 < s.1 ∧ 0 < s.2 ∧ s.1 + s.2 ≤ nS) ∧ (0 < t.1 ∧ 0 < t.2 ∧ t.1 + t.2 ≤ nT) ∧
    validateShuffleSplit nS test train defaultTestSize = .ok s ∧
    validateShuffleSplit nT test train defaultTestSize = .ok t := by
  unfold bothSizes at h
  split at h
  · cases h
  · split at h
    · cases h
    · injection h with h
      rw [Prod.mk.injEq] at h
      obtain ⟨rfl, rfl⟩ := h
      rename_i h1 _ _ h2
      exact ⟨validate_ok h1, validate_ok h2, h1, h2⟩

theorem bothSizes_error {nS nT : Nat} {test train : Size} {e : PyErr}
    (h : bothSizes nS nT test train = .error e) : e = .valueError := by
  unfold bothSizes at h
  split at h
  · cases h; exact validate_error ‹_›
  · split at h
    · cases h; exact validate_error ‹_›
    · cases h

end Skada

/-
Properties C26 and C57: the stratified domain splitter.
-/
import Verif.Props.Splitters
import Mathlib.Tactic.IntervalCases

namespace Skada
open Np Spec

/-! ### largest-remainder allocation -/

theorem sum_strict {n N : Nat} : ∀ (counts alloc : List Nat), alloc.length = counts.length →
    (∀ (i c a : Nat), counts[i]? = some c → alloc[i]? = some a → c * n ≤ N * a) →
    (∃ i c a : Nat, counts[i]? = some c ∧ alloc[i]? = some a ∧ c * n + N ≤ N * a) →
    counts.sum * n + N ≤ N * alloc.sum := by
  have weak : ∀ (counts alloc : List Nat), alloc.length = counts.length →
      (∀ (i c a : Nat), counts[i]? = some c → alloc[i]? = some a → c * n ≤ N * a) →
      counts.sum * n ≤ N * alloc.sum := by
    intro counts
    induction counts with
    | nil => intro alloc hl _; cases alloc <;> simp at *
    | cons c counts ih =>
      intro alloc hl h
      cases alloc with
      | nil => simp at hl
      | cons a alloc =>
        have h0 := h 0 c a rfl rfl
        have h1 := ih alloc (by simpa using hl) (fun i c a hc ha => h (i + 1) c a hc ha)
        simp only [List.sum_cons, Nat.add_mul, Nat.mul_add]
        omega
  intro counts
  induction counts with
  | nil => rintro alloc _ _ ⟨i, c, a, h, _⟩; simp at h
  | cons c counts ih =>
    rintro alloc hl h ⟨i, c', a', h1, h2, h3⟩
    cases alloc with
    | nil => simp at hl
    | cons a alloc =>
      have hl' : alloc.length = counts.length := by simpa using hl
      have ht : ∀ (i c a : Nat), counts[i]? = some c → alloc[i]? = some a → c * n ≤ N * a :=
        fun i c a hc ha => h (i + 1) c a hc ha
      simp only [List.sum_cons, Nat.add_mul, Nat.mul_add]
      cases i with
      | zero =>
        simp only [List.getElem?_cons_zero, Option.some.injEq] at h1 h2
        subst h1 h2
        have := weak counts alloc hl' ht
        omega
      | succ i =>
        have h0 := h 0 c a rfl rfl
        have := ih alloc hl' ht ⟨i, c', a', h1, h2, h3⟩
        omega

/-- An allocation never rounds an integral share up. -/
theorem ApproxMode.rem_pos {counts alloc : List Nat} {n : Nat} (h : ApproxMode counts n alloc) (hN : 0 < counts.sum)
    {i c a : Nat} (hc : counts[i]? = some c) (ha : alloc[i]? = some a) (hb : a = c * n / counts.sum + 1) :
    0 < c * n % counts.sum := by
  by_contra hr
  have hr0 : c * n % counts.sum = 0 := by omega
  have hall : ∀ (j cj aj : Nat), counts[j]? = some cj → alloc[j]? = some aj → cj * n ≤ counts.sum * aj := by
    intro j cj aj h1 h2
    have hdm := Nat.div_add_mod (cj * n) counts.sum
    have hlt := Nat.mod_lt (cj * n) hN
    rcases h.near j cj aj h1 h2 with e | e
    · have := h.largestFirst i j c a cj aj hc ha h1 h2 hb e
      rw [e]; omega
    · rw [e, Nat.mul_add]; omega
  have := sum_strict counts alloc h.len hall ⟨i, c, a, hc, ha, by
    have hdm := Nat.div_add_mod (c * n) counts.sum
    rw [hb, Nat.mul_add]; omega⟩
  rw [h.total, Nat.mul_comm] at this
  rw [Nat.mul_comm n] at this
  omega

theorem ApproxMode.bounds {counts alloc : List Nat} {n : Nat} (h : ApproxMode counts n alloc) (hN : 0 < counts.sum)
    {i c a : Nat} (hc : counts[i]? = some c) (ha : alloc[i]? = some a) :
    c * n < counts.sum * a + counts.sum ∧ counts.sum * a < c * n + counts.sum ∧ (n ≤ counts.sum → a ≤ c) ∧
    c * n / counts.sum ≤ a := by
  have hdm := Nat.div_add_mod (c * n) counts.sum
  have hlt := Nat.mod_lt (c * n) hN
  rcases h.near i c a hc ha with e | e
  · refine ⟨by rw [e]; omega, by rw [e]; omega, ?_, by omega⟩
    intro hn
    rw [e]
    calc c * n / counts.sum ≤ c * counts.sum / counts.sum := Nat.div_le_div_right (Nat.mul_le_mul_left c hn)
      _ = c := Nat.mul_div_cancel c hN
  · have hr := h.rem_pos hN hc ha e
    refine ⟨by rw [e, Nat.mul_add]; omega, by rw [e, Nat.mul_add]; omega, ?_, by omega⟩
    intro hn
    have h1 : c * n ≤ c * counts.sum := Nat.mul_le_mul_left c hn
    have h2 : counts.sum * (c * n / counts.sum) < counts.sum * c := by rw [Nat.mul_comm _ c]; omega
    have := Nat.lt_of_mul_lt_mul_left h2
    omega

/-! ### the loop over the groups -/

theorem nodup_slices' {α : Type _} {a : List α} (h : a.Nodup) (n t : Nat) :
    (slice a 0 n ++ slice a n t).Nodup := (List.perm_append_comm.nodup_iff).1 (nodup_slices h n t)

theorem stratGroups_ok : ∀ (gs : List (List Nat)) (ns ts : List Nat) (πs : List (List Nat)),
    gs.flatten.Nodup → ns.length = gs.length → ts.length = gs.length →
    List.Forall₂ (fun g π => π.Perm (List.range g.length)) gs πs →
    (∀ (k : Nat) (g : List Nat) (n t : Nat), gs[k]? = some g → ns[k]? = some n → ts[k]? = some t → n + t ≤ g.length) →
    ∃ f, stratGroups gs ns ts πs = .ok f ∧ f.1.length = ns.sum ∧ f.2.length = ts.sum ∧ (f.1 ++ f.2).Nodup ∧
      (∀ i ∈ f.1 ++ f.2, i ∈ gs.flatten) ∧
      (∀ (k : Nat) (g : List Nat) (n t : Nat), gs[k]? = some g → ns[k]? = some n → ts[k]? = some t →
        f.1.countP (fun i => decide (i ∈ g)) = n ∧ f.2.countP (fun i => decide (i ∈ g)) = t) := by
  intro gs
  induction gs with
  | nil =>
    intro ns ts πs _ h1 h2 h3 _
    cases h3
    simp only [List.length_nil, List.length_eq_zero_iff] at h1 h2
    subst h1 h2
    exact ⟨([], []), rfl, rfl, rfl, by simp, by simp, by simp⟩
  | cons g gs ih =>
    intro ns ts πs hnd h1 h2 h3 hle
    cases ns with
    | nil => simp at h1
    | cons n ns =>
    cases ts with
    | nil => simp at h2
    | cons t ts =>
    cases h3 with
    | @cons _ π _ πs hπ h3 =>
      rw [List.flatten_cons, List.nodup_append] at hnd
      obtain ⟨hg, hgs, hdis⟩ := hnd
      obtain ⟨p, hp, hperm⟩ := take_perm hπ
      obtain ⟨f, e1, e2, e3, e4, e5, e6⟩ := ih ns ts πs hgs (by simpa using h1) (by simpa using h2) h3
        (fun k g n t a b c => hle (k + 1) g n t a b c)
      have hpn : p.Nodup := hperm.nodup_iff.2 hg
      have hnt : n + t ≤ p.length := by rw [hperm.length_eq]; exact hle 0 g n t rfl rfl rfl
      have hin : ∀ lo k, ∀ i ∈ slice p lo k, i ∈ g := fun lo k i hi => hperm.mem_iff.1 (mem_slice hi)
      have hf1 : ∀ i ∈ f.1, i ∈ gs.flatten := fun i hi => e5 i (List.mem_append_left _ hi)
      have hf2 : ∀ i ∈ f.2, i ∈ gs.flatten := fun i hi => e5 i (List.mem_append_right _ hi)
      have hl1 : (slice p 0 n).length = n := length_slice p (by omega)
      have hl2 : (slice p n t).length = t := length_slice p (by omega)
      refine ⟨(slice p 0 n ++ f.1, slice p n t ++ f.2), ?_, ?_, ?_, ?_, ?_, ?_⟩
      · unfold stratGroups
        rw [hp]
        simp only
        rw [e1]
      · simp [hl1, e2]
      · simp [hl2, e3]
      · have hperm2 : ((slice p 0 n ++ f.1) ++ (slice p n t ++ f.2)).Perm
            ((slice p 0 n ++ slice p n t) ++ (f.1 ++ f.2)) := by
          rw [List.append_assoc, List.append_assoc]
          apply List.Perm.append_left
          rw [← List.append_assoc, ← List.append_assoc]
          apply List.Perm.append_right
          exact List.perm_append_comm
        simp only
        rw [hperm2.nodup_iff, List.nodup_append]
        refine ⟨nodup_slices' hpn n t, e4, ?_⟩
        intro i hi j hj
        refine hdis i ?_ j (e5 j hj)
        rcases List.mem_append.1 hi with h | h <;> exact hin _ _ i h
      · intro i hi
        rw [List.flatten_cons, List.mem_append]
        simp only [List.mem_append] at hi
        rcases hi with (h | h) | (h | h)
        · exact .inl (hin _ _ i h)
        · exact .inr (hf1 i h)
        · exact .inl (hin _ _ i h)
        · exact .inr (hf2 i h)
      · intro k g' n' t' a b c
        cases k with
        | zero =>
          simp only [List.getElem?_cons_zero, Option.some.injEq] at a b c
          subst a b c
          have z : ∀ l : List Nat, (∀ i ∈ l, i ∈ gs.flatten) → l.countP (fun i => decide (i ∈ g)) = 0 := by
            intro l hl
            rw [List.countP_eq_zero]
            intro i hi
            simp only [decide_eq_true_eq]
            intro hig
            exact hdis i hig i (hl i hi) rfl
          have o : ∀ lo k, (slice p lo k).countP (fun i => decide (i ∈ g)) = (slice p lo k).length := by
            intro lo k
            rw [List.countP_eq_length]
            intro i hi
            simpa using hin _ _ i hi
          simp only [List.countP_append, z _ hf1, z _ hf2, o, hl1, hl2]
          omega
        | succ k =>
          simp only [List.getElem?_cons_succ] at a b c
          have hz : ∀ lo k, (slice p lo k).countP (fun i => decide (i ∈ g')) = 0 := by
            intro lo k
            rw [List.countP_eq_zero]
            intro i hi
            simp only [decide_eq_true_eq]
            intro hig
            exact hdis i (hin _ _ i hi) i (List.mem_flatten.2 ⟨g', List.mem_of_getElem? a, hig⟩) rfl
          simp only [List.countP_append, hz, Nat.zero_add]
          exact e6 k g' n' t' a b c

/-! ### groups -/

theorem mem_fibre {γ : Type} [DecidableEq γ] {keys : List γ} {g : γ} {i : Nat} :
    i ∈ flatnonzero (keys.map (fun k => decide (k = g))) ↔ keys[i]? = some g := by
  rw [mem_flatnonzero, List.getElem?_map]
  cases keys[i]? <;> simp

theorem groups_flatten (keys : List (ℚ ×ₗ Int)) : (groupIdx keys).flatten.Perm (List.range keys.length) := by
  have hnd : (groupIdx keys).flatten.Nodup := by
    unfold groupIdx
    rw [List.nodup_flatten]
    refine ⟨?_, ?_⟩
    · intro l hl
      obtain ⟨g, _, rfl⟩ := List.mem_map.1 hl
      exact nodup_flatnonzero _
    · rw [List.pairwise_map]
      refine (nodup_unique keys).imp ?_
      intro a b hab i hi hj
      have h1 := mem_fibre.1 hi
      have h2 := mem_fibre.1 hj
      rw [h1] at h2
      injection h2 with h2
      exact hab h2
  rw [List.perm_ext_iff_of_nodup hnd List.nodup_range]
  intro i
  rw [List.mem_range, List.mem_flatten]
  constructor
  · rintro ⟨l, hl, hi⟩
    obtain ⟨g, _, rfl⟩ := List.mem_map.1 hl
    have := mem_fibre.1 hi
    by_contra hc
    rw [List.getElem?_eq_none (by omega)] at this
    cases this
  · intro hi
    refine ⟨_, List.mem_map.2 ⟨keys[i], mem_unique.2 (List.getElem_mem hi), rfl⟩, ?_⟩
    exact mem_fibre.2 (List.getElem?_eq_getElem hi)

theorem groups_sum (keys : List (ℚ ×ₗ Int)) : ((groupIdx keys).map List.length).sum = keys.length := by
  have := (groups_flatten keys).length_eq
  rw [List.length_flatten, List.length_range] at this
  exact this

/-- Row `i` has label `a` and domain `d`. -/
def Spec.inGroup (y : List ℚ) (sd : List Int) (a : ℚ) (d : Int) (i : Nat) : Bool :=
  decide (y[i]? = some a ∧ sd[i]? = some d)

/-- Size of the group with label `a` in domain `d`. -/
def Spec.groupSize (y : List ℚ) (sd : List Int) (a : ℚ) (d : Int) : Nat :=
  (List.range y.length).countP (inGroup y sd a d)

theorem key_at {y : List ℚ} {sd : List Int} {a : ℚ} {d : Int} {i : Nat} :
    (groupKeys y sd)[i]? = some (toLex (a, d)) ↔ y[i]? = some a ∧ sd[i]? = some d := by
  unfold groupKeys
  rw [List.getElem?_zipWith]
  cases y[i]? <;> cases sd[i]? <;> simp

theorem inGroup_fibre {y : List ℚ} {sd : List Int} {a : ℚ} {d : Int} {i : Nat} :
    inGroup y sd a d i = decide (i ∈ flatnonzero ((groupKeys y sd).map (fun k => decide (k = toLex (a, d))))) := by
  unfold inGroup
  rw [decide_eq_decide, mem_fibre, key_at]

theorem groupSize_fibre {y : List ℚ} {sd : List Int} (a : ℚ) (d : Int) :
    groupSize y sd a d = (flatnonzero ((groupKeys y sd).map (fun k => decide (k = toLex (a, d))))).length := by
  unfold groupSize
  rw [List.countP_eq_length_filter]
  apply List.Perm.length_eq
  rw [List.perm_ext_iff_of_nodup (List.nodup_range.filter _) (nodup_flatnonzero _)]
  intro i
  rw [List.mem_filter, inGroup_fibre, decide_eq_true_eq, List.mem_range]
  constructor
  · exact fun h => h.2
  · intro h
    refine ⟨?_, h⟩
    have := (key_at.1 (mem_fibre.1 h)).1
    by_contra hc
    rw [List.getElem?_eq_none (by omega)] at this
    cases this

/-- What numpy and sklearn can draw for one fold. -/
structure ValidStrat (groups : List (List Nat)) (nTrain nTest : Nat) (d : StratDraw) : Prop where
  train : ApproxMode (groups.map List.length) nTrain d.nI
  test : ApproxMode (List.zipWith (· - ·) (groups.map List.length) d.nI) nTest d.tI
  perms : List.Forall₂ (fun g π => π.Perm (List.range g.length)) groups d.perms
  finalTrain : d.finalTrain.Perm (List.range nTrain)
  finalTest : d.finalTest.Perm (List.range nTest)

/-- A proportional fold: disjoint parts of the prescribed sizes, and for each (label, domain) group the number of train
rows differs by less than one from the proportional share of the group, the number of test rows by less than one from the
proportional share of what is left of the group. (Inequalities multiplied by the denominators.) -/
structure Spec.Proportional (y : List ℚ) (sd : List Int) (nTrain nTest : Nat) (f : List Nat × List Nat) : Prop where
  nodup : (f.1 ++ f.2).Nodup
  inRange : ∀ i ∈ f.1 ++ f.2, i < y.length
  sizeTrain : f.1.length = nTrain
  sizeTest : f.2.length = nTest
  trainLow : ∀ a d, groupSize y sd a d * nTrain < y.length * (f.1.countP (inGroup y sd a d)) + y.length
  trainHigh : ∀ a d, y.length * (f.1.countP (inGroup y sd a d)) < groupSize y sd a d * nTrain + y.length
  testLow : ∀ a d, (groupSize y sd a d - f.1.countP (inGroup y sd a d)) * nTest <
    (y.length - nTrain) * (f.2.countP (inGroup y sd a d)) + (y.length - nTrain)
  testHigh : ∀ a d, (y.length - nTrain) * (f.2.countP (inGroup y sd a d)) <
    (groupSize y sd a d - f.1.countP (inGroup y sd a d)) * nTest + (y.length - nTrain)

theorem zipWith_sub_sum : ∀ (c a : List Nat), a.length = c.length →
    (∀ (i x z : Nat), c[i]? = some x → a[i]? = some z → z ≤ x) →
    (List.zipWith (· - ·) c a).sum + a.sum = c.sum := by
  intro c
  induction c with
  | nil => intro a h _; cases a <;> simp at *
  | cons x c ih =>
    intro a h hle
    cases a with
    | nil => simp at h
    | cons z a =>
      have h0 := hle 0 x z rfl rfl
      have := ih a (by simpa using h) (fun i x z p q => hle (i + 1) x z p q)
      simp only [List.zipWith_cons_cons, List.sum_cons]
      omega

theorem stratFold_ok {y : List ℚ} {sd : List Int} (hlen : sd.length = y.length) {nTrain nTest : Nat} (hpos : 0 < nTrain)
    (hpost : 0 < nTest) (hle : nTrain + nTest ≤ y.length) {d : StratDraw}
    (hd : ValidStrat (groupIdx (groupKeys y sd)) nTrain nTest d) :
    ∃ f, stratFold (groupIdx (groupKeys y sd)) d = .ok f ∧ Proportional y sd nTrain nTest f := by
  set keys := groupKeys y sd with hkeys
  have hkl : keys.length = y.length := by simp [hkeys, groupKeys, hlen]
  set gs := groupIdx keys with hgs
  have hN : (gs.map List.length).sum = y.length := by rw [hgs, groups_sum, hkl]
  have hN0 : 0 < (gs.map List.length).sum := by omega
  have hbt := fun {i c a : Nat} (hc : (gs.map List.length)[i]? = some c) (ha : d.nI[i]? = some a) =>
    hd.train.bounds hN0 hc ha
  have hsub : (List.zipWith (· - ·) (gs.map List.length) d.nI).sum + nTrain = y.length := by
    have := zipWith_sub_sum (gs.map List.length) d.nI hd.train.len
      (fun i x z h1 h2 => (hbt h1 h2).2.2.1 (by omega))
    rw [hd.train.total, hN] at this
    exact this
  have hR : (List.zipWith (· - ·) (gs.map List.length) d.nI).sum = y.length - nTrain := by omega
  have hR0 : 0 < (List.zipWith (· - ·) (gs.map List.length) d.nI).sum := by omega
  have hlI : d.nI.length = gs.length := by simpa using hd.train.len
  have hlT : d.tI.length = gs.length := by
    have := hd.test.len
    simp only [List.length_zipWith, List.length_map, hlI, min_self] at this
    exact this
  have hzip : ∀ {k : Nat} {g : List Nat} {n : Nat}, gs[k]? = some g → d.nI[k]? = some n →
      (List.zipWith (· - ·) (gs.map List.length) d.nI)[k]? = some (g.length - n) := by
    intro k g n h1 h2
    rw [List.getElem?_zipWith, List.getElem?_map, h1, h2]
    rfl
  have hcnt : ∀ {k : Nat} {g : List Nat}, gs[k]? = some g → (gs.map List.length)[k]? = some g.length := by
    intro k g h; rw [List.getElem?_map, h]; rfl
  obtain ⟨f, e1, e2, e3, e4, e5, e6⟩ := stratGroups_ok gs d.nI d.tI d.perms
    ((groups_flatten keys).nodup_iff.2 List.nodup_range) hlI hlT hd.perms (by
      intro k g n t h1 h2 h3
      have a1 := (hbt (hcnt h1) h2).2.2.1 (by omega)
      have a2 := (hd.test.bounds hR0 (hzip h1 h2) h3).2.2.1 (by omega)
      omega)
  rw [hd.train.total] at e2
  rw [hd.test.total] at e3
  obtain ⟨tr, p1, p2⟩ := take_perm (a := f.1) (π := d.finalTrain) (by rw [e2]; exact hd.finalTrain)
  obtain ⟨te, q1, q2⟩ := take_perm (a := f.2) (π := d.finalTest) (by rw [e3]; exact hd.finalTest)
  refine ⟨(tr, te), ?_, ?_⟩
  · unfold stratFold
    rw [e1]; simp only
    rw [p1]; simp only
    rw [q1]
  have hperm : (tr ++ te).Perm (f.1 ++ f.2) := p2.append q2
  -- counts of one group
  have hgrp : ∀ a dd, ∃ c n t : Nat, c = groupSize y sd a dd ∧ n = tr.countP (inGroup y sd a dd) ∧
      t = te.countP (inGroup y sd a dd) ∧
      c * nTrain < y.length * n + y.length ∧ y.length * n < c * nTrain + y.length ∧
      (c - n) * nTest < (y.length - nTrain) * t + (y.length - nTrain) ∧
      (y.length - nTrain) * t < (c - n) * nTest + (y.length - nTrain) := by
    intro a dd
    refine ⟨_, _, _, rfl, rfl, rfl, ?_⟩
    rw [p2.countP_eq, q2.countP_eq]
    have hfun : inGroup y sd a dd = fun i => decide (i ∈ flatnonzero (keys.map (fun k => decide (k = toLex (a, dd))))) := by
      funext i; exact inGroup_fibre
    by_cases hm : toLex (a, dd) ∈ unique keys
    · obtain ⟨k, hk, hke⟩ := List.getElem_of_mem hm
      have hg : gs[k]? = some (flatnonzero (keys.map (fun x => decide (x = toLex (a, dd))))) := by
        rw [hgs]; unfold groupIdx
        rw [List.getElem?_map, List.getElem?_eq_getElem hk, hke]; rfl
      have hkl' : k < gs.length := by
        rw [hgs]; unfold groupIdx; simpa using hk
      have hn : d.nI[k]? = some (d.nI[k]'(by omega)) := List.getElem?_eq_getElem _
      have ht : d.tI[k]? = some (d.tI[k]'(by omega)) := List.getElem?_eq_getElem _
      obtain ⟨c1, c2⟩ := e6 k _ _ _ hg hn ht
      have b1 := hbt (hcnt hg) hn
      have b2 := hd.test.bounds hR0 (hzip hg hn) ht
      rw [hN] at b1
      rw [hR] at b2
      rw [hfun, c1, c2, groupSize_fibre]
      exact ⟨b1.1, b1.2.1, b2.1, b2.2.1⟩
    · have hempty : flatnonzero (keys.map (fun x => decide (x = toLex (a, dd)))) = [] := by
        rw [List.eq_nil_iff_forall_not_mem]
        intro i hi
        exact hm (mem_unique.2 (List.mem_of_getElem? (mem_fibre.1 hi)))
      have hz : ∀ l : List Nat, l.countP (inGroup y sd a dd) = 0 := by
        intro l
        rw [List.countP_eq_zero, hfun]
        intro i _
        rw [hempty]
        simp
      rw [hz, hz, groupSize_fibre, hempty]
      simp
      omega
  constructor
  · rw [hperm.nodup_iff]; exact e4
  · intro i hi
    have := (groups_flatten keys).mem_iff.1 (e5 i (hperm.mem_iff.1 hi))
    rw [List.mem_range, hkl] at this
    exact this
  · simp only; rw [p2.length_eq, e2]
  · simp only; rw [q2.length_eq, e3]
  · intro a dd
    obtain ⟨c, n, t, rfl, rfl, rfl, h⟩ := hgrp a dd
    exact h.1
  · intro a dd
    obtain ⟨c, n, t, rfl, rfl, rfl, h⟩ := hgrp a dd
    exact h.2.1
  · intro a dd
    obtain ⟨c, n, t, rfl, rfl, rfl, h⟩ := hgrp a dd
    exact h.2.2.1
  · intro a dd
    obtain ⟨c, n, t, rfl, rfl, rfl, h⟩ := hgrp a dd
    exact h.2.2.2

/-- C26. For every draw, `StratifiedDomainShuffleSplit` raises `ValueError` or returns one proportional fold per
draw, of the sizes prescribed for the number of rows. -/
theorem C26_proportional {α : Type} (X : List α) (y : List ℚ) (sd : List Int) (hX : X ≠ [])
    (hlen : sd.length = X.length) (hy : y.length = X.length) (test train : Size) (draws : List StratDraw)
    (hd : ∀ nTrain nTest, validateShuffleSplit X.length test train defaultTestSize = .ok (nTrain, nTest) →
      ∀ d ∈ draws, ValidStrat (groupIdx (groupKeys y sd)) nTrain nTest d) :
    stratifiedDomainShuffleSplit X y (.vec sd) test train draws = .error .valueError ∨
    ∃ folds nTrain nTest, stratifiedDomainShuffleSplit X y (.vec sd) test train draws = .ok folds ∧
      validateShuffleSplit X.length test train defaultTestSize = .ok (nTrain, nTest) ∧
      folds.length = draws.length ∧ ∀ f ∈ folds, Proportional y sd nTrain nTest f := by
  unfold stratifiedDomainShuffleSplit
  rw [checkXDomain_vec hX hlen]
  simp only
  rw [if_neg (by simpa using hy)]
  cases hv : validateShuffleSplit X.length test train defaultTestSize with
  | error e => left; simp only; rw [validate_error hv]
  | ok r =>
    obtain ⟨nTrain, nTest⟩ := r
    obtain ⟨v1, v2, v3⟩ := validate_ok hv
    simp only
    split_ifs
    · left; rfl
    · left; rfl
    · left; rfl
    right
    have hall : ∀ d ∈ draws, ∃ f, stratFold (groupIdx (groupKeys y sd)) d = .ok f ∧ Proportional y sd nTrain nTest f :=
      fun d hm => stratFold_ok (by omega) v1 v2 (by omega) (hd nTrain nTest hv d hm)
    clear hd
    have : ∃ folds, draws.mapM (stratFold (groupIdx (groupKeys y sd))) = .ok folds ∧ folds.length = draws.length ∧
        ∀ f ∈ folds, Proportional y sd nTrain nTest f := by
      induction draws with
      | nil => exact ⟨[], rfl, rfl, by simp⟩
      | cons d draws ih =>
        obtain ⟨f, hf, hf2⟩ := hall d (by simp)
        obtain ⟨fs, e1, e2, e3⟩ := ih (fun x hx => hall x (by simp [hx]))
        refine ⟨f :: fs, ?_, by simp [e2], ?_⟩
        · rw [List.mapM_cons, hf, e1]; rfl
        · intro g hg
          rcases List.mem_cons.1 hg with rfl | hg
          · exact hf2
          · exact e3 g hg
    obtain ⟨folds, h1, h2, h3⟩ := this
    exact ⟨folds, nTrain, nTest, h1, rfl, h2, h3⟩

/-- C26 (rejections). A (label, domain) group with a single row, or more groups than train or test rows, is
rejected with `ValueError`. -/
theorem C26_rejects {α : Type} (X : List α) (y : List ℚ) (sd : List Int) (hX : X ≠ [])
    (hlen : sd.length = X.length) (hy : y.length = X.length) (test train : Size) (draws : List StratDraw)
    (h : (∃ a d, groupSize y sd a d = 1) ∨
      (∃ nTrain nTest, validateShuffleSplit X.length test train defaultTestSize = .ok (nTrain, nTest) ∧
        (nTrain < (y.zip sd).dedup.length ∨ nTest < (y.zip sd).dedup.length))) :
    stratifiedDomainShuffleSplit X y (.vec sd) test train draws = .error .valueError := by
  unfold stratifiedDomainShuffleSplit
  rw [checkXDomain_vec hX hlen]
  simp only
  rw [if_neg (by simpa using hy)]
  cases hv : validateShuffleSplit X.length test train defaultTestSize with
  | error e => simp only; rw [validate_error hv]
  | ok r =>
    obtain ⟨nTrain, nTest⟩ := r
    simp only
    rcases h with ⟨a, d, h⟩ | ⟨n1, n2, h1, h2⟩
    · rw [groupSize_fibre] at h
      rw [if_pos]
      rw [List.any_eq_true]
      have hne : flatnonzero ((groupKeys y sd).map (fun k => decide (k = toLex (a, d)))) ≠ [] := by
        intro he; rw [he] at h; simp at h
      obtain ⟨i, hi⟩ := List.exists_mem_of_ne_nil _ hne
      refine ⟨_, List.mem_map.2 ⟨toLex (a, d), mem_unique.2 (List.mem_of_getElem? (mem_fibre.1 hi)), rfl⟩, ?_⟩
      rw [h]; decide
    · rw [hv] at h1
      injection h1 with h1
      rw [Prod.mk.injEq] at h1
      obtain ⟨rfl, rfl⟩ := h1
      have hl : (groupIdx (groupKeys y sd)).length = (y.zip sd).dedup.length := by
        unfold groupIdx
        rw [List.length_map]
        have hk : groupKeys y sd = (y.zip sd).map toLex := by
          unfold groupKeys
          rw [List.zip, List.map_zipWith]
        have hp : (unique (groupKeys y sd)).Perm ((y.zip sd).dedup.map toLex) := by
          rw [List.perm_ext_iff_of_nodup (nodup_unique _)
            ((List.nodup_map_iff toLex.injective).2 (List.nodup_dedup _))]
          intro k
          rw [mem_unique, hk]
          simp
        rw [hp.length_eq, List.length_map]
      rw [hl]
      split_ifs <;> first | rfl | omega

/-! ### C57 -/

/-- C57 (partial). A group whose proportional share of the train rows is at least one row is represented in train, and
a group whose remaining rows have a proportional share of at least one test row is represented in test.
Missing from the full claim: smaller groups, see `C57_counterexample`. -/
theorem C57_represented_partial (y : List ℚ) (sd : List Int) (nTrain nTest : Nat) (f : List Nat × List Nat)
    (h : Proportional y sd nTrain nTest f) (a : ℚ) (d : Int) :
    (y.length ≤ groupSize y sd a d * nTrain → ∃ i ∈ f.1, y[i]? = some a ∧ sd[i]? = some d) ∧
    (y.length - nTrain ≤ (groupSize y sd a d - f.1.countP (inGroup y sd a d)) * nTest →
      ∃ i ∈ f.2, y[i]? = some a ∧ sd[i]? = some d) := by
  constructor
  · intro hs
    have h1 := h.trainLow a d
    have hpos : 0 < f.1.countP (inGroup y sd a d) := by
      rcases Nat.eq_zero_or_pos (f.1.countP (inGroup y sd a d)) with e | e
      · rw [e] at h1; omega
      · exact e
    obtain ⟨i, hi, hp⟩ := List.countP_pos_iff.1 hpos
    exact ⟨i, hi, by simpa [inGroup] using hp⟩
  · intro hs
    have h1 := h.testLow a d
    have hpos : 0 < f.2.countP (inGroup y sd a d) := by
      rcases Nat.eq_zero_or_pos (f.2.countP (inGroup y sd a d)) with e | e
      · rw [e] at h1; omega
      · exact e
    obtain ⟨i, hi, hp⟩ := List.countP_pos_iff.1 hpos
    exact ⟨i, hi, by simpa [inGroup] using hp⟩

/-- A concrete draw for the data set below: 8 rows of class 0, 2 rows of class 1, all in domain 1,
train 8 and test 2. -/
def exStrat : StratDraw :=
  { nI := [6, 2], tI := [2, 0], perms := [[0, 1, 2, 3, 4, 5, 6, 7], [0, 1]],
    finalTrain := [0, 1, 2, 3, 4, 5, 6, 7], finalTest := [1, 0] }

theorem exStrat_valid : ValidStrat
    (groupIdx (groupKeys [0, 0, 0, 0, 0, 0, 0, 0, 1, 1] [1, 1, 1, 1, 1, 1, 1, 1, 1, 1])) 8 2 exStrat := by
  have hg : groupIdx (groupKeys [0, 0, 0, 0, 0, 0, 0, 0, 1, 1] [1, 1, 1, 1, 1, 1, 1, 1, 1, 1]) =
      [[0, 1, 2, 3, 4, 5, 6, 7], [8, 9]] := by decide +kernel
  have two : ∀ {c : List Nat} {i x : Nat}, c.length = 2 → c[i]? = some x → i < 2 := by
    intro c i x h1 hx
    by_contra hc
    rw [List.getElem?_eq_none (by omega)] at hx
    cases hx
  rw [hg]
  refine ⟨⟨rfl, rfl, ?_, ?_⟩, ⟨rfl, rfl, ?_, ?_⟩, ?_, List.Perm.refl _, by decide⟩
  · intro i x z hx hz
    have hi := two rfl hx
    interval_cases i <;> simp [exStrat] at hx hz <;> subst hx hz <;> decide
  · intro i j x z x' z' hx hz hx' hz'
    have hi := two rfl hx
    have hj := two rfl hx'
    interval_cases i <;> interval_cases j <;> simp [exStrat] at hx hz hx' hz' <;> subst hx hz hx' hz' <;> decide
  · intro i x z hx hz
    have hi := two rfl hx
    interval_cases i <;> simp [exStrat] at hx hz <;> subst hx hz <;> decide
  · intro i j x z x' z' hx hz hx' hz'
    have hi := two rfl hx
    have hj := two rfl hx'
    interval_cases i <;> interval_cases j <;> simp [exStrat] at hx hz hx' hz' <;> subst hx hz hx' hz' <;> decide
  · exact .cons (by decide) (.cons (by decide) .nil)

/-- The only allocations possible for these counts are the ones above, so the loss below does not depend on luck. -/
example : (8 * 8 / 10, 2 * 8 / 10, 8 * 8 % 10, 2 * 8 % 10) = (6, 1, 4, 6) := rfl

/-- C57 is false: with 8 rows of one class and 2 of the other, `train_size=8`, `test_size=2`, the call is accepted and
the test part contains no row of the smaller class. -/
theorem C57_counterexample :
    ∃ (d : StratDraw) (f : Fold),
      let y : List ℚ := [0, 0, 0, 0, 0, 0, 0, 0, 1, 1]
      let sd : List Int := [1, 1, 1, 1, 1, 1, 1, 1, 1, 1]
      ValidStrat (groupIdx (groupKeys y sd)) 8 2 d ∧
      stratifiedDomainShuffleSplit y y (.vec sd) (.int 2) (.int 8) [d] = .ok [f] ∧
      (∀ i ∈ f.2, y[i]? ≠ some 1) ∧ groupSize y sd 1 1 = 2 := by
  refine ⟨exStrat, ([0, 1, 2, 3, 4, 5, 8, 9], [7, 6]), exStrat_valid, ?_, ?_, ?_⟩ <;> decide +kernel

end Skada

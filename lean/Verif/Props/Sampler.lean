/-
Properties of the deep samplers and of the criterion: C41 (balanced sampler), C42 (domain-only sampler), C43 (criterion and target labels),
C77 (weighted loss).
-/
import Verif.Lemmas.Sampler
import Verif.Lemmas.Reweight

namespace Skada
open Np Spec Deep

/-! ### C41: balanced sampler -/

theorem length_pos_idx (sds : List Int) : (flatnonzero (sds.map (fun d => decide (0 ≤ d)))).length = nSource sds := by
  rw [length_flatnonzero, count_map_true]; rfl

theorem length_neg_idx (sds : List Int) : (flatnonzero (sds.map (fun d => decide (d < 0)))).length = nTarget sds := by
  rw [length_flatnonzero, count_map_true]; rfl

theorem mem_side_idx (sds : List Int) (p : Int → Bool) (i : Nat) :
    i ∈ flatnonzero (sds.map p) ↔ ∃ d, sds[i]? = some d ∧ p d = true := by
  rw [mem_flatnonzero, List.getElem?_map]
  cases sds[i]? <;> simp

theorem nodup_flatnonzero (m : List Bool) : (flatnonzero m).Nodup :=
  (pairwise_flatnonzero m).imp (fun h => Nat.ne_of_lt h)

/-- The epoch size requested by `max_samples`, given the full batches of either side. -/
def Spec.epochSize (mode : String) (ns nt : Nat) : Option Nat :=
  if mode = "max" then some (max ns nt) else if mode = "min" then some (min ns nt)
  else if mode = "source" then some ns else if mode = "target" then some nt else none

/-- C41 (one epoch). With both sides present and a known mode, the sampler gives exactly `len()` indices for all shuffles; they alternate
source, target; the number of pairs is a multiple of the batch size, the largest one not above the size of the side that rules; and
every row of a side is drawn `⌊draws / side⌋` or `⌈draws / side⌉` times. -/
theorem C41_epoch (sds : List Int) (b : Nat) (mode : String) (s : Balanced) (permP permN : Nat → List Nat)
    (hs : balancedInit sds b mode = .ok s) (hP : ∀ k, (permP k).Perm (List.range (nSource sds)))
    (hN : ∀ k, (permN k).Perm (List.range (nTarget sds))) (h1 : 0 < nSource sds) (h2 : 0 < nTarget sds)
    (hmode : mode ∈ ["max", "min", "source", "target"]) :
    ∃ (N : Nat) (r : List Nat), balancedLen s = .ok (2 * N) ∧ balancedIter s permP permN = .ok r ∧ r.length = 2 * N ∧
      epochSize mode (nSource sds - nSource sds % b) (nTarget sds - nTarget sds % b) = some N ∧ b ∣ N ∧
      (∀ j, j < N → ∃ (p q : Nat) (dp dq : Int), r[2 * j]? = some p ∧ r[2 * j + 1]? = some q ∧ sds[p]? = some dp ∧ 0 ≤ dp ∧
        sds[q]? = some dq ∧ dq < 0) ∧
      (∀ (i : Nat) (d : Int), sds[i]? = some d → 0 ≤ d →
        N / nSource sds ≤ r.count i ∧ r.count i ≤ (N + nSource sds - 1) / nSource sds) ∧
      (∀ (i : Nat) (d : Int), sds[i]? = some d → d < 0 →
        N / nTarget sds ≤ r.count i ∧ r.count i ≤ (N + nTarget sds - 1) / nTarget sds) := by
  unfold balancedInit at hs
  simp only [bind_ok_iff] at hs
  obtain ⟨ns, hns, nt, hnt, hs⟩ := hs
  rw [length_pos_idx] at hns
  rw [length_neg_idx] at hnt
  have ens : ns = nSource sds - nSource sds % b := by
    unfold fullBatches at hns; split at hns
    · simp at hns
    · injection hns with hns; exact hns.symm
  have ent : nt = nTarget sds - nTarget sds % b := by
    unfold fullBatches at hnt; split at hnt
    · simp at hnt
    · injection hnt with hnt; exact hnt.symm
  obtain ⟨hb, dvds, -, -⟩ := fullBatches_ok hns
  obtain ⟨-, dvdt, -, -⟩ := fullBatches_ok hnt
  injection hs with hs
  subst hs
  have hN0 : ∃ N, epochSize mode ns nt = some N ∧ b ∣ N := by
    simp only [List.mem_cons, List.not_mem_nil, or_false] at hmode
    rcases hmode with rfl | rfl | rfl | rfl
    · exact ⟨max ns nt, by simp [epochSize], by rcases max_choice ns nt with h | h <;> rw [h] <;> assumption⟩
    · exact ⟨min ns nt, by simp [epochSize], by rcases min_choice ns nt with h | h <;> rw [h] <;> assumption⟩
    · exact ⟨ns, by simp [epochSize], dvds⟩
    · exact ⟨nt, by simp [epochSize], dvdt⟩
  obtain ⟨N, hN1, hN2⟩ := hN0
  set pos := flatnonzero (sds.map (fun d => decide (0 ≤ d))) with hpos
  set neg := flatnonzero (sds.map (fun d => decide (d < 0))) with hneg
  have hpl : pos.length = nSource sds := length_pos_idx sds
  have hnl : neg.length = nTarget sds := length_neg_idx sds
  have lP : ∀ k, (permP k).length = nSource sds := fun k => by rw [(hP k).length_eq]; simp
  have lN : ∀ k, (permN k).length = nTarget sds := fun k => by rw [(hN k).length_eq]; simp
  have neP : ∀ k, permP k ≠ [] := fun k h => by have := lP k; rw [h] at this; simp at this; omega
  have neN : ∀ k, permN k ≠ [] := fun k h => by have := lN k; rw [h] at this; simp at this; omega
  -- enough shuffles
  have hgtP : N < (N + 1) * nSource sds := by nlinarith
  have hgtN : N < (N + 1) * nTarget sds := by nlinarith
  have e1 : (⟨permP 0, 1⟩ : Cursor).rest ++ shuffles permP (⟨permP 0, 1⟩ : Cursor).started N = shuffles permP 0 (N + 1) := by
    rw [shuffles_succ]
  have e2 : (⟨permN 0, 1⟩ : Cursor).rest ++ shuffles permN (⟨permN 0, 1⟩ : Cursor).started N = shuffles permN 0 (N + 1) := by
    rw [shuffles_succ]
  have hloop := balancedLoop_eq ⟨pos, neg, some N⟩ permP permN neP neN N ⟨permP 0, 1⟩ ⟨permN 0, 1⟩ N N _ _ e1 e2
    (by rw [length_shuffles lP]; omega) (by rw [length_shuffles lN]; omega)
    (fun p hp => by simp only [hpl]; exact mem_shuffles hP hp) (fun p hp => by simp only [hnl]; exact mem_shuffles hN hp)
  simp only at hloop
  set A := ((shuffles permP 0 (N + 1)).take N).map (fun p => pos.getD p 0) with hA
  set B := ((shuffles permN 0 (N + 1)).take N).map (fun p => neg.getD p 0) with hB
  have lA : A.length = N := by rw [hA, List.length_map, List.length_take, length_shuffles lP]; omega
  have lB : B.length = N := by rw [hB, List.length_map, List.length_take, length_shuffles lN]; omega
  have hAB : A.length = B.length := by omega
  have memA : ∀ v ∈ A, v ∈ pos := by
    intro v hv
    rw [hA, List.mem_map] at hv
    obtain ⟨p, hp, rfl⟩ := hv
    have hp2 := mem_shuffles hP (List.mem_of_mem_take hp)
    rw [List.getD_eq_getElem?_getD, List.getElem?_eq_getElem (by omega)]
    exact List.getElem_mem _
  have memB : ∀ v ∈ B, v ∈ neg := by
    intro v hv
    rw [hB, List.mem_map] at hv
    obtain ⟨p, hp, rfl⟩ := hv
    have hp2 := mem_shuffles hN (List.mem_of_mem_take hp)
    rw [List.getD_eq_getElem?_getD, List.getElem?_eq_getElem (by omega)]
    exact List.getElem_mem _
  have hnum : (if mode = "max" then some (max ns nt) else if mode = "min" then some (min ns nt)
      else if mode = "source" then some ns else if mode = "target" then some nt else none) = some N := hN1
  refine ⟨N, interleave A B, ?_, ?_, by rw [interleave_length hAB, lA], by rw [← ens, ← ent]; exact hN1, hN2, ?_, ?_, ?_⟩
  · simp only [balancedLen, hnum]
  · unfold balancedIter
    have hne1 : pos ≠ [] := by intro h; rw [h] at hpl; simp at hpl; omega
    have hne2 : neg ≠ [] := by intro h; rw [h] at hnl; simp at hnl; omega
    simp only [hnum]
    rw [if_neg (by rintro (h | h); exacts [hne1 h, hne2 h])]
    exact hloop
  · intro j hj
    have hg := interleave_get hAB j
    rw [List.getElem?_eq_getElem (by omega : j < A.length), List.getElem?_eq_getElem (by omega : j < B.length)] at hg
    obtain ⟨dp, hdp, hdp0⟩ := (mem_side_idx sds (fun d => decide (0 ≤ d)) _).1 (memA _ (List.getElem_mem (by omega : j < A.length)))
    obtain ⟨dq, hdq, hdq0⟩ := (mem_side_idx sds (fun d => decide (d < 0)) _).1 (memB _ (List.getElem_mem (by omega : j < B.length)))
    exact ⟨_, _, dp, dq, hg.1, hg.2, hdp, by simpa using hdp0, hdq, by simpa using hdq0⟩
  · intro i d hi hd
    have himem : i ∈ pos := (mem_side_idx sds (fun d => decide (0 ≤ d)) i).2 ⟨d, hi, by simpa using hd⟩
    have hB0 : B.count i = 0 := by
      rw [List.count_eq_zero]
      intro h
      obtain ⟨d', h1, h2⟩ := (mem_side_idx sds (fun d => decide (d < 0)) i).1 (memB i h)
      rw [hi] at h1; injection h1 with h1; subst h1
      simp at h2; omega
    obtain ⟨p, hp, hpe⟩ := List.getElem_of_mem himem
    rw [interleave_count hAB, hB0, Nat.add_zero, hA,
      count_map_getD (nodup_flatnonzero _) (fun q hq => by rw [hpl]; exact mem_shuffles hP (List.mem_of_mem_take hq))
        (p := p) (by rw [← hpos, List.getElem?_eq_getElem hp, hpe])]
    exact count_draws hP (by omega) hgtP
  · intro i d hi hd
    have himem : i ∈ neg := (mem_side_idx sds (fun d => decide (d < 0)) i).2 ⟨d, hi, by simpa using hd⟩
    have hA0 : A.count i = 0 := by
      rw [List.count_eq_zero]
      intro h
      obtain ⟨d', h1, h2⟩ := (mem_side_idx sds (fun d => decide (0 ≤ d)) i).1 (memA i h)
      rw [hi] at h1; injection h1 with h1; subst h1
      simp at h2; omega
    obtain ⟨p, hp, hpe⟩ := List.getElem_of_mem himem
    rw [interleave_count hAB, hA0, Nat.zero_add, hB,
      count_map_getD (nodup_flatnonzero _) (fun q hq => by rw [hnl]; exact mem_shuffles hN (List.mem_of_mem_take hq))
        (p := p) (by rw [← hneg, List.getElem?_eq_getElem hp, hpe])]
    exact count_draws hN (by omega) hgtN

theorem countP_alternate (p : Nat → Bool) (r : List Nat) (b : Nat) (hl : r.length = 2 * b)
    (h : ∀ j, j < b → ∃ x z, r[2 * j]? = some x ∧ r[2 * j + 1]? = some z ∧ p x = true ∧ p z = false) : r.countP p = b := by
  induction b generalizing r with
  | zero => rw [List.length_eq_zero_iff.1 (by omega : r.length = 0)]; rfl
  | succ b ih =>
    match r, hl with
    | x :: z :: r, hl =>
      obtain ⟨x', z', e1, e2, h1, h2⟩ := h 0 (by omega)
      simp at e1 e2
      subst e1; subst e2
      rw [List.countP_cons_of_pos h1, List.countP_cons_of_neg (by simp [h2]), ih r (by simp at hl; omega)]
      intro j hj
      obtain ⟨x', z', e1, e2, h1, h2⟩ := h (j + 1) (by omega)
      refine ⟨x', z', ?_, ?_, h1, h2⟩
      · rw [show 2 * (j + 1) = 2 * j + 1 + 1 by ring] at e1; simpa using e1
      · rw [show 2 * (j + 1) + 1 = (2 * j + 1) + 1 + 1 by ring] at e2; simpa using e2

/-- C41 (batches). Cutting the epoch into batches of `2 * batch_size`, as the data loader does: every batch is full and half source, half
target. -/
theorem C41_batches (sds : List Int) (b : Nat) (mode : String) (s : Balanced) (permP permN : Nat → List Nat) (r : List Nat)
    (hs : balancedInit sds b mode = .ok s) (hP : ∀ k, (permP k).Perm (List.range (nSource sds)))
    (hN : ∀ k, (permN k).Perm (List.range (nTarget sds))) (h1 : 0 < nSource sds) (h2 : 0 < nTarget sds)
    (hmode : mode ∈ ["max", "min", "source", "target"]) (hr : balancedIter s permP permN = .ok r) :
    2 * b ∣ r.length ∧ ∀ k, 2 * b * k < r.length →
      ((r.drop (2 * b * k)).take (2 * b)).length = 2 * b ∧
      ((r.drop (2 * b * k)).take (2 * b)).countP (fun i => decide (0 ≤ sds.getD i 0)) = b ∧
      ((r.drop (2 * b * k)).take (2 * b)).countP (fun i => decide (sds.getD i 0 < 0)) = b := by
  obtain ⟨N, r', -, hr', hl, -, ⟨c, hc⟩, halt, -, -⟩ := C41_epoch sds b mode s permP permN hs hP hN h1 h2 hmode
  rw [hr] at hr'
  injection hr' with hr'
  subst hr'
  subst hc
  refine ⟨⟨c, by rw [hl]; ring⟩, fun k hk => ?_⟩
  rw [hl, ← Nat.mul_assoc] at hk
  have hb : 0 < 2 * b := by
    by_contra h
    have : 2 * b = 0 := by omega
    rw [this] at hk; simp at hk
  have hkc : k < c := Nat.lt_of_mul_lt_mul_left hk
  have hle : 2 * b * k + 2 * b ≤ 2 * b * c := by
    rw [← Nat.mul_succ]; exact Nat.mul_le_mul_left _ hkc
  have hlen : ((r.drop (2 * b * k)).take (2 * b)).length = 2 * b := by
    rw [List.length_take, List.length_drop, hl, ← Nat.mul_assoc]; omega
  have hget : ∀ j, j < b → ∃ (x z : Nat) (dx dz : Int), ((r.drop (2 * b * k)).take (2 * b))[2 * j]? = some x ∧
      ((r.drop (2 * b * k)).take (2 * b))[2 * j + 1]? = some z ∧ sds[x]? = some dx ∧ 0 ≤ dx ∧ sds[z]? = some dz ∧ dz < 0 := by
    intro j hj
    have hlt : b * k + j < b * c := by
      have : 2 * (b * k) + 2 * b ≤ 2 * (b * c) := by rw [← Nat.mul_assoc, ← Nat.mul_assoc]; exact hle
      omega
    obtain ⟨p, q, dp, dq, e1, e2, e3, e4, e5, e6⟩ := halt (b * k + j) hlt
    refine ⟨p, q, dp, dq, ?_, ?_, e3, e4, e5, e6⟩
    · rw [List.getElem?_take, if_pos (by omega), List.getElem?_drop, ← e1]
      congr 1; ring
    · rw [List.getElem?_take, if_pos (by omega), List.getElem?_drop, ← e2]
      congr 1; ring
  refine ⟨hlen, ?_, ?_⟩
  · refine countP_alternate _ _ b hlen (fun j hj => ?_)
    obtain ⟨x, z, dx, dz, e1, e2, e3, e4, e5, e6⟩ := hget j hj
    exact ⟨x, z, e1, e2, by simp [List.getD_eq_getElem?_getD, e3, e4], by simp [List.getD_eq_getElem?_getD, e5, e6]⟩
  · have hcount := countP_alternate (fun i => decide (0 ≤ sds.getD i 0)) _ b hlen (fun j hj => by
      obtain ⟨x, z, dx, dz, e1, e2, e3, e4, e5, e6⟩ := hget j hj
      exact ⟨x, z, e1, e2, by simp [List.getD_eq_getElem?_getD, e3, e4], by simp [List.getD_eq_getElem?_getD, e5, e6]⟩)
    have hsum := List.length_eq_countP_add_countP (fun i => decide (0 ≤ sds.getD i 0)) (l := (r.drop (2 * b * k)).take (2 * b))
    rw [hlen, hcount] at hsum
    have e : ((r.drop (2 * b * k)).take (2 * b)).countP (fun i => decide (sds.getD i 0 < 0))
        = ((r.drop (2 * b * k)).take (2 * b)).countP (fun i => decide ¬ decide (0 ≤ sds.getD i 0) = true) := by
      apply List.countP_congr
      intro i _
      simp
    rw [e]; omega

/-- C41 (rejected uses). Batch size 0, an unknown mode (whatever the shuffles) and an empty side end in the exceptions named here. -/
theorem C41_errors (sds : List Int) (mode : String) (b : Nat) :
    balancedInit sds 0 mode = .error .zeroDivisionError ∧
    (0 < b → ∃ s, balancedInit sds b mode = .ok s ∧
      (mode ∉ ["max", "min", "source", "target"] → balancedLen s = .error .attributeError ∧
        (0 < nSource sds → 0 < nTarget sds → ∀ permP permN, balancedIter s permP permN = .error .attributeError)) ∧
      ((nSource sds = 0 ∨ nTarget sds = 0) → ∀ permP permN, balancedIter s permP permN = .error .valueError)) := by
  constructor
  · rfl
  · intro hb
    have e1 := length_pos_idx sds
    have e2 := length_neg_idx sds
    unfold balancedInit fullBatches
    simp only [if_neg hb.ne', ok_bind]
    refine ⟨_, rfl, ?_, ?_⟩
    · intro hm
      simp only [List.mem_cons, List.not_mem_nil, or_false, not_or] at hm
      obtain ⟨m1, m2, m3, m4⟩ := hm
      refine ⟨by simp [balancedLen, m1, m2, m3, m4], fun h1 h2 permP permN => ?_⟩
      unfold balancedIter
      rw [if_neg]
      · simp [m1, m2, m3, m4]
      · rintro (h | h)
        · simp only at h; rw [h] at e1; simp at e1; omega
        · simp only at h; rw [h] at e2; simp at e2; omega
    · intro h permP permN
      unfold balancedIter
      rw [if_pos]
      rcases h with h | h
      · left; simp only; apply List.length_eq_zero_iff.1; omega
      · right; simp only; apply List.length_eq_zero_iff.1; omega

private def demoPerm : Nat → List Nat := fun k => if k % 2 = 0 then [1, 0] else [0, 1]
private def demoPerm3 : Nat → List Nat := fun _ => [2, 0, 1]

/-- Two sources, three targets, batch size 1: three pairs; one source is drawn twice, every target once. -/
example : (balancedInit [1, -2, -2, 1, -2] 1 "max" >>= fun s => balancedIter s demoPerm demoPerm3) = .ok [3, 4, 0, 1, 0, 2] := by
  decide +kernel
example : (balancedInit [1, -2, -2, 1, -2] 2 "max" >>= balancedLen) = .ok 4 := by decide +kernel
example : (balancedInit [1, -2, -2, 1, -2] 2 "both" >>= balancedLen) = .error .attributeError := by decide +kernel

/-! ### C42: domain-only sampler -/

theorem onlyLoop_eq (idx : List Nat) (n : Nat) (perm : List Nat) (hn : n ≤ perm.length) (hp : ∀ p ∈ perm, p < idx.length) :
    onlyLoop idx n perm = .ok ((perm.take n).map (fun p => idx.getD p 0)) := by
  induction n generalizing perm with
  | zero => simp [onlyLoop]
  | succ n ih =>
    cases perm with
    | nil => simp at hn
    | cons p ps =>
      unfold onlyLoop
      have h := hp p (by simp)
      have g : getIdx idx p = .ok (idx.getD p 0) := by
        unfold getIdx; rw [List.getD_eq_getElem?_getD, List.getElem?_eq_getElem h]; rfl
      rw [g]; simp only [ok_bind]
      rw [ih ps (by simpa using hn) (fun q hq => hp q (by simp [hq]))]
      rfl

/-- Membership of a domain label in the requested side. -/
def Spec.OnSide (used : String) (d : Int) : Prop := (used = "source" ∧ 0 ≤ d) ∨ (used = "target" ∧ d < 0)

/-- The size of the requested side. -/
def Spec.sideSize (used : String) (sds : List Int) : Nat := if used = "source" then nSource sds else nTarget sds

/-- C42. For every batch size `b ≥ 1` and a non-empty requested side: the sampler gives, for all shuffles, exactly `len()` different
indices of that side, and `len()` is the largest multiple of `b` not above the size of the side. -/
theorem C42_only (sds : List Int) (b : Nat) (used : String) (perm : List Nat) (hb : 0 < b) (hu : used = "source" ∨ used = "target")
    (hp : perm.Perm (List.range (sideSize used sds))) (hne : 0 < sideSize used sds) :
    ∃ s r, onlyInit sds b used = .ok s ∧ onlyIter s perm = .ok r ∧ r.length = s.num ∧ r.Nodup ∧
      (∀ i ∈ r, ∃ d, sds[i]? = some d ∧ OnSide used d) ∧
      b ∣ s.num ∧ s.num ≤ sideSize used sds ∧ sideSize used sds < s.num + b := by
  have main : ∀ (p : Int → Bool) (hps : ∀ d, p d = true ↔ OnSide used d) (idx : List Nat) (hidx : idx = flatnonzero (sds.map p))
      (hlen : idx.length = sideSize used sds) (hinit : onlyInit sds b used = (do
        let n ← fullBatches idx.length b
        return ⟨idx, n⟩)), ∃ s r, onlyInit sds b used = .ok s ∧ onlyIter s perm = .ok r ∧ r.length = s.num ∧ r.Nodup ∧
      (∀ i ∈ r, ∃ d, sds[i]? = some d ∧ OnSide used d) ∧
      b ∣ s.num ∧ s.num ≤ sideSize used sds ∧ sideSize used sds < s.num + b := by
    intro p hps idx hidx hlen hinit
    have hfb : fullBatches idx.length b = .ok (idx.length - idx.length % b) := by
      unfold fullBatches; rw [if_neg hb.ne']
    obtain ⟨-, f1, f2, f3⟩ := fullBatches_ok hfb
    rw [hfb] at hinit
    have hpl : perm.length = sideSize used sds := by rw [hp.length_eq]; simp
    have hlt : ∀ q ∈ perm, q < idx.length := fun q hq => by rw [hlen]; simpa using hp.mem_iff.1 hq
    refine ⟨⟨idx, idx.length - idx.length % b⟩, (perm.take (idx.length - idx.length % b)).map (fun p => idx.getD p 0), hinit, ?_, ?_, ?_, ?_, f1, by rw [← hlen]; exact f2, by rw [← hlen]; exact f3⟩
    · unfold onlyIter
      rw [if_neg (by intro h; simp only at h; rw [h] at hlen; simp at hlen; omega)]
      exact onlyLoop_eq idx _ perm (by simp only; omega) hlt
    · simp only [List.length_map, List.length_take]; omega
    · have hnd : idx.Nodup := hidx ▸ nodup_flatnonzero _
      rw [List.Nodup, List.pairwise_map]
      have hndp : (perm.take (idx.length - idx.length % b)).Nodup :=
        (hp.nodup_iff.2 List.nodup_range).sublist (List.take_sublist _ _)
      apply List.Pairwise.imp_of_mem _ hndp
      intro a c ha hc hac heq
      have h1 := hlt a (List.mem_of_mem_take ha)
      have h2 := hlt c (List.mem_of_mem_take hc)
      rw [List.getD_eq_getElem?_getD, List.getD_eq_getElem?_getD, List.getElem?_eq_getElem h1, List.getElem?_eq_getElem h2] at heq
      exact hac ((List.Nodup.getElem_inj_iff hnd).1 heq)
    · intro i hi
      obtain ⟨q, hq, rfl⟩ := List.mem_map.1 hi
      have h1 := hlt q (List.mem_of_mem_take hq)
      have hm : idx.getD q 0 ∈ flatnonzero (sds.map p) := by
        rw [← hidx, List.getD_eq_getElem?_getD, List.getElem?_eq_getElem h1]; exact List.getElem_mem _
      obtain ⟨d, hd, hpd⟩ := (mem_side_idx sds p _).1 hm
      exact ⟨d, hd, (hps d).1 hpd⟩
  rcases hu with rfl | rfl
  · refine main (fun d => decide (0 ≤ d)) (fun d => by simp [OnSide]) _ rfl (by rw [length_pos_idx]; rfl) rfl
  · refine main (fun d => decide (d < 0)) (fun d => by simp [OnSide]) _ rfl (by rw [length_neg_idx]; rfl) rfl

/-- C42 (rejected uses). Any other `domain_used` raises `ValueError`; iterating over an empty side too; batch size 0 raises
`ZeroDivisionError`. -/
theorem C42_errors (sds : List Int) (b : Nat) (used : String) :
    ((used ≠ "source" ∧ used ≠ "target") → onlyInit sds b used = .error .valueError) ∧
    ((used = "source" ∨ used = "target") → onlyInit sds 0 used = .error .zeroDivisionError) ∧
    (0 < b → (used = "source" ∨ used = "target") → sideSize used sds = 0 →
      ∃ s, onlyInit sds b used = .ok s ∧ s.num = 0 ∧ ∀ perm, onlyIter s perm = .error .valueError) := by
  refine ⟨?_, ?_, ?_⟩
  · rintro ⟨h1, h2⟩
    unfold onlyInit
    rw [if_neg h1, if_neg h2]
    rfl
  · rintro (rfl | rfl) <;> rfl
  · intro hb hu hz
    rcases hu with rfl | rfl
    · have e : flatnonzero (sds.map (fun d => decide (0 ≤ d))) = [] :=
        List.length_eq_zero_iff.1 (by rw [length_pos_idx]; exact hz)
      refine ⟨⟨[], 0⟩, ?_, rfl, fun perm => rfl⟩
      unfold onlyInit fullBatches
      simp [e, hb.ne', ok_bind, pure_ok]
    · have e : flatnonzero (sds.map (fun d => decide (d < 0))) = [] :=
        List.length_eq_zero_iff.1 (by rw [length_neg_idx]; exact hz)
      refine ⟨⟨[], 0⟩, ?_, rfl, fun perm => rfl⟩
      unfold onlyInit fullBatches
      simp [e, hb.ne', ok_bind, pure_ok]

example : (onlyInit [1, -2, -2, 1, -2] 2 "target" >>= fun s => onlyIter s [2, 0, 1]) = .ok [4, 1] := by decide +kernel
example : Spec.sideSize "target" [1, -2, -2, 1, -2] = 3 := by decide +kernel

/-! ### C43: the criterion does not see target labels -/

section Criterion
set_option linter.unusedSectionVars false
variable {K : Type} [Field K] {P D F Y : Type}

/-- C43. For all losses, networks outputs and batches: two label vectors that agree on the source rows give the same loss (or the same
exception) when `train_on_target` is off. -/
theorem C43_target_labels (base : List P → List Y → Py (Loss K)) (adapt : AdaptArgs P D F Y → Py K) (reg : K) (o : Out P D F)
    (y y' : List Y) (hl : y.length = y'.length) (h : sourceRows o.sd y = sourceRows o.sd y') :
    criterion base adapt reg false o y = criterion base adapt reg false o y' := by
  have hsel : boolIndex y (o.sd.map (fun d => decide (0 ≤ d))) = boolIndex y' (o.sd.map (fun d => decide (0 ≤ d))) := by
    unfold boolIndex
    rw [hl, sel_source, sel_source, h]
  unfold criterion
  simp only [hsel, Bool.false_eq_true, if_false]

/-- C43 (value). On a batch with matching lengths the loss is `base(source outputs, source labels) + reg * adapt(…)`, each argument of the
adaptation loss being restricted to the stated side, and only source labels are passed on. -/
theorem C43_value (base : List P → List Y → Py (Loss K)) (adapt : AdaptArgs P D F Y → Py K) (reg : K) (o : Out P D F)
    (y : List Y) (hp : o.yPred.length = o.sd.length) (hy : y.length = o.sd.length)
    (hd : ∀ l, o.domainPred = some l → l.length = o.sd.length) (hf : ∀ l, o.features = some l → l.length = o.sd.length)
    (hi : ∀ l, o.sampleIdx = some l → l.length = o.sd.length) :
    criterion base adapt reg false o y = (do
      let b ← base (sourceRows o.sd o.yPred) (sourceRows o.sd y)
      let a ← adapt ⟨sourceRows o.sd y, sourceRows o.sd o.yPred, targetRows o.sd o.yPred,
        o.domainPred.map (sourceRows o.sd), o.domainPred.map (targetRows o.sd), o.features.map (sourceRows o.sd),
        o.features.map (targetRows o.sd), o.sampleIdx.map (sourceRows o.sd), o.sampleIdx.map (targetRows o.sd)⟩
      return b.plus (reg * a)) := by
  have hsplit : ∀ {γ : Type} (a : Option (List γ)), (∀ l, a = some l → l.length = o.sd.length) →
      splitOpt a (o.sd.map (fun d => decide (0 ≤ d))) = .ok (a.map (sourceRows o.sd), a.map (targetRows o.sd)) := by
    intro γ a ha
    cases a with
    | none => rfl
    | some l =>
      have := ha l rfl
      unfold splitOpt
      simp only
      rw [← tgtMask_eq, boolIndex_ok (by simpa using this), boolIndex_ok (by simpa using this), sel_source, sel_target]
      rfl
  unfold criterion
  simp only [Bool.false_eq_true, if_false]
  rw [hsplit _ hd, hsplit _ hf, hsplit _ hi, ← tgtMask_eq, boolIndex_ok (by simpa using hp), boolIndex_ok (by simpa using hp),
    boolIndex_ok (by simpa using hy), sel_source, sel_target, sel_source]
  rfl

/-- The labels of the target rows do change the loss when `train_on_target` is on. -/
example : ∃ (base : List ℚ → List ℚ → Py (Loss ℚ)) (o : Out ℚ ℚ ℚ),
    criterion base (fun _ => .ok 0) 1 true o [1, 2] ≠ criterion base (fun _ => .ok 0) 1 true o [1, 3] :=
  ⟨fun _ y => .ok (.scalar y.sum), ⟨[0, 0], none, none, [1, -2], none⟩, by decide +kernel⟩
example : criterion (fun p y => .ok (.scalar (p.sum + y.sum))) (fun a => .ok (a.ys.sum + a.yPredT.sum)) (10 : ℚ) false
    (⟨[1, 2, 4], none, some [1, 2, 4], [1, -2, 3], none⟩ : Out ℚ ℚ ℚ) [100, 7, 1000] = .ok (.scalar 12125) := by decide +kernel

/-! ### C77: weighted training loss -/

/-- C77 (what holds). With one loss entry per source row and weights for every row, if no row has domain 0: the training loss is the mean
over the source rows of weight times loss. -/
theorem C77_weighted_partial (l w : List K) (sd : List Int) (hw : w.length = sd.length) (hl : l.length = nSource sd)
    (h0 : ∀ d ∈ sd, d ≠ 0) (hpos : 0 < nSource sd) :
    getLoss (.vec l) (some w) sd = .ok (some ((List.zipWith (· * ·) (sourceRows sd w) l).sum / (nSource sd : K))) := by
  have hm : sd.map (fun d => decide (0 < d)) = sd.map (fun d => decide (0 ≤ d)) := by
    apply List.map_congr_left
    intro d hd
    have := h0 d hd
    rcases lt_trichotomy d 0 with h | h | h
    · simp [not_lt.2 h.le, not_le.2 h]
    · exact absurd h this
    · simp [h, h.le]
  unfold getLoss
  simp only
  rw [hm, boolIndex_ok (by simpa using hw), sel_source]
  simp only [ok_bind]
  have hsl : (sourceRows sd w).length = l.length := by rw [length_sourceRows hw.symm, hl]
  unfold weighted
  simp only [if_pos hsl, ok_bind]
  have hne : List.zipWith (· * ·) (sourceRows sd w) l ≠ [] := by
    intro h
    have := congrArg List.length h
    rw [List.length_zipWith, hsl, hl] at this
    simp at this; omega
  have hlen : (List.zipWith (· * ·) (sourceRows sd w) l).length = nSource sd := by
    rw [List.length_zipWith, hsl, hl, min_self]
  cases hz : List.zipWith (· * ·) (sourceRows sd w) l with
  | nil => exact absurd hz hne
  | cons a t => rw [hz] at hlen; simp only [Loss.mean, hlen]; rfl

/-- C77 (negation: domain 0). The weight mask uses `sample_domain > 0` while domain 0 is a source (and the default domain): with at least
one source of domain 0 and at least two of positive domain, the loss always fails with `RuntimeError`. -/
theorem C77_domain_zero_counterexample (l w : List K) (sd : List Int) (hw : w.length = sd.length) (hl : l.length = nSource sd)
    (h0 : 0 ∈ sd) (h2 : 2 ≤ sd.countP (fun d => decide (0 < d))) :
    getLoss (.vec l) (some w) sd = .error .runtimeError := by
  have hlen : (sel (sd.map (fun d => decide (0 < d))) w).length = sd.countP (fun d => decide (0 < d)) := by
    rw [length_sel (by simpa using hw.symm), count_map_true]
  have hlt : sd.countP (fun d => decide (0 < d)) < nSource sd := by
    unfold nSource
    clear hlen hl hw h2
    have hle : ∀ t : List Int, t.countP (fun d => decide (0 < d)) ≤ t.countP (fun d => decide (0 ≤ d)) := by
      intro t
      apply List.countP_mono_left
      intro d _ h
      simp only [decide_eq_true_eq] at h ⊢
      omega
    induction sd with
    | nil => simp at h0
    | cons a t ih =>
      rw [List.countP_cons, List.countP_cons]
      rcases List.mem_cons.1 h0 with rfl | h
      · have := hle t
        simp; omega
      · have := ih h
        by_cases ha : 0 < a
        · simp [ha, ha.le]; exact this
        · simp only [ha, decide_false, Bool.false_eq_true, if_false]; split <;> omega
  unfold getLoss
  simp only
  rw [boolIndex_ok (by simpa using hw)]
  simp only [ok_bind]
  generalize hws : sel (sd.map (fun d => decide (0 < d))) w = ws at hlen
  unfold weighted
  simp only
  rw [if_neg (by omega)]
  match ws, l, hlen, hl with
  | [], _, hlen, _ => simp at hlen; omega
  | [_], _, hlen, _ => simp at hlen; omega
  | _ :: _ :: _, [], _, hl => simp at hl; omega
  | _ :: _ :: _, [_], _, hl => simp at hl; omega
  | _ :: _ :: _, _ :: _ :: _, _, _ => rfl

/-- C77 (negation: silent reuse of one weight). With exactly one source of positive domain its weight is applied to all source rows. -/
theorem C77_broadcast_counterexample :
    getLoss (.vec [1, 1, 1]) (some [5, 7, 100, 9]) [0, 1, 0, -2] = .ok (some (7 : ℚ)) ∧
      (List.zipWith (· * ·) (sourceRows [0, 1, 0, -2] [5, 7, 100, 9]) [1, 1, 1]).sum / 3 = (112 / 3 : ℚ) := by
  constructor <;> decide +kernel

/-- C77 (default domain). All rows in the default domain 0 and more than one row: no weighted training is possible. -/
theorem C77_default_domain (l w : List K) (n : Nat) (hw : w.length = n) (hl : l.length = n) (hn : 2 ≤ n) :
    getLoss (.vec l) (some w) (List.replicate n 0) = .error .runtimeError := by
  unfold getLoss
  simp only
  rw [boolIndex_ok (by simpa using hw)]
  simp only [ok_bind]
  have hs : sel ((List.replicate n (0 : Int)).map (fun d => decide (0 < d))) w = [] := by
    apply List.length_eq_zero_iff.1
    rw [length_sel (by simpa using hw.symm), count_map_true]
    simp
  rw [hs]
  unfold weighted
  simp only [List.length_nil]
  rw [if_neg (by omega)]
  match l, hl with
  | [], hl => simp at hl; omega
  | [_], hl => simp at hl; omega
  | _ :: _ :: _, _ => rfl

/-- C77 (reduced losses). A reduced loss is rejected as soon as two rows of positive domain carry weights, and left as it is without
weights. -/
theorem C77_scalar (v : K) (w : List K) (sd : List Int) (hw : w.length = sd.length) :
    getLoss (.scalar v) none sd = .ok (some v) ∧
    (2 ≤ sd.countP (fun d => decide (0 < d)) → getLoss (.scalar v) (some w) sd = .error .valueError) ∧
    (∀ (i : Nat) (d : Int) (a : K), sd.countP (fun d => decide (0 < d)) = 1 → sd[i]? = some d → 0 < d → w[i]? = some a → getLoss (.scalar v) (some w) sd = .ok (some (a * v))) ∧
    (sd.countP (fun d => decide (0 < d)) = 0 → getLoss (.scalar v) (some w) sd = .ok none) := by
  have hlen : (sel (sd.map (fun d => decide (0 < d))) w).length = sd.countP (fun d => decide (0 < d)) := by
    rw [length_sel (by simpa using hw.symm), count_map_true]
  refine ⟨rfl, fun h => ?_, fun i d a h hd hpos ha => ?_, fun h => ?_⟩
  · unfold getLoss
    simp only
    rw [boolIndex_ok (by simpa using hw)]
    simp only [ok_bind]
    rw [if_pos (by omega)]
  · unfold getLoss
    simp only
    rw [boolIndex_ok (by simpa using hw)]
    simp only [ok_bind]
    rw [if_neg (by omega)]
    have hmem : a ∈ sel (sd.map (fun d => decide (0 < d))) w := by
      clear hlen h
      induction sd generalizing w i with
      | nil => simp at hd
      | cons d' sd ih =>
        cases w with
        | nil => simp at ha
        | cons a' w =>
          cases i with
          | zero =>
            simp only [List.getElem?_cons_zero, Option.some.injEq] at hd ha
            subst hd; subst ha
            simp [sel, hpos]
          | succ i =>
            simp only [List.getElem?_cons_succ] at hd ha
            have := ih w (by simpa using hw) i hd ha
            rw [List.map_cons]
            by_cases h' : 0 < d'
            · simp [sel, h', this]
            · simp [sel, h', this]
    obtain ⟨x, hx⟩ := List.length_eq_one_iff.1 (hlen.trans h)
    rw [hx] at hmem ⊢
    obtain rfl : a = x := by simpa using hmem
    simp [weighted, Loss.mean, ok_bind, pure_ok]
  · unfold getLoss
    simp only
    rw [boolIndex_ok (by simpa using hw)]
    simp only [ok_bind]
    rw [if_neg (by omega), List.length_eq_zero_iff.1 (hlen.trans h)]
    rfl

example : getLoss (.scalar 5) (some [3, 50, 5]) [1, -2, 0] = .ok (some (3 * 5 : ℚ)) :=
  (C77_scalar (5 : ℚ) [3, 50, 5] [1, -2, 0] rfl).2.2.1 0 1 3 (by decide) rfl (by decide) rfl

example : getLoss (.vec [1, 10]) (some [3, 50, 5]) [1, -2, 2] = .ok (some (53 / 2 : ℚ)) := by decide +kernel
example : getLoss (.vec [1, 10, 2]) (some [3, 50, 5, 1]) [1, 0, 2, -1] = (.error .runtimeError : Py (Option ℚ)) := by decide +kernel

end Criterion

end Skada

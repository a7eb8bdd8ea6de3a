/-
Helper lemmas about the samplers of the deep module.
-/
import Verif.Model.Deep
import Verif.Lemmas.SelfLabel

namespace Skada
open Np Deep

/-- The shuffles from number `k` on, `r` of them, one after the other. -/
def shuffles (perm : Nat → List Nat) (k r : Nat) : List Nat := (List.range r).flatMap (fun i => perm (k + i))

theorem shuffles_succ (perm : Nat → List Nat) (k r : Nat) : shuffles perm k (r + 1) = perm k ++ shuffles perm (k + 1) r := by
  unfold shuffles
  rw [List.range_succ_eq_map, List.flatMap_cons, List.flatMap_map]
  congr 1
  apply List.flatMap_congr
  intro i _
  rw [Nat.succ_eq_add_one]
  congr 1
  omega

theorem length_shuffles {perm : Nat → List Nat} {n : Nat} (h : ∀ k, (perm k).length = n) (k r : Nat) :
    (shuffles perm k r).length = r * n := by
  induction r generalizing k with
  | zero => simp [shuffles]
  | succ r ih => rw [shuffles_succ, List.length_append, h, ih]; ring

theorem mem_shuffles {perm : Nat → List Nat} {n : Nat} (h : ∀ k, (perm k).Perm (List.range n)) {k r p : Nat}
    (hp : p ∈ shuffles perm k r) : p < n := by
  unfold shuffles at hp
  rw [List.mem_flatMap] at hp
  obtain ⟨i, -, hi⟩ := hp
  simpa using (h (k + i)).mem_iff.1 hi

theorem take_shuffles {perm : Nat → List Nat} {n : Nat} (h : ∀ k, (perm k).length = n) (q : Nat) (hq : q < n) :
    ∀ (a r k : Nat), a < r → (shuffles perm k r).take (a * n + q) = shuffles perm k a ++ (perm (k + a)).take q := by
  intro a
  induction a with
  | zero =>
    intro r k hr
    obtain ⟨r, rfl⟩ : ∃ r', r = r' + 1 := ⟨r - 1, by omega⟩
    rw [shuffles_succ, List.take_append_of_le_length (by rw [h]; omega)]
    simp [shuffles]
  | succ a ih =>
    intro r k hr
    obtain ⟨r, rfl⟩ : ∃ r', r = r' + 1 := ⟨r - 1, by omega⟩
    rw [shuffles_succ, List.take_append, h, List.take_of_length_le (by rw [h, Nat.succ_mul]; omega)]
    have e : (a + 1) * n + q - n = a * n + q := by rw [Nat.succ_mul]; omega
    rw [e, ih r (k + 1) (by omega), shuffles_succ, List.append_assoc]
    congr 3
    congr 1
    omega

theorem count_shuffles {perm : Nat → List Nat} {n v : Nat} (h : ∀ k, (perm k).Perm (List.range n)) (hv : v < n) (k r : Nat) :
    (shuffles perm k r).count v = r := by
  induction r generalizing k with
  | zero => simp [shuffles]
  | succ r ih =>
    rw [shuffles_succ, List.count_append, ih, (h k).count_eq, List.count_eq_one_of_mem List.nodup_range (by simpa using hv)]
    omega

/-- The first `m` draws: every position comes up `m / n` times or once more. -/
theorem count_draws {perm : Nat → List Nat} {n v m r k : Nat} (h : ∀ k, (perm k).Perm (List.range n)) (hv : v < n)
    (hm : m < r * n) :
    m / n ≤ ((shuffles perm k r).take m).count v ∧ ((shuffles perm k r).take m).count v ≤ (m + n - 1) / n := by
  have hn : 0 < n := by omega
  have hl : ∀ k, (perm k).length = n := fun k => by rw [(h k).length_eq]; simp
  have ha : m / n < r := by rw [Nat.div_lt_iff_lt_mul hn]; exact hm
  have hsplit : m = m / n * n + m % n := by rw [Nat.mul_comm]; exact (Nat.div_add_mod m n).symm
  have hmod := Nat.mod_lt m hn
  have := take_shuffles hl (m % n) hmod (m / n) r k ha
  rw [← hsplit] at this
  rw [this, List.count_append, count_shuffles h hv]
  have hnd : (perm (k + m / n)).Nodup := (h _).nodup_iff.2 List.nodup_range
  have hc : ((perm (k + m / n)).take (m % n)).count v ≤ 1 :=
    List.nodup_iff_count_le_one.1 (hnd.sublist (List.take_sublist _ _)) v
  refine ⟨by omega, ?_⟩
  by_cases h0 : m % n = 0
  · rw [h0]
    simp only [List.take_zero, List.count_nil, add_zero]
    exact Nat.div_le_div_right (by omega)
  · have : m / n + 1 ≤ (m + n - 1) / n := by
      rw [Nat.le_div_iff_mul_le hn, Nat.add_mul, Nat.one_mul]
      have h1 := hsplit
      generalize m / n * n = t at *
      omega
    omega

/-- Two sequences drawn alternately. -/
def interleave : List Nat → List Nat → List Nat
  | a :: as, b :: bs => a :: b :: interleave as bs
  | _, _ => []

theorem next_stream (perm : Nat → List Nat) (c : Cursor) (hne : ∀ k, perm k ≠ []) (r : Nat) (x : Nat) (S : List Nat)
    (h : c.rest ++ shuffles perm c.started r = x :: S) :
    ∃ c' r', c.next perm = .ok (x, c') ∧ c'.rest ++ shuffles perm c'.started r' = S := by
  unfold Cursor.next
  cases hrest : c.rest with
  | cons p ps =>
    rw [hrest, List.cons_append] at h
    injection h with h1 h2
    subst h1
    exact ⟨⟨ps, c.started⟩, r, rfl, h2⟩
  | nil =>
    rw [hrest, List.nil_append] at h
    cases r with
    | zero => simp [shuffles] at h
    | succ r =>
      rw [shuffles_succ] at h
      cases hp : perm c.started with
      | nil => exact absurd hp (hne _)
      | cons p ps =>
        rw [hp, List.cons_append] at h
        injection h with h1 h2
        subst h1
        exact ⟨⟨ps, c.started + 1⟩, r, by simp only, h2⟩

theorem balancedLoop_eq (s : Balanced) (permP permN : Nat → List Nat) (hP : ∀ k, permP k ≠ []) (hN : ∀ k, permN k ≠ [])
    (n : Nat) (cp cn : Cursor) (rp rn : Nat) (SP SN : List Nat) (h1 : cp.rest ++ shuffles permP cp.started rp = SP)
    (h2 : cn.rest ++ shuffles permN cn.started rn = SN) (l1 : n ≤ SP.length) (l2 : n ≤ SN.length)
    (m1 : ∀ p ∈ SP, p < s.pos.length) (m2 : ∀ p ∈ SN, p < s.neg.length) :
    balancedLoop s permP permN n cp cn =
      .ok (interleave ((SP.take n).map (fun p => s.pos.getD p 0)) ((SN.take n).map (fun p => s.neg.getD p 0))) := by
  induction n generalizing cp cn rp rn SP SN with
  | zero => rfl
  | succ n ih =>
    cases SP with
    | nil => simp at l1
    | cons x SP =>
      cases SN with
      | nil => simp at l2
      | cons z SN =>
        obtain ⟨cp', rp', e1, f1⟩ := next_stream permP cp hP rp x SP h1
        obtain ⟨cn', rn', e2, f2⟩ := next_stream permN cn hN rn z SN h2
        unfold balancedLoop
        rw [e1]; simp only [ok_bind]
        have hx := m1 x (by simp)
        have hz := m2 z (by simp)
        have g1 : getIdx s.pos x = .ok (s.pos.getD x 0) := by
          unfold getIdx; rw [List.getD_eq_getElem?_getD, List.getElem?_eq_getElem hx]; rfl
        have g2 : getIdx s.neg z = .ok (s.neg.getD z 0) := by
          unfold getIdx; rw [List.getD_eq_getElem?_getD, List.getElem?_eq_getElem hz]; rfl
        rw [g1]; simp only [ok_bind]
        rw [e2]; simp only [ok_bind]
        rw [g2]; simp only [ok_bind]
        rw [ih cp' cn' rp' rn' SP SN f1 f2 (by simpa using l1) (by simpa using l2) (fun p hp => m1 p (by simp [hp]))
          (fun p hp => m2 p (by simp [hp]))]
        rfl

theorem interleave_get {A B : List Nat} (hl : A.length = B.length) (j : Nat) :
    (interleave A B)[2 * j]? = A[j]? ∧ (interleave A B)[2 * j + 1]? = B[j]? := by
  induction A generalizing B j with
  | nil =>
    cases B with
    | nil => simp [interleave]
    | cons b B => simp at hl
  | cons a A ih =>
    cases B with
    | nil => simp at hl
    | cons b B =>
      cases j with
      | zero => simp [interleave]
      | succ j =>
        have := ih (B := B) (by simpa using hl) j
        simp only [interleave]
        rw [show 2 * (j + 1) = 2 * j + 1 + 1 by ring, show 2 * j + 1 + 1 + 1 = (2 * j + 1) + 1 + 1 by ring]
        simpa using this

theorem interleave_length {A B : List Nat} (hl : A.length = B.length) : (interleave A B).length = 2 * A.length := by
  induction A generalizing B with
  | nil =>
    cases B with
    | nil => rfl
    | cons b B => simp at hl
  | cons a A ih =>
    cases B with
    | nil => simp at hl
    | cons b B =>
      simp only [interleave, List.length_cons]
      rw [ih (by simpa using hl)]
      ring

theorem interleave_count {A B : List Nat} (hl : A.length = B.length) (v : Nat) :
    (interleave A B).count v = A.count v + B.count v := by
  induction A generalizing B with
  | nil =>
    cases B with
    | nil => rfl
    | cons b B => simp at hl
  | cons a A ih =>
    cases B with
    | nil => simp at hl
    | cons b B =>
      simp only [interleave, List.count_cons]
      rw [ih (by simpa using hl)]
      omega

theorem count_map_getD {l : List Nat} (hnd : l.Nodup) {D : List Nat} (hD : ∀ p ∈ D, p < l.length) {p v : Nat}
    (hp : l[p]? = some v) : (D.map (fun q => l.getD q 0)).count v = D.count p := by
  induction D with
  | nil => rfl
  | cons q D ih =>
    rw [List.map_cons, List.count_cons, List.count_cons, ih (fun p h => hD p (by simp [h]))]
    congr 1
    have hq := hD q (by simp)
    have hpl : p < l.length := by
      by_contra hc; rw [List.getElem?_eq_none (by omega)] at hp; simp at hp
    have e : l.getD q 0 = l[q] := by rw [List.getD_eq_getElem?_getD, List.getElem?_eq_getElem hq]; rfl
    have ev : l[p] = v := by rw [List.getElem?_eq_getElem hpl] at hp; exact Option.some.inj hp
    rw [e, ← ev]
    by_cases hqp : q = p
    · subst hqp; simp
    · have : l[q] ≠ l[p] := fun h => hqp ((List.Nodup.getElem_inj_iff hnd).1 h)
      simp [this, hqp]

theorem fullBatches_ok {n b m : Nat} (h : fullBatches n b = .ok m) : 0 < b ∧ b ∣ m ∧ m ≤ n ∧ n < m + b := by
  unfold fullBatches at h
  split at h
  · simp at h
  · rename_i hb
    injection h with h
    have hb' : 0 < b := Nat.pos_of_ne_zero hb
    have := Nat.mod_lt n hb'
    have hle := Nat.mod_le n b
    refine ⟨hb', ?_, by omega, by omega⟩
    rw [← h]
    exact Nat.dvd_sub_mod n

end Skada

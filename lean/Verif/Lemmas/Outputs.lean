import Verif.Model.Outputs
import Verif.Lemmas.Np

namespace Skada
open Np

variable {α β γ : Type} [Cell α] [Cell β] [Cell γ]

theorem putAll_append {δ : Type _} (out : List δ) (w1 w2 : List (Nat × δ)) :
    putAll out (w1 ++ w2) = putAll (putAll out w1) w2 := by
  induction w1 generalizing out with
  | nil => rfl
  | cons p w1 ih => simp [putAll, ih]

/-- All writes of a list of domain outputs. -/
def writes (l : List (List Nat × NArr α)) : List (Nat × α) := l.flatMap (fun p => p.1.zip p.2.rows)

theorem writes_append (l1 l2 : List (List Nat × NArr α)) : writes (l1 ++ l2) = writes l1 ++ writes l2 := by
  simp [writes]

/-- The side conditions under which writing one domain output succeeds without conversion. -/
structure Fits (n : Nat) (dt : DType) (tl : List Nat) (idx : List Nat) (v : NArr α) : Prop where
  lt : ∀ i ∈ idx, i < n
  len : v.rows.length = idx.length
  dtype : v.dtype = dt
  tail : v.tail = tl
  wf : ∀ r ∈ v.rows, Cell.cast dt r = r

theorem scatter_ok {n dt tl idx} {v : NArr α} (h : Fits n dt tl idx v) {rows : List α} (hr : rows.length = n) :
    scatter ⟨dt, tl, rows⟩ idx v = .ok ⟨dt, tl, putAll rows (idx.zip v.rows)⟩ := by
  have hmap : v.rows.map (Cell.cast dt) = v.rows := by
    have := List.map_congr_left (f := Cell.cast dt) (g := id) h.wf
    simpa using this
  unfold scatter
  simp only [h.tail, ne_eq, not_true_eq_false, if_false, hmap]
  rw [idxAssign_ok (by rw [hr]; exact h.lt) h.len]

theorem scatterAll_ok {n dt tl} {l : List (List Nat × NArr α)} (h : ∀ p ∈ l, Fits n dt tl p.1 p.2)
    {rows : List α} (hr : rows.length = n) :
    scatterAll ⟨dt, tl, rows⟩ l = .ok ⟨dt, tl, putAll rows (writes l)⟩ := by
  induction l generalizing rows with
  | nil => rfl
  | cons p l ih =>
    obtain ⟨idx, v⟩ := p
    unfold scatterAll
    rw [scatter_ok (h (idx, v) (by simp)) hr]
    simp only
    rw [ih (fun q hq => h q (by simp [hq])) (by rw [length_putAll, hr]), ← putAll_append]
    rfl

/-- The accumulator after the writes `l`. -/
def Rep (n : Nat) (dt : DType) (tl : List Nat) (l : List (List Nat × NArr α)) : Option (NArr α) :=
  if l = [] then none else some ⟨dt, tl, putAll (List.replicate n (Cell.zero tl)) (writes l)⟩

theorem accScatter_rep {n dt tl idx} {v : NArr α} (h : Fits n dt tl idx v) (l : List (List Nat × NArr α)) :
    accScatter n (Rep n dt tl l) idx v = .ok (Rep n dt tl (l ++ [(idx, v)])) := by
  have hz : (Rep n dt tl l).getD (zerosFor n v) =
      ⟨dt, tl, putAll (List.replicate n (Cell.zero tl)) (writes l)⟩ := by
    unfold Rep
    by_cases hl : l = []
    · subst hl; simp [zerosFor, h.dtype, h.tail, writes, putAll]
    · simp [hl]
  unfold accScatter
  rw [hz, scatter_ok h (by simp [length_putAll]), ← putAll_append]
  simp [Rep, writes]

theorem accParam_rep {n idx} (pd : String → DType) (pt : String → List Nat) {k : String} {v : NArr γ}
    (h : Fits n (pd k) (pt k) idx v) (hist : String → List (List Nat × NArr γ)) (acc : List (String × NArr γ))
    (hacc : ∀ k', acc.lookup k' = Rep n (pd k') (pt k') (hist k')) :
    ∃ acc', accParam n idx acc (k, v) = .ok acc' ∧
      acc'.lookup k = Rep n (pd k) (pt k) (hist k ++ [(idx, v)]) ∧
      ∀ k', k' ≠ k → acc'.lookup k' = acc.lookup k' := by
  have hk := hacc k
  have hs := accScatter_rep h (hist k)
  rw [← hk] at hs
  clear hacc hk
  induction acc with
  | nil =>
    simp only [List.lookup_nil, accScatter, Option.getD_none] at hs
    unfold accParam
    cases hz : scatter (zerosFor n v) idx v with
    | error e => rw [hz] at hs; cases hs
    | ok o =>
      rw [hz] at hs
      simp only [Except.ok.injEq] at hs
      refine ⟨[(k, o)], rfl, by simp [hs], ?_⟩
      intro k' hk'
      simp [List.lookup_cons, beq_false_of_ne hk']
  | cons p acc ih =>
    obtain ⟨k0, a⟩ := p
    unfold accParam
    by_cases hkk : k0 = k
    · subst hkk
      simp only [List.lookup_cons_self, accScatter, Option.getD_some] at hs
      cases hz : scatter a idx v with
      | error e => rw [hz] at hs; cases hs
      | ok o =>
        rw [hz] at hs
        simp only [Except.ok.injEq] at hs
        refine ⟨(k0, o) :: acc, by simp, by simp [hs], ?_⟩
        intro k' hk'
        simp [List.lookup_cons, beq_false_of_ne hk']
    · have hb : (k == k0) = false := by simpa using fun h => hkk h.symm
      rw [List.lookup_cons, hb] at hs
      obtain ⟨acc', h1, h2, h3⟩ := ih hs
      refine ⟨(k0, a) :: acc', by simp [hkk, h1], ?_, ?_⟩
      · rw [List.lookup_cons, hb]; exact h2
      · intro k' hk'
        rw [List.lookup_cons, List.lookup_cons]
        by_cases hb2 : (k' == k0) = true
        · rw [hb2]
        · rw [Bool.not_eq_true] at hb2
          rw [hb2]; exact h3 k' hk'

/-- The history of parameter `k` after one more domain with parameters `ps`. -/
def pushParam (idx : List Nat) (ps : List (String × NArr γ)) (hist : String → List (List Nat × NArr γ)) :
    String → List (List Nat × NArr γ) :=
  fun k => match ps.lookup k with
    | none => hist k
    | some v => hist k ++ [(idx, v)]

theorem accParams_rep {n idx} (pd : String → DType) (pt : String → List Nat) (ps : List (String × NArr γ))
    (hnd : (ps.map Prod.fst).Nodup)
    (h : ∀ kv ∈ ps, Fits n (pd kv.1) (pt kv.1) idx kv.2)
    (hist : String → List (List Nat × NArr γ)) (acc : List (String × NArr γ))
    (hacc : ∀ k, acc.lookup k = Rep n (pd k) (pt k) (hist k)) :
    ∃ acc', accParams n idx acc ps = .ok acc' ∧
      ∀ k, acc'.lookup k = Rep n (pd k) (pt k) (pushParam idx ps hist k) := by
  induction ps generalizing acc hist with
  | nil => exact ⟨acc, rfl, by simpa [pushParam] using hacc⟩
  | cons p ps ih =>
    obtain ⟨k0, v⟩ := p
    obtain ⟨acc1, h1, h2, h3⟩ := accParam_rep pd pt (h (k0, v) (by simp)) hist acc hacc
    simp only [List.map_cons, List.nodup_cons] at hnd
    obtain ⟨acc2, h4, h5⟩ := ih hnd.2 (fun kv hkv => h kv (by simp [hkv]))
      (fun k => if k = k0 then hist k0 ++ [(idx, v)] else hist k) acc1 (by
        intro k
        by_cases hk : k = k0
        · subst hk; simpa using h2
        · simp only [hk, if_false]; rw [h3 k hk, hacc k])
    refine ⟨acc2, by simp [accParams, h1, h4], ?_⟩
    intro k
    rw [h5 k]
    congr 1
    unfold pushParam
    by_cases hk : k = k0
    · subst hk
      have : ps.lookup k = none := by
        rw [List.lookup_eq_none_iff]
        intro q hq
        rw [bne_iff_ne]
        rintro rfl
        exact hnd.1 (List.mem_map.2 ⟨q, hq, rfl⟩)
      simp [this]
    · have hb : (k == k0) = false := by simpa using hk
      rw [List.lookup_cons, hb]
      simp [hk]

end Skada

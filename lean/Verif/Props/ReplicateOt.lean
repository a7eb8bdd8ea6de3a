/-
C142, continued: exact optimal transport on data in which the samples are listed several times.
-/
import Mathlib.Logic.Equiv.Fin.Basic
import Mathlib.Algebra.BigOperators.Fin
import Verif.Props.ReplicateMonge

set_option linter.unusedSectionVars false

namespace Skada
open Np Spec Map

namespace Copies
variable {α : Type}

theorem getElem_mod (l : List α) : ∀ (k i : Nat) (h : i < (copies k l).length) (h' : i % l.length < l.length), (copies k l)[i] = l[i % l.length]
  | 0, i, h, _ => by simp [Copies.zero] at h
  | k + 1, i, h, h' => by
    by_cases hi : i < l.length
    · have : (copies (k + 1) l)[i] = (l ++ copies k l)[i]'(by rw [← Copies.succ]; exact h) := by simp only [Copies.succ]
      rw [this, List.getElem_append_left hi]
      simp only [Nat.mod_eq_of_lt hi]
    · have : (copies (k + 1) l)[i] = (l ++ copies k l)[i]'(by rw [← Copies.succ]; exact h) := by simp only [Copies.succ]
      rw [this, List.getElem_append_right (by omega)]
      have hm : (i - l.length) % l.length = i % l.length := (Nat.mod_eq_sub_mod (by omega)).symm
      rw [getElem_mod l k (i - l.length) (by rw [Copies.length] at h ⊢; rw [Nat.succ_mul] at h; omega) (by rw [hm]; exact h')]
      simp only [hm]

theorem pos_len {a i : Nat} {S : List α} (h : i < (copies a S).length) : 0 < S.length := by
  rw [Copies.length] at h
  rcases Nat.eq_zero_or_pos S.length with h0 | h0
  · rw [h0] at h; simp at h
  · exact h0

/-- Position `s` of copy `k`. -/
def pos (a : Nat) (S : List α) : Fin a × Fin S.length ≃ Fin (copies a S).length :=
  finProdFinEquiv.trans (finCongr (Copies.length a S).symm)

theorem pos_val (a : Nat) (S : List α) (k : Fin a) (s : Fin S.length) : (pos a S (k, s)).val = k.val * S.length + s.val := by
  simp [pos, finProdFinEquiv, Nat.mul_comm, Nat.add_comm]

theorem pos_get (a : Nat) (S : List α) (k : Fin a) (s : Fin S.length) : (copies a S)[pos a S (k, s)] = S[s] := by
  have hm : (pos a S (k, s)).val % S.length = s.val := by
    rw [pos_val, Nat.mul_add_mod_self_right, Nat.mod_eq_of_lt s.isLt]
  show (copies a S)[(pos a S (k, s)).val] = S[s.val]
  rw [getElem_mod S a _ _ (by rw [hm]; exact s.isLt)]
  simp only [hm]

theorem sum_pos {M : Type} [AddCommMonoid M] (a : Nat) (S : List α) (f : Fin (copies a S).length → M) : ∑ i, f i = ∑ s, ∑ k, f (pos a S (k, s)) := by
  rw [← (pos a S).sum_comp f, Fintype.sum_prod_type, Finset.sum_comm]

end Copies

variable {K : Type} [Field K] [LinearOrder K] [IsStrictOrderedRing K] {α : Type} {d : Nat} {β : Type}

/-- The plan between `a` copies of `S` and `b` copies of `T` that sends the mass of `P` in equal parts between all copies of two samples. -/
def Spec.spreadPlan (a b : Nat) (S T : List α) (P : Fin S.length → Fin T.length → K) (i : Fin (copies a S).length) (j : Fin (copies b T).length) : K :=
  P ⟨i.val % S.length, Nat.mod_lt _ (Copies.pos_len i.isLt)⟩
    ⟨j.val % T.length, Nat.mod_lt _ (Copies.pos_len j.isLt)⟩ / ((a : K) * (b : K))

namespace Copies
open OT

/-- What all copies of a sample send to all copies of another. -/
def foldPlan (a b : Nat) (S T : List α) (Q : Fin (copies a S).length → Fin (copies b T).length → K) (s : Fin S.length) (t : Fin T.length) : K :=
  ∑ k, ∑ l, Q (pos a S (k, s)) (pos b T (l, t))

theorem spread_pos (a b : Nat) (S T : List α) (P : Fin S.length → Fin T.length → K) (k : Fin a) (s : Fin S.length) (l : Fin b) (t : Fin T.length) :
    spreadPlan a b S T P (pos a S (k, s)) (pos b T (l, t)) = P s t / ((a : K) * (b : K)) := by
  unfold spreadPlan
  congr 2
  · apply Fin.ext
    simp only [pos_val, Nat.mul_add_mod_self_right, Nat.mod_eq_of_lt s.isLt]
  · apply Fin.ext
    simp only [pos_val, Nat.mul_add_mod_self_right, Nat.mod_eq_of_lt t.isLt]

theorem fold_spread {a b : Nat} (ha : 0 < a) (hb : 0 < b) (S T : List α) (P : Fin S.length → Fin T.length → K) :
    foldPlan a b S T (spreadPlan a b S T P) = P := by
  have ha' : (a : K) ≠ 0 := by exact_mod_cast ha.ne'
  have hb' : (b : K) ≠ 0 := by exact_mod_cast hb.ne'
  funext s t
  simp only [foldPlan, spread_pos, Finset.sum_const, Finset.card_univ, Fintype.card_fin, nsmul_eq_mul]
  field_simp

theorem cost_fold (c : α → α → K) (a b : Nat) (S T : List α) (Q : Fin (copies a S).length → Fin (copies b T).length → K) :
    ∑ i, ∑ j, c (copies a S)[i] (copies b T)[j] * Q i j = ∑ s, ∑ t, c S[s] T[t] * foldPlan a b S T Q s t := by
  rw [sum_pos]
  refine Finset.sum_congr rfl fun s _ => ?_
  simp only [sum_pos b T, pos_get, foldPlan, Finset.mul_sum]
  rw [Finset.sum_comm]

theorem coupling_fold {a b : Nat} (ha : 0 < a) (hb : 0 < b) (S T : List α) (Q : Fin (copies a S).length → Fin (copies b T).length → K)
    (hQ : Coupling (fun _ => 1 / ((copies a S).length : K)) (fun _ => 1 / ((copies b T).length : K)) Q) :
    Coupling (fun _ => 1 / (S.length : K)) (fun _ => 1 / (T.length : K)) (foldPlan a b S T Q) := by
  have ha' : (a : K) ≠ 0 := by exact_mod_cast ha.ne'
  have hb' : (b : K) ≠ 0 := by exact_mod_cast hb.ne'
  refine ⟨fun s t => Finset.sum_nonneg fun k _ => Finset.sum_nonneg fun l _ => hQ.nonneg _ _, fun s => ?_, fun t => ?_⟩
  · have h : ∀ k, ∑ t, ∑ l, Q (pos a S (k, s)) (pos b T (l, t)) = 1 / ((a : K) * (S.length : K)) := fun k => by
      rw [← sum_pos b T (fun j => Q (pos a S (k, s)) j), hQ.row, Copies.length, Nat.cast_mul]
    simp only [foldPlan]
    rw [Finset.sum_comm]
    simp only [h, Finset.sum_const, Finset.card_univ, Fintype.card_fin, nsmul_eq_mul]
    field_simp
  · have h : ∀ l, ∑ s, ∑ k, Q (pos a S (k, s)) (pos b T (l, t)) = 1 / ((b : K) * (T.length : K)) := fun l => by
      rw [← sum_pos a S (fun i => Q i (pos b T (l, t))), hQ.col, Copies.length, Nat.cast_mul]
    have e : ∑ s, foldPlan a b S T Q s t = ∑ l, ∑ s, ∑ k, Q (pos a S (k, s)) (pos b T (l, t)) := by
      rw [Finset.sum_comm]
      refine Finset.sum_congr rfl fun s _ => ?_
      rw [foldPlan, Finset.sum_comm]
    rw [e]
    simp only [h, Finset.sum_const, Finset.card_univ, Fintype.card_fin, nsmul_eq_mul]
    field_simp

theorem coupling_spread {a b : Nat} (ha : 0 < a) (hb : 0 < b) (S T : List α) (P : Fin S.length → Fin T.length → K)
    (hP : Coupling (fun _ => 1 / (S.length : K)) (fun _ => 1 / (T.length : K)) P) :
    Coupling (fun _ => 1 / ((copies a S).length : K)) (fun _ => 1 / ((copies b T).length : K)) (spreadPlan a b S T P) := by
  have ha' : (a : K) ≠ 0 := by exact_mod_cast ha.ne'
  have hb' : (b : K) ≠ 0 := by exact_mod_cast hb.ne'
  refine ⟨fun i j => div_nonneg (hP.nonneg _ _) (by positivity), fun i => ?_, fun j => ?_⟩
  · obtain ⟨⟨k, s⟩, rfl⟩ := (pos a S).surjective i
    rw [sum_pos]
    simp only [spread_pos, Finset.sum_const, Finset.card_univ, Fintype.card_fin, nsmul_eq_mul, ← Finset.mul_sum, ← Finset.sum_div, hP.row, Copies.length,
      Nat.cast_mul]
    field_simp
  · obtain ⟨⟨l, t⟩, rfl⟩ := (pos b T).surjective j
    rw [sum_pos]
    simp only [spread_pos, Finset.sum_const, Finset.card_univ, Fintype.card_fin, nsmul_eq_mul, ← Finset.mul_sum, ← Finset.sum_div, hP.col, Copies.length,
      Nat.cast_mul]
    field_simp

theorem best_fold (c : α → α → K) {a b : Nat} (ha : 0 < a) (hb : 0 < b) (S T : List α) (Q : Fin (copies a S).length → Fin (copies b T).length → K)
    (hQ : BestPlan c (copies a S) (copies b T) Q) : BestPlan c S T (foldPlan a b S T Q) := by
  refine ⟨coupling_fold ha hb S T Q hQ.1, fun R hR => ?_⟩
  have := hQ.2 _ (coupling_spread ha hb S T R hR)
  rwa [cost_fold, cost_fold, fold_spread ha hb] at this

theorem best_spread (c : α → α → K) {a b : Nat} (ha : 0 < a) (hb : 0 < b) (S T : List α) (P : Fin S.length → Fin T.length → K)
    (hP : BestPlan c S T P) : BestPlan c (copies a S) (copies b T) (spreadPlan a b S T P) := by
  refine ⟨coupling_spread ha hb S T P hP.1, fun R hR => ?_⟩
  have := hP.2 _ (coupling_fold ha hb S T R hR)
  rwa [cost_fold, cost_fold, fold_spread ha hb]

theorem barycentric_getElem (S T : List (Fin d → K)) (P : Fin S.length → Fin T.length → K) (i : Nat) (h : i < (barycentric S T P).length) (h' : i < S.length)
    (j : Fin d) : (barycentric S T P)[i] j = (∑ t, P ⟨i, h'⟩ t * T[t] j) / ∑ t, P ⟨i, h'⟩ t := by
  have : (barycentric S T P)[i] = fun j => (∑ t, P ⟨i, h'⟩ t * T[t] j) / ∑ t, P ⟨i, h'⟩ t := by simp only [barycentric, List.getElem_ofFn]
  rw [this]

theorem getD_lt {γ : Type} (l : List γ) (x : γ) (i : Nat) (h : i < l.length) : l.getD i x = l[i] := by
  simp [List.getD, h]

/-- The mean of the images of the copies. -/
theorem barycentric_fold {a b : Nat} (ha : 0 < a) (hb : 0 < b) (S T : List (Fin d → K)) (Q : Fin (copies a S).length → Fin (copies b T).length → K)
    (hQ : Coupling (fun _ => 1 / ((copies a S).length : K)) (fun _ => 1 / ((copies b T).length : K)) Q) (s : Fin S.length) (j : Fin d) :
    (∑ k ∈ Finset.range a, (barycentric (copies a S) (copies b T) Q).getD (k * S.length + s) (fun _ => 0) j) / (a : K) =
      (barycentric S T (foldPlan a b S T Q)).getD s (fun _ => 0) j := by
  have ha' : (a : K) ≠ 0 := by exact_mod_cast ha.ne'
  have hl : (barycentric S T (foldPlan a b S T Q)).length = S.length := by simp [barycentric]
  have hl' : (barycentric (copies a S) (copies b T) Q).length = (copies a S).length := by simp [barycentric]
  have hn : (S.length : K) ≠ 0 := by
    have : 0 < S.length := Nat.zero_lt_of_lt s.isLt
    exact_mod_cast this.ne'
  have hr : ((copies a S).length : K) = (a : K) * (S.length : K) := by rw [Copies.length, Nat.cast_mul]
  have e1 : ∀ k : Fin a, (barycentric (copies a S) (copies b T) Q).getD (k.val * S.length + s) (fun _ => 0) j =
      (∑ t, ∑ l, Q (pos a S (k, s)) (pos b T (l, t)) * T[t] j) * ((a : K) * (S.length : K)) := by
    intro k
    have hlt : k.val * S.length + s.val < (copies a S).length := by rw [← pos_val]; exact (pos a S (k, s)).isLt
    rw [getD_lt _ _ _ (by rw [hl']; exact hlt), barycentric_getElem _ _ _ _ _ hlt]
    have hp : (⟨k.val * S.length + s.val, hlt⟩ : Fin (copies a S).length) = pos a S (k, s) := Fin.ext (pos_val a S k s).symm
    rw [hp, hQ.row, hr, sum_pos]
    simp only [pos_get]
    rw [div_div_eq_mul_div, div_one]
  rw [← Fin.sum_univ_eq_sum_range (fun k => (barycentric (copies a S) (copies b T) Q).getD (k * S.length + s) (fun _ => 0) j) a]
  simp only [e1]
  rw [getD_lt _ _ _ (by rw [hl]; exact s.isLt), barycentric_getElem _ _ _ _ _ s.isLt, (coupling_fold ha hb S T Q hQ).row]
  have e2 : ∑ k : Fin a, ∑ t, ∑ l, Q (pos a S (k, s)) (pos b T (l, t)) * T[t] j = ∑ t, foldPlan a b S T Q s t * T[t] j := by
    rw [Finset.sum_comm]
    simp only [foldPlan, Finset.sum_mul]
  have e3 : ∀ v : K, v * ((a : K) * (S.length : K)) / (a : K) = v / (1 / (S.length : K)) := fun v => by field_simp
  rw [← Finset.sum_mul, e2, e3]

/-- Under the spread plan every copy goes where the sample goes. -/
theorem barycentric_spread {a b : Nat} (ha : 0 < a) (hb : 0 < b) (S T : List (Fin d → K)) (P : Fin S.length → Fin T.length → K) :
    barycentric (copies a S) (copies b T) (spreadPlan a b S T P) = copies a (barycentric S T P) := by
  have ha' : (a : K) ≠ 0 := by exact_mod_cast ha.ne'
  have hb' : (b : K) ≠ 0 := by exact_mod_cast hb.ne'
  have hl : (barycentric S T P).length = S.length := by simp [barycentric]
  have hl' : (barycentric (copies a S) (copies b T) (spreadPlan a b S T P)).length = (copies a S).length := by simp [barycentric]
  refine List.ext_getElem (by rw [hl', Copies.length, Copies.length, hl]) fun i h1 h2 => ?_
  obtain ⟨⟨k, s⟩, hks⟩ := (pos a S).surjective ⟨i, by rw [hl'] at h1; exact h1⟩
  have hi : i = k.val * S.length + s.val := by rw [← pos_val, hks]
  have hm : i % (barycentric S T P).length = s.val := by rw [hl, hi, Nat.mul_add_mod_self_right, Nat.mod_eq_of_lt s.isLt]
  rw [getElem_mod _ _ _ h2 (by rw [hm, hl]; exact s.isLt)]
  have hg : (barycentric S T P)[i % (barycentric S T P).length]'(by rw [hm, hl]; exact s.isLt) = (barycentric S T P)[s.val]'(by rw [hl]; exact s.isLt) := by
    congr 1
  funext j
  rw [hg, barycentric_getElem _ _ _ _ _ (by rw [hl'] at h1; exact h1), barycentric_getElem _ _ _ _ _ s.isLt, ← hks, sum_pos, sum_pos]
  simp only [pos_get, spread_pos, Finset.sum_const, Finset.card_univ, Fintype.card_fin, nsmul_eq_mul, div_mul_eq_mul_div, ← Finset.mul_sum, ← Finset.sum_div]
  rw [mul_div_mul_left _ _ hb', div_div_div_cancel_right₀ (mul_ne_zero ha' hb')]

end Copies

/-- **C142, optimal transport, any best plan.**  The source samples are `a` copies of `S`, the target samples `b` copies of `T`, and the transport object
finds a plan of least cost. Then `fit_transform` leaves the target samples, and there is a plan of least cost between `S` and `T` under which every sample
goes to the mean of what `fit_transform` returns for its `a` copies. -/
theorem C142_ot_mapping (plan : ∀ S T : List (Fin d → K), Fin S.length → Fin T.length → K) (c : (Fin d → K) → (Fin d → K) → K)
    (ot : NArr (Fin d → K) → Option (List β) → NArr (Fin d → K) → Option (List β) → Py (NArr (Fin d → K) → Py (NArr (Fin d → K))))
    (hot : ExactTransport plan ot) (X : NArr (Fin d → K)) (y : Option (List β)) (sd : List Int) (hlen : sd.length = X.rows.length)
    (hy : ∀ l, y = some l → l.length = sd.length) (hs : 0 < nSource sd) (a b : Nat) (ha : 0 < a) (hb : 0 < b) (S T : List (Fin d → K))
    (hS : sourceRows sd X.rows = copies a S) (hT : targetRows sd X.rows = copies b T)
    (hbest : BestPlan c (copies a S) (copies b T) (plan (copies a S) (copies b T))) :
    ∃ (out : NArr (Fin d → K)) (P : Fin S.length → Fin T.length → K), otFitTransform ot X y (.vec sd) = .ok out ∧ BestPlan c S T P ∧
      targetRows sd out.rows = copies b T ∧ (sourceRows sd out.rows).length = a * S.length ∧
      ∀ (s : Fin S.length) (j : Fin d), (∑ k ∈ Finset.range a, (sourceRows sd out.rows).getD (k * S.length + s) (fun _ => 0) j) / (a : K) =
        (barycentric S T P).getD s (fun _ => 0) j := by
  obtain ⟨out, ho, hl, hos, hot'⟩ := exactTransport_out plan ot hot X y sd hlen hy hs
  refine ⟨out, Copies.foldPlan a b S T (plan (copies a S) (copies b T)), ho, Copies.best_fold c ha hb S T _ hbest, hot'.trans hT, ?_, fun s j => ?_⟩
  · rw [hos, hS, hT]
    simp [barycentric, Copies.length]
  · rw [hos, hS, hT]
    exact Copies.barycentric_fold ha hb S T _ hbest.1 s j

/-- **C142, optimal transport, one best plan.**  If there is only one plan of least cost for the data, then after listing everything `a` times the mean of
what `fit_transform` returns for the copies of a source sample is what it returns for the sample. -/
theorem C142_ot_mapping_means (plan : ∀ S T : List (Fin d → K), Fin S.length → Fin T.length → K) (c : (Fin d → K) → (Fin d → K) → K)
    (ot : NArr (Fin d → K) → Option (List β) → NArr (Fin d → K) → Option (List β) → Py (NArr (Fin d → K) → Py (NArr (Fin d → K))))
    (hot : ExactTransport plan ot) (X : NArr (Fin d → K)) (y : Option (List β)) (sd : List Int) (hlen : sd.length = X.rows.length)
    (hy : ∀ l, y = some l → l.length = sd.length) (hs : 0 < nSource sd) (a : Nat) (ha : 0 < a)
    (hbest : ∀ k, 0 < k → BestPlan c (copies k (sourceRows sd X.rows)) (copies k (targetRows sd X.rows)) (plan _ _))
    (hone : ∀ P, BestPlan c (sourceRows sd X.rows) (targetRows sd X.rows) P → P = plan _ _) :
    ∃ out out' : NArr (Fin d → K), otFitTransform ot X y (.vec sd) = .ok out ∧
      otFitTransform ot { X with rows := copies a X.rows } (y.map (copies a)) (.vec (copies a sd)) = .ok out' ∧
      targetRows (copies a sd) out'.rows = copies a (targetRows sd out.rows) ∧
      ∀ (s : Fin (sourceRows sd X.rows).length) (j : Fin d),
        (∑ k ∈ Finset.range a, (sourceRows (copies a sd) out'.rows).getD (k * (sourceRows sd X.rows).length + s) (fun _ => 0) j) / (a : K) =
          (sourceRows sd out.rows).getD s (fun _ => 0) j := by
  obtain ⟨out, ho, hl, hos, hot'⟩ := exactTransport_out plan ot hot X y sd hlen hy hs
  obtain ⟨out', P, h1, h2, h3, -, h5⟩ := C142_ot_mapping plan c ot hot { X with rows := copies a X.rows } (y.map (copies a)) (copies a sd)
    (by simp [Copies.length, hlen]) (by
      intro l h
      cases y with
      | none => simp at h
      | some v => simp at h; subst h; simp [Copies.length, hy v rfl])
    (by rw [Copies.nSource]; exact Nat.mul_pos ha hs) a a ha ha (sourceRows sd X.rows) (targetRows sd X.rows) (Copies.source a hlen) (Copies.target a hlen)
    (hbest a ha)
  refine ⟨out, out', ho, h1, by rw [h3, hot'], fun s j => ?_⟩
  rw [h5, hone P h2, hos]

/-- **C142, optimal transport, equal shares.**  A plan of least cost for the data, spread in equal parts over the copies, has least cost for the data listed
several times. With this plan `fit_transform` returns for every copy what it returns for the sample. -/
theorem C142_ot_mapping_spread (plan : ∀ S T : List (Fin d → K), Fin S.length → Fin T.length → K) (c : (Fin d → K) → (Fin d → K) → K)
    (ot : NArr (Fin d → K) → Option (List β) → NArr (Fin d → K) → Option (List β) → Py (NArr (Fin d → K) → Py (NArr (Fin d → K))))
    (hot : ExactTransport plan ot) (X : NArr (Fin d → K)) (y : Option (List β)) (sd : List Int) (hlen : sd.length = X.rows.length)
    (hy : ∀ l, y = some l → l.length = sd.length) (hs : 0 < nSource sd) (a : Nat) (ha : 0 < a)
    (hbest : BestPlan c (sourceRows sd X.rows) (targetRows sd X.rows) (plan _ _)) :
    BestPlan c (copies a (sourceRows sd X.rows)) (copies a (targetRows sd X.rows)) (spreadPlan a a (sourceRows sd X.rows) (targetRows sd X.rows) (plan _ _)) ∧
    (plan (copies a (sourceRows sd X.rows)) (copies a (targetRows sd X.rows)) = spreadPlan a a (sourceRows sd X.rows) (targetRows sd X.rows) (plan _ _) →
      ∃ out out' : NArr (Fin d → K), otFitTransform ot X y (.vec sd) = .ok out ∧
        otFitTransform ot { X with rows := copies a X.rows } (y.map (copies a)) (.vec (copies a sd)) = .ok out' ∧
        sourceRows (copies a sd) out'.rows = copies a (sourceRows sd out.rows) ∧ targetRows (copies a sd) out'.rows = copies a (targetRows sd out.rows)) := by
  refine ⟨Copies.best_spread c ha ha _ _ _ hbest, fun hspread => ?_⟩
  obtain ⟨out, ho, hl, hos, hot1⟩ := exactTransport_out plan ot hot X y sd hlen hy hs
  obtain ⟨out', ho', hl', hos', hot'⟩ := exactTransport_out plan ot hot { X with rows := copies a X.rows } (y.map (copies a)) (copies a sd)
    (by simp [Copies.length, hlen]) (by
      intro l h
      cases y with
      | none => simp at h
      | some v => simp at h; subst h; simp [Copies.length, hy v rfl])
    (by rw [Copies.nSource]; exact Nat.mul_pos ha hs)
  refine ⟨out, out', ho, ho', ?_, by rw [hot', hot1]; exact Copies.target a hlen⟩
  rw [hos', hos]
  dsimp only
  rw [Copies.source a hlen, Copies.target a hlen, hspread, Copies.barycentric_spread ha ha]

/-- The plan used below: the first of two equal source samples takes the target samples of even position. -/
def evenPlan (S T : List (Fin 1 → ℚ)) (s : Fin S.length) (t : Fin T.length) : ℚ :=
  if S.length = 2 then (if s.val % 2 = t.val % 2 then 1 / (T.length : ℚ) else 0) else 1 / (T.length : ℚ)

/-- The transport object with these plans. -/
def evenOt : NArr (Fin 1 → ℚ) → Option (List Int) → NArr (Fin 1 → ℚ) → Option (List Int) → Py (NArr (Fin 1 → ℚ) → Py (NArr (Fin 1 → ℚ))) :=
  fun S _ T _ => .ok fun _ => .ok ⟨.float, S.tail, barycentric S.rows T.rows (evenPlan S.rows T.rows)⟩

/-- When every pair costs the same, every plan has least cost. -/
theorem bestPlan_const {α : Type} (c : α → α → ℚ) (S T : List α) (r : ℚ) (h : ∀ (s : Fin S.length) (t : Fin T.length), c S[s] T[t] = r)
    (P : Fin S.length → Fin T.length → ℚ) (hP : Coupling (fun _ => 1 / (S.length : ℚ)) (fun _ => 1 / (T.length : ℚ)) P) : BestPlan c S T P := by
  refine ⟨hP, fun Q hQ => le_of_eq ?_⟩
  simp only [h, ← Finset.mul_sum, hP.row, hQ.row]

/-- **C142 fails for optimal transport, sample by sample.**  One source sample between two target samples, squared distance: there is only one plan and the
sample goes to the middle. With everything listed twice a best plan may send one copy left and the other right; both runs use best plans. -/
theorem C142_ot_mapping_counterexample :
    ∃ (plan : ∀ S T : List (Fin 1 → ℚ), Fin S.length → Fin T.length → ℚ)
      (ot : NArr (Fin 1 → ℚ) → Option (List Int) → NArr (Fin 1 → ℚ) → Option (List Int) → Py (NArr (Fin 1 → ℚ) → Py (NArr (Fin 1 → ℚ))))
      (X out out' : NArr (Fin 1 → ℚ)) (sd : List Int), ExactTransport plan ot ∧ sd.length = X.rows.length ∧ 0 < nSource sd ∧ 0 < nTarget sd ∧
      BestPlan (fun x y => (x 0 - y 0) ^ 2) (sourceRows sd X.rows) (targetRows sd X.rows) (plan _ _) ∧
      BestPlan (fun x y => (x 0 - y 0) ^ 2) (copies 2 (sourceRows sd X.rows)) (copies 2 (targetRows sd X.rows)) (plan _ _) ∧
      otFitTransform ot X none (.vec sd) = .ok out ∧
      otFitTransform ot { X with rows := copies 2 X.rows } none (.vec (copies 2 sd)) = .ok out' ∧
      sourceRows sd out.rows = [![0]] ∧ sourceRows (copies 2 sd) out'.rows = [![-1], ![1]] := by
  have hex : ExactTransport evenPlan evenOt := fun S ys T yt => ⟨_, rfl, rfl⟩
  obtain ⟨out, ho, -, hos, -⟩ := exactTransport_out evenPlan evenOt hex ⟨.float, [1], [![0], ![-1], ![1]]⟩ none [1, -2, -2] rfl (by simp) (by decide)
  obtain ⟨out', ho', -, hos', -⟩ := exactTransport_out evenPlan evenOt hex ⟨.float, [1], copies 2 [![0], ![-1], ![1]]⟩ none (copies 2 [1, -2, -2]) rfl
    (by simp) (by decide)
  refine ⟨evenPlan, evenOt, ⟨.float, [1], [![0], ![-1], ![1]]⟩, out, out', [1, -2, -2], hex, rfl, by decide, by decide, ?_, ?_, ho, ho', ?_, ?_⟩
  · exact bestPlan_const _ [![0]] [![-1], ![1]] 1 (by decide +kernel) (evenPlan [![0]] [![-1], ![1]])
      ⟨by decide +kernel, by decide +kernel, by decide +kernel⟩
  · exact bestPlan_const _ [![0], ![0]] [![-1], ![1], ![-1], ![1]] 1 (by decide +kernel) (evenPlan [![0], ![0]] [![-1], ![1], ![-1], ![1]])
      ⟨by decide +kernel, by decide +kernel, by decide +kernel⟩
  · rw [hos]
    show barycentric [![0]] [![-1], ![1]] (evenPlan [![0]] [![-1], ![1]]) = _
    decide +kernel
  · rw [hos']
    show barycentric [![0], ![0]] [![-1], ![1], ![-1], ![1]] (evenPlan [![0], ![0]] [![-1], ![1], ![-1], ![1]]) = _
    decide +kernel

/-- The hypotheses of `C142_ot_mapping` hold there, with `a = 2` and `b = 2`, and those of `C142_ot_mapping_spread`: the spread plan is another best plan. -/
example : BestPlan (fun x y => (x 0 - y 0) ^ 2) (copies 2 [![0]]) (copies 2 [![-1], ![1]]) (evenPlan (copies 2 [![0]]) (copies 2 [![-1], ![1]])) ∧
    BestPlan (fun x y => (x 0 - y 0) ^ 2) [![0]] [![-1], ![1]] (evenPlan [![0]] [![-1], ![1]]) ∧
    spreadPlan 2 2 [![0]] [![-1], ![1]] (evenPlan [![0]] [![-1], ![1]]) = fun _ _ => 1 / 8 := by
  refine ⟨?_, ?_, by decide +kernel⟩
  · exact bestPlan_const _ [![0], ![0]] [![-1], ![1], ![-1], ![1]] 1 (by decide +kernel) (evenPlan [![0], ![0]] [![-1], ![1], ![-1], ![1]])
      ⟨by decide +kernel, by decide +kernel, by decide +kernel⟩
  · exact bestPlan_const _ [![0]] [![-1], ![1]] 1 (by decide +kernel) (evenPlan [![0]] [![-1], ![1]])
      ⟨by decide +kernel, by decide +kernel, by decide +kernel⟩

/-- Those of `C142_ot_mapping_means` too: from one source sample there is only one plan. -/
example (P : Fin ([![0]] : List (Fin 1 → ℚ)).length → Fin ([![-1], ![1]] : List (Fin 1 → ℚ)).length → ℚ)
    (h : BestPlan (fun x y => (x 0 - y 0) ^ 2) [![0]] [![-1], ![1]] P) : P = evenPlan [![0]] [![-1], ![1]] := by
  funext s t
  have hc := h.1.col t
  have h1 : ∑ i, P i t = P s t := by
    have hs : s = (0 : Fin 1) := Subsingleton.elim (α := Fin 1) _ _
    rw [hs]
    exact Fin.sum_univ_one (fun i : Fin 1 => P i t)
  rw [← h1, hc]
  simp [evenPlan]

end Skada

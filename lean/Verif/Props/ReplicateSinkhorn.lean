/-
C142, continued: entropic optimal transport on data listed several times.
-/
import Mathlib.Analysis.SpecialFunctions.Log.NegMulLog
import Verif.Props.ReplicateOt

set_option linter.unusedSectionVars false

namespace Skada
open Np Spec Map

variable {K : Type} [Field K] [LinearOrder K] [IsStrictOrderedRing K] {α : Type} {d : Nat} {β : Type}

/-- The total cost of a plan plus `reg` times the sum of `ent` over its entries. -/
def Spec.entropicCost (c : α → α → K) (reg : K) (ent : K → K) (S T : List α) (P : Fin S.length → Fin T.length → K) : K :=
  ∑ s, ∑ t, (c S[s] T[t] * P s t + reg * ent (P s t))

/-- A plan of least entropic cost between the samples `S` and `T` with equal weights on each side. -/
def Spec.BestEntropicPlan (c : α → α → K) (reg : K) (ent : K → K) (S T : List α) (P : Fin S.length → Fin T.length → K) : Prop :=
  Coupling (fun _ => 1 / (S.length : K)) (fun _ => 1 / (T.length : K)) P ∧
    ∀ Q, Coupling (fun _ => 1 / (S.length : K)) (fun _ => 1 / (T.length : K)) Q → entropicCost c reg ent S T P ≤ entropicCost c reg ent S T Q

/-- What is used of the function `p log p`: it is strictly convex on the non-negative numbers, and for equal shares `k * (p/k) log (p/k) = p log p - p log k`. -/
structure Spec.EntropyLike (ent : K → K) : Prop where
  convex : ∀ p q, 0 ≤ p → 0 ≤ q → p ≠ q → ent ((p + q) / 2) < (ent p + ent q) / 2
  share : ∀ k : Nat, 0 < k → ∃ L : K, ∀ p, 0 ≤ p → (k : K) * ent (p / (k : K)) = ent p - L * p

/-- `p log p` is such a function. -/
theorem entropyLike_mul_log : EntropyLike (fun p : ℝ => p * Real.log p) := by
  refine ⟨fun p q hp hq hne => ?_, fun k hk => ⟨Real.log k, fun p hp => ?_⟩⟩
  · have := Real.strictConvexOn_mul_log.2 (Set.mem_Ici.2 hp) (Set.mem_Ici.2 hq) hne (by norm_num : (0 : ℝ) < 1 / 2) (by norm_num : (0 : ℝ) < 1 / 2) (by norm_num)
    simp only [smul_eq_mul] at this
    rw [show (p + q) / 2 = 1 / 2 * p + 1 / 2 * q by ring, show (p * Real.log p + q * Real.log q) / 2 = 1 / 2 * (p * Real.log p) + 1 / 2 * (q * Real.log q) by ring]
    exact this
  · have hk' : (k : ℝ) ≠ 0 := by exact_mod_cast hk.ne'
    rcases eq_or_lt_of_le hp with h0 | h0
    · subst h0; simp
    · rw [Real.log_div h0.ne' hk']
      field_simp

namespace Copies

/-- There is only one best entropic plan. -/
theorem entropic_unique (c : α → α → K) {reg : K} (hreg : 0 < reg) {ent : K → K} (he : EntropyLike ent) (S T : List α)
    (P Q : Fin S.length → Fin T.length → K) (hP : BestEntropicPlan c reg ent S T P) (hQ : BestEntropicPlan c reg ent S T Q) : P = Q := by
  by_contra hne
  obtain ⟨s, hs⟩ := Function.ne_iff.1 hne
  obtain ⟨t, ht⟩ := Function.ne_iff.1 hs
  let R : Fin S.length → Fin T.length → K := fun s t => (P s t + Q s t) / 2
  have hR : Coupling (fun _ => 1 / (S.length : K)) (fun _ => 1 / (T.length : K)) R := by
    refine ⟨fun s t => div_nonneg (add_nonneg (hP.1.nonneg s t) (hQ.1.nonneg s t)) (by norm_num), fun s => ?_, fun t => ?_⟩
    · simp only [R, ← Finset.sum_div, Finset.sum_add_distrib, hP.1.row, hQ.1.row]
      exact add_self_div_two _
    · simp only [R, ← Finset.sum_div, Finset.sum_add_distrib, hP.1.col, hQ.1.col]
      exact add_self_div_two _
  have hle : ∀ s t, c S[s] T[t] * R s t + reg * ent (R s t) ≤
      ((c S[s] T[t] * P s t + reg * ent (P s t)) + (c S[s] T[t] * Q s t + reg * ent (Q s t))) / 2 := by
    intro s t
    by_cases h : P s t = Q s t
    · have : R s t = P s t := by simp only [R, ← h]; exact add_self_div_two _
      rw [this, ← h]
      exact (add_self_div_two _).ge
    · have h1 := mul_lt_mul_of_pos_left (he.convex _ _ (hP.1.nonneg s t) (hQ.1.nonneg s t) h) hreg
      simp only [R]
      linarith
  have hlt : c S[s] T[t] * R s t + reg * ent (R s t) <
      ((c S[s] T[t] * P s t + reg * ent (P s t)) + (c S[s] T[t] * Q s t + reg * ent (Q s t))) / 2 := by
    have h1 := mul_lt_mul_of_pos_left (he.convex _ _ (hP.1.nonneg s t) (hQ.1.nonneg s t) ht) hreg
    simp only [R]
    linarith
  have hsum : entropicCost c reg ent S T R < (entropicCost c reg ent S T P + entropicCost c reg ent S T Q) / 2 := by
    have e : (entropicCost c reg ent S T P + entropicCost c reg ent S T Q) / (2 : K) =
        ∑ s, ∑ t, ((c S[s] T[t] * P s t + reg * ent (P s t)) + (c S[s] T[t] * Q s t + reg * ent (Q s t))) / (2 : K) := by
      simp only [entropicCost, ← Finset.sum_div, Finset.sum_add_distrib]
    rw [e]
    refine Finset.sum_lt_sum (fun s _ => Finset.sum_le_sum fun t _ => hle s t) ⟨s, Finset.mem_univ _, ?_⟩
    exact Finset.sum_lt_sum (fun t _ => hle s t) ⟨t, Finset.mem_univ _, hlt⟩
  have h1 := hP.2 R hR
  have h2 := hQ.2 R hR
  linarith

/-- Exchange two copies. -/
def swapCopies (a : Nat) (S : List α) (k k' : Fin a) : Fin (copies a S).length ≃ Fin (copies a S).length :=
  ((pos a S).symm.trans ((Equiv.swap k k').prodCongr (Equiv.refl _))).trans (pos a S)

theorem swap_pos (a : Nat) (S : List α) (k k' l : Fin a) (s : Fin S.length) : swapCopies a S k k' (pos a S (l, s)) = pos a S (Equiv.swap k k' l, s) := by
  simp [swapCopies]

theorem swap_get (a : Nat) (S : List α) (k k' : Fin a) (i : Fin (copies a S).length) : (copies a S)[swapCopies a S k k' i] = (copies a S)[i] := by
  obtain ⟨⟨l, s⟩, rfl⟩ := (pos a S).surjective i
  exact ((congrArg (fun i : Fin (copies a S).length => (copies a S)[i]) (swap_pos a S k k' l s)).trans (pos_get a S _ s)).trans (pos_get a S l s).symm

/-- Exchanging copies keeps a best entropic plan best. -/
theorem entropic_swap (c : α → α → K) (reg : K) (ent : K → K) (a b : Nat) (S T : List α) (Q : Fin (copies a S).length → Fin (copies b T).length → K)
    (hQ : BestEntropicPlan c reg ent (copies a S) (copies b T) Q) (k k' : Fin a) (l l' : Fin b) :
    BestEntropicPlan c reg ent (copies a S) (copies b T) (fun i j => Q (swapCopies a S k k' i) (swapCopies b T l l' j)) := by
  have hcost : entropicCost c reg ent (copies a S) (copies b T) (fun i j => Q (swapCopies a S k k' i) (swapCopies b T l l' j)) =
      entropicCost c reg ent (copies a S) (copies b T) Q := by
    unfold entropicCost
    symm
    refine ((swapCopies a S k k').sum_comp _).symm.trans ?_
    refine Finset.sum_congr rfl fun i _ => ?_
    refine ((swapCopies b T l l').sum_comp _).symm.trans ?_
    refine Finset.sum_congr rfl fun j _ => ?_
    rw [swap_get, swap_get]
  refine ⟨⟨fun i j => hQ.1.nonneg _ _, fun i => ?_, fun j => ?_⟩, fun R hR => by rw [hcost]; exact hQ.2 R hR⟩
  · exact ((swapCopies b T l l').sum_comp (fun j => Q (swapCopies a S k k' i) j)).trans (hQ.1.row _)
  · exact ((swapCopies a S k k').sum_comp (fun i => Q i (swapCopies b T l l' j))).trans (hQ.1.col _)

/-- The best entropic plan on copies is spread in equal parts. -/
theorem entropic_is_spread (c : α → α → K) {reg : K} (hreg : 0 < reg) {ent : K → K} (he : EntropyLike ent) {a b : Nat} (ha : 0 < a) (hb : 0 < b) (S T : List α)
    (Q : Fin (copies a S).length → Fin (copies b T).length → K) (hQ : BestEntropicPlan c reg ent (copies a S) (copies b T) Q) :
    Q = spreadPlan a b S T (foldPlan a b S T Q) := by
  have ha' : (a : K) ≠ 0 := by exact_mod_cast ha.ne'
  have hb' : (b : K) ≠ 0 := by exact_mod_cast hb.ne'
  have hall : ∀ k k' l l' s t, Q (pos a S (k, s)) (pos b T (l, t)) = Q (pos a S (k', s)) (pos b T (l', t)) := by
    intro k k' l l' s t
    have h := entropic_unique c hreg he _ _ _ _ hQ (entropic_swap c reg ent a b S T Q hQ k k' l l')
    have := congrFun (congrFun h (pos a S (k, s))) (pos b T (l, t))
    rw [this]
    simp only [swap_pos, Equiv.swap_apply_left]
  funext i j
  obtain ⟨⟨k, s⟩, rfl⟩ := (pos a S).surjective i
  obtain ⟨⟨l, t⟩, rfl⟩ := (pos b T).surjective j
  rw [spread_pos, foldPlan]
  have : ∀ k' l', Q (pos a S (k', s)) (pos b T (l', t)) = Q (pos a S (k, s)) (pos b T (l, t)) := fun k' l' => hall k' k l' l s t
  simp only [this, Finset.sum_const, Finset.card_univ, Fintype.card_fin, nsmul_eq_mul]
  field_simp

/-- The entropic cost of a spread plan: the cost of the plan less a constant. -/
theorem entropic_spread_cost (c : α → α → K) (reg : K) {ent : K → K} (he : EntropyLike ent) {a b : Nat} (ha : 0 < a) (hb : 0 < b) (S T : List α) :
    ∃ C : K, ∀ P : Fin S.length → Fin T.length → K, Coupling (fun _ => 1 / (S.length : K)) (fun _ => 1 / (T.length : K)) P →
      entropicCost c reg ent (copies a S) (copies b T) (spreadPlan a b S T P) = entropicCost c reg ent S T P - C := by
  obtain ⟨L, hL⟩ := he.share (a * b) (Nat.mul_pos ha hb)
  have ha' : (a : K) ≠ 0 := by exact_mod_cast ha.ne'
  have hb' : (b : K) ≠ 0 := by exact_mod_cast hb.ne'
  refine ⟨reg * (L * ((S.length : K) * (1 / (S.length : K)))), fun P hP => ?_⟩
  unfold entropicCost
  rw [sum_pos]
  simp only [sum_pos b T, pos_get, spread_pos, Finset.sum_const, Finset.card_univ, Fintype.card_fin, nsmul_eq_mul]
  have e : ∀ s t, (a : K) * ((b : K) * (c S[s] T[t] * (P s t / ((a : K) * (b : K))) + reg * ent (P s t / ((a : K) * (b : K))))) =
      (c S[s] T[t] * P s t + reg * ent (P s t)) - reg * (L * P s t) := by
    intro s t
    have h := hL (P s t) (hP.nonneg s t)
    push_cast at h
    have h2 : (a : K) * ((b : K) * (c S[s] T[t] * (P s t / ((a : K) * (b : K))))) = c S[s] T[t] * P s t := by field_simp
    calc (a : K) * ((b : K) * (c S[s] T[t] * (P s t / ((a : K) * (b : K))) + reg * ent (P s t / ((a : K) * (b : K)))))
        = (a : K) * ((b : K) * (c S[s] T[t] * (P s t / ((a : K) * (b : K))))) + reg * ((a : K) * (b : K) * ent (P s t / ((a : K) * (b : K)))) := by ring
      _ = _ := by rw [h, h2]; ring
  simp only [Finset.mul_sum, e, Finset.sum_sub_distrib]
  simp only [← Finset.mul_sum, hP.row, Finset.sum_const, Finset.card_univ, Fintype.card_fin, nsmul_eq_mul]

/-- The best entropic plan on copies is the best entropic plan, spread in equal parts. -/
theorem entropic_copies (c : α → α → K) {reg : K} (hreg : 0 < reg) {ent : K → K} (he : EntropyLike ent) {a b : Nat} (ha : 0 < a) (hb : 0 < b) (S T : List α)
    (P : Fin S.length → Fin T.length → K) (hP : BestEntropicPlan c reg ent S T P)
    (Q : Fin (copies a S).length → Fin (copies b T).length → K) (hQ : BestEntropicPlan c reg ent (copies a S) (copies b T) Q) : Q = spreadPlan a b S T P := by
  have hs := entropic_is_spread c hreg he ha hb S T Q hQ
  obtain ⟨C, hC⟩ := entropic_spread_cost c reg he ha hb S T
  have hf := coupling_fold ha hb S T Q hQ.1
  have hbest : BestEntropicPlan c reg ent S T (foldPlan a b S T Q) := by
    refine ⟨hf, fun R hR => ?_⟩
    have h := hQ.2 _ (coupling_spread ha hb S T R hR)
    rw [hs, hC _ hf, hC _ hR] at h
    linarith
  rw [hs, entropic_unique c hreg he S T _ _ hP hbest]

end Copies

/-- **C142, entropic optimal transport.**  The transport object (`ot.da.SinkhornTransport`) moves the samples to the barycentric images under a plan (`ExactTransport`),
and this plan has least entropic cost, without the error at which the Sinkhorn iterations stop (`reg > 0`, entropy `p log p` or another function with the
two properties used). Then listing everything `a` times makes `fit_transform` return for every copy what it returns for the sample. -/
theorem C142_entropic_mapping (plan : ∀ S T : List (Fin d → K), Fin S.length → Fin T.length → K) (c : (Fin d → K) → (Fin d → K) → K) (reg : K) (hreg : 0 < reg)
    (ent : K → K) (he : EntropyLike ent)
    (ot : NArr (Fin d → K) → Option (List β) → NArr (Fin d → K) → Option (List β) → Py (NArr (Fin d → K) → Py (NArr (Fin d → K))))
    (hot : ExactTransport plan ot) (X : NArr (Fin d → K)) (y : Option (List β)) (sd : List Int) (hlen : sd.length = X.rows.length)
    (hy : ∀ l, y = some l → l.length = sd.length) (hs : 0 < nSource sd) (a : Nat) (ha : 0 < a)
    (hbest : BestEntropicPlan c reg ent (sourceRows sd X.rows) (targetRows sd X.rows) (plan _ _))
    (hbest' : BestEntropicPlan c reg ent (copies a (sourceRows sd X.rows)) (copies a (targetRows sd X.rows)) (plan _ _)) :
    ∃ out out' : NArr (Fin d → K), otFitTransform ot X y (.vec sd) = .ok out ∧
      otFitTransform ot { X with rows := copies a X.rows } (y.map (copies a)) (.vec (copies a sd)) = .ok out' ∧
      sourceRows (copies a sd) out'.rows = copies a (sourceRows sd out.rows) ∧ targetRows (copies a sd) out'.rows = copies a (targetRows sd out.rows) := by
  have hspread := Copies.entropic_copies c hreg he ha ha _ _ _ hbest _ hbest'
  obtain ⟨out, ho, hl, hos, hot1⟩ := exactTransport_out plan ot hot X y sd hlen hy hs
  obtain ⟨out', ho', hl', hos', hot'⟩ := exactTransport_out plan ot hot { X with rows := copies a X.rows } (y.map (copies a)) (copies a sd)
    (by simp [Copies.length, hlen]) (by
      intro l h
      cases y with
      | none => simp at h
      | some v => simp at h; subst h; simp [Copies.length, hy v rfl])
    (by rw [Copies.nSource]; exact Nat.mul_pos ha hs)
  refine ⟨out, out', ho, ho', ?_, by rw [hot', hot1]; exact Copies.target a hlen⟩
  rw [hos', hos]
  dsimp only
  rw [Copies.source a hlen, Copies.target a hlen, hspread, Copies.barycentric_spread ha ha]

/-- The hypotheses for one source and one target sample, listed twice: with the entropy `p log p` and any cost, the best plans are the uniform ones. -/
example (c : (Fin 1 → ℝ) → (Fin 1 → ℝ) → ℝ) (reg : ℝ) (hreg : 0 < reg) (s t : Fin 1 → ℝ) : EntropyLike (fun p : ℝ => p * Real.log p) ∧
    BestEntropicPlan c reg (fun p => p * Real.log p) [s] [t] (fun _ _ => 1) ∧
    BestEntropicPlan c reg (fun p => p * Real.log p) (copies 2 [s]) (copies 2 [t]) (fun _ _ => 1 / 4) := by
  have he := entropyLike_mul_log
  refine ⟨he, ⟨⟨fun _ _ => by norm_num, fun _ => by simp, fun _ => by simp⟩, fun Q hQ => ?_⟩, ?_⟩
  · have h0 : Q = fun _ _ => 1 := by
      funext i j
      have h1 := hQ.row i
      have h2 : ∑ j, Q i j = Q i (0 : Fin 1) := Fin.sum_univ_one (fun j : Fin 1 => Q i j)
      have h3 : j = (0 : Fin 1) := Subsingleton.elim (α := Fin 1) _ _
      rw [h3, ← h2, h1]
      simp
    rw [h0]
  · show BestEntropicPlan c reg (fun p => p * Real.log p) [s, s] [t, t] (fun _ _ => 1 / 4)
    generalize hent : (fun p : ℝ => p * Real.log p) = ent at he
    refine ⟨⟨fun _ _ => by norm_num, fun _ => ?_, fun _ => ?_⟩, fun Q hQ => ?_⟩
    · exact (Fin.sum_univ_two (fun _ : Fin 2 => (1 / 4 : ℝ))).trans (by norm_num)
    · exact (Fin.sum_univ_two (fun _ : Fin 2 => (1 / 4 : ℝ))).trans (by norm_num)
    · have r0 : Q (0 : Fin 2) (0 : Fin 2) + Q (0 : Fin 2) (1 : Fin 2) = 1 / 2 :=
        ((Fin.sum_univ_two (fun j : Fin 2 => Q (0 : Fin 2) j)).symm.trans (hQ.row (0 : Fin 2))).trans (by norm_num)
      have r1 : Q (1 : Fin 2) (0 : Fin 2) + Q (1 : Fin 2) (1 : Fin 2) = 1 / 2 :=
        ((Fin.sum_univ_two (fun j : Fin 2 => Q (1 : Fin 2) j)).symm.trans (hQ.row (1 : Fin 2))).trans (by norm_num)
      have key : ∀ p q : ℝ, 0 ≤ p → 0 ≤ q → p + q = 1 / 2 → ent (1 / 4) * 2 ≤ ent p + ent q := by
        intro p q hp hq h
        by_cases e : p = q
        · have : p = 1 / 4 := by linarith
          rw [← e, this]; linarith
        · have := he.convex p q hp hq e
          rw [h, show (1 / 2 : ℝ) / 2 = 1 / 4 by norm_num] at this
          linarith
      have k0 := mul_le_mul_of_nonneg_left (key _ _ (hQ.nonneg (0 : Fin 2) (0 : Fin 2)) (hQ.nonneg (0 : Fin 2) (1 : Fin 2)) r0) hreg.le
      have k1 := mul_le_mul_of_nonneg_left (key _ _ (hQ.nonneg (1 : Fin 2) (0 : Fin 2)) (hQ.nonneg (1 : Fin 2) (1 : Fin 2)) r1) hreg.le
      have ex : ∀ R : Fin 2 → Fin 2 → ℝ, entropicCost c reg ent [s, s] [t, t] R =
          c s t * (R 0 0 + R 0 1 + (R 1 0 + R 1 1)) + reg * (ent (R 0 0) + ent (R 0 1)) + reg * (ent (R 1 0) + ent (R 1 1)) := by
        intro R
        have : entropicCost c reg ent [s, s] [t, t] R = ∑ i : Fin 2, ∑ j : Fin 2, (c s t * R i j + reg * ent (R i j)) := by
          unfold entropicCost
          refine Finset.sum_congr rfl fun i _ => Finset.sum_congr rfl fun j _ => ?_
          have h1 : ([s, s] : List (Fin 1 → ℝ))[i] = s := by
            have : ∀ i : Fin 2, ([s, s] : List (Fin 1 → ℝ))[i] = s := by intro i; fin_cases i <;> rfl
            exact this i
          have h2 : ([t, t] : List (Fin 1 → ℝ))[j] = t := by
            have : ∀ i : Fin 2, ([t, t] : List (Fin 1 → ℝ))[i] = t := by intro i; fin_cases i <;> rfl
            exact this j
          rw [h1, h2]
        rw [this]
        simp only [Fin.sum_univ_two]
        ring
      refine (ex (fun _ _ => 1 / 4)).le.trans (le_trans ?_ (ex Q).ge)
      have m : Q (0 : Fin 2) (0 : Fin 2) + Q (0 : Fin 2) (1 : Fin 2) + (Q (1 : Fin 2) (0 : Fin 2) + Q (1 : Fin 2) (1 : Fin 2)) = 1 := by rw [r0, r1]; norm_num
      have m4 : ((1 / 4 : ℝ) + 1 / 4 + (1 / 4 + 1 / 4)) = 1 := by norm_num
      refine add_le_add (add_le_add (le_of_eq ?_) ((le_of_eq ?_).trans k0)) ((le_of_eq ?_).trans k1)
      · rw [m4]; exact congrArg (fun v => c s t * v) m.symm
      · ring
      · ring

end Skada

/-
C51, C82: the MaNo scorer.
-/
import Verif.Props.Scorers2
import Mathlib.Analysis.Convex.SpecificFunctions.Basic

namespace Skada
open Np Spec

section Mano
set_option linter.unusedSectionVars false
variable {α : Type}

/-- Running the scorer on checked classification data, whatever the kind of estimator. -/
theorem mano_pipeline_run (gib : Bool) (p threshold : ℝ) (pw : ℝ → ℝ → ℝ) (ex lg : ℝ → ℝ) (proba : List α → List Int → Py (List (List ℝ)))
    (X : List α) (y : List Num) (sd : List Int) (hX : X ≠ []) (hy : y.length = X.length) (hs : sd.length = X.length)
    (hty : findYType y = .ok .discrete) (q : List (List ℝ))
    (hq : proba (targetRows sd X) (sd.filter (fun d => decide (d < 0))) = .ok q) :
    Score.mano gib p threshold pw ex lg (.pipeline proba) X y (.vec sd)
      = .ok (some (if gib then Score.manoAggregate pw p q else -Score.manoAggregate pw p q)) := by
  have hf : targetRows sd sd = sd.filter (fun d => decide (d < 0)) := by rw [← sel_target, sel_map_self]
  unfold Score.mano
  simp only
  rw [checkXy_vec hX hy hs]
  simp only [ok_bind]
  rw [extractSourceIndices_ok (sd_ne_nil hX hs)]
  simp only [ok_bind]
  rw [boolIndex_target hs.symm, boolIndex_target rfl, hf]
  simp only [ok_bind, hty, hq, Option.map_some, signed_eq]

theorem mano_network_run {K : Type} [Field K] [LinearOrder K] [IsStrictOrderedRing K] (gib : Bool) (p threshold : K) (pw : K → K → K)
    (ex lg : K → K) (infer : List α → Py (List (List K))) (X : List α) (y : List Num) (sd : List Int) (hX : X ≠ [])
    (hy : y.length = X.length) (hs : sd.length = X.length) (hty : findYType y = .ok .discrete) (L : List (List K))
    (hL : infer (targetRows sd X) = .ok L) :
    Score.mano gib p threshold pw ex lg (.network true infer) X y (.vec sd)
      = .ok ((Score.softrun ex (Score.criterion ex lg L).2 (Score.criterion ex lg L).1 threshold).map
          (fun q => if gib then Score.manoAggregate pw p q else -Score.manoAggregate pw p q)) := by
  unfold Score.mano
  simp only
  rw [checkXy_vec hX hy hs]
  simp only [ok_bind]
  rw [extractSourceIndices_ok (sd_ne_nil hX hs)]
  simp only [ok_bind]
  rw [boolIndex_target hs.symm, boolIndex_target rfl]
  simp only [ok_bind, hty, hL, Bool.not_true, Bool.false_eq_true, if_false, signed_eq]

/-- Averages of powers of numbers in `[0, 1]` stay in `[0, 1]`. -/
theorem manoAggregate_range (p : ℝ) (hp : 0 < p) (q : List (List ℝ)) (h : ∀ r ∈ q, ∀ x ∈ r, 0 ≤ x ∧ x ≤ 1) (hne : q.flatten ≠ []) :
    0 ≤ Score.manoAggregate (fun a b => a ^ b) p q ∧ Score.manoAggregate (fun a b => a ^ b) p q ≤ 1 := by
  unfold Score.manoAggregate
  have hb := sum_bounds (l := q.flatten.map (fun x : ℝ => x ^ p)) (lo := 0) (hi := 1) (by
    intro v hv
    obtain ⟨x, hx, rfl⟩ := List.mem_map.1 hv
    obtain ⟨r, hr, hxr⟩ := List.mem_flatten.1 hx
    obtain ⟨h0, h1⟩ := h r hr x hxr
    exact ⟨Real.rpow_nonneg h0 p, Real.rpow_le_one h0 h1 hp.le⟩)
  have hl : (0 : ℝ) < q.flatten.length := by exact_mod_cast List.length_pos_iff.2 hne
  rw [List.length_map] at hb
  have hm0 : 0 ≤ Score.mean (q.flatten.map (fun x : ℝ => x ^ p)) := by
    unfold Score.mean
    rw [List.length_map]
    exact div_nonneg (by linarith [hb.1]) hl.le
  have hm1 : Score.mean (q.flatten.map (fun x : ℝ => x ^ p)) ≤ 1 := by
    unfold Score.mean
    rw [List.length_map, div_le_one hl]
    linarith [hb.2]
  exact ⟨Real.rpow_nonneg hm0 _, Real.rpow_le_one hm0 hm1 (by positivity)⟩

theorem prob_le_one {r : List ℝ} (h0 : ∀ x ∈ r, 0 ≤ x) (h1 : r.sum = 1) : ∀ x ∈ r, 0 ≤ x ∧ x ≤ 1 :=
  fun x hx => ⟨h0 x hx, h1 ▸ le_sum_of_mem h0 hx⟩

/-- C51 (pipelines). For every probability matrix and every order `p > 0` the score lies in `[0, 1]` (sign reversed for `greater_is_better=False`). -/
theorem C51_pipeline (gib : Bool) (p threshold : ℝ) (hp : 0 < p) (ex lg : ℝ → ℝ) (proba : List α → List Int → Py (List (List ℝ)))
    (X : List α) (y : List Num) (sd : List Int) (hX : X ≠ []) (hy : y.length = X.length) (hs : sd.length = X.length)
    (hty : findYType y = .ok .discrete) (q : List (List ℝ)) (C : Nat)
    (hq : proba (targetRows sd X) (sd.filter (fun d => decide (d < 0))) = .ok q) (hv : ProbMatrix (nTarget sd) C q) (hn : 0 < nTarget sd) :
    ∃ s, Score.mano gib p threshold (fun a b => a ^ b) ex lg (.pipeline proba) X y (.vec sd) = .ok (some (if gib then s else -s)) ∧
      0 ≤ s ∧ s ≤ 1 := by
  refine ⟨_, mano_pipeline_run gib p threshold _ ex lg proba X y sd hX hy hs hty q hq, ?_⟩
  apply manoAggregate_range p hp
  · intro r hr
    exact prob_le_one (hv.2 r hr).2.1 (hv.2 r hr).2.2
  · obtain ⟨r, hr⟩ := List.exists_mem_of_length_pos (l := q) (by rw [hv.1]; exact hn)
    obtain ⟨-, -, h3⟩ := hv.2 r hr
    intro h
    rw [List.flatten_eq_nil_iff] at h
    rw [h r hr] at h3
    simp at h3

/-- Bernoulli's inequality summed over a list of probabilities. -/
theorem sum_rpow_lower (p c : ℝ) (hp : 1 ≤ p) (l : List ℝ) (h : ∀ x ∈ l, 0 ≤ x) (hc : 0 < c) :
    (l.length : ℝ) + p * (c * l.sum - l.length) ≤ c ^ p * (l.map (fun x : ℝ => x ^ p)).sum := by
  induction l with
  | nil => simp
  | cons x l ih =>
    have ih := ih (fun y hy => h y (List.mem_cons_of_mem _ hy))
    have hx := h x List.mem_cons_self
    have hb := one_add_mul_self_le_rpow_one_add (s := c * x - 1) (by nlinarith [mul_nonneg hc.le hx]) hp
    rw [show 1 + (c * x - 1) = c * x by ring, Real.mul_rpow hc.le hx] at hb
    simp only [List.map_cons, List.sum_cons, List.length_cons, Nat.cast_add, Nat.cast_one]
    linarith

theorem sum_rpow_upper (p : ℝ) (hp : 1 ≤ p) (l : List ℝ) (h : ∀ x ∈ l, 0 ≤ x ∧ x ≤ 1) :
    (l.map (fun x : ℝ => x ^ p)).sum ≤ l.sum := by
  induction l with
  | nil => simp
  | cons x l ih =>
    have ih := ih (fun y hy => h y (List.mem_cons_of_mem _ hy))
    obtain ⟨h0, h1⟩ := h x List.mem_cons_self
    have := Real.rpow_le_rpow_of_exponent_ge' h0 h1 zero_le_one hp
    rw [Real.rpow_one] at this
    simp only [List.map_cons, List.sum_cons]
    linarith

/-- C51 (sharp range). For `p ≥ 1` and `C` classes the score lies between `1 / C` and `(1 / C) ^ (1 / p)`; the lower end is reached by
uniform predictions and the upper end by certain ones. -/
theorem C51_sharp (gib : Bool) (p threshold : ℝ) (hp : 1 ≤ p) (ex lg : ℝ → ℝ) (proba : List α → List Int → Py (List (List ℝ)))
    (X : List α) (y : List Num) (sd : List Int) (hX : X ≠ []) (hy : y.length = X.length) (hs : sd.length = X.length)
    (hty : findYType y = .ok .discrete) (q : List (List ℝ)) (C : Nat)
    (hq : proba (targetRows sd X) (sd.filter (fun d => decide (d < 0))) = .ok q) (hv : ProbMatrix (nTarget sd) C q) (hn : 0 < nTarget sd) :
    ∃ s, Score.mano gib p threshold (fun a b => a ^ b) ex lg (.pipeline proba) X y (.vec sd) = .ok (some (if gib then s else -s)) ∧
      1 / (C : ℝ) ≤ s ∧ s ≤ (1 / (C : ℝ)) ^ (1 / p) ∧
      ((∀ r ∈ q, ∀ x ∈ r, x = 1 / (C : ℝ)) → s = 1 / (C : ℝ)) ∧
      ((∀ r ∈ q, ∀ x ∈ r, x = 0 ∨ x = 1) → s = (1 / (C : ℝ)) ^ (1 / p)) := by
  refine ⟨_, mano_pipeline_run gib p threshold _ ex lg proba X y sd hX hy hs hty q hq, ?_⟩
  have hlen := flatten_length (m := q) (C := C) (fun r hr => (hv.2 r hr).1)
  have hsum : q.flatten.sum = q.length := by
    rw [flatten_sum]
    have : q.map List.sum = q.map (fun _ => (1 : ℝ)) := List.map_congr_left (fun r hr => (hv.2 r hr).2.2)
    rw [this]
    simp
  have hnq : (0 : ℝ) < q.length := by rw [hv.1]; exact_mod_cast hn
  have hCn : 0 < C := by
    obtain ⟨r, hr⟩ := List.exists_mem_of_length_pos (l := q) (by rw [hv.1]; exact hn)
    obtain ⟨h1, -, h3⟩ := hv.2 r hr
    rcases Nat.eq_zero_or_pos C with h | h
    · rw [h, List.length_eq_zero_iff] at h1
      rw [h1] at h3
      simp at h3
    · exact h
  have hC : (0 : ℝ) < C := by exact_mod_cast hCn
  have hb : ∀ x ∈ q.flatten, 0 ≤ x ∧ x ≤ 1 := by
    intro x hx
    obtain ⟨r, hr, hxr⟩ := List.mem_flatten.1 hx
    exact prob_le_one (hv.2 r hr).2.1 (hv.2 r hr).2.2 x hxr
  have hp0 : 0 < p := by linarith
  have hpp : 0 < 1 / p := by positivity
  have hlo := sum_rpow_lower p C hp q.flatten (fun x hx => (hb x hx).1) hC
  have hup := sum_rpow_upper p hp q.flatten hb
  rw [hsum, hlen] at hlo
  rw [hsum] at hup
  push_cast at hlo
  have hCp : (0 : ℝ) < (C : ℝ) ^ p := Real.rpow_pos_of_pos hC p
  have hroot : ((1 / (C : ℝ)) ^ p) ^ (1 / p) = 1 / (C : ℝ) := by
    rw [← Real.rpow_mul (by positivity), mul_one_div_cancel hp0.ne', Real.rpow_one]
  unfold Score.manoAggregate Score.mean
  simp only [List.length_map, hlen]
  push_cast
  have hN : (0 : ℝ) < (q.length : ℝ) * C := by positivity
  have hm0 : (1 / (C : ℝ)) ^ p ≤ (q.flatten.map (fun x : ℝ => x ^ p)).sum / ((q.length : ℝ) * C) := by
    rw [Real.div_rpow zero_le_one hC.le, Real.one_rpow, div_le_div_iff₀ hCp hN]
    linarith
  refine ⟨?_, ?_, ?_, ?_⟩
  · have := Real.rpow_le_rpow (by positivity) hm0 hpp.le
    rwa [hroot] at this
  · apply Real.rpow_le_rpow _ _ hpp.le
    · exact le_trans (by positivity) hm0
    · rw [div_le_div_iff₀ hN hC]
      nlinarith
  · intro hu
    have : q.flatten.map (fun x : ℝ => x ^ p) = q.flatten.map (fun _ => (1 / (C : ℝ)) ^ p) := by
      apply List.map_congr_left
      intro x hx
      obtain ⟨r, hr, hxr⟩ := List.mem_flatten.1 hx
      rw [hu r hr x hxr]
    rw [this, List.map_const', List.sum_replicate, hlen, nsmul_eq_mul]
    push_cast
    rw [mul_div_cancel_left₀ _ hN.ne', hroot]
  · intro hu
    have : q.flatten.map (fun x : ℝ => x ^ p) = q.flatten.map id := by
      apply List.map_congr_left
      intro x hx
      obtain ⟨r, hr, hxr⟩ := List.mem_flatten.1 hx
      rcases hu r hr x hxr with h | h
      · rw [h, Real.zero_rpow hp0.ne']; rfl
      · rw [h, Real.one_rpow]; rfl
    rw [this, List.map_id, hsum]
    congr 1
    field_simp

theorem shiftRow_shift {K : Type} [Field K] [LinearOrder K] [IsStrictOrderedRing K] (r : List K) (hr : r ≠ []) : Score.shiftRow (Score.shiftRow r) = Score.shiftRow r := by
  have hne : Score.shiftRow r ≠ [] := by unfold Score.shiftRow; simpa using hr
  obtain ⟨h1, h2⟩ := maxOf_spec hr
  obtain ⟨g1, g2⟩ := maxOf_spec hne
  have hz : Score.maxOf (Score.shiftRow r) = 0 := by
    apply le_antisymm
    · obtain ⟨v, hv, e⟩ := List.mem_map.1 g2
      rw [← e]
      linarith [h1 v hv]
    · apply g1
      unfold Score.shiftRow
      exact List.mem_map.2 ⟨_, h2, sub_self _⟩
  have : Score.shiftRow (Score.shiftRow r) = (Score.shiftRow r).map (fun x => x - Score.maxOf (Score.shiftRow r)) := rfl
  rw [this, hz]
  simp

/-- Taylor normalisation gives probabilities whenever it gives numbers. -/
theorem taylorRow_range {r q : List ℝ} (h : Score.taylorRow r = some q) : (∀ x ∈ q, 0 ≤ x ∧ x ≤ 1) ∧ q.length = r.length := by
  unfold Score.taylorRow at h
  simp only at h
  set t := r.map (fun x : ℝ => 1 + x + x ^ 2 / 2) with ht
  split_ifs at h with hz
  simp only [Option.some.injEq] at h
  have h0 : ∀ x ∈ t.map (fun x => x - Score.minOf t), 0 ≤ x := by
    intro x hx
    obtain ⟨v, hv, rfl⟩ := List.mem_map.1 hx
    have := (minOf_spec (List.ne_nil_of_mem hv)).1 v hv
    linarith
  refine ⟨?_, by rw [← h]; simp [ht]⟩
  intro x hx
  rw [← h] at hx
  obtain ⟨v, hv, rfl⟩ := List.mem_map.1 hx
  have hpos : 0 < (t.map (fun x => x - Score.minOf t)).sum := lt_of_le_of_ne (List.sum_nonneg h0) (Ne.symm hz)
  exact ⟨div_nonneg (h0 v hv) hpos.le, (div_le_one hpos).2 (le_sum_of_mem h0 hv)⟩

/-- C51 (networks). For every logit matrix, threshold and order `p > 0` the score is NaN or lies in `[0, 1]`. -/
theorem C51_network_partial (gib : Bool) (p threshold : ℝ) (hp : 0 < p) (infer : List α → Py (List (List ℝ))) (X : List α) (y : List Num)
    (sd : List Int) (hX : X ≠ []) (hy : y.length = X.length) (hs : sd.length = X.length) (hty : findYType y = .ok .discrete)
    (L : List (List ℝ)) (hL : infer (targetRows sd X) = .ok L) (hne : L ≠ []) (hr : ∀ r ∈ L, r ≠ []) :
    Score.mano gib p threshold (fun a b => a ^ b) Real.exp Real.log (.network true infer) X y (.vec sd) = .ok none ∨
    ∃ s, Score.mano gib p threshold (fun a b => a ^ b) Real.exp Real.log (.network true infer) X y (.vec sd)
        = .ok (some (if gib then s else -s)) ∧ 0 ≤ s ∧ s ≤ 1 := by
  rw [mano_network_run gib p threshold _ Real.exp Real.log infer X y sd hX hy hs hty L hL]
  cases hq : Score.softrun Real.exp (Score.criterion Real.exp Real.log L).2 (Score.criterion Real.exp Real.log L).1 threshold with
  | none => left; rfl
  | some q =>
    right
    refine ⟨_, rfl, ?_⟩
    have hrange : (∀ r ∈ q, ∀ x ∈ r, 0 ≤ x ∧ x ≤ 1) ∧ q.flatten ≠ [] := by
      unfold Score.softrun at hq
      have hsh : (Score.criterion Real.exp Real.log L).2 = L.map Score.shiftRow := rfl
      rw [hsh] at hq
      by_cases hc : threshold < (Score.criterion Real.exp Real.log L).1
      · rw [if_pos hc] at hq
        simp only [Option.some.injEq] at hq
        have hrow : ∀ r ∈ q, r ≠ [] ∧ (∀ x ∈ r, 0 < x) ∧ r.sum = 1 := by
          intro r hr'
          rw [← hq, List.map_map, List.map_map] at hr'
          obtain ⟨r0, hr0, rfl⟩ := List.mem_map.1 hr'
          have h0 := hr r0 hr0
          simp only [Function.comp, Score.expRow]
          refine ⟨by simpa [Score.shiftRow] using h0, ?_⟩
          apply normalise_spec
          · simpa [Score.shiftRow] using h0
          · intro x hx
            obtain ⟨v, -, rfl⟩ := List.mem_map.1 hx
            exact Real.exp_pos v
        refine ⟨fun r hr' => prob_le_one (fun x hx => ((hrow r hr').2.1 x hx).le) (hrow r hr').2.2, ?_⟩
        have hqne : q ≠ [] := by rw [← hq]; simpa using hne
        obtain ⟨r, hr'⟩ := List.exists_mem_of_ne_nil q hqne
        intro h
        rw [List.flatten_eq_nil_iff] at h
        exact (hrow r hr').1 (h r hr')
      · rw [if_neg hc] at hq
        have hall : ∀ (l : List (List ℝ)) (q : List (List ℝ)), l.mapM Score.taylorRow = some q →
            q.length = l.length ∧ ∀ r ∈ q, ∃ r0 ∈ l, Score.taylorRow r0 = some r := by
          intro l
          induction l with
          | nil => intro q h; simp at h; subst h; simp
          | cons a l ih =>
            intro q h
            rw [List.mapM_cons] at h
            cases ha : Score.taylorRow a with
            | none => rw [ha] at h; simp at h
            | some b =>
              cases hl : l.mapM Score.taylorRow with
              | none => rw [ha, hl] at h; simp at h
              | some bs =>
                rw [ha, hl] at h
                simp at h
                subst h
                obtain ⟨e1, e2⟩ := ih bs hl
                refine ⟨by simp [e1], ?_⟩
                intro r hr'
                rcases List.mem_cons.1 hr' with rfl | hr'
                · exact ⟨a, List.mem_cons_self, ha⟩
                · obtain ⟨r0, h0, h1⟩ := e2 r hr'
                  exact ⟨r0, List.mem_cons_of_mem _ h0, h1⟩
        obtain ⟨e1, e2⟩ := hall _ _ hq
        refine ⟨?_, ?_⟩
        · intro r hr'
          obtain ⟨r0, -, h1⟩ := e2 r hr'
          exact (taylorRow_range h1).1
        · have hqne : q ≠ [] := by
            intro h
            rw [h] at e1
            simp at e1
            exact hne (List.length_eq_zero_iff.1 e1.symm)
          obtain ⟨r, hr'⟩ := List.exists_mem_of_ne_nil q hqne
          obtain ⟨r0, h0, h1⟩ := e2 r hr'
          intro h
          rw [List.flatten_eq_nil_iff] at h
          have := (taylorRow_range h1).2
          rw [h r hr'] at this
          obtain ⟨r1, hr1, e⟩ := List.mem_map.1 h0
          rw [← e] at this
          simp [Score.shiftRow] at this
          exact hr r1 hr1 (List.length_eq_zero_iff.1 this.symm)
    exact manoAggregate_range p hp q hrange.1 hrange.2

theorem minOf_const {K : Type} [Field K] [LinearOrder K] [IsStrictOrderedRing K] {l : List K} {c : K} (h : ∀ x ∈ l, x = c) (hne : l ≠ []) :
    Score.minOf l = c := h _ (minOf_spec hne).2

/-- C51 (negation). If the Taylor normalisation is chosen and some target row has equal logits for all classes (the network is maximally unsure), the score
is NaN, whatever the other rows are. -/
theorem C51_equal_logits_counterexample {K : Type} [Field K] [LinearOrder K] [IsStrictOrderedRing K] (gib : Bool) (p threshold : K)
    (pw : K → K → K) (ex lg : K → K) (infer : List α → Py (List (List K))) (X : List α) (y : List Num) (sd : List Int) (hX : X ≠ [])
    (hy : y.length = X.length) (hs : sd.length = X.length) (hty : findYType y = .ok .discrete) (L : List (List K))
    (hL : infer (targetRows sd X) = .ok L) (hc : (Score.criterion ex lg L).1 ≤ threshold) (r : List K) (hr : r ∈ L) (c : K)
    (heq : ∀ x ∈ r, x = c) :
    Score.mano gib p threshold pw ex lg (.network true infer) X y (.vec sd) = .ok none := by
  rw [mano_network_run gib p threshold pw ex lg infer X y sd hX hy hs hty L hL]
  unfold Score.softrun
  rw [if_neg (not_lt.2 hc)]
  have h : (Score.criterion ex lg L).2.mapM Score.taylorRow = none := by
    apply mapM_none
    refine ⟨Score.shiftRow r, List.mem_map.2 ⟨r, hr, rfl⟩, ?_⟩
    unfold Score.taylorRow
    simp only
    rw [if_pos]
    apply List.sum_eq_zero
    intro x hx
    obtain ⟨v, hv, rfl⟩ := List.mem_map.1 hx
    have hall : ∀ w ∈ (Score.shiftRow r).map (fun x => 1 + x + x ^ 2 / 2), w = 1 + (c - Score.maxOf r) + (c - Score.maxOf r) ^ 2 / 2 := by
      intro w hw
      obtain ⟨z, hz, rfl⟩ := List.mem_map.1 hw
      obtain ⟨z0, hz0, rfl⟩ := List.mem_map.1 hz
      rw [heq z0 hz0]
    rw [minOf_const hall (List.ne_nil_of_mem hv), hall v hv, sub_self]
  rw [h]
  rfl

/-- C51 (the previous situation occurs). Two classes, one target row, equal logits, default threshold 5, exact real functions: NaN. -/
theorem C51_equal_logits_reachable (c : ℝ) : (Score.criterion Real.exp Real.log [[c, c]]).1 ≤ 5 := by
  have hm : Score.maxOf [c, c] = c := by simp [Score.maxOf]
  simp only [Score.criterion, Score.shiftRow, Score.expRow, Score.mean, List.map_cons, List.map_nil, hm, sub_self, Real.exp_zero,
    List.sum_cons, List.sum_nil, List.flatten_cons, List.flatten_nil, List.append_nil, List.length_cons, List.length_nil]
  have : Real.log (1 / (1 + (1 + 0))) = -Real.log 2 := by
    rw [one_div, Real.log_inv]; norm_num
  rw [this]
  have h2 : Real.log 2 ≤ 2 - 1 := Real.log_le_sub_one_of_pos (by norm_num)
  norm_num
  linarith

/-- C51 (order). Building the scorer with an order `p ≤ 0` raises `ValueError`, with `p > 0` it does not; an estimator without `predict_proba`
gives `AttributeError`; a network without `layer_name` `ValueError`; regression labels `ValueError`. -/
theorem C51_errors {K : Type} [Field K] [LinearOrder K] [IsStrictOrderedRing K] (gib : Bool) (p threshold : K) (pw : K → K → K) (ex lg : K → K)
    (X : List α) (y : List Num) (sd : List Int) (hX : X ≠ []) (hy : y.length = X.length) (hs : sd.length = X.length) :
    (p ≤ 0 → Score.manoInit p = .error .valueError) ∧ (0 < p → Score.manoInit p = .ok ()) ∧
    Score.mano gib p threshold pw ex lg (.noProba : Score.Predictor α K) X y (.vec sd) = .error .attributeError ∧
    (∀ infer, findYType y = .ok .discrete → Score.mano gib p threshold pw ex lg (.network false infer) X y (.vec sd) = .error .valueError) ∧
    (∀ infer b, findYType y = .ok .continuous → Score.mano gib p threshold pw ex lg (.network b infer) X y (.vec sd) = .error .valueError) := by
  refine ⟨fun h => if_pos h, fun h => if_neg (not_le.2 h), rfl, ?_, ?_⟩
  · intro infer hty
    unfold Score.mano
    simp only
    rw [checkXy_vec hX hy hs]
    simp only [ok_bind]
    rw [extractSourceIndices_ok (sd_ne_nil hX hs)]
    simp only [ok_bind]
    rw [boolIndex_target hs.symm, boolIndex_target rfl]
    simp only [ok_bind, hty]
    rfl
  · intro infer b hty
    unfold Score.mano
    simp only
    rw [checkXy_vec hX hy hs]
    simp only [ok_bind]
    rw [extractSourceIndices_ok (sd_ne_nil hX hs)]
    simp only [ok_bind]
    rw [boolIndex_target hs.symm, boolIndex_target rfl]
    simp only [ok_bind, hty]

/-! ### C82: normalisation keeps the ranking of the classes -/

/-- C82 (softmax). When softmax is chosen (criterion above the threshold), a class with a larger logit gets a larger probability. -/
theorem C82_softmax_partial (L : List (List ℝ)) (threshold : ℝ) (hc : threshold < (Score.criterion Real.exp Real.log L).1) (hr : ∀ r ∈ L, r ≠ []) :
    ∃ Q, Score.softrun Real.exp (Score.criterion Real.exp Real.log L).2 (Score.criterion Real.exp Real.log L).1 threshold = some Q ∧
      ∀ (i j k : Nat) (r q : List ℝ) (a b u v : ℝ), L[i]? = some r → Q[i]? = some q → r[j]? = some a → r[k]? = some b → q[j]? = some u →
        q[k]? = some v → (a < b ↔ u < v) := by
  unfold Score.softrun
  rw [if_pos hc]
  refine ⟨_, rfl, ?_⟩
  intro i j k r q a b u v h1 h2 h3 h4 h5 h6
  simp only [Score.criterion, List.getElem?_map, h1, Option.map_some, Option.some.injEq] at h2
  rw [shiftRow_shift r (hr r (List.mem_of_getElem? h1))] at h2
  rw [← h2] at h5 h6
  simp only [Score.expRow, Score.shiftRow, List.getElem?_map, h3, h4, Option.map_some, Option.some.injEq] at h5 h6
  rw [← h5, ← h6]
  have hpos : 0 < ((r.map (fun x => x - Score.maxOf r)).map Real.exp).sum := by
    apply List.sum_pos
    · intro x hx
      obtain ⟨w, -, rfl⟩ := List.mem_map.1 hx
      exact Real.exp_pos w
    · intro h
      simp at h
      exact hr r (List.mem_of_getElem? h1) h
  rw [div_lt_div_iff_of_pos_right hpos, Real.exp_lt_exp]
  constructor <;> intro h <;> linarith

/-- C82 (Taylor, close logits). If the logits of a row differ from the largest by at most 1, the Taylor normalisation keeps their order. -/
theorem C82_taylor_partial {K : Type} [Field K] [LinearOrder K] [IsStrictOrderedRing K] (r q : List K) (hr : ∀ x ∈ r, Score.maxOf r - 1 ≤ x)
    (hq : Score.taylorRow (Score.shiftRow r) = some q) (j k : Nat) (a b u v : K) (h3 : r[j]? = some a) (h4 : r[k]? = some b)
    (h5 : q[j]? = some u) (h6 : q[k]? = some v) : a < b ↔ u < v := by
  unfold Score.taylorRow at hq
  simp only at hq
  set t := (Score.shiftRow r).map (fun x : K => 1 + x + x ^ 2 / 2) with ht
  split_ifs at hq with hz
  simp only [Option.some.injEq] at hq
  have h0 : ∀ x ∈ t.map (fun x => x - Score.minOf t), 0 ≤ x := by
    intro x hx
    obtain ⟨v, hv, rfl⟩ := List.mem_map.1 hx
    have := (minOf_spec (List.ne_nil_of_mem hv)).1 v hv
    linarith
  have hpos : 0 < (t.map (fun x => x - Score.minOf t)).sum := lt_of_le_of_ne (List.sum_nonneg h0) (Ne.symm hz)
  rw [← hq] at h5 h6
  rw [ht] at h5 h6
  simp only [List.getElem?_map, Score.shiftRow, h3, h4, Option.map_some, Option.some.injEq] at h5 h6
  have hS : Score.shiftRow r = r.map (fun x => x - Score.maxOf r) := rfl
  rw [ht, hS] at hpos
  rw [← h5, ← h6, div_lt_div_iff_of_pos_right hpos]
  have ha := hr a (List.mem_of_getElem? h3)
  have hb := hr b (List.mem_of_getElem? h4)
  have ma := (maxOf_spec (List.ne_nil_of_mem (List.mem_of_getElem? h3))).1 a (List.mem_of_getElem? h3)
  have mb := (maxOf_spec (List.ne_nil_of_mem (List.mem_of_getElem? h3))).1 b (List.mem_of_getElem? h4)
  generalize Score.maxOf r = m at *
  constructor
  · intro h
    nlinarith
  · intro h
    by_contra hab
    push Not at hab
    nlinarith

/-- C82 (negation). A row whose logits are `m` and `m - 3` (the network clearly prefers class 0) is normalised to `[0, 1]`: all probability goes to the class
the network rejects. This holds for every `m`, because the logits are first shifted in place. -/
theorem C82_taylor_counterexample (m : ℚ) : Score.taylorRow (Score.shiftRow [m, m - 3]) = some [0, 1] := by
  have hm : Score.maxOf [m, m - 3] = m := by
    simp only [Score.maxOf, List.foldl_cons, List.foldl_nil]
    exact max_eq_left (by linarith)
  have hs : Score.shiftRow [m, m - 3] = [0, -3] := by
    simp only [Score.shiftRow, hm, List.map_cons, List.map_nil]
    norm_num
  rw [hs]
  decide +kernel

example : Score.taylorRow (Score.shiftRow ([2, 3 / 2, 1] : List ℚ)) = some [4 / 5, 1 / 5, 0] := by decide +kernel
example : Score.mano true 2 5 (fun a b => if b = 2 then a ^ 2 else a) (fun x => x + 4) (fun x => x) (.network true (fun X => .ok (X.map (fun _ => [2, 3 / 2, 1]))))
    [7, 8] [.fin 0, .fin (-1)] (.vec [1, -2]) = .ok (some (17 / 75 : ℚ)) := by decide +kernel

end Mano
end Skada

/-
C96: the schedules and the epoch counter of SPA (skada/deep/_graph_alignment.py:43-132, skada/deep/callbacks.py:173-182).
-/
import Verif.Props.DeepAdv
import Mathlib.Analysis.SpecialFunctions.Trigonometric.DerivHyp

namespace Skada

open Spec Np

namespace Adv

theorem tanh_mono {x y : ℝ} (h : x ≤ y) : Real.tanh x ≤ Real.tanh y := by
  have key : ∀ z : ℝ, Real.tanh z = 1 - 2 / (Real.exp (2 * z) + 1) := by
    intro z
    rw [Real.tanh_eq_sinh_div_cosh, Real.sinh_eq, Real.cosh_eq]
    have e1 : Real.exp (2 * z) = Real.exp z / Real.exp (-z) := by rw [← Real.exp_sub]; congr 1; ring
    rw [e1]
    have p1 := Real.exp_pos z
    have p2 := Real.exp_pos (-z)
    field_simp
    ring
  rw [key, key]
  have h1 : Real.exp (2 * x) ≤ Real.exp (2 * y) := Real.exp_le_exp.2 (by linarith)
  have h2 := Real.exp_pos (2 * x)
  have := div_le_div_of_nonneg_left (a := (2 : ℝ)) (by norm_num) (by linarith : 0 < Real.exp (2 * x) + 1) (by linarith : Real.exp (2 * x) + 1 ≤ Real.exp (2 * y) + 1)
  linarith

theorem schedulerAdv_eq (high low alpha : ℝ) (n m : Nat) (hm : m ≠ 0) :
    schedulerAdv Real.exp high low alpha n m = .ok (low + (high - low) * Real.tanh (alpha * n / (2 * m))) := by
  unfold schedulerAdv
  rw [if_neg hm]
  congr 1
  have h : -alpha * (n : ℝ) / (m : ℝ) = -(2 * (alpha * n / (2 * m))) := by
    have : (m : ℝ) ≠ 0 := by exact_mod_cast hm
    field_simp
  rw [h]
  generalize alpha * (n : ℝ) / (2 * m) = x
  rw [Real.tanh_eq_sinh_div_cosh, Real.sinh_eq, Real.cosh_eq]
  have e1 : Real.exp (-(2 * x)) = Real.exp (-x) / Real.exp x := by rw [← Real.exp_sub]; congr 1; ring
  rw [e1]
  have p1 := Real.exp_pos x
  have p2 := Real.exp_pos (-x)
  field_simp
  ring

theorem seen_epochs (s : Epochs) (k : Nat) (l : List Event) :
    Epochs.seen s (List.replicate k .epochBegin ++ l) = (List.range k).map (fun i => s.crit + i + 1) ++ Epochs.seen { s with crit := s.crit + k } l := by
  induction k generalizing s with
  | zero => simp
  | succ k ih =>
    rw [List.replicate_succ, List.cons_append, Epochs.seen, ih, List.range_succ_eq_map, List.map_cons, List.cons_append, List.map_map]
    simp only [Epochs.step, Nat.add_zero]
    have h1 : (fun i => s.crit + 1 + i + 1) = (fun i => s.crit + i + 1) ∘ Nat.succ := by
      funext i; simp only [Function.comp]; omega
    rw [h1, show s.crit + 1 + k = s.crit + (k + 1) by omega]

theorem seen_fits (s : Epochs) (ks : List Nat) :
    Epochs.seen s (ks.flatMap fitEvents) = (List.range ks.sum).map (fun i => s.crit + i + 1) := by
  induction ks generalizing s with
  | nil => rfl
  | cons k ks ih =>
    rw [List.flatMap_cons, fitEvents, List.cons_append, Epochs.seen, seen_epochs, ih, List.sum_cons, List.range_add, List.map_append, List.map_map]
    simp only [Epochs.step]
    congr 1
    refine List.map_congr_left fun i _ => ?_
    simp only [Function.comp]; omega

end Adv

/-- C96.  The adversarial weight is `low + (high - low) * tanh (alpha * n / (2 * max_epochs))`: it starts at `low`, never decreases with the epoch,
and stays below `high`. -/
theorem C96_adv (high low alpha : ℝ) (hlh : low < high) (ha : 0 ≤ alpha) (m : Nat) (hm : m ≠ 0) :
    ∃ w : Nat → ℝ, (∀ n, Adv.schedulerAdv Real.exp high low alpha n m = .ok (w n) ∧ w n = low + (high - low) * Real.tanh (alpha * n / (2 * m)) ∧ low ≤ w n ∧ w n < high) ∧
      w 0 = low ∧ Monotone w := by
  refine ⟨fun n => low + (high - low) * Real.tanh (alpha * n / (2 * m)), fun n => ⟨Adv.schedulerAdv_eq high low alpha n m hm, rfl, ?_, ?_⟩, ?_, ?_⟩
  · have : 0 ≤ Real.tanh (alpha * n / (2 * m)) := by
      have := Adv.tanh_mono (show (0 : ℝ) ≤ alpha * n / (2 * m) by positivity)
      rwa [Real.tanh_zero] at this
    nlinarith
  · have := Real.tanh_lt_one (alpha * n / (2 * m)); nlinarith
  · simp
  · intro a b hab
    have hab' : (a : ℝ) ≤ b := by exact_mod_cast hab
    have : Real.tanh (alpha * a / (2 * m)) ≤ Real.tanh (alpha * b / (2 * m)) := by
      apply Adv.tanh_mono
      exact div_le_div_of_nonneg_right (mul_le_mul_of_nonneg_left hab' ha) (by positivity)
    dsimp only
    nlinarith

example : ∃ w : Nat → ℝ, (∀ n, Adv.schedulerAdv Real.exp 1 0 10 n 100 = .ok (w n)) ∧ w 0 = 0 ∧ w 3 ≤ w 100 := by
  obtain ⟨w, h1, h2, h3⟩ := C96_adv 1 0 10 (by norm_num) (by norm_num) 100 (by norm_num)
  exact ⟨w, fun n => (h1 n).1, h2, h3 (by norm_num)⟩

/-- C96, part: in the first call of `fit` (of a fresh network), with at most `max_epochs` epochs, the loss sees the epochs 1, 2, …, and the weight of the
pseudo-label term grows linearly, positive and at most 1.  For later calls it does not hold, see the counterexample. -/
theorem C96_first_fit_partial (k m : Nat) (hk : k ≤ m) :
    Adv.Epochs.seen Adv.Epochs.init (Adv.fitEvents k) = (List.range k).map (fun i => i + 1) ∧
    ∀ n ∈ Adv.Epochs.seen Adv.Epochs.init (Adv.fitEvents k), ∃ w : ℝ, Adv.schedulerNap n m = .ok w ∧ w = n / m ∧ 0 < w ∧ w ≤ 1 := by
  have h : Adv.Epochs.seen Adv.Epochs.init (Adv.fitEvents k) = (List.range k).map (fun i => i + 1) := by
    have := Adv.seen_fits Adv.Epochs.init [k]
    simpa [Adv.Epochs.init] using this
  refine ⟨h, fun n hn => ?_⟩
  rw [h] at hn
  obtain ⟨i, hi, rfl⟩ := List.mem_map.1 hn
  rw [List.mem_range] at hi
  have hm : m ≠ 0 := by omega
  have hm' : (0 : ℝ) < m := by exact_mod_cast Nat.pos_of_ne_zero hm
  refine ⟨_, by rw [Adv.schedulerNap, if_neg hm], rfl, by positivity, ?_⟩
  rw [div_le_one hm']
  exact_mod_cast (by omega : i + 1 ≤ m)

example : Adv.Epochs.seen Adv.Epochs.init (Adv.fitEvents 3) = [1, 2, 3] := (C96_first_fit_partial 3 3 le_rfl).1

/-- C96, counterexample: the counter is not reset when `fit` is called again, so from the second call on the pseudo-label weight is above 1 in every
epoch (here: all calls run `max_epochs` epochs). -/
theorem C96_refit_counterexample (m : Nat) (hm : 0 < m) (calls : Nat) :
    Adv.Epochs.seen Adv.Epochs.init ((List.replicate (calls + 1) m).flatMap Adv.fitEvents) = (List.range (m + calls * m)).map (fun i => i + 1) ∧
    ∀ n ∈ (Adv.Epochs.seen Adv.Epochs.init ((List.replicate (calls + 1) m).flatMap Adv.fitEvents)).drop m, ∃ w : ℝ, Adv.schedulerNap n m = .ok w ∧ 1 < w := by
  have h : Adv.Epochs.seen Adv.Epochs.init ((List.replicate (calls + 1) m).flatMap Adv.fitEvents) = (List.range (m + calls * m)).map (fun i => i + 1) := by
    rw [Adv.seen_fits, List.sum_replicate, smul_eq_mul, Nat.succ_mul, Nat.add_comm (calls * m) m]
    simp [Adv.Epochs.init]
  refine ⟨h, fun n hn => ?_⟩
  rw [h, ← List.map_drop, List.range_add, List.drop_left' (by simp)] at hn
  obtain ⟨i, hi, rfl⟩ := List.mem_map.1 hn
  obtain ⟨j, -, rfl⟩ := List.mem_map.1 hi
  have hm' : (0 : ℝ) < m := by exact_mod_cast hm
  refine ⟨_, by rw [Adv.schedulerNap, if_neg hm.ne'], ?_⟩
  rw [lt_div_iff₀ hm', one_mul]
  exact_mod_cast (by omega : m < m + j + 1)

example : Adv.Epochs.seen Adv.Epochs.init ((List.replicate 2 2).flatMap Adv.fitEvents) = [1, 2, 3, 4] := (C96_refit_counterexample 2 (by norm_num) 1).1

/-- C96.  The SPA loss in epoch `n`: adversarial, alignment and pseudo-label terms with their weights. -/
theorem C96_loss (crit : List ℝ → List ℝ → Py (Option ℝ)) (regAdv regGsa regNap : ℝ) (n m : Nat) (hm : m ≠ 0) (ps pt : List ℝ) (a b g p : ℝ)
    (ha : crit ps (List.replicate ps.length 0) = .ok (some a)) (hb : crit pt (List.replicate pt.length 1) = .ok (some b)) :
    Adv.spaLoss Real.exp crit (.ok (some g)) (.ok (some p)) regAdv regGsa regNap n m ps pt =
      .ok (some (regAdv * Real.tanh (5 * n / m) * (a + b) + regGsa * g + regNap * (n / m) * p)) := by
  unfold Adv.spaLoss Adv.dannLoss
  rw [Adv.schedulerAdv_eq 1 0 10 n m hm, ha, hb]
  simp only [Adv.schedulerNap, if_neg hm, ok_bind]
  have : (10 : ℝ) * n / (2 * m) = 5 * n / m := by
    have : (m : ℝ) ≠ 0 := by exact_mod_cast hm
    field_simp; ring
  rw [this]
  simp [Adv.addLoss, pure, Except.pure, Except.bind, bind]

example : Adv.spaLoss Real.exp (fun _ _ => .ok (some 1)) (.ok (some 2)) (.ok (some 3)) 1 1 1 100 100 [0] [(0 : ℝ)] =
    .ok (some (1 * Real.tanh (5 * (100 : ℕ) / (100 : ℕ)) * (1 + 1) + 1 * 2 + 1 * ((100 : ℕ) / (100 : ℕ)) * 3)) :=
  C96_loss _ 1 1 1 100 100 (by norm_num) [0] [0] 1 1 2 3 rfl rfl

/-- C96, counterexample: with the default domain classifier the adversarial term of SPA does not depend on features or network, only on the epoch. -/
theorem C96_default_counterexample {d : Nat} (layers : List (Fin d → ℝ) → List (Fin 1 → ℝ)) (hlen : ∀ X, (layers X).length = X.length) (Xs Xt : List (Fin d → ℝ)) (hs : Xs ≠ []) (ht : Xt ≠ [])
    (regAdv regGsa regNap : ℝ) (n m : Nat) (hm : m ≠ 0) (g p : ℝ) :
    Adv.spaLoss Real.exp (Adv.bceLoss Real.log) (.ok (some g)) (.ok (some p)) regAdv regGsa regNap n m
      ((Adv.squeeze1 (Adv.domainClassifier Real.exp layers (Xs ++ Xt))).take Xs.length) ((Adv.squeeze1 (Adv.domainClassifier Real.exp layers (Xs ++ Xt))).drop Xs.length) =
      .ok (some (regAdv * Real.tanh (5 * n / m) * 100 + regGsa * g + regNap * (n / m) * p)) := by
  have h := (C94_default_counterexample layers hlen Xs Xt hs ht).2
  unfold Adv.spaLoss
  rw [h, Adv.schedulerAdv_eq 1 0 10 n m hm]
  simp only [Adv.schedulerNap, if_neg hm, ok_bind]
  have : (10 : ℝ) * n / (2 * m) = 5 * n / m := by
    have : (m : ℝ) ≠ 0 := by exact_mod_cast hm
    field_simp; ring
  rw [this]
  simp [Adv.addLoss, pure, Except.pure]

/-- C96.  `max_epochs = 0` is a `ZeroDivisionError`. -/
theorem C96_zero_epochs (crit : List ℝ → List ℝ → Py (Option ℝ)) (g p : Py (Option ℝ)) (regAdv regGsa regNap : ℝ) (n : Nat) (ps pt : List ℝ) :
    Adv.spaLoss Real.exp crit g p regAdv regGsa regNap n 0 ps pt = .error .zeroDivisionError := rfl

end Skada

/-
C94: domain-adversarial losses (skada/deep/_adversarial.py:25-203, skada/deep/modules.py:136-196).
-/
import Verif.Props.DeepMMD
import Verif.Model.DeepAdv
import Verif.Lemmas.Monad
import Verif.Lemmas.Np
import Mathlib.Analysis.SpecialFunctions.Log.Basic
import Mathlib.Analysis.Complex.ExponentialBounds

namespace Skada

open Spec Np

variable {d c : Nat}

namespace Adv

theorem clampLog_ge (p : ℝ) : -100 ≤ clampLog Real.log p := by
  unfold clampLog; split_ifs
  · exact le_rfl
  · exact le_max_right _ _

theorem clampLog_nonpos {p : ℝ} (hp : p ≤ 1) : clampLog Real.log p ≤ 0 := by
  unfold clampLog; split_ifs with h
  · norm_num
  · exact max_le (Real.log_nonpos (not_le.1 h).le hp) (by norm_num)

theorem clampLog_eq_zero {p : ℝ} (hp : p ≤ 1) : clampLog Real.log p = 0 ↔ p = 1 := by
  constructor
  · intro h
    unfold clampLog at h
    split_ifs at h with h0
    · norm_num at h
    · rcases max_choice (Real.log p) (-100) with hm | hm
      · rw [hm] at h
        by_contra hne
        exact absurd h (Real.log_neg (not_le.1 h0) (lt_of_le_of_ne hp hne)).ne
      · rw [hm] at h; norm_num at h
  · rintro rfl
    simp [clampLog]

theorem bce_zero (p : ℝ) : bceTerm Real.log p 0 = - clampLog Real.log (1 - p) := by simp [bceTerm]

theorem bce_one (p : ℝ) : bceTerm Real.log p 1 = - clampLog Real.log p := by simp [bceTerm]

theorem zipWith_replicate {α β γ : Type} (f : α → β → γ) (l : List α) (b : β) : List.zipWith f l (List.replicate l.length b) = l.map (fun a => f a b) := by
  induction l with
  | nil => rfl
  | cons a l ih => simp [List.replicate_succ, ih]

/-- `v` is the value of a loss -/
theorem dann_eq (ps pt : List ℝ) (hs : ∀ p ∈ ps, 0 ≤ p ∧ p ≤ 1) (ht : ∀ p ∈ pt, 0 ≤ p ∧ p ≤ 1) (hs0 : ps ≠ []) (ht0 : pt ≠ []) :
    dannLoss (bceLoss Real.log) ps pt =
      .ok (some (DL.mean (ps.map (fun p => - clampLog Real.log (1 - p))) + DL.mean (pt.map (fun p => - clampLog Real.log p)))) := by
  have hany : ∀ l : List ℝ, (∀ p ∈ l, 0 ≤ p ∧ p ≤ 1) → l.any (fun p => decide (p < 0) || decide (1 < p)) = false := by
    intro l hl
    rw [List.any_eq_false]
    intro p hp
    have := hl p hp
    simp [this.1, this.2]
  unfold dannLoss bceLoss
  rw [if_neg (by simp), hany ps hs, if_neg (by simp), if_neg hs0, if_neg (by simp), hany pt ht, if_neg (by simp), if_neg ht0,
    zipWith_replicate, zipWith_replicate]
  simp only [bce_zero, bce_one]
  rfl

theorem mean_nonneg {l : List ℝ} (h : ∀ x ∈ l, 0 ≤ x) : 0 ≤ DL.mean l := div_nonneg (List.sum_nonneg h) (by positivity)

theorem mean_le {l : List ℝ} {b : ℝ} (hl : l ≠ []) (h : ∀ x ∈ l, x ≤ b) : DL.mean l ≤ b := by
  have hpos : (0 : ℝ) < (l.length : ℝ) := by exact_mod_cast List.length_pos_of_ne_nil hl
  unfold DL.mean
  rw [div_le_iff₀ hpos]
  have := List.sum_le_card_nsmul l b h
  rw [nsmul_eq_mul] at this
  linarith [mul_comm (l.length : ℝ) b]

theorem mean_eq_zero {l : List ℝ} (h : ∀ x ∈ l, 0 ≤ x) : DL.mean l = 0 ↔ ∀ x ∈ l, x = 0 := by
  constructor
  · intro h0
    rcases eq_or_ne l [] with rfl | hl
    · simp
    have hpos : (0 : ℝ) < (l.length : ℝ) := by exact_mod_cast List.length_pos_of_ne_nil hl
    have hs : l.sum = 0 := by
      unfold DL.mean at h0
      rcases div_eq_zero_iff.1 h0 with h' | h'
      · exact h'
      · exact absurd h' hpos.ne'
    intro x hx
    exact le_antisymm (hs ▸ List.single_le_sum h x hx) (h x hx)
  · intro h0
    unfold DL.mean
    rw [List.sum_eq_zero h0, zero_div]

theorem log_two_lt : 2 * Real.log 2 < 100 := by have := Real.log_two_lt_d9; linarith

/-- Both kinds of errors at one prediction -/
theorem ambiguity {p : ℝ} (h0 : 0 ≤ p) (h1 : p ≤ 1) :
    2 * Real.log 2 ≤ - clampLog Real.log (1 - p) + - clampLog Real.log p ∧
      (- clampLog Real.log (1 - p) + - clampLog Real.log p = 2 * Real.log 2 → p = 1 / 2) := by
  have ha := clampLog_nonpos h1
  have hb : clampLog Real.log (1 - p) ≤ 0 := clampLog_nonpos (by linarith)
  have hl := log_two_lt
  by_cases hp : clampLog Real.log p = -100
  · exact ⟨by linarith, fun h => by linarith⟩
  by_cases hq : clampLog Real.log (1 - p) = -100
  · exact ⟨by linarith, fun h => by linarith⟩
  have key : ∀ q : ℝ, clampLog Real.log q ≠ -100 → 0 < q ∧ clampLog Real.log q = Real.log q := by
    intro q hq
    unfold clampLog at hq ⊢
    split_ifs at hq ⊢ with h
    · exact absurd rfl hq
    · refine ⟨not_le.1 h, ?_⟩
      rcases max_choice (Real.log q) (-100) with hm | hm
      · exact hm
      · exact absurd hm hq
  obtain ⟨hp0, hpl⟩ := key p hp
  obtain ⟨hq0, hql⟩ := key (1 - p) hq
  rw [hpl, hql]
  have hprod : Real.log (1 - p) + Real.log p = Real.log ((1 - p) * p) := (Real.log_mul hq0.ne' hp0.ne').symm
  have h4 : 2 * Real.log 2 = - Real.log (1 / 4) := by
    rw [one_div, Real.log_inv, show (4 : ℝ) = 2 ^ 2 by norm_num, Real.log_pow]; push_cast; ring
  have hpos : 0 < (1 - p) * p := mul_pos hq0 hp0
  have hle : (1 - p) * p ≤ 1 / 4 := by nlinarith [sq_nonneg (p - 1 / 2)]
  constructor
  · have := Real.log_le_log hpos hle
    linarith
  · intro h
    have heq : Real.log ((1 - p) * p) = Real.log (1 / 4) := by linarith
    have := Real.log_injOn_pos (Set.mem_Ioi.2 hpos) (Set.mem_Ioi.2 (by norm_num : (0 : ℝ) < 1 / 4)) heq
    have hz : (p - 1 / 2) ^ 2 = 0 := by nlinarith
    have := pow_eq_zero_iff two_ne_zero |>.1 hz
    linarith

end Adv

/-- C94.  The DANN loss of predictions in [0, 1] is a number between 0 and 200; it is 0 exactly when every source row is predicted as source (0)
and every target row as target (1). -/
theorem C94_range (ps pt : List ℝ) (hs : ∀ p ∈ ps, 0 ≤ p ∧ p ≤ 1) (ht : ∀ p ∈ pt, 0 ≤ p ∧ p ≤ 1) (hs0 : ps ≠ []) (ht0 : pt ≠ []) :
    ∃ v, Adv.dannLoss (Adv.bceLoss Real.log) ps pt = .ok (some v) ∧ 0 ≤ v ∧ v ≤ 200 ∧ (v = 0 ↔ (∀ p ∈ ps, p = 0) ∧ ∀ p ∈ pt, p = 1) := by
  refine ⟨_, Adv.dann_eq ps pt hs ht hs0 ht0, ?_⟩
  have hS : ∀ x ∈ ps.map (fun p => - Adv.clampLog Real.log (1 - p)), 0 ≤ x := by
    intro x hx; obtain ⟨p, hp, rfl⟩ := List.mem_map.1 hx
    have := Adv.clampLog_nonpos (p := 1 - p) (by linarith [(hs p hp).1]); linarith
  have hT : ∀ x ∈ pt.map (fun p => - Adv.clampLog Real.log p), 0 ≤ x := by
    intro x hx; obtain ⟨p, hp, rfl⟩ := List.mem_map.1 hx
    have := Adv.clampLog_nonpos (ht p hp).2; linarith
  have h1 := Adv.mean_nonneg hS
  have h2 := Adv.mean_nonneg hT
  have h3 : DL.mean (ps.map (fun p => - Adv.clampLog Real.log (1 - p))) ≤ 100 := Adv.mean_le (by simpa using hs0) (by
    intro x hx; obtain ⟨p, -, rfl⟩ := List.mem_map.1 hx; have := Adv.clampLog_ge (1 - p); linarith)
  have h4 : DL.mean (pt.map (fun p => - Adv.clampLog Real.log p)) ≤ 100 := Adv.mean_le (by simpa using ht0) (by
    intro x hx; obtain ⟨p, -, rfl⟩ := List.mem_map.1 hx; have := Adv.clampLog_ge p; linarith)
  refine ⟨by linarith, by linarith, ?_⟩
  rw [show ∀ a b : ℝ, 0 ≤ a → 0 ≤ b → (a + b = 0 ↔ a = 0 ∧ b = 0) from fun a b ha hb => add_eq_zero_iff_of_nonneg ha hb]
  · rw [Adv.mean_eq_zero hS, Adv.mean_eq_zero hT]
    simp only [List.mem_map, forall_exists_index, and_imp, forall_apply_eq_imp_iff₂, neg_eq_zero]
    refine and_congr (forall₂_congr fun p hp => ?_) (forall₂_congr fun p hp => ?_)
    · rw [Adv.clampLog_eq_zero (by linarith [(hs p hp).1])]
      constructor <;> intro h <;> linarith
    · exact Adv.clampLog_eq_zero (ht p hp).2
  · exact h1
  · exact h2

example : ∃ v, Adv.dannLoss (Adv.bceLoss Real.log) [0, 1 / 3] [(1 : ℝ)] = .ok (some v) ∧ 0 ≤ v ∧ v ≤ 200 ∧ v ≠ 0 := by
  obtain ⟨v, h1, h2, h3, h4⟩ := C94_range [0, 1 / 3] [(1 : ℝ)] (by intro p hp; simp at hp; rcases hp with rfl | rfl <;> norm_num) (by simp) (by simp) (by simp)
  refine ⟨v, h1, h2, h3, fun h => ?_⟩
  have := (h4.1 h).1 (1 / 3) (by simp)
  norm_num at this

/-- C94.  Away from 0 and 1 the loss is the textbook one. -/
theorem C94_value (ps pt : List ℝ) (hs : ∀ p ∈ ps, 0 ≤ p ∧ Real.exp (-100) ≤ 1 - p) (ht : ∀ p ∈ pt, Real.exp (-100) ≤ p ∧ p ≤ 1) (hs0 : ps ≠ []) (ht0 : pt ≠ []) :
    Adv.dannLoss (Adv.bceLoss Real.log) ps pt =
      .ok (some ((ps.map (fun p => - Real.log (1 - p))).sum / (ps.length : ℝ) + (pt.map (fun p => - Real.log p)).sum / (pt.length : ℝ))) := by
  have key : ∀ q : ℝ, Real.exp (-100) ≤ q → Adv.clampLog Real.log q = Real.log q := by
    intro q hq
    have hq0 : 0 < q := (Real.exp_pos _).trans_le hq
    unfold Adv.clampLog
    rw [if_neg (not_le.2 hq0), max_eq_left ((Real.le_log_iff_exp_le hq0).2 hq)]
  have he := Real.exp_pos (-100)
  rw [Adv.dann_eq ps pt (fun p hp => ⟨(hs p hp).1, by linarith [(hs p hp).2]⟩) (fun p hp => ⟨by linarith [(ht p hp).1], (ht p hp).2⟩) hs0 ht0]
  unfold DL.mean
  rw [List.length_map, List.length_map, List.map_congr_left fun p hp => by rw [key _ (hs p hp).2], List.map_congr_left (l := pt) fun p hp => by rw [key _ (ht p hp).1]]

example : Adv.dannLoss (Adv.bceLoss Real.log) [0] [(1 : ℝ)] = .ok (some (-Real.log (1 - 0) / 1 + -Real.log 1 / 1)) := by
  rw [C94_value [0] [1] (by simp) (by simp) (by simp) (by simp)]
  simp

/-- C94.  If the two domains get the same predictions, the loss is at least `2 log 2`, with equality exactly for predictions 1/2: this is the best a
domain classifier can do on aligned features. -/
theorem C94_indistinguishable (ps pt : List ℝ) (hs : ∀ p ∈ ps, 0 ≤ p ∧ p ≤ 1) (hp : ps.Perm pt) (hs0 : ps ≠ []) :
    ∃ v, Adv.dannLoss (Adv.bceLoss Real.log) ps pt = .ok (some v) ∧ 2 * Real.log 2 ≤ v ∧ (v = 2 * Real.log 2 ↔ ∀ p ∈ ps, p = 1 / 2) := by
  have ht0 : pt ≠ [] := fun h => hs0 (by rw [h] at hp; exact hp.eq_nil)
  refine ⟨_, Adv.dann_eq ps pt hs (fun p h => hs p (hp.mem_iff.2 h)) hs0 ht0, ?_⟩
  have hpos : (0 : ℝ) < (ps.length : ℝ) := by exact_mod_cast List.length_pos_of_ne_nil hs0
  have hval : DL.mean (ps.map (fun p => - Adv.clampLog Real.log (1 - p))) + DL.mean (pt.map (fun p => - Adv.clampLog Real.log p)) - 2 * Real.log 2 =
      DL.mean (ps.map (fun p => - Adv.clampLog Real.log (1 - p) + - Adv.clampLog Real.log p - 2 * Real.log 2)) := by
    have h1 : (pt.map (fun p => - Adv.clampLog Real.log p)).sum = (ps.map (fun p => - Adv.clampLog Real.log p)).sum := ((hp.map _).sum_eq).symm
    unfold DL.mean
    rw [h1, List.length_map, List.length_map, List.length_map, ← hp.length_eq, ← add_div, ← List.sum_map_add]
    have h2 : ∀ l : List ℝ, (l.map (fun p => - Adv.clampLog Real.log (1 - p) + - Adv.clampLog Real.log p - 2 * Real.log 2)).sum =
        (l.map (fun p => - Adv.clampLog Real.log (1 - p) + - Adv.clampLog Real.log p)).sum - (l.length : ℝ) * (2 * Real.log 2) := by
      intro l
      induction l with
      | nil => simp
      | cons a l ih => simp only [List.map_cons, List.sum_cons, ih, List.length_cons]; push_cast; ring
    rw [h2, sub_div, mul_div_cancel_left₀ _ hpos.ne']
  have hnn : ∀ x ∈ ps.map (fun p => - Adv.clampLog Real.log (1 - p) + - Adv.clampLog Real.log p - 2 * Real.log 2), 0 ≤ x := by
    intro x hx; obtain ⟨p, hp, rfl⟩ := List.mem_map.1 hx
    have := (Adv.ambiguity (hs p hp).1 (hs p hp).2).1; linarith
  constructor
  · have := Adv.mean_nonneg hnn
    linarith
  · rw [← sub_eq_zero, hval, Adv.mean_eq_zero hnn]
    simp only [List.mem_map, forall_exists_index, and_imp, forall_apply_eq_imp_iff₂]
    refine forall₂_congr fun p hp => ⟨fun h => (Adv.ambiguity (hs p hp).1 (hs p hp).2).2 (by linarith), ?_⟩
    rintro rfl
    have hc : Adv.clampLog Real.log (1 / 2) = - Real.log 2 := by
      unfold Adv.clampLog
      have hl : Real.log (1 / 2) = - Real.log 2 := by rw [one_div, Real.log_inv]
      have := Adv.log_two_lt
      rw [if_neg (by norm_num), hl, max_eq_left (by linarith [Real.log_pos (one_lt_two : (1 : ℝ) < 2)])]
    rw [show (1 : ℝ) - 1 / 2 = 1 / 2 by norm_num, hc]
    ring

example : ∃ v, Adv.dannLoss (Adv.bceLoss Real.log) [1 / 2, 1] [1, (1 / 2 : ℝ)] = .ok (some v) ∧ 2 * Real.log 2 < v := by
  obtain ⟨v, h1, h2, h3⟩ := C94_indistinguishable [1 / 2, (1 : ℝ)] [1, 1 / 2] (by intro p hp; simp at hp; rcases hp with rfl | rfl <;> norm_num) (List.Perm.swap _ _ _) (by simp)
  refine ⟨v, h1, lt_of_le_of_ne h2 fun h => ?_⟩
  have := h3.1 h.symm 1 (by simp)
  norm_num at this

/-- C94.  CDAN uses the same loss: with one prediction per row it equals the DANN loss, otherwise it raises `ValueError`. -/
theorem C94_cdan {F : Type} (ps pt : List ℝ) (fs ft : List F) :
    (ps.length = fs.length → pt.length = ft.length →
      Adv.cdanLoss (Adv.bceLoss Real.log) ps pt fs ft = Adv.dannLoss (Adv.bceLoss Real.log) ps pt) ∧
    (ps.length ≠ fs.length → Adv.cdanLoss (Adv.bceLoss Real.log) ps pt fs ft = .error .valueError) := by
  refine ⟨fun h1 h2 => ?_, fun h => ?_⟩
  · unfold Adv.cdanLoss Adv.dannLoss; rw [h1, h2]
  · unfold Adv.cdanLoss Adv.bceLoss; rw [if_pos (by simpa using h)]; rfl

example : Adv.cdanLoss (Adv.bceLoss Real.log) [1] [1] [![(0 : ℝ)]] [![0]] = Adv.dannLoss (Adv.bceLoss Real.log) [1] [1] :=
  (C94_cdan [1] [1] [![0]] [![0]]).1 rfl rfl

/-- C94.  Errors: predictions outside [0, 1] raise, an empty batch gives NaN. -/
theorem C94_errors (ps pt : List ℝ) :
    ((∃ p ∈ ps, p < 0 ∨ 1 < p) → Adv.dannLoss (Adv.bceLoss Real.log) ps pt = .error .runtimeError) ∧
    ((∀ p ∈ ps, 0 ≤ p ∧ p ≤ 1) → (∃ p ∈ pt, p < 0 ∨ 1 < p) → Adv.dannLoss (Adv.bceLoss Real.log) ps pt = .error .runtimeError) ∧
    ((∀ p ∈ ps, 0 ≤ p ∧ p ≤ 1) → (∀ p ∈ pt, 0 ≤ p ∧ p ≤ 1) → (ps = [] ∨ pt = []) → Adv.dannLoss (Adv.bceLoss Real.log) ps pt = .ok none) := by
  have hbad : ∀ (l y : List ℝ), l.length = y.length → (∃ p ∈ l, p < 0 ∨ 1 < p) → Adv.bceLoss Real.log l y = .error .runtimeError := by
    intro l y hl h
    unfold Adv.bceLoss
    rw [if_neg (by simpa using hl), if_pos (by rw [List.any_eq_true]; obtain ⟨p, hp, h⟩ := h; exact ⟨p, hp, by simpa using h⟩)]
  have hgood : ∀ (l y : List ℝ), l.length = y.length → (∀ p ∈ l, 0 ≤ p ∧ p ≤ 1) → ∃ r, Adv.bceLoss Real.log l y = .ok r ∧ (l = [] → r = none) := by
    intro l y hl h
    unfold Adv.bceLoss
    rw [if_neg (by simpa using hl), if_neg (by
      rw [Bool.not_eq_true, List.any_eq_false]; intro p hp; simp [(h p hp).1, (h p hp).2])]
    split_ifs with h0
    · exact ⟨none, rfl, fun _ => rfl⟩
    · exact ⟨_, rfl, fun h => absurd h h0⟩
  refine ⟨fun h => ?_, fun hs h => ?_, fun hs ht h => ?_⟩
  · unfold Adv.dannLoss; rw [hbad ps _ (by simp) h]; rfl
  · obtain ⟨r, hr, -⟩ := hgood ps (List.replicate ps.length 0) (by simp) hs
    unfold Adv.dannLoss; rw [hr, hbad pt _ (by simp) h]; rfl
  · obtain ⟨r, hr, hr'⟩ := hgood ps (List.replicate ps.length 0) (by simp) hs
    obtain ⟨r2, hr2, hr2'⟩ := hgood pt (List.replicate pt.length 1) (by simp) ht
    unfold Adv.dannLoss
    rw [hr, hr2]
    simp only [ok_bind]
    rcases h with h | h
    · rw [hr' h]; rfl
    · rw [hr2' h]; cases r <;> rfl

/-- C94, counterexample to an adversarial signal with the default classifier: whatever the layers and the features, the default domain classifier (one
class, softmax) outputs 1 for every row, and the loss is always 100. -/
theorem C94_default_counterexample (layers : List (Fin d → ℝ) → List (Fin 1 → ℝ)) (hlen : ∀ X, (layers X).length = X.length) (Xs Xt : List (Fin d → ℝ)) (hs : Xs ≠ []) (ht : Xt ≠ []) :
    Adv.squeeze1 (Adv.domainClassifier Real.exp layers (Xs ++ Xt)) = List.replicate (Xs.length + Xt.length) 1 ∧
    Adv.dannLoss (Adv.bceLoss Real.log) ((Adv.squeeze1 (Adv.domainClassifier Real.exp layers (Xs ++ Xt))).take Xs.length)
      ((Adv.squeeze1 (Adv.domainClassifier Real.exp layers (Xs ++ Xt))).drop Xs.length) = .ok (some 100) := by
  have h : Adv.squeeze1 (Adv.domainClassifier Real.exp layers (Xs ++ Xt)) = List.replicate (Xs.length + Xt.length) 1 := by
    unfold Adv.squeeze1 Adv.domainClassifier
    rw [List.map_map, List.eq_replicate_iff]
    refine ⟨by simp [hlen], fun b hb => ?_⟩
    obtain ⟨y, -, rfl⟩ := List.mem_map.1 hb
    simp [DL.softmaxT, (Real.exp_pos _).ne']
  refine ⟨h, ?_⟩
  have hS : (List.replicate Xs.length (1 : ℝ)) ≠ [] := by simpa using hs
  have hT : (List.replicate Xt.length (1 : ℝ)) ≠ [] := by simpa using ht
  rw [h, List.take_replicate, List.drop_replicate, Nat.min_eq_left (by omega), Nat.add_sub_cancel_left,
    Adv.dann_eq _ _ (by intro p hp; rw [List.eq_of_mem_replicate hp]; norm_num) (by intro p hp; rw [List.eq_of_mem_replicate hp]; norm_num) hS hT]
  have hn : ((Xs.length : ℝ)) ≠ 0 := by simpa using hs
  simp [DL.mean, Adv.clampLog, hn]

example : Adv.dannLoss (Adv.bceLoss Real.log)
    ((Adv.squeeze1 (Adv.domainClassifier Real.exp (fun X => X.map (fun x => ![3 * x 0])) ([![1], ![2]] ++ [![(-7 : ℝ)]]))).take 2)
    ((Adv.squeeze1 (Adv.domainClassifier Real.exp (fun X => X.map (fun x => ![3 * x 0])) ([![1], ![2]] ++ [![(-7 : ℝ)]]))).drop 2) = .ok (some 100) :=
  (C94_default_counterexample (fun X => X.map (fun x => ![3 * x 0])) (by simp) [![1], ![2]] [![(-7 : ℝ)]] (by simp) (by simp)).2

/-- C94.  The reversal layer changes no output; the gradient that reaches the feature layers is minus `alpha` times the one without it (for
feature layers with a homogeneous backward pass, as every derivative has). -/
theorem C94_reversal {A C : Type} [SMul ℝ A] (alpha : ℝ) (f : Adv.Layer A (Fin d → ℝ)) (g : Adv.Layer (Fin d → ℝ) C)
    (hf : ∀ x (r : ℝ) v, f.bwd x (r • v) = r • f.bwd x v) (x : A) (dz : C) :
    (g.comp ((Adv.reversal alpha).comp f)).fwd x = (g.comp f).fwd x ∧
    (g.comp ((Adv.reversal alpha).comp f)).bwd x dz = (-alpha) • (g.comp f).bwd x dz := by
  refine ⟨rfl, ?_⟩
  show f.bwd x (fun j => -(g.bwd (f.fwd x) dz j) * alpha) = (-alpha) • f.bwd x (g.bwd (f.fwd x) dz)
  rw [← hf]
  congr 1
  funext j
  simp only [Pi.smul_apply, smul_eq_mul]
  ring

example : ((⟨fun x => x 0 ^ 2, fun x dz => ![2 * x 0 * dz]⟩ : Adv.Layer (Fin 1 → ℝ) ℝ).comp ((Adv.reversal 3).comp (⟨fun x => 5 • x, fun _ v => 5 • v⟩ : Adv.Layer (Fin 1 → ℝ) (Fin 1 → ℝ)))).bwd ![1] 1 =
    ![-150] := by
  rw [(C94_reversal 3 _ _ (fun x r v => by simp [smul_comm]) _ _).2]
  funext j; fin_cases j
  simp [Adv.Layer.comp]; norm_num

end Skada

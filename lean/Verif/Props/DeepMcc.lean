/-
C89: the minimum class confusion loss (skada/deep/losses.py:352-410).
-/
import Verif.Props.DeepMMD

namespace Skada

namespace Spec

variable {c : Nat}

/-- The softmax probability of class `j` at temperature `T`. -/
noncomputable def prob (T : ℝ) (y : Fin c → ℝ) (j : Fin c) : ℝ := Real.exp (y j / T) / ∑ k, Real.exp (y k / T)

/-- How much a row counts: `1 + exp(-entropy)`, the entropy smoothed by `eps`. -/
noncomputable def trust (T eps : ℝ) (y : Fin c → ℝ) : ℝ := 1 + Real.exp (∑ j, prob T y j * Real.log (prob T y j + eps))

/-- The confusion of class `j` with class `k`: the trusted share of the mass of class `j` that falls on class `k`. -/
noncomputable def confusion (T eps : ℝ) (Y : List (Fin c → ℝ)) (j k : Fin c) : ℝ :=
  (Y.map (fun y => trust T eps y * (prob T y j * prob T y k))).sum / (Y.map (fun y => trust T eps y * prob T y j)).sum

/-- The average over the classes of their confusion with all other classes. -/
noncomputable def meanConfusion (T eps : ℝ) (Y : List (Fin c → ℝ)) : ℝ :=
  (∑ j, ∑ k ∈ Finset.univ.filter (· ≠ j), confusion T eps Y j k) / (c : ℝ)

end Spec

open Spec Np

variable {c : Nat}

namespace DL

theorem prob_pos (T : ℝ) (y : Fin c → ℝ) (j : Fin c) : 0 < prob T y j := by
  have : Nonempty (Fin c) := ⟨j⟩
  exact div_pos (Real.exp_pos _) (Finset.sum_pos (fun _ _ => Real.exp_pos _) Finset.univ_nonempty)

theorem prob_sum (hc : 0 < c) (T : ℝ) (y : Fin c → ℝ) : ∑ j, prob T y j = 1 := by
  have : Nonempty (Fin c) := ⟨⟨0, hc⟩⟩
  unfold prob
  rw [← Finset.sum_div]
  exact div_self (ne_of_gt (Finset.sum_pos (fun _ _ => Real.exp_pos _) Finset.univ_nonempty))

theorem prob_le_one (T : ℝ) (y : Fin c → ℝ) (j : Fin c) : prob T y j ≤ 1 := by
  rw [← prob_sum (Fin.pos j) T y]
  exact Finset.single_le_sum (fun k _ => (prob_pos T y k).le) (Finset.mem_univ j)

theorem trust_pos (T eps : ℝ) (y : Fin c → ℝ) : 1 ≤ trust T eps y := by
  unfold trust; have := Real.exp_pos (∑ j, prob T y j * Real.log (prob T y j + eps)); linarith

theorem softmaxT_eq (T : ℝ) (y : Fin c → ℝ) : softmaxT Real.exp T y = prob T y := rfl

theorem certainty_eq (T eps : ℝ) (y : Fin c → ℝ) : certainty Real.exp Real.log eps (prob T y) = trust T eps y := by
  unfold certainty trust; rw [neg_neg]

theorem sum_map_pos {α : Type} (l : List α) (hl : l ≠ []) (f : α → ℝ) (hf : ∀ x ∈ l, 0 < f x) : 0 < (l.map f).sum := by
  induction l with
  | nil => exact absurd rfl hl
  | cons a l ih =>
    rw [List.map_cons, List.sum_cons]
    rcases eq_or_ne l [] with h | h
    · subst h; simpa using hf a (by simp)
    · exact add_pos (hf a (by simp)) (ih h fun x hx => hf x (by simp [hx]))

theorem sum_map_finset {α ι : Type} [Fintype ι] (l : List α) (f : ι → α → ℝ) :
    ∑ j, (l.map (f j)).sum = (l.map (fun x => ∑ j, f j x)).sum := by
  induction l with
  | nil => simp
  | cons a l ih => simp [Finset.sum_add_distrib, ih]

theorem correlation_eq (T eps : ℝ) (Y : List (Fin c → ℝ)) (j k : Fin c) :
    correlation (Y.map (softmaxT Real.exp T)) (mccWeights Real.exp Real.log eps (Y.map (softmaxT Real.exp T))) j k =
      (Y.map (fun y => trust T eps y * (prob T y j * prob T y k))).sum / mean (Y.map (trust T eps)) := by
  unfold correlation mccWeights
  have hm : (Y.map (softmaxT Real.exp T)).map (certainty Real.exp Real.log eps) = Y.map (trust T eps) := by
    rw [List.map_map]; exact List.map_congr_left fun y _ => certainty_eq T eps y
  rw [hm]
  generalize mean (Y.map (trust T eps)) = m
  induction Y with
  | nil => simp
  | cons y Y ih =>
    simp only [List.map_cons, List.zipWith_cons_cons, List.sum_cons] at ih ⊢
    rw [ih (by rw [List.map_map]; exact List.map_congr_left fun y _ => certainty_eq T eps y), add_div, softmaxT_eq, certainty_eq]
    ring

variable (T eps : ℝ) (Y : List (Fin c → ℝ))

theorem mcc_eq (hY : Y ≠ []) (hc : 0 < c) (hT : T ≠ 0) : mcc Real.exp Real.log T eps Y = some (meanConfusion T eps Y) := by
  have hm : 0 < mean (Y.map (trust T eps)) := by
    unfold mean
    refine div_pos (sum_map_pos Y hY _ fun y _ => by have := trust_pos T eps y; linarith) ?_
    simp only [List.length_map, Nat.cast_pos]; exact List.length_pos_iff.2 hY
  have hrow : ∀ j, ∑ l, (Y.map (fun y => trust T eps y * (prob T y j * prob T y l))).sum / mean (Y.map (trust T eps)) =
      (Y.map (fun y => trust T eps y * prob T y j)).sum / mean (Y.map (trust T eps)) := by
    intro j
    rw [← Finset.sum_div, sum_map_finset]
    congr 3; funext y
    rw [← Finset.mul_sum, ← Finset.mul_sum, prob_sum hc, mul_one]
  unfold mcc
  rw [if_neg (by push Not; exact ⟨hY, hc.ne', hT⟩)]
  dsimp only
  simp only [correlation_eq, hrow]
  congr 1
  unfold meanConfusion
  congr 1
  refine Finset.sum_congr rfl fun j _ => ?_
  rw [Finset.sum_filter]
  refine Finset.sum_congr rfl fun k _ => ?_
  rcases eq_or_ne j k with h | h
  · subst h; simp
  · rw [if_neg h, if_pos h.symm, sub_zero, div_div_div_cancel_right₀ hm.ne']
    refine abs_of_nonneg (div_nonneg (List.sum_nonneg ?_) (List.sum_nonneg ?_)) <;> intro x hx <;>
      obtain ⟨y, _, rfl⟩ := List.mem_map.1 hx <;> have h1 := trust_pos T eps y <;> have h2 := prob_pos T y j <;> have h3 := prob_pos T y k <;>
      positivity

/-- Mean confusion as a deficit: `(c-1)/c` minus the (weighted) spread of the predictions over the batch. -/
theorem meanConfusion_eq (hY : Y ≠ []) (hc : 0 < c) :
    meanConfusion T eps Y = ((c : ℝ) - 1) / c - (∑ j, (Y.map (fun y => trust T eps y *
        (prob T y j - (Y.map (fun y => trust T eps y * prob T y j)).sum / (Y.map (trust T eps)).sum) ^ 2)).sum /
          (Y.map (fun y => trust T eps y * prob T y j)).sum) / c := by
  have hU : 0 < (Y.map (trust T eps)).sum := sum_map_pos Y hY _ fun y _ => by have := trust_pos T eps y; linarith
  have hM : ∀ j, 0 < (Y.map (fun y => trust T eps y * prob T y j)).sum := fun j => sum_map_pos Y hY _ fun y _ => by
    have := trust_pos T eps y; have := prob_pos T y j; positivity
  have hc' : (c : ℝ) ≠ 0 := by exact_mod_cast hc.ne'
  have hrow : ∀ j, ∑ k, confusion T eps Y j k = 1 := by
    intro j
    unfold confusion
    rw [← Finset.sum_div, sum_map_finset]
    have : (fun y => ∑ k, trust T eps y * (prob T y j * prob T y k)) = fun y => trust T eps y * prob T y j := by
      funext y; rw [← Finset.mul_sum, ← Finset.mul_sum, prob_sum hc, mul_one]
    rw [this, div_self (hM j).ne']
  have hd : ∀ j, ∑ k ∈ Finset.univ.filter (· ≠ j), confusion T eps Y j k = 1 - confusion T eps Y j j := by
    intro j
    rw [← hrow j, Finset.filter_ne', ← Finset.add_sum_erase _ _ (Finset.mem_univ j)]; ring
  have hsum : ∑ j, (Y.map (fun y => trust T eps y * prob T y j)).sum / (Y.map (trust T eps)).sum = 1 := by
    rw [← Finset.sum_div, sum_map_finset]
    have : (fun y : Fin c → ℝ => ∑ j, trust T eps y * prob T y j) = trust T eps := by
      funext y; rw [← Finset.mul_sum, prob_sum hc, mul_one]
    rw [this, div_self hU.ne']
  have hq : ∀ j, confusion T eps Y j j = (Y.map (fun y => trust T eps y * prob T y j)).sum / (Y.map (trust T eps)).sum +
      (Y.map (fun y => trust T eps y * (prob T y j - (Y.map (fun y => trust T eps y * prob T y j)).sum / (Y.map (trust T eps)).sum) ^ 2)).sum /
          (Y.map (fun y => trust T eps y * prob T y j)).sum := by
    intro j
    have hexp : ∀ (L : List (Fin c → ℝ)) (μ : ℝ), (L.map (fun y => trust T eps y * (prob T y j - μ) ^ 2)).sum =
        (L.map (fun y => trust T eps y * (prob T y j * prob T y j))).sum - 2 * μ * (L.map (fun y => trust T eps y * prob T y j)).sum +
          μ ^ 2 * (L.map (trust T eps)).sum := by
      intro L μ
      induction L with
      | nil => simp
      | cons y L ih => simp only [List.map_cons, List.sum_cons, ih]; ring
    rw [hexp]
    unfold confusion
    have := (hM j).ne'; have := hU.ne'
    field_simp
    ring
  unfold meanConfusion
  simp only [hd, hq, Finset.sum_sub_distrib, Finset.sum_add_distrib, hsum]
  simp only [Finset.sum_const, Finset.card_univ, Fintype.card_fin, nsmul_eq_mul, mul_one]
  rw [← sub_sub, sub_div]

end DL

/-- C89.  The loss of a non-empty batch of logits is the average confusion of a class with the other classes (rows counted by
`1 + exp(-entropy)`); the normalisation of these weights by their batch mean has no effect. -/
theorem C89_mcc (T eps : ℝ) (Y : List (Fin c → ℝ)) (hY : Y ≠ []) (hc : 0 < c) (hT : T ≠ 0) :
    DL.mcc Real.exp Real.log T eps Y = some (meanConfusion T eps Y) := DL.mcc_eq T eps Y hY hc hT

/-- C89.  The loss lies in `[0, (c-1)/c]`; it is positive as soon as there are two classes, and it takes its largest value exactly when all
rows of the batch have the same class probabilities (whatever these are). -/
theorem C89_range (T eps : ℝ) (Y : List (Fin c → ℝ)) (hY : Y ≠ []) (hc : 0 < c) (hT : T ≠ 0) :
    ∃ v, DL.mcc Real.exp Real.log T eps Y = some v ∧ 0 ≤ v ∧ v ≤ ((c : ℝ) - 1) / c ∧ (0 < v ↔ 2 ≤ c) ∧
      (v = ((c : ℝ) - 1) / c ↔ ∀ y ∈ Y, ∀ y' ∈ Y, ∀ j, prob T y j = prob T y' j) := by
  have hcr : (0 : ℝ) < c := by exact_mod_cast hc
  have hM : ∀ j, 0 < (Y.map (fun y => trust T eps y * prob T y j)).sum := fun j => DL.sum_map_pos Y hY _ fun y _ => by
    have := DL.trust_pos T eps y; have := DL.prob_pos T y j; positivity
  have hV : ∀ j, ∀ μ : ℝ, 0 ≤ (Y.map (fun y => trust T eps y * (prob T y j - μ) ^ 2)).sum := fun j μ => List.sum_nonneg fun x hx => by
    obtain ⟨y, _, rfl⟩ := List.mem_map.1 hx; have := DL.trust_pos T eps y; positivity
  have hconf : ∀ j k, 0 < confusion T eps Y j k := fun j k => div_pos (DL.sum_map_pos Y hY _ fun y _ => by
    have := DL.trust_pos T eps y; have := DL.prob_pos T y j; have := DL.prob_pos T y k; positivity) (hM j)
  refine ⟨_, DL.mcc_eq T eps Y hY hc hT, ?_, ?_, ⟨fun h => ?_, fun h => ?_⟩, ?_⟩
  · exact div_nonneg (Finset.sum_nonneg fun j _ => Finset.sum_nonneg fun k _ => (hconf j k).le) hcr.le
  · rw [DL.meanConfusion_eq T eps Y hY hc]
    have : 0 ≤ (∑ j, (Y.map (fun y => trust T eps y * (prob T y j - (Y.map (fun y => trust T eps y * prob T y j)).sum / (Y.map (trust T eps)).sum) ^ 2)).sum /
          (Y.map (fun y => trust T eps y * prob T y j)).sum) / (c : ℝ) :=
      div_nonneg (Finset.sum_nonneg fun j _ => div_nonneg (hV j _) (hM j).le) hcr.le
    linarith
  · by_contra h2
    have h1 : c = 1 := by omega
    subst h1
    have : meanConfusion T eps Y = 0 := by
      unfold meanConfusion
      rw [Fin.sum_univ_one, Finset.sum_eq_zero, zero_div]
      intro k hk
      exact absurd (Subsingleton.elim k 0) (Finset.mem_filter.1 hk).2
    linarith
  · refine div_pos (Finset.sum_pos' (fun j _ => Finset.sum_nonneg fun k _ => (hconf j k).le) ⟨⟨0, hc⟩, Finset.mem_univ _, ?_⟩) hcr
    refine Finset.sum_pos (fun k _ => hconf _ k) ⟨⟨1, h⟩, ?_⟩
    simp
  · rw [DL.meanConfusion_eq T eps Y hY hc]
    constructor
    · intro h
      have h0 : ∑ j, (Y.map (fun y => trust T eps y * (prob T y j - (Y.map (fun y => trust T eps y * prob T y j)).sum / (Y.map (trust T eps)).sum) ^ 2)).sum /
          (Y.map (fun y => trust T eps y * prob T y j)).sum = 0 := by
        have : (∑ j, (Y.map (fun y => trust T eps y * (prob T y j - (Y.map (fun y => trust T eps y * prob T y j)).sum / (Y.map (trust T eps)).sum) ^ 2)).sum /
          (Y.map (fun y => trust T eps y * prob T y j)).sum) / (c : ℝ) = 0 := by linarith
        exact (div_eq_zero_iff.1 this).resolve_right hcr.ne'
      have hj := (Finset.sum_eq_zero_iff_of_nonneg fun j _ => div_nonneg (hV j _) (hM j).le).1 h0
      have key : ∀ y ∈ Y, ∀ j, prob T y j = (Y.map (fun y => trust T eps y * prob T y j)).sum / (Y.map (trust T eps)).sum := by
        intro y hy j
        have hz := (div_eq_zero_iff.1 (hj j (Finset.mem_univ j))).resolve_right (hM j).ne'
        have hle := List.single_le_sum (l := Y.map (fun y => trust T eps y *
          (prob T y j - (Y.map (fun y => trust T eps y * prob T y j)).sum / (Y.map (trust T eps)).sum) ^ 2)) (fun x hx => by
            obtain ⟨y, _, rfl⟩ := List.mem_map.1 hx; have := DL.trust_pos T eps y; positivity) _ (List.mem_map_of_mem hy)
        rw [hz] at hle
        have ht := DL.trust_pos T eps y
        have h2 : (prob T y j - (Y.map (fun y => trust T eps y * prob T y j)).sum / (Y.map (trust T eps)).sum) ^ 2 ≤ 0 := by
          by_contra hcon
          push Not at hcon
          have := mul_pos (show 0 < trust T eps y by linarith) hcon
          linarith
        have := pow_eq_zero_iff (two_ne_zero) |>.1 (le_antisymm h2 (sq_nonneg _))
        linarith
      intro y hy y' hy' j
      rw [key y hy j, key y' hy' j]
    · intro h
      have : ∀ j, (Y.map (fun y => trust T eps y * (prob T y j - (Y.map (fun y => trust T eps y * prob T y j)).sum / (Y.map (trust T eps)).sum) ^ 2)).sum = 0 := by
        intro j
        obtain ⟨y0, hy0⟩ := List.exists_mem_of_ne_nil Y hY
        have hU : 0 < (Y.map (trust T eps)).sum := DL.sum_map_pos Y hY _ fun y _ => by have := DL.trust_pos T eps y; linarith
        have e : (Y.map (fun y => trust T eps y * prob T y j)).sum = (Y.map (trust T eps)).sum * prob T y0 j := by
          rw [← List.sum_map_mul_right]
          congr 1
          exact List.map_congr_left fun y hy => by rw [h y hy y0 hy0 j]
        rw [e, mul_div_cancel_left₀ _ hU.ne']
        refine List.sum_eq_zero fun x hx => ?_
        obtain ⟨y, hy, rfl⟩ := List.mem_map.1 hx
        rw [h y hy y0 hy0 j]; ring
      simp [this]

/-- A batch of one row has the largest loss whatever its logits are: nothing can be learned from it. -/
example (T eps : ℝ) (hT : T ≠ 0) (y : Fin 4 → ℝ) : DL.mcc Real.exp Real.log T eps [y] = some (3 / 4) := by
  obtain ⟨v, h, -, -, -, hiff⟩ := C89_range T eps [y] (by simp) (by norm_num) hT
  rw [h, hiff.2 (by simp)]; norm_num

/-- C89.  The loss does not depend on the order of the rows, on a constant added to the logits of a row, or on the numbering of the classes. -/
theorem C89_invariant (T eps : ℝ) (Y Y' : List (Fin c → ℝ)) (a : (Fin c → ℝ) → ℝ) (σ : Equiv.Perm (Fin c)) (hY : Y ≠ []) (hc : 0 < c) (hT : T ≠ 0)
    (h : Y'.Perm (Y.map (fun y => fun j => y (σ j) + a y))) :
    DL.mcc Real.exp Real.log T eps Y' = DL.mcc Real.exp Real.log T eps Y := by
  have hY' : Y' ≠ [] := by
    rintro rfl
    have := h.length_eq
    simp only [List.length_nil, List.length_map] at this
    exact hY (List.length_eq_zero_iff.1 this.symm)
  rw [C89_mcc T eps Y hY hc hT, C89_mcc T eps Y' hY' hc hT]
  have hp : ∀ y : Fin c → ℝ, ∀ j, prob T (fun j => y (σ j) + a y) j = prob T y (σ j) := by
    intro y j
    unfold prob
    have : ∀ k, Real.exp ((y (σ k) + a y) / T) = Real.exp (a y / T) * Real.exp (y (σ k) / T) := fun k => by
      rw [← Real.exp_add]; congr 1; ring
    simp only [this]
    rw [← Finset.mul_sum, mul_div_mul_left _ _ (Real.exp_pos _).ne', Equiv.sum_comp σ (fun k => Real.exp (y k / T))]
  have ht : ∀ y : Fin c → ℝ, trust T eps (fun j => y (σ j) + a y) = trust T eps y := by
    intro y
    unfold trust
    simp only [hp]
    rw [Equiv.sum_comp σ (fun k => prob T y k * Real.log (prob T y k + eps))]
  have hcf : ∀ j k, confusion T eps Y' j k = confusion T eps Y (σ j) (σ k) := by
    intro j k
    unfold confusion
    rw [(h.map _).sum_eq, (h.map (fun y => trust T eps y * prob T y j)).sum_eq, List.map_map, List.map_map]
    simp only [Function.comp_def, hp, ht]
  unfold meanConfusion
  simp only [hcf]
  congr 2
  rw [← Equiv.sum_comp σ (fun j => ∑ k ∈ Finset.univ.filter (· ≠ j), confusion T eps Y j k)]
  refine Finset.sum_congr rfl fun j _ => ?_
  rw [Finset.sum_filter, Finset.sum_filter, ← Equiv.sum_comp σ (fun k => if k ≠ σ j then confusion T eps Y (σ j) k else 0)]
  refine Finset.sum_congr rfl fun k _ => ?_
  simp only [ne_eq, EmbeddingLike.apply_eq_iff_eq]

example : DL.mcc Real.exp Real.log 2 0 [![(3 : ℝ), 1], ![4, 4]] = DL.mcc Real.exp Real.log 2 0 [![(0 : ℝ), 0], ![1, 3]] :=
  (C89_invariant 2 0 [![(0 : ℝ), 0], ![1, 3]] [![(3 : ℝ), 1], ![4, 4]] (fun y => if y 0 = 0 then 4 else 0) (Equiv.swap 0 1) (by simp) (by norm_num)
    (by norm_num) (by
      have : [![(0 : ℝ), 0], ![1, 3]].map (fun y => fun j => y (Equiv.swap 0 1 j) + (if y 0 = 0 then 4 else 0)) = [![4, 4], ![3, 1]] := by
        simp only [List.map_cons, List.map_nil]
        congr 1
        · funext j; fin_cases j <;> norm_num
        · congr 1; funext j; fin_cases j <;> norm_num
      rw [this]; exact List.Perm.swap _ _ _))

/-- C89.  Confident and diverse predictions have little confusion: if every row gives some class at least `1 - δ` and every class is
predicted that way by some row, then the loss is at most `n δ (2 + eps) / (1 - δ)`. -/
theorem C89_confident (T eps δ : ℝ) (Y : List (Fin c → ℝ)) (hc : 0 < c) (hT : T ≠ 0) (heps : 0 ≤ eps) (hδ : δ < 1)
    (hrow : ∀ y ∈ Y, ∃ j, 1 - δ ≤ prob T y j) (hcls : ∀ j, ∃ y ∈ Y, 1 - δ ≤ prob T y j) :
    ∃ v, DL.mcc Real.exp Real.log T eps Y = some v ∧ v ≤ Y.length * δ * (2 + eps) / (1 - δ) := by
  obtain ⟨y0, hy0, -⟩ := hcls ⟨0, hc⟩
  have hY : Y ≠ [] := List.ne_nil_of_mem hy0
  have hcr : (0 : ℝ) < c := by exact_mod_cast hc
  refine ⟨_, DL.mcc_eq T eps Y hY hc hT, ?_⟩
  have htr : ∀ y : Fin c → ℝ, trust T eps y ≤ 2 + eps := by
    intro y
    unfold trust
    have : ∑ j, prob T y j * Real.log (prob T y j + eps) ≤ Real.log (1 + eps) := by
      calc ∑ j, prob T y j * Real.log (prob T y j + eps) ≤ ∑ j, prob T y j * Real.log (1 + eps) :=
            Finset.sum_le_sum fun j _ => by
              have hp := DL.prob_pos T y j
              exact mul_le_mul_of_nonneg_left (Real.log_le_log (by linarith) (by linarith [DL.prob_le_one T y j])) hp.le
        _ = Real.log (1 + eps) := by rw [← Finset.sum_mul, DL.prob_sum hc, one_mul]
    have := Real.exp_le_exp.2 this
    rw [Real.exp_log (by linarith)] at this
    linarith
  have hsplit : ∀ y ∈ Y, ∀ j, prob T y j * (1 - prob T y j) ≤ δ := by
    intro y hy j
    obtain ⟨i, hi⟩ := hrow y hy
    have h1 := DL.prob_pos T y j
    have h2 := DL.prob_le_one T y j
    rcases eq_or_ne i j with h | h
    · subst h; nlinarith
    · have : prob T y i + prob T y j ≤ 1 := by
        rw [← DL.prob_sum hc T y, ← Finset.sum_pair h]
        exact Finset.sum_le_sum_of_subset_of_nonneg (Finset.subset_univ _) fun k _ _ => (DL.prob_pos T y k).le
      nlinarith
  have hM : ∀ j, 1 - δ ≤ (Y.map (fun y => trust T eps y * prob T y j)).sum := by
    intro j
    obtain ⟨y, hy, hp⟩ := hcls j
    have hle := List.single_le_sum (l := Y.map (fun y => trust T eps y * prob T y j)) (fun x hx => by
      obtain ⟨y, _, rfl⟩ := List.mem_map.1 hx; have := DL.trust_pos T eps y; have := DL.prob_pos T y j; positivity) _ (List.mem_map_of_mem hy)
    have := DL.trust_pos T eps y; have := DL.prob_pos T y j
    nlinarith
  have hδ0 : 0 ≤ δ := by
    have := hsplit y0 hy0 ⟨0, hc⟩
    have h1 := DL.prob_pos T y0 ⟨0, hc⟩
    have h2 := DL.prob_le_one T y0 ⟨0, hc⟩
    nlinarith
  have hoff : ∀ j, ∑ k ∈ Finset.univ.filter (· ≠ j), confusion T eps Y j k ≤ Y.length * δ * (2 + eps) / (1 - δ) := by
    intro j
    unfold confusion
    rw [← Finset.sum_div]
    have hnum : ∑ k ∈ Finset.univ.filter (· ≠ j), (Y.map (fun y => trust T eps y * (prob T y j * prob T y k))).sum =
        (Y.map (fun y => trust T eps y * (prob T y j * (1 - prob T y j)))).sum := by
      have h1 := DL.sum_map_finset Y (fun k y => trust T eps y * (prob T y j * prob T y k))
      rw [← Finset.add_sum_erase _ _ (Finset.mem_univ j)] at h1
      rw [Finset.filter_ne', ← add_right_inj ((Y.map (fun y => trust T eps y * (prob T y j * prob T y j))).sum), h1, ← List.sum_map_add]
      congr 1
      refine List.map_congr_left fun y _ => ?_
      rw [← Finset.mul_sum, ← Finset.mul_sum, DL.prob_sum hc]; ring
    rw [hnum]
    have hle : (Y.map (fun y => trust T eps y * (prob T y j * (1 - prob T y j)))).sum ≤ Y.length * δ * (2 + eps) := by
      have : (Y.map (fun y => trust T eps y * (prob T y j * (1 - prob T y j)))).sum ≤ (Y.map (fun _ => (2 + eps) * δ)).sum := by
        refine List.sum_le_sum fun y hy => ?_
        exact mul_le_mul (htr y) (hsplit y hy j) (mul_nonneg (DL.prob_pos T y j).le (by linarith [DL.prob_le_one T y j])) (by linarith)
      rw [List.map_const', List.sum_replicate, nsmul_eq_mul] at this
      nlinarith
    have hn : 0 ≤ (Y.length : ℝ) * δ * (2 + eps) := by positivity
    exact div_le_div₀ hn hle (by linarith) (hM j)
  unfold meanConfusion
  rw [div_le_iff₀ hcr]
  calc ∑ j, ∑ k ∈ Finset.univ.filter (· ≠ j), confusion T eps Y j k ≤ ∑ _j : Fin c, (Y.length * δ * (2 + eps) / (1 - δ)) := Finset.sum_le_sum fun j _ => hoff j
    _ = _ := by rw [Finset.sum_const, Finset.card_univ, Fintype.card_fin, nsmul_eq_mul]; ring

/-- Two rows, logits `±t` apart: each class is predicted with probability `1 / (1 + exp(-t))`. -/
example (t : ℝ) : ∃ v, DL.mcc Real.exp Real.log 1 0 [![t, 0], ![0, t]] = some v ∧
    v ≤ 2 * (1 - 1 / (1 + Real.exp (-t))) * (2 + 0) / (1 - (1 - 1 / (1 + Real.exp (-t)))) := by
  have hp : Real.exp t / (Real.exp t + 1) = 1 / (1 + Real.exp (-t)) := by
    rw [Real.exp_neg]; have := Real.exp_pos t; field_simp
  have hp1 : Real.exp t / (1 + Real.exp t) = 1 / (1 + Real.exp (-t)) := by rw [← hp, add_comm]
  have h0 : prob 1 ![t, 0] 0 = 1 / (1 + Real.exp (-t)) := by simp [prob, Fin.sum_univ_two, hp]
  have h1 : prob 1 ![0, t] 1 = 1 / (1 + Real.exp (-t)) := by simp [prob, Fin.sum_univ_two, hp1]
  have hlt : 1 - 1 / (1 + Real.exp (-t)) < 1 := by have := Real.exp_pos (-t); have : 0 < 1 / (1 + Real.exp (-t)) := by positivity
                                                   linarith
  have := C89_confident 1 0 (1 - 1 / (1 + Real.exp (-t))) [![t, 0], ![0, t]] (by norm_num) one_ne_zero le_rfl hlt
    (by
      intro y hy
      simp only [List.mem_cons, List.not_mem_nil, or_false] at hy
      rcases hy with rfl | rfl
      · exact ⟨0, by rw [h0]; linarith⟩
      · exact ⟨1, by rw [h1]; linarith⟩)
    (by
      intro j
      fin_cases j
      · exact ⟨![t, 0], by simp, by rw [show (⟨0, by norm_num⟩ : Fin 2) = 0 from rfl, h0]; linarith⟩
      · exact ⟨![0, t], by simp, by rw [show (⟨1, by norm_num⟩ : Fin 2) = 1 from rfl, h1]; linarith⟩)
  simpa using this

/-- C89.  An empty batch and a zero temperature give NaN. -/
theorem C89_nan (ex lg : ℝ → ℝ) (T eps : ℝ) (Y : List (Fin c → ℝ)) (h : Y = [] ∨ T = 0) : DL.mcc ex lg T eps Y = none := by
  unfold DL.mcc
  rw [if_pos]
  rcases h with h | h <;> simp [h]

end Skada

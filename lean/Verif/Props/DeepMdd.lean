/-
C95: margin disparity discrepancy (skada/deep/_adversarial.py:376-471).
-/
import Verif.Props.DeepAdv

namespace Skada

open Spec Np

variable {c : Nat}

namespace Spec

/-- Class probabilities of a row of scores -/
noncomputable def softmax (y : Fin c → ℝ) (k : Fin c) : ℝ := Real.exp (y k) / ∑ j, Real.exp (y j)

/-- Smoothed towards the uniform distribution -/
noncomputable def smoothed (s : ℝ) (y : Fin c → ℝ) (k : Fin c) : ℝ := (1 - s) * softmax y k + s / (c : ℝ)

/-- The documented target term: the mean over the rows of `log (1 - probability of the row's own label)` -/
noncomputable def ownLabelTerm (s : ℝ) (Y : List (Fin c → ℝ)) (target : List (Fin c)) : ℝ :=
  (List.zipWith (fun y k => Real.log (1 - smoothed s y k)) Y target).sum / (Y.length : ℝ)

/-- `k` is the first largest entry of `y` -/
def FirstMax (y : Fin c → ℝ) (k : Fin c) : Prop := (∀ j, y j ≤ y k) ∧ ∀ j < k, y j < y k

end Spec

namespace Adv

theorem foldl_max (y : Fin c → ℝ) (l : List (Fin c)) (b : Fin c) :
    let r := l.foldl (fun best k => if y best < y k then k else best) b
    y b ≤ y r ∧ (∀ k ∈ l, y k ≤ y r) ∧ (r = b ∨ (y b < y r ∧ ∃ l1 l2, l = l1 ++ r :: l2 ∧ ∀ k ∈ l1, y k < y r)) := by
  induction l generalizing b with
  | nil => simp
  | cons a l ih =>
    simp only [List.foldl_cons]
    by_cases h : y b < y a
    · simp only [h, if_true]
      obtain ⟨h1, h2, h3⟩ := ih a
      refine ⟨h.le.trans h1, fun k hk => ?_, Or.inr ⟨h.trans_le h1, ?_⟩⟩
      · rcases List.mem_cons.1 hk with rfl | hk
        · exact h1
        · exact h2 k hk
      · rcases h3 with h3 | ⟨h3, l1, l2, h4, h5⟩
        · exact ⟨[], l, by rw [h3]; rfl, by simp⟩
        · refine ⟨a :: l1, l2, by rw [List.cons_append, ← h4], fun k hk => ?_⟩
          rcases List.mem_cons.1 hk with rfl | hk
          · exact h3
          · exact h5 k hk
    · simp only [h, if_false]
      obtain ⟨h1, h2, h3⟩ := ih b
      refine ⟨h1, fun k hk => ?_, ?_⟩
      · rcases List.mem_cons.1 hk with rfl | hk
        · exact (not_lt.1 h).trans h1
        · exact h2 k hk
      · rcases h3 with h3 | ⟨h3, l1, l2, h4, h5⟩
        · exact Or.inl h3
        · refine Or.inr ⟨h3, a :: l1, l2, by rw [List.cons_append, ← h4], fun k hk => ?_⟩
          rcases List.mem_cons.1 hk with rfl | hk
          · exact (not_lt.1 h).trans_lt h3
          · exact h5 k hk

theorem argmaxFin_spec [NeZero c] (y : Fin c → ℝ) : FirstMax y (argmaxFin y) := by
  obtain ⟨-, h2, h3⟩ := foldl_max y (List.finRange c) 0
  refine ⟨fun j => h2 j (List.mem_finRange j), fun j hj => ?_⟩
  rcases h3 with h3 | ⟨-, l1, l2, h4, h5⟩
  · unfold argmaxFin at hj
    rw [h3] at hj
    exact absurd hj (Fin.not_lt_zero j)
  · refine h5 j ?_
    have hmem := List.mem_finRange j
    have hsort : (List.finRange c).Pairwise (· < ·) := List.pairwise_lt_finRange c
    unfold argmaxFin at hj
    rw [h4] at hmem hsort
    rcases List.mem_append.1 hmem with h | h
    · exact h
    · rcases List.mem_cons.1 h with h | h
      · exact absurd (h ▸ hj) (lt_irrefl _)
      · have := (List.pairwise_cons.1 (List.pairwise_append.1 hsort).2.1).1 j h
        exact absurd (hj.trans this) (lt_irrefl _)

theorem softmaxT_one (y : Fin c → ℝ) (k : Fin c) : DL.softmaxT Real.exp 1 y k = softmax y k := by simp [DL.softmaxT, softmax]

theorem smoothProb_eq (s : ℝ) (y : Fin c → ℝ) (k : Fin c) : smoothProb Real.exp s y k = smoothed s y k := by
  unfold smoothProb smoothed; rw [softmaxT_one]

theorem sum_exp_pos (y : Fin c → ℝ) (k : Fin c) : 0 < ∑ j, Real.exp (y j) := Finset.sum_pos (fun _ _ => Real.exp_pos _) ⟨k, Finset.mem_univ k⟩

theorem softmax_pos (y : Fin c → ℝ) (k : Fin c) : 0 < softmax y k := div_pos (Real.exp_pos _) (sum_exp_pos y k)

theorem softmax_le_one (y : Fin c → ℝ) (k : Fin c) : softmax y k ≤ 1 := by
  unfold softmax
  rw [div_le_one (sum_exp_pos y k)]
  exact Finset.single_le_sum (f := fun j => Real.exp (y j)) (fun _ _ => (Real.exp_pos _).le) (Finset.mem_univ k)

theorem smoothed_le {s : ℝ} (hs1 : s ≤ 1) (y : Fin c → ℝ) (k : Fin c) : s * ((c : ℝ) - 1) / c ≤ 1 - smoothed s y k := by
  unfold smoothed
  have h := softmax_le_one y k
  have hc : (c : ℝ) ≠ 0 := by exact_mod_cast (Fin.pos k).ne'
  have : s * ((c : ℝ) - 1) / c = s - s / c := by field_simp
  rw [this]
  nlinarith

theorem smoothed_nonneg {s : ℝ} (hs0 : 0 ≤ s) (hs1 : s ≤ 1) (y : Fin c → ℝ) (k : Fin c) : 0 ≤ smoothed s y k := by
  unfold smoothed
  have h := (softmax_pos y k).le
  have : 0 ≤ s / (c : ℝ) := div_nonneg hs0 (by positivity)
  nlinarith

theorem mean_flatMap {α β : Type} (f : α → β → ℝ) (A : List α) (B : List β) :
    DL.mean (A.flatMap (fun a => B.map (fun b => f a b))) = (A.map (fun a => (B.map (fun b => f a b)).sum)).sum / ((A.length : ℝ) * (B.length : ℝ)) := by
  have h1 : (A.flatMap (fun a => B.map (fun b => f a b))).sum = (A.map (fun a => (B.map (fun b => f a b)).sum)).sum := by
    induction A with
    | nil => rfl
    | cons a A ih => simp [List.flatMap_cons, ih]
  have h2 : (A.flatMap (fun a => B.map (fun b => f a b))).length = A.length * B.length := by
    induction A with
    | nil => simp
    | cons a A ih => simp [List.flatMap_cons, Nat.succ_mul, Nat.add_comm]
  unfold DL.mean
  rw [h1, h2, Nat.cast_mul]

theorem mce_mem {s : ℝ} {Y : List (Fin c → ℝ)} {t : List (Fin c)} {x : ℝ}
    (hx : x ∈ Y.flatMap (fun y => t.map (fun k => Real.log (1 - smoothProb Real.exp s y k)))) : ∃ y ∈ Y, ∃ k ∈ t, x = Real.log (1 - smoothed s y k) := by
  obtain ⟨y, hy, hx⟩ := List.mem_flatMap.1 hx
  obtain ⟨k, hk, rfl⟩ := List.mem_map.1 hx
  exact ⟨y, hy, k, hk, by rw [smoothProb_eq]⟩

theorem le_mean {l : List ℝ} {b : ℝ} (hl : l ≠ []) (h : ∀ x ∈ l, b ≤ x) : b ≤ DL.mean l := by
  have hpos : (0 : ℝ) < (l.length : ℝ) := by exact_mod_cast List.length_pos_of_ne_nil hl
  unfold DL.mean
  rw [le_div_iff₀ hpos]
  have := List.card_nsmul_le_sum l b h
  rw [nsmul_eq_mul] at this
  linarith [mul_comm (l.length : ℝ) b]

theorem crossEntropy_nonneg (y : Fin c → ℝ) (k : Fin c) : 0 ≤ crossEntropy Real.exp Real.log y k := by
  unfold crossEntropy
  have := Real.log_nonpos (softmax_pos y k).le (softmax_le_one y k)
  unfold softmax at this
  linarith

end Adv

/-- C95, part: the target term is the documented one when all rows have the same pseudo-label.  In general it is not, see the counterexamples. -/
theorem C95_target_partial (s : ℝ) (Y : List (Fin c → ℝ)) (target : List (Fin c)) (hY : Y ≠ []) (hlen : target.length = Y.length) (k : Fin c) (hk : ∀ j ∈ target, j = k) :
    Adv.modifiedCE Real.exp Real.log s Y target = some (ownLabelTerm s Y target) := by
  have ht : target ≠ [] := by intro h; rw [h] at hlen; exact hY (List.length_eq_zero_iff.1 hlen.symm)
  obtain rfl : target = List.replicate Y.length k := List.eq_replicate_iff.2 ⟨hlen, hk⟩
  unfold Adv.modifiedCE ownLabelTerm
  rw [if_neg (by simp [hY]), Adv.mean_flatMap, Adv.zipWith_replicate]
  have hpos : (Y.length : ℝ) ≠ 0 := by simpa using hY
  simp only [List.map_replicate, List.sum_replicate, nsmul_eq_mul, List.length_replicate, Adv.smoothProb_eq]
  rw [List.sum_map_mul_left, mul_div_mul_left _ _ hpos]

example : Adv.modifiedCE Real.exp Real.log (1 / 10) [![1, 0], ![(2 : ℝ), 0]] [0, 0] = some (ownLabelTerm (1 / 10) [![1, 0], ![2, 0]] [0, 0]) :=
  C95_target_partial _ _ _ (by simp) rfl 0 (by simp)

/-- C95, counterexample: the target term does not see which row has which pseudo-label; any reordering of the labels gives the same value. -/
theorem C95_blind_counterexample (s : ℝ) (Y : List (Fin c → ℝ)) (t t' : List (Fin c)) (h : t.Perm t') :
    Adv.modifiedCE Real.exp Real.log s Y t = Adv.modifiedCE Real.exp Real.log s Y t' := by
  unfold Adv.modifiedCE
  have he : (Y = [] ∨ t = []) ↔ (Y = [] ∨ t' = []) := by
    constructor <;> rintro (h1 | h1)
    · exact Or.inl h1
    · rw [h1] at h; exact Or.inr h.nil_eq.symm
    · exact Or.inl h1
    · rw [h1] at h; exact Or.inr h.eq_nil
  by_cases h0 : Y = [] ∨ t = []
  · rw [if_pos h0, if_pos (he.1 h0)]
  · rw [if_neg h0, if_neg (fun h' => h0 (he.2 h')), Adv.mean_flatMap, Adv.mean_flatMap, h.length_eq]
    congr 3
    refine List.map_congr_left fun y _ => ?_
    exact (h.map _).sum_eq

example : Adv.modifiedCE Real.exp Real.log (1 / 10) [![1, 0], ![(0 : ℝ), 1]] [0, 1] = Adv.modifiedCE Real.exp Real.log (1 / 10) [![1, 0], ![0, 1]] [1, 0] :=
  C95_blind_counterexample _ _ _ _ (List.Perm.swap _ _ _)

/-- C95, counterexample: two rows with different pseudo-labels, any smoothing below 1: the value differs from the documented one. -/
theorem C95_target_counterexample (s : ℝ) (hs0 : 0 ≤ s) (hs1 : s < 1) :
    ∃ v, Adv.modifiedCE Real.exp Real.log s [![1, 0], ![(0 : ℝ), 1]] [0, 1] = some v ∧ ownLabelTerm s [![1, 0], ![(0 : ℝ), 1]] [0, 1] < v := by
  refine ⟨_, by rw [Adv.modifiedCE, if_neg (by simp)], ?_⟩
  rw [Adv.mean_flatMap]
  have e1 : (1 : ℝ) < Real.exp 1 := by simp
  have hS : (0 : ℝ) < Real.exp 1 + 1 := by positivity
  have a1 : smoothed s ![(1 : ℝ), 0] 0 = (1 - s) * (Real.exp 1 / (Real.exp 1 + 1)) + s / 2 := by simp [smoothed, softmax, Fin.sum_univ_two]
  have a2 : smoothed s ![(0 : ℝ), 1] 1 = (1 - s) * (Real.exp 1 / (Real.exp 1 + 1)) + s / 2 := by
    simp [smoothed, softmax, Fin.sum_univ_two, add_comm]
  have b1 : smoothed s ![(1 : ℝ), 0] 1 = (1 - s) * (1 / (Real.exp 1 + 1)) + s / 2 := by simp [smoothed, softmax, Fin.sum_univ_two]
  have b2 : smoothed s ![(0 : ℝ), 1] 0 = (1 - s) * (1 / (Real.exp 1 + 1)) + s / 2 := by simp [smoothed, softmax, Fin.sum_univ_two, add_comm]
  have hlt : 1 / (Real.exp 1 + 1) < Real.exp 1 / (Real.exp 1 + 1) := (div_lt_div_iff_of_pos_right hS).2 e1
  have hlt1 : Real.exp 1 / (Real.exp 1 + 1) < 1 := by rw [div_lt_one hS]; linarith
  have hab : (1 - s) * (1 / (Real.exp 1 + 1)) < (1 - s) * (Real.exp 1 / (Real.exp 1 + 1)) := mul_lt_mul_of_pos_left hlt (by linarith)
  have hpos : 0 < 1 - ((1 - s) * (Real.exp 1 / (Real.exp 1 + 1)) + s / 2) := by nlinarith
  have hlog := Real.log_lt_log hpos (show 1 - ((1 - s) * (Real.exp 1 / (Real.exp 1 + 1)) + s / 2) < 1 - ((1 - s) * (1 / (Real.exp 1 + 1)) + s / 2) by linarith)
  simp only [ownLabelTerm, List.zipWith_cons_cons, List.zipWith_nil_left, List.map_cons, List.map_nil, List.sum_cons, List.sum_nil, List.length_cons, List.length_nil,
    Adv.smoothProb_eq, a1, a2, b1, b2]
  generalize Real.log (1 - ((1 - s) * (Real.exp 1 / (Real.exp 1 + 1)) + s / 2)) = A at hlog ⊢
  generalize Real.log (1 - ((1 - s) * (1 / (Real.exp 1 + 1)) + s / 2)) = B at hlog ⊢
  norm_num
  linarith

/-- C95.  The target term lies between `log (s (C-1)/C)` and 0: label smoothing keeps it finite. -/
theorem C95_target_range (s : ℝ) (hs0 : 0 < s) (hs1 : s ≤ 1) (hc : 2 ≤ c) (Y : List (Fin c → ℝ)) (target : List (Fin c)) (hY : Y ≠ []) (ht : target ≠ []) :
    ∃ v, Adv.modifiedCE Real.exp Real.log s Y target = some v ∧ Real.log (s * ((c : ℝ) - 1) / c) ≤ v ∧ v ≤ 0 := by
  refine ⟨_, by rw [Adv.modifiedCE, if_neg (by simp [hY, ht])], ?_⟩
  have hne : Y.flatMap (fun y => target.map (fun k => Real.log (1 - Adv.smoothProb Real.exp s y k))) ≠ [] := by
    obtain ⟨y, Y, rfl⟩ := List.exists_cons_of_ne_nil hY
    obtain ⟨k, t, rfl⟩ := List.exists_cons_of_ne_nil ht
    simp
  have hc' : (2 : ℝ) ≤ c := by exact_mod_cast hc
  have hpos : 0 < s * ((c : ℝ) - 1) / c := by
    apply div_pos (mul_pos hs0 (by linarith)) (by linarith)
  constructor
  · refine Adv.le_mean hne fun x hx => ?_
    obtain ⟨y, -, k, -, rfl⟩ := Adv.mce_mem hx
    exact Real.log_le_log hpos (Adv.smoothed_le hs1 y k)
  · refine Adv.mean_le hne fun x hx => ?_
    obtain ⟨y, -, k, -, rfl⟩ := Adv.mce_mem hx
    have h1 := Adv.smoothed_le hs1 y k
    have h2 := Adv.smoothed_nonneg hs0.le hs1 y k
    exact Real.log_nonpos (hpos.le.trans h1) (by linarith)

example : ∃ v, Adv.modifiedCE Real.exp Real.log (1 / 10) [![1, 0], ![(0 : ℝ), 1]] [0, 1] = some v ∧ Real.log (1 / 10 * ((2 : ℕ) - 1) / (2 : ℕ)) ≤ v ∧ v ≤ 0 :=
  C95_target_range (1 / 10) (by norm_num) (by norm_num) le_rfl _ _ (by simp) (by simp)

/-- C95.  The MDD loss: `gamma` times the mean cross-entropy of the domain predictions against the source pseudo-labels (first largest score) minus the
target term; it is never negative. -/
theorem C95_loss [NeZero c] (s gamma : ℝ) (hs0 : 0 < s) (hs1 : s ≤ 1) (hc : 2 ≤ c) (hg : 0 ≤ gamma) (Ys Yt Ds Dt : List (Fin c → ℝ)) (h1 : Ds.length = Ys.length)
    (h2 : Dt.length = Yt.length) (hs : Ys ≠ []) (ht : Yt ≠ []) :
    ∃ v t ls lt, Adv.mddLoss Real.exp Real.log s gamma Ys Yt Ds Dt = some v ∧ List.Forall₂ FirstMax Ys ls ∧ List.Forall₂ FirstMax Yt lt ∧
      Adv.modifiedCE Real.exp Real.log s Dt lt = some t ∧
      v = gamma * ((List.zipWith (fun y k => - Real.log (softmax y k)) Ds ls).sum / (Ds.length : ℝ)) - t ∧ 0 ≤ v := by
  have hf : ∀ l : List (Fin c → ℝ), List.Forall₂ FirstMax l (l.map Adv.argmaxFin) := by
    intro l
    induction l with
    | nil => exact .nil
    | cons y l ih => exact .cons (Adv.argmaxFin_spec y) ih
  have hDs : Ds ≠ [] := by intro h; rw [h] at h1; exact hs (List.length_eq_zero_iff.1 h1.symm)
  have hDt : Dt ≠ [] := by intro h; rw [h] at h2; exact ht (List.length_eq_zero_iff.1 h2.symm)
  obtain ⟨t, ht1, -, ht3⟩ := C95_target_range s hs0 hs1 hc Dt (Yt.map Adv.argmaxFin) hDt (by simpa using ht)
  refine ⟨_, t, Ys.map Adv.argmaxFin, Yt.map Adv.argmaxFin, ?_, hf Ys, hf Yt, ht1, rfl, ?_⟩
  · unfold Adv.mddLoss
    simp only [if_neg hDs, ht1]
    unfold DL.mean
    rw [List.length_zipWith, List.length_map, h1, Nat.min_self]
    rfl
  · have : 0 ≤ (List.zipWith (fun y k => - Real.log (softmax y k)) Ds (Ys.map Adv.argmaxFin)).sum / (Ds.length : ℝ) := by
      refine div_nonneg (List.sum_nonneg fun x hx => ?_) (by positivity)
      rw [List.mem_iff_getElem] at hx
      obtain ⟨i, hi, rfl⟩ := hx
      rw [List.getElem_zipWith]
      exact Adv.crossEntropy_nonneg _ _
    nlinarith

example : ∃ v, Adv.mddLoss Real.exp Real.log (1 / 10) 4 [![1, 0]] [![(0 : ℝ), 1]] [![3, 0]] [![2, 0]] = some v ∧ 0 ≤ v := by
  obtain ⟨v, -, -, -, h, -, -, -, -, h'⟩ := C95_loss (c := 2) (1 / 10) 4 (by norm_num) (by norm_num) le_rfl (by norm_num) [![1, 0]] [![(0 : ℝ), 1]] [![3, 0]] [![2, 0]] rfl rfl (by simp) (by simp)
  exact ⟨v, h, h'⟩

/-- C95, counterexample to a discriminator that can agree with the source labels: the default classifier already ends with a softmax, so the source term
is at least `log (1 + (C-1)/e)` for every network, also one that is always right. -/
theorem C95_double_softmax_counterexample {d : Nat} (layers : List (Fin d → ℝ) → List (Fin c → ℝ)) (X : List (Fin d → ℝ)) :
    ∀ p ∈ Adv.domainClassifier Real.exp layers X, ∀ k, Real.log (1 + ((c : ℝ) - 1) * Real.exp (-1)) ≤ Adv.crossEntropy Real.exp Real.log p k := by
  intro p hp k
  obtain ⟨y, -, rfl⟩ := List.mem_map.1 hp
  have hv : ∀ j, 0 ≤ DL.softmaxT Real.exp 1 y j ∧ DL.softmaxT Real.exp 1 y j ≤ 1 := fun j => by
    rw [Adv.softmaxT_one]; exact ⟨(Adv.softmax_pos y j).le, Adv.softmax_le_one y j⟩
  generalize DL.softmaxT Real.exp 1 y = q at hv
  unfold Adv.crossEntropy
  rw [← Real.log_inv, inv_div]
  have hc1 : (1 : ℝ) ≤ c := by exact_mod_cast Fin.pos k
  refine Real.log_le_log (by have := Real.exp_pos (-1 : ℝ); nlinarith) ?_
  rw [le_div_iff₀ (Real.exp_pos _)]
  have hsum : ∑ j, Real.exp (q j) = Real.exp (q k) + ∑ j ∈ Finset.univ.erase k, Real.exp (q j) := (Finset.add_sum_erase _ _ (Finset.mem_univ k)).symm
  have hge : ((c : ℝ) - 1) * (Real.exp (-1) * Real.exp (q k)) ≤ ∑ j ∈ Finset.univ.erase k, Real.exp (q j) := by
    have hcard : ((Finset.univ.erase k : Finset (Fin c)).card : ℝ) = (c : ℝ) - 1 := by
      rw [Finset.card_erase_of_mem (Finset.mem_univ k), Finset.card_univ, Fintype.card_fin, Nat.cast_sub (Fin.pos k)]; simp
    rw [← hcard, ← nsmul_eq_mul]
    refine Finset.card_nsmul_le_sum _ _ _ fun j _ => ?_
    rw [← Real.exp_add]
    exact Real.exp_le_exp.2 (by linarith [(hv j).1, (hv k).2])
  rw [hsum]
  linarith

example : Real.log (1 + ((2 : ℕ) - 1) * Real.exp (-1)) ≤ Adv.crossEntropy Real.exp Real.log (DL.softmaxT Real.exp 1 ![(100 : ℝ), 0]) 0 :=
  C95_double_softmax_counterexample (d := 1) (fun _ => [![(100 : ℝ), 0]]) [![0]] _ (by simp [Adv.domainClassifier]) 0

end Skada

/-
C92: the DeepJDOT loss (skada/deep/losses.py:55-127).
-/
import Verif.Props.DeepMMD
import Verif.Lemmas.Monad
import Mathlib.Analysis.Convex.Birkhoff

namespace Skada

namespace Spec

/-- `P` is a transport plan: non-negative, with row sums `a` and column sums `b`. -/
def IsPlan (a b : List ℝ) (P : Nat → Nat → ℝ) : Prop :=
  (∀ i j, 0 ≤ P i j) ∧ (∀ i < a.length, ∑ j ∈ Finset.range b.length, P i j = a.getD i 0) ∧
    ∀ j < b.length, ∑ i ∈ Finset.range a.length, P i j = b.getD j 0

/-- The cost of a plan. -/
def planCost (a b : List ℝ) (M : List (List ℝ)) (P : Nat → Nat → ℝ) : ℝ :=
  ∑ i ∈ Finset.range a.length, ∑ j ∈ Finset.range b.length, P i j * (M.getD i []).getD j 0

/-- `v` is the optimal transport cost: attained by a plan, and no plan is cheaper. -/
def IsOTCost (a b : List ℝ) (M : List (List ℝ)) (v : ℝ) : Prop :=
  (∃ P, IsPlan a b P ∧ planCost a b M P = v) ∧ ∀ P, IsPlan a b P → v ≤ planCost a b M P

/-- The DeepJDOT cost of a source sample (features, label) with a target sample (features, predicted logits). -/
noncomputable def jointCost {d c : Nat} {Y : Type} (ce : (Fin c → ℝ) → Y → ℝ) (regDist regCl : ℝ) (x : Fin d → ℝ) (y : Y) (x' : Fin d → ℝ)
    (p' : Fin c → ℝ) : ℝ :=
  regDist * eucl x x' ^ 2 + regCl * ce p' y

end Spec

open Spec Np

variable {d c n : Nat} {Y : Type}

namespace DL

theorem jdotCost_ofFn (ce : (Fin c → ℝ) → Y → ℝ) (regDist regCl : ℝ) (ys : Fin n → Y) (yt : Fin n → Fin c → ℝ) (xs xt : Fin n → Fin d → ℝ) :
    jdotCost Real.sqrt ce regDist regCl (List.ofFn ys) (List.ofFn yt) (List.ofFn xs) (List.ofFn xt) =
      .ok (List.ofFn fun i => List.ofFn fun j => jointCost ce regDist regCl (xs i) (ys i) (xt j) (yt j)) := by
  unfold jdotCost jdotClassCost
  rw [if_neg (by simp)]
  simp only [ok_bind]
  rw [if_neg (by simp)]
  congr 1
  apply List.ext_getElem
  · simp
  · intro i h1 h2
    simp only [List.length_ofFn] at h2
    simp only [List.getElem_zipWith, List.getElem_ofFn, List.getElem_map, List.getElem_range, List.map_ofFn]
    apply List.ext_getElem
    · simp
    · intro j h3 h4
      simp [jointCost, dist_eq, h2]

/-- For uniform weights the optimal transport cost is the average cost of the cheapest pairing (Birkhoff). -/
theorem ot_uniform (hn : 0 < n) (M : List (List ℝ)) (v : ℝ) :
    IsOTCost (List.replicate n (1 / (n : ℝ))) (List.replicate n (1 / (n : ℝ))) M v ↔
      (∃ σ : Equiv.Perm (Fin n), v = (∑ i : Fin n, (M.getD i []).getD (σ i) 0) / n) ∧
      ∀ σ : Equiv.Perm (Fin n), v ≤ (∑ i : Fin n, (M.getD i []).getD (σ i) 0) / n := by
  classical
  have hnr : (0 : ℝ) < n := by exact_mod_cast hn
  set C : Fin n → Fin n → ℝ := fun i j => (M.getD i []).getD j 0 with hC
  have hcost : ∀ Q : Nat → Nat → ℝ, planCost (List.replicate n (1 / (n : ℝ))) (List.replicate n (1 / (n : ℝ))) M Q =
      ∑ i : Fin n, ∑ j : Fin n, Q i j * C i j := by
    intro Q
    unfold planCost
    simp only [List.length_replicate]
    rw [Finset.sum_range]
    refine Finset.sum_congr rfl fun i _ => ?_
    rw [Finset.sum_range]
  have hperm : ∀ σ : Equiv.Perm (Fin n), ∃ Q, IsPlan (List.replicate n (1 / (n : ℝ))) (List.replicate n (1 / (n : ℝ))) Q ∧
      planCost (List.replicate n (1 / (n : ℝ))) (List.replicate n (1 / (n : ℝ))) M Q = (∑ i, C i (σ i)) / n := by
    intro σ
    let Q : Nat → Nat → ℝ := fun i j => if h : i < n then (if ((σ ⟨i, h⟩ : Fin n) : Nat) = j then 1 / (n : ℝ) else 0) else 0
    have hQ : ∀ i j : Fin n, Q i j = if σ i = j then 1 / (n : ℝ) else 0 := by
      intro i j
      simp only [Q, dif_pos i.2, Fin.ext_iff, Fin.eta]
    refine ⟨Q, ⟨fun i j => ?_, fun i hi => ?_, fun j hj => ?_⟩, ?_⟩
    · simp only [Q]; split_ifs <;> positivity
    · simp only [List.length_replicate] at hi ⊢
      rw [Finset.sum_range, Finset.sum_congr rfl (fun (j : Fin n) _ => hQ ⟨i, hi⟩ j)]
      simp [List.getD_eq_getElem?_getD, hi]
    · simp only [List.length_replicate] at hj ⊢
      rw [Finset.sum_range, Finset.sum_congr rfl (fun (i : Fin n) _ => hQ i ⟨j, hj⟩)]
      rw [Equiv.sum_comp σ (fun k => if k = ⟨j, hj⟩ then 1 / (n : ℝ) else 0)]
      simp [List.getD_eq_getElem?_getD, hj]
    · rw [hcost, Finset.sum_div]
      refine Finset.sum_congr rfl fun i _ => ?_
      simp only [hQ, ite_mul, zero_mul, Finset.sum_ite_eq, Finset.mem_univ, if_true]
      ring
  have hmix : ∀ P, IsPlan (List.replicate n (1 / (n : ℝ))) (List.replicate n (1 / (n : ℝ))) P → ∃ w : Equiv.Perm (Fin n) → ℝ,
      (∀ σ, 0 ≤ w σ) ∧ ∑ σ, w σ = 1 ∧ planCost (List.replicate n (1 / (n : ℝ))) (List.replicate n (1 / (n : ℝ))) M P =
        ∑ σ, w σ * ((∑ i, C i (σ i)) / n) := by
    intro P hP
    let D : Matrix (Fin n) (Fin n) ℝ := fun i j => n * P i j
    have hD : D ∈ doublyStochastic ℝ (Fin n) := by
      rw [mem_doublyStochastic_iff_sum]
      refine ⟨fun i j => mul_nonneg hnr.le (hP.1 i j), fun i => ?_, fun j => ?_⟩
      · have := hP.2.1 i (by simp)
        simp only [List.length_replicate] at this
        rw [Finset.sum_range] at this
        show ∑ j : Fin n, (n : ℝ) * P i j = 1
        rw [← Finset.mul_sum, this]
        simp [List.getD_eq_getElem?_getD, hnr.ne']
      · have := hP.2.2 j (by simp)
        simp only [List.length_replicate] at this
        rw [Finset.sum_range] at this
        show ∑ i : Fin n, (n : ℝ) * P i j = 1
        rw [← Finset.mul_sum, this]
        simp [List.getD_eq_getElem?_getD, hnr.ne']
    obtain ⟨w, hw0, hw1, hwD⟩ := exists_eq_sum_perm_of_mem_doublyStochastic hD
    refine ⟨w, hw0, hw1, ?_⟩
    rw [hcost]
    have h1 : ∀ i j : Fin n, P i j = (∑ σ : Equiv.Perm (Fin n), w σ * (if σ i = j then 1 else 0)) / n := by
      intro i j
      have : D i j = ∑ σ : Equiv.Perm (Fin n), w σ * (if σ i = j then 1 else 0) := by
        rw [← hwD]
        simp only [Matrix.sum_apply, Matrix.smul_apply, smul_eq_mul, Equiv.Perm.permMatrix, PEquiv.toMatrix_apply, Equiv.toPEquiv_apply,
          Option.mem_def, Option.some.injEq]
      rw [← this]
      show P i j = (n : ℝ) * P i j / n
      field_simp
    calc ∑ i : Fin n, ∑ j : Fin n, P i j * C i j
        = ∑ i : Fin n, ∑ j : Fin n, ∑ σ : Equiv.Perm (Fin n), w σ * ((if σ i = j then C i j else 0) / n) := by
          refine Finset.sum_congr rfl fun i _ => Finset.sum_congr rfl fun j _ => ?_
          rw [h1, Finset.sum_div, Finset.sum_mul]
          refine Finset.sum_congr rfl fun σ _ => ?_
          split_ifs <;> ring
      _ = ∑ i : Fin n, ∑ σ : Equiv.Perm (Fin n), ∑ j : Fin n, w σ * ((if σ i = j then C i j else 0) / n) :=
          Finset.sum_congr rfl fun i _ => Finset.sum_comm
      _ = ∑ σ : Equiv.Perm (Fin n), ∑ i : Fin n, ∑ j : Fin n, w σ * ((if σ i = j then C i j else 0) / n) := Finset.sum_comm
      _ = _ := by
          refine Finset.sum_congr rfl fun σ _ => ?_
          rw [Finset.sum_div, Finset.mul_sum]
          refine Finset.sum_congr rfl fun i _ => ?_
          rw [← Finset.mul_sum, ← Finset.sum_div]
          simp
  constructor
  · rintro ⟨⟨P, hP, rfl⟩, hmin⟩
    have hup : ∀ σ : Equiv.Perm (Fin n), planCost (List.replicate n (1 / (n : ℝ))) (List.replicate n (1 / (n : ℝ))) M P ≤ (∑ i, C i (σ i)) / n := by
      intro σ
      obtain ⟨Q, hQ, hQc⟩ := hperm σ
      rw [← hQc]; exact hmin Q hQ
    refine ⟨?_, hup⟩
    obtain ⟨w, hw0, hw1, hval⟩ := hmix P hP
    set v := planCost (List.replicate n (1 / (n : ℝ))) (List.replicate n (1 / (n : ℝ))) M P
    by_contra hcon
    push Not at hcon
    have hlt : ∀ σ : Equiv.Perm (Fin n), v < (∑ i, C i (σ i)) / n := fun σ => lt_of_le_of_ne (hup σ) (hcon σ)
    have hpos : ∃ σ, 0 < w σ := by
      by_contra h
      push Not at h
      have : ∑ σ, w σ ≤ 0 := Finset.sum_nonpos fun σ _ => h σ
      linarith
    obtain ⟨σ0, hσ0⟩ := hpos
    have : ∑ σ, w σ * v < ∑ σ : Equiv.Perm (Fin n), w σ * ((∑ i, C i (σ i)) / n) :=
      Finset.sum_lt_sum (fun σ _ => mul_le_mul_of_nonneg_left (hlt σ).le (hw0 σ)) ⟨σ0, Finset.mem_univ _, mul_lt_mul_of_pos_left (hlt σ0) hσ0⟩
    rw [← Finset.sum_mul, hw1, one_mul, ← hval] at this
    exact lt_irrefl _ this
  · rintro ⟨⟨σ, hσ⟩, hmin⟩
    obtain ⟨Q, hQ, hQc⟩ := hperm σ
    refine ⟨⟨Q, hQ, hQc.trans hσ.symm⟩, fun P hP => ?_⟩
    obtain ⟨w, hw0, hw1, hval⟩ := hmix P hP
    rw [hval]
    calc v = ∑ σ, w σ * v := by rw [← Finset.sum_mul, hw1, one_mul]
      _ ≤ _ := Finset.sum_le_sum fun τ _ => mul_le_mul_of_nonneg_left (hmin τ) (hw0 τ)

/-- An exact solver for uniform weights exists. -/
theorem exists_emd2 : ∃ emd2 : List ℝ → List ℝ → List (List ℝ) → Py ℝ, ∀ (k : Nat) (M : List (List ℝ)),
    ∃ v, emd2 (List.replicate k (1 / (k : ℝ))) (List.replicate k (1 / (k : ℝ))) M = .ok v ∧
      IsOTCost (List.replicate k (1 / (k : ℝ))) (List.replicate k (1 / (k : ℝ))) M v := by
  classical
  have h : ∀ (k : Nat) (M : List (List ℝ)), ∃ v, IsOTCost (List.replicate k (1 / (k : ℝ))) (List.replicate k (1 / (k : ℝ))) M v := by
    intro k M
    rcases Nat.eq_zero_or_pos k with rfl | hk
    · exact ⟨0, ⟨fun _ _ => 0, ⟨fun _ _ => le_rfl, by simp, by simp⟩, by simp [planCost]⟩, fun P _ => by simp [planCost]⟩
    · obtain ⟨σ, hσ⟩ := Finite.exists_min (fun σ : Equiv.Perm (Fin k) => (∑ i : Fin k, (M.getD i []).getD (σ i) 0) / k)
      exact ⟨_, (ot_uniform hk M _).2 ⟨⟨σ, rfl⟩, hσ⟩⟩
  choose f hf using h
  exact ⟨fun a _ M => .ok (f a.length M), fun k M => ⟨f k M, by simp, hf k M⟩⟩

end DL

/-- C92.  For batches of the same size the ground cost of source row `i` and target row `j` is
`reg_dist * ‖xs_i - xt_j‖² + reg_cl * criterion(prediction of j, label of i)`: rows of the cost are source samples, columns target samples. -/
theorem C92_cost (ce : (Fin c → ℝ) → Y → ℝ) (regDist regCl : ℝ) (ys : Fin n → Y) (yt : Fin n → Fin c → ℝ) (xs xt : Fin n → Fin d → ℝ) :
    DL.jdotCost Real.sqrt ce regDist regCl (List.ofFn ys) (List.ofFn yt) (List.ofFn xs) (List.ofFn xt) =
      .ok (List.ofFn fun i => List.ofFn fun j => jointCost ce regDist regCl (xs i) (ys i) (xt j) (yt j)) :=
  DL.jdotCost_ofFn ce regDist regCl ys yt xs xt

/-- C92.  With an exact transport solver and no weights, the loss of two batches of the same size is the average cost of the cheapest
one-to-one pairing of source and target rows. -/
theorem C92_pairing (ce : (Fin c → ℝ) → Y → ℝ) (emd2 : List ℝ → List ℝ → List (List ℝ) → Py ℝ)
    (hemd : ∀ (k : Nat) (M : List (List ℝ)), ∃ v, emd2 (List.replicate k (1 / (k : ℝ))) (List.replicate k (1 / (k : ℝ))) M = .ok v ∧
      IsOTCost (List.replicate k (1 / (k : ℝ))) (List.replicate k (1 / (k : ℝ))) M v)
    (regDist regCl : ℝ) (hn : 0 < n) (ys : Fin n → Y) (yt : Fin n → Fin c → ℝ) (xs xt : Fin n → Fin d → ℝ) :
    ∃ v, DL.deepjdot Real.sqrt ce emd2 regDist regCl (List.ofFn ys) (List.ofFn yt) (List.ofFn xs) (List.ofFn xt) none none = .ok v ∧
      (∃ σ : Equiv.Perm (Fin n), v = (∑ i, jointCost ce regDist regCl (xs i) (ys i) (xt (σ i)) (yt (σ i))) / n) ∧
      ∀ σ : Equiv.Perm (Fin n), v ≤ (∑ i, jointCost ce regDist regCl (xs i) (ys i) (xt (σ i)) (yt (σ i))) / n := by
  obtain ⟨v, hv, hot⟩ := hemd n (List.ofFn fun i => List.ofFn fun j => jointCost ce regDist regCl (xs i) (ys i) (xt j) (yt j))
  have hne : ∀ x : Fin n → Fin d → ℝ, List.ofFn x ≠ [] := fun x h => by
    have := congrArg List.length h; simp at this; omega
  have hget : ∀ (σ : Equiv.Perm (Fin n)) (i : Fin n), ((List.ofFn fun i => List.ofFn fun j => jointCost ce regDist regCl (xs i) (ys i) (xt j) (yt j)).getD i []).getD (σ i) 0 =
      jointCost ce regDist regCl (xs i) (ys i) (xt (σ i)) (yt (σ i)) := by
    intro σ i; simp [List.getD_eq_getElem?_getD]
  rw [DL.ot_uniform hn] at hot
  simp only [hget] at hot
  refine ⟨v, ?_, hot.1, hot.2⟩
  unfold DL.deepjdot
  rw [DL.jdotCost_ofFn]
  simp only [ok_bind, DL.jdotWeights, if_neg (hne xs), if_neg (hne xt), List.length_ofFn]
  exact hv

/-- C92.  The loss is non-negative (non-negative regularisations and criterion), and it is 0 when the batches can be paired so that
features agree and the predictions on the target rows have criterion 0 for the source labels; conversely a zero loss means such a pairing
exists (positive regularisations). -/
theorem C92_zero (ce : (Fin c → ℝ) → Y → ℝ) (hce : ∀ p y, 0 ≤ ce p y) (emd2 : List ℝ → List ℝ → List (List ℝ) → Py ℝ)
    (hemd : ∀ (k : Nat) (M : List (List ℝ)), ∃ v, emd2 (List.replicate k (1 / (k : ℝ))) (List.replicate k (1 / (k : ℝ))) M = .ok v ∧
      IsOTCost (List.replicate k (1 / (k : ℝ))) (List.replicate k (1 / (k : ℝ))) M v)
    (regDist regCl : ℝ) (hd : 0 < regDist) (hcl : 0 < regCl) (hn : 0 < n) (ys : Fin n → Y) (yt : Fin n → Fin c → ℝ) (xs xt : Fin n → Fin d → ℝ) :
    ∃ v, DL.deepjdot Real.sqrt ce emd2 regDist regCl (List.ofFn ys) (List.ofFn yt) (List.ofFn xs) (List.ofFn xt) none none = .ok v ∧ 0 ≤ v ∧
      (v = 0 ↔ ∃ σ : Equiv.Perm (Fin n), ∀ i, xs i = xt (σ i) ∧ ce (yt (σ i)) (ys i) = 0) := by
  obtain ⟨v, hv, ⟨σ, hσ⟩, hmin⟩ := C92_pairing ce emd2 hemd regDist regCl hn ys yt xs xt
  have hnr : (0 : ℝ) < n := by exact_mod_cast hn
  have hnn : ∀ (τ : Equiv.Perm (Fin n)) i, 0 ≤ jointCost ce regDist regCl (xs i) (ys i) (xt (τ i)) (yt (τ i)) := fun τ i =>
    add_nonneg (mul_nonneg hd.le (sq_nonneg _)) (mul_nonneg hcl.le (hce _ _))
  have hz : ∀ (τ : Equiv.Perm (Fin n)) i, jointCost ce regDist regCl (xs i) (ys i) (xt (τ i)) (yt (τ i)) = 0 ↔
      xs i = xt (τ i) ∧ ce (yt (τ i)) (ys i) = 0 := by
    intro τ i
    unfold jointCost
    rw [add_eq_zero_iff_of_nonneg (mul_nonneg hd.le (sq_nonneg _)) (mul_nonneg hcl.le (hce _ _)), mul_eq_zero, mul_eq_zero,
      or_iff_right hd.ne', or_iff_right hcl.ne', pow_eq_zero_iff two_ne_zero, DL.eucl_eq_norm, norm_sub_eq_zero_iff,
      (WithLp.toLp_injective 2).eq_iff]
  have hv0 : 0 ≤ v := by rw [hσ]; exact div_nonneg (Finset.sum_nonneg fun i _ => hnn σ i) hnr.le
  refine ⟨v, hv, hv0, ⟨fun h => ⟨σ, fun i => ?_⟩, fun ⟨τ, hτ⟩ => ?_⟩⟩
  · rw [h] at hσ
    have h0 := (div_eq_zero_iff.1 hσ.symm).resolve_right hnr.ne'
    exact (hz σ i).1 ((Finset.sum_eq_zero_iff_of_nonneg fun i _ => hnn σ i).1 h0 i (Finset.mem_univ i))
  · refine le_antisymm ((hmin τ).trans (le_of_eq ?_)) hv0
    rw [Finset.sum_eq_zero fun i _ => (hz τ i).2 (hτ i), zero_div]

/-- An exact solver exists; two rows per batch, the target batch holds the source rows in the other order with perfect predictions. -/
example : ∃ emd2, DL.deepjdot Real.sqrt (fun (p : Fin 2 → ℝ) (y : Fin 2) => |1 - p y|) emd2 1 1 [0, 1] [![0, 1], ![1, 0]]
    [![(0 : ℝ)], ![1]] [![1], ![0]] none none = .ok 0 := by
  obtain ⟨emd2, h⟩ := DL.exists_emd2
  obtain ⟨v, hv, -, hz⟩ := C92_zero (n := 2) (fun (p : Fin 2 → ℝ) (y : Fin 2) => |1 - p y|) (fun _ _ => abs_nonneg _) emd2 h 1 1 one_pos one_pos
    (by norm_num) ![0, 1] ![![0, 1], ![1, 0]] ![![(0 : ℝ)], ![1]] ![![1], ![0]]
  have h0 : v = 0 := hz.2 ⟨Equiv.swap 0 1, fun i => by fin_cases i <;> simp⟩
  exact ⟨emd2, by simpa [h0] using hv⟩

/-- C92.  Given weights are used as they are: the source weights as row sums and the target weights as column sums of the plan; a missing one is
uniform. -/
theorem C92_weights (ce : (Fin c → ℝ) → Y → ℝ) (emd2 : List ℝ → List ℝ → List (List ℝ) → Py ℝ) (ok : List ℝ → List ℝ → Prop)
    (hemd : ∀ a b M, ok a b → ∃ v, emd2 a b M = .ok v ∧ IsOTCost a b M v) (regDist regCl : ℝ) (hn : 0 < n) (ys : Fin n → Y)
    (yt : Fin n → Fin c → ℝ) (xs xt : Fin n → Fin d → ℝ) (ws wt : Option (List ℝ))
    (hok : ok (ws.getD (List.replicate n (1 / (n : ℝ)))) (wt.getD (List.replicate n (1 / (n : ℝ))))) :
    ∃ v, DL.deepjdot Real.sqrt ce emd2 regDist regCl (List.ofFn ys) (List.ofFn yt) (List.ofFn xs) (List.ofFn xt) ws wt = .ok v ∧
      IsOTCost (ws.getD (List.replicate n (1 / (n : ℝ)))) (wt.getD (List.replicate n (1 / (n : ℝ))))
        (List.ofFn fun i => List.ofFn fun j => jointCost ce regDist regCl (xs i) (ys i) (xt j) (yt j)) v := by
  obtain ⟨v, hv, hot⟩ := hemd _ _ (List.ofFn fun i => List.ofFn fun j => jointCost ce regDist regCl (xs i) (ys i) (xt j) (yt j)) hok
  have hne : ∀ x : Fin n → Fin d → ℝ, List.ofFn x ≠ [] := fun x h => by
    have := congrArg List.length h; simp at this; omega
  refine ⟨v, ?_, hot⟩
  have hw : ∀ (w : Option (List ℝ)) (x : Fin n → Fin d → ℝ), DL.jdotWeights w (List.ofFn x) = .ok (w.getD (List.replicate n (1 / (n : ℝ)))) := by
    intro w x
    cases w with
    | none => simp only [DL.jdotWeights, if_neg (hne x), List.length_ofFn, Option.getD_none]
    | some w => rfl
  unfold DL.deepjdot
  rw [DL.jdotCost_ofFn, hw, hw]
  exact hv

/-- All the target weight on the first row: the only plan sends everything there. -/
example : ∃ emd2 v, DL.deepjdot Real.sqrt (fun (_ : Fin 1 → ℝ) (_ : Unit) => (0 : ℝ)) emd2 1 1 (List.ofFn fun _ : Fin 2 => ()) (List.ofFn ![![0], ![0]])
    (List.ofFn ![![(0 : ℝ)], ![1]]) (List.ofFn ![![1], ![0]]) (some [0, 1]) (some [1, 0]) = .ok v := by
  classical
  refine ⟨fun a b M => if h : ∃ v, IsOTCost a b M v then .ok h.choose else .error .valueError, ?_⟩
  obtain ⟨v, hv, -⟩ := C92_weights (n := 2) (fun (_ : Fin 1 → ℝ) (_ : Unit) => (0 : ℝ))
    (fun a b M => if h : ∃ v, IsOTCost a b M v then .ok h.choose else .error .valueError) (fun a b => ∀ M, ∃ v, IsOTCost a b M v)
    (fun a b M h => ⟨(h M).choose, by rw [dif_pos (h M)], (h M).choose_spec⟩) 1 1 (by norm_num) (fun _ => ()) ![![0], ![0]] ![![(0 : ℝ)], ![1]] ![![1], ![0]]
    (some [0, 1]) (some [1, 0]) (by
      intro M
      have key : ∀ P, IsPlan [0, 1] [1, 0] P → planCost [0, 1] [1, 0] M P = (M.getD 1 []).getD 0 0 := by
        intro P ⟨h0, h1, h2⟩
        have e1 := h1 0 (by simp)
        have e2 := h1 1 (by simp)
        have e3 := h2 0 (by simp)
        have e4 := h2 1 (by simp)
        simp only [List.length_cons, List.length_nil, Finset.sum_range_succ, Finset.sum_range_zero, zero_add] at e1 e2 e3 e4
        simp at e1 e2 e3 e4
        have p00 : P 0 0 = 0 := by linarith [h0 0 0, h0 0 1]
        have p01 : P 0 1 = 0 := by linarith [h0 0 0, h0 0 1]
        have p11 : P 1 1 = 0 := by linarith
        have p10 : P 1 0 = 1 := by linarith
        simp [planCost, Finset.sum_range_succ, p00, p01, p10, p11]
      refine ⟨(M.getD 1 []).getD 0 0, ⟨fun i j => if i = 1 ∧ j = 0 then 1 else 0, ?_, ?_⟩, fun P hP => (key P hP).ge⟩
      · exact ⟨fun i j => by dsimp only; split_ifs <;> norm_num, fun i hi => by change i < 2 at hi; interval_cases i <;> simp,
          fun j hj => by change j < 2 at hj; interval_cases j <;> simp⟩
      · simp [planCost, Finset.sum_range_succ])
  exact ⟨v, hv⟩

/-- C92.  Batches of different sizes cannot be compared: the class cost needs as many predictions as labels and fails with a `ValueError`,
whatever the weights; given matching labels, features of another size are a `RuntimeError`; two empty batches are a `ZeroDivisionError`. -/
theorem C92_errors {K : Type} [Field K] [LinearOrder K] (sqrt : K → K) (ce : (Fin c → K) → Y → K) (emd2 : List K → List K → List (List K) → Py K)
    (regDist regCl : K) (ys : List Y) (Yt : List (Fin c → K)) (Xs Xt : List (Fin d → K)) (ws wt : Option (List K)) :
    (Yt.length ≠ ys.length → DL.deepjdot sqrt ce emd2 regDist regCl ys Yt Xs Xt ws wt = .error .valueError) ∧
    (Yt.length = ys.length → Xs.length ≠ ys.length ∨ Xt.length ≠ Yt.length →
      DL.deepjdot sqrt ce emd2 regDist regCl ys Yt Xs Xt ws wt = .error .runtimeError) ∧
    DL.deepjdot sqrt ce emd2 regDist regCl ([] : List Y) ([] : List (Fin c → K)) ([] : List (Fin d → K)) [] none none = .error .zeroDivisionError := by
  refine ⟨fun h => ?_, fun h1 h2 => ?_, rfl⟩
  · unfold DL.deepjdot DL.jdotCost DL.jdotClassCost; rw [if_pos h]; rfl
  · unfold DL.deepjdot DL.jdotCost DL.jdotClassCost
    rw [if_neg (not_not.2 h1)]
    simp only [ok_bind]
    rw [if_pos h2]; rfl

end Skada

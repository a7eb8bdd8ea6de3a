/- Helper lemmas for the Frank-Wolfe solver. -/
import Verif.Model.FrankWolfe
import Verif.Lemmas.Arg
import Mathlib.Tactic.Linarith
import Mathlib.Tactic.FieldSimp
import Mathlib.Tactic.Ring
import Mathlib.Tactic.Positivity
import Mathlib.Algebra.Order.BigOperators.Group.Finset

namespace Skada
namespace Spec

variable {K : Type} [Field K] [LinearOrder K] [IsStrictOrderedRing K] {n : Nat}

/-- The feasible set of the Frank-Wolfe solver as documented: `x ≥ 0` and `clb ≤ ⟨c, x⟩ ≤ cub`. -/
def Feasible (c : Fin n → K) (clb cub : K) (x : Fin n → K) : Prop :=
  (∀ i, 0 ≤ x i) ∧ clb ≤ ∑ i, c i * x i ∧ ∑ i, c i * x i ≤ cub

end Spec

namespace FW

variable {K : Type} [Field K] [LinearOrder K] [IsStrictOrderedRing K] {n : Nat}

omit [IsStrictOrderedRing K] in
theorem vertex_spec (hn : 0 < n) (c g : Vec K n) (clb cub : K) :
    ∃ (j : Fin n), (∀ i, g j * (1 / c j) ≤ g i * (1 / c i)) ∧
      vertex c g clb cub = .ok (fun i => if i = j then
        (if 0 ≤ g j * (1 / c j) then 1 / c j * clb else 1 / c j * cub) else 0) := by
  have hne : List.ofFn (fun i => g i * (1 / c i)) ≠ [] := by
    intro h
    have := congrArg List.length h
    simp at this
    omega
  obtain ⟨i, y, h1, h2, h3, _⟩ := Np.argmin_spec hne
  have hi : i < n := by
    have := (List.getElem?_eq_some_iff.1 h2).1
    simpa using this
  have hy : g ⟨i, hi⟩ * (1 / c ⟨i, hi⟩) = y := by
    simpa [List.getElem?_ofFn, hi] using h2
  refine ⟨⟨i, hi⟩, ?_, ?_⟩
  · intro k
    rw [hy]
    exact h3 _ (List.mem_ofFn.2 ⟨k, rfl⟩)
  · simp only [vertex, h1, bind, Except.bind, hi, dite_true, pure, Except.pure, ge_iff_le]
    congr 1
    funext k
    simp [Fin.ext_iff]

omit [LinearOrder K] [IsStrictOrderedRing K] in
theorem sum_single (j : Fin n) (a : K) (w : Vec K n) :
    ∑ i, w i * (if i = j then a else 0) = w j * a := by
  simp [Finset.sum_ite_eq']

theorem vertex_feasible (hn : 0 < n) {c g : Vec K n} {clb cub : K} (hc : ∀ i, 0 < c i)
    (h0 : 0 ≤ clb) (h1 : clb ≤ cub) :
    ∃ v, vertex c g clb cub = .ok v ∧ Spec.Feasible c clb cub v ∧
      ∀ z, Spec.Feasible c clb cub z → ∑ i, g i * v i ≤ ∑ i, g i * z i := by
  obtain ⟨j, hj, hv⟩ := vertex_spec hn c g clb cub
  refine ⟨_, hv, ⟨?_, ?_, ?_⟩, ?_⟩
  · intro i
    have := (hc j)
    have h2 : 0 ≤ cub := h0.trans h1
    dsimp only
    by_cases hij : i = j
    · rw [if_pos hij]
      split <;> positivity
    · rw [if_neg hij]
  · rw [sum_single]
    have := (hc j).ne'
    split
    · field_simp; exact le_rfl
    · field_simp; exact h1
  · rw [sum_single]
    have := (hc j).ne'
    split
    · field_simp; exact h1
    · field_simp; exact le_rfl
  · intro z hz
    rw [sum_single]
    have hcj := (hc j).ne'
    have key : g j * (1 / c j) * ∑ i, c i * z i ≤ ∑ i, g i * z i := by
      rw [Finset.mul_sum]
      refine Finset.sum_le_sum fun i _ => ?_
      have hci := hc i
      have e : g i * z i = g i * (1 / c i) * (c i * z i) := by field_simp
      rw [e]
      exact mul_le_mul_of_nonneg_right (hj i) (mul_nonneg hci.le (hz.1 i))
    refine le_trans ?_ key
    split
    · rename_i hp
      calc g j * (1 / c j * clb) = g j * (1 / c j) * clb := by ring
        _ ≤ _ := mul_le_mul_of_nonneg_left hz.2.1 hp
    · rename_i hp
      calc g j * (1 / c j * cub) = g j * (1 / c j) * cub := by ring
        _ ≤ _ := mul_le_mul_of_nonpos_left hz.2.2 (le_of_lt (not_le.1 hp))

/-- The feasible set is convex. -/
theorem feasible_convex {c x v : Vec K n} {clb cub lr : K} (hx : Spec.Feasible c clb cub x)
    (hv : Spec.Feasible c clb cub v) (h0 : 0 ≤ lr) (h1 : lr ≤ 1) :
    Spec.Feasible c clb cub (fun i => (1 - lr) * x i + lr * v i) := by
  have e : ∑ i, c i * ((1 - lr) * x i + lr * v i)
      = (1 - lr) * ∑ i, c i * x i + lr * ∑ i, c i * v i := by
    rw [Finset.mul_sum, Finset.mul_sum, ← Finset.sum_add_distrib]
    exact Finset.sum_congr rfl fun i _ => by ring
  have h2 : 0 ≤ 1 - lr := by linarith
  refine ⟨fun i => add_nonneg (mul_nonneg h2 (hx.1 i)) (mul_nonneg h0 (hv.1 i)), ?_, ?_⟩
  · rw [e]
    nlinarith [mul_le_mul_of_nonneg_left hx.2.1 h2, mul_le_mul_of_nonneg_left hv.2.1 h0]
  · rw [e]
    nlinarith [mul_le_mul_of_nonneg_left hx.2.2 h2, mul_le_mul_of_nonneg_left hv.2.2 h0]

theorem lr_range (m : Nat) : (0 : K) ≤ 2 / (((m + 1 : Nat) : K) + 1) ∧
    2 / (((m + 1 : Nat) : K) + 1) ≤ 1 := by
  constructor
  · positivity
  · rw [div_le_one (by positivity)]
    push_cast
    have : (0 : K) ≤ m := Nat.cast_nonneg m
    linarith

theorem loop_step (hn : 0 < n) {jac : Vec K n → Vec K n} {c : Vec K n} {clb cub : K}
    {x0 x : Vec K n} {m : Nat} (hc : ∀ i, 0 < c i) (h0 : 0 ≤ clb) (h1 : clb ≤ cub)
    (hx : loop jac c clb cub x0 m = .ok x) :
    ∃ v, Spec.Feasible c clb cub v ∧
      (∀ z, Spec.Feasible c clb cub z → ∑ i, jac x i * v i ≤ ∑ i, jac x i * z i) ∧
      loop jac c clb cub x0 (m + 1)
        = .ok (fun i => (1 - 2 / (((m + 1 : Nat) : K) + 1)) * x i
            + 2 / (((m + 1 : Nat) : K) + 1) * v i) := by
  obtain ⟨v, hv, hf, hmin⟩ := vertex_feasible hn (g := jac x) hc h0 h1
  refine ⟨v, hf, hmin, ?_⟩
  simp only [loop, hx, step, hv, bind, Except.bind, pure, Except.pure]

theorem loop_feasible (hn : 0 < n) {jac : Vec K n → Vec K n} {c : Vec K n} {clb cub : K}
    {x0 : Vec K n} (hc : ∀ i, 0 < c i) (h0 : 0 ≤ clb) (h1 : clb ≤ cub) (m : Nat) :
    ∃ x, loop jac c clb cub x0 (m + 1) = .ok x ∧ Spec.Feasible c clb cub x := by
  induction m with
  | zero =>
    obtain ⟨v, hf, _, hl⟩ := loop_step hn (jac := jac) (x0 := x0) (m := 0) hc h0 h1 rfl
    refine ⟨_, hl, ?_⟩
    have e : (fun i => (1 - 2 / (((0 + 1 : Nat) : K) + 1)) * x0 i
            + 2 / (((0 + 1 : Nat) : K) + 1) * v i) = v := by
      funext i
      have : (2 : K) / (((0 + 1 : Nat) : K) + 1) = 1 := by
        rw [div_eq_one_iff_eq] <;> norm_num
      rw [this]; ring
    rw [e]; exact hf
  | succ m ih =>
    obtain ⟨x, hx, hfx⟩ := ih
    obtain ⟨v, hf, _, hl⟩ := loop_step hn hc h0 h1 hx
    exact ⟨_, hl, feasible_convex hfx hf (lr_range (m + 1)).1 (lr_range (m + 1)).2⟩

omit [IsStrictOrderedRing K] in
theorem loop_empty {jac : Vec K 0 → Vec K 0} {c x0 : Vec K 0} {clb cub : K} (m : Nat) :
    loop jac c clb cub x0 (m + 1) = .error .valueError := by
  induction m with
  | zero => simp [loop, step, vertex, bind, Except.bind, Np.argmin_nil]
  | succ m ih => rw [loop, ih]; rfl

/-- The Frank-Wolfe rate for an abstract objective. -/
theorem loop_rate (hn : 0 < n) {f : Vec K n → K} {jac : Vec K n → Vec K n} {c : Vec K n}
    {clb cub C : K} {x0 : Vec K n} (hc : ∀ i, 0 < c i) (h0 : 0 ≤ clb) (h1 : clb ≤ cub)
    (hconv : ∀ x z, (x = x0 ∨ Spec.Feasible c clb cub x) → Spec.Feasible c clb cub z →
      f x + ∑ i, jac x i * (z i - x i) ≤ f z)
    (hsmooth : ∀ x v γ, (x = x0 ∨ Spec.Feasible c clb cub x) → Spec.Feasible c clb cub v →
      0 ≤ γ → γ ≤ 1 →
      f (fun i => (1 - γ) * x i + γ * v i)
        ≤ f x + γ * ∑ i, jac x i * (v i - x i) + γ ^ 2 * C / 2)
    (hC : 0 ≤ C) (m : Nat) :
    ∃ x, loop jac c clb cub x0 (m + 1) = .ok x ∧ Spec.Feasible c clb cub x ∧
      ∀ z, Spec.Feasible c clb cub z → f x ≤ f z + 2 * C / (((m + 1 : Nat) : K) + 1) := by
  -- one step contracts the gap
  have key : ∀ (k : Nat) (x : Vec K n), (x = x0 ∨ Spec.Feasible c clb cub x) →
      loop jac c clb cub x0 k = .ok x →
      ∃ x', loop jac c clb cub x0 (k + 1) = .ok x' ∧ ∀ z, Spec.Feasible c clb cub z →
        f x' - f z ≤ (1 - 2 / (((k + 1 : Nat) : K) + 1)) * (f x - f z)
          + (2 / (((k + 1 : Nat) : K) + 1)) ^ 2 * C / 2 := by
    intro k x hx hl
    obtain ⟨v, hf, hmin, hl'⟩ := loop_step hn hc h0 h1 hl
    refine ⟨_, hl', fun z hz => ?_⟩
    have s := hsmooth x v _ hx hf (lr_range (K := K) k).1 (lr_range (K := K) k).2
    have cv := hconv x z hx hz
    have mn := hmin z hz
    have e1 : ∑ i, jac x i * (v i - x i) = ∑ i, jac x i * v i - ∑ i, jac x i * x i := by
      rw [← Finset.sum_sub_distrib]; exact Finset.sum_congr rfl fun i _ => by ring
    have e2 : ∑ i, jac x i * (z i - x i) = ∑ i, jac x i * z i - ∑ i, jac x i * x i := by
      rw [← Finset.sum_sub_distrib]; exact Finset.sum_congr rfl fun i _ => by ring
    have hle : ∑ i, jac x i * (v i - x i) ≤ f z - f x := by
      rw [e1]; rw [e2] at cv; linarith
    have := mul_le_mul_of_nonneg_left hle (lr_range (K := K) k).1
    linarith
  induction m with
  | zero =>
    obtain ⟨x, hx, hfx⟩ := loop_feasible hn (jac := jac) (x0 := x0) hc h0 h1 0
    obtain ⟨x', hx', hb⟩ := key 0 x0 (Or.inl rfl) rfl
    rw [hx] at hx'
    cases hx'
    refine ⟨x, hx, hfx, fun z hz => ?_⟩
    have := hb z hz
    have e : (2 : K) / (((0 + 1 : Nat) : K) + 1) = 1 := by
      rw [div_eq_one_iff_eq] <;> norm_num
    rw [e] at this
    have e2 : 2 * C / (((0 + 1 : Nat) : K) + 1) = C := by
      rw [div_eq_iff] <;> norm_num; ring
    rw [e2]
    linarith
  | succ m ih =>
    obtain ⟨x, hx, hfx, hb⟩ := ih
    obtain ⟨x', hx', hfx'⟩ := loop_feasible hn (jac := jac) (x0 := x0) hc h0 h1 (m + 1)
    obtain ⟨x'', hx'', hb'⟩ := key (m + 1) x (Or.inr hfx) hx
    rw [hx'] at hx''
    cases hx''
    refine ⟨x', hx', hfx', fun z hz => ?_⟩
    have a := hb z hz
    have b := hb' z hz
    have hm : (0 : K) ≤ m := Nat.cast_nonneg m
    have l := lr_range (K := K) (m + 1)
    push_cast at a b l ⊢
    set M : K := (m : K)
    have a' : f x - f z ≤ 2 * C / (M + 1 + 1) := by linarith
    have b2 := mul_le_mul_of_nonneg_left a' (sub_nonneg.2 l.2)
    have fin : (1 - 2 / (M + 1 + 1 + 1)) * (2 * C / (M + 1 + 1)) + (2 / (M + 1 + 1 + 1)) ^ 2 * C / 2
        ≤ 2 * C / (M + 1 + 1 + 1) := by
      have p1 : (0 : K) < M + 1 + 1 := by linarith
      have p2 : (0 : K) < M + 1 + 1 + 1 := by linarith
      rw [← sub_nonneg]
      have e : 2 * C / (M + 1 + 1 + 1) - ((1 - 2 / (M + 1 + 1 + 1)) * (2 * C / (M + 1 + 1))
          + (2 / (M + 1 + 1 + 1)) ^ 2 * C / 2)
          = 2 * C / ((M + 1 + 1) * (M + 1 + 1 + 1) ^ 2) := by
        field_simp
        ring
      rw [e]
      positivity
    linarith

/-- Bilinear expansion of the quadratic objective along a segment. -/
theorem qp_expand {Q : Fin n → Vec K n} (hs : ∀ i j, Q i j = Q j i) (q : Option (Vec K n))
    (x v : Vec K n) (γ : K) :
    qpFunc Q q (fun i => (1 - γ) * x i + γ * v i)
      = qpFunc Q q x + γ * ∑ i, qpJac Q q x i * (v i - x i)
        + γ ^ 2 * (∑ i, ∑ j, Q i j * (v i - x i) * (v j - x j)) / 2 := by
  have quad : dot (fun i => (1 - γ) * x i + γ * v i) (matVec Q (fun i => (1 - γ) * x i + γ * v i))
      = dot x (matVec Q x) + 2 * γ * ∑ i, matVec Q x i * (v i - x i)
        + γ ^ 2 * ∑ i, ∑ j, Q i j * (v i - x i) * (v j - x j) := by
    have sw : ∑ i, ∑ j, Q i j * x i * (v j - x j) = ∑ i, ∑ j, Q i j * x j * (v i - x i) := by
      rw [Finset.sum_comm]
      refine Finset.sum_congr rfl fun i _ => Finset.sum_congr rfl fun j _ => ?_
      rw [hs j i]
    have e : 2 * γ * ∑ i, matVec Q x i * (v i - x i)
        = γ * ∑ i, ∑ j, Q i j * x i * (v j - x j) + γ * ∑ i, ∑ j, Q i j * x j * (v i - x i) := by
      rw [sw]
      simp only [matVec, Finset.sum_mul]
      ring
    rw [e]
    simp only [dot, matVec, Finset.mul_sum, ← Finset.sum_add_distrib]
    refine Finset.sum_congr rfl fun i _ => Finset.sum_congr rfl fun j _ => ?_
    ring
  cases q with
  | none =>
    simp only [qpFunc, qpJac, quad]
    ring
  | some q =>
    have lin : dot (fun i => (1 - γ) * x i + γ * v i) q = dot x q + γ * ∑ i, q i * (v i - x i) := by
      simp only [dot, Finset.mul_sum, ← Finset.sum_add_distrib]
      exact Finset.sum_congr rfl fun i _ => by ring
    have sp : ∑ i, (matVec Q x i + q i) * (v i - x i)
        = ∑ i, matVec Q x i * (v i - x i) + ∑ i, q i * (v i - x i) := by
      rw [← Finset.sum_add_distrib]
      exact Finset.sum_congr rfl fun i _ => by ring
    simp only [qpFunc, qpJac, quad, lin, sp]
    ring

/-- A quadratic form is bounded on a box. -/
theorem quad_le (Q : Fin n → Vec K n) {d D : Vec K n} (h : ∀ i, |d i| ≤ D i) :
    ∑ i, ∑ j, Q i j * d i * d j ≤ ∑ i, ∑ j, |Q i j| * D i * D j := by
  refine Finset.sum_le_sum fun i _ => Finset.sum_le_sum fun j _ => ?_
  calc Q i j * d i * d j ≤ |Q i j * d i * d j| := le_abs_self _
    _ = |Q i j| * |d i| * |d j| := by rw [abs_mul, abs_mul]
    _ ≤ |Q i j| * D i * D j := by
      have := abs_nonneg (d i)
      have h1 := (abs_nonneg (d i)).trans (h i)
      exact mul_le_mul (mul_le_mul_of_nonneg_left (h i) (abs_nonneg _)) (h j) (abs_nonneg _)
        (mul_nonneg (abs_nonneg _) h1)

/-- A feasible point lies in the box `[0, cub / c i]`. -/
theorem feasible_box {c x : Vec K n} {clb cub : K} (hc : ∀ i, 0 < c i)
    (hx : Spec.Feasible c clb cub x) (i : Fin n) : 0 ≤ x i ∧ x i ≤ cub / c i := by
  refine ⟨hx.1 i, ?_⟩
  rw [le_div_iff₀ (hc i), mul_comm]
  exact (Finset.single_le_sum (f := fun i => c i * x i)
    (fun j _ => mul_nonneg (hc j).le (hx.1 j)) (Finset.mem_univ i)).trans hx.2.2

theorem qp_rate (hn : 0 < n) {Q : Fin n → Vec K n} {q : Option (Vec K n)} {c : Vec K n}
    {clb cub : K} {x0 D : Vec K n} (hc : ∀ i, 0 < c i) (h0 : 0 ≤ clb) (h1 : clb ≤ cub)
    (hs : ∀ i j, Q i j = Q j i) (hpsd : ∀ d : Vec K n, 0 ≤ ∑ i, ∑ j, Q i j * d i * d j)
    (hD : ∀ i, cub / c i ≤ D i)
    (hD0 : ∀ v, Spec.Feasible c clb cub v → ∀ i, |v i - x0 i| ≤ D i) (m : Nat) :
    ∃ x, loop (qpJac Q q) c clb cub x0 (m + 1) = .ok x ∧ Spec.Feasible c clb cub x ∧
      ∀ z, Spec.Feasible c clb cub z → qpFunc Q q x ≤ qpFunc Q q z
        + 2 * (∑ i, ∑ j, |Q i j| * D i * D j) / (((m + 1 : Nat) : K) + 1) := by
  have hDn : ∀ i, 0 ≤ D i := fun i => (div_nonneg (h0.trans h1) (hc i).le).trans (hD i)
  have box : ∀ x v, (x = x0 ∨ Spec.Feasible c clb cub x) → Spec.Feasible c clb cub v →
      ∀ i, |v i - x i| ≤ D i := by
    intro x v hx hv i
    rcases hx with rfl | hx
    · exact hD0 v hv i
    · have a := feasible_box hc hx i
      have b := feasible_box hc hv i
      have := hD i
      rw [abs_le]
      constructor <;> linarith
  refine loop_rate hn hc h0 h1 ?_ ?_ ?_ m
  · intro x z hx hz
    have := qp_expand hs q x z 1
    have e : (fun i => (1 - 1) * x i + 1 * z i) = z := by funext i; ring
    rw [e] at this
    have p := hpsd (fun i => z i - x i)
    rw [this]
    linarith
  · intro x v γ hx hv hγ _
    rw [qp_expand hs q x v γ]
    have := quad_le Q (box x v hx hv)
    have := mul_le_mul_of_nonneg_left this (sq_nonneg γ)
    linarith
  · exact Finset.sum_nonneg fun i _ => Finset.sum_nonneg fun j _ =>
      mul_nonneg (mul_nonneg (abs_nonneg _) (hDn i)) (hDn j)

end FW
end Skada

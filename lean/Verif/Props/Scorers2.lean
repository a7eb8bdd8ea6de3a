/-
C79, C80, C51, C82: neighbourhood density, deep embedded validation and MaNo scorers.
-/
import Verif.Props.Scorers
import Mathlib.Analysis.SpecialFunctions.Pow.Real

namespace Skada
open Np Spec

section Scorers2
set_option linter.unusedSectionVars false
variable {α β : Type}

theorem mapM_some {γ δ : Type} {f : γ → Option δ} {g : γ → δ} {l : List γ} (h : ∀ x ∈ l, f x = some (g x)) : l.mapM f = some (l.map g) := by
  induction l with
  | nil => rfl
  | cons a l ih =>
    rw [List.mapM_cons, h a List.mem_cons_self, ih (fun x hx => h x (List.mem_cons_of_mem _ hx))]
    rfl

theorem mapM_none {γ δ : Type} {f : γ → Option δ} {l : List γ} (h : ∃ x ∈ l, f x = none) : l.mapM f = none := by
  induction l with
  | nil => simp at h
  | cons a l ih =>
    obtain ⟨x, hx, hf⟩ := h
    rw [List.mapM_cons]
    rcases List.mem_cons.1 hx with rfl | hx
    · rw [hf]; rfl
    · rw [ih ⟨x, hx, hf⟩]
      cases f a <;> rfl

section field
variable {K : Type} [Field K] [LinearOrder K] [IsStrictOrderedRing K]

theorem sum_div (l : List K) (c : K) : (l.map (fun x => x / c)).sum = l.sum / c := by
  induction l with
  | nil => simp
  | cons a l ih => rw [List.map_cons, List.sum_cons, List.sum_cons, ih]; ring

theorem signed_eq (gib : Bool) (x : K) : Score.signed gib x = if gib then x else -x := by
  cases gib <;> simp [Score.signed]

theorem foldl_max_spec (l : List K) (x : K) : (∀ v ∈ l, v ≤ l.foldl max x) ∧ x ≤ l.foldl max x ∧ (l.foldl max x = x ∨ l.foldl max x ∈ l) := by
  induction l generalizing x with
  | nil => simp
  | cons a l ih =>
    obtain ⟨h1, h2, h3⟩ := ih (max x a)
    rw [List.foldl_cons]
    refine ⟨?_, (le_max_left _ _).trans h2, ?_⟩
    · intro v hv
      rcases List.mem_cons.1 hv with rfl | hv
      · exact (le_max_right _ _).trans h2
      · exact h1 v hv
    · rcases h3 with h | h
      · rcases max_choice x a with hm | hm
        · left; rw [h, hm]
        · right; rw [h, hm]; exact List.mem_cons_self
      · right; exact List.mem_cons_of_mem _ h

theorem maxOf_spec {r : List K} (h : r ≠ []) : (∀ v ∈ r, v ≤ Score.maxOf r) ∧ Score.maxOf r ∈ r := by
  cases r with
  | nil => exact absurd rfl h
  | cons a l =>
    obtain ⟨h1, h2, h3⟩ := foldl_max_spec l a
    refine ⟨?_, ?_⟩
    · intro v hv
      rcases List.mem_cons.1 hv with rfl | hv
      · exact h2
      · exact h1 v hv
    · rcases h3 with h | h
      · simp only [Score.maxOf]; rw [h]; exact List.mem_cons_self
      · exact List.mem_cons_of_mem _ h

theorem foldl_min_spec (l : List K) (x : K) : (∀ v ∈ l, l.foldl min x ≤ v) ∧ l.foldl min x ≤ x ∧ (l.foldl min x = x ∨ l.foldl min x ∈ l) := by
  induction l generalizing x with
  | nil => simp
  | cons a l ih =>
    obtain ⟨h1, h2, h3⟩ := ih (min x a)
    rw [List.foldl_cons]
    refine ⟨?_, h2.trans (min_le_left _ _), ?_⟩
    · intro v hv
      rcases List.mem_cons.1 hv with rfl | hv
      · exact h2.trans (min_le_right _ _)
      · exact h1 v hv
    · rcases h3 with h | h
      · rcases min_choice x a with hm | hm
        · left; rw [h, hm]
        · right; rw [h, hm]; exact List.mem_cons_self
      · right; exact List.mem_cons_of_mem _ h

theorem minOf_spec {r : List K} (h : r ≠ []) : (∀ v ∈ r, Score.minOf r ≤ v) ∧ Score.minOf r ∈ r := by
  cases r with
  | nil => exact absurd rfl h
  | cons a l =>
    obtain ⟨h1, h2, h3⟩ := foldl_min_spec l a
    refine ⟨?_, ?_⟩
    · intro v hv
      rcases List.mem_cons.1 hv with rfl | hv
      · exact h2
      · exact h1 v hv
    · rcases h3 with h | h
      · simp only [Score.minOf]; rw [h]; exact List.mem_cons_self
      · exact List.mem_cons_of_mem _ h

/-- Dividing positive numbers by their sum gives a probability list. -/
theorem normalise_spec {e : List K} (hne : e ≠ []) (h : ∀ x ∈ e, 0 < x) :
    (∀ x ∈ e.map (fun x => x / e.sum), 0 < x) ∧ (e.map (fun x => x / e.sum)).sum = 1 := by
  have hpos : 0 < e.sum := List.sum_pos _ h hne
  refine ⟨?_, by rw [sum_div, div_self hpos.ne']⟩
  intro x hx
  obtain ⟨v, hv, rfl⟩ := List.mem_map.1 hx
  exact div_pos (h v hv) hpos

theorem softmaxRow_spec (ex : K → K) (hex : ∀ x, 0 < ex x) {r : List K} (h : r ≠ []) :
    (Score.softmaxRow ex r).length = r.length ∧ (∀ x ∈ Score.softmaxRow ex r, 0 < x) ∧ (Score.softmaxRow ex r).sum = 1 := by
  unfold Score.softmaxRow
  refine ⟨by simp, ?_⟩
  apply normalise_spec
  · simpa using h
  · intro x hx
    obtain ⟨v, -, rfl⟩ := List.mem_map.1 hx
    exact hex _

end field

/-! ### C79: soft neighbourhood density -/

theorem softNeighborhood_run {K : Type} [Field K] [LinearOrder K] [IsStrictOrderedRing K] (gib : Bool) (T : K)
    (proba : List α → List Int → Py (List (List K))) (sqrt ex lg : K → K) (X : List α) (y : List Num) (sd : List Int)
    (hX : X ≠ []) (hy : y.length = X.length) (hs : sd.length = X.length) (p : List (List K))
    (hp : proba (targetRows sd X) (sd.filter (fun d => decide (d < 0))) = .ok p) :
    Score.softNeighborhood gib T (some proba) sqrt ex lg X y (.vec sd)
      = .ok ((((Score.similarity T (p.map (Score.l2row sqrt))).map (Score.softmaxRow ex)).mapM (Score.rowEntropy lg)).map
          (fun e => Score.signed gib (Score.mean e))) := by
  have hf : targetRows sd sd = sd.filter (fun d => decide (d < 0)) := by rw [← sel_target, sel_map_self]
  unfold Score.softNeighborhood
  simp only
  rw [checkXy_vec hX hy hs]
  simp only [ok_bind]
  rw [extractSourceIndices_ok (sd_ne_nil hX hs)]
  simp only [ok_bind]
  rw [boolIndex_target hs.symm, boolIndex_target rfl, hf]
  simp only [ok_bind, hp]

/-- C79. In exact arithmetic the soft neighbourhood density of `n` target rows is a number between 0 and `log n`, for every prediction matrix and
temperature. -/
theorem C79_range_partial (gib : Bool) (T : ℝ) (_hT : 0 < T) (proba : List α → List Int → Py (List (List ℝ))) (X : List α) (y : List Num)
    (sd : List Int) (hX : X ≠ []) (hy : y.length = X.length) (hs : sd.length = X.length) (p : List (List ℝ))
    (hp : proba (targetRows sd X) (sd.filter (fun d => decide (d < 0))) = .ok p) (hlen : p.length = nTarget sd) (hn : 0 < nTarget sd) :
    ∃ s, Score.softNeighborhood gib T (some proba) Real.sqrt Real.exp Real.log X y (.vec sd) = .ok (some (if gib then s else -s)) ∧
      0 ≤ s ∧ s ≤ Real.log (nTarget sd) := by
  rw [softNeighborhood_run gib T proba Real.sqrt Real.exp Real.log X y sd hX hy hs p hp]
  set S := (Score.similarity T (p.map (Score.l2row Real.sqrt))).map (Score.softmaxRow Real.exp) with hS
  have hrow : ∀ r ∈ S, r.length = nTarget sd ∧ (∀ x ∈ r, 0 < x) ∧ r.sum = 1 := by
    intro r hr
    obtain ⟨r0, hr0, rfl⟩ := List.mem_map.1 hr
    have hl : r0.length = nTarget sd := by
      unfold Score.similarity at hr0
      obtain ⟨i, hi, rfl⟩ := List.mem_iff_getElem.1 hr0
      rw [List.getElem_mapIdx, List.length_mapIdx, List.length_map, hlen]
    obtain ⟨h1, h2, h3⟩ := softmaxRow_spec Real.exp Real.exp_pos (r := r0) (by rintro rfl; simp at hl; omega)
    exact ⟨by rw [h1, hl], h2, h3⟩
  have hSl : S.length = nTarget sd := by
    rw [hS, List.length_map]
    unfold Score.similarity
    rw [List.length_mapIdx, List.length_map, hlen]
  have hent : S.mapM (Score.rowEntropy Real.log) = some (S.map (fun r => (r.map Real.negMulLog).sum)) := by
    apply mapM_some
    intro r hr
    unfold Score.rowEntropy
    rw [if_neg (fun h => lt_irrefl _ ((hrow r hr).2.1 0 h))]
    rfl
  rw [hent]
  refine ⟨Score.mean (S.map (fun r => (r.map Real.negMulLog).sum)), by rw [Option.map_some, signed_eq], ?_⟩
  have hb := sum_bounds (l := S.map (fun r => (r.map Real.negMulLog).sum)) (lo := 0) (hi := Real.log (nTarget sd)) (by
    intro x hx
    obtain ⟨r, hr, rfl⟩ := List.mem_map.1 hx
    obtain ⟨h1, h2, h3⟩ := hrow r hr
    exact ⟨entropy_nonneg (fun x hx => (h2 x hx).le) h3, h1 ▸ entropy_le_log (fun x hx => (h2 x hx).le) h3⟩)
  have hn' : (0 : ℝ) < nTarget sd := by exact_mod_cast hn
  unfold Score.mean
  rw [List.length_map, hSl] at hb ⊢
  constructor
  · apply div_nonneg _ hn'.le
    linarith [hb.1]
  · rw [div_le_iff₀ hn']
    linarith [hb.2]

/-- C79 (own row). For non-negative predictions no row counts itself as its closest neighbour: its similarity to itself is the smallest of its row. -/
theorem C79_self {K : Type} [Field K] [LinearOrder K] [IsStrictOrderedRing K] (T : K) (hT : 0 < T) (P : List (List K))
    (h0 : ∀ r ∈ P, ∀ x ∈ r, 0 ≤ x) (i j : Nat) (r : List K) (a b : K) (hr : (Score.similarity T P)[i]? = some r)
    (ha : r[i]? = some a) (hb : r[j]? = some b) : a ≤ b := by
  have hdot : ∀ u ∈ P, ∀ v ∈ P, 0 ≤ Score.dot u v := by
    intro u hu v hv
    unfold Score.dot
    apply List.sum_nonneg
    intro x hx
    obtain ⟨k, hk, rfl⟩ := List.mem_iff_getElem.1 hx
    rw [List.getElem_zipWith]
    exact mul_nonneg (h0 u hu _ (List.getElem_mem _)) (h0 v hv _ (List.getElem_mem _))
  unfold Score.similarity at hr
  rw [List.getElem?_mapIdx] at hr
  cases hPi : P[i]? with
  | none => rw [hPi] at hr; simp at hr
  | some u =>
    rw [hPi] at hr
    simp only [Option.map_some, Option.some.injEq] at hr
    rw [← hr, List.getElem?_mapIdx, hPi] at ha
    rw [← hr, List.getElem?_mapIdx] at hb
    simp only [Option.map_some, if_true, Option.some.injEq] at ha
    cases hPj : P[j]? with
    | none => rw [hPj] at hb; simp at hb
    | some v =>
      rw [hPj] at hb
      simp only [Option.map_some, Option.some.injEq] at hb
      have hu := List.mem_of_getElem? hPi
      have hv := List.mem_of_getElem? hPj
      have d1 := div_nonneg (hdot u hu u hu) hT.le
      have d2 := div_nonneg (hdot u hu v hv) hT.le
      by_cases hij : i = j
      · subst hij
        rw [hPi] at hPj
        injection hPj with hPj
        subst hPj
        rw [if_pos rfl] at hb
        rw [← ha, ← hb]
      · rw [if_neg hij] at hb
        rw [← ha, ← hb]
        linarith

/-- Inner products of scaled rows. -/
theorem dot_div (a b : List ℝ) (u v : ℝ) :
    Score.dot (a.map (fun x => x / u)) (b.map (fun x => x / v)) = Score.dot a b / (u * v) := by
  unfold Score.dot
  induction a generalizing b with
  | nil => simp
  | cons x a ih =>
    cases b with
    | nil => simp
    | cons y b =>
      have := ih b
      simp only [List.map_cons, List.zipWith_cons_cons, List.sum_cons] at this ⊢
      rw [this, div_mul_div_comm]
      ring

theorem dot_self_nonneg (a : List ℝ) : 0 ≤ Score.dot a a := by
  unfold Score.dot
  rw [List.zipWith_self]
  exact List.sum_nonneg (by intro x hx; obtain ⟨v, -, rfl⟩ := List.mem_map.1 hx; exact mul_self_nonneg v)

/-- Cauchy-Schwarz. -/
theorem dot_sq_le (a b : List ℝ) : Score.dot a b ^ 2 ≤ Score.dot a a * Score.dot b b := by
  induction a generalizing b with
  | nil => simp [Score.dot]
  | cons x a ih =>
    cases b with
    | nil => simp [Score.dot]
    | cons y b =>
      have h := ih b
      have ha := dot_self_nonneg a
      have hb := dot_self_nonneg b
      have e : ∀ (u v : ℝ) (c d : List ℝ), Score.dot (u :: c) (v :: d) = u * v + Score.dot c d := by
        intro u v c d; simp [Score.dot]
      rw [e, e, e]
      set p := Score.dot a a
      set q := Score.dot b b
      set r := Score.dot a b
      have h1 : r ≤ Real.sqrt (p * q) := Real.le_sqrt_of_sq_le h
      have h1' : -r ≤ Real.sqrt (p * q) := Real.le_sqrt_of_sq_le (by nlinarith)
      have h2 : Real.sqrt (p * q) = Real.sqrt p * Real.sqrt q := Real.sqrt_mul ha q
      have hp := Real.sq_sqrt ha
      have hq := Real.sq_sqrt hb
      have h3 : 2 * (x * y) * r ≤ x ^ 2 * q + y ^ 2 * p := by
        have k1 : (x * y) * r ≤ |x * y| * (Real.sqrt p * Real.sqrt q) := by
          calc (x * y) * r ≤ |x * y * r| := le_abs_self _
            _ = |x * y| * |r| := abs_mul _ _
            _ ≤ _ := by
              apply mul_le_mul_of_nonneg_left _ (abs_nonneg _)
              rw [← h2]; exact abs_le.2 ⟨by linarith, h1⟩
        have k2 : |x * y| = |x| * |y| := abs_mul _ _
        have k3 : |x| ^ 2 = x ^ 2 := sq_abs x
        have k4 : |y| ^ 2 = y ^ 2 := sq_abs y
        nlinarith [sq_nonneg (|x| * Real.sqrt q - |y| * Real.sqrt p)]
      nlinarith

/-- The cosine of two lists of numbers, zero when one of them has length zero. -/
noncomputable def Spec.cosOf (a b : List ℝ) : ℝ :=
  (List.zipWith (· * ·) a b).sum / (Real.sqrt (a.map (· ^ 2)).sum * Real.sqrt (b.map (· ^ 2)).sum)

theorem dot_l2row (a b : List ℝ) : Score.dot (Score.l2row Real.sqrt a) (Score.l2row Real.sqrt b) = cosOf a b ∧ |cosOf a b| ≤ 1 := by
  have hsq : ∀ c : List ℝ, (c.map (· ^ 2)).sum = Score.dot c c := by
    intro c
    unfold Score.dot
    rw [List.zipWith_self]
    simp only [sq]
  have hz : ∀ c : List ℝ, Real.sqrt (Score.dot c c) = 0 → ∀ d : List ℝ, Score.dot c d = 0 := by
    intro c hc d
    have h0 : Score.dot c c = 0 := (Real.sqrt_eq_zero (dot_self_nonneg c)).1 hc
    have := dot_sq_le c d
    rw [h0, zero_mul] at this
    exact pow_eq_zero_iff (two_ne_zero) |>.1 (le_antisymm this (sq_nonneg _))
  have hcomm : ∀ c d : List ℝ, Score.dot c d = Score.dot d c := by
    intro c d
    unfold Score.dot
    rw [List.zipWith_comm]
    simp only [mul_comm]
  have hdef : cosOf a b = Score.dot a b / (Real.sqrt (Score.dot a a) * Real.sqrt (Score.dot b b)) := by
    rw [cosOf, hsq, hsq]; rfl
  constructor
  · rw [hdef]
    simp only [Score.l2row]
    by_cases h1 : Real.sqrt (Score.dot a a) = 0
    · rw [if_pos h1, h1, zero_mul, div_zero, hz a h1]
    · by_cases h2 : Real.sqrt (Score.dot b b) = 0
      · rw [if_pos h2, hcomm, hz b h2, h2, mul_zero, div_zero]
      · rw [if_neg h1, if_neg h2, dot_div]
  · rw [hdef, abs_div, abs_of_nonneg (mul_nonneg (Real.sqrt_nonneg _) (Real.sqrt_nonneg _))]
    refine div_le_one_of_le₀ ?_ (mul_nonneg (Real.sqrt_nonneg _) (Real.sqrt_nonneg _))
    rw [← Real.sqrt_mul (dot_self_nonneg a)]
    exact Real.abs_le_sqrt (dot_sq_le a b)

theorem softmaxRow_ofFn {n : Nat} (r : Fin n → ℝ) :
    Score.softmaxRow Real.exp (List.ofFn r) = List.ofFn (fun j => Real.exp (r j) / ∑ k, Real.exp (r k)) := by
  unfold Score.softmaxRow
  set m := Score.maxOf (List.ofFn r)
  have hs : ((List.ofFn r).map (fun x => Real.exp (x - m))).sum = (∑ k, Real.exp (r k)) / Real.exp m := by
    rw [List.map_ofFn, List.sum_ofFn, Finset.sum_div]
    exact Finset.sum_congr rfl fun k _ => by simp [Real.exp_sub]
  dsimp only
  rw [hs]
  simp only [List.map_ofFn]
  congr 1
  funext j
  simp only [Function.comp_apply, Real.exp_sub]
  have := (Real.exp_pos m).ne'
  rw [div_div_div_cancel_right₀ this]

/-- C79. What the score is: with `s i j` the cosine of the predictions of the target rows `i` and `j` divided by the
temperature, negated for `i = j`, the average over the target rows of the entropy of the distribution proportional to
`exp (s i ·)`.  The similarities lie between `-1 / T` and `1 / T`. -/
theorem C79_formula (gib : Bool) (T : ℝ) (hT : 0 < T) (proba : List α → List Int → Py (List (List ℝ))) (X : List α) (y : List Num)
    (sd : List Int) (hX : X ≠ []) (hy : y.length = X.length) (hs : sd.length = X.length) (n : Nat) (p : Fin n → List ℝ)
    (hp : proba (targetRows sd X) (sd.filter (fun d => decide (d < 0))) = .ok (List.ofFn p))
    (s : Fin n → Fin n → ℝ) (hdef : ∀ i j, s i j = (if i = j then -1 else 1) * (cosOf (p i) (p j) / T))
    (q : Fin n → Fin n → ℝ) (hq : ∀ i j, q i j = Real.exp (s i j) / ∑ k, Real.exp (s i k)) :
    Score.softNeighborhood gib T (some proba) Real.sqrt Real.exp Real.log X y (.vec sd) =
      .ok (some ((if gib then 1 else -1) * ((∑ i, - ∑ j, q i j * Real.log (q i j)) / n))) ∧
    ∀ i j, |s i j| ≤ 1 / T := by
  constructor
  · rw [softNeighborhood_run gib T proba Real.sqrt Real.exp Real.log X y sd hX hy hs _ hp]
    have hsim : Score.similarity T ((List.ofFn p).map (Score.l2row Real.sqrt)) = List.ofFn (fun i => List.ofFn (s i)) := by
      unfold Score.similarity
      apply List.ext_getElem (by simp)
      intro i h1 h2
      apply List.ext_getElem (by simp)
      intro j h3 h4
      simp only [List.getElem_mapIdx, List.getElem_map, List.getElem_ofFn, (dot_l2row _ _).1, hdef, Fin.mk.injEq]
      split <;> simp
    rw [hsim, List.map_ofFn]
    have hsm : (Score.softmaxRow Real.exp ∘ fun i => List.ofFn (s i)) = fun i => List.ofFn (q i) := by
      funext i
      simp only [Function.comp_apply, softmaxRow_ofFn]
      congr 1
      funext j
      rw [hq]
    rw [hsm]
    have hent : (List.ofFn (fun i => List.ofFn (q i))).mapM (Score.rowEntropy Real.log) =
        some ((List.ofFn (fun i => List.ofFn (q i))).map (fun r => (r.map (fun v => - v * Real.log v)).sum)) := by
      apply mapM_some
      intro r hr
      obtain ⟨i, rfl⟩ := List.mem_ofFn.1 hr
      unfold Score.rowEntropy
      rw [if_neg]
      intro h
      obtain ⟨j, hj⟩ := List.mem_ofFn.1 h
      have : 0 < q i j := by
        rw [hq]
        exact div_pos (Real.exp_pos _) (Finset.sum_pos (fun _ _ => Real.exp_pos _) ⟨j, Finset.mem_univ _⟩)
      exact this.ne' hj
    rw [hent, Option.map_some, List.map_ofFn]
    congr 3
    unfold Score.mean
    rw [List.sum_ofFn, List.length_ofFn]
    congr 1
    refine Finset.sum_congr rfl fun i _ => ?_
    simp [List.map_ofFn, List.sum_ofFn]
  · intro i j
    have h := (dot_l2row (p i) (p j)).2
    rw [hdef, abs_mul, abs_div, abs_of_pos hT]
    have h1 : |if i = j then (-1 : ℝ) else 1| = 1 := by split <;> simp
    rw [h1, one_mul]
    exact div_le_div_of_nonneg_right h hT.le

/-- Three target rows, one of them with a zero prediction. -/
example := C79_formula (α := Nat) true 2 (by norm_num) (fun _ _ => .ok [[1, 0], [3 / 5, 4 / 5], [0, 0]]) [7, 8, 9, 5] [.nan, .nan, .nan, .nan]
  [-1, -1, -2, 1] (by simp) rfl rfl 3 ![[1, 0], [3 / 5, 4 / 5], [0, 0]] (by simp [List.ofFn_succ]) _ (fun _ _ => rfl) _ (fun _ _ => rfl)

/-- C79 (estimators without probabilities). An estimator without `predict_proba` is an `AttributeError`, whatever the data. -/
theorem C79_no_proba {K : Type} [Field K] [LinearOrder K] [IsStrictOrderedRing K] (gib : Bool) (T : K) (sqrt ex lg : K → K) (X : List α) (y : List Num)
    (sd : SDArg) : Score.softNeighborhood gib T none sqrt ex lg X y sd = .error .attributeError := rfl

/-- C79 (negation in floating point). With any exponential that underflows to 0 below `-A` (double precision: `A = 746`), a temperature
`T ≤ 2 / A` makes the score NaN already for two target rows with the same certain prediction. -/
theorem C79_underflow_counterexample {K : Type} [Field K] [LinearOrder K] [IsStrictOrderedRing K] (gib : Bool) (A T : K) (hT : 0 < T)
    (hA : A * T ≤ 2) (sqrt ex lg : K → K) (hs1 : sqrt 1 = 1) (hex : ∀ x, x ≤ -A → ex x = 0)
    (proba : List α → List Int → Py (List (List K))) (X : List α) (y : List Num) (sd : List Int) (hX : X ≠ []) (hy : y.length = X.length)
    (hs : sd.length = X.length) (hp : proba (targetRows sd X) (sd.filter (fun d => decide (d < 0))) = .ok [[1, 0], [1, 0]]) :
    Score.softNeighborhood gib T (some proba) sqrt ex lg X y (.vec sd) = .ok none := by
  rw [softNeighborhood_run gib T proba sqrt ex lg X y sd hX hy hs _ hp]
  have hl : Score.l2row sqrt ([1, 0] : List K) = [1, 0] := by
    simp [Score.l2row, Score.dot, hs1]
  have hsim : Score.similarity T [([1, 0] : List K), [1, 0]] = [[-(1 / T), 1 / T], [1 / T, -(1 / T)]] := by
    simp [Score.similarity, Score.dot]
  have hpos : 0 < 1 / T := by positivity
  have hmax : Score.maxOf [-(1 / T), 1 / T] = 1 / T := by
    simp only [Score.maxOf, List.foldl_cons, List.foldl_nil]
    rw [max_eq_right (by linarith)]
  have hz : ex (-(1 / T) - 1 / T) = 0 := by
    apply hex
    have : -(1 / T) - 1 / T = -(2 / T) := by ring
    rw [this, neg_le_neg_iff, le_div_iff₀ hT]
    exact hA
  have h0 : (0 : K) ∈ Score.softmaxRow ex [-(1 / T), 1 / T] := by
    unfold Score.softmaxRow
    simp only [hmax, List.map_cons, List.map_nil, hz]
    simp
  rw [List.map_cons, List.map_cons, List.map_nil, hl, hsim, List.map_cons]
  rw [mapM_none ⟨_, List.mem_cons_self, by unfold Score.rowEntropy; rw [if_pos h0]⟩]
  rfl

example : Score.softNeighborhood true (1 / 2) (some (fun X _ => .ok (X.map (fun _ => [1, 0])))) id (fun x => if x = 0 then 3 else 1) id
    [5, 6, 7] [.fin 0, .fin (-1), .fin (-1)] (.vec [1, -2, -3]) = .ok (some (-5 / 8 : ℚ)) := by decide +kernel

/-! ### C80: deep embedded validation -/

section dev
variable {K : Type} [Field K] [LinearOrder K] [IsStrictOrderedRing K]

theorem sum_mul_const (w : List K) (c : K) : (w.map (fun x => x * c)).sum = w.sum * c := by
  induction w with
  | nil => simp
  | cons a w ih => rw [List.map_cons, List.sum_cons, List.sum_cons, ih]; ring

theorem mean_mul_const (w : List K) (c : K) : Score.mean (w.map (fun x => x * c)) = Score.mean w * c := by
  unfold Score.mean
  rw [sum_mul_const, List.length_map]
  ring

theorem zipWith_map_self {γ δ ε ζ : Type} (f : δ → ε → ζ) (g : γ → δ) (h : γ → ε) (l : List γ) :
    List.zipWith f (l.map g) (l.map h) = l.map (fun x => f (g x) (h x)) := by
  induction l with
  | nil => rfl
  | cons a l ih => simp [ih]

theorem cov_scale (w : List K) (a b : K) : Score.cov (w.map (fun x => x * a)) (w.map (fun x => x * b)) = a * b * Score.cov w w := by
  unfold Score.cov
  rw [mean_mul_const, mean_mul_const, List.length_map, zipWith_map_self]
  have : List.zipWith (fun x y => (x - Score.mean w) * (y - Score.mean w)) w w = w.map (fun x => (x - Score.mean w) * (x - Score.mean w)) := by
    have := zipWith_map_self (fun x y => (x - Score.mean w) * (y - Score.mean w)) id id w
    simpa only [List.map_id, id] using this
  rw [this]
  have e : (w.map (fun x => (x * a - Score.mean w * a) * (x * b - Score.mean w * b))).sum
      = a * b * (w.map (fun x => (x - Score.mean w) * (x - Score.mean w))).sum := by
    generalize Score.mean w = m
    clear this
    induction w with
    | nil => simp
    | cons c w ih => rw [List.map_cons, List.map_cons, List.sum_cons, List.sum_cons, ih]; ring
  rw [e]
  ring

/-- C80. Losses given as a column: if the loss is the same number `c` on all validation rows, the estimated target risk is exactly `c`, whatever
the (non-constant) density ratios are. -/
theorem C80_constant_partial (gib : Bool) (w : List K) (c : K) (hn : 2 ≤ w.length) (hv : Score.cov w w ≠ 0) :
    Score.devScore gib w (.column (w.map (fun _ => c))) = .ok (some (if gib then c else -c)) := by
  unfold Score.devScore
  rw [if_neg (by simp [Score.Losses.len])]
  have hcol : List.zipWith (· * ·) w (w.map (fun _ => c)) = w.map (fun x => x * c) := by
    conv_lhs => rw [← List.map_id w]
    rw [List.map_map, zipWith_map_self]
    rfl
  simp only [Score.weightedColumns, hcol, List.cons_append, List.nil_append, List.flatten_cons, List.flatten_nil, List.append_nil]
  rw [if_neg (by omega), if_neg hv]
  have hc : Score.cov (w.map (fun x => x * c)) w = c * Score.cov w w := by
    have := cov_scale w c 1
    simpa using this
  rw [hc, mean_mul_const, ← signed_eq]
  congr 2
  field_simp
  ring_nf

/-- The two classical averages, for the statements below. -/
def Spec.avg (l : List K) : K := l.sum / l.length

/-- C80 (default loss: what is computed). The default loss returns a one-dimensional array, and `weights * error` becomes an `n × n` matrix. For all
weights with non-zero variance and all losses the score is `mean(w) mean(e) - e₀ e₁ (mean(w) - 1)`: weights and losses are no longer
paired row by row. -/
theorem C80_flat_closed_form (gib : Bool) (w e : List K) (e0 e1 : K) (he : w.length = (e0 :: e1 :: e).length) (hv : Score.cov w w ≠ 0) :
    Score.devScore gib w (.flat (e0 :: e1 :: e))
      = .ok (some ((fun s => if gib then s else -s) (avg w * avg (e0 :: e1 :: e) - e0 * e1 * (avg w - 1)))) := by
  unfold Score.devScore
  rw [if_neg (by simpa [Score.Losses.len] using he)]
  simp only [Score.weightedColumns, List.map_cons, List.cons_append]
  have hn : 2 ≤ w.length := by rw [he]; simp
  rw [if_neg (by omega), if_neg hv, cov_scale]
  have hflat : ∀ l : List K, ((l.map (fun ej => w.map (fun wi => wi * ej))).flatten).sum = w.sum * l.sum ∧
      ((l.map (fun ej => w.map (fun wi => wi * ej))).flatten).length = w.length * l.length := by
    intro l
    induction l with
    | nil => simp
    | cons a l ih =>
      rw [List.map_cons, List.flatten_cons, List.sum_append, List.length_append, ih.1, ih.2, sum_mul_const, List.length_map]
      simp only [List.sum_cons, List.length_cons]
      constructor <;> ring
  have hm : Score.mean ((w.map (fun wi => wi * e0) :: w.map (fun wi => wi * e1) :: e.map (fun ej => w.map (fun wi => wi * ej))).flatten)
      = avg w * avg (e0 :: e1 :: e) := by
    have := hflat (e0 :: e1 :: e)
    simp only [List.map_cons] at this
    unfold Score.mean avg
    rw [this.1, this.2]
    push_cast
    rw [mul_div_mul_comm]
  rw [hm, ← signed_eq]
  congr 2
  have : Score.mean w = avg w := rfl
  rw [this]
  field_simp
  ring_nf

/-- C80 (negation for the default loss). With the default one-dimensional losses a constant loss `c` is not estimated as `c`, unless `c` is 0 or 1 or the
weights average to one. -/
theorem C80_default_counterexample (w : List K) (c : K) (hn : 2 ≤ w.length) (hv : Score.cov w w ≠ 0) (h0 : c ≠ 0) (h1 : c ≠ 1) (hw : avg w ≠ 1) :
    ∃ s, Score.devScore true w (.flat (w.map (fun _ => c))) = .ok (some s) ∧ s ≠ c := by
  match w, hn with
  | a :: b :: l, _ =>
    refine ⟨_, C80_flat_closed_form true (a :: b :: l) (l.map (fun _ => c)) c c (by simp) hv, ?_⟩
    have havg : avg (c :: c :: l.map (fun _ => c)) = c := by
      unfold avg
      have : (c :: c :: l.map (fun _ => c)) = List.replicate (l.length + 2) c := by
        rw [List.map_const']
        rfl
      rw [this, List.sum_replicate, List.length_replicate, nsmul_eq_mul]
      have : ((l.length + 2 : Nat) : K) ≠ 0 := by positivity
      field_simp
    rw [havg]
    simp only [if_true]
    intro h
    have : c * (avg (a :: b :: l) - 1) * (1 - c) = 0 := by linear_combination h
    rcases mul_eq_zero.1 this with h | h
    · rcases mul_eq_zero.1 h with h | h
      · exact h0 h
      · exact hw (by linarith)
    · exact h1 (by linarith)

/-- C80 (negation: losses are not matched with their weights). From the third row on the losses can be exchanged among the rows in any way without
changing the score of the default loss. -/
theorem C80_pairing_counterexample (gib : Bool) (w e e' : List K) (e0 e1 : K) (hp : e.Perm e') (he : w.length = (e0 :: e1 :: e).length)
    (hv : Score.cov w w ≠ 0) :
    Score.devScore gib w (.flat (e0 :: e1 :: e)) = Score.devScore gib w (.flat (e0 :: e1 :: e')) := by
  rw [C80_flat_closed_form gib w e e0 e1 he hv,
    C80_flat_closed_form gib w e' e0 e1 (by rw [he]; simp [hp.length_eq]) hv]
  have : avg (e0 :: e1 :: e) = avg (e0 :: e1 :: e') := by
    unfold avg
    simp only [List.sum_cons, List.length_cons, hp.sum_eq, hp.length_eq]
  rw [this]

theorem sum_onehot (l : List K) (k : Nat) (c : K) (hc : l[k]? = some c) :
    (List.zipWith (· * ·) ((List.range l.length).map (fun j => if j = k then (1 : K) else 0)) l).sum = c := by
  induction l generalizing k with
  | nil => simp at hc
  | cons a l ih =>
    rw [List.length_cons, List.range_succ_eq_map, List.map_cons, List.zipWith_cons_cons, List.sum_cons, List.map_map]
    cases k with
    | zero =>
      simp only [List.getElem?_cons_zero, Option.some.injEq] at hc
      have : (List.zipWith (· * ·) ((List.range l.length).map ((fun j => if j = 0 then (1 : K) else 0) ∘ Nat.succ)) l).sum = 0 := by
        apply List.sum_eq_zero
        intro x hx
        obtain ⟨i, hi, rfl⟩ := List.mem_iff_getElem.1 hx
        rw [List.getElem_zipWith, List.getElem_map]
        simp
      rw [this, hc]
      simp
    | succ k =>
      rw [List.getElem?_cons_succ] at hc
      have e : (fun j => if j = k + 1 then (1 : K) else 0) ∘ Nat.succ = fun j => if j = k then (1 : K) else 0 := by
        funext j; simp
      rw [e, ih k hc]
      simp

/-- C80 (default loss per row). For a label in `0 … C-1` the loss is minus the logarithm of the clipped probability of that class; the mask
label -1 silently selects the last class; labels outside `[-C, C)` raise `IndexError`. -/
theorem C80_loss (lg : K → K) (eps : K) (p : List K) :
    (∀ (k : Nat) (q : K), p[k]? = some q → Score.crossEntropy lg eps k p = .ok (-lg (min (max q eps) (1 - eps)))) ∧
    (∀ q, p.getLast? = some q → Score.crossEntropy lg eps (-1) p = .ok (-lg (min (max q eps) (1 - eps)))) ∧
    (∀ y : Int, y < -p.length ∨ (p.length : Int) ≤ y → Score.crossEntropy lg eps y p = .error .indexError) := by
  have main : ∀ (k : Nat) (q : K), p[k]? = some q →
      -((List.zipWith (· * ·) ((List.range p.length).map (fun j => if j = k then (1 : K) else 0))
        (p.map (fun x => lg (min (max x eps) (1 - eps))))).sum) = -lg (min (max q eps) (1 - eps)) := by
    intro k q hq
    have := sum_onehot (p.map (fun x => lg (min (max x eps) (1 - eps)))) k (lg (min (max q eps) (1 - eps))) (by rw [List.getElem?_map, hq]; rfl)
    rw [List.length_map] at this
    rw [this]
  refine ⟨?_, ?_, ?_⟩
  · intro k q hq
    have hk : k < p.length := by
      by_contra h
      rw [List.getElem?_eq_none (by omega)] at hq
      simp at hq
    unfold Score.crossEntropy
    simp only
    rw [if_neg (by omega), if_neg (by omega)]
    simp only [Int.toNat_natCast]
    rw [main k q hq]
  · intro q hq
    have hp : p ≠ [] := by rintro rfl; simp at hq
    have hpos := List.length_pos_iff.2 hp
    unfold Score.crossEntropy
    simp only
    rw [if_neg (by omega), if_pos (by omega), show ((-1 : Int) + (p.length : Int)).toNat = p.length - 1 by omega]
    rw [main (p.length - 1) q (by rw [← List.getLast?_eq_getElem?]; exact hq)]
  · intro y hy
    unfold Score.crossEntropy
    simp only
    rw [if_pos hy]

/-- C80 (density ratios). The weights are the estimated ratios target/source, scaled by the sizes: for probabilities `q` of target and `1 - q` of
source, `w = (n_train / n_target) q / (1 - q)`, positive whenever the probabilities are. -/
theorem C80_weights (nTrain nTarget : Nat) (q : List K) (h1 : 0 < nTrain) (h2 : 0 < nTarget) (hq : ∀ x ∈ q, 0 < x ∧ x < 1) :
    (Score.devWeights nTrain nTarget q (q.map (fun x => 1 - x))) = q.map (fun x => (nTrain : K) * x / (nTarget * (1 - x))) ∧
    ∀ x ∈ Score.devWeights nTrain nTarget q (q.map (fun x => 1 - x)), 0 < x := by
  have e : Score.devWeights nTrain nTarget q (q.map (fun x => 1 - x)) = q.map (fun x => (nTrain : K) * x / (nTarget * (1 - x))) := by
    unfold Score.devWeights
    conv_lhs => rw [← List.map_id q]
    rw [List.map_map, zipWith_map_self]
    apply List.map_congr_left
    intro x _
    simp only [id, Function.comp]
    rw [div_mul_eq_mul_div, div_div]
  refine ⟨e, ?_⟩
  rw [e]
  intro x hx
  obtain ⟨v, hv, rfl⟩ := List.mem_map.1 hx
  obtain ⟨a, b⟩ := hq v hv
  have : (0 : K) < nTrain := by exact_mod_cast h1
  have : (0 : K) < nTarget := by exact_mod_cast h2
  have : 0 < 1 - v := by linarith
  positivity

/-- C80 (one validation row). With a single held-out source row the score is NaN. -/
theorem C80_single_counterexample (gib : Bool) (w e : K) : Score.devScore gib [w] (.flat [e]) = .ok none ∧ Score.devScore gib [w] (.column [e]) = .ok none := by
  constructor <;> rfl

end dev

example : Score.devScore true [1, 3] (.column [2, 2]) = .ok (some (2 : ℚ)) := by decide +kernel
example : Score.devScore true [1, 3] (.flat [2, 2]) = .ok (some (0 : ℚ)) := by decide +kernel
example : Score.cov ([1, 3] : List ℚ) [1, 3] ≠ 0 ∧ avg ([1, 3] : List ℚ) ≠ 1 := by
  unfold Spec.avg
  decide +kernel

end Scorers2
end Skada

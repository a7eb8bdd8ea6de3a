/-
C131: the network modules that skada ships (skada/deep/modules.py).
-/
import Mathlib.Analysis.SpecialFunctions.Log.Basic
import Verif.Model.DeepModules
import Verif.Props.DeepNet

namespace Skada
open Np Spec Deep Nets

section Cnn
variable {K : Type} [Field K] [LinearOrder K]

omit [LinearOrder K] in
theorem sum_map_range (f : Nat → K) (n : Nat) : ((List.range n).map f).sum = ∑ i ∈ Finset.range n, f i := rfl

omit [LinearOrder K] in
theorem dot_map_range (n : Nat) (w g : Nat → K) : dot n w ((List.range n).map g) = ∑ j ∈ Finset.range n, w j * g j := by
  unfold dot
  rw [sum_map_range]
  refine Finset.sum_congr rfl fun j hj => ?_
  rw [List.getD_eq_getElem?_getD, List.getElem?_map, List.getElem?_range (Finset.mem_range.1 hj)]
  rfl

omit [LinearOrder K] in
theorem dot_congr (n : Nat) (w : Nat → K) {x y : List K} (h : ∀ j < n, x.getD j 0 = y.getD j 0) : dot n w x = dot n w y := by
  unfold dot
  rw [sum_map_range, sum_map_range]
  exact Finset.sum_congr rfl fun j hj => by rw [h j (Finset.mem_range.1 hj)]

omit [LinearOrder K] in
theorem conv_window (W : Conv1d K) (s : List (List K)) (o t : Nat) :
    W.at (s.map (fun r => (r.drop t).take W.kernel)) o 0 = W.at s o t := by
  unfold Conv1d.at
  rw [sum_map_range, sum_map_range]
  congr 1
  refine Finset.sum_congr rfl fun c _ => dot_congr _ _ fun j hj => ?_
  simp only [List.getD_eq_getElem?_getD, List.getElem?_map, List.drop_zero]
  cases s[c]? with
  | none => simp
  | some r => simp [hj]

theorem extract_ok (W : Conv1d K) (x : Tensor3 K) (hc : x.c = W.chan) (hl : W.kernel ≤ x.l) :
    extract W x = .ok ⟨x.n, W.out, x.l - W.kernel + 1,
      x.data.map (fun s => (List.range W.out).map (fun o => (List.range (x.l - W.kernel + 1)).map (fun t => relu (W.at s o t))))⟩ := by
  unfold extract Conv1d.run
  rw [if_neg (not_not.2 hc), if_neg (not_lt.2 hl)]
  simp [ok_bind, pure, Except.pure, Function.comp_def]

theorem extract_error (W : Conv1d K) (x : Tensor3 K) (h : x.c ≠ W.chan ∨ x.l < W.kernel) : extract W x = .error .runtimeError := by
  unfold extract Conv1d.run
  by_cases hc : x.c = W.chan
  · rw [if_neg (not_not.2 hc), if_pos (h.resolve_left (not_not.2 hc))]; rfl
  · rw [if_pos hc]; rfl

theorem init_ok (u : Nat → Nat → K) (w b v a) (channels inputSize classes kernel out : Nat) (h : kernel ≤ inputSize) :
    ToyCNN.init u w b v a channels inputSize classes kernel out =
      .ok ⟨⟨channels, out, kernel, w, b⟩, out * (inputSize - kernel + 1), ⟨out, classes, v, a⟩⟩ := by
  unfold ToyCNN.init featureCount
  simp only
  rw [extract_ok _ _ rfl h]
  simp [ok_bind, pure, Except.pure, Function.comp_def]

/-- The pooled features of one sample -/
def pooled (W : Conv1d K) (l : Nat) (s : List (List K)) : List K :=
  (List.range W.out).map (fun o => (∑ t ∈ Finset.range (l - W.kernel + 1), relu (W.at s o t)) / ((l - W.kernel + 1 : Nat) : K))

theorem forward_ok (M : ToyCNN K) (x : Tensor3 K) (hM : M.fc.fanIn = M.conv.out) (hc : x.c = M.conv.chan) (hl : M.conv.kernel ≤ x.l) :
    M.forward x = .ok (x.data.map (fun s => M.fc.row (pooled M.conv x.l s))) := by
  unfold ToyCNN.forward
  rw [extract_ok _ _ hc hl]
  simp only [ok_bind, Linear.run, avgPool]
  rw [if_neg (by simpa using hM.symm)]
  simp [pooled, Function.comp_def, sum_map_range]

/-- C131, `ToyCNN`: a network made for series of `inputSize` positions takes series of every length from `kernel` on, and gives one row of
`classes` numbers per sample.  Shorter series and another number of channels are refused with `RuntimeError`. -/
theorem C131_cnn_output (u : Nat → Nat → K) (w b v a) (channels inputSize classes kernel out : Nat) (M : ToyCNN K)
    (hM : ToyCNN.init u w b v a channels inputSize classes kernel out = .ok M) (x : Tensor3 K) (hx : x.Rect) :
    (x.c = channels ∧ kernel ≤ x.l → ∃ rows, M.forward x = .ok rows ∧ rows.length = x.n ∧ ∀ r ∈ rows, r.length = classes) ∧
      (¬ (x.c = channels ∧ kernel ≤ x.l) → M.forward x = .error .runtimeError) := by
  have hk : kernel ≤ inputSize := by
    by_contra h
    unfold ToyCNN.init featureCount at hM
    simp only at hM
    rw [extract_error _ _ (Or.inr (not_le.1 h))] at hM
    cases hM
  rw [init_ok _ _ _ _ _ _ _ _ _ _ hk] at hM
  cases hM
  refine ⟨fun ⟨h1, h2⟩ => ⟨_, forward_ok _ x rfl h1 h2, by simpa using hx.1, ?_⟩, fun h => ?_⟩
  · intro r hr
    obtain ⟨s, -, rfl⟩ := List.mem_map.1 hr
    simp [Linear.row]
  · unfold ToyCNN.forward
    rw [extract_error]
    · rfl
    · show x.c ≠ channels ∨ x.l < kernel
      omega

/-- C131, `ToyCNN`: the constructor succeeds exactly if the kernel fits into `inputSize`, and `num_features` is then the width of the recorded
features exactly for series of `inputSize` positions.  So the domain classifier made for `num_features` takes the features of these series and
refuses those of every other length, although the network itself takes them. -/
theorem C131_num_features (u : Nat → Nat → K) (w b v a) (channels inputSize classes kernel out : Nat) (hout : 0 < out) :
    (inputSize < kernel → ToyCNN.init u w b v a channels inputSize classes kernel out = .error .runtimeError) ∧
      (kernel ≤ inputSize → ∃ M, ToyCNN.init u w b v a channels inputSize classes kernel out = .ok M ∧
        M.numFeatures = out * (inputSize - kernel + 1) ∧
        ∀ x : Tensor3 K, x.Rect → x.c = channels → kernel ≤ x.l → ∀ D : Linear K, D.fanIn = M.numFeatures →
          (x.l = inputSize → ∃ f rows, M.hooked x = .ok (M.numFeatures, f) ∧ (∀ r ∈ f, r.length = M.numFeatures) ∧
            M.domainInput D x = .ok rows ∧ rows.length = x.n) ∧
          (x.l ≠ inputSize → M.domainInput D x = .error .runtimeError)) := by
  constructor
  · intro h
    unfold ToyCNN.init featureCount
    simp only
    rw [extract_error _ _ (Or.inr h)]
    rfl
  · intro hk
    refine ⟨_, init_ok _ _ _ _ _ _ _ _ _ _ hk, rfl, fun x hx hc hl D hD => ?_⟩
    simp only at hD
    have hh : ToyCNN.hooked ⟨⟨channels, out, kernel, w, b⟩, out * (inputSize - kernel + 1), ⟨out, classes, v, a⟩⟩ x = .ok (out * (x.l - kernel + 1),
        (x.data.map (fun s => (List.range out).map (fun o => (List.range (x.l - kernel + 1)).map
          (fun t => relu (Conv1d.at ⟨channels, out, kernel, w, b⟩ s o t))))).map List.flatten) := by
      unfold ToyCNN.hooked
      simp only
      rw [extract_ok _ _ hc hl]
      simp only [ok_bind, Linear.run]
      rw [if_neg (by simp)]
      rfl
    generalize hf : (x.data.map _).map List.flatten = f at hh
    have hf1 : ∀ r ∈ f, r.length = out * (x.l - kernel + 1) := by
      intro r hr
      rw [← hf] at hr
      obtain ⟨s, hs, rfl⟩ := List.mem_map.1 hr
      obtain ⟨s', -, rfl⟩ := List.mem_map.1 hs
      simp [Function.comp_def]
    have hf2 : f.length = x.n := by rw [← hf]; simpa using hx.1
    refine ⟨fun h => ?_, fun h => ?_⟩
    · refine ⟨f, f.map D.row, by rw [hh, h], by simpa [h] using hf1, ?_, by simpa using hf2⟩
      unfold ToyCNN.domainInput
      rw [hh]
      simp only [ok_bind, Linear.run]
      rw [if_neg (by rw [hD, h]; simp)]
    · unfold ToyCNN.domainInput
      rw [hh]
      simp only [ok_bind, Linear.run]
      rw [if_pos]
      rw [hD]
      intro hcon
      have := Nat.eq_of_mul_eq_mul_left hout hcon
      omega

/-- C131, `ToyCNN`: the outputs for a series are the means of the outputs for its windows of `kernel` positions, whatever the other samples of
the batch. -/
theorem C131_cnn_windows [CharZero K] (u : Nat → Nat → K) (w b v a) (channels inputSize classes kernel out : Nat) (hk : kernel ≤ inputSize)
    (x : Tensor3 K) (hc : x.c = channels) (hl : kernel ≤ x.l) :
    ∃ M rows, ToyCNN.init u w b v a channels inputSize classes kernel out = .ok M ∧ M.forward x = .ok rows ∧
      ∀ (i : Nat) (s : List (List K)), x.data[i]? = some s → ∃ (r : List K) (ws : Nat → List K), rows[i]? = some r ∧
        (∀ t ≤ x.l - kernel, M.forward ⟨1, x.c, kernel, [s.map (fun r => (r.drop t).take kernel)]⟩ = .ok [ws t]) ∧
        ∀ k < classes, r[k]? = some ((∑ t ∈ Finset.range (x.l - kernel + 1), (ws t).getD k 0) / ((x.l - kernel + 1 : Nat) : K)) := by
  refine ⟨_, _, init_ok _ _ _ _ _ _ _ _ _ _ hk, forward_ok _ x rfl hc hl, fun i s hs => ?_⟩
  refine ⟨_, fun t => Linear.row ⟨out, classes, v, a⟩ (pooled ⟨channels, out, kernel, w, b⟩ kernel (s.map (fun r => (r.drop t).take kernel))),
    by rw [List.getElem?_map, hs]; rfl, fun t _ => ?_, fun k hk' => ?_⟩
  · rw [forward_ok _ _ rfl hc le_rfl]
    rfl
  · set T : Nat := x.l - kernel + 1 with hT
    have hT0 : (T : K) ≠ 0 := Nat.cast_ne_zero.2 (by omega)
    have hwin : ∀ t, (Linear.row ⟨out, classes, v, a⟩
        (pooled ⟨channels, out, kernel, w, b⟩ kernel (s.map (fun r => (r.drop t).take kernel)))).getD k 0 = a k + ∑ o ∈ Finset.range out, v k o * relu (Conv1d.at ⟨channels, out, kernel, w, b⟩ s o t) := by
      intro t
      simp only [Linear.row, pooled, List.getD_eq_getElem?_getD, List.getElem?_map, List.getElem?_range hk', Option.map_some, Option.getD_some]
      rw [dot_map_range]
      congr 1
      refine Finset.sum_congr rfl fun o _ => ?_
      have := conv_window (K := K) ⟨channels, out, kernel, w, b⟩ s o t
      simp only at this
      simp [this]
    simp only [hwin]
    simp only [Linear.row, List.getElem?_map, List.getElem?_range hk', Option.map_some, pooled]
    rw [dot_map_range, Finset.sum_add_distrib, Finset.sum_const, Finset.card_range, nsmul_eq_mul, add_div, mul_div_cancel_left₀ _ hT0,
      Finset.sum_comm, Finset.sum_div]
    congr 2
    refine Finset.sum_congr rfl fun o _ => ?_
    rw [← Finset.mul_sum, mul_div_assoc]

/-- Two channels out, kernel 2, made for 4 positions: 6 features.  A series of 5 positions gets its two outputs, but its features have width 8. -/
def exCnn : ToyCNN ℚ := ⟨⟨1, 2, 2, fun o _ j => if o = j then 1 else -1, fun _ => 0⟩, 6, ⟨2, 2, fun k o => if k = o then 1 else 0, fun _ => 1⟩⟩

/-- Its constructor call -/
example : (ToyCNN.init (fun _ _ => 7) (fun o _ j => if o = j then 1 else -1) (fun _ => 0) (fun k o => if k = o then 1 else 0) (fun _ => 1) 1 4 2 2 2 :
    Py (ToyCNN ℚ)) = .ok exCnn := init_ok _ _ _ _ _ _ _ _ _ _ (by decide)

example : exCnn.forward ⟨1, 1, 5, [[[1, 3, 0, 0, 2]]]⟩ = .ok [[7 / 4, 2]] := by decide +kernel

/-- Two samples of two channels and three positions -/
example : (⟨2, 2, 3, [[[1, 2, 3], [4, 5, 6]], [[0, 0, 1], [1, 1, 0]]]⟩ : Tensor3 ℚ).Rect := by
  unfold Tensor3.Rect
  decide +kernel

example : exCnn.hooked ⟨1, 1, 4, [[[1, 3, 0, 0]]]⟩ = .ok (6, [[0, 3, 0, 2, 0, 0]]) := by decide +kernel

example : exCnn.domainInput ⟨6, 1, fun _ _ => 1, fun _ => 0⟩ ⟨1, 1, 4, [[[1, 3, 0, 0]]]⟩ = .ok [[5]] := by decide +kernel

example : exCnn.domainInput ⟨6, 1, fun _ _ => 1, fun _ => 0⟩ ⟨1, 1, 5, [[[1, 3, 0, 0, 2]]]⟩ = .error .runtimeError := by decide +kernel

example : exCnn.forward ⟨1, 1, 1, [[[1]]]⟩ = .error .runtimeError := by decide +kernel

end Cnn

/-! ### ToyModule2D -/

section Toy

theorem sum_flip {K : Type} [Field K] {h : Nat} (j : Fin h) (c : K) :
    (∑ m : Fin h → Bool, if m j then c else 0) * 2 = 2 ^ h * c := by
  have hinv : Function.Involutive (fun m : Fin h → Bool => Function.update m j (!m j)) := by
    intro m; funext i
    by_cases hi : i = j
    · subst hi; simp
    · simp [Function.update_of_ne hi]
  have h1 : (∑ m : Fin h → Bool, if m j then c else 0) = ∑ m : Fin h → Bool, if m j then 0 else c := by
    rw [← Equiv.sum_comp hinv.toPerm]
    refine Finset.sum_congr rfl fun m _ => ?_
    cases hm : m j <;> simp [Function.Involutive.toPerm, hm]
  rw [mul_two]
  nth_rw 2 [h1]
  rw [← Finset.sum_add_distrib]
  rw [Finset.sum_congr rfl (g := fun _ => c) (fun m _ => by cases m j <;> simp)]
  simp

/-- C131, `ToyModule2D`: in evaluation mode the outputs are the means of the outputs in training mode over all draws of the dropout layer. -/
theorem C131_toy_dropout {K : Type} [Field K] [LinearOrder K] [IsStrictOrderedRing K] (ex : K → K) (w : Nat → Nat → K) (b : Nat → K) (v : Nat → Nat → K) (a : Nat → K)
    (nonlin : K → K) (classes features : Nat) (x : List K) (k : Nat) (hk : k < classes) :
    ∃ (train : (Fin features → Bool) → K) (eval : K),
      (∀ m, ((Toy2D.init w b v a nonlin classes features false).row ex (some (List.ofFn m)) x)[k]? = some (train m)) ∧
      ((Toy2D.init w b v a nonlin classes features false).row ex none x)[k]? = some eval ∧
      (∑ m, train m) / 2 ^ features = eval := by
  set g : Nat → K := fun j => nonlin (b j + dot 2 (w j) x) with hg
  have hz : ((Toy2D.init w b v a nonlin classes features false).dense0.row x).map nonlin = (List.range features).map g := by
    simp [Toy2D.init, Linear.row, hg, Function.comp_def]
  refine ⟨fun m => a k + ∑ j : Fin features, v k j * (if m j then g j / (1 - 1 / 2) else 0), a k + ∑ j : Fin features, v k j * g j, ?_, ?_, ?_⟩
  · intro m
    unfold Toy2D.row
    simp only [show (Toy2D.init w b v a nonlin classes features false).nonlin = nonlin from rfl, hz, dropout]
    simp only [Toy2D.init, Linear.row, List.getElem?_map, List.getElem?_range hk, Option.map_some, Bool.false_eq_true, if_false, Option.some.injEq]
    congr 1
    unfold dot
    rw [sum_map_range, Finset.sum_range]
    refine Finset.sum_congr rfl fun j _ => ?_
    congr 1
    simp [List.getD_eq_getElem?_getD]
  · unfold Toy2D.row
    simp only [show (Toy2D.init w b v a nonlin classes features false).nonlin = nonlin from rfl, hz, dropout]
    simp only [Toy2D.init, Linear.row, List.getElem?_map, List.getElem?_range hk, Option.map_some, Bool.false_eq_true, if_false, Option.some.injEq]
    rw [dot_map_range, Finset.sum_range]
  · have h2 : (2 : K) ^ features ≠ 0 := pow_ne_zero _ two_ne_zero
    rw [div_eq_iff h2, Finset.sum_add_distrib, Finset.sum_const, Finset.card_univ, Fintype.card_fun, Fintype.card_bool, Fintype.card_fin,
      nsmul_eq_mul, Finset.sum_comm, add_mul, Finset.sum_mul]
    congr 1
    · push_cast; ring
    · refine Finset.sum_congr rfl fun j _ => ?_
      rw [← Finset.mul_sum]
      have := sum_flip j (g j / (1 - 1 / 2))
      have h3 : (∑ m : Fin features → Bool, if m j then g j / (1 - 1 / 2) else 0) = 2 ^ features * g j := by
        have h4 : g j / (1 - 1 / 2) = 2 * g j := by norm_num [div_eq_mul_inv]; ring
        rw [h4] at this ⊢
        linarith
      rw [h3]; ring

theorem le_sum_exp {p : List ℝ} (hp : ∀ q ∈ p, 0 ≤ q) {a : ℝ} (ha : a ∈ p) : Real.exp a + ((p.length : ℝ) - 1) ≤ (p.map Real.exp).sum := by
  induction p with
  | nil => cases ha
  | cons q p ih =>
    have h0 : ∀ l : List ℝ, (∀ q ∈ l, 0 ≤ q) → (l.length : ℝ) ≤ (l.map Real.exp).sum := by
      intro l
      induction l with
      | nil => simp
      | cons c l ih =>
        intro h
        have h1 := ih (fun q hq => h q (List.mem_cons_of_mem _ hq))
        have h2 := Real.one_le_exp (h c (List.mem_cons_self ..))
        simp only [List.length_cons, List.map_cons, List.sum_cons]; push_cast; linarith
    have hp' : ∀ q ∈ p, 0 ≤ q := fun q hq => hp q (List.mem_cons_of_mem _ hq)
    simp only [List.length_cons, List.map_cons, List.sum_cons]
    push_cast
    rcases List.mem_cons.1 ha with rfl | h
    · have := h0 p hp'; linarith
    · have := ih hp' h
      have h2 := Real.one_le_exp (hp q (List.mem_cons_self ..))
      linarith

theorem isProb_le_one {p : List ℝ} (hp : IsProb p) {a : ℝ} (ha : a ∈ p) : a ≤ 1 := by
  rw [← hp.2]
  exact List.single_le_sum (fun x hx => (hp.1 x hx).le) a ha

theorem log_sub_gt {x y : ℝ} (hy : 0 < y) (hxy : y < x) (hx : x ≤ 1) : x - y < Real.log x - Real.log y := by
  have hx0 := hy.trans hxy
  have h := Real.log_lt_sub_one_of_pos (div_pos hy hx0) (by rw [Ne, div_eq_one_iff_eq hx0.ne']; exact hxy.ne)
  rw [Real.log_div hy.ne' hx0.ne'] at h
  have h2 : y / x - 1 ≤ y - x := by
    rw [div_sub_one hx0.ne', div_le_iff₀ hx0]
    nlinarith
  linarith

/-- C131, `ToyModule2D(proba=True)` in evaluation mode gives a probability vector for every row, but the default `predict_proba` of a net applies the softmax a
second time.  The predicted class stays the same, the ratio of any two different probabilities comes closer to one, no probability exceeds
`e / (e + classes - 1)`, and the result is the module's output only if this is uniform. -/
theorem C131_double_softmax (b : Nat) (hb : 0 < b) {noLabel : Int} (w : Nat → Nat → ℝ) (c : Nat → ℝ) (v : Nat → Nat → ℝ) (a : Nat → ℝ)
    (nonlin : ℝ → ℝ) (classes features : Nat) (hcl : 0 < classes) {s : DS ℝ (List ℝ) Int} {l : List (Rec ℝ (List ℝ) Int)} (Hs : Holds noLabel s l)
    (allow : Bool) (hw : asked allow l ≠ []) :
    let M := Toy2D.init w c v a nonlin classes features true
    ∃ P : List (List ℝ), netProba Real.exp 1 .crossEntropy .auto b noLabel (M.row Real.exp none) s allow = .ok P ∧
      List.Forall₂ (fun r row => ∃ p, M.forward Real.exp none 2 [r.x] = .ok [p] ∧ IsProb p ∧ p.length = classes ∧ IsProb row ∧
        (∀ k, IsClass row k ↔ IsClass p k) ∧
        (∀ q ∈ row, q ≤ Real.exp 1 / (Real.exp 1 + (classes - 1))) ∧
        (∀ (i j : Nat) (pi pj qi qj : ℝ), p[i]? = some pi → p[j]? = some pj → row[i]? = some qi → row[j]? = some qj → pj < pi →
          1 < qi / qj ∧ qi / qj < pi / pj) ∧
        (row = p ↔ ∀ x ∈ p, ∀ y ∈ p, x = y)) (asked allow l) P := by
  intro M
  have h := netProba_rows Real.exp 1 .crossEntropy .auto (softmaxRow Real.exp) rfl b hb (M.row Real.exp none) Hs allow
  rw [if_neg hw] at h
  refine ⟨_, h, ?_⟩
  rw [List.forall₂_map_right_iff]
  refine List.forall₂_same.2 fun r _ => ?_
  obtain ⟨z, hz, hzl⟩ : ∃ z, M.row Real.exp none r.x = softmaxRow Real.exp z ∧ z.length = classes := ⟨_, rfl, by simp [M, Toy2D.init, Linear.row]⟩
  have hzn : z ≠ [] := by rintro rfl; simp at hzl; omega
  set p := M.row Real.exp none r.x with hp
  have hpp : IsProb p := by rw [hz]; exact softmaxRow_prob z hzn
  have hpl : p.length = classes := by rw [hz]; simpa [softmaxRow] using hzl
  have hpn : p ≠ [] := by intro h0; rw [h0] at hpl; simp at hpl; omega
  have hS := softmaxRow_sum_pos p hpn
  have hget : ∀ (i : Nat) (q : ℝ), (softmaxRow Real.exp p)[i]? = some q → ∃ x, p[i]? = some x ∧ q = Real.exp x / (p.map Real.exp).sum := by
    intro i q hq
    simp only [softmaxRow, List.getElem?_map, Option.map_eq_some_iff] at hq
    obtain ⟨x, hx, rfl⟩ := hq
    exact ⟨x, hx, rfl⟩
  have hratio : ∀ (i j : Nat) (pi pj qi qj : ℝ), p[i]? = some pi → p[j]? = some pj → (softmaxRow Real.exp p)[i]? = some qi →
      (softmaxRow Real.exp p)[j]? = some qj → pj < pi → 1 < qi / qj ∧ qi / qj < pi / pj := by
    intro i j pi pj qi qj h1 h2 h3 h4 hlt
    obtain ⟨x, hx, rfl⟩ := hget i qi h3
    obtain ⟨y, hy, rfl⟩ := hget j qj h4
    rw [h1] at hx; rw [h2] at hy
    cases hx; cases hy
    have hj := hpp.1 pj (List.mem_of_getElem? h2)
    have hi := hpp.1 pi (List.mem_of_getElem? h1)
    have hi1 := isProb_le_one hpp (List.mem_of_getElem? h1)
    have hq : Real.exp pi / (p.map Real.exp).sum / (Real.exp pj / (p.map Real.exp).sum) = Real.exp (pi - pj) := by
      rw [Real.exp_sub, div_div_div_cancel_right₀ hS.ne']
    rw [hq]
    refine ⟨Real.one_lt_exp_iff.2 (sub_pos.2 hlt), ?_⟩
    rw [← Real.lt_log_iff_exp_lt (div_pos hi hj), Real.log_div hi.ne' hj.ne']
    exact log_sub_gt hj hlt hi1
  refine ⟨p, rfl, hpp, hpl, softmaxRow_prob p hpn, softmaxRow_isClass p, ?_, hratio, ?_⟩
  · intro q hq
    obtain ⟨x, hx, rfl⟩ := List.mem_map.1 hq
    have h1 := le_sum_exp (fun q hq => (hpp.1 q hq).le) hx
    rw [hpl] at h1
    have hc1 : (0 : ℝ) ≤ (classes : ℝ) - 1 := by
      have : (1 : ℝ) ≤ classes := by exact_mod_cast hcl
      linarith
    have he : Real.exp x ≤ Real.exp 1 := Real.exp_le_exp.2 (isProb_le_one hpp hx)
    have hx0 := Real.exp_pos x
    rw [div_le_div_iff₀ hS (by have := Real.exp_pos 1; linarith)]
    have := mul_le_mul_of_nonneg_left h1 (Real.exp_pos 1).le
    nlinarith
  · constructor
    · intro heq x hx y hy
      by_contra hne
      obtain ⟨i, hi⟩ := List.mem_iff_getElem?.1 hx
      obtain ⟨j, hj⟩ := List.mem_iff_getElem?.1 hy
      rcases lt_or_gt_of_ne hne with hlt | hlt
      · exact absurd (hratio j i y x y x hj hi (by rw [heq, hj]) (by rw [heq, hi]) hlt).2 (lt_irrefl _)
      · exact absurd (hratio i j x y x y hi hj (by rw [heq, hi]) (by rw [heq, hj]) hlt).2 (lt_irrefl _)
    · intro hall
      obtain ⟨x, p', hxp⟩ := List.exists_cons_of_ne_nil hpn
      have hrep : p = List.replicate classes x := by
        rw [← hpl]
        exact List.eq_replicate_iff.2 ⟨rfl, fun y hy => hall y hy x (by rw [hxp]; exact List.mem_cons_self ..)⟩
      have hsum := hpp.2
      rw [hrep, List.sum_replicate, nsmul_eq_mul] at hsum
      rw [hrep]
      unfold softmaxRow
      rw [List.map_replicate, List.map_replicate, List.sum_replicate, nsmul_eq_mul]
      congr 1
      have hc0 : (classes : ℝ) ≠ 0 := by exact_mod_cast hcl.ne'
      have he := (Real.exp_pos x).ne'
      rw [div_eq_iff (mul_ne_zero hc0 he), ← mul_assoc, mul_comm x, hsum, one_mul]

/-- C131: a module with `proba=False` and the default non-linearity gives the same probabilities as the module with `proba=True` and
`predict_nonlinearity=None`. -/
theorem C131_proba_either (b : Nat) (hb : 0 < b) {noLabel : Int} (w : Nat → Nat → ℝ) (c : Nat → ℝ) (v : Nat → Nat → ℝ) (a : Nat → ℝ)
    (nonlin : ℝ → ℝ) (classes features : Nat) {s : DS ℝ (List ℝ) Int} {l : List (Rec ℝ (List ℝ) Int)} (Hs : Holds noLabel s l) (allow : Bool) :
    netProba Real.exp 1 .crossEntropy .auto b noLabel ((Toy2D.init w c v a nonlin classes features false).row Real.exp none) s allow =
      netProba Real.exp 1 .crossEntropy .none b noLabel ((Toy2D.init w c v a nonlin classes features true).row Real.exp none) s allow := by
  rw [netProba_rows Real.exp 1 .crossEntropy .auto (softmaxRow Real.exp) rfl b hb _ Hs allow,
    netProba_rows Real.exp 1 .crossEntropy .none (fun r => r) (by rw [← map_id_fun]; rfl) b hb _ Hs allow]
  rfl

/-- Training and evaluation of a module with one hidden unit: outputs 1 and 5 for the two draws, 3 in evaluation mode. -/
example : ((Toy2D.init (fun _ _ => 1) (fun _ => 0) (fun _ _ => 1) (fun _ => 1) relu 1 1 false).row id (some [false]) [1, (1 : ℚ)],
    (Toy2D.init (fun _ _ => 1) (fun _ => 0) (fun _ _ => 1) (fun _ => 1) relu 1 1 false).row id (some [true]) [1, (1 : ℚ)],
    (Toy2D.init (fun _ _ => 1) (fun _ => 0) (fun _ _ => 1) (fun _ => 1) relu 1 1 false).row id none [1, (1 : ℚ)]) = ([1], [5], [3]) := by decide +kernel

/-- A data set with a target row. -/
example : ∃ s, (Deep.new (-1) [[1, 2], [3, 0]] (some [0, -1]) (.vec [1, -2]) none : Py (DS ℝ (List ℝ) Int)) = .ok s ∧
    Holds (-1) s [⟨[1, 2], 0, 1, none⟩, ⟨[3, 0], -1, -2, none⟩] ∧
    asked false ([⟨[1, 2], 0, 1, none⟩, ⟨[3, 0], -1, -2, none⟩] : List (Rec ℝ (List ℝ) Int)) ≠ [] := by
  obtain ⟨s, h1, h2⟩ := new_ok (-1) ([⟨[1, 2], 0, 1, none⟩, ⟨[3, 0], -1, -2, none⟩] : List (Rec ℝ (List ℝ) Int)) none
    (holdsW_unweighted ([⟨[1, 2], 0, 1, none⟩, ⟨[3, 0], -1, -2, none⟩] : List (Rec ℝ (List ℝ) Int)))
  exact ⟨s, h1, h2, by simp [asked]⟩

end Toy

/-! ### MNISTtoUSPSNet -/

theorem conv2dShape_batch (cin cout k n c h w : Nat) : conv2dShape cin cout k [n, c, h, w] =
    if c ≠ cin ∨ h < k ∨ w < k then .error .runtimeError else .ok [n, cout, h - k + 1, w - k + 1] := rfl

theorem conv2dShape_single (cin cout k c h w : Nat) : conv2dShape cin cout k [c, h, w] =
    if c ≠ cin ∨ h < k ∨ w < k then .error .runtimeError else .ok [cout, h - k + 1, w - k + 1] := rfl

/-- C131, `MNISTtoUSPSNet`: batches of images with one channel are taken exactly if the halved sides of the convolved image have the product
144, and then every image gets ten numbers; everything else is a `RuntimeError`. -/
theorem C131_mnist_images (n c h w : Nat) :
    mnistShape [n, c, h, w] = if c = 1 ∧ (h - 4) / 2 * ((w - 4) / 2) = 144 then .ok [n, 10] else .error .runtimeError := by
  unfold mnistShape
  rw [conv2dShape_batch]
  by_cases h1 : c ≠ 1 ∨ h < 3 ∨ w < 3
  · rw [if_pos h1, if_neg]
    · rfl
    · rintro ⟨rfl, hp⟩
      rcases h1 with h1 | h1 | h1
      · exact h1 rfl
      · rw [show (h - 4) / 2 = 0 by omega] at hp; omega
      · rw [show (w - 4) / 2 = 0 by omega] at hp; omega
  rw [if_neg h1]
  push Not at h1
  simp only [ok_bind]
  rw [conv2dShape_batch]
  by_cases h2 : h - 3 + 1 < 3 ∨ w - 3 + 1 < 3
  · rw [if_pos (by tauto), if_neg]
    · rfl
    · rintro ⟨-, hp⟩
      rcases h2 with h2 | h2
      · rw [show (h - 4) / 2 = 0 by omega] at hp; omega
      · rw [show (w - 4) / 2 = 0 by omega] at hp; omega
  rw [if_neg (by tauto)]
  simp only [ok_bind, maxPoolShape]
  rw [show h - 3 + 1 - 3 + 1 = h - 4 by omega, show w - 3 + 1 - 3 + 1 = w - 4 by omega]
  by_cases h3 : (h - 4) / 2 = 0 ∨ (w - 4) / 2 = 0
  · rw [if_pos h3, if_neg]
    · rfl
    · rintro ⟨-, hp⟩
      rcases h3 with h3 | h3 <;> rw [h3] at hp <;> omega
  rw [if_neg h3]
  simp only [ok_bind, flatten1Shape, linearShape, List.prod_cons, List.prod_nil, mul_one]
  by_cases h4 : (h - 4) / 2 * ((w - 4) / 2) = 144
  · rw [if_neg (by rw [h4]; omega), if_pos ⟨h1.1, h4⟩]
    rfl
  · rw [if_pos (by omega), if_neg (by tauto)]
    rfl

/-- C131: of the square images exactly those of 28 or 29 pixels a side are taken; USPS digits (16 pixels) must be enlarged first. -/
theorem C131_mnist_square (n h : Nat) : mnistShape [n, 1, h, h] = .ok [n, 10] ↔ h = 28 ∨ h = 29 := by
  rw [C131_mnist_images]
  constructor
  · intro hh
    split_ifs at hh with hc
    have : (h - 4) / 2 = 12 := by
      have h2 := hc.2
      generalize (h - 4) / 2 = m at h2
      nlinarith
    omega
  · rintro (rfl | rfl) <;> rfl

/-- C131: an image without a batch dimension is not taken as a batch of one image: it is refused unless the product of the halved sides is 9216, and
then the 64 channels are taken for 64 samples. -/
theorem C131_mnist_single (h w : Nat) (hh : 6 ≤ h) (hw : 6 ≤ w) :
    mnistShape [1, h, w] = if (h - 4) / 2 * ((w - 4) / 2) = 9216 then .ok [64, 10] else .error .runtimeError := by
  unfold mnistShape
  rw [conv2dShape_single]
  rw [if_neg (by omega)]
  simp only [ok_bind]
  rw [conv2dShape_single]
  rw [if_neg (by omega)]
  simp only [ok_bind, maxPoolShape]
  rw [show h - 3 + 1 - 3 + 1 = h - 4 by omega, show w - 3 + 1 - 3 + 1 = w - 4 by omega, if_neg (by omega)]
  simp only [ok_bind, flatten1Shape, linearShape, List.prod_cons, List.prod_nil, mul_one]
  by_cases h4 : (h - 4) / 2 * ((w - 4) / 2) = 9216
  · rw [if_neg (not_not.2 h4), if_pos h4]
    rfl
  · rw [if_pos h4, if_neg h4]
    rfl

example : mnistShape [5, 1, 28, 28] = .ok [5, 10] ∧ mnistShape [5, 1, 16, 16] = .error .runtimeError ∧ mnistShape [5, 3, 28, 28] = .error .runtimeError ∧
    mnistShape [1, 28, 28] = .error .runtimeError ∧ mnistShape [1, 196, 196] = .ok [64, 10] := by decide +kernel

end Skada

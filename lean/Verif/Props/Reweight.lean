/-
Properties C31, C32, C33, C62, C63: the reweighting adapters.

`SourceWeights sd w`: `w` has one entry per sample, finite and non-negative on source rows, zero on target rows.
`sourceSum sd w`: the sum of the weights of the source rows.
-/
import Verif.Lemmas.Reweight
import Verif.Props.FrankWolfe

set_option linter.unusedSectionVars false

namespace Skada
open Np Spec RW

variable {α : Type} {K : Type} [Field K] [LinearOrder K] [IsStrictOrderedRing K]

/-! ### C31: density ratio -/

/-- **C31 (density estimation).** For every density estimator `kde` (training rows ↦ log-density), every non-negative
monotone `exp` and every interleaving of source and target samples, `fit_transform` returns `X` unchanged with weights
that are zero on target rows, non-negative on source rows, average 1 over the source rows, and increase with the
log density ratio; unless every ratio underflows to zero. -/
theorem C31_density_partial (kde : List α → α → K) (exp : K → K) (X : List α) (sd : List Int)
    (hlen : sd.length = X.length) (hs : 0 < nSource sd) (ht : 0 < nTarget sd)
    (h0 : ∀ x, 0 ≤ exp x) (hmono : ∀ x y, x ≤ y → exp x ≤ exp y)
    (hpos : ∃ x ∈ sourceRows sd X, exp (kde (targetRows sd X) x - kde (sourceRows sd X) x) ≠ 0) :
    ∃ w, fitTransform (densityFit kde) (densityWeights exp) X (.vec sd) = .ok (X, w) ∧
      SourceWeights sd w ∧ sourceSum sd w = (nSource sd : K) ∧
      ∀ (i j : Nat) (di dj : Int) (x z : α), sd[i]? = some di → 0 ≤ di → X[i]? = some x →
        sd[j]? = some dj → 0 ≤ dj → X[j]? = some z →
        kde (targetRows sd X) x - kde (sourceRows sd X) x ≤ kde (targetRows sd X) z - kde (sourceRows sd X) z →
        ∃ v v', w[i]? = some (some v) ∧ w[j]? = some (some v') ∧ v ≤ v' := by
  have hX : X ≠ [] := by
    rintro rfl
    obtain ⟨x, hx, _⟩ := hpos
    simp [sourceRows] at hx
  have hsd := sd_ne hX hlen
  set fs := kde (sourceRows sd X) with hfs
  set ft := kde (targetRows sd X) with hft
  have hm : 0 < mean ((sourceRows sd X).map (fun x => exp (ft x - fs x))) := by
    apply mean_pos
    · intro y hy
      obtain ⟨x, _, rfl⟩ := List.mem_map.1 hy
      exact h0 _
    · obtain ⟨x, hx, hx0⟩ := hpos
      exact ⟨_, List.mem_map.2 ⟨x, hx, rfl⟩, hx0⟩
  have hw := densityWeights_eq exp fs ft hX hlen hs
  simp only [hm.ne', ne_eq, not_false_eq_true, if_true] at hw
  have hfit : densityFit kde X (.vec sd) = .ok (fs, ft) := by
    simp [densityFit, check_ok hX hlen, bind, Except.bind, splitX_ok hsd hlen, sourceRows_ne hlen hs,
      targetRows_ne hlen ht, pure, Except.pure, hfs, hft]
  refine ⟨_, ?_, sourceWeights_ok (fun x => exp (ft x - fs x) / _) hlen
    (fun x _ => div_nonneg (h0 _) hm.le), ?_, ?_⟩
  · simp only [fitTransform, hfit, bind, Except.bind, hw]
    rfl
  · rw [sourceSum_ok X sd (fun x => exp (ft x - fs x) / _), sum_div_mean hm.ne', length_sourceRows hlen]
  · intro i j di dj x z hi hdi hx hj hdj hz hle
    rw [getElem?_rowWeights (fun x => some (exp (ft x - fs x) / _)) _ hi hx,
      getElem?_rowWeights (fun x => some (exp (ft x - fs x) / _)) _ hj hz, if_pos hdi, if_pos hdj]
    exact ⟨_, _, rfl, rfl, div_le_div_of_nonneg_right (hmono _ _ hle) hm.le⟩

/-- What is left out above: when every ratio underflows, each source row gets `1 / n_source`. -/
theorem C31_density_fallback (kde : List α → α → K) (exp : K → K) (X : List α) (sd : List Int)
    (hlen : sd.length = X.length) (hs : 0 < nSource sd) (ht : 0 < nTarget sd)
    (hz : ∀ x ∈ sourceRows sd X, exp (kde (targetRows sd X) x - kde (sourceRows sd X) x) = 0) :
    ∃ w, fitTransform (densityFit kde) (densityWeights exp) X (.vec sd) = .ok (X, w) ∧
      SourceWeights sd w ∧ sourceSum sd w = 1 ∧
      ∀ (i : Nat) (d : Int), sd[i]? = some d → 0 ≤ d → w[i]? = some (some (1 / (nSource sd : K))) := by
  have hX : X ≠ [] := by
    rintro rfl
    have : sd = [] := by simpa using hlen
    subst this
    simp [nSource] at hs
  have hsd := sd_ne hX hlen
  set fs := kde (sourceRows sd X) with hfs
  set ft := kde (targetRows sd X) with hft
  have hm : mean ((sourceRows sd X).map (fun x => exp (ft x - fs x))) = 0 := by
    apply mean_zero
    intro y hy
    obtain ⟨x, hx, rfl⟩ := List.mem_map.1 hy
    exact hz x hx
  have hns : (nSource sd : K) ≠ 0 := by exact_mod_cast hs.ne'
  have hw := densityWeights_eq exp fs ft hX hlen hs
  simp only [hm, ne_eq, not_true_eq_false, if_false, fdiv, hns] at hw
  have hfit : densityFit kde X (.vec sd) = .ok (fs, ft) := by
    simp [densityFit, check_ok hX hlen, bind, Except.bind, splitX_ok hsd hlen, sourceRows_ne hlen hs,
      targetRows_ne hlen ht, pure, Except.pure, hfs, hft]
  refine ⟨_, ?_, sourceWeights_ok (fun _ => 1 / (nSource sd : K)) hlen
    (fun x _ => by positivity), ?_, ?_⟩
  · simp only [fitTransform, hfit, bind, Except.bind, hw]
    rfl
  · rw [sourceSum_ok X sd (fun _ => 1 / (nSource sd : K)), List.map_const', List.sum_replicate, length_sourceRows hlen]
    simp [hns]
  · intro i d hd h0
    obtain ⟨x, hx⟩ := exists_row hlen hd
    rw [getElem?_rowWeights (fun _ => some (1 / (nSource sd : K))) _ hd hx, if_pos h0]

/-- Four samples, source and target interleaved; `kde` is minus the distance to the training mean. -/
example : fitTransform (densityFit (fun T x => - |x - mean T|)) (densityWeights (fun x : ℚ => max 0 (10 + x)))
    [(0 : ℚ), 1, 4, 3] (.vec [1, -2, 2, -1])
    = .ok ([0, 1, 4, 3], [some 1, some 0, some 1, some 0]) := by decide +kernel

/-- C31 (one side missing). Without source rows or without target rows there is no density to fit: a `ValueError`. -/
theorem C31_density_missing_side (kde : List α → α → K) (X : List α) (sd : List Int) (hX : X ≠ [])
    (hlen : sd.length = X.length) (h : nSource sd = 0 ∨ nTarget sd = 0) :
    densityFit kde X (.vec sd) = .error .valueError := by
  have hsd := sd_ne hX hlen
  have hem : sourceRows sd X = [] ∨ targetRows sd X = [] := by
    rcases h with h | h
    · left; rw [← List.length_eq_zero_iff, length_sourceRows hlen, h]
    · right; rw [← List.length_eq_zero_iff, length_targetRows hlen, h]
  have hthrow : ∀ {γ : Type} (e : PyErr), (throw e : Py γ) = .error e := fun _ => rfl
  by_cases h1 : sourceRows sd X = []
  · simp [densityFit, check_ok hX hlen, bind, Except.bind, splitX_ok hsd hlen, h1, hthrow]
  · have h2 := hem.resolve_left h1
    simp [densityFit, check_ok hX hlen, bind, Except.bind, splitX_ok hsd hlen, h1, h2, hthrow]

example : densityFit (K := ℚ) (fun (_ : List ℚ) x => x) [1, 2] (.vec [-1, -1]) = .error .valueError ∧
    densityFit (K := ℚ) (fun (_ : List ℚ) x => x) [1, 2] (.vec [0, 1]) = .error .valueError := by
  constructor
  · exact C31_density_missing_side _ _ _ (by simp) rfl (Or.inl rfl)
  · exact C31_density_missing_side _ _ _ (by simp) rfl (Or.inr rfl)

/-- **C31 is false in the fallback**: with two source rows the "uniform weights" average 1/2, not 1. -/
theorem C31_counterexample_fallback :
    ∃ w, fitTransform (densityFit (fun (_ : List ℚ) x => x)) (densityWeights (fun _ : ℚ => 0)) [(0 : ℚ), 1, 4]
      (.vec [1, 2, -1]) = .ok ([0, 1, 4], w) ∧ sourceSum [1, 2, -1] w ≠ 2 := by
  refine ⟨[some (1 / 2), some (1 / 2), some 0], by decide +kernel, by decide +kernel⟩

/-- **C31 (Gaussian).** `GaussianReweight` weights are the exact density ratio on source rows, zero on target rows; they
are *not* normalised (see the counterexample). -/
theorem C31_gaussian_partial (pdf : List α → α → K) (X : List α) (sd : List Int) (hX : X ≠ [])
    (hlen : sd.length = X.length)
    (h0 : ∀ x, 0 ≤ pdf (targetRows sd X) x) (h1 : ∀ x ∈ sourceRows sd X, 0 < pdf (sourceRows sd X) x) :
    ∃ w, gaussianFitWeights pdf X (.vec sd) X (.vec sd) = .ok w ∧ SourceWeights sd w ∧
      ∀ (i : Nat) (d : Int) (x : α), sd[i]? = some d → 0 ≤ d → X[i]? = some x →
        w[i]? = some (some (pdf (targetRows sd X) x / pdf (sourceRows sd X) x)) := by
  have hsd := sd_ne hX hlen
  have hmap : (sourceRows sd X).map (fun x => fdiv (pdf (targetRows sd X) x) (pdf (sourceRows sd X) x))
      = (sourceRows sd X).map (fun x => some (pdf (targetRows sd X) x / pdf (sourceRows sd X) x)) := by
    apply List.map_congr_left
    intro x hx
    simp [fdiv, (h1 x hx).ne']
  refine ⟨_, ?_, sourceWeights_ok (fun x => pdf (targetRows sd X) x / pdf (sourceRows sd X) x) hlen
    (fun x hx => div_nonneg (h0 x) (h1 x hx).le), ?_⟩
  · simp only [gaussianFitWeights, check_ok hX hlen, bind, Except.bind, splitX_ok hsd hlen, sourceIdx_ok hsd,
      take_sourceIdx hlen, hmap]
    exact scatter_ok (fun x => some (pdf (targetRows sd X) x / pdf (sourceRows sd X) x)) hlen
  · intro i d x hd h0 hx
    rw [getElem?_rowWeights (fun x => some (pdf (targetRows sd X) x / pdf (sourceRows sd X) x)) _ hd hx, if_pos h0]

/-- **C31 is false for `GaussianReweight`**: the weights need not average 1. -/
theorem C31_counterexample_gaussian :
    ∃ w, gaussianFitWeights (fun T x => 1 / (1 + (x - mean T) * (x - mean T))) [(0 : ℚ), 2, 3] (.vec [1, 2, -1])
      [0, 2, 3] (.vec [1, 2, -1]) = .ok w ∧ sourceSum [1, 2, -1] w ≠ 2 := by
  refine ⟨[some (1 / 5), some 1, some 0], by decide +kernel, by decide +kernel⟩

/-- `discriminatorWeights` in closed form. -/
theorem discriminatorWeights_eq (eps : K) (proba : α → K) {X : List α} {sd : List Int} (hX : X ≠ [])
    (hlen : sd.length = X.length) (hs : 0 < nSource sd)
    (hm : mean ((sourceRows sd X).map (fun x => (1 - clip eps (proba x)) / clip eps (proba x))) ≠ 0) :
    discriminatorWeights eps proba X (.vec sd) =
      .ok (List.zipWith (fun d x => if 0 ≤ d then
        some ((1 - clip eps (proba x)) / clip eps (proba x) /
          mean ((sourceRows sd X).map (fun x => (1 - clip eps (proba x)) / clip eps (proba x))))
        else some 0) sd X) := by
  have hne := sourceRows_ne hlen hs
  have e : (((sourceRows sd X).map proba).map (clip eps)).map (fun p => (1 - p) / p)
      = (sourceRows sd X).map (fun x => (1 - clip eps (proba x)) / clip eps (proba x)) := by
    simp [List.map_map, Function.comp_def]
  unfold discriminatorWeights
  rw [check_ok hX hlen]
  simp only [bind, Except.bind, sourceIdx_ok (sd_ne hX hlen), take_sourceIdx hlen, batch_ok hne, e]
  rw [List.map_map]
  simp only [Function.comp_def, fdiv, hm, if_false]
  exact scatter_ok (fun x => some ((1 - clip eps (proba x)) / clip eps (proba x) / _)) hlen

theorem clip_range {eps p : K} (he : 0 < eps) : 0 < clip eps p ∧ clip eps p ≤ 1 :=
  ⟨lt_min (lt_of_lt_of_le he (le_max_right _ _)) zero_lt_one, min_le_right _ _⟩

theorem clip_mono {eps p q : K} (h : p ≤ q) : clip eps p ≤ clip eps q :=
  min_le_min_right _ (max_le_max_right _ h)

/-- **C31 (discriminator, direction reversed).** For every domain classifier, `DiscriminatorReweight` gives weights that
are zero on target rows, non-negative and average 1 on source rows (unless every source row has target probability 1),
but they *decrease* when the classifier's probability of being a target sample increases: the ratio is inverted, for
all inputs. -/
theorem C31_discriminator_partial (clf : List α → List Int → α → K) (eps : K) (X : List α) (sd : List Int)
    (hlen : sd.length = X.length) (he : 0 < eps) (p : α → K)
    (hfit : discriminatorFit clf X (.vec sd) = .ok p)
    (hpos : ∃ x ∈ sourceRows sd X, clip eps (p x) < 1) :
    ∃ w, fitTransform (discriminatorFit clf) (discriminatorWeights eps) X (.vec sd) = .ok (X, w) ∧
      SourceWeights sd w ∧ sourceSum sd w = (nSource sd : K) ∧
      ∀ (i j : Nat) (di dj : Int) (x z : α), sd[i]? = some di → 0 ≤ di → X[i]? = some x →
        sd[j]? = some dj → 0 ≤ dj → X[j]? = some z → p x ≤ p z →
        ∃ v v', w[i]? = some (some v) ∧ w[j]? = some (some v') ∧ v' ≤ v := by
  have hX : X ≠ [] := by
    rintro rfl
    obtain ⟨x, hx, _⟩ := hpos
    simp [sourceRows] at hx
  have hs : 0 < nSource sd := by
    rw [← length_sourceRows hlen (a := X)]
    obtain ⟨x, hx, _⟩ := hpos
    exact List.length_pos_of_mem hx
  have hnn : ∀ x, 0 ≤ (1 - clip eps (p x)) / clip eps (p x) := fun x =>
    div_nonneg (sub_nonneg.2 (clip_range he).2) (clip_range he).1.le
  have hm : 0 < mean ((sourceRows sd X).map (fun x => (1 - clip eps (p x)) / clip eps (p x))) := by
    apply mean_pos
    · intro y hy
      obtain ⟨x, _, rfl⟩ := List.mem_map.1 hy
      exact hnn x
    · obtain ⟨x, hx, hx0⟩ := hpos
      exact ⟨_, List.mem_map.2 ⟨x, hx, rfl⟩, (div_pos (by linarith) (clip_range he).1).ne'⟩
  refine ⟨_, ?_, sourceWeights_ok (fun x => (1 - clip eps (p x)) / clip eps (p x) / _) hlen
    (fun x _ => div_nonneg (hnn x) hm.le), ?_, ?_⟩
  · simp only [fitTransform, hfit, bind, Except.bind, discriminatorWeights_eq eps p hX hlen hs hm.ne']
    rfl
  · rw [sourceSum_ok X sd (fun x => (1 - clip eps (p x)) / clip eps (p x) / _), sum_div_mean hm.ne',
      length_sourceRows hlen]
  · intro i j di dj x z hi hdi hx hj hdj hz hle
    rw [getElem?_rowWeights (fun x => some ((1 - clip eps (p x)) / clip eps (p x) / _)) _ hi hx,
      getElem?_rowWeights (fun x => some ((1 - clip eps (p x)) / clip eps (p x) / _)) _ hj hz,
      if_pos hdi, if_pos hdj]
    refine ⟨_, _, rfl, rfl, div_le_div_of_nonneg_right ?_ hm.le⟩
    have hc := clip_mono (eps := eps) hle
    have c1 := clip_range (p := p x) he
    have c2 := clip_range (p := p z) he
    rw [div_le_div_iff₀ c2.1 c1.1]
    nlinarith

/-- **C31.** The classifier is trained on all samples with label 0 for source and 1 for target, so column 1 of its
`predict_proba` is the probability of being a target sample. -/
theorem C31_discriminator_labels (clf : List α → List Int → α → K) (X : List α) (sd : List Int) (hX : X ≠ [])
    (hlen : sd.length = X.length) :
    discriminatorFit clf X (.vec sd) = .ok (clf X (sd.map (fun d => if 0 ≤ d then 0 else 1))) := by
  have hsd := sd_ne hX hlen
  have hl : domainLabels X.length (flatnonzero (sd.map (fun d => decide (0 ≤ d))))
      = .ok (sd.map (fun d => if 0 ≤ d then 0 else 1)) := by
    have h1 := idxAssign_flatnonzero (1 : Int) (fun _ : α => (0 : Int)) (sd.map (fun d => decide (0 ≤ d))) X
      (by simpa using hlen)
    have h2 : (sel (sd.map (fun d => decide (0 ≤ d))) X).map (fun _ => (0 : Int))
        = (flatnonzero (sd.map (fun d => decide (0 ≤ d)))).map (fun _ => (0 : Int)) := by
      rw [List.map_const', List.map_const', length_sel (by simpa using hlen), length_flatnonzero]
    rw [domainLabels, ← h2, h1]
    congr 1
    rw [List.zipWith_map_left]
    apply List.ext_getElem
    · simp [hlen]
    · intro i _ _; simp
  simp only [discriminatorFit, check_ok hX hlen, bind, Except.bind, sourceIdx_ok hsd, hl]
  rfl

/-- **C31 is false for `DiscriminatorReweight`**: of two source rows, the one that looks more like a target sample
(probability 3/4 against 1/4) gets the smaller weight. -/
theorem C31_counterexample_discriminator :
    ∃ w, discriminatorWeights (1 / 1000) (fun x : ℚ => x) [1 / 4, 3 / 4, 1 / 2] (.vec [1, 2, -1]) = .ok w ∧
      w = [some (9 / 5), some (1 / 5), some 0] := by
  refine ⟨_, ?_, rfl⟩
  decide +kernel

/-! ### C32: nearest neighbours -/

/-- **C32 (partial).** If the source rows sit at the mirror images of the target rows (row `i` is source exactly when row
`n - 1 - i` is target, e.g. `n` source rows followed by `n` target rows), the weight of the `i`-th source row is the
number of target rows whose predicted neighbour is `i`, plus the smoothing constant. -/
theorem C32_counts_partial (knn : List α → α → Nat) (laplace : Bool) (X : List α) (sd : List Int) (hX : X ≠ [])
    (hlen : sd.length = X.length) (hs : 0 < nSource sd) (hknn : ∀ Xs x, Xs ≠ [] → knn Xs x < Xs.length)
    (hmir : sd.map (fun d => decide (0 ≤ d)) = (sd.map (fun d => decide (d < 0))).reverse) :
    ∃ w : List K, nnWeights knn laplace X (.vec sd) = .ok w ∧ w.length = X.length ∧
      sourceRows sd w = (List.range (nSource sd)).map (fun i => (if laplace then 1 else 0) +
        (((targetRows sd X).countP (fun x => decide (knn (sourceRows sd X) x = i))) : K)) := by
  obtain ⟨w, hw, hl, hsr, _⟩ := nnWeights_ok (K := K) knn laplace hX hlen hs hknn
  refine ⟨w, hw, hl, ?_⟩
  rw [hsr]
  apply List.map_congr_left
  intro i _
  rw [sourceRows_reverse hlen hmir, List.map_reverse, List.count_reverse]
  congr 2
  rw [List.count, List.countP_map]
  congr 1

example : nnWeights (K := ℚ) (fun Xs (x : Int) => ((Np.argmin (Xs.map (fun s => |x - s|))).toOption.getD 0)) true
    [0, 10, 9, 11] (.vec [1, 1, -1, -1]) = .ok [1, 3, 1, 1] := by decide +kernel

/-- **C32, what the code does for every arrangement.** The source weights sum to the number of *source* rows (plus the
smoothing constant per source row), and target rows get weight 1. -/
theorem C32_total (knn : List α → α → Nat) (laplace : Bool) (X : List α) (sd : List Int) (hX : X ≠ [])
    (hlen : sd.length = X.length) (hs : 0 < nSource sd) (hknn : ∀ Xs x, Xs ≠ [] → knn Xs x < Xs.length) :
    ∃ w : List K, nnWeights knn laplace X (.vec sd) = .ok w ∧ w.length = X.length ∧
      (sourceRows sd w).sum = (nSource sd : K) + (if laplace then (nSource sd : K) else 0) ∧
      ∀ v ∈ targetRows sd w, v = 1 := by
  obtain ⟨w, hw, hl, hsr, htr⟩ := nnWeights_ok (K := K) knn laplace hX hlen hs hknn
  refine ⟨w, hw, hl, ?_, fun v hv => by rw [htr] at hv; exact List.eq_of_mem_replicate hv⟩
  have hne := sourceRows_ne hlen hs
  rw [hsr, List.sum_map_add, sum_count_range, List.length_map, length_sourceRows (by simpa using hlen)]
  · cases laplace <;> simp [add_comm]
  · intro p hp
    obtain ⟨x, _, rfl⟩ := List.mem_map.1 hp
    rw [← length_sourceRows hlen (a := X)]
    exact hknn _ _ hne

/-- **C32 is false in general**: three source rows at 0, 10, 20 and one target row at 19.  The third source row is the
nearest neighbour of the only target row, so the weights should be `0, 0, 1`; they are `0, 1, 2`. -/
theorem C32_counterexample :
    nnWeights (K := ℚ) (fun Xs (x : Int) => ((Np.argmin (Xs.map (fun s => |x - s|))).toOption.getD 0)) false
      [0, 10, 20, 19] (.vec [1, 1, 1, -1]) = .ok [0, 1, 2, 1] := by decide +kernel

/-! ### C33: KLIEP -/

/-- **C33.** For every positive kernel, any step size, tolerance, objective values, any non-empty draw of centers among
the target rows and at least one iteration, KLIEP never divides by zero, its coefficients are non-negative and satisfy
`b · alpha = 1`; the weights of the training samples are zero on target rows, non-negative on source rows, and average 1
over the source rows. -/
theorem C33_kliep (k : α → α → K) (eps tol : K) (obj : List α → List α → List K → K) (obj0 : K) (maxIter : Nat)
    (draw : List Nat) (X : List α) (sd : List Int) (hlen : sd.length = X.length) (hs : 0 < nSource sd)
    (hk : ∀ x c, 0 < k x c) (hd : draw ≠ []) (hdr : ∀ i ∈ draw, i < nTarget sd) (hit : 0 < maxIter) :
    ∃ alpha centers w, kliepFit k eps tol obj obj0 maxIter draw X (.vec sd) = .ok (some alpha, centers) ∧
      alpha.length = draw.length ∧ (∀ a ∈ alpha, 0 ≤ a) ∧ (∀ c ∈ centers, c ∈ targetRows sd X) ∧
      (List.zipWith (fun c a => mean ((sourceRows sd X).map (fun x => k x c)) * a) centers alpha).sum = 1 ∧
      fitTransform (kliepFit k eps tol obj obj0 maxIter draw) (kliepWeights k) X (.vec sd) = .ok (X, w) ∧
      SourceWeights sd w ∧ sourceSum sd w = (nSource sd : K) := by
  have hX : X ≠ [] := by
    rintro rfl
    have : sd = [] := by simpa using hlen
    subst this
    simp [nSource] at hs
  have hsd := sd_ne hX hlen
  have hne := sourceRows_ne hlen hs
  obtain ⟨centers, hc⟩ : ∃ c, take (targetRows sd X) draw = .ok c := by
    apply take_ok_of_lt
    rw [length_targetRows hlen]
    exact hdr
  have hf := take_ok_iff.1 hc
  have hcl : centers.length = draw.length := hf.length_eq.symm
  have hcne : centers ≠ [] := by
    intro h
    rw [h] at hcl
    exact hd (List.length_eq_zero_iff.1 hcl.symm)
  have hcm : ∀ c ∈ centers, c ∈ targetRows sd X := by
    intro c hc'
    obtain ⟨i, hi, e⟩ := List.getElem_of_mem hc'
    have := hf.get (i := i) (by omega) hi
    simp only [List.get_eq_getElem] at this
    rw [← e]
    exact List.mem_of_getElem? this
  have htne : targetRows sd X ≠ [] := by
    obtain ⟨c, hc'⟩ := List.exists_mem_of_ne_nil _ hcne
    intro h
    have := hcm c hc'
    rw [h] at this
    simp at this
  obtain ⟨m, rfl⟩ : ∃ m, maxIter = m + 1 := ⟨maxIter - 1, by omega⟩
  let P : Kliep α K centers.length := ⟨k, sourceRows sd X, targetRows sd X, fun j => centers[j]⟩
  have hcpos : 0 < centers.length := List.length_pos_iff.2 hcne
  obtain ⟨a, ha, han, had⟩ := Kliep.loop_spec (P := P) hk hne eps tol
    (fun a => obj (targetRows sd X) centers (List.ofFn a)) m obj0 (fun _ => 1) (fun _ => zero_le_one)
    ⟨⟨0, hcpos⟩, zero_lt_one⟩
  have hfit : kliepFit k eps tol obj obj0 (m + 1) draw X (.vec sd) = .ok (some (List.ofFn a), centers) := by
    have : ¬ (targetRows sd X = [] ∨ centers = [] ∨ sourceRows sd X = []) := by simp [htne, hcne, hne]
    simp only [kliepFit, check_ok hX hlen, bind, Except.bind, splitX_ok hsd hlen, kliepOptimize, hc, this, if_false]
    have ha' := ha
    simp only [P] at ha'
    simp only [ha', Option.map_some]
    rfl
  have hrow : ∀ x, rowDot k centers (List.ofFn a) x = P.kernelAt a x := fun x => rowDot_ofFn k centers a x
  refine ⟨List.ofFn a, centers, _, hfit, by simp [hcl], ?_, hcm, ?_, ?_,
    sourceWeights_ok (fun x => P.kernelAt a x) hlen (fun x _ => ?_), ?_⟩
  · intro v hv
    obtain ⟨j, rfl⟩ := List.mem_ofFn.1 hv
    exact han j
  · rw [← had]
    have : List.zipWith (fun c a => mean ((sourceRows sd X).map (fun x => k x c)) * a) centers (List.ofFn a)
        = List.ofFn (fun j : Fin centers.length => P.b j * a j) := by
      apply List.ext_getElem
      · simp
      · intro i h1 h2
        simp [P, Kliep.b]
    rw [this, List.sum_ofFn]
  · have e : (sourceRows sd X).map (fun x => (some (List.ofFn a)).map (fun a => rowDot k centers a x))
        = (sourceRows sd X).map (fun x => some (P.kernelAt a x)) := by
      apply List.map_congr_left
      intro x _
      simp [hrow]
    simp only [fitTransform, hfit, bind, Except.bind, kliepWeights, check_ok hX hlen, sourceIdx_ok hsd,
      take_sourceIdx hlen, hne, if_false, e, scatter_ok (fun x => some (P.kernelAt a x)) hlen]
    rfl
  · exact (Kliep.kernelAt_pos (P := P) hk han (Kliep.pos_of_dot (P := P) han had) x).le
  · rw [sourceSum_ok X sd (fun x => P.kernelAt a x)]
    have := sum_kernel P a hne
    rw [had, mul_one] at this
    rw [show ((sourceRows sd X).map (fun x => P.kernelAt a x)).sum = _ from this]
    rw [show P.Xs.length = nSource sd from length_sourceRows hlen]

/-- One iteration, two source and two target rows, one center. -/
example : fitTransform (kliepFit (fun x c : ℚ => 1 / (1 + (x - c) * (x - c))) (1 / 100) 0 (fun _ _ _ => 0) 1 1 [1])
    (kliepWeights (fun x c : ℚ => 1 / (1 + (x - c) * (x - c)))) [0, 1, 1, 1] (.vec [1, -1, 2, -1])
    = .ok ([0, 1, 1, 1], [some (2 / 3), some 0, some (4 / 3), some 0]) := by decide +kernel

/-- The hypothesis of at least one iteration is needed: with `max_iter = 0` the coefficients stay at 1. -/
theorem C33_zero_iterations :
    ∃ w, fitTransform (kliepFit (fun x c : ℚ => 1 / (1 + (x - c) * (x - c))) (1 / 100) 0 (fun _ _ _ => 0) 1 0 [1])
      (kliepWeights (fun x c : ℚ => 1 / (1 + (x - c) * (x - c)))) [0, 1, 1, 1] (.vec [1, -1, 2, -1])
      = .ok ([0, 1, 1, 1], w) ∧ sourceSum [1, -1, 2, -1] w ≠ 2 :=
  ⟨[some (1 / 2), some 0, some 1, some 0], by decide +kernel, by decide +kernel⟩

/-- One KLIEP update of the coefficients of the centers: a gradient step on the log-likelihood of the target rows, the
projection on `b · alpha = 1`, the projection on non-negative coefficients, and the division by `b · alpha`. -/
def Spec.KliepUpdate {m : Nat} (k : α → α → K) (eps : K) (Xs Xt : List α) (c : Fin m → α) (old new : Fin m → K) : Prop :=
  ∃ b g p : Fin m → K, (∀ j, b j = (Xs.map (fun x => k x (c j))).sum / Xs.length) ∧
    (∀ j, g j = old j + eps * (Xt.map (fun x => k x (c j) / ∑ i, k x (c i) * old i)).sum) ∧
    (∀ j, p j = max 0 (g j + (1 - ∑ i, b i * g i) * b j / ∑ i, b i * b i)) ∧
    ∀ j, new j = p j / ∑ i, b i * p i

theorem Kliep.step_update {m : Nat} {P : Kliep α K m} {eps : K} {old new : Fin m → K} (h : P.step eps old = some new) :
    Spec.KliepUpdate P.k eps P.Xs P.Xt P.centers old new := by
  unfold Kliep.step at h
  by_cases h1 : P.Xt.any (fun x => decide (P.kernelAt old x = 0)) = true
  · rw [if_pos h1] at h; cases h
  rw [if_neg h1] at h
  by_cases h2 : ∑ j, P.b j * P.b j = 0
  · rw [if_pos h2] at h; cases h
  rw [if_neg h2] at h
  dsimp only at h
  split_ifs at h
  · cases h
  have h := Option.some.inj h
  refine ⟨P.b, _, _, fun j => by simp only [Kliep.b, mean, List.length_map], fun j => rfl, fun j => rfl, fun j => ?_⟩
  rw [← h]
  have hm : ∀ v : K, (if 0 < v then v else 0) = max 0 v := fun v => by
    split_ifs with hv
    · rw [max_eq_right hv.le]
    · rw [max_eq_left (not_lt.1 hv)]
  simp only [hm, one_mul, div_eq_mul_inv, Kliep.kernelAt]

theorem Kliep.loop_stop {m : Nat} (P : Kliep α K m) (eps tol : K) (obj : (Fin m → K) → K) (n : Nat) (old : K)
    (alpha a : Fin m → K) (h : P.loop eps tol obj n old alpha = some a) :
    ∃ (u : Nat → Fin m → K) (t : Nat), u 0 = alpha ∧ a = u t ∧ t ≤ n ∧ (0 < n → 0 < t) ∧
      (∀ i < t, P.step eps (u i) = some (u (i + 1))) ∧
      (∀ i, i + 1 < t → tol ≤ |obj (u (i + 1)) - (if i = 0 then old else obj (u i))|) ∧
      (t < n → |obj (u t) - (if t = 1 then old else obj (u (t - 1)))| < tol) := by
  induction n generalizing old alpha with
  | zero =>
    simp only [Kliep.loop, Option.some.injEq] at h
    exact ⟨fun _ => alpha, 0, rfl, h.symm, le_rfl, id, fun i hi => by omega, fun i hi => by omega, fun h => by omega⟩
  | succ n ih =>
    simp only [Kliep.loop, Option.bind_eq_bind] at h
    rcases hs : P.step eps alpha with _ | b
    · rw [hs] at h; cases h
    · rw [hs] at h
      simp only [Option.bind_some] at h
      split_ifs at h with hc
      · simp only [Option.pure_def, Option.some.injEq] at h
        subst h
        refine ⟨fun i => if i = 0 then alpha else b, 1, rfl, rfl, by omega, fun _ => by omega, fun i hi => ?_, fun i hi => by omega, fun _ => ?_⟩
        · obtain rfl : i = 0 := by omega
          simpa using hs
        · simpa using hc
      · obtain ⟨u, t, h1, h2, h3, h4, h5, h6, h7⟩ := ih _ _ h
        refine ⟨fun i => if i = 0 then alpha else u (i - 1), t + 1, rfl, by simpa using h2, by omega, fun _ => by omega, fun i hi => ?_, fun i hi => ?_, fun ht => ?_⟩
        · rcases i with _ | i
          · simpa [h1] using hs
          · simpa using h5 i (by omega)
        · rcases i with _ | i
          · simpa [h1] using not_lt.1 hc
          · have := h6 i (by omega)
            rcases i with _ | i
            · simpa [h1] using this
            · simpa using this
        · have := h7 (by omega)
          have h0 : 0 < t := h4 (by omega)
          rcases t with _ | t
          · omega
          · rcases t with _ | t
            · simpa [h1] using this
            · simpa using this

/-- **C33 (stopping).** KLIEP starts from coefficients 1 and returns the coefficients after `t` updates, where `1 ≤ t ≤ max_iter`
is the first number of updates after which the objective changed by less than `tol`, or `max_iter` if there is none. -/
theorem C33_stop (k : α → α → K) (eps tol : K) (obj : List α → List α → List K → K) (obj0 : K) (maxIter : Nat)
    (draw : List Nat) (X : List α) (sd : List Int) (hlen : sd.length = X.length) (hX : X ≠ []) (hit : 0 < maxIter)
    (alpha : List K) (centers : List α) (h : kliepFit k eps tol obj obj0 maxIter draw X (.vec sd) = .ok (some alpha, centers)) :
    ∃ (u : Nat → Fin centers.length → K) (t : Nat), (∀ j, u 0 j = 1) ∧ alpha = List.ofFn (u t) ∧ 0 < t ∧ t ≤ maxIter ∧
      (∀ i < t, KliepUpdate k eps (sourceRows sd X) (targetRows sd X) (fun j => centers[j]) (u i) (u (i + 1))) ∧
      let o := fun i => if i = 0 then obj0 else obj (targetRows sd X) centers (List.ofFn (u i))
      (∀ i, i + 1 < t → tol ≤ |o (i + 1) - o i|) ∧ (t < maxIter → |o t - o (t - 1)| < tol) := by
  have hsd := sd_ne hX hlen
  simp only [kliepFit, check_ok hX hlen, bind, Except.bind, splitX_ok hsd hlen, kliepOptimize] at h
  split at h
  · cases h
  · rename_i c hc
    split at h
    · cases h
    · simp only [pure, Except.pure, Except.ok.injEq, Prod.mk.injEq, Option.map_eq_some_iff] at h
      obtain ⟨⟨a, ha, rfl⟩, rfl⟩ := h
      obtain ⟨u, t, h1, h2, h3, h4, h5, h6, h7⟩ := Kliep.loop_stop _ _ _ _ _ _ _ _ ha
      refine ⟨u, t, fun j => by rw [h1], by rw [h2], h4 hit, h3, fun i hi => (Kliep.step_update (h5 i hi)), ?_, ?_⟩
      · intro i hi
        simpa using h6 i hi
      · intro ht
        have := h7 ht
        have h0 := h4 hit
        rcases t with _ | t
        · omega
        · simpa using this

/-- The objective moves from 1 to 0 in the first update and not in the second: two of five updates. -/
example : ∃ (u : Nat → Fin 1 → ℚ) (t : Nat), (∀ j, u 0 j = 1) ∧ [(4 / 3 : ℚ)] = List.ofFn (u t) ∧ 0 < t ∧ t ≤ 5 ∧
    (t < 5 → |(if t = 0 then (1 : ℚ) else 0) - (if t - 1 = 0 then 1 else 0)| < 1 / 2) := by
  have h : kliepFit (fun x c : ℚ => 1 / (1 + (x - c) * (x - c))) (1 / 100) (1 / 2) (fun _ _ _ => 0) 1 5 [1] [0, 1, 1, 1] (.vec [1, -1, 2, -1])
    = .ok (some [4 / 3], [1]) := by decide +kernel
  obtain ⟨u, t, h1, h2, h3, h4, -, -, h6⟩ := C33_stop (α := ℚ) (K := ℚ) _ _ _ _ _ 5 _ [0, 1, 1, 1] [1, -1, 2, -1] rfl (by simp) (by omega) _ _ h
  exact ⟨u, t, h1, h2, h3, h4, h6⟩

/-- **C33.** Cross-validated `gamma`: the selected value is one of the candidates and has the largest held-out score,
the first such candidate in case of ties; an empty list of candidates raises `ValueError`. -/
theorem C33_best_gamma {γ : Type} (lik : γ → K) (gammas : List γ) :
    (gammas = [] → bestGamma lik gammas = .error .valueError) ∧
    (gammas ≠ [] → ∃ i g, bestGamma lik gammas = .ok g ∧ gammas[i]? = some g ∧
      (∀ g' ∈ gammas, lik g' ≤ lik g) ∧ ∀ (j : Nat) g', j < i → gammas[j]? = some g' → lik g' < lik g) := by
  constructor
  · rintro rfl; rfl
  · intro h
    obtain ⟨i, y, h1, h2, h3, h4⟩ := argmax_spec (l := gammas.map lik) (by simpa using h)
    rw [List.getElem?_map, Option.map_eq_some_iff] at h2
    obtain ⟨g, hg, rfl⟩ := h2
    refine ⟨i, g, by simp [bestGamma, h1, hg, bind, Except.bind, pure, Except.pure], hg, ?_, ?_⟩
    · intro g' hg'
      exact h3 _ (List.mem_map.2 ⟨g', hg', rfl⟩)
    · intro j g' hj hg'
      exact h4 j _ hj (by rw [List.getElem?_map, hg']; rfl)

example : bestGamma (fun g : Nat => (5 : ℚ) - |3 - (g : ℚ)|) [1, 2, 4, 7] = .ok 2 := by decide +kernel

/-! ### C62: kernel mean matching -/

/-- **C62 (partial).** With the default Frank-Wolfe solver, any kernel, a tolerance `eps` in `[0, 1]` (the default one
is), and at least one iteration, KMM weights of the training data are zero on target rows, non-negative on source
rows, and their sum over the `n` source rows is between `n (1 - eps)` and `n (1 + eps)`.  Missing from the documented
contract: the upper bound `B` (see the counterexample). -/
theorem C62_kmm_partial [DecidableEq α] (k : α → α → K) (sqrt : K → K) (eps : Option K) (B : K) (maxIter : Nat)
    (scipy : ∀ n, (Fin n → K) → Py ((Fin n → K) × K)) (X : List α) (sd : List Int)
    (hlen : sd.length = X.length) (hs : 0 < nSource sd) (ht : 0 < nTarget sd)
    (hsq : eps = none → 0 ≤ sqrt (nSource sd) ∧ sqrt (nSource sd) * sqrt (nSource sd) = nSource sd)
    (heps : ∀ e, eps = some e → 0 ≤ e ∧ e ≤ 1) (hit : 0 < maxIter) :
    ∃ w e, fitTransform (kmmFit k sqrt eps B "frank-wolfe" maxIter scipy) (kmmWeights k false) X (.vec sd) = .ok (X, w) ∧
      SourceWeights sd w ∧
      (∀ e', eps = some e' → e = e') ∧ (eps = none → (1 - e) * (1 - e) * (nSource sd : K) = 1) ∧ 0 ≤ e ∧ e ≤ 1 ∧
      (nSource sd : K) * (1 - e) ≤ sourceSum sd w ∧ sourceSum sd w ≤ (nSource sd : K) * (1 + e) := by
  have hX : X ≠ [] := by
    rintro rfl
    have : sd = [] := by simpa using hlen
    subst this
    simp [nSource] at hs
  have hsd := sd_ne hX hlen
  have hne := sourceRows_ne hlen hs
  have htne := targetRows_ne hlen ht
  set Xs := sourceRows sd X with hXs
  have hlXs : Xs.length = nSource sd := length_sourceRows hlen
  have hpos : 0 < Xs.length := by omega
  have hnK : (1 : K) ≤ (Xs.length : K) := by exact_mod_cast hpos
  have he : (∀ e', eps = some e' → kmmEps sqrt eps Xs.length = e') ∧
      (eps = none → (1 - kmmEps sqrt eps Xs.length) * (1 - kmmEps sqrt eps Xs.length) * (Xs.length : K) = 1) ∧
      0 ≤ kmmEps sqrt eps Xs.length ∧ kmmEps sqrt eps Xs.length ≤ 1 := by
    cases eps with
    | some e => exact ⟨by rintro _ ⟨⟩; rfl, by simp, (heps e rfl).1, (heps e rfl).2⟩
    | none =>
      have hq : 0 ≤ sqrt (Xs.length : K) ∧ sqrt (Xs.length : K) * sqrt (Xs.length : K) = Xs.length := by
        rw [hlXs]; exact hsq rfl
      have hq1 : 1 ≤ sqrt (Xs.length : K) := by
        by_contra hlt
        have hlt := not_le.1 hlt
        nlinarith
      have hq0 : (0 : K) < sqrt (Xs.length : K) := by linarith
      refine ⟨by simp, fun _ => ?_, div_nonneg (by linarith) hq0.le, ?_⟩
      · simp only [kmmEps]
        have : 1 - (sqrt (Xs.length : K) - 1) / sqrt (Xs.length : K) = 1 / sqrt (Xs.length : K) := by
          field_simp; ring
        rw [this]
        have h2 := hq.2
        set s := sqrt (Xs.length : K)
        rw [← h2]
        field_simp
      · simp only [kmmEps]
        rw [div_le_one hq0]
        linarith
  set e := kmmEps sqrt eps Xs.length with hedef
  obtain ⟨x, hx, hf⟩ : ∃ x, FW.frankWolfe (FW.qpJac (fun i j => k Xs[i] Xs[j])
      (some (fun i => - ((Xs.length : K) * mean ((targetRows sd X).map (fun t => k Xs[i] t))))))
      (fun _ : Fin Xs.length => (1 : K)) ((Xs.length : K) * (1 - e)) ((Xs.length : K) * (1 + e)) none maxIter = .ok x ∧
      Spec.Feasible (fun _ => (1 : K)) ((Xs.length : K) * (1 - e)) ((Xs.length : K) * (1 + e)) x := by
    obtain ⟨x, hx, h1, h2, h3⟩ := C28_feasible (FW.qpJac (fun i j => k Xs[i] Xs[j])
      (some (fun i => - ((Xs.length : K) * mean ((targetRows sd X).map (fun t => k Xs[i] t))))))
      (fun _ : Fin Xs.length => (1 : K)) ((Xs.length : K) * (1 - e)) ((Xs.length : K) * (1 + e)) none maxIter hpos
      (fun _ => zero_lt_one) (mul_nonneg (by linarith) (by linarith [he.2.2.2]))
      (mul_le_mul_of_nonneg_left (by linarith [he.2.2.1]) (by linarith)) hit
    exact ⟨x, hx, h1, h2, h3⟩
  have hopt : kmmOptimize k sqrt eps B "frank-wolfe" maxIter scipy Xs (targetRows sd X) = .ok (List.ofFn x) := by
    have hcl : FW.allclose (fun _ : Fin Xs.length => (1 : K)) (fun _ => - (-1)) = true := by
      simp only [FW.allclose, neg_neg, sub_self, abs_zero, decide_eq_true_eq]
      intro i
      positivity
    have hlt : ¬ ((Xs.length : K) * (1 + e) < - -((Xs.length : K) * (1 - e))) := by
      rw [neg_neg, not_lt]
      exact mul_le_mul_of_nonneg_left (by linarith [he.2.2.1]) (by linarith)
    have hx' := hx
    rw [← neg_neg ((Xs.length : K) * (1 - e))] at hx'
    have hne2 : ¬ (Xs = [] ∨ targetRows sd X = []) := by simp [hne, htne]
    simp only [kmmOptimize, hne2, FW.qpSolve, FW.qpFrankWolfe, FW.qpChecks, FW.at?, FW.atOpt, bind, Except.bind,
      pure, Except.pure, ← hedef, hcl, hlt, hx', List.length_cons, List.length_nil, Nat.reduceAdd, gt_iff_lt,
      lt_irrefl, ↓reduceIte, List.getElem?_cons_zero, List.getElem?_cons_succ, Bool.not_true,
      Bool.false_eq_true, Nat.one_lt_ofNat, String.reduceEq]
  obtain ⟨w, hw, hwl, hws, hwt⟩ := idxAssign_source (some (0 : K)) (sd := sd) (vals := (List.ofFn x).map some)
    (by simp [hlXs])
  refine ⟨w, e, ?_, ⟨hwl, ?_⟩, he.1, ?_, he.2.2.1, he.2.2.2, ?_⟩
  · have hb : boolIndex X (sd.map (fun d => decide (0 ≤ d))) = .ok Xs := by
      rw [boolIndex_ok (by simp [hlen]), sel_source]
    simp only [fitTransform, kmmFit, check_ok hX hlen, bind, Except.bind, splitX_ok hsd hlen, ← hXs, hopt, kmmWeights,
      extractSourceIndices_ok hsd, hb, and_self, if_true, pure, Except.pure, scatterZeros, ← hlen, hw]
  · intro i d hd
    obtain ⟨v, hv⟩ : ∃ v, w[i]? = some v := by
      have := (List.getElem?_eq_some_iff.1 hd).1
      exact ⟨w[i], List.getElem?_eq_getElem (by omega)⟩
    constructor
    · intro h0
      have hmem : v ∈ targetRows sd w := by
        unfold targetRows
        rw [List.mem_map]
        refine ⟨(d, v), List.mem_filter.2 ⟨?_, by simpa using h0⟩, rfl⟩
        apply List.mem_of_getElem? (i := i)
        rw [List.getElem?_zip_eq_some (z := (d, v))]
        exact ⟨hd, hv⟩
      rw [hwt] at hmem
      rw [hv, List.eq_of_mem_replicate hmem]
    · intro h0
      have hmem := mem_sourceRows_of hd h0 hv
      rw [hws, List.mem_map] at hmem
      obtain ⟨u, hu, rfl⟩ := hmem
      obtain ⟨j, rfl⟩ := List.mem_ofFn.1 hu
      exact ⟨_, hv, hf.1 j⟩
  · intro h
    rw [← hlXs]
    exact he.2.1 h
  · have hsum : sourceSum sd w = ∑ j, (1 : K) * x j := by
      unfold sourceSum
      rw [hws, List.map_map]
      have : (List.ofFn x).map ((fun v : Option K => v.getD 0) ∘ some) = List.ofFn x := by
        simp [Function.comp_def]
      rw [this, List.sum_ofFn]
      simp
    rw [hsum, ← hlXs]
    exact hf.2

/-- A kernel, weights `1 ≤ w₀ + w₁ ≤ 3`; the training set has the source rows 0, 1 and the target row 0. -/
example : (fitTransform (kmmFit (fun x y : Int => if x = y then (1 : ℚ) else 0) id (some (1 / 2)) 1 "frank-wolfe" 3
    (fun _ _ => .error .valueError)) (kmmWeights (fun x y : Int => if x = y then (1 : ℚ) else 0) false) [0, 1, 0]
    (.vec [1, 2, -1])) = .ok ([0, 1, 0], [some 2, some (1 / 3), some 0]) := by decide +kernel

/-- **C62 is false for the bound `B`**: `KMMReweight(B=1)` with the default solver.  Both weights at most 1 is feasible,
yet after any number `T ≥ 72` of iterations some weight exceeds `B`, because the Frank-Wolfe branch of `qp_solve`
discards `lb` and `ub`. -/
theorem C62_counterexample (T : Nat) (hT : 72 ≤ T) (scipy : ∀ n, (Fin n → ℚ) → Py ((Fin n → ℚ) × ℚ)) :
    ∃ w, ∃ (i : Nat) (v : ℚ), fitTransform (kmmFit (fun x y : Int => if x = y then (1 : ℚ) else 0) id (some (1 / 2)) 1 "frank-wolfe" T
      scipy) (kmmWeights (fun x y : Int => if x = y then (1 : ℚ) else 0) false) [0, 1, 0] (.vec [1, 2, -1])
      = .ok ([0, 1, 0], w) ∧ w[i]? = some (some v) ∧ 1 < v := by
  obtain ⟨x, hx, hx0, -, -, hopt⟩ := C30_two_rows_partial (scipy 2 (fun _ => 1))
    (fun i j : Fin 2 => if ([0, 1] : List Int)[i] = ([0, 1] : List Int)[j] then (1 : ℚ) else 0)
    (some (fun i => - (((2 : Nat) : ℚ) * mean (([0] : List Int).map (fun t =>
      if ([0, 1] : List Int)[i] = t then (1 : ℚ) else 0)))))
    (fun _ => 1) (((2 : Nat) : ℚ) * (1 - 1 / 2)) (((2 : Nat) : ℚ) * (1 + 1 / 2)) none none T (by decide)
    (by simp) (by norm_num) (by norm_num)
    (by intro i j; simp [eq_comm])
    (by
      intro d
      simp [Fin.sum_univ_two]
      nlinarith [sq_nonneg (d 0), sq_nonneg (d 1)]) (by omega)
  have hgap := hopt (fun i => if i = 0 then 2 else 0) (by intro i; split <;> norm_num)
    (by simp) (by simp)
  have hTq : (72 : ℚ) ≤ (T : ℚ) := by exact_mod_cast hT
  have hfrac : (36 : ℚ) / ((T : ℚ) + 1) < 1 / 2 := by
    rw [div_lt_div_iff₀ (by linarith) (by norm_num)]
    linarith
  have hbig : 1 < x 0 ∨ 1 < x 1 := by
    by_contra hcon
    have hcon := not_or.1 hcon
    have a := not_lt.1 hcon.1
    have b := not_lt.1 hcon.2
    have p := hx0 0
    have q := hx0 1
    simp [Spec.qpObjective, Spec.qpGap, Fin.sum_univ_two, mean] at hgap
    nlinarith [mul_nonneg p q, hfrac]
  have hkm : kmmFit (fun x y : Int => if x = y then (1 : ℚ) else 0) id (some (1 / 2)) 1 "frank-wolfe" T scipy [0, 1, 0]
      (.vec [1, 2, -1]) = .ok ([x 0, x 1], [0, 1]) := by
    have hfit : kmmOptimize (fun x y : Int => if x = y then (1 : ℚ) else 0) id (some (1 / 2)) 1 "frank-wolfe" T scipy
        [0, 1] [0] = .ok [x 0, x 1] := by
      unfold kmmOptimize
      rw [if_neg (by simp)]
      have := hx
      simp only [bind, Except.bind, kmmEps]
      erw [this]
      rfl
    have hsplit : splitX ([0, 1, 0] : List Int) [1, 2, -1] = .ok ([0, 1], [0]) := by decide
    have hchk : checkXDomain ([0, 1, 0] : List Int) (.vec [1, 2, -1]) { allowMultiSource := true, allowMultiTarget := true }
        = .ok ([0, 1, 0], [1, 2, -1]) := by decide
    simp only [kmmFit, hchk, bind, Except.bind, hsplit, hfit]
    rfl
  have hall : fitTransform (kmmFit (fun x y : Int => if x = y then (1 : ℚ) else 0) id (some (1 / 2)) 1 "frank-wolfe" T
      scipy) (kmmWeights (fun x y : Int => if x = y then (1 : ℚ) else 0) false) [0, 1, 0] (.vec [1, 2, -1])
      = .ok ([0, 1, 0], [some (x 0), some (x 1), some 0]) := by
    simp only [fitTransform, hkm, bind, Except.bind]
    rfl
  rcases hbig with h | h
  · exact ⟨_, 0, x 0, hall, rfl, h⟩
  · exact ⟨_, 1, x 1, hall, rfl, h⟩

/-! ### C63: MMD target shift -/

theorem listDot_indicator {β : Type} [DecidableEq β] {classes : List β} {alpha : List K} {i : Nat} {c : β} {a : K}
    (hn : classes.Nodup) (hc : classes[i]? = some c) (ha : alpha[i]? = some a) :
    listDot (indicator classes c) alpha = a := by
  unfold listDot indicator
  induction classes generalizing alpha i with
  | nil => simp at hc
  | cons b classes ih =>
    cases alpha with
    | nil => simp at ha
    | cons a' alpha =>
      rw [List.nodup_cons] at hn
      cases i with
      | zero =>
        simp only [List.getElem?_cons_zero, Option.some.injEq] at hc ha
        subst hc; subst ha
        simp only [List.map_cons, List.zipWith_cons_cons, List.sum_cons, if_true, one_mul]
        have : (List.zipWith (· * ·) (classes.map (fun c => if b = c then (1 : K) else 0)) alpha).sum = 0 := by
          apply List.sum_eq_zero
          intro v hv
          rw [List.zipWith_map_left] at hv
          obtain ⟨j, hj, rfl⟩ := List.getElem_of_mem hv
          rw [List.getElem_zipWith, if_neg, zero_mul]
          intro e
          exact hn.1 (e ▸ List.getElem_mem _)
        rw [this, add_zero]
      | succ i =>
        simp only [List.getElem?_cons_succ] at hc ha
        have hbc : ¬ c = b := by
          rintro rfl
          exact hn.1 (List.mem_of_getElem? hc)
        simp only [List.map_cons, List.zipWith_cons_cons, List.sum_cons, hbc, if_false, zero_mul, zero_add]
        exact ih hn.2 hc ha

theorem listDot_indicator_not_mem {β : Type} [DecidableEq β] {classes : List β} {alpha : List K} {c : β}
    (hc : c ∉ classes) : listDot (indicator classes c) alpha = 0 := by
  unfold listDot indicator
  apply List.sum_eq_zero
  intro v hv
  rw [List.zipWith_map_left] at hv
  obtain ⟨j, hj, rfl⟩ := List.getElem_of_mem hv
  rw [List.getElem_zipWith, if_neg, zero_mul]
  intro e
  exact hc (e ▸ List.getElem_mem _)

/-- **C63.** `MMDTarSReweight` for classification, fitted and evaluated on the same samples: whatever the quadratic
program returns (`solve`, one coefficient per class), every source row carries the coefficient of its own class plus
`tiny` (so rows of one class share one weight), every target row carries `tiny`. -/
theorem C63_target_shift {β : Type} [DecidableEq α] [LinearOrder β] (solve : List α → List α → List β → List K)
    (tiny : K) (X : List α) (y : List β) (sd : List Int) (hlen : sd.length = X.length) (hy : y.length = X.length)
    (hs : 0 < nSource sd) (ht : 0 < nTarget sd)
    (hsol : ∀ Xs Xt ys, (solve Xs Xt ys).length = (unique ys).length) :
    ∃ f w, tarsFit solve X y (.vec sd) = .ok f ∧ tarsWeights tiny f X y sd = .ok w ∧ w.length = X.length ∧
      (∀ (i : Nat) (d : Int), sd[i]? = some d → d < 0 → w[i]? = some tiny) ∧
      ∃ coef : β → K,
        (∀ (i : Nat) (c : β), (unique (sourceRows sd y))[i]? = some c →
          (solve (sourceRows sd X) (targetRows sd X) (sourceRows sd y))[i]? = some (coef c)) ∧
        ∀ (i : Nat) (d : Int) (c : β), sd[i]? = some d → 0 ≤ d → y[i]? = some c → w[i]? = some (coef c + tiny) := by
  have hX : X ≠ [] := by
    rintro rfl
    have : sd = [] := by simpa using hlen
    subst this
    simp [nSource] at hs
  have hsd := sd_ne hX hlen
  have hleny : sd.length = y.length := by omega
  set ys := sourceRows sd y with hys
  set alpha := solve (sourceRows sd X) (targetRows sd X) ys with halpha
  have hfit : tarsFit solve X y (.vec sd) = .ok (ys.map (fun c => listDot (indicator (unique ys) c) alpha), alpha,
      sourceRows sd X, unique ys) := by
    have : ¬ (sourceRows sd X = [] ∨ targetRows sd X = []) := by
      simp [sourceRows_ne hlen hs, targetRows_ne hlen ht]
    simp only [tarsFit, check_ok hX hlen, bind, Except.bind, splitX_ok hsd hlen, splitX_ok hsd hleny, this, if_false]
    rfl
  have hb : boolIndex X (sd.map (fun d => decide (0 ≤ d))) = .ok (sourceRows sd X) := by
    rw [boolIndex_ok (by simp [hlen]), sel_source]
  have hassign := idxAssign_flatnonzero (0 : K) (fun c => listDot (indicator (unique ys) c) alpha)
    (sd.map (fun d => decide (0 ≤ d))) y (by simpa using hleny)
  rw [sel_source, ← hys] at hassign
  have hw : tarsWeights tiny (ys.map (fun c => listDot (indicator (unique ys) c) alpha), alpha,
      sourceRows sd X, unique ys) X y sd = .ok ((List.zipWith (fun d c => if 0 ≤ d then
        listDot (indicator (unique ys) c) alpha else 0) sd y).map (· + tiny)) := by
    simp only [tarsWeights, hy, ne_eq, not_true_eq_false, if_false, bind, Except.bind, extractSourceIndices_ok hsd, hb,
      if_true, pure, Except.pure]
    rw [← hy, hassign]
    simp [List.zipWith_map_left]
  refine ⟨_, _, hfit, hw, by simp; omega, ?_, fun c => listDot (indicator (unique ys) c) alpha, ?_, ?_⟩
  · intro i d hd h0
    obtain ⟨c, hc⟩ := exists_row hleny hd
    rw [List.getElem?_map, getElem?_rowWeights _ _ hd hc, if_neg (by omega)]
    simp
  · intro i c hc
    have hl : i < alpha.length := by
      rw [halpha, hsol]
      exact (List.getElem?_eq_some_iff.1 hc).1
    have ha : alpha[i]? = some alpha[i] := List.getElem?_eq_getElem hl
    dsimp only
    rw [listDot_indicator (nodup_unique _) hc ha]
    exact ha
  · intro i d c hd h0 hc
    rw [List.getElem?_map, getElem?_rowWeights _ _ hd hc, if_pos h0]
    rfl

example : (do
    let f ← tarsFit (fun _ _ _ => [(2 : ℚ), 1 / 2]) [10, 11, 12, 13] [7, 3, 7, 7] (.vec [1, 1, -1, 1])
    tarsWeights (1 / 100) f [10, 11, 12, 13] [7, 3, 7, 7] [1, 1, -1, 1])
    = .ok [51 / 100, 201 / 100, 1 / 100, 51 / 100] := by decide +kernel

/-- **C63, lengths.** Labels of another length than the data are refused. -/
theorem C63_lengths {β : Type} [DecidableEq α] [DecidableEq β] (tiny : K) (f : List K × List K × List α × List β) (X : List α)
    (y : List β) (sd : List Int) (h : y.length ≠ X.length) : tarsWeights tiny f X y sd = .error .valueError := by
  unfold tarsWeights
  rw [if_pos (fun e => h e.symm)]
  rfl

example : tarsWeights (1 / 100) ([1], [(2 : ℚ), 1 / 2], [0], [3, 7]) [10, 11, 12, 13] [7, 3, 7] [1, 1, 1, -1]
    = .error .valueError := by decide +kernel

/-- **C63, new samples.** On data whose source rows differ from the training rows, a source row gets the coefficient of
its class, and a class never seen in training gets `tiny`. -/
theorem C63_new_samples {β : Type} [DecidableEq α] [DecidableEq β] (tiny : K) (sw alpha : List K) (Xfit X : List α)
    (classes : List β) (y : List β) (sd : List Int) (hlen : sd.length = X.length) (hy : y.length = X.length)
    (hX : X ≠ []) (hnew : Xfit ≠ sourceRows sd X) (hn : classes.Nodup) :
    ∃ w, tarsWeights tiny (sw, alpha, Xfit, classes) X y sd = .ok w ∧ w.length = X.length ∧
      ∀ (i : Nat) (d : Int) (c : β), sd[i]? = some d → y[i]? = some c →
        (d < 0 → w[i]? = some tiny) ∧
        (0 ≤ d → c ∉ classes → w[i]? = some tiny) ∧
        (0 ≤ d → ∀ (j : Nat) (a : K), classes[j]? = some c → alpha[j]? = some a → w[i]? = some (a + tiny)) := by
  have hsd := sd_ne hX hlen
  have hleny : sd.length = y.length := by omega
  have hb : boolIndex X (sd.map (fun d => decide (0 ≤ d))) = .ok (sourceRows sd X) := by
    rw [boolIndex_ok (by simp [hlen]), sel_source]
  have hby : boolIndex y (sd.map (fun d => decide (0 ≤ d))) = .ok (sourceRows sd y) := by
    rw [boolIndex_ok (by simp [hleny]), sel_source]
  have hassign := idxAssign_flatnonzero (0 : K) (fun c => listDot (indicator classes c) alpha)
    (sd.map (fun d => decide (0 ≤ d))) y (by simpa using hleny)
  rw [sel_source] at hassign
  have hw : tarsWeights tiny (sw, alpha, Xfit, classes) X y sd = .ok ((List.zipWith (fun d c => if 0 ≤ d then
        listDot (indicator classes c) alpha else 0) sd y).map (· + tiny)) := by
    simp only [tarsWeights, hy, ne_eq, not_true_eq_false, if_false, bind, Except.bind, extractSourceIndices_ok hsd, hb,
      hnew, hby, pure, Except.pure]
    rw [← hy, hassign]
    simp [List.zipWith_map_left]
  refine ⟨_, hw, by simp; omega, fun i d c hd hc => ?_⟩
  rw [List.getElem?_map, getElem?_rowWeights _ _ hd hc]
  refine ⟨fun h => by rw [if_neg (by omega)]; simp, fun h hm => ?_, fun h j a hj ha => ?_⟩
  · rw [if_pos h, listDot_indicator_not_mem hm]; simp
  · rw [if_pos h, listDot_indicator hn hj ha]; rfl

example : tarsWeights (1 / 100) ([1], [(2 : ℚ), 1 / 2], [0], [3, 7]) [10, 11, 12, 13] [7, 3, 7, 5] [1, 1, -1, 1]
    = .ok [51 / 100, 201 / 100, 1 / 100, 1 / 100] := by decide +kernel

end Skada

/-
Property C141: if there is no shift (the target samples are the source samples in some order), adaptation changes nothing.
-/
import Verif.Spec.NoShift
import Verif.Props.Reweight
import Verif.Props.KmmQp
import Verif.Props.Mapping
import Verif.Props.Subspace
import Verif.Props.Scorers
import Verif.Props.DeepCoral
import Verif.Props.DeepMMD

set_option linter.unusedSectionVars false

namespace Skada
open Np Spec

instance {α : Type} [DecidableEq α] (sd : List Int) (X : List α) : Decidable (NoShift sd X) := by unfold NoShift; infer_instance

namespace NoShift
open RW
variable {K : Type} [Field K] [LinearOrder K] [IsStrictOrderedRing K] {α : Type}

theorem counts {sd : List Int} {X : List α} (hlen : sd.length = X.length) (h : NoShift sd X) : nTarget sd = nSource sd := by
  rw [← length_sourceRows hlen, ← length_targetRows hlen, List.Perm.length_eq h]

theorem nonempty {sd : List Int} {X : List α} (hX : X ≠ []) (hlen : sd.length = X.length) (h : NoShift sd X) : 0 < nSource sd ∧ 0 < nTarget sd := by
  have h1 := counts hlen h
  have h2 : nSource sd + nTarget sd = sd.length := by
    unfold nSource nTarget
    clear h h1 hlen
    induction sd with
    | nil => rfl
    | cons d sd ih => by_cases hd : 0 ≤ d <;> simp [List.countP_cons, hd, not_lt.2] <;> grind
  have h3 : 0 < sd.length := by rw [hlen]; exact List.length_pos_iff.2 hX
  omega

theorem rows_unit {sd : List Int} {X : List α} (hlen : sd.length = X.length) (g : α → K) (hg : ∀ x ∈ sourceRows sd X, g x = 1) :
    List.zipWith (fun d x => if 0 ≤ d then some (g x) else some 0) sd X = unitWeights sd := by
  induction sd generalizing X with
  | nil => rfl
  | cons d sd ih =>
    cases X with
    | nil => cases hlen
    | cons x X =>
      simp only [List.length_cons, Nat.add_right_cancel_iff] at hlen
      have hg' : ∀ x ∈ sourceRows sd X, g x = 1 := by
        intro z hz
        apply hg
        by_cases hd : 0 ≤ d <;> simp [sourceRows, hd] at hz ⊢ <;> tauto
      have := ih hlen hg'
      simp only [List.zipWith_cons_cons, this, unitWeights, List.map_cons]
      by_cases hd : 0 ≤ d
      · rw [if_pos hd, if_pos hd, hg x (by simp [sourceRows, hd])]
      · rw [if_neg hd, if_neg hd]

theorem mean_const {l : List α} (hl : l ≠ []) (g : α → K) (c : K) (hg : ∀ x ∈ l, g x = c) : mean (l.map g) = c := by
  have : l.map g = List.replicate l.length c := by
    rw [List.map_congr_left hg, List.map_const']
  have hn : (l.length : K) ≠ 0 := by exact_mod_cast (List.length_pos_iff.2 hl).ne'
  rw [this, RW.mean]
  simp [hn]

end NoShift

section Reweighting
open RW
variable {K : Type} [Field K] [LinearOrder K] [IsStrictOrderedRing K] {α : Type}

/-- C141 (density ratios). Without shift `DensityReweight` with any density estimator that does not look at the order of its samples gives
every source sample the weight one and every target sample the weight zero. -/
theorem C141_density (kde : List α → α → K) (hk : OrderBlind kde) (exp : K → K) (h0 : exp 0 = 1) (X : List α) (sd : List Int) (hX : X ≠ [])
    (hlen : sd.length = X.length) (hn : NoShift sd X) :
    fitTransform (densityFit kde) (densityWeights exp) X (.vec sd) = .ok (X, unitWeights sd) := by
  obtain ⟨hs, ht⟩ := NoShift.nonempty hX hlen hn
  have hsd := sd_ne hX hlen
  have hfit : densityFit kde X (.vec sd) = .ok (kde (sourceRows sd X), kde (targetRows sd X)) := by
    simp [densityFit, check_ok hX hlen, bind, Except.bind, splitX_ok hsd hlen, sourceRows_ne hlen hs, targetRows_ne hlen ht, pure, Except.pure]
  have hm : mean ((sourceRows sd X).map (fun x => exp (kde (targetRows sd X) x - kde (sourceRows sd X) x))) = 1 :=
    NoShift.mean_const (sourceRows_ne hlen hs) _ 1 (fun x _ => by rw [hk _ _ hn, sub_self, h0])
  have hw := densityWeights_eq exp (kde (sourceRows sd X)) (kde (targetRows sd X)) hX hlen hs
  simp only [hm, ne_eq, one_ne_zero, not_false_eq_true, if_true] at hw
  rw [NoShift.rows_unit hlen (fun x => exp (kde (targetRows sd X) x - kde (sourceRows sd X) x) / 1)
    (fun x _ => by rw [hk _ _ hn, sub_self, h0, div_one])] at hw
  simp only [fitTransform, hfit, bind, Except.bind, hw]
  rfl

/-- Two domains on each side, sources 1, 2 and targets 2, 1: the hypotheses hold and every source sample gets the weight one. -/
example : NoShift [1, -3, 4, -1] ([1, 2, 2, 1] : List ℚ) ∧
    fitTransform (densityFit (fun A x => A.sum - x)) (densityWeights (fun v : ℚ => v + 1)) [1, 2, 2, 1] (.vec [1, -3, 4, -1]) =
      .ok ([1, 2, 2, 1], [some 1, some 0, some 1, some 0]) ∧
    OrderBlind (fun (A : List ℚ) (x : ℚ) => A.sum - x) :=
  ⟨by decide +kernel, by decide +kernel, fun A B h => by funext x; simp only [h.sum_eq]⟩
/-- With a shift the weights differ. -/
example : ¬ NoShift [1, -3, 4, -1] ([1, 2, 2, 2] : List ℚ) ∧
    fitTransform (densityFit (fun A x => A.sum * x)) (densityWeights (fun v : ℚ => v + 1)) [1, 2, 2, 2] (.vec [1, -3, 4, -1]) =
      .ok ([1, 2, 2, 2], [some (4 / 5), some 0, some (6 / 5), some 0]) := by
  constructor <;> decide +kernel

/-- C141 (Gaussian density ratios). The same for `GaussianReweight` with densities that do not vanish at the source samples. -/
theorem C141_gaussian (pdf : List α → α → K) (hk : OrderBlind pdf) (X : List α) (sd : List Int) (hX : X ≠ []) (hlen : sd.length = X.length)
    (hn : NoShift sd X) (hp : ∀ x ∈ sourceRows sd X, pdf (sourceRows sd X) x ≠ 0) :
    gaussianFitWeights pdf X (.vec sd) X (.vec sd) = .ok (unitWeights sd) := by
  have hsd := sd_ne hX hlen
  have hmap : (sourceRows sd X).map (fun x => fdiv (pdf (targetRows sd X) x) (pdf (sourceRows sd X) x)) = (sourceRows sd X).map (fun _ => some (1 : K)) := by
    apply List.map_congr_left
    intro x hx
    rw [hk _ _ hn, fdiv, if_neg (hp x hx), div_self (hp x hx)]
  unfold gaussianFitWeights
  simp only [check_ok hX hlen, bind, Except.bind, splitX_ok hsd hlen, sourceIdx_ok hsd, take_sourceIdx hlen, hmap]
  rw [scatter_ok (fun _ => some (1 : K)) hlen, NoShift.rows_unit hlen (fun _ => 1) (fun _ _ => rfl)]

example : gaussianFitWeights (fun A x => A.sum + x) ([1, 2, 2, 1] : List ℚ) (.vec [1, -3, 4, -1]) [1, 2, 2, 1] (.vec [1, -3, 4, -1]) =
    .ok [some 1, some 0, some 1, some 0] := by decide +kernel

/-- C141 (domain classifier). If the domain classifier cannot tell the samples apart (one probability `p < 1` for all of them), every source
sample gets the weight one. -/
theorem C141_discriminator (clf : List α → List Int → α → K) (eps : K) (he : 0 < eps) (he1 : eps < 1) (X : List α) (sd : List Int) (hX : X ≠ [])
    (hlen : sd.length = X.length) (hn : NoShift sd X) (p : K) (hp : p < 1)
    (hclf : ∀ x ∈ sourceRows sd X, clf X (sd.map (fun d => if 0 ≤ d then 0 else 1)) x = p) :
    fitTransform (discriminatorFit clf) (discriminatorWeights eps) X (.vec sd) = .ok (X, unitWeights sd) := by
  obtain ⟨hs, -⟩ := NoShift.nonempty hX hlen hn
  have hfit := C31_discriminator_labels clf X sd hX hlen
  set q := clf X (sd.map (fun d => if 0 ≤ d then 0 else 1)) with hq
  have hcp : 0 < clip eps p := by
    unfold clip; exact lt_min (lt_max_of_lt_right he) one_pos
  have hcp1 : clip eps p < 1 := by
    unfold clip
    exact min_lt_of_left_lt (max_lt hp he1)
  have hc0 : (1 - clip eps p) / clip eps p ≠ 0 := (div_pos (sub_pos.2 hcp1) hcp).ne'
  have hm : mean ((sourceRows sd X).map (fun x => (1 - clip eps (q x)) / clip eps (q x))) = (1 - clip eps p) / clip eps p :=
    NoShift.mean_const (sourceRows_ne hlen hs) _ _ (fun x hx => by rw [hclf x hx])
  have hw := discriminatorWeights_eq eps q hX hlen hs (by rw [hm]; exact hc0)
  rw [hm] at hw
  simp only [fitTransform, hfit, bind, Except.bind]
  rw [hw, NoShift.rows_unit hlen (fun x => (1 - clip eps (q x)) / clip eps (q x) / ((1 - clip eps p) / clip eps p))
    (fun x hx => by rw [hclf x hx, div_self hc0])]
  rfl

example : fitTransform (discriminatorFit (fun _ _ _ => (1 / 3 : ℚ))) (discriminatorWeights (1 / 1000)) ([1, 2, 2, 1] : List ℚ) (.vec [1, -3, 4, -1]) =
    .ok ([1, 2, 2, 1], [some 1, some 0, some 1, some 0]) := by decide +kernel

/-- C141 (nearest neighbours). Source samples at the mirror images of the target samples (the layouts on which `NearestNeighborReweight`
counts target samples at all, see C32), no repetitions, and a search that finds a training sample itself: every source sample gets the
weight one (two with Laplace smoothing). -/
theorem C141_neighbours_partial [DecidableEq α] (knn : List α → α → Nat) (hknn : ∀ Xs x, Xs ≠ [] → knn Xs x < Xs.length)
    (hself : ∀ Xs x, x ∈ Xs → Xs[knn Xs x]? = some x) (laplace : Bool) (X : List α) (sd : List Int) (hX : X ≠ []) (hlen : sd.length = X.length)
    (hn : NoShift sd X) (hnd : (sourceRows sd X).Nodup)
    (hmir : sd.map (fun d => decide (0 ≤ d)) = (sd.map (fun d => decide (d < 0))).reverse) :
    ∃ w : List K, nnWeights knn laplace X (.vec sd) = .ok w ∧ w.length = X.length ∧
      sourceRows sd w = List.replicate (nSource sd) (if laplace then 2 else 1) := by
  obtain ⟨hs, -⟩ := NoShift.nonempty hX hlen hn
  obtain ⟨w, hw, hl, hsr⟩ := C32_counts_partial (K := K) knn laplace X sd hX hlen hs hknn hmir
  refine ⟨w, hw, hl, ?_⟩
  rw [hsr]
  refine List.eq_replicate_iff.2 ⟨by simp, ?_⟩
  intro v hv
  obtain ⟨i, hi, rfl⟩ := List.mem_map.1 hv
  have hi' : i < (sourceRows sd X).length := by rw [length_sourceRows hlen]; exact List.mem_range.1 hi
  have hcount : (targetRows sd X).countP (fun x => decide (knn (sourceRows sd X) x = i)) = 1 := by
    rw [hn.countP_eq]
    have : (sourceRows sd X).countP (fun x => decide (knn (sourceRows sd X) x = i)) = (sourceRows sd X).count (sourceRows sd X)[i] := by
      rw [List.count]
      apply List.countP_congr
      intro x hx
      have hk := hself _ _ hx
      have hlt := hknn _ x (List.ne_nil_of_mem hx)
      rw [List.getElem?_eq_getElem hlt] at hk
      simp only [decide_eq_true_eq, beq_iff_eq]
      constructor
      · rintro rfl; exact (Option.some.inj hk).symm
      · intro h
        apply (List.Nodup.getElem_inj_iff hnd (hi := hlt) (hj := hi')).1
        rw [← h]; exact Option.some.inj hk
    rw [this, List.count_eq_one_of_mem hnd (List.getElem_mem hi')]
  rw [hcount]
  cases laplace <;> norm_num

/-- A layout meeting the hypotheses. -/
example : NoShift [1, 1, -1, -1] ([0, 10, 10, 0] : List ℚ) ∧
    ([1, 1, -1, -1] : List Int).map (fun d => decide (0 ≤ d)) = (([1, 1, -1, -1] : List Int).map (fun d => decide (d < 0))).reverse ∧
    nnWeights (K := ℚ) (fun Xs x => if x ∈ Xs then Xs.idxOf x else 0) true ([0, 10, 10, 0] : List ℚ) (.vec [1, 1, -1, -1]) = .ok [2, 2, 1, 1] := by
  refine ⟨?_, ?_, ?_⟩ <;> decide +kernel

/-- C141 fails for nearest neighbours on other layouts: here the targets 0, 20, 10 are the sources 0, 10, 20, there is no shift, and still the
source samples get the weights 0, 2 and 1. (`X[~source_idx]` does not select the target samples, C32.) -/
theorem C141_neighbours_counterexample :
    ∃ (knn : List ℚ → ℚ → Nat) (X : List ℚ) (sd : List Int) (w : List ℚ), (∀ Xs x, Xs ≠ [] → knn Xs x < Xs.length) ∧
      (∀ Xs x, x ∈ Xs → Xs[knn Xs x]? = some x) ∧ sd.length = X.length ∧ NoShift sd X ∧ (sourceRows sd X).Nodup ∧
      nnWeights knn false X (.vec sd) = .ok w ∧ sourceRows sd w = [0, 2, 1] := by
  refine ⟨fun Xs x => if x ∈ Xs then Xs.idxOf x else 0, [0, 0, 10, 20, 20, 10], [1, -1, 1, 1, -1, -1], [0, 1, 2, 1, 1, 1], ?_, ?_, rfl,
    by decide +kernel, by decide +kernel, by decide +kernel, by decide +kernel⟩
  · intro Xs x h
    dsimp only
    split_ifs with hx
    · exact List.idxOf_lt_length_iff.2 hx
    · exact List.length_pos_iff.2 h
  · intro Xs x hx
    dsimp only
    rw [if_pos hx, List.getElem?_eq_getElem (List.idxOf_lt_length_iff.2 hx), List.getElem_idxOf]

end Reweighting

section Kmm
open RW QP FW
variable {K : Type} [Field K] [LinearOrder K] [IsStrictOrderedRing K] {α : Type}

/-- Equal weights on a sample have distance zero to the sample itself, listed in any order. -/
theorem NoShift.mmdSq_ones (k : α → α → K) {S T : List α} (h : T.Perm S) : mmdSq k ((List.replicate S.length 1).zip S) T = 0 := by
  have hz : (List.replicate S.length (1 : K)).zip S = S.map (fun t => (1, t)) := by
    clear h
    induction S with
    | nil => rfl
    | cons x S ih => simp [List.replicate_succ, ih]
  have hp : ∀ A B A' B' : List α, A.Perm A' → B.Perm B' → pairSum k (A.map (fun t => ((1 : K), t))) (B.map (fun t => (1, t))) =
      pairSum k (A'.map (fun t => (1, t))) (B'.map (fun t => (1, t))) := by
    intro A B A' B' hA hB
    unfold pairSum
    rw [((hA.map _).map _).sum_eq]
    congr 1
    apply List.map_congr_left
    intro p _
    rw [((hB.map _).map _).sum_eq]
  rw [hz, mmdSq, hp S T S S (List.Perm.refl _) h, hp T T S S h h, h.length_eq]
  simp only [List.length_map]
  ring

/-- Against the sample itself the squared distance is the quadratic form of the kernel in `weights - 1`. -/
theorem NoShift.mmdSq_self (k : α → α → K) (hsym : ∀ x y, k x y = k y x) {S T : List α} (h : T.Perm S) (x : Fin S.length → K) :
    mmdSq k ((List.ofFn x).zip S) T = pairSum k ((List.ofFn (fun i => x i - 1)).zip S) ((List.ofFn (fun i => x i - 1)).zip S) / (S.length : K) ^ 2 := by
  have hT : ∀ f : α → K, (T.map f).sum = ∑ j : Fin S.length, f S[j] := by
    intro f
    rw [(h.map f).sum_eq, ← List.sum_ofFn]
    congr 1
    apply List.ext_getElem <;> simp
  have hTT : pairSum k (T.map (fun t => ((1 : K), t))) (T.map (fun t => (1, t))) = ∑ i : Fin S.length, ∑ j : Fin S.length, k S[i] S[j] := by
    simp only [pairSum, List.map_map, Function.comp_def, one_mul, hT]
  unfold mmdSq
  rw [hTT, zip_ofFn, pairSum_ofFn, pairSum_ofFn_left, zip_ofFn, pairSum_ofFn]
  simp only [List.length_ofFn, hT, h.length_eq]
  have e1 : ∑ i : Fin S.length, ∑ j : Fin S.length, (x i - 1) * (x j - 1) * k S[i] S[j] =
      ∑ i : Fin S.length, ∑ j : Fin S.length, x i * x j * k S[i] S[j] - 2 * ∑ i : Fin S.length, x i * ∑ j : Fin S.length, k S[i] S[j]
      + ∑ i : Fin S.length, ∑ j : Fin S.length, k S[i] S[j] := by
    have e2 : ∑ i : Fin S.length, ∑ j : Fin S.length, x j * k S[i] S[j] = ∑ i : Fin S.length, x i * ∑ j : Fin S.length, k S[i] S[j] := by
      rw [Finset.sum_comm]
      refine Finset.sum_congr rfl fun i _ => ?_
      rw [Finset.mul_sum]
      exact Finset.sum_congr rfl fun j _ => by rw [hsym]
    have e3 : ∑ i : Fin S.length, x i * ∑ j : Fin S.length, k S[i] S[j] = ∑ i : Fin S.length, ∑ j : Fin S.length, x i * k S[i] S[j] :=
      Finset.sum_congr rfl fun i _ => by rw [Finset.mul_sum]
    rw [two_mul]
    nth_rewrite 1 [← e2]
    rw [e3]
    simp only [← Finset.sum_add_distrib, ← Finset.sum_sub_distrib]
    exact Finset.sum_congr rfl fun i _ => Finset.sum_congr rfl fun j _ => by ring
  rw [e1]
  ring

/-- C141 (kernel mean matching). Without shift, for every solver of accuracy `ε` that announces success, the weighted source mean found by
`KMMReweight` is as near to the target mean as `2 ε / n²` (squared kernel distance); with an exact solver, a strictly positive definite kernel
and distinct samples every source sample gets the weight one. -/
theorem C141_kmm [DecidableEq α] (ε δ : K) (minimize : ∀ n, Call K n → Py (Result K n)) (hm : ∀ n, SolverOk ε δ (minimize n))
    (k : α → α → K) (hsym : ∀ x y, k x y = k y x) (hpsd : ∀ l : List (K × α), 0 ≤ pairSum k l l) (sqrt : K → K) (eps : Option K) (B tol : K)
    (hB : 1 ≤ B) (maxIter : Nat) (X : List α) (sd : List Int) (hX : X ≠ []) (hlen : sd.length = X.length) (hn : NoShift sd X)
    (e : K) (he : e = eps.elim ((sqrt (nSource sd) - 1) / sqrt (nSource sd)) id) (he0 : 0 ≤ e)
    (w : List (Option K)) (hw : kmmFitTransform minimize k sqrt eps B tol "scipy" maxIter false X (.vec sd) = .ok (w, [])) :
    ∃ v : List K, targetRows sd w = List.replicate (nTarget sd) (some 0) ∧ sourceRows sd w = v.map some ∧ v.length = nSource sd ∧
      mmdSq k (v.zip (sourceRows sd X)) (targetRows sd X) ≤ 2 * ε / (nSource sd : K) ^ 2 ∧
      (ε = 0 → (sourceRows sd X).Nodup → (∀ l : List (K × α), (l.map Prod.snd).Nodup → pairSum k l l = 0 → ∀ p ∈ l, p.1 = 0) →
        v = List.replicate (nSource sd) 1) := by
  obtain ⟨hs, ht⟩ := NoShift.nonempty hX hlen hn
  obtain ⟨v, -, h2, h3, h4, -, -, -, hopt⟩ := C126_scipy ε δ minimize hm k hsym hpsd sqrt eps B tol maxIter X sd hlen hs ht e he w hw
  have hns : (0 : K) < (nSource sd : K) := by exact_mod_cast hs
  have hone := hopt (List.replicate (nSource sd) 1) (by simp) (by simp [List.mem_replicate]; intro _; exact hB)
    (by simp; nlinarith) (by simp; nlinarith)
  have hl := length_sourceRows (a := X) hlen
  rw [← hl, NoShift.mmdSq_ones k hn, zero_add, hl] at hone
  refine ⟨v, h2, h3, h4, hone, ?_⟩
  rintro rfl hnd hpd
  rw [← hl] at h4
  obtain ⟨x, rfl⟩ := list_ofFn_self v h4
  rw [NoShift.mmdSq_self k hsym hn] at hone
  have hz : pairSum k ((List.ofFn (fun i => x i - 1)).zip (sourceRows sd X)) ((List.ofFn (fun i => x i - 1)).zip (sourceRows sd X)) = 0 := by
    apply le_antisymm _ (hpsd _)
    have : (0 : K) < ((sourceRows sd X).length : K) ^ 2 := by
      have : (0 : K) < ((sourceRows sd X).length : K) := by rw [hl]; exact hns
      positivity
    rw [mul_zero, zero_div] at hone
    by_contra hc
    exact absurd hone (not_le.2 (div_pos (not_le.1 hc) this))
  have hall := hpd _ (by rw [List.map_snd_zip (by simp)]; exact hnd) hz
  rw [← hl]
  refine List.eq_replicate_iff.2 ⟨by simp, ?_⟩
  intro b hb
  obtain ⟨i, rfl⟩ := (List.mem_ofFn' _ _).1 hb
  have : (x i - 1, (sourceRows sd X)[i]) ∈ (List.ofFn (fun i => x i - 1)).zip (sourceRows sd X) := by
    rw [zip_ofFn]
    exact (List.mem_ofFn' _ _).2 ⟨i, rfl⟩
  exact sub_eq_zero.1 (hall _ this)

/-- A solver meeting the contract and data without shift on which it succeeds: source rows 1, 2, target rows 2, 1, linear kernel, `B = 1`. -/
example : NoShift [1, 2, -1, -1] ([1, 2, 2, 1] : List ℚ) ∧ (∀ n, SolverOk 0 0 (oracle (fun _ : Fin n => (1 : ℚ)))) ∧
    kmmFitTransform (fun n => oracle (fun _ : Fin n => (1 : ℚ))) (fun x y : ℚ => x * y) id (some (1 / 2)) 1 (1 / 1000000) "scipy" 1000 false
      [1, 2, 2, 1] (.vec [1, 2, -1, -1]) = .ok ([some 1, some 1, some 0, some 0], []) := by
  refine ⟨by decide +kernel, fun n => oracle_ok _, ?_⟩
  have hopt : kmmOptimizeAll (fun n => oracle (fun _ : Fin n => (1 : ℚ))) (fun x y : ℚ => x * y) id (some (1 / 2)) 1 (1 / 1000000) "scipy" 1000
      [1, 2] [2, 1] = .ok ([1, 1], []) := by
    have hkap : (fun i : Fin 2 => -(((2 : Nat) : ℚ) * RW.mean (([2, 1] : List ℚ).map (fun t => ([1, 2] : List ℚ)[i] * t)))) = ![-3, -6] := by
      funext i
      fin_cases i <;> norm_num [RW.mean]
    have hker : (fun i j : Fin 2 => ([1, 2] : List ℚ)[i] * ([1, 2] : List ℚ)[j]) = ![![1, 2], ![2, 4]] := by
      funext i j
      fin_cases i <;> fin_cases j <;> norm_num
    have hf := fun x => feasible_iff (0 : ℚ) ![![1, 2], ![2, 4]] (some ![-3, -6]) (some [fun _ : Fin 2 => 1, fun _ => -1])
      (some [((2 : Nat) : ℚ) * (1 + 1 / 2), -(((2 : Nat) : ℚ) * (1 - 1 / 2))]) none none (some (List.replicate 2 0)) (some (List.replicate 2 1)) none
      (1 / 1000000) 1000 false (by simp) (by simp) (by simp) (by simp) x
    have hor : oracle (fun _ : Fin 2 => (1 : ℚ)) (theCall ![![1, 2], ![2, 4]] (some ![-3, -6]) (some [fun _ : Fin 2 => 1, fun _ => -1])
      (some [((2 : Nat) : ℚ) * (1 + 1 / 2), -(((2 : Nat) : ℚ) * (1 - 1 / 2))]) none none (some (List.replicate 2 0)) (some (List.replicate 2 1)) none
      (1 / 1000000) 1000 false) = .ok ⟨fun _ => 1, qpFunc ![![1, 2], ![2, 4]] (some ![-3, -6]) (fun _ => 1), true, ""⟩ := by
      unfold oracle
      rw [if_pos]
      · rfl
      · refine ⟨(hf _).2 ((kmm_feasible_iff _ _ _ _ _).2 ⟨by norm_num, by norm_num, by norm_num⟩), fun z hz => ?_⟩
        have := ((kmm_feasible_iff _ _ _ _ _).1 ((hf z).1 hz)).1
        have h0 := this 0
        have h1 := this 1
        simp [theCall, qpJac, matVec, Fin.sum_univ_two] at h0 h1 ⊢
        linarith
    rw [kmmOptimizeAll_eq _ _ _ _ _ _ _ _ _ _ (by simp) (by simp)]
    change (qpSolveAll (oracle (fun _ : Fin 2 => (1 : ℚ))) "scipy" (fun i j : Fin 2 => ([1, 2] : List ℚ)[i] * ([1, 2] : List ℚ)[j])
      (some (fun i : Fin 2 => -(((2 : Nat) : ℚ) * RW.mean (([2, 1] : List ℚ).map (fun t => ([1, 2] : List ℚ)[i] * t)))))
      (some [fun _ : Fin 2 => 1, fun _ => -1])
      (some [((2 : Nat) : ℚ) * (1 + 1 / 2), -(((2 : Nat) : ℚ) * (1 - 1 / 2))]) none none (some (List.replicate 2 0)) (some (List.replicate 2 1)) none
      (1 / 1000000) 1000 false false).map _ = _
    rw [hkap, hker]
    unfold qpSolveAll qpScipy
    rw [if_pos rfl]
    change (oracle (fun _ : Fin 2 => (1 : ℚ)) (theCall ![![1, 2], ![2, 4]] (some ![-3, -6]) (some [fun _ : Fin 2 => 1, fun _ => -1])
      (some [((2 : Nat) : ℚ) * (1 + 1 / 2), -(((2 : Nat) : ℚ) * (1 - 1 / 2))]) none none (some (List.replicate 2 0)) (some (List.replicate 2 1)) none
      (1 / 1000000) 1000 false) >>= _).map _ = _
    rw [hor]; rfl
  have hchk : checkXDomain ([1, 2, 2, 1] : List ℚ) (.vec [1, 2, -1, -1]) { allowMultiSource := true, allowMultiTarget := true }
      = .ok ([1, 2, 2, 1], [1, 2, -1, -1]) := by decide +kernel
  have hsplit : splitX ([1, 2, 2, 1] : List ℚ) [1, 2, -1, -1] = .ok ([1, 2], [2, 1]) := by decide +kernel
  simp only [kmmFitTransform, kmmFitAll, hchk, bind, Except.bind, hsplit, hopt]
  decide +kernel

/-- A strictly positive definite kernel: one for equal samples, zero for different ones. -/
example : pairSum (fun x y : ℚ => if x = y then (1 : ℚ) else 0) [(2, 1), (-1, 5)] [(2, 1), (-1, 5)] = 5 := by decide +kernel

/-- C141 (kernel mean matching, Frank-Wolfe). With `solver='frank-wolfe'` the squared kernel distance is at most of the order of one over the
number of iterations. -/
theorem C141_kmm_frank_wolfe [DecidableEq α] (minimize : ∀ n, Call K n → Py (Result K n)) (k : α → α → K) (hsym : ∀ x y, k x y = k y x)
    (hpsd : ∀ l : List (K × α), 0 ≤ pairSum k l l) (sqrt : K → K) (eps : Option K) (B tol : K) (T : Nat) (hT : 0 < T) (X : List α) (sd : List Int)
    (hX : X ≠ []) (hlen : sd.length = X.length) (hn : NoShift sd X) (e : K)
    (he : e = eps.elim ((sqrt (nSource sd) - 1) / sqrt (nSource sd)) id) (he0 : 0 ≤ e) (he1 : e ≤ 1) :
    ∃ (w : List (Option K)) (v : List K), kmmFitTransform minimize k sqrt eps B tol "frank-wolfe" T false X (.vec sd) = .ok (w, []) ∧
      sourceRows sd w = v.map some ∧ v.length = nSource sd ∧
      mmdSq k (v.zip (sourceRows sd X)) (targetRows sd X) ≤
        4 * (1 + e) ^ 2 * ((sourceRows sd X).map (fun x => ((sourceRows sd X).map (fun y => |k x y|)).sum)).sum / ((T : K) + 1) := by
  obtain ⟨hs, ht⟩ := NoShift.nonempty hX hlen hn
  obtain ⟨w, v, h1, -, -, h3, h4, -, -, -, hopt⟩ := C126_frank_wolfe minimize k hsym hpsd sqrt eps B tol T hT X sd hlen hs ht e he he0 he1
  have hns : (0 : K) < (nSource sd : K) := by exact_mod_cast hs
  have hone := hopt (List.replicate (nSource sd) 1) (by simp) (by simp [List.mem_replicate]) (by simp; nlinarith) (by simp; nlinarith)
  rw [← length_sourceRows (a := X) hlen, NoShift.mmdSq_ones k hn, zero_add] at hone
  exact ⟨w, v, h1, h3, h4, hone⟩

end Kmm

section Mapped
open Map
variable {K : Type} [Field K] [LinearOrder K] [IsStrictOrderedRing K] {d p : Nat}

theorem NoShift.colMean_perm : OrderBlind (colMean (K := K) (d := d)) := by
  intro A B h
  funext j
  simp only [colMean, (h.map _).sum_eq, h.length_eq]

theorem NoShift.empCov_perm (ac : Bool) : OrderBlind (empCov (K := K) (d := d) ac) := by
  intro A B h
  unfold empCov
  rw [NoShift.colMean_perm A B h]
  ext i j
  simp only [Matrix.of_apply, (h.map _).sum_eq, h.length_eq]

theorem NoShift.estimateCov_perm (auto : List (Fin d → K) → Matrix (Fin d) (Fin d) K) (ha : OrderBlind auto) (reg : Option (Option K)) (ac : Bool) :
    OrderBlind (estimateCov auto reg ac) := by
  intro A B h
  unfold estimateCov
  rcases reg with - | (- | s)
  · exact NoShift.empCov_perm ac A B h
  · exact ha A B h
  · simp only [NoShift.empCov_perm ac A B h]

/-- C141 (CORAL). Without shift and with a positive definite covariance, CORAL only subtracts the common mean from every sample, source or
target; with `assume_centered=True` it returns the samples as they are. -/
theorem C141_coral (sqrt : K → K) (eigh : Matrix (Fin d) (Fin d) K → (Fin d → K) × Matrix (Fin d) (Fin d) K)
    (auto : List (Fin d → K) → Matrix (Fin d) (Fin d) K) (ha : OrderBlind auto) (reg : Option (Option K)) (ac : Bool) (X : NArr (Fin d → K))
    (sd : List Int) (hX : X.rows ≠ []) (hlen : sd.length = X.rows.length) (hn : NoShift sd X.rows)
    (hes : Spec.EighOf true sqrt eigh (estimateCov auto reg ac (sourceRows sd X.rows))) :
    ∃ out, coralFitTransform (estimateCov auto reg ac) (sqrtm sqrt eigh) (invsqrtm sqrt eigh) ac X (.vec sd) = .ok out ∧
      out.rows = X.rows.map (fun x => if ac then x else x - colMean (sourceRows sd X.rows)) := by
  obtain ⟨hs, ht⟩ := NoShift.nonempty hX hlen hn
  obtain ⟨out, ho, hl, hrow⟩ := C64_rows (estimateCov auto reg ac) (sqrtm sqrt eigh) (invsqrtm sqrt eigh) ac X sd hlen hs ht
  refine ⟨out, ho, ?_⟩
  rw [NoShift.estimateCov_perm auto ha reg ac _ _ hn, NoShift.colMean_perm _ _ hn] at hrow
  generalize hC : estimateCov auto reg ac (sourceRows sd X.rows) = C at *
  have hinv : invsqrtm sqrt eigh C * sqrtm sqrt eigh C = 1 := by
    obtain ⟨h1, h2, -, h4, h5⟩ := hes
    rw [invsqrtm_eq, sqrtm_eq, mul_conj _ h2]
    have : (fun i => 1 / sqrt ((eigh C).1 i) * sqrt ((eigh C).1 i)) = fun _ => (1 : K) := by
      funext i
      have hp : 0 < (eigh C).1 i := by simpa using h4 i
      have hne : sqrt ((eigh C).1 i) ≠ 0 := by
        intro e0; have := h5 i; rw [e0] at this; simp at this; exact hp.ne this
      field_simp
    rw [this, Matrix.diagonal_one, Matrix.mul_one, h1]
  apply List.ext_getElem?
  intro i
  rw [List.getElem?_map]
  rcases lt_or_ge i X.rows.length with hi | hi
  · obtain ⟨x, hx⟩ : ∃ x, X.rows[i]? = some x := ⟨_, List.getElem?_eq_getElem hi⟩
    obtain ⟨l, hl'⟩ : ∃ l, sd[i]? = some l := ⟨_, List.getElem?_eq_getElem (hlen ▸ hi)⟩
    rw [hrow i l x hl' hx, hx]
    simp only [Matrix.vecMul_vecMul, hinv, Matrix.vecMul_one, Option.map_some]
    cases ac <;> simp
  · rw [List.getElem?_eq_none (hl ▸ hi), List.getElem?_eq_none hi]; rfl

/-- One feature, sources 0, 2 and targets 2, 0: variance one, the mean 1 is subtracted. -/
example : (coralFitTransform (K := ℚ) (d := 1) (estimateCov (fun _ => 0) none false) (sqrtm id (fun C => (fun _ => C 0 0, 1)))
      (invsqrtm id (fun C => (fun _ => C 0 0, 1))) false ⟨.float, [1], [fun _ => 0, fun _ => 2, fun _ => 0, fun _ => 2]⟩
      (.vec [1, -1, -1, 3])).map (fun out => out.rows.map (fun r => r 0)) = .ok [-1, 1, -1, 1] ∧
    Spec.EighOf (K := ℚ) (d := 1) true id (fun C => (fun _ => C 0 0, 1)) (estimateCov (fun _ => 0) none false [fun _ => 0, fun _ => 2]) := by
  refine ⟨by decide +kernel, by simp, by simp, ?_, ?_, ?_⟩
  · ext i j; fin_cases i; fin_cases j; simp
  · intro i; simp [estimateCov, empCov, colMean]; norm_num
  · intro i; simp [estimateCov, empCov, colMean]; norm_num

/-- C141 (subspace alignment). Without shift, for a PCA that does not look at the order of its samples and has orthonormal components, source
and target samples are both just projected on the common principal components. -/
theorem C141_subspace_alignment (pca : List (Fin d → K) → Subsp.Pca K d p) (hp : OrderBlind pca) (X : NArr (Fin d → K)) (sd : List Int)
    (hX : X.rows ≠ []) (hlen : sd.length = X.rows.length) (hn : NoShift sd X.rows)
    (ho : (pca (sourceRows sd X.rows)).comps * (pca (sourceRows sd X.rows)).comps.transpose = 1) :
    ∃ out, Subsp.saTransform (pca (sourceRows sd X.rows)) (pca (targetRows sd X.rows)) X (.vec sd) true = .ok out ∧
      out.rows = X.rows.map (fun x => Matrix.vecMul (x - (pca (sourceRows sd X.rows)).mean) (pca (sourceRows sd X.rows)).comps.transpose) := by
  obtain ⟨out, h1, hl, hrow⟩ := C35_subspace_alignment_rows (pca (sourceRows sd X.rows)) (pca (targetRows sd X.rows)) X sd hX hlen
  refine ⟨out, h1, ?_⟩
  rw [hp _ _ hn] at hrow
  apply List.ext_getElem?
  intro i
  rw [List.getElem?_map]
  rcases lt_or_ge i X.rows.length with hi | hi
  · obtain ⟨x, hx⟩ : ∃ x, X.rows[i]? = some x := ⟨_, List.getElem?_eq_getElem hi⟩
    obtain ⟨l, hl'⟩ : ∃ l, sd[i]? = some l := ⟨_, List.getElem?_eq_getElem (hlen ▸ hi)⟩
    rw [hrow i l x hl' hx, hx, ho]
    simp
  · rw [List.getElem?_eq_none (hl ▸ hi), List.getElem?_eq_none hi]; rfl

/-- One feature, the PCA subtracts the mean. -/
example : OrderBlind (fun A : List (Fin 1 → ℚ) => (⟨colMean A, 1⟩ : Subsp.Pca ℚ 1 1)) ∧
    (Subsp.saTransform (K := ℚ) (d := 1) (p := 1) ⟨fun _ => 3, 1⟩ ⟨fun _ => 3, 1⟩ ⟨.float, [1], [fun _ => 2, fun _ => 4, fun _ => 4, fun _ => 2]⟩
      (.vec [-2, 1, -2, 1]) true).map (fun o => o.rows.map (fun r => r 0)) = .ok [-1, 1, 1, -1] :=
  ⟨fun A B h => by simp only [NoShift.colMean_perm A B h], by decide +kernel⟩

end Mapped

section Scores
variable {K : Type} [Field K] [LinearOrder K] [IsStrictOrderedRing K] {α L : Type}

/-- C141 (importance weighted score). Without shift the wrapped scorer is called on the source samples with equal weights. -/
theorem C141_importance_weighted (gib : Bool) (fit : List α → Py (α → L)) (hfit : OrderBlind fit) (ratio : L → L → K) (h0 : ∀ t s, 0 ≤ ratio t s)
    (h1 : ∀ s, ratio s s = 1) (scorer : List α → List Num → List Int → List K → Py K) (X : List α) (y : List Num) (sd : List Int) (hX : X ≠ [])
    (hy : y.length = X.length) (hs : sd.length = X.length) (hn : NoShift sd X) (fs : α → L) (hfs : fit (sourceRows sd X) = .ok fs) :
    Score.importanceWeighted gib true fit ratio scorer X y (.vec sd) =
      (scorer (sourceRows sd X) (sourceRows sd y) (sd.filter (fun d => decide (0 ≤ d)))
        (List.replicate (nSource sd) (1 / (nSource sd : K)))).map (fun s => if gib then s else -s) := by
  obtain ⟨hns, -⟩ := NoShift.nonempty hX hs hn
  have hl := length_sourceRows (a := X) hs
  have hne : sourceRows sd X ≠ [] := by rw [← List.length_pos_iff, hl]; exact hns
  obtain ⟨w, hw, -, htot, hlen, hnorm, -⟩ := C48_weights gib fit ratio h0 scorer X y sd hX hy hs fs fs hfs (by rw [hfit _ _ hn]; exact hfs) hne
  have hr : (sourceRows sd X).map (fun x => ratio (fs x) (fs x)) = List.replicate (nSource sd) 1 := by
    simp only [h1, List.map_const', hl]
  have hnK : (nSource sd : K) ≠ 0 := by exact_mod_cast hns.ne'
  rw [hr] at hnorm
  have hN := hnorm (by simp [hns.ne'])
  rw [hl] at hlen
  have hall : ∀ i j : Nat, ∀ a b : K, w[i]? = some a → w[j]? = some b → a = b := by
    intro i j a b hi hj
    have hi' : i < nSource sd := by rw [← hlen]; exact (List.getElem?_eq_some_iff.1 hi).1
    have hj' : j < nSource sd := by rw [← hlen]; exact (List.getElem?_eq_some_iff.1 hj).1
    have := hN.proportional i j a b 1 1 hi hj (by simp [hi']) (by simp [hj'])
    simpa using this
  have hw' : w = List.replicate (nSource sd) (1 / (nSource sd : K)) := by
    obtain ⟨c, hc⟩ : ∃ c, w = List.replicate (nSource sd) c := by
      rcases w with - | ⟨c, w'⟩
      · simp at hlen; omega
      · refine ⟨c, List.eq_replicate_iff.2 ⟨hlen, ?_⟩⟩
        intro b hb
        obtain ⟨j, hj⟩ := List.mem_iff_getElem?.1 hb
        exact hall j 0 b c hj rfl
    rw [hc] at htot ⊢
    simp at htot
    have : c = 1 / (nSource sd : K) := eq_div_of_mul_eq hnK (by rw [mul_comm]; exact htot)
    rw [this]
  rw [hw, hw']

example : Score.importanceWeighted true true (fun l => .ok (fun x : ℚ => x + l.sum)) (fun t s => max 0 (t - s + 1))
    (fun X y sd w => .ok (((List.zipWith (· * ·) X w).sum : ℚ) + 10 * (y.length : ℚ) + 100 * (sd.sum : ℚ))) [10, 20, 20, 10]
    [.fin 0, .fin (-1), .fin 1, .fin (-1)] (.vec [1, -2, 4, -2]) = .ok (535 : ℚ) := by decide +kernel

/-- C141 (deep embedded validation). If the domain classifier answers the shares of the two sides for every validation sample, all ratios are
one and the score is the mean validation loss, without correction, both for a column of losses and for a one-dimensional array of losses. -/
theorem C141_dev (gib : Bool) (nTrain nTarget : Nat) (h1 : 0 < nTrain) (h2 : 0 < nTarget) (e : List K) (he : 2 ≤ e.length)
    (losses : Score.Losses K) (hlo : losses = .column e ∨ losses = .flat e) :
    Score.devScore gib (Score.devWeights nTrain nTarget (List.replicate e.length ((nTarget : K) / (nTrain + nTarget)))
        (List.replicate e.length ((nTrain : K) / (nTrain + nTarget)))) losses =
      .ok (some ((fun s => if gib then s else -s) (e.sum / (e.length : K)))) := by
  have hw : Score.devWeights nTrain nTarget (List.replicate e.length ((nTarget : K) / (nTrain + nTarget)))
        (List.replicate e.length ((nTrain : K) / (nTrain + nTarget))) = List.replicate e.length 1 := by
    have a1 : (nTrain : K) ≠ 0 := by exact_mod_cast h1.ne'
    have a2 : (nTarget : K) ≠ 0 := by exact_mod_cast h2.ne'
    have a3 : (nTrain : K) + nTarget ≠ 0 := by exact_mod_cast (by omega : nTrain + nTarget ≠ 0)
    simp only [Score.devWeights, List.zipWith_replicate, min_self]
    congr 1
    field_simp
  have hz : List.zipWith (· * ·) (List.replicate e.length (1 : K)) e = e := by
    clear he hw hlo
    induction e with
    | nil => rfl
    | cons v l ih => simp [List.replicate_succ, ih]
  have hc : Score.cov (List.replicate e.length (1 : K)) (List.replicate e.length 1) = 0 := by
    have hn : (e.length : K) ≠ 0 := by exact_mod_cast (by omega : e.length ≠ 0)
    simp [Score.cov, Score.mean, hn]
  rw [hw]
  rcases hlo with rfl | rfl
  · simp only [Score.devScore, Score.weightedColumns, Score.Losses.len, List.length_replicate, hz, hc]
    rw [if_neg (by simp)]
    simp only [List.cons_append, List.nil_append, if_neg (by omega : ¬ e.length < 2), if_true, List.flatten_cons, List.flatten_nil, List.append_nil]
    cases gib <;> simp [Score.signed, Score.mean]
  · have hn : (e.length : K) ≠ 0 := by exact_mod_cast (by omega : e.length ≠ 0)
    have hsum : ∀ (n : Nat) (l : List K), ((l.map (fun v => List.replicate n v)).flatten).sum = n * l.sum := by
      intro n l
      induction l with
      | nil => simp
      | cons v l ih => simp only [List.map_cons, List.flatten_cons, List.sum_append, List.sum_replicate, ih, List.sum_cons, nsmul_eq_mul]; ring
    have hlen : ((e.map (fun v => List.replicate e.length v)).flatten).length = e.length * e.length := by
      simp [List.length_flatten, Function.comp_def]
    have hmean : Score.mean ((e.map (fun v => List.replicate e.length v)).flatten) = e.sum / (e.length : K) := by
      unfold Score.mean
      rw [hsum, hlen]
      push_cast
      field_simp
    simp only [Score.devScore, Score.weightedColumns, Score.Losses.len, List.length_replicate, List.map_replicate, one_mul, hc]
    rw [if_neg (by simp)]
    rcases e with - | ⟨v, - | ⟨v', e⟩⟩
    · simp at he
    · simp at he
    · simp only [List.map_cons, List.cons_append] at hmean ⊢
      rw [if_neg (by simp), hmean]
      simp only [if_true, zero_mul, add_zero, sub_zero, Score.signed]
      cases gib <;> simp only [Bool.false_eq_true, if_false, if_true, one_mul, neg_one_mul]

example : Score.devScore true (Score.devWeights 6 3 [1 / 3, 1 / 3] [2 / 3, 2 / 3]) (.column [1, 4]) = .ok (some (5 / 2 : ℚ)) ∧
    Score.devScore false (Score.devWeights 6 3 [1 / 3, 1 / 3] [2 / 3, 2 / 3]) (.flat [1, 4]) = .ok (some (-5 / 2 : ℚ)) := by
  constructor <;> decide +kernel

end Scores

section DeepLoss
variable {d : Nat}

/-- C141 (deep losses). On a batch whose target features are the source features in some order the CORAL loss and the MMD loss of DAN are
zero. -/
theorem C141_deep (ac : Bool) (pow2 : Nat → ℝ) (eps : ℝ) (sg : List ℝ) (hsg : ∀ s ∈ sg, 0 < s) (hne : sg ≠ []) (hd : 0 < d) (Xs Xt : List (Fin d → ℝ))
    (h : Xt.Perm Xs) (h2 : 2 ≤ Xs.length) :
    DL.deepcoral ac Xs Xt = .ok (some 0) ∧ DL.dan Real.sqrt Real.exp pow2 eps (some sg) Xs Xt = some 0 := by
  have hl := h.length_eq
  constructor
  · obtain ⟨v, h1, -, -, -, h5⟩ := C86_coral ac Xs Xt hd h2 (by omega)
    rw [h1, h5.2]
    intro j k
    have hc : ∀ j, colAvg Xt j = colAvg Xs j := by intro j; simp only [colAvg, (h.map _).sum_eq, hl]
    simp only [sampleCov, hc, (h.map _).sum_eq, hl]
  · have hs : Xs ≠ [] := by rintro rfl; simp at h2
    have ht : Xt ≠ [] := by rintro rfl; simp at hl; omega
    rw [C87_zero_iff pow2 eps sg hsg hne Xs Xt hs ht]
    intro x
    simp only [share, h.countP_eq, hl]

example : ([![3, 4], ![1, 2]] : List (Fin 2 → ℝ)).Perm [![1, 2], ![3, 4]] ∧ 2 ≤ ([![1, 2], ![3, 4]] : List (Fin 2 → ℝ)).length :=
  ⟨List.Perm.swap _ _ _, by simp⟩

end DeepLoss
end Skada

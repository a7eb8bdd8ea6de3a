/-
Property C144: exchanging the two sides (calling the source samples target samples and the other way round).
-/
import Verif.Props.Twice
import Verif.Model.DeepAdv
import Mathlib.Analysis.SpecialFunctions.Exp
import Mathlib.Analysis.SpecialFunctions.Sqrt

set_option linter.unusedSectionVars false

namespace Skada
open Np Spec

/-- The domain labels with the roles exchanged: every label changes its sign. -/
def Spec.exchanged (sd : List Int) : List Int := sd.map (fun d => -d)

namespace Exchange

theorem length (sd : List Int) : (exchanged sd).length = sd.length := by simp [exchanged]

theorem source {α : Type} {sd : List Int} (h0 : (0 : Int) ∉ sd) (X : List α) : sourceRows (exchanged sd) X = targetRows sd X := by
  induction sd generalizing X with
  | nil => simp [exchanged, sourceRows, targetRows]
  | cons d sd ih =>
    cases X with
    | nil => simp [exchanged, sourceRows, targetRows]
    | cons x X =>
      have hd : d ≠ 0 := fun e => h0 (by simp [e])
      have ih' := ih (fun h => h0 (List.mem_cons_of_mem _ h)) X
      unfold exchanged sourceRows targetRows at ih' ⊢
      by_cases h : d < 0
      · have h1 : 0 ≤ -d := by omega
        have h2 : d ≤ 0 := by omega
        simp [h, h2, ih']
      · have h2 : ¬ d ≤ 0 := by omega
        simp [h, h2, ih']

theorem target {α : Type} {sd : List Int} (h0 : (0 : Int) ∉ sd) (X : List α) : targetRows (exchanged sd) X = sourceRows sd X := by
  have h0' : (0 : Int) ∉ exchanged sd := by
    intro h
    obtain ⟨d, hd, e⟩ := List.mem_map.1 h
    exact h0 ((by omega : d = 0) ▸ hd)
  rw [← source h0' X]
  congr 1
  simp [exchanged]

theorem nSource {sd : List Int} (h0 : (0 : Int) ∉ sd) : Spec.nSource (exchanged sd) = Spec.nTarget sd := by
  rw [← length_sourceRows (a := exchanged sd) rfl, ← length_targetRows (a := exchanged sd) (by simp [exchanged]), source h0]

theorem nTarget {sd : List Int} (h0 : (0 : Int) ∉ sd) : Spec.nTarget (exchanged sd) = Spec.nSource sd := by
  rw [← length_targetRows (a := exchanged sd) rfl, ← length_sourceRows (a := exchanged sd) (by simp [exchanged]), target h0]

end Exchange

/-- C144 (splitting). If no domain has the label 0, splitting with the exchanged labels returns the same two parts in the opposite roles. -/
theorem C144_split {α : Type} (X : List α) (sd : List Int) (hX : X ≠ []) (hlen : sd.length = X.length) (h0 : (0 : Int) ∉ sd) :
    RW.splitX X sd = .ok (sourceRows sd X, targetRows sd X) ∧ RW.splitX X (exchanged sd) = .ok (targetRows sd X, sourceRows sd X) := by
  refine ⟨RW.splitX_ok (RW.sd_ne hX hlen) hlen, ?_⟩
  rw [RW.splitX_ok (RW.sd_ne hX ((Exchange.length sd).trans hlen)) ((Exchange.length sd).trans hlen), Exchange.source h0, Exchange.target h0]

example : RW.splitX ["a", "b", "c"] [3, 1, -1] = .ok (["a", "b"], ["c"]) ∧ RW.splitX ["a", "b", "c"] (exchanged [3, 1, -1]) = .ok (["c"], ["a", "b"]) := by
  decide +kernel

/-- C144 fails for the domain label 0, which is a source label and stays one. -/
theorem C144_split_counterexample :
    RW.splitX ["a", "b", "c"] [0, 1, -1] = .ok (["a", "b"], ["c"]) ∧ RW.splitX ["a", "b", "c"] (exchanged [0, 1, -1]) = .ok (["a", "c"], ["b"]) := by
  decide +kernel

section Weights
variable {K : Type} [Field K] [LinearOrder K] [IsStrictOrderedRing K] {α : Type}
open RW

/-- C144 (Gaussian reweighting). The weight of a source sample and the weight the same point gets as a target sample after exchanging the sides are
reciprocal. -/
theorem C144_gaussian (pdf : List α → α → K) (X : List α) (sd : List Int) (hX : X ≠ []) (hlen : sd.length = X.length) (h0 : (0 : Int) ∉ sd)
    (hs : ∀ x, 0 < pdf (sourceRows sd X) x) (ht : ∀ x, 0 < pdf (targetRows sd X) x) :
    ∃ w w', gaussianFitWeights pdf X (.vec sd) X (.vec sd) = .ok w ∧
      gaussianFitWeights pdf X (.vec (exchanged sd)) X (.vec (exchanged sd)) = .ok w' ∧
      ∀ (i j : Nat) (d e : Int) (x : α), sd[i]? = some d → 0 ≤ d → X[i]? = some x → sd[j]? = some e → e < 0 → X[j]? = some x →
        ∃ a b : K, w[i]? = some (some a) ∧ w'[j]? = some (some b) ∧ a * b = 1 := by
  obtain ⟨w, hw, -, hv⟩ := C31_gaussian_partial pdf X sd hX hlen (fun x => (ht x).le) (fun x _ => hs x)
  obtain ⟨w', hw', -, hv'⟩ := C31_gaussian_partial pdf X (exchanged sd) hX ((Exchange.length sd).trans hlen)
    (fun x => by rw [Exchange.target h0]; exact (hs x).le) (fun x _ => by rw [Exchange.source h0]; exact ht x)
  rw [Exchange.source h0, Exchange.target h0] at hv'
  refine ⟨w, w', hw, hw', fun i j d e x hd hd0 hx he he0 hx' => ⟨_, _, hv i d x hd hd0 hx, hv' j (-e) x (by simp [exchanged, he]) (by omega) hx', ?_⟩⟩
  have h1 := (hs x).ne'
  have h2 := (ht x).ne'
  field_simp

/-- C144 (density reweighting). The product of the weight of a source sample and the weight the same point gets as a target sample after exchanging the
sides is the same for all such points. -/
theorem C144_density (kde : List α → α → K) (exp : K → K) (hpos : ∀ r, 0 < exp r) (hinv : ∀ r, exp r * exp (-r) = 1) (X : List α) (sd : List Int) (hX : X ≠ [])
    (hlen : sd.length = X.length) (h0 : (0 : Int) ∉ sd) (hs : 0 < nSource sd) (ht : 0 < nTarget sd) :
    ∃ w w' c, fitTransform (densityFit kde) (densityWeights exp) X (.vec sd) = .ok (X, w) ∧
      fitTransform (densityFit kde) (densityWeights exp) X (.vec (exchanged sd)) = .ok (X, w') ∧
      ∀ (i j : Nat) (d e : Int) (x : α), sd[i]? = some d → 0 ≤ d → X[i]? = some x → sd[j]? = some e → e < 0 → X[j]? = some x →
        ∃ a b : K, w[i]? = some (some a) ∧ w'[j]? = some (some b) ∧ a * b = c := by
  have hlen' : (exchanged sd).length = X.length := (Exchange.length sd).trans hlen
  have key : ∀ sd' : List Int, sd'.length = X.length → 0 < Spec.nSource sd' → 0 < Spec.nTarget sd' → ∃ w m, 
      fitTransform (densityFit kde) (densityWeights exp) X (.vec sd') = .ok (X, w) ∧
      ∀ (i : Nat) (d : Int) (x : α), sd'[i]? = some d → 0 ≤ d → X[i]? = some x →
        w[i]? = some (some (exp (kde (targetRows sd' X) x - kde (sourceRows sd' X) x) / m)) := by
    intro sd' hl' hs' ht'
    have hsd := sd_ne hX hl'
    have hfit : densityFit kde X (.vec sd') = .ok (kde (sourceRows sd' X), kde (targetRows sd' X)) := by
      simp [densityFit, check_ok hX hl', bind, Except.bind, splitX_ok hsd hl', sourceRows_ne hl' hs', targetRows_ne hl' ht', pure, Except.pure]
    have hm : RW.mean ((sourceRows sd' X).map (fun x => exp (kde (targetRows sd' X) x - kde (sourceRows sd' X) x))) ≠ 0 := by
      obtain ⟨x, hx⟩ := List.exists_mem_of_ne_nil _ (sourceRows_ne hl' hs')
      refine (mean_pos (fun y hy => ?_) ⟨_, List.mem_map.2 ⟨x, hx, rfl⟩, (hpos _).ne'⟩).ne'
      obtain ⟨z, -, rfl⟩ := List.mem_map.1 hy
      exact (hpos _).le
    have hw := densityWeights_eq exp (kde (sourceRows sd' X)) (kde (targetRows sd' X)) hX hl' hs'
    simp only [hm, ne_eq, not_false_eq_true, if_true] at hw
    set m := RW.mean ((sourceRows sd' X).map (fun x => exp (kde (targetRows sd' X) x - kde (sourceRows sd' X) x))) with hmdef
    refine ⟨List.zipWith (fun d x => if 0 ≤ d then some (exp (kde (targetRows sd' X) x - kde (sourceRows sd' X) x) / m) else some 0) sd' X, m, ?_, ?_⟩
    · simp only [fitTransform, hfit, bind, Except.bind, hw]; rfl
    · intro i d x hd hd0 hx
      rw [List.getElem?_zipWith, hd, hx]
      simp [hd0]
  obtain ⟨w, m, hw, hv⟩ := key sd hlen hs ht
  obtain ⟨w', m', hw', hv'⟩ := key (exchanged sd) hlen' (by rw [Exchange.nSource h0]; exact ht) (by rw [Exchange.nTarget h0]; exact hs)
  rw [Exchange.source h0, Exchange.target h0] at hv'
  refine ⟨w, w', 1 / m * (1 / m'), hw, hw', fun i j d e x hd hd0 hx he he0 hx' =>
    ⟨_, _, hv i d x hd hd0 hx, hv' j (-e) x (by simp [exchanged, he]) (by omega) hx', ?_⟩⟩
  have := hinv (kde (targetRows sd X) x - kde (sourceRows sd X) x)
  rw [neg_sub] at this
  rw [div_mul_div_comm, this, one_div_mul_one_div]

/-- C144 (reweighting) on samples of which two occur on both sides. -/
example : gaussianFitWeights (fun S x => (S.count x : ℚ) + 1) ["a", "a", "b", "b", "a"] (.vec [1, 2, 1, -1, -2]) ["a", "a", "b", "b", "a"] (.vec [1, 2, 1, -1, -2]) =
      .ok [some (2 / 3), some (2 / 3), some 1, some 0, some 0] ∧
    gaussianFitWeights (fun S x => (S.count x : ℚ) + 1) ["a", "a", "b", "b", "a"] (.vec (exchanged [1, 2, 1, -1, -2])) ["a", "a", "b", "b", "a"]
      (.vec (exchanged [1, 2, 1, -1, -2])) = .ok [some 0, some 0, some 0, some 1, some (3 / 2)] := by decide +kernel

/-- A function with the properties of the exponential that are used. -/
def exchangeExp (r : ℚ) : ℚ := if r = 0 then 1 else if 0 < r then 2 else 1 / 2

example : (∀ r, 0 < exchangeExp r) ∧ (∀ r, exchangeExp r * exchangeExp (-r) = 1) ∧
    (fitTransform (densityFit (fun S x => (S.count x : ℚ))) (densityWeights exchangeExp) ["a", "a", "b", "b", "a"] (.vec [1, 2, 1, -1, -2])).map Prod.snd =
      .ok [some (3 / 4), some (3 / 4), some (3 / 2), some 0, some 0] ∧
    (fitTransform (densityFit (fun S x => (S.count x : ℚ))) (densityWeights exchangeExp) ["a", "a", "b", "b", "a"] (.vec (exchanged [1, 2, 1, -1, -2]))).map Prod.snd =
      .ok [some 0, some 0, some 0, some (2 / 3), some (4 / 3)] := by
  refine ⟨fun r => ?_, fun r => ?_, by decide +kernel, by decide +kernel⟩
  · unfold exchangeExp
    split_ifs <;> norm_num
  · unfold exchangeExp
    by_cases h : r = 0
    · simp [h]
    · rcases lt_or_gt_of_ne h with h' | h'
      · simp [h, h'.not_gt, h', neg_eq_zero]
      · simp [h, h'.not_gt, h', neg_eq_zero]

end Weights

section Losses
variable {K : Type} [Field K] [LinearOrder K] [IsStrictOrderedRing K] {d : Nat}
open DL

/-- C144 (Deep CORAL). The loss does not change when the two batches are exchanged. -/
theorem C144_deepcoral (ac : Bool) (Xs Xt : List (Fin d → K)) : deepcoral ac Xt Xs = deepcoral ac Xs Xt := by
  unfold deepcoral
  by_cases hd : d = 0
  · simp only [hd, if_true]
  · simp only [hd, if_false]
    generalize torchCov (if ac then Xs else center Xs) = C
    generalize torchCov (if ac then Xt else center Xt) = D
    cases C <;> cases D <;> simp only
    congr 3
    exact Finset.sum_congr rfl fun j _ => Finset.sum_congr rfl fun k _ => by ring

theorem Exchange.dist (sqrt : K → K) (x y : Fin d → K) : DL.dist sqrt x y = DL.dist sqrt y x := by
  unfold DL.dist
  congr 1
  exact Finset.sum_congr rfl fun j _ => by ring

theorem Exchange.kernel (sqrt ex : K → K) (sg : List K) (x y : Fin d → K) : DL.kernel sqrt ex sg x y = DL.kernel sqrt ex sg y x := by
  unfold DL.kernel
  rw [Exchange.dist]

theorem Exchange.sum_comm {A B : Type} (f : A → B → K) (X : List A) (Y : List B) :
    (X.map (fun x => (Y.map (fun y => f x y)).sum)).sum = (Y.map (fun y => (X.map (fun x => f x y)).sum)).sum := by
  induction X with
  | nil => simp
  | cons x X ih => simp [ih, List.sum_map_add]

theorem Exchange.meanKernel (k : (Fin d → K) → (Fin d → K) → K) (hk : ∀ x y, k x y = k y x) (X Y : List (Fin d → K)) :
    DL.meanKernel k X Y = DL.meanKernel k Y X := by
  unfold DL.meanKernel
  rw [Exchange.sum_comm, mul_comm]
  have : (fun y => (X.map (fun x => k x y)).sum) = fun y => (X.map (fun x => k y x)).sum := by
    funext y
    congr 2
    funext x
    exact hk x y
  rw [this]

/-- C144 (DAN). With given bandwidths the loss does not change when the two batches are exchanged. -/
theorem C144_dan (sqrt ex : K → K) (pow2 : Nat → K) (eps : K) (sigmas : List K) (Xs Xt : List (Fin d → K)) :
    dan sqrt ex pow2 eps (some sigmas) Xt Xs = dan sqrt ex pow2 eps (some sigmas) Xs Xt := by
  unfold dan
  simp only [Option.getD_some]
  split
  · rfl
  · unfold mmd
    rw [Exchange.meanKernel _ (Exchange.kernel sqrt ex sigmas) Xt Xs]
    by_cases h : Xs = [] ∨ Xt = []
    · rw [if_pos h, if_pos h.symm]
    · rw [if_neg h, if_neg (fun h' => h h'.symm)]
      congr 1
      ring

theorem Exchange.sum_lt {A : Type} {f g : A → ℝ} (l : List A) (hl : l ≠ []) (h : ∀ a ∈ l, f a < g a) : (l.map f).sum < (l.map g).sum := by
  obtain ⟨a, ha⟩ := List.exists_mem_of_ne_nil _ hl
  exact List.sum_lt_sum f g (fun i hi => (h i hi).le) ⟨a, ha, h a ha⟩

/-- One source row and three target rows in one dimension. -/
def exchangeT : List (Fin 1 → ℝ) := [fun _ => 0, fun _ => 1, fun _ => 2]

theorem Exchange.dist_real (a b : ℝ) : DL.dist Real.sqrt (fun _ : Fin 1 => a) (fun _ : Fin 1 => b) = |a - b| := by
  unfold DL.dist
  rw [Fin.sum_univ_one, Real.sqrt_sq_eq_abs]

theorem Exchange.dan_value (sg : List ℝ) (h0 : ∀ s ∈ sg, 0 < s) :
    DL.mmd (DL.kernel Real.sqrt Real.exp sg) [fun _ : Fin 1 => (0 : ℝ)] exchangeT =
      some (sg.map (fun s => 2 / 3 - 2 / 9 * Real.exp (-(1 / s)) - 4 / 9 * Real.exp (-(2 / s)))).sum := by
  have hk : ∀ a b : ℝ, DL.kernel Real.sqrt Real.exp sg (fun _ : Fin 1 => a) (fun _ : Fin 1 => b) = (sg.map (fun s => Real.exp (-(|a - b| / s)))).sum := by
    intro a b
    unfold DL.kernel
    rw [Exchange.dist_real]
    congr 2
    funext s
    ring_nf
  unfold DL.mmd exchangeT
  simp only [List.cons_ne_nil, or_self, if_false, DL.meanKernel, List.map_cons, List.map_nil, List.sum_cons, List.sum_nil, hk, List.length_cons, List.length_nil]
  congr 1
  norm_num
  induction sg with
  | nil => simp
  | cons s sg ih =>
    have ih' := ih (fun s hs => h0 s (List.mem_cons_of_mem _ hs)) (by
      intro a b
      unfold DL.kernel
      rw [Exchange.dist_real]
      congr 2
      funext s
      ring_nf)
    simp only [List.map_cons, List.sum_cons, List.length_cons] at ih' ⊢
    push_cast at ih' ⊢
    linarith

/-- C144 (DAN) fails for the default bandwidths, which are computed from the first batch alone: for every positive `eps` the loss changes when the batches are
exchanged. -/
theorem C144_dan_default_counterexample (pow2 : Nat → ℝ) (h2 : ∀ i, 0 < pow2 i) (eps : ℝ) (he : 0 < eps) :
    ∃ a b : ℝ, dan Real.sqrt Real.exp pow2 eps none [fun _ => 0] exchangeT = some a ∧ dan Real.sqrt Real.exp pow2 eps none exchangeT [fun _ => 0] = some b ∧ b < a := by
  have hm1 : medianLow (pairDists Real.sqrt [fun _ : Fin 1 => (0 : ℝ)]) = 0 := by
    simp [pairDists, medianLow, Exchange.dist_real]
  have hm2 : medianLow (pairDists Real.sqrt exchangeT) = 1 := by
    have : pairDists Real.sqrt exchangeT = [0, 1, 2, 1, 0, 1, 2, 1, 0] := by
      simp only [pairDists, exchangeT, List.flatMap_cons, List.flatMap_nil, List.map_cons, List.map_nil, Exchange.dist_real]
      norm_num
    rw [this]
    unfold medianLow
    norm_num [List.insertionSort, List.orderedInsert]
  have hpos : ∀ (X : List (Fin 1 → ℝ)), 0 ≤ medianLow (pairDists Real.sqrt X) → ∀ s ∈ defaultSigmas Real.sqrt pow2 eps X, 0 < s := by
    intro X hX s hs
    obtain ⟨i, -, rfl⟩ := List.mem_map.1 hs
    have := h2 i
    positivity
  have p1 := hpos [fun _ : Fin 1 => (0 : ℝ)] hm1.ge
  have p2 := hpos exchangeT (by rw [hm2]; norm_num)
  have v2 := C144_dan Real.sqrt Real.exp pow2 eps (defaultSigmas Real.sqrt pow2 eps exchangeT) [fun _ : Fin 1 => (0 : ℝ)] exchangeT
  have w1 := Exchange.dan_value _ p1
  have w2 := Exchange.dan_value _ p2
  have d1 : dan Real.sqrt Real.exp pow2 eps none [fun _ : Fin 1 => (0 : ℝ)] exchangeT =
      mmd (kernel Real.sqrt Real.exp (defaultSigmas Real.sqrt pow2 eps [fun _ : Fin 1 => (0 : ℝ)])) [fun _ : Fin 1 => (0 : ℝ)] exchangeT := by
    unfold dan
    simp only [Option.getD_none]
    rw [if_neg (fun h => (p1 0 h).ne rfl)]
  have d2 : dan Real.sqrt Real.exp pow2 eps none exchangeT [fun _ : Fin 1 => (0 : ℝ)] =
      mmd (kernel Real.sqrt Real.exp (defaultSigmas Real.sqrt pow2 eps exchangeT)) [fun _ : Fin 1 => (0 : ℝ)] exchangeT := by
    have e : dan Real.sqrt Real.exp pow2 eps none exchangeT [fun _ : Fin 1 => (0 : ℝ)] =
      dan Real.sqrt Real.exp pow2 eps (some (defaultSigmas Real.sqrt pow2 eps exchangeT)) exchangeT [fun _ : Fin 1 => (0 : ℝ)] := rfl
    rw [e, v2]
    unfold dan
    simp only [Option.getD_some]
    rw [if_neg (fun h => (p2 0 h).ne rfl)]
  refine ⟨_, _, d1.trans w1, d2.trans w2, ?_⟩
  · unfold defaultSigmas
    rw [hm1, hm2, List.map_map, List.map_map]
    refine Exchange.sum_lt (List.range 33) (by simp) fun i _ => ?_
    simp only [Function.comp]
    have := h2 i
    have hlt : (1 : ℝ) / 2 ^ 8 * pow2 i * (0 + eps) < 1 / 2 ^ 8 * pow2 i * (1 + eps) := by
      have : 0 < (1 : ℝ) / 2 ^ 8 * pow2 i := by positivity
      nlinarith
    have hp : (0 : ℝ) < 1 / 2 ^ 8 * pow2 i * (0 + eps) := by positivity
    have e1 : Real.exp (-(1 / (1 / 2 ^ 8 * pow2 i * (0 + eps)))) < Real.exp (-(1 / (1 / 2 ^ 8 * pow2 i * (1 + eps)))) :=
      Real.exp_lt_exp.2 (neg_lt_neg (div_lt_div_of_pos_left one_pos hp hlt))
    have e2 : Real.exp (-(2 / (1 / 2 ^ 8 * pow2 i * (0 + eps)))) < Real.exp (-(2 / (1 / 2 ^ 8 * pow2 i * (1 + eps)))) :=
      Real.exp_lt_exp.2 (neg_lt_neg (div_lt_div_of_pos_left two_pos hp hlt))
    linarith

/-- C144 (DANN). Exchanging the two batches and replacing every prediction `p` of the domain classifier by `1 - p` does not change the domain loss. -/
theorem C144_dann (lg : K → K) (ps pt : List K) :
    Adv.dannLoss (Adv.bceLoss lg) (pt.map (1 - ·)) (ps.map (1 - ·)) = Adv.dannLoss (Adv.bceLoss lg) ps pt := by
  have key : ∀ (P : List K) (y : K), Adv.bceLoss lg (P.map (1 - ·)) (List.replicate P.length (1 - y)) = Adv.bceLoss lg P (List.replicate P.length y) := by
    intro P y
    unfold Adv.bceLoss
    have hany : (P.map (1 - ·)).any (fun p => decide (p < 0) || decide (1 < p)) = P.any (fun p => decide (p < 0) || decide (1 < p)) := by
      rw [List.any_map]
      congr 1
      funext p
      simp only [Function.comp, sub_neg]
      rw [Bool.or_comm]
      congr 1
      exact decide_eq_decide.2 ⟨fun h => by linarith, fun h => by linarith⟩
    have hterm : List.zipWith (Adv.bceTerm lg) (P.map (1 - ·)) (List.replicate P.length (1 - y)) =
        List.zipWith (Adv.bceTerm lg) P (List.replicate P.length y) := by
      rw [← List.map_replicate, List.zipWith_map]
      congr 1
      funext p y
      unfold Adv.bceTerm
      rw [sub_sub_cancel, sub_sub_cancel, add_comm]
    rw [hany, hterm]
    simp
  have k0 := key ps 0
  have k1 := key pt 1
  rw [sub_zero] at k0
  rw [sub_self] at k1
  unfold Adv.dannLoss
  simp only [List.length_map, k0, k1, bind, Except.bind]
  rcases h1 : Adv.bceLoss lg ps (List.replicate ps.length 0) with e | a <;> rcases h2 : Adv.bceLoss lg pt (List.replicate pt.length 1) with e' | b
  · have : ∀ (P : List K) (y : K) (e : PyErr), Adv.bceLoss lg P (List.replicate P.length y) = .error e → e = .runtimeError := by
      intro P y e h
      unfold Adv.bceLoss at h
      rw [if_neg (by simp)] at h
      split at h
      · exact (Except.error.inj h).symm
      · split at h <;> cases h
    rw [this _ _ _ h1, this _ _ _ h2]
  · rfl
  · rfl
  · show Except.ok _ = Except.ok _
    cases a <;> cases b <;> simp [Adv.addLoss, add_comm]

/-- The losses on batches of different sizes. -/
example : deepcoral (K := ℚ) (d := 1) false [fun _ => 0, fun _ => 2] [fun _ => 0, fun _ => 1, fun _ => 5] = .ok (some (25 / 4)) ∧
    deepcoral (K := ℚ) (d := 1) false [fun _ => 0, fun _ => 1, fun _ => 5] [fun _ => 0, fun _ => 2] = .ok (some (25 / 4)) ∧
    dan (K := ℚ) (d := 1) (fun x => x) (fun x => 1 / (1 - x)) (fun _ => 1) 0 (some [1]) [fun _ => 0] [fun _ => 0, fun _ => 1] = some (1 / 4) ∧
    dan (K := ℚ) (d := 1) (fun x => x) (fun x => 1 / (1 - x)) (fun _ => 1) 0 (some [1]) [fun _ => 0, fun _ => 1] [fun _ => 0] = some (1 / 4) ∧
    Adv.dannLoss (Adv.bceLoss (fun p : ℚ => p - 1)) [1 / 4, 1 / 2] [1] = .ok (some (3 / 8)) ∧
    Adv.dannLoss (Adv.bceLoss (fun p : ℚ => p - 1)) [0] [3 / 4, 1 / 2] = .ok (some (3 / 8)) := by decide +kernel

end Losses

section There
variable {K : Type} [Field K] [LinearOrder K] [IsStrictOrderedRing K] {d : Nat}
open Map RW Matrix

/-- C144 (CORAL, there and back). With `reg=None` and positive definite covariances: adapting the source to the target, and then the adapted source samples (as
source) to the original source samples (as target) gives the original source samples back, up to their mean. -/
theorem C144_coral_back (sqrt : K → K) (eigh : Matrix (Fin d) (Fin d) K → (Fin d → K) × Matrix (Fin d) (Fin d) K)
    (auto : List (Fin d → K) → Matrix (Fin d) (Fin d) K) (ac : Bool) (X : NArr (Fin d → K)) (sd : List Int) (hlen : sd.length = X.rows.length)
    (hs : 0 < nSource sd) (ht : 0 < nTarget sd) (hes : Spec.EighOf true sqrt eigh (empCov ac (sourceRows sd X.rows)))
    (het : Spec.EighOf true sqrt eigh (empCov ac (targetRows sd X.rows))) :
    ∃ out, coralFitTransform (estimateCov auto none ac) (sqrtm sqrt eigh) (invsqrtm sqrt eigh) ac X (.vec sd) = .ok out ∧
      ∀ (Y : NArr (Fin d → K)) (sd' : List Int), sd'.length = Y.rows.length → sourceRows sd' Y.rows = sourceRows sd out.rows →
        targetRows sd' Y.rows = sourceRows sd X.rows →
        ∃ back, coralFitTransform (estimateCov auto none ac) (sqrtm sqrt eigh) (invsqrtm sqrt eigh) ac Y (.vec sd') = .ok back ∧
          sourceRows sd' back.rows = (sourceRows sd X.rows).map (fun x => x - if ac then 0 else colMean (sourceRows sd X.rows)) := by
  have hweak : Spec.EighOf false sqrt eigh (empCov ac (targetRows sd X.rows)) := by
    obtain ⟨h1, h2, h3, h4, h5⟩ := het
    exact ⟨h1, h2, h3, fun i => by
      have : 0 < (eigh (empCov ac (targetRows sd X.rows))).1 i := by simpa using h4 i
      simpa using this.le, h5⟩
  obtain ⟨out, ho, hcs, -, hm⟩ := C64_coral_aligns sqrt eigh auto ac X sd hlen hs ht hes hweak
  obtain ⟨out', ho', hol, hos, -⟩ := coral_out (estimateCov auto none ac) (sqrtm sqrt eigh) (invsqrtm sqrt eigh) ac X sd hlen hs ht
  rw [ho] at ho'
  cases ho'
  refine ⟨out, ho, fun Y sd' hl' hY hY' => ?_⟩
  have hs' : 0 < nSource sd' := by
    rw [← length_sourceRows hl', hY, length_sourceRows (hlen.trans hol.symm)]
    exact hs
  have ht' : 0 < nTarget sd' := by
    rw [← length_targetRows hl', hY', length_sourceRows hlen]
    exact hs
  obtain ⟨back, hb, -, hbs, -⟩ := coral_out (estimateCov auto none ac) (sqrtm sqrt eigh) (invsqrtm sqrt eigh) ac Y sd' hl' hs' ht'
  refine ⟨back, hb, ?_⟩
  rw [hbs, hY, hY']
  have hcen : ∀ x : Fin d → K, x - (if ac then 0 else colMean (sourceRows sd out.rows)) = x := by
    intro x
    cases ac
    · simp [(hm rfl).1]
    · simp
  have hz : ∀ z, coralSource (estimateCov auto none ac) (sqrtm sqrt eigh) (invsqrtm sqrt eigh) ac (sourceRows sd out.rows) (sourceRows sd X.rows) z =
      (z ᵥ* invsqrtm sqrt eigh (empCov ac (targetRows sd X.rows))) ᵥ* sqrtm sqrt eigh (empCov ac (sourceRows sd X.rows)) := by
    intro z
    unfold coralSource
    rw [hcen, ← hcs]
    rfl
  rw [List.map_congr_left (fun z _ => hz z)]
  conv_lhs => rw [hos]
  rw [List.map_map]
  refine List.map_congr_left fun x _ => ?_
  have i1 := invsqrtm_mul_sqrtm sqrt eigh _ hes
  have i2 := mul_eq_one_comm.1 (invsqrtm_mul_sqrtm sqrt eigh _ het)
  show ((((x - if ac then 0 else colMean (sourceRows sd X.rows)) ᵥ* invsqrtm sqrt eigh (empCov ac (sourceRows sd X.rows))) ᵥ*
    sqrtm sqrt eigh (empCov ac (targetRows sd X.rows))) ᵥ* invsqrtm sqrt eigh (empCov ac (targetRows sd X.rows))) ᵥ*
    sqrtm sqrt eigh (empCov ac (sourceRows sd X.rows)) = _
  rw [Matrix.vecMul_vecMul _ (sqrtm _ _ _), i2, Matrix.vecMul_one, Matrix.vecMul_vecMul, i1, Matrix.vecMul_one]

/-- CORAL on one feature, with `reg=None`. -/
def exchangeCoral (sd : List Int) (X : List (Fin 1 → ℚ)) : Py (List ℚ) :=
  (coralFitTransform (estimateCov (fun _ => 0) none false) (sqrtm (fun r => if r = 4 then 2 else r) (fun C => (fun _ => C 0 0, 1)))
    (invsqrtm (fun r => if r = 4 then 2 else r) (fun C => (fun _ => C 0 0, 1))) false ⟨.float, [1], X⟩ (.vec sd)).map (fun out => out.rows.map (fun r => r 0))

/-- The hypotheses of C144 (CORAL) for source rows `0, 2` and target rows `0, 4`, and the way there and back: `-2, 2` and then `-1, 1`. -/
example : (Spec.EighOf (K := ℚ) (d := 1) true (fun r => if r = 4 then 2 else r) (fun C => (fun _ => C 0 0, 1)) (empCov false [fun _ => 0, fun _ => 2]) ∧
      Spec.EighOf (K := ℚ) (d := 1) true (fun r => if r = 4 then 2 else r) (fun C => (fun _ => C 0 0, 1)) (empCov false [fun _ => 0, fun _ => 4])) ∧
    exchangeCoral [1, -1, -1, 3] [fun _ => 0, fun _ => 0, fun _ => 4, fun _ => 2] = .ok [-2, -2, 2, 2] ∧
    exchangeCoral [1, 1, -1, -1] [fun _ => -2, fun _ => 2, fun _ => 0, fun _ => 2] = .ok [-1, 1, -1, 1] := by
  refine ⟨⟨⟨by simp, by simp, ?_, ?_, ?_⟩, ⟨by simp, by simp, ?_, ?_, ?_⟩⟩, by decide +kernel, by decide +kernel⟩
  · ext i j; fin_cases i; fin_cases j; simp
  · intro i; simp [empCov, colMean]; norm_num
  · intro i; simp [empCov, colMean]; norm_num
  · ext i j; fin_cases i; fin_cases j; simp
  · intro i; simp [empCov, colMean]; norm_num
  · intro i; simp [empCov, colMean]; norm_num

end There
end Skada

/-
Property C113: self-labelling estimators at the end of a pipeline, and their methods.
-/
import Verif.Props.Gradual
import Verif.Props.PipelineRun
import Verif.Model.SelfLabelRun

namespace Skada
open Np Spec RW Map SL

section
variable {α σ E F γ : Type}

/-! ### Training -/

theorem selfEst_fit [Cell α] (keep : String → Bool) (es : List (Est α σ)) (wrap : F → σ)
    (fit : List α → List Num → List Int → Py F) (X X' : List α) (y : List Num) (sd : List Int) (w : Option (List Num))
    (calls : List (Call α)) (fs : List σ) (hk : keep "sample_domain" = true) (hsd : sd ≠ []) (hy : y.length = sd.length)
    (hinf : Num.pinf ∉ y ∧ Num.ninf ∉ y)
    (h : Adapts sd (maskedLabels sd y) es ⟨X, none, none⟩ ⟨X', none, w⟩ calls fs) :
    pipelineFit (daPipeline keep es (selfEst wrap fit) true) X (some y) [("sample_domain", domParam sd)] =
      (calls ++ [⟨X', some (maskedLabels sd y), [("sample_domain", domParam sd)]⟩],
        match fit X' (maskedLabels sd y) sd with
        | .error e => .error e
        | .ok f => .ok (fs.map .one ++ [.one (wrap f)], some (maskedLabels sd y))) := by
  rw [C108_domain_aware_final keep es (selfEst wrap fit) X X' y sd w calls fs hk hsd hy hinf h rfl]
  have hg : Dict.get [("sample_domain", domParam sd)] "sample_domain" = domParam sd := get_eq_of_lookup List.lookup_cons_self
  simp only [selfEst, hg, domainsOf_domParam]
  cases fit X' (maskedLabels sd y) sd <;> rfl

/-- C113 (gradual adaptation in a pipeline, training). When fitting a pipeline that ends in a `GradualEstimator` returns, the
estimator was given all rows that the adapters produced.  Its first classifier was trained on the adapted source rows with their true
labels; every further one on interpolated rows labelled by its predecessor.  The target labels seen by the transport method are the
masks. -/
theorem C113_gradual_pipeline_fit {K : Type} [Field K] [LinearOrder K] [IsStrictOrderedRing K] {d : Nat} [Cell (Fin d → K)]
    (keep : String → Bool) (es : List (Est (Fin d → K) σ)) (wrap : GFit K d Num E → σ) (L : GLearner K d Num E)
    (coupling : List (Fin d → K) → List Num → List (Fin d → K) → List Num → List (List K)) (alpha : ℚ) (advanced : Bool)
    (nSteps : Nat) (maxIter : Option Nat) (X X' : List (Fin d → K)) (y : List Num) (sd : List Int) (w : Option (List Num))
    (calls : List (Call (Fin d → K))) (fs : List σ) (hk : keep "sample_domain" = true) (hsd : sd ≠ [])
    (hy : y.length = sd.length) (hX' : sd.length = X'.length) (hinf : Num.pinf ∉ y ∧ Num.ninf ∉ y)
    (h : Adapts sd (maskedLabels sd y) es ⟨X, none, none⟩ ⟨X', none, w⟩ calls fs)
    (ha : 0 ≤ alpha) (hn : 0 < nSteps) (gamma : List (List K))
    (hgam : gamma = coupling (sourceRows sd X') (sourceRows sd y) (targetRows sd X') (targetRows sd (maskedLabels sd y)))
    (hg1 : gamma.length = (sourceRows sd X').length) (hg2 : ∀ r ∈ gamma, r.length = (targetRows sd X').length)
    (hs : sourceRows sd X' ≠ []) (ht : targetRows sd X' ≠ []) (cs : List (Call (Fin d → K)))
    (res : List (Skada.Fitted σ) × Option (List Num))
    (hfit : pipelineFit (daPipeline keep es (selfEst wrap (gradFit L coupling alpha advanced nSteps maxIter)) true) X (some y)
      [("sample_domain", domParam sd)] = (cs, .ok res)) :
    cs = calls ++ [⟨X', some (maskedLabels sd y), [("sample_domain", domParam sd)]⟩] ∧
    ∃ g mi e0 ests mask, res.1 = fs.map .one ++ [.one (wrap g)] ∧ maxIter = some mi ∧
      L.fit (some mi) (sourceRows sd X') (sourceRows sd y) = .ok e0 ∧ g.ests = e0 :: ests ∧ ests.length = nSteps ∧
      ests.getLast? = some g.est ∧ Retained alpha advanced gamma (targetRows sd X').length mask ∧
      Chain L (fun step R => Interpolates mask ((step : K) / nSteps) (sourceRows sd X') (targetRows sd X') R)
        nSteps 1 mi e0 ests g.data := by
  rw [selfEst_fit keep es wrap _ X X' y sd w calls fs hk hsd hy hinf h] at hfit
  obtain ⟨h1, h2⟩ := Prod.mk.inj hfit
  refine ⟨h1.symm, ?_⟩
  cases hg : gradFit L coupling alpha advanced nSteps maxIter X' (maskedLabels sd y) sd with
  | error e => rw [hg] at h2; cases h2
  | ok g =>
    rw [hg] at h2
    injection h2 with h2
    have hm : sd.length = (maskedLabels sd y).length := (length_maskedLabels hy).symm
    have hsm : sourceRows sd (maskedLabels sd y) = sourceRows sd y := sourceRows_masked hy
    obtain ⟨mi, e0, ests, mask, c1, c2, c3, c4, c5, c6, c7, c8, c9⟩ :=
      C75_training L coupling alpha advanced nSteps maxIter X' (maskedLabels sd y) sd g hX' hm ha hn gamma (by rw [hsm]; exact hgam)
        hg1 hg2 hs ht hg
    rw [hsm] at c2
    exact ⟨g, mi, e0, ests, mask, by rw [← h2], c1, c2, c3, c4, c6, c8, c9⟩

/-- C113 (labels handed to the transport method). Outside a pipeline the target labels given to `fit` reach the transport method: they
change nothing as long as the coupling stays the same. -/
theorem C113_gradual_target_labels {K : Type} [Field K] [LinearOrder K] [IsStrictOrderedRing K] {d : Nat} {β : Type} (L : GLearner K d β E)
    (coupling : List (Fin d → K) → List β → List (Fin d → K) → List β → List (List K)) (alpha : ℚ) (advanced : Bool)
    (nSteps : Nat) (maxIter : Option Nat) (X : List (Fin d → K)) (y y' : List β) (sd : List Int)
    (hX : sd.length = X.length) (hy : sd.length = y.length) (hy' : sd.length = y'.length)
    (hs : sourceRows sd y = sourceRows sd y')
    (hc : coupling (sourceRows sd X) (sourceRows sd y) (targetRows sd X) (targetRows sd y)
      = coupling (sourceRows sd X) (sourceRows sd y) (targetRows sd X) (targetRows sd y')) :
    gradFit L coupling alpha advanced nSteps maxIter X y sd = gradFit L coupling alpha advanced nSteps maxIter X y' sd := by
  rw [gradFit_prefix L coupling alpha advanced nSteps maxIter X y sd hX hy,
    gradFit_prefix L coupling alpha advanced nSteps maxIter X y' sd hX hy', hc, hs]

/-- C113 (target labels used outside a pipeline). With a coupling that avoids pairs with different labels — what the transport classes of
POT compute when labels of both sides are given — two direct calls of `fit` that differ only in the labels of the target rows train
different classifiers. -/
theorem C113_gradual_direct_counterexample :
    ∃ (L : GLearner ℚ 1 Int Int) (coupling : List (Fin 1 → ℚ) → List Int → List (Fin 1 → ℚ) → List Int → List (List ℚ))
      (X : List (Fin 1 → ℚ)) (y y' : List Int) (sd : List Int) (g g' : GFit ℚ 1 Int Int),
      sourceRows sd y = sourceRows sd y' ∧ gradFit L coupling 0 false 1 (some 100) X y sd = .ok g ∧
      gradFit L coupling 0 false 1 (some 100) X y' sd = .ok g' ∧ g.est ≠ g'.est := by
  let L : GLearner ℚ 1 Int Int := ⟨fun _ X y => match X.zip y with | [] => .error .valueError | (x, v) :: _ => .ok (v + ⌊x 0⌋), fun e x => e + ⌊x 0⌋⟩
  let C : List (Fin 1 → ℚ) → List Int → List (Fin 1 → ℚ) → List Int → List (List ℚ) :=
    fun _ ys _ yt => ys.map (fun a => yt.map (fun b => if a = b then 1 else 0))
  let X : List (Fin 1 → ℚ) := [fun _ => 0, fun _ => 1, fun _ => 5]
  refine ⟨L, C, X, [0, 0, 1], [0, 1, 0], [1, -2, -2], ?_⟩
  have e1 : ∃ g, gradFit L C 0 false 1 (some 100) X [0, 0, 1] [1, -2, -2] = .ok g ∧ g.est = 2 := by
    have : (gradFit L C 0 false 1 (some 100) X [0, 0, 1] [1, -2, -2]).map (fun g => g.est) = .ok 2 := by decide +kernel
    cases h : gradFit L C 0 false 1 (some 100) X [0, 0, 1] [1, -2, -2] with
    | error e => rw [h] at this; cases this
    | ok g => rw [h] at this; exact ⟨g, rfl, by injection this⟩
  have e2 : ∃ g, gradFit L C 0 false 1 (some 100) X [0, 1, 0] [1, -2, -2] = .ok g ∧ g.est = 10 := by
    have : (gradFit L C 0 false 1 (some 100) X [0, 1, 0] [1, -2, -2]).map (fun g => g.est) = .ok 10 := by decide +kernel
    cases h : gradFit L C 0 false 1 (some 100) X [0, 1, 0] [1, -2, -2] with
    | error e => rw [h] at this; cases this
    | ok g => rw [h] at this; exact ⟨g, rfl, by injection this⟩
  obtain ⟨g, h1, h2⟩ := e1
  obtain ⟨g', h3, h4⟩ := e2
  exact ⟨g, g', by decide, h1, h3, by rw [h2, h4]; decide⟩

/-- C113 (DASVM in a pipeline, training). Fitting a pipeline that ends in a `DASVMClassifier` hands all adapted rows and the masked
labels to it, and trains what `fit` trains on the adapted rows with the true labels: masked or not, target labels are not used. -/
theorem C113_dasvm_pipeline_fit {K : Type} [Field K] [LinearOrder K] [Cell α] (keep : String → Bool)
    (es : List (Est α σ)) (wrap : SL.Fitted E → σ) (L : Learner α Num E K) (k maxIter : Nat) (X X' : List α) (y : List Num)
    (sd : List Int) (w : Option (List Num)) (calls : List (Call α)) (fs : List σ) (hk : keep "sample_domain" = true)
    (hsd : sd ≠ []) (hy : y.length = sd.length) (hX' : sd.length = X'.length) (hinf : Num.pinf ∉ y ∧ Num.ninf ∉ y)
    (h : Adapts sd (maskedLabels sd y) es ⟨X, none, none⟩ ⟨X', none, w⟩ calls fs) :
    pipelineFit (daPipeline keep es (selfEst wrap (fun X y sd => dasvmFit L k maxIter X y (.vec sd))) true) X (some y)
        [("sample_domain", domParam sd)] =
      (calls ++ [⟨X', some (maskedLabels sd y), [("sample_domain", domParam sd)]⟩],
        match dasvmFit L k maxIter X' y (.vec sd) with
        | .error e => .error e
        | .ok f => .ok (fs.map .one ++ [.one (wrap f)], some (maskedLabels sd y))) := by
  rw [selfEst_fit keep es wrap _ X X' y sd w calls fs hk hsd hy hinf h]
  have hX0 : X' ≠ [] := by rintro rfl; exact hsd (List.length_eq_zero_iff.1 (by simpa using hX'))
  have hd : dasvmFit L k maxIter X' (maskedLabels sd y) (.vec sd) = dasvmFit L k maxIter X' y (.vec sd) := by
    have hm : sd.length = (maskedLabels sd y).length := (length_maskedLabels hy).symm
    unfold dasvmFit
    rw [check_ok hX0 hX']
    simp only [ok_bind]
    rw [splitX_ok hsd hX', splitX_ok hsd hm, splitX_ok hsd hy.symm]
    simp only [ok_bind, sourceRows_masked hy]
  rw [hd]
  cases dasvmFit L k maxIter X' y (.vec sd) <;> rfl

/-! ### Prediction -/

theorem route_self {p : Dict} : routeParams selfReq p = .ok [] := by
  simp [routeParams, selfReq]

/-- C113 (prediction through adapters). A method of the fitted pipeline on target data, with or without domain labels, is that method
of the fitted self-labelling estimator on the rows that the adapters make of them; no keyword argument reaches it. -/
theorem C113_pipeline_query (keep : String → Bool) (mask : Bool) (es : List (Est α σ)) (fs : List σ) (fin : Est α σ) (f : σ)
    (ask : σ → List α → Dict → Py γ) (X Z : List α) (p : Dict) (hk : keep "sample_domain" = true) (hp : TargetParams X p)
    (h : Passes p es fs X Z) :
    pipelineRoute (fittedSteps keep mask es fs) (keep, ⟨fin, mask, true⟩, f) selfReq (selfQuery ask) X none p = ask f Z [] := by
  have hc : ∀ r, AsksDomain r → consumeParams r p = p := fun r hr => consume_target hr hp
  have hkp := keep_target hk hp
  clear hp
  induction h with
  | nil X =>
    simp only [fittedSteps, List.zipWith_nil_left, pipelineRoute, Sel.sharedRoute, prepareRouting, Bool.true_or, if_true,
      route_self, Sel.removeMasked, selfQuery]
  | step e es f1 fs X X' Z h1 h2 h3 h4 ih =>
    simp only [fittedSteps, List.zipWith_cons_cons, pipelineRoute, Sel.sharedTransform, prepareRouting, h1,
      Bool.not_true, Bool.or_false, Bool.false_eq_true, if_false, hkp, hc _ h2, h3]
    exact ih

/-- C113 (source rows are not refused). With the estimator as the only step, source rows are predicted like any others: the answer
does not depend on `sample_domain` or `allow_source`.  Called directly, the same method of a base estimator that takes no keyword
arguments raises `TypeError` as soon as one of them is given. -/
theorem C113_source_rows_accepted {β : Type} (keep : String → Bool) (mask : Bool) (fin : Est α σ) (f : σ) (p : Dict)
    (X : List α) (predict : E → α → β) (e : E) (unwrap : σ → GBase E) (hf : unwrap f = .fitted e) (hX : X ≠ []) :
    pipelineRoute [] (keep, ⟨fin, mask, true⟩, f) selfReq (selfQuery (fun f => gradAsk true (rowwise predict) (unwrap f))) X none p
      = .ok (X.map (predict e)) ∧
    (p ≠ [] → gradAsk true (rowwise predict) (unwrap f) X p = .error .typeError) := by
  constructor
  · simp [pipelineRoute, Sel.sharedRoute, prepareRouting, route_self, Sel.removeMasked, selfQuery, gradAsk, hf, rowwise, RW.batch, hX]
  · intro hp
    simp [gradAsk, hf, rowwise, hp]

/-- C113 (from training to prediction, gradual adaptation). If training in the pipeline returned, prediction of target data is the last
trained classifier applied to each adapted row. -/
theorem C113_gradual_fit_then_predict {K : Type} [Field K] [LinearOrder K] {d : Nat} [Cell (Fin d → K)] (keep : String → Bool)
    (es : List (Est (Fin d → K) (σ ⊕ GFit K d Num E))) (L : GLearner K d Num E)
    (coupling : List (Fin d → K) → List Num → List (Fin d → K) → List Num → List (List K)) (alpha : ℚ) (advanced : Bool)
    (nSteps : Nat) (maxIter : Option Nat) (X X' Xt Z : List (Fin d → K)) (y : List Num) (sd : List Int) (w : Option (List Num))
    (calls : List (Call (Fin d → K))) (fs : List (σ ⊕ GFit K d Num E)) (p : Dict) (hk : keep "sample_domain" = true) (hsd : sd ≠ [])
    (hy : y.length = sd.length) (hinf : Num.pinf ∉ y ∧ Num.ninf ∉ y)
    (h : Adapts sd (maskedLabels sd y) es ⟨X, none, none⟩ ⟨X', none, w⟩ calls fs) (g : GFit K d Num E)
    (hg : gradFit L coupling alpha advanced nSteps maxIter X' (maskedLabels sd y) sd = .ok g)
    (hp : TargetParams Xt p) (hpass : Passes p es fs Xt Z) (hZ : Z ≠ []) :
    ∃ f, (pipelineFit (daPipeline keep es (selfEst Sum.inr (gradFit L coupling alpha advanced nSteps maxIter)) true) X (some y)
        [("sample_domain", domParam sd)]).2 = .ok (fs.map .one ++ [.one f], some (maskedLabels sd y)) ∧
      pipelineRoute (fittedSteps keep true es fs) (keep, ⟨selfEst Sum.inr (gradFit L coupling alpha advanced nSteps maxIter), true, true⟩, f)
        selfReq (selfQuery (fun s => gradAsk true (rowwise L.predict)
          (match s with | .inl _ => .unfitted | .inr g => .fitted g.est))) Xt none p = .ok (Z.map (L.predict g.est)) := by
  refine ⟨.inr g, ?_, ?_⟩
  · rw [selfEst_fit keep es _ _ X X' y sd w calls fs hk hsd hy hinf h, hg]
  · rw [C113_pipeline_query keep true es fs _ _ _ Xt Z p hk hp hpass]
    simp [gradAsk, rowwise, RW.batch, hZ]

/-- C113 (from training to prediction, DASVM). Labels and decision values of target data come from the last classifier, which was
trained on the target rows only; probabilities come from the first one, trained on the source rows only. -/
theorem C113_dasvm_fit_then_predict {K : Type} [Field K] [LinearOrder K] [IsStrictOrderedRing K] [Cell α] {P : Type}
    (keep : String → Bool) (es : List (Est α (σ ⊕ SL.Fitted E))) (L : Learner α Num E K) (proba : E → α → P) (k maxIter : Nat)
    (X X' Xt Z : List α) (y : List Num) (sd : List Int) (w : Option (List Num)) (calls : List (Call α))
    (fs : List (σ ⊕ SL.Fitted E)) (p : Dict) (hk : keep "sample_domain" = true) (hsd : sd ≠ []) (hy : y.length = sd.length)
    (hX' : sd.length = X'.length) (hinf : Num.pinf ∉ y ∧ Num.ninf ∉ y)
    (h : Adapts sd (maskedLabels sd y) es ⟨X, none, none⟩ ⟨X', none, w⟩ calls fs) (g : SL.Fitted E)
    (hg : dasvmFit L k maxIter X' y (.vec sd) = .ok g) (hp : TargetParams Xt p) (hpass : Passes p es fs Xt Z) (hZ : Z ≠ [])
    (fin : Est α (σ ⊕ SL.Fitted E)) (hfin : fin = selfEst Sum.inr (fun X y sd => dasvmFit L k maxIter X y (.vec sd)))
    (state : σ ⊕ SL.Fitted E → Option (SL.Fitted E)) (hstate : ∀ g, state (.inr g) = some g) :
    ∃ f last first final, (pipelineFit (daPipeline keep es fin true) X (some y) [("sample_domain", domParam sd)]).2
        = .ok (fs.map .one ++ [.one f], some (maskedLabels sd y)) ∧
      L.fit (sourceRows sd X') (sourceRows sd y) = .ok first ∧
      L.fit (targetRows sd X') ((targetRows sd X').map (L.predict last)) = .ok final ∧
      pipelineRoute (fittedSteps keep true es fs) (keep, ⟨fin, true, true⟩, f) selfReq
        (selfQuery (fun s => dasvmAsk (rowwise L.predict) (state s))) Xt none p = .ok (Z.map (L.predict final)) ∧
      pipelineRoute (fittedSteps keep true es fs) (keep, ⟨fin, true, true⟩, f) selfReq
        (selfQuery (fun s => dasvmAsk (rowwise L.decision) (state s))) Xt none p = .ok (Z.map (L.decision final)) ∧
      pipelineRoute (fittedSteps keep true es fs) (keep, ⟨fin, true, true⟩, f) selfReq
        (selfQuery (fun s => dasvmAskProba true (rowwise proba) (state s))) Xt none p = .ok (Z.map (proba first)) := by
  have hX0 : X' ≠ [] := by rintro rfl; exact hsd (List.length_eq_zero_iff.1 (by simpa using hX'))
  obtain ⟨ests, last, dels, adds, -, -, -, -, c1, -, c2, -⟩ :=
    C74_training L k maxIter X' y sd g hX0 (by omega) hX' hg
  subst hfin
  refine ⟨.inr g, last, g.base, g.final, ?_, c1, c2, ?_, ?_, ?_⟩
  · rw [C113_dasvm_pipeline_fit keep es _ L k maxIter X X' y sd w calls fs hk hsd hy hX' hinf h, hg]
  · rw [C113_pipeline_query keep true es fs _ _ _ Xt Z p hk hp hpass, hstate]
    simp [dasvmAsk, rowwise, RW.batch, hZ]
  · rw [C113_pipeline_query keep true es fs _ _ _ Xt Z p hk hp hpass, hstate]
    simp [dasvmAsk, rowwise, RW.batch, hZ]
  · rw [C113_pipeline_query keep true es fs _ _ _ Xt Z p hk hp hpass, hstate]
    simp [dasvmAskProba, rowwise, RW.batch, hZ]

/-! ### What is kept -/

/-- C113 (kept classifiers and data). After the first `fit` with `n_steps` steps, `estimators_` holds the `n_steps + 1` classifiers of the
run, the last one being the one used by `predict`, if `save_estimators` is set, and nothing otherwise; `intermediate_data_` holds the
`n_steps` training sets of the intermediate steps if `save_intermediate_data` is set, and does not exist otherwise.  Without a base
estimator, a network with `max_iter = 100` is used and left with `100 + 100 * n_steps`. -/
theorem C113_kept {K : Type} [Field K] [LinearOrder K] [IsStrictOrderedRing K] {d : Nat} {β : Type} (mlp : GLearner K d β E)
    (given : Option (GLearner K d β E × Option Nat))
    (coupling : List (Fin d → K) → List β → List (Fin d → K) → List β → List (List K)) (alpha : ℚ) (advanced : Bool)
    (nSteps : Nat) (X : List (Fin d → K)) (y : List β) (sd : List Int) (g : GFit K d β E)
    (hX : sd.length = X.length) (hy : sd.length = y.length) (ha : 0 ≤ alpha) (hn : 0 < nSteps) (gamma : List (List K))
    (hgam : gamma = coupling (sourceRows sd X) (sourceRows sd y) (targetRows sd X) (targetRows sd y))
    (hg1 : gamma.length = (sourceRows sd X).length) (hg2 : ∀ r ∈ gamma, r.length = (targetRows sd X).length)
    (hs : sourceRows sd X ≠ []) (ht : targetRows sd X ≠ [])
    (h : gradFitAny mlp given coupling alpha advanced nSteps X y sd = .ok g) :
    (∀ b, (gradSaved true b g).1.length = nSteps + 1 ∧ (gradSaved true b g).1.getLast? = some g.est ∧ (gradSaved false b g).1 = []) ∧
    (∀ b, (∃ l, (gradSaved b true g).2 = some l ∧ l.length = nSteps) ∧ (gradSaved b false g).2 = none) ∧
    (given = none → g.maxIter = some (100 + 100 * nSteps) ∧
      ∃ e, g.ests.head? = some e ∧ mlp.fit (some 100) (sourceRows sd X) (sourceRows sd y) = .ok e) := by
  have key : ∀ (L : GLearner K d β E) (m : Option Nat), gradFit L coupling alpha advanced nSteps m X y sd = .ok g →
      g.ests.length = nSteps + 1 ∧ g.ests.getLast? = some g.est ∧ g.data.length = nSteps ∧
      ∃ mi e, m = some mi ∧ g.maxIter = some (mi + 100 * nSteps) ∧ g.ests.head? = some e ∧
        L.fit (some mi) (sourceRows sd X) (sourceRows sd y) = .ok e := by
    intro L m h
    obtain ⟨mi, e0, es, mask, c1, c2, c3, c4, c5, c6, c7, -, -⟩ :=
      C75_training L coupling alpha advanced nSteps m X y sd g hX hy ha hn gamma hgam hg1 hg2 hs ht h
    refine ⟨by simp [c3, c4], ?_, c5, mi, e0, c1, c7, by simp [c3], c2⟩
    rw [c3, List.getLast?_cons, c6]; rfl
  unfold gradFitAny at h
  cases given with
  | none =>
    obtain ⟨k1, k2, k3, mi, e, k4, k5, k6, k7⟩ := key mlp _ h
    injection k4 with k4
    subst k4
    exact ⟨fun b => ⟨k1, k2, rfl⟩, fun b => ⟨⟨g.data, rfl, k3⟩, rfl⟩, fun _ => ⟨k5, e, k6, k7⟩⟩
  | some p =>
    obtain ⟨k1, k2, k3, -⟩ := key p.1 p.2 h
    exact ⟨fun b => ⟨k1, k2, rfl⟩, fun b => ⟨⟨g.data, rfl, k3⟩, rfl⟩, fun h => by cases h⟩

/-! ### Before training -/

/-- C113 (before training). A `GradualEstimator` built around a classifier that is already fitted predicts before `fit` was ever called,
with that classifier; built around an unfitted one, or none, it raises `ValueError`.  A `DASVMClassifier` always raises: for `predict`
the exception is `AttributeError`, not the `ValueError` of scikit-learn's estimators. -/
theorem C113_before_fit_counterexample (predict : E → α → γ) (e : E) (X : List α) (hX : X ≠ []) :
    gradAsk true (rowwise predict) (.fitted e) X [] = .ok (X.map (predict e)) ∧
    gradAsk true (rowwise predict) .unfitted X [] = .error .valueError ∧
    gradAsk true (rowwise predict) .missing X [] = .error .valueError ∧
    dasvmAsk (rowwise predict) none X [] = .error .attributeError ∧
    dasvmAskProba true (rowwise predict) none X [] = .error .valueError := by
  simp [gradAsk, rowwise, RW.batch, hX, dasvmAsk, dasvmAskProba]

/-! ### Scores -/

theorem count_zipWith_eq {β : Type} [DecidableEq β] (p y : List β) :
    (List.zipWith (fun a b => decide (a = b)) p y).count true = (p.zip y).countP (fun r => decide (r.1 = r.2)) := by
  induction p generalizing y with
  | nil => simp
  | cons a p ih =>
    cases y with
    | nil => simp
    | cons b y => by_cases h : a = b <;> simp [h, ih]

/-- C113 (score of gradual adaptation). On `n` rows with `n` labels the score is the number of rows whose label is predicted, divided by
`n`; it lies between 0 and 1, and it is 1 exactly when all labels are predicted. -/
theorem C113_gradual_score {β : Type} [DecidableEq β] (predict : E → α → β) (e : E) (X : List α) (y : List β) (hX : X ≠ [])
    (hy : y.length = X.length) :
    ∃ s : ℚ, gradScore (fun e X => rowwise predict e X []) (.fitted e) X y = .ok s ∧
      s * X.length = ((X.zip y).countP (fun r => decide (predict e r.1 = r.2)) : Nat) ∧ 0 ≤ s ∧ s ≤ 1 ∧
      (s = 1 ↔ ∀ r ∈ X.zip y, predict e r.1 = r.2) := by
  have hn : (0 : ℚ) < X.length := by exact_mod_cast List.length_pos_iff.2 hX
  have hcount : (List.zipWith (fun a b => decide (a = b)) (X.map (predict e)) y).count true
      = (X.zip y).countP (fun r => decide (predict e r.1 = r.2)) := by
    rw [count_zipWith_eq, List.zip_map_left, List.countP_map]; rfl
  have hlen : (X.zip y).length = X.length := by simp [hy]
  have hle : (X.zip y).countP (fun r => decide (predict e r.1 = r.2)) ≤ X.length := hlen ▸ List.countP_le_length
  refine ⟨((X.zip y).countP (fun r => decide (predict e r.1 = r.2)) : ℚ) / X.length, ?_, ?_, ?_, ?_, ?_⟩
  · simp [gradScore, rowwise, RW.batch, hX, hcount, hy]
  · rw [div_mul_cancel₀ _ hn.ne']
  · positivity
  · rw [div_le_one hn]; exact_mod_cast hle
  · rw [div_eq_one_iff_eq hn.ne']
    rw [Nat.cast_inj, ← hlen, List.countP_eq_length]
    simp

/-- C113 (score of DASVM). After training, `score` is the score of the last classifier, trained on the target rows only, with the given
weights; the warning is issued exactly when `sample_domain` is given and contains a source label. -/
theorem C113_dasvm_score {K β : Type} [Field K] [LinearOrder K] [IsStrictOrderedRing K] [DecidableEq β] (L : Learner α β E K)
    (k maxIter : Nat) (X : List α) (y : List β) (sd : List Int) (f : SL.Fitted E) (hX : X ≠ []) (hy : y.length = X.length)
    (hlen : sd.length = X.length) (h : dasvmFit L k maxIter X y (.vec sd) = .ok f)
    (answer : E → List α → List β → Option (List K) → Py γ) (Z : List α) (yz : List β) (sdz : Option (List Int))
    (sw : Option (List K)) :
    ∃ last final warn, L.fit (targetRows sd X) ((targetRows sd X).map (L.predict last)) = .ok final ∧
      (warn = true ↔ ∃ l, sdz = some l ∧ ∃ d ∈ l, 0 ≤ d) ∧
      dasvmScore answer (some f) Z yz sdz sw = (answer final Z yz sw).map (fun v => (warn, v)) := by
  obtain ⟨ests, last, dels, adds, -, -, -, -, -, -, c2, -⟩ := C74_training L k maxIter X y sd f hX hy hlen h
  refine ⟨last, f.final, match sdz with | none => false | some l => l.any (fun d => decide (0 ≤ d)), c2, ?_, ?_⟩
  · cases sdz <;> simp
  · simp only [dasvmScore]
    cases answer f.final Z yz sw <;> cases sdz <;> rfl

example : dasvmScore (fun (e : Int) X y (_ : Option (List ℚ)) => .ok ((List.zipWith (fun x v => decide ((e ≤ x) = (v = 1))) X y).count true))
    (some ⟨3, 9, [], [], []⟩) [1, 4, 5] [0, 1, (0 : Int)] (some [-2, 1, -2]) none = .ok (true, 2) := by decide +kernel

/-- C113 (score through a pipeline). Scoring the fitted pipeline on rows with labels none of which is a mask is the score of the
estimator on exactly these rows and labels, whatever `sample_domain` and `allow_source` are. -/
theorem C113_pipeline_score (keep : String → Bool) (mask : Bool) (fin : Est α σ) (f : σ) (hfin : fin.hasTransform = false)
    (ask : σ → List α → List Num → Py γ) (X : List α) (y : List Num) (p : Dict) (hy : X.length = y.length) (hm : NoneMasked y) :
    pipelineRoute [] (keep, ⟨fin, mask, true⟩, f) selfReq (selfScore ask) X (some y) p = ask f X y := by
  simp [pipelineRoute, Sel.sharedRoute, prepareRouting, route_self, Sel.removeMasked, hfin, Dict.has, removeMasked_none hy hm,
    selfScore]

end

/-! ### Concrete cases -/

namespace Demo113

def num : Num → ℚ
  | .fin q => q
  | _ => 0

/-- A classifier with one threshold, the mean of its training rows. -/
def svm : Learner Num Num ℚ ℚ :=
  ⟨fun X _ => .ok ((X.map num).sum / X.length), fun e x => if e ≤ num x then .fin 1 else .fin 0, fun e x => (num x - e) / 4⟩

def outcome {α σ : Type} (r : Run α (List (Skada.Fitted σ) × Option (List Num))) : Py (List σ) :=
  r.2.map (fun p => p.1.filterMap (fun f => match f with | .one s => some s | _ => none))

/-- DASVM behind a scaler: the state of the last step is (threshold used by `predict`, threshold used by `predict_proba`); the target
labels (here 7) are hidden. -/
example : ((pipelineFit (daPipeline (fun _ => true) [⟨true, true, [], [], [], fun _ => .ok (0, 0),
      fun c => .ok ((0, 0), .arr (c.X.map (fun v => .fin (2 * num v)))), fun _ X _ => .ok (.arr X)⟩]
      (selfEst (fun f => (f.final, f.base)) (fun X y sd => dasvmFit svm 1 1000 X y (.vec sd))) true)
    [.fin 0, .fin 5, .fin 2, .fin 10, .fin (9 / 4)] (some [.fin 0, .fin 1, .fin 7, .fin 7, .fin 7])
    [("sample_domain", domParam [1, 1, -2, -2, -2])]).1.map (fun c => (c.X, c.y))).getLast? =
      some ([.fin 0, .fin 10, .fin 4, .fin 20, .fin (9 / 2)], some [.fin 0, .fin 1, .fin (-1), .fin (-1), .fin (-1)]) ∧
    outcome (pipelineFit (daPipeline (fun _ => true) [⟨true, true, [], [], [], fun _ => .ok (0, 0),
      fun c => .ok ((0, 0), .arr (c.X.map (fun v => .fin (2 * num v)))), fun _ X _ => .ok (.arr X)⟩]
      (selfEst (fun f => (f.final, f.base)) (fun X y sd => dasvmFit svm 1 1000 X y (.vec sd))) true)
    [.fin 0, .fin 5, .fin 2, .fin 10, .fin (9 / 4)] (some [.fin 0, .fin 1, .fin 7, .fin 7, .fin 7])
    [("sample_domain", domParam [1, 1, -2, -2, -2])]) = .ok [(0, 0), (19 / 2, 5)] := by
  decide +kernel

/-- A base learner whose model is the label of its first training row. -/
def first : GLearner ℚ 1 Num Num :=
  ⟨fun _ _ y => match y with | [] => .error .valueError | v :: _ => .ok v, fun e x => if x 0 < 50 then e else .fin (num e + 1)⟩

def rows (l : List ℚ) : List (Fin 1 → ℚ) := l.map (fun v _ => v)

/-- Gradual adaptation as the only step: all classifiers of the run, first to last. -/
example : outcome (pipelineFit (daPipeline (fun _ => true) []
      (selfEst (fun g => g.ests) (gradFit first (fun _ _ _ _ => [[1 / 10, 4 / 10], [3 / 10, 2 / 10]]) (1 / 2) false 2 (some 100))) true)
    (rows [0, 100, 10, 200]) (some [.fin 7, .fin 3, .fin 8, .fin 5]) [("sample_domain", domParam [1, -2, 1, -2])])
    = .ok [[.fin 7, .fin 8, .fin 9]] := by
  decide +kernel

/-- The hypotheses of C113_gradual_fit_then_predict are met without adapters. -/
example (g : GFit ℚ 1 Num Num)
    (hg : gradFit first (fun _ _ _ _ => [[1 / 10, 4 / 10], [3 / 10, 2 / 10]]) (1 / 2) false 2 (some 100) (rows [0, 100, 10, 200])
      (maskedLabels [1, -2, 1, -2] [.fin 7, .fin 3, .fin 8, .fin 5]) [1, -2, 1, -2] = .ok g) :=
  C113_gradual_fit_then_predict (σ := Unit) (fun _ => true) [] first (fun _ _ _ _ => [[1 / 10, 4 / 10], [3 / 10, 2 / 10]]) (1 / 2)
    false 2 (some 100) (rows [0, 100, 10, 200]) (rows [0, 100, 10, 200]) (rows [60, 40]) (rows [60, 40])
    [.fin 7, .fin 3, .fin 8, .fin 5] [1, -2, 1, -2] none [] [] [("sample_domain", domParam [-2, -2])] rfl (by decide) rfl (by decide)
    (.nil _) g hg (Or.inr ⟨[-2, -2], rfl, by decide, rfl⟩) (.nil _) (by simp [rows])

/-- With the default base estimator, two steps. -/
example : (gradFitAny first none (fun _ _ _ _ => [[1 / 10, 4 / 10], [3 / 10, 2 / 10]]) (1 / 2) false 2 (rows [0, 100, 10, 200])
    [.fin 7, .fin (-1), .fin 8, .fin (-1)] [1, -2, 1, -2]).map (fun g => ((gradSaved true false g).1, g.maxIter))
    = .ok ([.fin 7, .fin 8, .fin 9], some 300) := by decide +kernel

/-- Two of three labels are predicted. -/
example : gradScore (fun e X => rowwise (fun (e : Int) (x : Int) => decide (e ≤ x)) e X []) (.fitted 3) [1, 4, 5] [false, true, false]
    = .ok (2 / 3) := by decide +kernel

/-- Through a pipeline a row whose label is a mask does not count. -/
example : pipelineRoute [] (fun _ => true, ⟨selfEst (fun n : Nat => n) (fun _ _ _ => .ok 0), true, true⟩, 3) selfReq
    (selfScore (fun n X y => gradScore (fun (_ : Unit) X => .ok (X.map (fun _ => Num.fin n))) (.fitted ()) X y))
    [(5 : Int), 6, 7] (some [.fin 3, .fin (-1), .fin 4]) [("sample_domain", domParam [-2, -2, -2])] = .ok (1 / 2) := by
  decide +kernel

/-- Nothing is a mask among the labels of the hypotheses of C113_pipeline_score. -/
example : NoneMasked [.fin 3, .fin 0, .fin 4] := Or.inl (by
  intro v hv
  simp only [List.mem_cons, List.not_mem_nil, or_false] at hv
  rcases hv with rfl | rfl | rfl
  · exact ⟨⟨3, rfl⟩, by decide⟩
  · exact ⟨⟨0, rfl⟩, by simp⟩
  · exact ⟨⟨4, rfl⟩, by decide⟩)

end Demo113

end Skada

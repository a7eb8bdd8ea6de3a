/-
Property C109: a fitted DA pipeline predicts target data with the final estimator trained on the adapted source data.
-/
import Verif.Props.PipelineFit
import Verif.Props.PerDomain
import Verif.Props.Mapping
import Verif.Model.PipelineRun

namespace Skada
open Np Spec

variable {α β σ : Type}

/-- How target data may be passed to a fitted pipeline: without `sample_domain`, or with one negative label per row. -/
def Spec.TargetParams (X : List α) (p : Dict) : Prop :=
  p = [] ∨ ∃ sd : List Int, sd.length = X.length ∧ (∀ d ∈ sd, d < 0) ∧ p = [("sample_domain", domParam sd)]

/-- An adapter that leaves target data as they are at prediction time. -/
def Spec.KeepsTargets (e : Est α σ) : Prop :=
  ∀ (f : σ) (X : List α) (p : Dict), X ≠ [] → TargetParams X p → e.transform f X p = .ok (.arr X)

/-- An adapter that refuses source data at prediction time. -/
def Spec.RefusesSources (e : Est α σ) : Prop :=
  ∀ (f : σ) (X : List α) (sd : List Int), X ≠ [] → sd.length = X.length → (∃ d ∈ sd, 0 ≤ d) →
    e.transform f X [("sample_domain", domParam sd)] = .error .valueError

theorem consume_target {r : Request} {X : List α} {p : Dict} (h : AsksDomain r) (hp : TargetParams X p) :
    consumeParams r p = p := by
  rcases hp with rfl | ⟨sd, _, _, rfl⟩
  · unfold consumeParams
    rw [List.filterMap_eq_nil_iff]
    rintro ⟨k, a⟩ _
    cases a <;> rfl
  · exact consume_domain h List.lookup_cons_self (by rfl)

theorem keep_target {keep : String → Bool} (hk : keep "sample_domain" = true) {X : List α} {p : Dict}
    (hp : TargetParams X p) : List.filter (fun kv : String × Param Num => keep kv.1) p = p := by
  rcases hp with rfl | ⟨sd, _, _, rfl⟩
  · rfl
  · exact keep_sd hk sd

/-- An ordinary request: nothing is requested, and `sample_domain` is not mentioned. -/
def Spec.Plain (r : Request) : Prop := AsksNothing r ∧ ∀ q ∈ r, q.1 ≠ "sample_domain"

theorem route_plain {r : Request} (h : Plain r) {X : List α} {p : Dict} (hp : TargetParams X p) :
    routeParams r p = .ok [] := by
  have hf : ∀ args : Dict, (∀ k, k ≠ "sample_domain" → args.lookup k = none) →
      (r.any (fun q => decide (q.2 = .unset) && Dict.has args q.1)) = false := by
    intro args ha
    rw [List.any_eq_false]
    intro q hq
    simp [Dict.has, ha q.1 (h.2 q hq)]
  unfold routeParams
  dsimp only
  rw [hf]
  · simp only [Bool.false_eq_true, if_false, Except.ok.injEq]
    rw [List.filterMap_eq_nil_iff]
    intro q hq
    rcases h.1 q hq with h | h | h <;> rw [h]
  · intro k hk
    rcases hp with rfl | ⟨sd, _, _, rfl⟩
    · rfl
    · simp only [ne_eq, domParam_ne_none, not_false_eq_true, decide_true, List.filter_cons_of_pos, List.filter_nil]
      rw [lookup_cons_ne hk]
      rfl

/-- The fitted steps of a DA pipeline, with their fitted estimators. -/
def Spec.fittedSteps (keep : String → Bool) (mask : Bool) (es : List (Est α σ)) (fs : List σ) :
    List ((String → Bool) × Sel α σ × σ) :=
  List.zipWith (fun e f => (keep, ⟨e, mask, false⟩, f)) es fs

/-- Data passing through the fitted steps: each step's `transform`, given the rows returned by the previous step and the
parameters of the call, returns rows. -/
inductive Spec.Passes (p : Dict) : List (Est α σ) → List σ → List α → List α → Prop
  | nil (X : List α) : Passes p [] [] X X
  | step (e : Est α σ) (es : List (Est α σ)) (f : σ) (fs : List σ) (X X' Z : List α) (h1 : e.hasTransform = true)
      (h2 : AsksDomain e.transformReq) (h3 : e.transform f X p = .ok (.arr X')) (h4 : Passes p es fs X' Z) :
      Passes p (e :: es) (f :: fs) X Z

/-- C109 (prediction, any adapters). Any method of the fitted pipeline on target data is that method of the fitted final
estimator on the rows that the adapters' `transform`s, one after the other, make of them. -/
theorem C109_predict (keep : String → Bool) (mask : Bool) (es : List (Est α σ)) (fs : List σ) (fin : Est α σ)
    (f : σ) (req : Request) (query : σ → Call α → Py β) (X Z : List α) (p : Dict)
    (hk : keep "sample_domain" = true) (hreq : Plain req) (hp : TargetParams X p) (h : Passes p es fs X Z) :
    pipelineRoute (fittedSteps keep mask es fs) (keep, ⟨fin, mask, true⟩, f) req query X none p
      = query f ⟨Z, none, []⟩ := by
  have hc : ∀ r, AsksDomain r → consumeParams r p = p := fun r hr => consume_target hr hp
  have hkp := keep_target hk hp
  have hr := route_plain hreq hp
  clear hp
  induction h with
  | nil X =>
    simp only [fittedSteps, List.zipWith_nil_left, pipelineRoute, Sel.sharedRoute, prepareRouting, Bool.true_or, if_true,
      hkp, hr, Sel.removeMasked]
  | step e es f1 fs X X' Z h1 h2 h3 h4 ih =>
    simp only [fittedSteps, List.zipWith_cons_cons, pipelineRoute, Sel.sharedTransform, prepareRouting, h1,
      Bool.not_true, Bool.or_false, Bool.false_eq_true, if_false, hkp, hc _ h2, h3]
    exact ih

/-- C109 (prediction). If every adapter leaves target data as they are, any method of the fitted pipeline on target data,
with or without `sample_domain`, is that method of the fitted final estimator on the same data. -/
theorem C109_predict_targets (keep : String → Bool) (mask : Bool) (es : List (Est α σ)) (fs : List σ) (fin : Est α σ)
    (f : σ) (req : Request) (query : σ → Call α → Py β) (X : List α) (p : Dict)
    (hk : keep "sample_domain" = true) (hreq : Plain req)
    (hes : ∀ e ∈ es, e.hasTransform = true ∧ AsksDomain e.transformReq ∧ KeepsTargets e)
    (hX : X ≠ []) (hp : TargetParams X p) :
    pipelineRoute (fittedSteps keep mask es fs) (keep, ⟨fin, mask, true⟩, f) req query X none p
      = query f ⟨X, none, []⟩ := by
  induction es generalizing fs with
  | nil =>
    simp only [fittedSteps, List.zipWith_nil_left, pipelineRoute, Sel.sharedRoute, prepareRouting, Bool.true_or, if_true,
      keep_target hk hp, route_plain hreq hp, Sel.removeMasked]
  | cons e es ih =>
    cases fs with
    | nil =>
      simp only [fittedSteps, List.zipWith_nil_right, pipelineRoute, Sel.sharedRoute, prepareRouting, Bool.true_or, if_true,
        keep_target hk hp, route_plain hreq hp, Sel.removeMasked]
    | cons f1 fs =>
      obtain ⟨h1, h2, h3⟩ := hes e (by simp)
      have := ih fs (fun e he => hes e (by simp [he]))
      simp only [fittedSteps, List.zipWith_cons_cons, pipelineRoute, Sel.sharedTransform, prepareRouting, h1,
        Bool.not_true, Bool.or_false, Bool.false_eq_true, if_false, keep_target hk hp, consume_target h2 hp, h3 f1 X p hX hp]
      exact this

/-- C109 (source data refused). If the first step refuses source data, predicting rows among which there is a source
sample, without `allow_source`, raises `ValueError`. -/
theorem C109_sources_refused (keep : String → Bool) (mask : Bool) (e : Est α σ) (es : List (Est α σ)) (f1 : σ)
    (fs : List σ) (last : (String → Bool) × Sel α σ × σ) (req : Request) (query : σ → Call α → Py β) (X : List α)
    (sd : List Int) (hk : keep "sample_domain" = true) (htr : e.hasTransform = true) (hreq : AsksDomain e.transformReq)
    (he : RefusesSources e) (hX : X ≠ []) (hlen : sd.length = X.length) (hs : ∃ d ∈ sd, 0 ≤ d) :
    pipelineRoute (fittedSteps keep mask (e :: es) (f1 :: fs)) last req query X none [("sample_domain", domParam sd)]
      = .error .valueError := by
  simp only [fittedSteps, List.zipWith_cons_cons, pipelineRoute, Sel.sharedTransform, prepareRouting, htr,
    Bool.not_true, Bool.or_false, Bool.false_eq_true, if_false, keep_sd hk,
    consume_domain hreq (params := [("sample_domain", domParam sd)]) List.lookup_cons_self (by rfl), he f1 X sd hX hlen hs]

/-- C109 (end to end). Fit a DA pipeline whose adapters leave target data as they are, and predict target data: the
result is that of the final estimator, trained on exactly the adapted source rows, their labels and their weights, and
applied to the data as given. -/
theorem C109_fit_then_predict [Cell α] (keep : String → Bool) (es : List (Est α σ)) (fin : Est α σ) (X X' Xt : List α)
    (y : List Num) (sd : List Int) (w : Option (List Num)) (calls : List (Call α)) (fs : List σ) (a : Alias) (f : σ)
    (req : Request) (query : σ → Call α → Py β) (p pt : Dict)
    (hk : keep "sample_domain" = true) (hsd : sd ≠ []) (hy : y.length = sd.length) (hlab : Labelled sd y)
    (h : Adapts sd (maskedLabels sd y) es ⟨X, none, none⟩ ⟨X', none, w⟩ calls fs)
    (hX' : X'.length = sd.length) (hw : ∀ v, w = some v → v.length = sd.length)
    (htr : fin.hasTransform = false) (hreq : fin.fitReq = [("sample_weight", a)])
    (hp : a = .yes ∧ p = weightParam (w.map (sourceRows sd)) ∨ (a = .no ∨ a = .unset ∧ w = none) ∧ p = [])
    (hfit : fin.fit ⟨sourceRows sd X', some (sourceRows sd y), p⟩ = .ok f)
    (hes : ∀ e ∈ es, AsksDomain e.transformReq ∧ KeepsTargets e) (hq : Plain req)
    (hXt : Xt ≠ []) (hpt : TargetParams Xt pt) :
    (pipelineFit (daPipeline keep es fin true) X (some y) [("sample_domain", domParam sd)]).2
        = .ok (fs.map .one ++ [.one f], some (maskedLabels sd y)) ∧
      pipelineRoute (fittedSteps keep true es fs) (keep, ⟨fin, true, true⟩, f) req query Xt none pt
        = query f ⟨Xt, none, []⟩ := by
  constructor
  · rw [C108_training_data keep es fin X X' y sd w calls fs a hk hsd hy hlab h hX' hw htr hreq p hp, hfit]
  · have htrs : ∀ e ∈ es, e.hasTransform = true := by
      clear hes hX' hw hp hfit
      generalize (⟨X, none, none⟩ : Flow α) = a0 at h
      generalize (⟨X', none, w⟩ : Flow α) = b0 at h
      induction h with
      | nil a => intro e he; simp at he
      | step e rest a b c p f out calls fs hp ht hft hrun hout hrest ih =>
        intro e' he
        rcases List.mem_cons.1 he with rfl | he
        · exact ht
        · exact ih e' he
    exact C109_predict_targets keep true es fs fin f req query Xt pt hk hq
      (fun e he => ⟨htrs e he, (hes e he).1, (hes e he).2⟩) hXt hpt

/-! ### The adapters of the library -/

theorem asks_adapterReq : AsksDomain adapterReq := ⟨[], rfl, by simp⟩

theorem sdArg_domParam (sd : List Int) : sdArg (domParam sd) = .ok (.vec sd) := by
  have := domainsOf_domParam sd
  simp only [domParam] at this ⊢
  simp only [sdArg, this]

theorem nSource_eq_zero {sd : List Int} (h : ∀ d ∈ sd, d < 0) : nSource sd = 0 := by
  rw [nSource, List.countP_eq_zero]
  intro d hd
  simpa using h d hd

theorem nSource_pos {sd : List Int} (h : ∃ d ∈ sd, 0 ≤ d) : 0 < nSource sd := by
  rw [nSource, List.countP_pos_iff]
  obtain ⟨d, hd, h0⟩ := h
  exact ⟨d, hd, by simpa using h0⟩

theorem check_none_refusing {X : List α} (hX : X ≠ []) :
    checkXDomain X .none { allowSource := false } = .ok (X, List.replicate X.length (-1)) := by
  have hr : List.replicate X.length (-1 : Int) ≠ [] := by
    intro h; exact hX (List.length_eq_zero_iff.1 (by simpa using h))
  have hc := Map.check_noSource (sd := List.replicate X.length (-1)) hX (by simp)
    (nSource_eq_zero (by intro d hd; rw [List.eq_of_mem_replicate hd]; omega))
  simp only [checkXDomain, hX, if_false, Bool.not_true, Bool.false_eq_true, defaultTargetOnly] at hc ⊢
  exact hc false

/-- C109 (reweighting adapters). Whatever its `fit` and `compute_weights`, a reweighting adapter leaves target data as
they are and refuses source data at prediction time. -/
theorem C109_reweight_adapter {φ : Type} (wrap : φ → σ) (fit : List α → Option (List Num) → SDArg → Py φ)
    (weights : φ → List α → Option (List Num) → SDArg → Py (List (Option ℚ))) :
    KeepsTargets (reweightEst wrap fit weights) ∧ RefusesSources (reweightEst wrap fit weights) := by
  constructor
  · intro f X p hX hp
    rcases hp with rfl | ⟨sd, hl, hn, rfl⟩
    · simp only [reweightEst, baseTransform, Dict.get, List.lookup_nil, Option.getD_none, sdArg, truthy, check_none_refusing hX]
    · have h1 : Dict.get [("sample_domain", domParam sd)] "sample_domain" = domParam sd := get_eq_of_lookup List.lookup_cons_self
      have h2 : Dict.get [("sample_domain", domParam sd)] "allow_source" = .none := rfl
      simp only [reweightEst, baseTransform, h1, h2, sdArg_domParam, truthy, Map.check_noSource hX hl (nSource_eq_zero hn) false]
  · intro f X sd hX hl hs
    have h1 : Dict.get [("sample_domain", domParam sd)] "sample_domain" = domParam sd := get_eq_of_lookup List.lookup_cons_self
    have h2 : Dict.get [("sample_domain", domParam sd)] "allow_source" = .none := rfl
    simp only [reweightEst, baseTransform, h1, h2, sdArg_domParam, truthy, Map.check_source_refused hX hl (nSource_pos hs)]

/-- C109 (OT mapping adapters). Whatever the transport, an OT mapping adapter leaves target data as they are and refuses
source data at prediction time. -/
theorem C109_ot_adapter (wrap : (NArr (List Num) → Py (NArr (List Num))) → σ)
    (unwrap : σ → NArr (List Num) → Py (NArr (List Num))) (ot : NArr (List Num) → Option (List Num) → NArr (List Num) → Option (List Num) →
    Py (NArr (List Num) → Py (NArr (List Num)))) (tail : List Nat) :
    KeepsTargets (otEst wrap unwrap ot tail) ∧ RefusesSources (otEst wrap unwrap ot tail) := by
  have hwf : ∀ X : List (List Num), ∀ r ∈ X, Cell.cast DType.float r = r := by
    intro X r _
    have := cast_float_rows [r]
    simpa using this
  constructor
  · intro f X p hX hp
    rcases hp with rfl | ⟨sd, hl, hn, rfl⟩
    · have h1 := (C34_transform_targets (unwrap f) ⟨.float, tail, X⟩ (List.replicate X.length (-1)) hX (by simp) (hwf X)).1
        (nSource_eq_zero (by intro d hd; rw [List.eq_of_mem_replicate hd]; omega))
      have hc := Map.check_noSource (sd := List.replicate X.length (-1)) hX (by simp)
        (nSource_eq_zero (by intro d hd; rw [List.eq_of_mem_replicate hd]; omega))
      have : Map.otTransform (unwrap f) ⟨.float, tail, X⟩ .none false = .ok ⟨.float, tail, X⟩ := by
        rw [← h1]
        simp only [Map.otTransform, check_none_refusing hX, hc]
      simp only [otEst, mapEst, rowsOf, Dict.get, List.lookup_nil, Option.getD_none, sdArg, truthy, this]
    · have h1 : Dict.get [("sample_domain", domParam sd)] "sample_domain" = domParam sd := get_eq_of_lookup List.lookup_cons_self
      have h2 : Dict.get [("sample_domain", domParam sd)] "allow_source" = .none := rfl
      simp only [otEst, mapEst, rowsOf, h1, h2, sdArg_domParam, truthy,
        (C34_transform_targets (unwrap f) ⟨.float, tail, X⟩ sd hX hl (hwf X)).1 (nSource_eq_zero hn)]
  · intro f X sd hX hl hs
    have h1 : Dict.get [("sample_domain", domParam sd)] "sample_domain" = domParam sd := get_eq_of_lookup List.lookup_cons_self
    have h2 : Dict.get [("sample_domain", domParam sd)] "allow_source" = .none := rfl
    simp only [otEst, mapEst, rowsOf, h1, h2, sdArg_domParam, truthy,
      (C34_transform_targets (unwrap f) ⟨.float, tail, X⟩ sd hX hl (hwf X)).2 (nSource_pos hs)]

theorem get_sd (sd : List Int) : Dict.get [("sample_domain", domParam sd)] "sample_domain" = domParam sd :=
  get_eq_of_lookup List.lookup_cons_self

/-- C109 (reweighting method). The whole of a reweighting method: `fit` trains the final estimator on the source rows as
given, their labels, and the source part of the weights the adapter computed; predictions for target data are those of
that estimator. -/
theorem C109_reweighting_method [Cell α] {φ : Type} (keep : String → Bool) (wrap : φ → σ)
    (fit : List α → Option (List Num) → SDArg → Py φ)
    (weights : φ → List α → Option (List Num) → SDArg → Py (List (Option ℚ))) (fin : Est α σ) (X Xt : List α)
    (y : List Num) (sd : List Int) (g : φ) (w : List (Option ℚ)) (f : σ) (req : Request) (query : σ → Call α → Py β) (pt : Dict)
    (hk : keep "sample_domain" = true) (hsd : sd ≠ []) (hX : X.length = sd.length) (hy : y.length = sd.length)
    (hlab : Labelled sd y) (hg : fit X (some (maskedLabels sd y)) (.vec sd) = .ok g)
    (hw : weights g X (some (maskedLabels sd y)) (.vec sd) = .ok w) (hwl : w.length = sd.length)
    (htr : fin.hasTransform = false) (hreq : fin.fitReq = [("sample_weight", .yes)])
    (hfit : fin.fit ⟨sourceRows sd X, some (sourceRows sd y),
      [("sample_weight", .arr ((sourceRows sd w).map weightNum))]⟩ = .ok f)
    (hq : Plain req) (hXt : Xt ≠ []) (hpt : TargetParams Xt pt) :
    (pipelineFit (daPipeline keep [reweightEst wrap fit weights] fin true) X (some y) [("sample_domain", domParam sd)]).2
        = .ok ([.one (wrap g), .one f], some (maskedLabels sd y)) ∧
      pipelineRoute (fittedSteps keep true [reweightEst wrap fit weights] [wrap g]) (keep, ⟨fin, true, true⟩, f) req query
        Xt none pt = query f ⟨Xt, none, []⟩ := by
  have hrun : (reweightEst wrap fit weights).fitTransform
      ⟨X, some ((none : Option (List Num)).getD (maskedLabels sd y)), [("sample_domain", domParam sd)]⟩ =
      .ok (wrap g, .pair X [("sample_weight", .arr (w.map weightNum))]) := by
    simp only [reweightEst, get_sd, sdArg_domParam, Option.getD_none, hg, hw]
  have hmap : sourceRows sd (w.map weightNum) = (sourceRows sd w).map weightNum := by
    simp only [sourceRows, List.zip_map_right, List.filter_map, List.map_map]
    rfl
  exact C109_fit_then_predict keep [reweightEst wrap fit weights] fin X X Xt y sd (some (w.map weightNum)) _ [wrap g] .yes f
    req query _ pt hk hsd hy hlab
    (.step _ _ _ _ _ _ _ _ _ _ (Or.inl ⟨asks_adapterReq, rfl⟩) rfl rfl hrun (.weights _ _) (.nil _)) hX
    (by rintro v ⟨⟩; simpa using hwl) htr hreq (Or.inl ⟨rfl, rfl⟩)
    (by simpa only [Option.map_some, weightParam, hmap] using hfit)
    (by
      intro e he
      rw [List.mem_singleton] at he
      subst he
      exact ⟨asks_adapterReq, (C109_reweight_adapter wrap fit weights).1⟩) hq hXt hpt

/-- C109 (OT mapping method). The whole of an OT mapping method: `fit` trains the final estimator on the transported
source rows `S` with the labels of the source rows; predictions for target data are those of that estimator on the
target data as given. -/
theorem C109_mapping_method (keep : String → Bool) (wrap : (NArr (List Num) → Py (NArr (List Num))) → σ)
    (unwrap : σ → NArr (List Num) → Py (NArr (List Num)))
    (ot : NArr (List Num) → Option (List Num) → NArr (List Num) → Option (List Num) →
      Py (NArr (List Num) → Py (NArr (List Num)))) (tail : List Nat) (fin : Est (List Num) σ) (X Xt : List (List Num))
    (y : List Num) (sd : List Int) (T : NArr (List Num) → Py (NArr (List Num))) (S : List (List Num)) (f : σ) (a : Alias)
    (req : Request) (query : σ → Call (List Num) → Py β) (pt : Dict)
    (hk : keep "sample_domain" = true) (hX0 : X ≠ []) (hX : sd.length = X.length) (hy : y.length = sd.length)
    (hlab : Labelled sd y)
    (hot : ot ⟨.float, tail, sourceRows sd X⟩ (some (sourceRows sd (maskedLabels sd y)))
      ⟨.float, tail, targetRows sd X⟩ (some (targetRows sd (maskedLabels sd y))) = .ok T)
    (hS : S.length = nSource sd) (hT : 0 < nSource sd → T ⟨.float, tail, sourceRows sd X⟩ = .ok ⟨.float, tail, S⟩)
    (htr : fin.hasTransform = false) (hreq : fin.fitReq = [("sample_weight", a)]) (ha : a = .yes ∨ a = .no ∨ a = .unset)
    (hfit : fin.fit ⟨S, some (sourceRows sd y), []⟩ = .ok f)
    (hq : Plain req) (hXt : Xt ≠ []) (hpt : TargetParams Xt pt) :
    (pipelineFit (daPipeline keep [otEst wrap unwrap ot tail] fin true) X (some y) [("sample_domain", domParam sd)]).2
        = .ok ([.one (wrap T), .one f], some (maskedLabels sd y)) ∧
      pipelineRoute (fittedSteps keep true [otEst wrap unwrap ot tail] [wrap T]) (keep, ⟨fin, true, true⟩, f) req query
        Xt none pt = query f ⟨Xt, none, []⟩ := by
  have hwf : ∀ r ∈ X, Cell.cast DType.float r = r := by
    intro r _
    have := cast_float_rows [r]
    simpa using this
  have hsd := RW.sd_ne hX0 hX
  obtain ⟨out, ho, hol, hos, -⟩ := C34_ot_mapping ot ⟨.float, tail, X⟩ (some (maskedLabels sd y)) sd hX0 hX
    (by rintro l ⟨⟩; exact length_maskedLabels hy) hwf T hot S hS hT
  have hfit' : Map.otFit ot ⟨.float, tail, X⟩ (some (maskedLabels sd y)) (.vec sd) = .ok T := by
    have hsy : Map.splitY (some (maskedLabels sd y)) sd = .ok (some (sourceRows sd (maskedLabels sd y)),
        some (targetRows sd (maskedLabels sd y))) := by
      simp [Map.splitY, RW.splitX_ok hsd (length_maskedLabels hy).symm]
    simp [Map.otFit, ok_bind, RW.check_ok hX0 hX, Map.splitN_ok (X := ⟨.float, tail, X⟩) hsd hX, hsy, hot]
  have ho' : Map.otTransform T ⟨.float, tail, X⟩ (.vec sd) true = .ok out := by
    simpa only [Map.otFitTransform, hfit', ok_bind] using ho
  have hrun : (otEst wrap unwrap ot tail).fitTransform
      ⟨X, some ((none : Option (List Num)).getD (maskedLabels sd y)), [("sample_domain", domParam sd)]⟩ =
      .ok (wrap T, .arr out.rows) := by
    simp only [otEst, mapEst, rowsOf, get_sd, sdArg_domParam, Option.getD_none, hfit', ho']
  exact C109_fit_then_predict keep [otEst wrap unwrap ot tail] fin X out.rows Xt y sd none _ [wrap T] a f
    req query [] pt hk hsd hy hlab
    (.step _ _ _ _ _ _ _ _ _ _ (Or.inl ⟨asks_adapterReq, rfl⟩) rfl rfl hrun (.rows _) (.nil _))
    (hol.trans hX.symm) (by simp) htr hreq
    (by rcases ha with rfl | rfl | rfl
        · exact Or.inl ⟨rfl, rfl⟩
        · exact Or.inr ⟨Or.inl rfl, rfl⟩
        · exact Or.inr ⟨Or.inr ⟨rfl, rfl⟩, rfl⟩)
    (by rw [hos]; exact hfit)
    (by
      intro e he
      rw [List.mem_singleton] at he
      subst he
      exact ⟨asks_adapterReq, (C109_ot_adapter wrap unwrap ot tail).1⟩) hq hXt hpt

/-- C109 (scoring). With adapters that leave target data as they are, `score(X, y)` on target data evaluates the fitted
final estimator on all rows with the labels given, provided no label is the mask value. -/
theorem C109_score_targets (keep : String → Bool) (mask : Bool) (es : List (Est α σ)) (fs : List σ) (fin : Est α σ)
    (f : σ) (req : Request) (query : σ → Call α → Py β) (X : List α) (y : List Num) (p : Dict)
    (hk : keep "sample_domain" = true) (htr : fin.hasTransform = false) (hreq : Plain req)
    (hes : ∀ e ∈ es, e.hasTransform = true ∧ AsksDomain e.transformReq ∧ KeepsTargets e)
    (hX : X ≠ []) (hy : X.length = y.length) (hn : NoneMasked y) (hp : TargetParams X p) :
    pipelineRoute (fittedSteps keep mask es fs) (keep, ⟨fin, mask, true⟩, f) req query X (some y) p
      = query f ⟨X, some y, []⟩ := by
  have last : Sel.sharedRoute ⟨fin, mask, true⟩ req query f X (some y)
      (p.filter (fun kv => keep kv.1)) = query f ⟨X, some y, []⟩ := by
    simp only [Sel.sharedRoute, prepareRouting, Bool.true_or, if_true, keep_target hk hp, route_plain hreq hp,
      Sel.removeMasked, htr, Dict.has, List.lookup_nil, Option.isSome_none, Bool.or_self, Bool.false_eq_true, if_false,
      removeMasked_none hy hn]
  induction es generalizing fs with
  | nil => simpa only [fittedSteps, List.zipWith_nil_left, pipelineRoute] using last
  | cons e es ih =>
    cases fs with
    | nil => simpa only [fittedSteps, List.zipWith_nil_right, pipelineRoute] using last
    | cons f1 fs =>
      obtain ⟨h1, h2, h3⟩ := hes e (by simp)
      have := ih fs (fun e he => hes e (by simp [he]))
      simp only [fittedSteps, List.zipWith_cons_cons, pipelineRoute, Sel.sharedTransform, prepareRouting, h1,
        Bool.not_true, Bool.or_false, Bool.false_eq_true, if_false, keep_target hk hp, consume_target h2 hp, h3 f1 X p hX hp]
      exact this

/-! #### Examples -/

/-- A reweighting step for the examples: the weight of a row is the number of target rows. -/
def demoRW : Est Num Nat :=
  reweightEst (fun n => n) (fun X _ sd => match checkXDomain X sd {} with
      | .error e => .error e
      | .ok (_, sd) => .ok (sd.countP (fun d => decide (d < 0))))
    (fun n X _ _ => .ok (X.map (fun _ => some (n : ℚ))))

/-- Fit on two source rows and one target row, predict two target rows: the classifier has seen two rows. -/
example : pipelineRoute (fittedSteps (fun _ => true) true [demoRW] [1]) (fun _ => true, ⟨demoClf .yes, true, true⟩, 2) []
    (fun n c => .ok (c.X.length, n)) [.fin 8, .fin 9] none [("sample_domain", domParam [-3, -3])] = .ok (2, 2) := by
  decide +kernel

example : (pipelineFit (daPipeline (fun _ => true) [demoRW] (demoClf .yes) true) [.fin 5, .fin 6, .fin 7]
    (some [.fin 0, .fin 1, .fin 1]) [("sample_domain", domParam [1, -2, 1])]).1.map (fun c => (c.X, c.y, c.params)) =
    [([.fin 5, .fin 6, .fin 7], some [.fin 0, .fin (-1), .fin 1], [("sample_domain", domParam [1, -2, 1])]),
     ([.fin 5, .fin 7], some [.fin 0, .fin 1], [("sample_weight", .arr [.fin 1, .fin 1])])] := by decide +kernel

example : Plain [("return_std", .unset)] ∧ TargetParams [Num.fin 8, .fin 9] [("sample_domain", domParam [-3, -3])] ∧
    TargetParams [Num.fin 8, .fin 9] [] := by
  refine ⟨⟨?_, ?_⟩, Or.inr ⟨[-3, -3], rfl, by simp, rfl⟩, Or.inl rfl⟩
  · intro q hq; simp at hq; subst hq; simp
  · intro q hq; simp at hq; subst hq; simp

/-- Source rows are refused. -/
example : pipelineRoute (fittedSteps (fun _ => true) true [demoRW] [1]) (fun _ => true, ⟨demoClf .yes, true, true⟩, 2) []
    (fun n c => .ok (c.X.length, n)) [.fin 8, .fin 9] none [("sample_domain", domParam [-3, 3])] = .error .valueError := by
  decide +kernel

/-- The condition on the labels is needed when scoring: with the classes `-1` and `1`, the rows of class `-1` are left
out, so a classifier that is wrong on all of them and right on the others is scored on the others alone. -/
theorem C109_score_counterexample :
    pipelineRoute [] (fun _ => true, (⟨demoClf .unset, true, true⟩ : Sel Num Nat), 0) []
      (fun _ c => .ok (c.X, c.y)) [.fin 5, .fin 6, .fin 7] (some [.fin (-1), .fin 1, .fin (-1)]) [] =
      .ok ([.fin 6], some [.fin 1]) := by decide +kernel

end Skada

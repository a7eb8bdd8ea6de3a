/-
C130: keyword parameters given to a DA pipeline reach the estimators that ask for them.
-/
import Verif.Lemmas.RoutingPipe
import Verif.Props.SelectDomain

namespace Skada
open Route Spec

variable {α β σ : Type}

theorem dropLast_everything {γ : Type} (l : List γ) : (everything l).dropLast = everything l.dropLast := by
  simp [everything, List.map_dropLast]

theorem routedFit_eq [Cell α] (init : List (Step α σ)) (last : Step α σ) (X : List α) (y : Option (List Num)) (params : Dict)
    (g : Reqs → Dict) (d : Dict)
    (hr : pipeRoute ((init ++ [last]).map stepChildren) .fit params =
      .ok (init.map (fun st => [(Meth.fitTransform, g (baseReqs st))]) ++ [[(Meth.fit, d)]]))
    (hi : ∀ st ∈ init, ∀ c y, Step.fitTransform st c y (g (baseReqs st)) = Step.fitTransform st c y params)
    (hl : ∀ c y, Step.fit last c y d = Step.fit last c y params) :
    Route.fit (init ++ [last]) X y params = pipelineFit (everything (init ++ [last])) X y params := by
  unfold Route.fit pipelineFit
  rw [hr, dropLast_everything]
  have : (everything (init ++ [last]).dropLast).any (fun st => !st.2.isTransformer) =
      (init ++ [last]).dropLast.any (fun st => !st.isTransformer) := by simp [everything, List.any_map, Function.comp_def]
  rw [this]
  split
  · rfl
  · exact fitLoop_everything init last params g d hi hl _ y

/-- **C130**, domain labels: whatever the selectors and estimators of a pipeline, `fit` with `sample_domain` alone is never refused
by the routing and hands the domain labels to every step. -/
theorem C130_sample_domain [Cell α] (init : List (Step α σ)) (last : Step α σ) (X : List α) (y : Option (List Num))
    (v : Param Num) (hv : v ≠ .none) :
    Route.fit (init ++ [last]) X y [("sample_domain", v)] =
      pipelineFit (everything (init ++ [last])) X y [("sample_domain", v)] := by
  refine routedFit_eq init last X y _ (fun _ => [("sample_domain", v)]) [("sample_domain", v)] ?_ (fun _ _ _ _ => rfl)
    (fun _ _ => rfl)
  rw [children_append, pipeRoute_ok (mi := .fitTransform) (ml := .fit) rfl rfl (pipeNames_fit _ _) (by simp) (by simp)
    (fun r => selRoute_single hv) (selRoute_single hv), List.map_map]
  rfl

/-- **C130**, nothing given: a pipeline fitted without keyword parameters hands nothing to its steps. -/
theorem C130_no_parameters [Cell α] (init : List (Step α σ)) (last : Step α σ) (X : List α) (y : Option (List Num)) :
    Route.fit (init ++ [last]) X y [] = pipelineFit (everything (init ++ [last])) X y [] := by
  refine routedFit_eq init last X y _ (fun _ => []) [] ?_ (fun _ _ _ _ => rfl) (fun _ _ => rfl)
  rw [children_append]
  unfold pipeRoute
  rw [if_pos (show ([] : Dict).isEmpty = true from rfl), marked_map_append]
  simp only [List.map_append, List.map_map, List.map_singleton]
  rfl

/-- **C130**, refusal: `fit` of a pipeline is refused with a `TypeError`, before any estimator is called, when a parameter other
than `sample_domain` is not asked for by the estimator of the last step; what the other steps ask for is of no account. -/
theorem C130_refused [Cell α] (init : List (Step α σ)) (s : Sel α σ) (X : List α) (y : Option (List Num)) (params : Dict)
    (h : ∃ kv ∈ params, kv.1 ≠ "sample_domain" ∧ ¬ Asks s.est.fitReq kv.1) :
    Route.fit (init ++ [.shared s]) X y params = ([], .error .typeError) := by
  unfold Route.fit
  split
  · rfl
  · rw [children_append, pipeRoute_refused (pipeNames_fit _ _)]
    obtain ⟨kv, hkv, hne, hna⟩ := h
    refine ⟨kv, hkv, ?_⟩
    simp only [List.mem_append, List.mem_flatten, List.mem_map, List.mem_cons, not_or, not_exists, not_and]
    refine ⟨?_, hne, fun hm => hna (mem_names.mp hm)⟩
    rintro l ⟨_, _, rfl⟩ hm
    exact hne (by simpa using hm)

/-- **C130**, delivery while fitting (partial): in a pipeline of `Shared` selectors (the last one may be a `PerDomain` one) the
call is accepted when the last estimator asks for all parameters besides `sample_domain`; then the fit is the one in which every
step is given all the parameters and takes what it asks for.  Full statement: the same without the hypothesis `hinit`, that no
other step asks for one of these parameters; it is false, see `C130_transformer_counterexample`. -/
theorem C130_fit_partial [Cell α] (init : List (Sel α σ)) (s : Sel α σ) (last : Step α σ) (hlast : last = .shared s ∨ last = .perDomain s)
    (X : List α) (y : Option (List Num)) (params : Dict) (hk : (params.map Prod.fst).Nodup) (hne : params ≠ [])
    (hsd : params.lookup "sample_domain" ≠ some .none)
    (hacc : ∀ kv ∈ params, kv.1 = "sample_domain" ∨ Asks s.est.fitReq kv.1)
    (hinit : ∀ e ∈ init, ∀ kv ∈ params, kv.1 ≠ "sample_domain" →
      ¬ Asks e.est.fitReq kv.1 ∧ ¬ Asks e.est.transformReq kv.1 ∧ ¬ Asks e.est.fitTransformReq kv.1) :
    Route.fit (init.map .shared ++ [last]) X y params = pipelineFit (everything (init.map .shared ++ [last])) X y params := by
  have hg : ∀ r : Reqs, ∃ d, selRoute (oneChild r) .fitTransform params = .ok d ∧ (d.map Prod.fst).Nodup ∧ ∀ k, d.lookup k =
      if k = "sample_domain" then (params.lookup k).filter (fun v => decide (v ≠ .none)) else none :=
    fun r => selRoute_fitTransform hk
  choose g hg1 hg2 hg3 using hg
  have hbase : baseReqs last .fit = s.est.fitReq := by rcases hlast with rfl | rfl <;> rfl
  obtain ⟨d, hd, hag, hsl⟩ := selRoute_simple (r := baseReqs last) (m := .fit) (by simp) hk
  rw [hbase] at hag
  have hdom : ∀ r, (g r).lookup "sample_domain" = params.lookup "sample_domain" := by
    intro r
    rw [hg3, if_pos rfl]
    rcases hq : params.lookup "sample_domain" with _ | v
    · rfl
    · cases v <;> first | exact absurd hq hsd | rfl
  refine routedFit_eq _ last X y params g d ?_ ?_ ?_
  · rw [children_append, pipeRoute_ok (mi := .fitTransform) (ml := .fit) rfl rfl (pipeNames_fit _ _) hne ?_ hg1 hd,
      List.map_map]
    · rfl
    · intro kv hkv
      rw [hbase]
      simp only [List.mem_append, List.mem_cons]
      exact .inr ((hacc kv hkv).imp id mem_names.mpr)
  · intro st hst c y
    obtain ⟨e, he, rfl⟩ := List.mem_map.mp hst
    have hagree : ∀ req : Request, (∀ kv ∈ params, kv.1 ≠ "sample_domain" → ¬ Asks req kv.1) →
        Agree (names req) (g (baseReqs (.shared e : Step α σ))) params := by
      intro req hreq
      refine ⟨hg2 _, hk, fun k hkn => ?_, by unfold Dict.get; rw [hdom]⟩
      by_cases hks : k = "sample_domain"
      · rw [hks, hdom]
      · rw [hg3, if_neg hks]
        symm
        apply lookup_eq_none_of_not_mem
        intro hm
        obtain ⟨kv, hkv, rfl⟩ := List.mem_map.mp hm
        exact hreq kv hkv hks (mem_names.mp hkn)
    exact sharedFitTransform_congr e c y (hagree _ (fun kv hkv h => (hinit e he kv hkv h).2.2))
      (hagree _ (fun kv hkv h => (hinit e he kv hkv h).1)) (hagree _ (fun kv hkv h => (hinit e he kv hkv h).2.1))
  · intro c y
    rcases hlast with rfl | rfl
    · simp only [Step.fit, sharedFit_congr s .fit c y hag]
    · simp only [Step.fit, perDomainFit_congr s .fit c y hag (by rw [hsl hsd])]

/-- **C130**, evaluation: `predict`, `predict_proba`, `predict_log_proba`, `decision_function` and `score` of a fitted pipeline of
`Shared` selectors are refused with a `TypeError` when a parameter other than `sample_domain` and `allow_source` is asked for by
nobody; otherwise every step is given all the parameters and takes what it asks for. -/
theorem C130_evaluation [Cell α] (steps : List (Sel α σ × σ)) (last : Sel α σ × σ) (req : Request) (query : σ → Call α → Py β)
    (caller : Meth) (hc : Evaluates caller) (X : List α) (y : Option (List Num)) (params : Dict)
    (hk : (params.map Prod.fst).Nodup) :
    Route.eval (steps.map (fun s => (.shared s.1, .one s.2))) last req query caller X y params =
      open Classical in
      if ∀ kv ∈ params, kv.1 = "sample_domain" ∨ kv.1 = "allow_source" ∨ Asks req kv.1 ∨
        ∃ s ∈ steps, Asks s.1.est.transformReq kv.1
      then stepsRoute (everything (steps.map (fun s => (.shared s.1, .one s.2)))) (fun _ => true, last) req query X y params
      else .error .typeError := by
  obtain ⟨h1, h2, h3, h4⟩ := callees_eval hc
  have hch : (steps.map (fun s => ((.shared s.1 : Step α σ), Fitted.one s.2))).map (fun s => stepChildren s.1) ++ [oneChild (lastReqs caller req)] =
      (steps.map (fun s => estReqs s.1.est) ++ [lastReqs caller req]).map oneChild := by
    simp [stepChildren]
  have hlr : lastReqs caller req caller = req := by simp [lastReqs]
  have hmem : ∀ k : String, k ∈ ((steps.map (fun s => estReqs s.1.est)).map (fun r => "sample_domain" :: names (r .transform))).flatten ++
      ("sample_domain" :: "allow_source" :: names (lastReqs caller req caller)) ↔
      (k = "sample_domain" ∨ k = "allow_source" ∨ Asks req k ∨ ∃ s ∈ steps, Asks s.1.est.transformReq k) := by
    intro k
    rw [hlr]
    simp only [List.map_map, List.mem_append, List.mem_flatten, List.mem_map, List.mem_cons, mem_names, Function.comp_apply]
    constructor
    · rintro (⟨l, ⟨s, hs, rfl⟩, h⟩ | h | h | h)
      · rcases List.mem_cons.mp h with h | h
        · exact .inl h
        · exact .inr (.inr (.inr ⟨s, hs, mem_names.mp h⟩))
      · exact .inl h
      · exact .inr (.inl h)
      · exact .inr (.inr (.inl h))
    · rintro (h | h | h | ⟨s, hs, h⟩)
      · exact .inr (.inl h)
      · exact .inr (.inr (.inl h))
      · exact .inr (.inr (.inr h))
      · exact .inl ⟨_, ⟨s, hs, rfl⟩, List.mem_cons_of_mem _ (mem_names.mpr h)⟩
  unfold Route.eval
  rw [hch]
  split_ifs with hacc
  · have hg : ∀ r : Reqs, ∃ d, selRoute (oneChild r) .transform params = .ok d ∧ Agree (names (r .transform)) d params := by
      intro r
      obtain ⟨d, hd, hag, _⟩ := selRoute_simple (r := r) (m := .transform) (by simp) hk
      exact ⟨d, hd, hag⟩
    choose g hg1 hg2 using hg
    obtain ⟨d, hd, hag, _⟩ := selRoute_simple (r := lastReqs caller req) h4 hk
    rw [hlr] at hag
    obtain ⟨g, d, hg2, hag, hr⟩ : ∃ (g : Reqs → Dict) (d : Dict), (∀ r, Agree (names (r .transform)) (g r) params) ∧
        Agree (names req) d params ∧
        pipeRoute ((steps.map (fun s => estReqs s.1.est) ++ [lastReqs caller req]).map oneChild) caller params =
          .ok ((steps.map (fun s => estReqs s.1.est)).map (fun r => [(Meth.transform, g r)]) ++ [[(caller, d)]]) := by
      by_cases hne : params = []
      · subst hne
        refine ⟨fun _ => [], [], fun r => ⟨hk, hk, fun _ _ => rfl, rfl⟩, ⟨hk, hk, fun _ _ => rfl, rfl⟩, ?_⟩
        unfold pipeRoute
        rw [if_pos (show ([] : Dict).isEmpty = true from rfl), marked_map_append]
        simp only [List.map_append, List.map_map, List.map_singleton, Function.comp_def, h1, h2]
      · exact ⟨g, d, hg2, hag,
          pipeRoute_ok h1 h2 (pipeNames_eval hc _ _) hne (fun kv hkv => (hmem kv.1).mpr (hacc kv hkv)) hg1 hd⟩
    rw [hr]
    have := evalLoop_everything (steps.map (fun s => ((.shared s.1 : Step α σ), Fitted.one s.2))) last req query caller y params g d ?_ ?_ X
    · rw [← this]
      simp only [List.map_map, Function.comp_def, baseReqs]
    · intro st hst X
      obtain ⟨s, hs, rfl⟩ := List.mem_map.mp hst
      have := sharedTransform_congr s.1 s.2 X (hg2 (estReqs s.1.est))
      simp only [baseReqs, Step.transform, this]
    · intro X
      exact sharedRoute_congr last.1 query last.2 X y hag
  · rw [pipeRoute_refused (pipeNames_eval hc _ _)]
    push Not at hacc
    obtain ⟨kv, hkv, hn⟩ := hacc
    refine ⟨kv, hkv, fun hm => ?_⟩
    rcases (hmem kv.1).mp hm with h | h | h | ⟨s, hs, h⟩
    · exact hn.1 h
    · exact hn.2.1 h
    · exact hn.2.2.1 h
    · exact hn.2.2.2 s hs h

/-- **C130**, negation of the full statement: a transformer and a final estimator both ask for `sample_weight`; the pipeline accepts
the weights, the final estimator gets them, the transformer is called without them.  (Without the request of the final estimator
the call is refused, `C130_refused`.) -/
theorem C130_transformer_counterexample [Cell α] (e f : Est α σ) (me mf : Bool) (X X' : List α) (st : σ) (v w : Param Num)
    (hv : v ≠ .none) (hw : w ≠ .none) (ht : e.hasTransform = true) (hft : e.hasFitTransform = true) (hf : f.hasTransform = false)
    (_he : e.fitReq = [("sample_weight", .yes)]) (het : e.fitTransformReq = [("sample_weight", .yes)])
    (hfr : f.fitReq = [("sample_weight", .yes)]) (hout : e.fitTransform ⟨X, none, []⟩ = .ok (st, .arr X')) :
    (Route.fit [.shared ⟨e, me, false⟩, .shared ⟨f, mf, true⟩] X none [("sample_domain", v), ("sample_weight", w)]).1 =
      [⟨X, none, []⟩, ⟨X', none, [("sample_weight", w)]⟩] := by
  have hnd : (([("sample_domain", v), ("sample_weight", w)] : Dict).map Prod.fst).Nodup := by simp
  have hl1 : (([("sample_domain", v), ("sample_weight", w)] : Dict).lookup "sample_domain") = some v := rfl
  have hv' : (some v).filter (fun v => decide (v ≠ Param.none)) = some v := by simp [Option.filter, hv]
  have hi : ∀ r, selRoute (oneChild r) .fitTransform [("sample_domain", v), ("sample_weight", w)] = .ok [("sample_domain", v)] := by
    intro r
    unfold selRoute
    rw [self_of, childNames_fitTransform]
    simp only [routeParams_yes _ _ hnd, bind, Except.bind, ownNames, List.filterMap_cons, List.filterMap_nil, hl1, hv']
    simp [Dict.update]
  have hl : selRoute (oneChild (baseReqs (.shared ⟨f, mf, true⟩ : Step α σ))) .fit [("sample_domain", v), ("sample_weight", w)] =
      .ok [("sample_domain", v), ("sample_weight", w)] := by
    unfold selRoute
    rw [self_of, childNames_simple (by simp)]
    simp only [routeParams_yes _ _ hnd, bind, Except.bind, ownNames, List.filterMap_cons, List.filterMap_nil, hl1, hv', baseReqs,
      estReqs, hfr]
    have : names [("sample_weight", Alias.yes)] = ["sample_weight"] := rfl
    simp [this, Dict.has, List.lookup_cons, Dict.update, Dict.put]
  have hr := pipeRoute_ok (init := [baseReqs (.shared ⟨e, me, false⟩ : Step α σ)]) (last := baseReqs (.shared ⟨f, mf, true⟩ : Step α σ))
    (caller := .fit) (mi := .fitTransform) (ml := .fit) rfl rfl (pipeNames_fit _ _) (by simp)
    (by simp [baseReqs, estReqs, hfr, names]) hi hl
  rw [show ([baseReqs (.shared ⟨e, me, false⟩ : Step α σ)] ++ [baseReqs (.shared ⟨f, mf, true⟩ : Step α σ)]).map oneChild =
    ([.shared ⟨e, me, false⟩, .shared ⟨f, mf, true⟩] : List (Step α σ)).map stepChildren from rfl] at hr
  unfold Route.fit
  rw [hr, if_neg (by simp [Step.isTransformer, ht])]
  have hp1 : prepareRouting false true [("sample_weight", Alias.yes)] [("sample_domain", v)] = .ok [] := rfl
  have hp2 : prepareRouting true false [("sample_weight", Alias.yes)] [("sample_domain", v), ("sample_weight", w)] =
      .ok [("sample_weight", w)] := by
    simp [prepareRouting, routeParams, hv, hw, List.lookup_cons]
  simp only [List.map_cons, List.map_nil, List.cons_append, List.nil_append, List.zip_cons_cons, List.zip_nil_right, fitLoop,
    paramsFor_single, Step.fitTransform, Step.fit, Sel.sharedFitTransformOut, hft, if_true, Sel.sharedFit, Sel.ownMask, autoMask,
    Cont.fromInput, Cont.mergeOut, update_nil, Sel.routedCall, Est.request, het, ht, hp1, Sel.removeMasked, Est.invoke, hout,
    Cont.mergeIn, hfr, hf, hp2, ite_self]
  rcases f.fit ⟨X', none, [("sample_weight", w)]⟩ with _ | _ <;> rfl

/-- **C130**, negation for `SelectSourceTarget`: both estimators are registered with the router under the same name.  When the
source estimator asks for a parameter and the target estimator does not, the pipeline refuses the parameter, while the selector on
its own hands it, restricted to the source rows, to the source estimator. -/
theorem C130_source_target_counterexample [Cell α] (src tgt : Est α σ) (X : List α) (sd : List Int) (k : String) (w : List Num)
    (hk : k ≠ "sample_domain") (hX : X.length = sd.length) (hw : w.length = sd.length) (hs : ∃ d ∈ sd, 0 ≤ d)
    (hsrc : src.fitReq = [(k, .yes)]) (htgt : ¬ Asks tgt.fitReq k) (htr : src.hasTransform = false) :
    Route.fit [.sourceTarget ⟨src, some tgt, true⟩] X none [("sample_domain", domParam sd), (k, .arr w)] = ([], .error .typeError) ∧
    ((Step.sourceTarget ⟨src, some tgt, true⟩).fit ⟨X, none, []⟩ none [("sample_domain", domParam sd), (k, .arr w)]).1.head? =
      some ⟨Spec.sourceRows sd X, none, [(k, .arr (Spec.sourceRows sd w))]⟩ := by
  have hne : sd ≠ [] := by rintro rfl; simp at hs
  constructor
  · unfold Route.fit
    rw [if_neg (by simp)]
    have := pipeRoute_refused (init := []) (last := baseReqs (.sourceTarget ⟨src, some tgt, true⟩ : Step α σ)) (caller := .fit)
      (params := [("sample_domain", domParam sd), (k, .arr w)]) (pipeNames_fit _ _)
      ⟨(k, .arr w), by simp, by
        simp only [List.map_nil, List.flatten_nil, List.nil_append, List.mem_cons, not_or]
        exact ⟨hk, fun h => htgt (mem_names.mp h)⟩⟩
    rw [List.nil_append, List.map_singleton, ← stepChildren_eq] at this
    rw [List.map_singleton, this]
  · have hchk := sstCheck_ok (X := X) (y := none) (p := [("sample_domain", domParam sd), (k, .arr w)]) hne
      (List.lookup_cons_self) hX (by simp)
    have hcount : (sd.map (fun d => decide (0 ≤ d))).count true ≠ 0 := by
      obtain ⟨d, hd, h0⟩ := hs
      exact Nat.pos_iff_ne_zero.mp (List.count_pos_iff.mpr (List.mem_map.mpr ⟨d, hd, by simpa using h0⟩))
    have hside : ((⟨src, some tgt, true⟩ : SST α σ).fitSide src .fit X none [("sample_domain", domParam sd), (k, .arr w)]
        (sd.map (fun d => decide (0 ≤ d)))).1 = [⟨Spec.sourceRows sd X, none, [(k, .arr (Spec.sourceRows sd w))]⟩] := by
      unfold SST.fitSide
      rw [if_neg hcount, applyDomainMasks_sel (by simpa using hX) (by simp)]
      have hw' : maskParam (sd.map (fun d => decide (0 ≤ d))) (.arr w) = .arr (Spec.sourceRows sd w) := by
        simp [maskParam, hw, sel_source]
      have hp : ∀ q : Param Num, prepareRouting true false [(k, .yes)] [("sample_domain", q), (k, .arr (Spec.sourceRows sd w))] =
          .ok [(k, .arr (Spec.sourceRows sd w))] := by
        intro q
        unfold prepareRouting
        rw [Bool.true_or, if_pos rfl]
        by_cases hq : q = .none
        · simp [routeParams, hq, List.lookup_cons]
        · have hb : (k == "sample_domain") = false := by simpa using hk
          simp [routeParams, hq, List.lookup_cons, hb]
      simp only [List.map_cons, List.map_nil, hw', Est.request, hsrc, htr, hp, Option.map_none, sel_source, Sel.removeMasked]
    simp only [Step.fit, SST.fit, Cont.mergeOut, update_nil, hchk, Dict.put, if_true, Option.getD_some]
    rcases h1 : (⟨src, some tgt, true⟩ : SST α σ).fitSide src .fit X none [("sample_domain", domParam sd), (k, .arr w)]
        (sd.map (fun d => decide (0 ≤ d))) with ⟨calls, _ | ⟨fs, outs⟩⟩
    · rw [h1] at hside
      simp only at hside ⊢
      rw [hside]; rfl
    · rw [h1] at hside
      simp only at hside ⊢
      rw [hside]
      rcases (⟨src, some tgt, true⟩ : SST α σ).fitSide tgt .fit X none [("sample_domain", domParam sd), (k, .arr w)]
        ((sd.map (fun d => decide (0 ≤ d))).map (!·)) with ⟨calls', _ | ⟨ft, outt⟩⟩ <;> rfl

/-! ### Concrete cases -/

/-- A fit with weights: the final estimator asks for them under the alias `w`, the adapter in front asks for the domain labels only
(and for `allow_source`, which is not given): hypotheses of `C130_fit_partial`, and the recorded calls. -/
example : Route.fit ([(⟨exEst true [("allow_source", .yes), ("sample_domain", .yes)], true, false⟩ : Sel Num _)].map .shared ++
      [.shared ⟨exEst false [("sample_weight", .name "w")], true, true⟩]) [.fin 10, .fin 11] (some [.fin 0, .fin 1])
      [("w", .arr [.fin 5, .fin 6]), ("sample_domain", domParam [1, -2])] =
    pipelineFit (everything ([(⟨exEst true [("allow_source", .yes), ("sample_domain", .yes)], true, false⟩ : Sel Num _)].map .shared ++
      [.shared ⟨exEst false [("sample_weight", .name "w")], true, true⟩])) [.fin 10, .fin 11] (some [.fin 0, .fin 1])
      [("w", .arr [.fin 5, .fin 6]), ("sample_domain", domParam [1, -2])] :=
  C130_fit_partial _ _ _ (.inl rfl) _ _ _ (by decide) (by decide) (by decide +kernel) (by simp [Asks, exEst]) (by simp [Asks, exEst])

example : (Route.fit [.shared ⟨exEst true [("allow_source", .yes), ("sample_domain", .yes)], true, false⟩,
      .shared ⟨exEst false [("sample_weight", .name "w")], true, true⟩] [.fin 10, .fin 11] (some [.fin 0, .fin 1])
      [("w", .arr [.fin 5, .fin 6]), ("sample_domain", domParam [1, -2])]).1.map (fun c => (c.X, c.y, c.params)) =
    [([.fin 10, .fin 11], some [.fin 0, .fin (-1)], [("sample_domain", domParam [1, -2])]),
      ([.fin 10], some [.fin 0], [("sample_weight", .arr [.fin 5])])] := by decide +kernel

/-- A scaler and a classifier which both ask for weights: the scaler is fitted without them. -/
example : (Route.fit [.shared ⟨exEst true [("sample_weight", .yes)], true, false⟩, .shared ⟨exEst false [("sample_weight", .yes)], true, true⟩]
      [.fin 10, .fin 11] (some [.fin 0, .fin 1]) [("sample_domain", domParam [1, -2]), ("sample_weight", .arr [.fin 5, .fin 6])]).1.map
        (fun c => (c.X, c.params)) =
    [([.fin 10, .fin 11], []), ([.fin 10], [("sample_weight", .arr [.fin 5])])] := by decide +kernel

/-- The same scaler in front of a classifier without weights: refused. -/
example : Route.fit [.shared ⟨exEst true [("sample_weight", .yes)], true, false⟩, .shared ⟨exEst false [], true, true⟩]
      [.fin 10, .fin 11] (some [.fin 0, .fin 1]) [("sample_domain", domParam [1, -2]), ("sample_weight", .arr [.fin 5, .fin 6])] =
    ([], .error .typeError) :=
  C130_refused [_] _ _ _ _ ⟨("sample_weight", .arr [.fin 5, .fin 6]), by simp, by decide, by simp [Asks, exEst]⟩

/-- Evaluation with a parameter that only a transformer asks for: accepted, and `transform` gets it. -/
example (f : Option (List Num)) : Route.eval (β := Unit) ([((⟨exEst true [("groups", .yes)], true, false⟩ : Sel Num _), f)].map
      (fun s => (.shared s.1, .one s.2))) (⟨exEst false [], true, true⟩, f) [] (fun _ _ => .ok ()) .predict [.fin 1] none
      [("groups", .arr [.fin 3])] = .ok () := by
  rw [C130_evaluation _ _ _ _ .predict trivial _ _ _ (by simp), if_pos (by simp [Asks, exEst])]
  rfl

/-- … and a parameter that nobody asks for. -/
example (f : Option (List Num)) : Route.eval (β := Unit) ([((⟨exEst true [("groups", .yes)], true, false⟩ : Sel Num _), f)].map
      (fun s => (.shared s.1, .one s.2))) (⟨exEst false [], true, true⟩, f) [] (fun _ _ => .ok ()) .predict [.fin 1] none
      [("sample_weight", .arr [.fin 3])] = .error .typeError := by
  rw [C130_evaluation _ _ _ _ .predict trivial _ _ _ (by simp), if_neg (by simp [Asks, exEst])]

/-- `SelectSourceTarget` whose source estimator alone takes weights. -/
example : Route.fit [.sourceTarget ⟨exEst false [("sample_weight", .yes)], some (exEst false []), true⟩] [.fin 10, .fin 11] none
      [("sample_domain", domParam [1, -2]), ("sample_weight", .arr [.fin 5, .fin 6])] = ([], .error .typeError) :=
  (C130_source_target_counterexample (exEst false [("sample_weight", .yes)]) (exEst false []) [.fin 10, .fin 11] [1, -2] "sample_weight"
    [.fin 5, .fin 6] (by decide) rfl rfl ⟨1, by simp, by decide⟩ rfl (by simp [Asks, exEst]) rfl).1

/-- With the estimators exchanged it is accepted and delivered to the side that asked. -/
example : (Route.fit [.sourceTarget ⟨exEst false [], some (exEst false [("sample_weight", .yes)]), true⟩] [.fin 10, .fin 11] none
      [("sample_domain", domParam [1, -2]), ("sample_weight", .arr [.fin 5, .fin 6])]).1.map (fun c => (c.X, c.params)) =
    [([.fin 10], []), ([.fin 11], [("sample_weight", .arr [.fin 6])])] := by decide +kernel

end Skada

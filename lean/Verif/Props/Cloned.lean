/-
Property C114: copies of a pipeline learn and predict what the original does.
-/
import Verif.Props.Pipeline
import Verif.Props.PipelineRun
import Verif.Props.PerDomain
import Verif.Props.ShallowMethods
import Verif.Model.Cloned

namespace Skada
open Np Spec

section
variable {α β σ : Type}

/-- A selector around an object that has parameters with distinct names. -/
def Spec.HasParams (s : PSel) : Prop :=
  ∃ cls ps, s.base = .obj cls ps ∧ (ps.map Prod.fst).Nodup

theorem clone_value {s : PSel} (hp : HasParams s) (hk : s.kind ≠ .sourceTarget) :
    s.clone = .ok ⟨s.kind, s.base, s.kind.defaultMask, false⟩ := by
  obtain ⟨cls, ps, hb, hnd⟩ := hp
  obtain ⟨s', h1, h2, h3, -⟩ := C17_clone_partial s cls ps hk hb hnd
  have h4 := C17_final_lost s s' h1
  have h5 : s'.mask = s.kind.defaultMask := by
    obtain ⟨s'', g1, g2, g3, g4⟩ := C17_clone_partial ⟨s.kind, s.base, s.kind.defaultMask, s.final⟩ cls ps hk hb hnd
    have : (PSel.mk s.kind s.base s.kind.defaultMask s.final).clone = s.clone := rfl
    rw [this, h1, Except.ok.injEq] at g1
    subst g1
    exact g4.2 rfl
  rw [h1]
  obtain ⟨k, b, m, f⟩ := s'
  simp only at h2 h3 h4 h5
  rw [h2, h3, h4, h5]

theorem clonePipeline_value {steps : List ((String → Bool) × PSel)} (hp : ∀ st ∈ steps, HasParams st.2)
    (hk : ∀ st ∈ steps, st.2.kind ≠ .sourceTarget) :
    clonePipeline steps =
      .ok (steps.map (fun st => (st.1, ⟨st.2.kind, st.2.base, st.2.kind.defaultMask, false⟩))) := by
  induction steps with
  | nil => rfl
  | cons st l ih =>
    obtain ⟨keep, s⟩ := st
    simp only [clonePipeline, clone_value (hp (keep, s) (by simp)) (hk (keep, s) (by simp)), List.map_cons,
      ih (fun x hx => hp x (by simp [hx])) (fun x hx => hk x (by simp [hx]))]

theorem prepareRouting_final {f g : Bool} {req : Request} {params : Dict} :
    prepareRouting f false req params = prepareRouting g false req params := by
  simp [prepareRouting]

theorem step_fit_final (behave : Val → Est α σ) (k : Kind) (b : Val) (m f g : Bool)
    (h : (behave b).hasTransform = false) (c : Cont α) (y : Option (List Num)) (params : Dict) :
    ((PSel.mk k b m f).step behave).fit c y params = ((PSel.mk k b m g).step behave).fit c y params := by
  have h1 : ∀ me X y p, Sel.routedCall (⟨behave b, m, f⟩ : Sel α σ) me X y p = Sel.routedCall ⟨behave b, m, g⟩ me X y p := by
    intro me X y p
    simp only [Sel.routedCall, h, prepareRouting_final (f := f) (g := g)]
  have h2 : ∀ me c y p, Sel.sharedFit (⟨behave b, m, f⟩ : Sel α σ) me c y p = Sel.sharedFit ⟨behave b, m, g⟩ me c y p := by
    intro me c y p
    simp only [Sel.sharedFit, h1]
    rfl
  have hl : ∀ me X y p sd ds, Sel.perDomainLoop (⟨behave b, m, f⟩ : Sel α σ) me X y p sd ds =
      Sel.perDomainLoop ⟨behave b, m, g⟩ me X y p sd ds := by
    intro me X y p sd ds
    induction ds with
    | nil => rfl
    | cons d ds ih => simp only [Sel.perDomainLoop, ih]
  have h3 : ∀ me c y p, Sel.perDomainFit (⟨behave b, m, f⟩ : Sel α σ) me c y p = Sel.perDomainFit ⟨behave b, m, g⟩ me c y p := by
    intro me c y p
    simp only [Sel.perDomainFit, h1, hl]
    rfl
  have h4 : ∀ e me X y p mask, SST.fitSide (⟨behave b, none, f⟩ : SST α σ) e me X y p mask =
      SST.fitSide ⟨behave b, none, g⟩ e me X y p mask := by
    intro e me X y p mask
    simp only [SST.fitSide, h, prepareRouting_final (f := f) (g := g)]
  cases k <;> simp only [PSel.step, PSel.sel, Step.fit, Sel.selectFit, SST.fit, h2, h3, h4]

theorem fitSteps_reset [Cell α] (behave : Val → Est α σ) (steps : List ((String → Bool) × PSel))
    (hm : ∀ st ∈ steps, st.2.mask = st.2.kind.defaultMask) (hf : ∀ st ∈ steps.dropLast, st.2.final = false)
    (hlast : ∀ st, steps.getLast? = some st → st.2.final = false ∨ (behave st.2.base).hasTransform = false)
    (c : Cont α) (y : Option (List Num)) (params : Dict) :
    fitSteps (runSteps behave (steps.map (fun st => (st.1, ⟨st.2.kind, st.2.base, st.2.kind.defaultMask, false⟩)))) c y params =
      fitSteps (runSteps behave steps) c y params := by
  induction steps generalizing c y with
  | nil => rfl
  | cons st l ih =>
    obtain ⟨keep, k, b, m, f⟩ := st
    have hm0 : m = k.defaultMask := hm (keep, ⟨k, b, m, f⟩) (by simp)
    subst hm0
    cases l with
    | nil =>
      have : ((PSel.mk k b k.defaultMask false).step behave).fit c y (params.filter (fun kv => keep kv.1)) =
          ((PSel.mk k b k.defaultMask f).step behave).fit c y (params.filter (fun kv => keep kv.1)) := by
        rcases hlast (keep, ⟨k, b, k.defaultMask, f⟩) rfl with h | h
        · simp only at h; rw [h]
        · exact step_fit_final behave k b _ _ _ h c y _
      simp only [runSteps, List.map_cons, List.map_nil, fitSteps, this]
    | cons st' l =>
      have hf0 : f = false := hf (keep, ⟨k, b, k.defaultMask, f⟩) (by simp)
      subst hf0
      have ih' := fun c y => ih (fun x hx => hm x (List.mem_cons_of_mem _ hx))
        (fun x hx => hf x (by simp only [List.dropLast_cons_cons]; exact List.mem_cons_of_mem _ hx))
        (fun x hx => hlast x (by simpa using hx)) c y
      simp only [runSteps, List.map_cons] at ih' ⊢
      simp only [fitSteps, ih']

theorem isTransformer_reset (behave : Val → Est α σ) (k : Kind) (b : Val) (m m' f f' : Bool) :
    ((PSel.mk k b m f).step behave).isTransformer = ((PSel.mk k b m' f').step behave).isTransformer := by
  cases k <;> rfl

/-- C114, partial (training). A clone of a pipeline of selectors with one base estimator each is trained on the same data
with the same result, whatever the data and parameters, provided that every step has the masking of its class by default, only
the last step is marked as final, and the last base estimator does not transform.  (This is what `cross_validate` and
`GridSearchCV` fit.)  Otherwise see `C114_mask_counterexample`, `C114_final_counterexample` and
`C114_source_target_counterexample`. -/
theorem C114_clone_fit_partial [Cell α] (behave : Val → Est α σ) (steps : List ((String → Bool) × PSel))
    (hp : ∀ st ∈ steps, HasParams st.2) (hk : ∀ st ∈ steps, st.2.kind ≠ .sourceTarget)
    (hm : ∀ st ∈ steps, st.2.mask = st.2.kind.defaultMask) (hf : ∀ st ∈ steps.dropLast, st.2.final = false)
    (hlast : ∀ st, steps.getLast? = some st → (behave st.2.base).hasTransform = false) :
    ∃ steps', clonePipeline steps = .ok steps' ∧ ∀ X y params,
      pipelineFit (runSteps behave steps') X y params = pipelineFit (runSteps behave steps) X y params := by
  refine ⟨_, clonePipeline_value hp hk, fun X y params => ?_⟩
  unfold pipelineFit
  rw [fitSteps_reset behave steps hm hf (fun st h => Or.inr (hlast st h))]
  congr 2
  simp only [runSteps, List.map_map, ← List.map_dropLast, List.any_map]
  congr 1
  funext st
  simp only [Function.comp_apply]
  rw [isTransformer_reset behave st.2.kind st.2.base st.2.kind.defaultMask st.2.mask false st.2.final]

/-- C114 (prediction). A clone with the same fitted estimators answers the same, whatever the masking of the steps. -/
theorem C114_clone_predict (behave : Val → Est α σ) (front : List ((String → Bool) × PSel × σ))
    (last : (String → Bool) × PSel × σ) (hp : ∀ st ∈ front ++ [last], HasParams st.2.1)
    (hk : ∀ st ∈ front ++ [last], st.2.1.kind = .shared) (hf : ∀ st ∈ front, st.2.1.final = false)
    (hlast : (behave last.2.1.base).hasTransform = false) :
    ∃ (front' : List ((String → Bool) × PSel)) (last' : (String → Bool) × PSel),
      clonePipeline ((front ++ [last]).map (fun st => (st.1, st.2.1))) = .ok (front' ++ [last']) ∧
      ∀ (req : Request) (query : σ → Call α → Py β) (X : List α) (y : Option (List Num)) (params : Dict),
        pipelineRoute (List.zipWith (fun st' st => (st'.1, st'.2.sel behave, st.2.2)) front' front)
          (last'.1, last'.2.sel behave, last.2.2) req query X y params =
        pipelineRoute (front.map (fun st => (st.1, st.2.1.sel behave, st.2.2))) (last.1, last.2.1.sel behave, last.2.2)
          req query X y params := by
  refine ⟨(front.map (fun st => (st.1, st.2.1))).map (fun st => (st.1, ⟨st.2.kind, st.2.base, st.2.kind.defaultMask, false⟩)),
    (last.1, ⟨last.2.1.kind, last.2.1.base, last.2.1.kind.defaultMask, false⟩), ?_, ?_⟩
  · rw [clonePipeline_value]
    · simp
    · intro st hst
      obtain ⟨x, hx, rfl⟩ := List.mem_map.1 hst
      exact hp x hx
    · intro st hst
      obtain ⟨x, hx, rfl⟩ := List.mem_map.1 hst
      rw [hk x hx]
      decide
  · intro req query X y params
    induction front generalizing X with
    | nil =>
      simp only [List.map_nil, List.zipWith_nil_left, pipelineRoute, Sel.sharedRoute, PSel.sel, hlast,
        prepareRouting_final (f := false) (g := last.2.1.final)]
    | cons st front ih =>
      have h1 := hf st (by simp)
      simp only [List.map_cons, List.zipWith_cons_cons, pipelineRoute, Sel.sharedTransform, PSel.sel, h1]
      simp only [List.map_map, PSel.sel] at ih
      simp only [List.map_map]
      have ih' := fun X => ih (fun x hx => hp x (by simp only [List.cons_append, List.mem_cons]; exact Or.inr hx))
        (fun x hx => hk x (by simp only [List.cons_append, List.mem_cons]; exact Or.inr hx))
        (fun x hx => hf x (List.mem_cons_of_mem _ hx)) X
      simp only [ih']

/-- C114 is false for `mask_target_labels=False`: a pipeline of one estimator learns from all rows, its clone from the source
rows only. -/
theorem C114_mask_counterexample [Cell α] (behave : Val → Est α σ) (keep : String → Bool) (b : Val) (X : List α)
    (y : List Num) (sd : List Int) (a : Alias) (hb : HasParams ⟨.shared, b, false, true⟩) (hk : keep "sample_domain" = true)
    (hsd : sd ≠ []) (hy : y.length = sd.length) (hX : X.length = sd.length) (hlab : Labelled sd y) (hnone : NoneMasked y)
    (htr : (behave b).hasTransform = false) (hreq : (behave b).fitReq = [("sample_weight", a)])
    (ha : a = .yes ∨ a = .no ∨ a = .unset) :
    (pipelineFit (runSteps behave [(keep, ⟨.shared, b, false, true⟩)]) X (some y) [("sample_domain", domParam sd)]).1 =
      [⟨X, some y, []⟩] ∧
    ∃ steps', clonePipeline [(keep, ⟨.shared, b, false, true⟩)] = .ok steps' ∧
      (pipelineFit (runSteps behave steps') X (some y) [("sample_domain", domParam sd)]).1 =
        [⟨sourceRows sd X, some (sourceRows sd y), []⟩] := by
  have hroute : routeParams [("sample_weight", a)] [("sample_domain", domParam sd)] = .ok [] := by
    rcases ha with rfl | rfl | rfl <;> simp [routeParams, List.lookup, domParam, Dict.has]
  constructor
  · simp only [pipelineFit, runSteps, List.map_cons, List.map_nil, List.dropLast_singleton, List.any_nil, Bool.false_eq_true,
      if_false, fitSteps, PSel.step, PSel.sel, Step.fit, keep_sd hk, Sel.sharedFit, Sel.ownMask, Cont.fromInput, Cont.mergeOut,
      Dict.update, Sel.routedCall, htr, Est.request, hreq, prepareRouting, Bool.not_false, if_true,
      Sel.removeMasked, Dict.has, Bool.or_self]
    simp only [List.foldl_nil, hroute, removeMasked_none (hX.trans hy.symm) hnone]
    have : (if (false || (List.lookup "sample_domain" ([] : Dict)).isSome) = true then (Except.ok (X, some y, []) :
        Py (List α × Option (List Num) × Dict)) else .ok (X, some y, [])) = .ok (X, some y, []) := ite_self _
    simp only [this]
    cases (behave b).invoke .fit ⟨X, some y, []⟩ <;> rfl
  · refine ⟨_, clonePipeline_value (by simpa using hb) (by simp), ?_⟩
    have h := C108_training_data keep [] (behave b) X X y sd none [] [] a hk hsd hy hlab (.nil _) hX (by simp) htr hreq []
      (by rcases ha with rfl | rfl | rfl
          · exact Or.inl ⟨rfl, rfl⟩
          · exact Or.inr ⟨Or.inl rfl, rfl⟩
          · exact Or.inr ⟨Or.inr ⟨rfl, rfl⟩, rfl⟩)
    have h2 := fun c y p => step_fit_final behave .shared b true false true htr c y p
    simp only [pipelineFit, runSteps, daPipeline, List.map_cons, List.map_nil, List.dropLast_singleton, List.any_nil,
      Bool.false_eq_true, if_false, fitSteps, List.nil_append, Kind.defaultMask] at h ⊢
    rw [h2]
    simp only [PSel.step, PSel.sel]
    rw [h]

/-- C114 is false with `SelectSourceTarget`: no pipeline that contains it can be cloned. -/
theorem C114_source_target_counterexample (steps : List ((String → Bool) × PSel)) (hp : ∀ st ∈ steps, HasParams st.2)
    (h : ∃ st ∈ steps, st.2.kind = .sourceTarget) : clonePipeline steps = .error .attributeError := by
  induction steps with
  | nil => simp at h
  | cons st l ih =>
    obtain ⟨keep, s⟩ := st
    unfold clonePipeline
    by_cases hs : s.kind = .sourceTarget
    · rw [C17_counterexample_source_target s hs]
    · rw [clone_value (hp (keep, s) (by simp)) hs]
      have : ∃ st ∈ l, st.2.kind = .sourceTarget := by
        obtain ⟨x, hx, he⟩ := h
        rcases List.mem_cons.1 hx with rfl | hx
        · exact absurd he hs
        · exact ⟨x, hx, he⟩
      simp only [ih (fun x hx => hp x (List.mem_cons_of_mem _ hx)) this]

/-! ### Caching -/

theorem ownMask_agree (s : Sel α σ) (hs : s.mask = true) {sd : List Int} (hsd : sd ≠ []) {y : List Num}
    (h : y.length = sd.length) (hinf : Num.pinf ∉ y ∧ Num.ninf ∉ y) {l : List Num} (hl : l = y ∨ l = maskedLabels sd y) :
    s.ownMask (some l) [("sample_domain", domParam sd)] = .ok (some (maskedLabels sd y)) := by
  obtain ⟨e, m, g⟩ := s
  simp only at hs
  subst hs
  exact ownMask_true hsd h hinf hl

theorem step_labels [Cell α] (behave : Val → Est α σ) (s : PSel) (hk : s.kind = .shared ∨ s.kind = .perDomain)
    (hs : s.mask = true) {sd : List Int} (hsd : sd ≠ []) {y : List Num} (h : y.length = sd.length)
    (hinf : Num.pinf ∉ y ∧ Num.ninf ∉ y) {l l' : List Num} (hl : l = y ∨ l = maskedLabels sd y)
    (hl' : l' = y ∨ l' = maskedLabels sd y) (c : Cont α) :
    (s.step behave).fit c (some l) [("sample_domain", domParam sd)] =
      (s.step behave).fit c (some l') [("sample_domain", domParam sd)] ∧
    (s.step behave).fitTransform c (some l) [("sample_domain", domParam sd)] =
      (s.step behave).fitTransform c (some l') [("sample_domain", domParam sd)] ∧
    ∀ calls f c' y', (s.step behave).fitTransform c (some l) [("sample_domain", domParam sd)] = (calls, .ok (f, c', y')) →
      y' = some (maskedLabels sd y) := by
  obtain ⟨k, b, m, g⟩ := s
  simp only at hk hs
  subst hs
  have hm := fun {l} hl => ownMask_agree (⟨behave b, true, g⟩ : Sel α σ) rfl hsd h hinf (l := l) hl
  have hsf : ∀ me {l}, (l = y ∨ l = maskedLabels sd y) → ∀ calls r y',
      Sel.sharedFit (⟨behave b, true, g⟩ : Sel α σ) me c (some l) [("sample_domain", domParam sd)] = (calls, .ok (r, y')) →
      y' = some (maskedLabels sd y) := by
    intro me l hl calls r y' he
    simp only [Sel.sharedFit, hm hl] at he
    split at he
    · cases he
    · split at he
      · cases he
      · cases he; rfl
  have hpf : ∀ me {l}, (l = y ∨ l = maskedLabels sd y) → ∀ calls r y',
      Sel.perDomainFit (⟨behave b, true, g⟩ : Sel α σ) me c (some l) [("sample_domain", domParam sd)] = (calls, .ok (r, y')) →
      y' = some (maskedLabels sd y) := by
    intro me l hl calls r y' he
    simp only [Sel.perDomainFit, hm hl] at he
    split at he
    · cases he
    · split at he
      · cases he
      · split at he
        · cases he
        · split at he
          · cases he
          · cases he; rfl
  rcases hk with rfl | rfl
  · refine ⟨?_, ?_, ?_⟩
    · simp only [PSel.step, PSel.sel, Step.fit, Sel.sharedFit, hm hl, hm hl']
    · simp only [PSel.step, PSel.sel, Step.fitTransform, Sel.sharedFitTransformOut, Sel.sharedFit, hm hl, hm hl']
    · intro calls f c' y' he
      simp only [PSel.step, PSel.sel, Step.fitTransform] at he
      split at he
      · cases he
      · rename_i cs f' out y'' heq
        have : y'' = y' := by
          simp only [Prod.mk.injEq] at he
          obtain ⟨-, he⟩ := he
          split at he
          · cases he
          · cases he; rfl
        subst this
        simp only [Sel.sharedFitTransformOut] at heq
        split at heq
        · exact hsf _ hl _ _ _ heq
        · split at heq
          · cases heq
          · rename_i heq2
            have h3 := hsf _ hl _ _ _ heq2
            simp only [Prod.mk.injEq] at heq
            obtain ⟨-, heq⟩ := heq
            split at heq
            · cases heq
            · split at heq
              · cases heq
              · cases heq; exact h3
  · refine ⟨?_, ?_, ?_⟩
    · simp only [PSel.step, PSel.sel, Step.fit, Sel.perDomainFit, hm hl, hm hl']
    · simp only [PSel.step, PSel.sel, Step.fitTransform, Sel.perDomainFitTransformOut, Sel.perDomainFit, hm hl, hm hl']
    · intro calls f c' y' he
      simp only [PSel.step, PSel.sel, Step.fitTransform] at he
      split at he
      · cases he
      · rename_i cs f' out y'' heq
        have : y'' = y' := by
          simp only [Prod.mk.injEq] at he
          obtain ⟨-, he⟩ := he
          split at he
          · cases he
          · cases he; rfl
        subst this
        simp only [Sel.perDomainFitTransformOut] at heq
        split at heq
        · split at heq
          · cases heq
          · rename_i heq2
            have h3 := hpf _ hl _ _ _ heq2
            simp only [Prod.mk.injEq] at heq
            obtain ⟨-, heq⟩ := heq
            split at heq
            · cases heq
            · cases heq; exact h3
        · split at heq <;> cases heq

/-- C114 (empty cache). With `memory` and nothing in the cache, training makes the same calls and gives the same result as
without `memory`, for all data, labels and parameters, when the steps have the masking of their class by default and only the
last one is marked as final. -/
theorem C114_cold_cache_partial [Cell α] (behave : Val → Est α σ) (steps : List ((String → Bool) × PSel))
    (hp : ∀ st ∈ steps, HasParams st.2) (hk : ∀ st ∈ steps, st.2.kind ≠ .sourceTarget)
    (hm : ∀ st ∈ steps, st.2.mask = st.2.kind.defaultMask) (hf : ∀ st ∈ steps.dropLast, st.2.final = false)
    (c : Cont α) (y : Option (List Num)) (params : Dict) :
    fitCached behave (steps.map (fun st => (false, st))) c y params = fitSteps (runSteps behave steps) c y params := by
  induction steps generalizing c y with
  | nil => rfl
  | cons st rest ih =>
    obtain ⟨keep, s⟩ := st
    cases rest with
    | nil => rfl
    | cons st' rest =>
      have hs : s.clone = .ok s := by
        rw [clone_value (hp (keep, s) (by simp)) (hk (keep, s) (by simp))]
        have h1 : s.mask = s.kind.defaultMask := hm (keep, s) (by simp)
        have h2 : s.final = false := hf (keep, s) (by simp)
        rw [← h1, ← h2]
      have ih' := fun c y => ih (fun x hx => hp x (List.mem_cons_of_mem _ hx)) (fun x hx => hk x (List.mem_cons_of_mem _ hx))
        (fun x hx => hm x (List.mem_cons_of_mem _ hx))
        (fun x hx => hf x (by simp only [List.dropLast_cons_cons]; exact List.mem_cons_of_mem _ hx)) c y
      simp only [runSteps, List.map_cons] at ih' ⊢
      simp only [fitCached, fitSteps, hs, Bool.false_eq_true, if_false, ih']
      rcases (s.step behave).fitTransform c y (params.filter (fun kv => keep kv.1)) with ⟨calls, _ | ⟨f, c', y'⟩⟩ <;> rfl

/-- C114, partial (caching). With `memory`, a pipeline of shared and per-domain steps that mask target labels is trained with
the same result as without, whichever steps are taken from the cache; the base estimators called are among those called
without cache, and the same ones if nothing is in the cache.  For steps that do not mask see `C114_cached_counterexample`. -/
theorem C114_cached_partial [Cell α] (behave : Val → Est α σ) (steps : List (Bool × (String → Bool) × PSel))
    (hp : ∀ st ∈ steps, HasParams st.2.2) (hk : ∀ st ∈ steps, st.2.2.kind = .shared ∨ st.2.2.kind = .perDomain)
    (hm : ∀ st ∈ steps, st.2.2.mask = true) (hf : ∀ st ∈ steps.dropLast, st.2.2.final = false)
    (hkeep : ∀ st ∈ steps, st.2.1 "sample_domain" = true) (c : Cont α) (y : List Num) (sd : List Int)
    (hsd : sd ≠ []) (hy : y.length = sd.length) (hinf : Num.pinf ∉ y ∧ Num.ninf ∉ y) (hne : steps ≠ []) :
    let cached := fitCached behave steps c (some y) [("sample_domain", domParam sd)]
    let direct := fitSteps (runSteps behave (steps.map Prod.snd)) c (some y) [("sample_domain", domParam sd)]
    cached.2 = direct.2 ∧ cached.1.Sublist direct.1 ∧ ((∀ st ∈ steps, st.1 = false) → cached.1 = direct.1) := by
  suffices H : ∀ l l' : List Num, (l = y ∨ l = maskedLabels sd y) → (l' = y ∨ l' = maskedLabels sd y) →
      (fitCached behave steps c (some l) [("sample_domain", domParam sd)]).2 =
        (fitSteps (runSteps behave (steps.map Prod.snd)) c (some l') [("sample_domain", domParam sd)]).2 ∧
      (fitCached behave steps c (some l) [("sample_domain", domParam sd)]).1.Sublist
        (fitSteps (runSteps behave (steps.map Prod.snd)) c (some l') [("sample_domain", domParam sd)]).1 ∧
      ((∀ st ∈ steps, st.1 = false) → (fitCached behave steps c (some l) [("sample_domain", domParam sd)]).1 =
        (fitSteps (runSteps behave (steps.map Prod.snd)) c (some l') [("sample_domain", domParam sd)]).1) from
    H y y (Or.inl rfl) (Or.inl rfl)
  induction steps generalizing c with
  | nil => exact absurd rfl hne
  | cons st rest ih =>
    obtain ⟨hit, keep, s⟩ := st
    intro l l' hl hl'
    have hks := hk (hit, keep, s) (by simp)
    have hms : s.mask = true := hm (hit, keep, s) (by simp)
    have hkp := keep_sd (hkeep (hit, keep, s) (by simp)) sd
    obtain ⟨h1, h2, h3⟩ := step_labels behave s hks hms hsd hy hinf hl hl' c
    cases rest with
    | nil =>
      simp only [fitCached, runSteps, List.map_cons, List.map_nil, fitSteps, hkp, h1]
      exact ⟨rfl, List.Sublist.refl _, fun _ => rfl⟩
    | cons st' rest =>
      have hfs : s.final = false := hf (hit, keep, s) (by simp)
      have hcl : s.clone = .ok s := by
        rw [clone_value (hp (hit, keep, s) (by simp)) (by rcases hks with h | h <;> simp only at h <;> rw [h] <;> decide)]
        obtain ⟨k, b, m, g⟩ := s
        simp only at hks hms hfs
        subst hms hfs
        rcases hks with rfl | rfl <;> rfl
      have hcl' : ∀ c' l l', (l = y ∨ l = maskedLabels sd y) → (l' = y ∨ l' = maskedLabels sd y) → _ := fun c' l l' a b =>
        ih (fun x hx => hp x (List.mem_cons_of_mem _ hx)) (fun x hx => hk x (List.mem_cons_of_mem _ hx))
        (fun x hx => hm x (List.mem_cons_of_mem _ hx))
        (fun x hx => hf x (by simp only [List.dropLast_cons_cons]; exact List.mem_cons_of_mem _ hx))
        (fun x hx => hkeep x (List.mem_cons_of_mem _ hx)) c' (by simp) l l' a b
      simp only [fitCached, hcl, hkp, h2]
      simp only [List.map_cons, runSteps, fitSteps, hkp]
      simp only [List.map_cons, runSteps] at hcl'
      rw [h2] at h3
      rcases hrun : (s.step behave).fitTransform c (some l') [("sample_domain", domParam sd)] with ⟨calls, _ | ⟨f, c', y'⟩⟩
      · exact ⟨rfl, List.Sublist.refl _, fun _ => rfl⟩
      · have hy' := h3 _ _ _ _ hrun
        subst hy'
        have hl2 : ∃ l2, (if hit = true then some l else some (maskedLabels sd y)) = some l2 ∧
            (l2 = y ∨ l2 = maskedLabels sd y) := by
          cases hit
          · exact ⟨_, rfl, Or.inr rfl⟩
          · exact ⟨_, rfl, hl⟩
        obtain ⟨l2, e2, hl2⟩ := hl2
        simp only [e2]
        obtain ⟨g1, g2, g3⟩ := hcl' c' l2 _ hl2 (Or.inr rfl)
        rcases hA : fitCached behave (st' :: rest) c' (some l2) [("sample_domain", domParam sd)] with ⟨ca, ra⟩
        rcases hB : fitSteps ((st'.2.1, st'.2.2.step behave) :: List.map (fun st => (st.1, st.2.step behave))
          (List.map Prod.snd rest)) c' (some (maskedLabels sd y)) [("sample_domain", domParam sd)] with ⟨cb, rb⟩
        rw [hA, hB] at g1 g2 g3
        simp only at g1 g2 g3
        subst g1
        have hsub : ((if hit = true then [] else calls) ++ ca).Sublist (calls ++ cb) := by
          cases hit
          · exact List.Sublist.append (List.Sublist.refl _) g2
          · exact List.Sublist.append (List.nil_sublist _) g2
        have heq : (∀ st ∈ (hit, keep, s) :: st' :: rest, st.1 = false) →
            (if hit = true then [] else calls) ++ ca = calls ++ cb := by
          intro hh
          have h0 : hit = false := hh (hit, keep, s) (by simp)
          rw [g3 (fun x hx => hh x (List.mem_cons_of_mem _ hx)), h0]
          simp
        cases ra with
        | error e => simp only [hB]; exact ⟨trivial, hsub, heq⟩
        | ok r => simp only [hB]; exact ⟨trivial, hsub, heq⟩

/-! ### Adapters that propose labels -/

/-- C114 (label propagation). `make_da_pipeline` switches masking off from an adapter with `predicts_target_labels` on
(`JCPOTLabelProp`), which a clone does not know.  It does not matter if the proposed labels depend on the source labels only:
the final estimator of the clone is trained on the same rows with the same labels. -/
theorem C114_label_adapters [Cell α] (behave : Val → Est α σ) (keep : String → Bool) (ba bf : Val) (st : σ)
    (prop : List α → List Int → SDArg → Py (List α × List Int)) (X X' : List α) (c l : List Int) (sd : List Int) (a : Alias)
    (hba : HasParams ⟨.shared, ba, false, false⟩) (hbf : HasParams ⟨.shared, bf, false, true⟩)
    (ha : behave ba = Shallow.labelEst st prop)
    (hprop : ∀ y y' : List Int, y.length = sd.length → y'.length = sd.length → sourceRows sd y = sourceRows sd y' →
      prop X y (.vec sd) = prop X y' (.vec sd))
    (hk : keep "sample_domain" = true) (hsd : sd ≠ []) (hc : c.length = sd.length) (hX : X'.length = sd.length)
    (hrun : prop X c (.vec sd) = .ok (X', l)) (hl : l.length = sd.length) (hls : ∀ v ∈ sourceRows sd l, v = -1)
    (hlt : ∀ v ∈ targetRows sd l, v ≠ -1) (htr : (behave bf).hasTransform = false)
    (hreq : (behave bf).fitReq = [("sample_weight", a)]) (haa : a = .yes ∨ a = .no ∨ a = .unset) :
    ∃ steps', clonePipeline [(keep, ⟨.shared, ba, false, false⟩), (keep, ⟨.shared, bf, false, true⟩)] = .ok steps' ∧
      ∀ steps ∈ [[(keep, ⟨.shared, ba, false, false⟩), (keep, ⟨.shared, bf, false, true⟩)], steps'],
        let run := pipelineFit (runSteps behave steps) X (some (c.map (fun v : Int => Num.fin (v : ℚ))))
          [("sample_domain", domParam sd)]
        let call : Call α := ⟨targetRows sd X', some ((targetRows sd l).map (fun v : Int => Num.fin (v : ℚ))), []⟩
        run.1.getLast? = some call ∧
        run.2.map Prod.fst = match (behave bf).fit call with
          | .error e => .error e
          | .ok f => .ok [.one st, .one f] := by
  refine ⟨_, clonePipeline_value ?_ (by simp), ?_⟩
  · intro s hs
    simp only [List.mem_cons, List.not_mem_nil, or_false] at hs
    rcases hs with rfl | rfl
    · exact hba
    · exact hbf
  set y : List Num := c.map (fun v : Int => Num.fin (v : ℚ)) with hyd
  have hy : y.length = sd.length := by simp [hyd, hc]
  have hinf : Num.pinf ∉ y ∧ Num.ninf ∉ y := by
    constructor <;> · intro h; obtain ⟨v, -, hv⟩ := List.mem_map.1 h; cases hv
  have key : ∀ mask : Bool,
      pipelineFit (daPipeline keep [behave ba] (behave bf) mask) X (some y) [("sample_domain", domParam sd)] =
      ([⟨X, some (if mask then maskedLabels sd y else y), [("sample_domain", domParam sd)]⟩] ++
        [⟨targetRows sd X', some (targetRows sd (l.map (fun v : Int => Num.fin (v : ℚ)))), []⟩],
        match (behave bf).fit ⟨targetRows sd X', some (targetRows sd (l.map (fun v : Int => Num.fin (v : ℚ)))), []⟩ with
        | .error e => .error e
        | .ok f => .ok ([st].map .one ++ [.one f], some (if mask then maskedLabels sd y else y))) := by
    intro mask
    have hsrc : sourceRows sd ((if mask then maskedLabels sd y else y).map Shallow.labelInt) = sourceRows sd c := by
      cases mask
      · simp only [Bool.false_eq_true, if_false, hyd, List.map_map]
        have : Shallow.labelInt ∘ (fun v : Int => Num.fin (v : ℚ)) = id := by funext v; simp [Shallow.labelInt]
        rw [this, List.map_id]
      · simp only [if_true]; exact labelInt_masked hy
    have hft : (behave ba).fitTransform ⟨X, some ((none : Option (List Num)).getD (if mask then maskedLabels sd y else y)),
        [("sample_domain", domParam sd)]⟩ = .ok (st, .triple X' (some (l.map (fun v : Int => Num.fin (v : ℚ)))) []) := by
      have hg : Dict.get [("sample_domain", domParam sd)] "sample_domain" = domParam sd := get_eq_of_lookup List.lookup_cons_self
      rw [ha]
      simp only [Shallow.labelEst, hg, sdArg_domParam, Option.getD_none, hprop _ c (by cases mask <;> simp [hy, length_maskedLabels hy]) hc hsrc, hrun]
    refine C108_propagated_labels keep [behave ba] (behave bf) mask X X' y _ (l.map (fun v : Int => Num.fin (v : ℚ))) sd none
      [⟨X, some (if mask then maskedLabels sd y else y), [("sample_domain", domParam sd)]⟩] [st] a hk hsd hy hinf rfl
      (.step _ _ _ _ _ _ _ _ _ _ (Or.inl ⟨by rw [ha]; exact asks_adapterReq, rfl⟩) (by rw [ha]; rfl) (by rw [ha]; rfl) hft
        (.labels _ _) (.nil _))
      (by simpa using hl) ?_ ?_ hX (by simp) htr hreq [] ?_
    · intro v hv
      rw [sourceRows_map] at hv
      obtain ⟨z, hz, rfl⟩ := List.mem_map.1 hv
      rw [hls z hz]; norm_num
    · intro v hv
      rw [targetRows_map] at hv
      obtain ⟨z, hz, rfl⟩ := List.mem_map.1 hv
      refine ⟨⟨z, rfl⟩, ?_⟩
      intro he
      apply hlt z hz
      simp only [Num.fin.injEq] at he
      exact_mod_cast he
    · rcases haa with rfl | rfl | rfl
      · exact Or.inl ⟨rfl, rfl⟩
      · exact Or.inr ⟨Or.inl rfl, rfl⟩
      · exact Or.inr ⟨Or.inr ⟨rfl, rfl⟩, rfl⟩
  have fin : ∀ run : Run α (List (Fitted σ) × Option (List Num)), ∀ mask : Bool,
      run = pipelineFit (daPipeline keep [behave ba] (behave bf) mask) X (some y) [("sample_domain", domParam sd)] →
      run.1.getLast? = some ⟨targetRows sd X', some ((targetRows sd l).map (fun v : Int => Num.fin (v : ℚ))), []⟩ ∧
      run.2.map Prod.fst = match (behave bf).fit
          ⟨targetRows sd X', some ((targetRows sd l).map (fun v : Int => Num.fin (v : ℚ))), []⟩ with
        | .error e => .error e
        | .ok f => .ok [.one st, .one f] := by
    intro run mask he
    rw [he, key mask, targetRows_map]
    refine ⟨by simp, ?_⟩
    cases (behave bf).fit ⟨targetRows sd X', some ((targetRows sd l).map (fun v : Int => Num.fin (v : ℚ))), []⟩ <;> rfl
  intro steps hs
  simp only [List.mem_cons, List.not_mem_nil, or_false] at hs
  rcases hs with rfl | rfl
  · exact fin _ false rfl
  · refine fin _ true ?_
    have h2 := fun c y p => step_fit_final behave .shared bf true false true htr c y p
    simp only [pipelineFit, runSteps, daPipeline, List.map_cons, List.map_nil, List.cons_append, List.nil_append, fitSteps,
      Kind.defaultMask, h2]
    rfl

theorem domainRows_of_source {γ : Type} {sd : List Int} {y y' : List γ} (hy : y.length = sd.length) (hy' : y'.length = sd.length)
    (h : sourceRows sd y = sourceRows sd y') {d : Int} (hd : 0 ≤ d) : domainRows d sd y = domainRows d sd y' := by
  induction sd generalizing y y' with
  | nil => simp only [List.length_nil, List.length_eq_zero_iff] at hy hy'; rw [hy, hy']
  | cons e sd ih =>
    cases y with
    | nil => cases hy
    | cons v y => cases y' with
      | nil => cases hy'
      | cons v' y' =>
        simp only [List.length_cons, Nat.add_right_cancel_iff] at hy hy'
        by_cases he : 0 ≤ e
        · simp only [sourceRows, List.zip_cons_cons, List.filter_cons, he, decide_true, if_true, List.map_cons,
            List.cons.injEq] at h
          have := ih hy hy' h.2
          simp only [domainRows, List.zip_cons_cons, List.filter_cons] at this ⊢
          rw [h.1]
          by_cases hed : e = d <;> simp [hed, this]
        · simp only [sourceRows, List.zip_cons_cons, List.filter_cons, he, decide_false, Bool.false_eq_true, if_false] at h
          have := ih hy hy' h
          have hed : e ≠ d := by omega
          simp only [domainRows, List.zip_cons_cons, List.filter_cons, hed, decide_false, Bool.false_eq_true, if_false]
            at this ⊢
          exact this

/-- C114 (JCPOT). The labels proposed by `JCPOTLabelPropAdapter` do not depend on the target labels. -/
theorem C114_jcpot_source_labels {K : Type} [Field K] [LinearOrder K]
    (scores : List (List α) → List (List Int) → List α → List (List K)) (X : List α) (sd : List Int) (y y' : List Int)
    (hX : X ≠ []) (hlen : sd.length = X.length) (hy : y.length = sd.length) (hy' : y'.length = sd.length)
    (h : sourceRows sd y = sourceRows sd y') : OT.jcpot scores X y (.vec sd) = OT.jcpot scores X y' (.vec sd) := by
  have hsd : sd ≠ [] := by
    rintro rfl
    exact hX (List.length_eq_zero_iff.1 hlen.symm)
  obtain ⟨ks, hks, hm, h1⟩ := C06_per_domain_value [some y] sd (by simp) hsd (by simp [hy])
  obtain ⟨ks', hks', hm', h2⟩ := C06_per_domain_value [some y'] sd (by simp) hsd (by simp [hy'])
  have : ks' = ks := List.Pairwise.eq_of_mem_iff hks' hks (fun d => by rw [hm, hm'])
  subst this
  unfold OT.jcpot
  rw [check_labels hX (by simp [hy, hlen]) hsd, check_labels hX (by simp [hy', hlen]) hsd]
  simp only [ok_bind]
  rw [h1, h2]
  simp only [ok_bind, domArrays_map]
  have e1 : (ks'.filter (fun d => decide (0 ≤ d))).map (fun d => domainRows d sd y) =
      (ks'.filter (fun d => decide (0 ≤ d))).map (fun d => domainRows d sd y') :=
    List.map_congr_left (fun d hd => domainRows_of_source hy hy' h (of_decide_eq_true (List.mem_filter.1 hd).2))
  have e2 : y.map (fun _ => (-1 : Int)) = y'.map (fun _ => -1) := by
    simp only [List.map_const', hy, hy']
  rw [e1, e2]

/-! ### Parameters used up by the constructor -/

/-- C114 (parameters in a pipeline). Changing `n_neighbors` of a `NearestNeighborReweightAdapter` inside a pipeline takes effect,
because the selector fits a clone. -/
theorem C114_neighbours_cloned {K : Type} [Field K] (knn : Nat → List α → α → Nat) (k k' : Nat) (laplace : Bool) (X : List α)
    (sd : SDArg) : (((NNAdapter.init k laplace).setNeighbors k').clone.weights knn X sd : Py (List K)) =
      RW.nnWeights (knn k') laplace X sd := rfl

end

/-! ### Examples and counterexamples -/

namespace Demo114

/-- Behaviours by class name. -/
def behave : Val → Est Num Nat
  | .obj "Scaler" _ => demoScaler
  | .obj "Reweight" _ => demoReweight
  | _ => demoClf .no

/-- A base estimator with one parameter. -/
def est (cls : String) : Val := .obj cls [("C", .atom "1")]

/-- Three samples, the second from a target domain. -/
def run (steps : List ((String → Bool) × PSel)) : Run Num (List (Fitted Nat) × Option (List Num)) :=
  pipelineFit (runSteps behave steps) [.fin 5, .fin 6, .fin 7] (some [.fin 0, .fin 1, .fin 1])
    [("sample_domain", domParam [1, -2, 1])]

/-- The training data of the last call. -/
def lastFit {γ : Type} (r : Run Num γ) : Option (List Num × Option (List Num)) :=
  r.1.getLast?.map (fun c => (c.X, c.y))

end Demo114

open Demo114 in
/-- Selectors of one side train on the rows of that side; so do their clones. -/
example :
    lastFit (run [(fun _ => true, ⟨.selectTarget, est "SVC", Kind.defaultMask .selectTarget, true⟩)]) = some ([.fin 6], some [.fin 1]) ∧
    lastFit (run [(fun _ => true, ⟨.selectSource, est "SVC", Kind.defaultMask .selectSource, true⟩)]) =
      some ([.fin 5, .fin 7], some [.fin 0, .fin 1]) := by decide +kernel

open Demo114 in
/-- A step to which the pipeline does not route `sample_domain`. -/
example := C114_cold_cache_partial behave [(fun _ => true, ⟨.shared, est "Scaler", true, false⟩), (fun _ => false, ⟨.shared, est "SVC", true, true⟩)]
  (by
    intro st hst
    simp only [List.mem_cons, List.not_mem_nil, or_false] at hst
    rcases hst with rfl | rfl <;> exact ⟨_, _, rfl, by decide⟩)
  (by
    intro st hst
    simp only [List.mem_cons, List.not_mem_nil, or_false] at hst
    rcases hst with rfl | rfl <;> simp)
  (by
    intro st hst
    simp only [List.mem_cons, List.not_mem_nil, or_false] at hst
    rcases hst with rfl | rfl <;> rfl)
  (by simp) (Cont.fromInput (.array [.fin 5, .fin 6, .fin 7])) (some [.fin 0, .fin 1, .fin 1]) [("sample_domain", domParam [1, -2, 1])]

open Demo114 in
/-- C114 is false if the last step transforms: weights made by an adapter that the last step neither takes nor refuses are an
error, but not for a clone, which has lost the mark of the final step. -/
theorem C114_final_counterexample :
    let steps : List ((String → Bool) × PSel) := [(fun _ => true, ⟨.shared, est "Reweight", true, false⟩),
      (fun _ => true, ⟨.shared, est "Scaler", true, true⟩)]
    (∃ e, (run steps).2 = .error e) ∧ ∃ steps', clonePipeline steps = .ok steps' ∧ ∃ r, (run steps').2 = .ok r := by
  refine ⟨⟨.valueError, ?_⟩, _, rfl, ?_⟩
  · rfl
  · exact ⟨_, rfl⟩

open Demo114 in
/-- C114 is false with `memory` and `mask_target_labels=False`: the clone of the first step overwrites the target labels, so the
classifier is trained on source rows only, but on all rows without `memory` or if the first step is in the cache. -/
theorem C114_cached_counterexample :
    let steps : List ((String → Bool) × PSel) := [(fun _ => true, ⟨.shared, est "Scaler", false, false⟩),
      (fun _ => true, ⟨.shared, est "SVC", false, true⟩)]
    let cached := fun hit => fitCached behave (steps.map (fun st => (hit, st))) (Cont.fromInput (.array [.fin 5, .fin 6, .fin 7]))
      (some [.fin 0, .fin 1, .fin 1]) [("sample_domain", domParam [1, -2, 1])]
    lastFit (run steps) = some ([.fin 10, .fin 12, .fin 14], some [.fin 0, .fin 1, .fin 1]) ∧
    lastFit (cached false) = some ([.fin 10, .fin 14], some [.fin 0, .fin 1]) ∧
    lastFit (cached true) = some ([.fin 10, .fin 12, .fin 14], some [.fin 0, .fin 1, .fin 1]) := by
  decide +kernel

/-- C114 is false for a `NearestNeighborReweightAdapter` used on its own: after `set_params(n_neighbors=2)` the weights are those
of one neighbour, although an adapter constructed with two gives others.  (A vote among distinct labels is won by the smallest.) -/
theorem C114_neighbours_counterexample :
    let dist := fun (a b : Int) => (a - b).natAbs
    let knn : Nat → List Int → Int → Nat := fun k Xs x =>
      ((((List.range Xs.length).filter (fun i => decide (((List.range Xs.length).filter (fun j =>
        decide (dist x (Xs.getD j 0) < dist x (Xs.getD i 0)))).length < k))).min?).getD 0)
    let X : List Int := [0, 10, 9, 8]
    let sd : SDArg := .vec [1, 1, -2, -2]
    let w := fun a : NNAdapter => (a.weights knn X sd : Py (List ℚ))
    w ((NNAdapter.init 1 false).setNeighbors 2) = .ok [0, 2, 1, 1] ∧ w (.init 2 false) = .ok [2, 0, 1, 1] := by
  decide +kernel

open Demo114 in
example : let steps : List ((String → Bool) × PSel) := [(fun _ => true, ⟨.shared, est "Scaler", true, false⟩),
      (fun _ => true, ⟨.shared, est "SVC", true, true⟩)]
    (∀ st ∈ steps, HasParams st.2) ∧ lastFit (run steps) = some ([.fin 10, .fin 14], some [.fin 0, .fin 1]) ∧
    ∃ steps', clonePipeline steps = .ok steps' ∧ lastFit (run steps') = some ([.fin 10, .fin 14], some [.fin 0, .fin 1]) := by
  refine ⟨?_, by decide +kernel, _, rfl, by decide +kernel⟩
  intro st hst
  simp only [List.mem_cons, List.not_mem_nil, or_false] at hst
  rcases hst with rfl | rfl <;> exact ⟨_, _, rfl, by simp⟩

open Demo114 in
example : let steps : List ((String → Bool) × PSel) := [(fun _ => true, ⟨.shared, est "SVC", false, true⟩)]
    lastFit (run steps) = some ([.fin 5, .fin 6, .fin 7], some [.fin 0, .fin 1, .fin 1]) ∧
    ∃ steps', clonePipeline steps = .ok steps' ∧ lastFit (run steps') = some ([.fin 5, .fin 7], some [.fin 0, .fin 1]) :=
  ⟨by decide +kernel, _, rfl, by decide +kernel⟩

open Demo114 in
example : lastFit (run [(fun _ => true, ⟨.sourceTarget, est "SVC", false, true⟩)]) ≠ none ∧
    clonePipeline [(fun _ => true, ⟨.sourceTarget, est "SVC", false, true⟩)] = .error .attributeError :=
  ⟨by decide +kernel, rfl⟩

open Demo114 in
example : let steps : List (Bool × (String → Bool) × PSel) := [(true, fun _ => true, ⟨.shared, est "Scaler", true, false⟩),
      (false, fun _ => true, ⟨.shared, est "SVC", true, true⟩)]
    let r := fitCached behave steps (Cont.fromInput (.array [.fin 5, .fin 6, .fin 7])) (some [.fin 0, .fin 1, .fin 1])
      [("sample_domain", domParam [1, -2, 1])]
    r.1.length = 1 ∧ lastFit r = some ([.fin 10, .fin 14], some [.fin 0, .fin 1]) := by decide +kernel

/-- JCPOT, its clone, and what their classifiers are trained on. -/
example : let scores : List (List Num) → List (List Int) → List Num → List (List ℚ) :=
      fun _ _ Xt => Xt.map (fun x => if x = .fin 6 then [0, 1] else [1, 0])
    let behave : Val → Est Num Nat := fun v => match v with
      | .obj "JCPOT" _ => Shallow.labelEst 7 (OT.jcpot scores)
      | _ => demoClf .no
    let steps : List ((String → Bool) × PSel) := [(fun _ => true, ⟨.shared, .obj "JCPOT" [], false, false⟩),
      (fun _ => true, ⟨.shared, .obj "SVC" [], false, true⟩)]
    let run := fun steps => Demo114.lastFit (pipelineFit (runSteps behave steps) [.fin 5, .fin 6, .fin 7]
      (some [.fin 0, .fin 1, .fin 1]) [("sample_domain", domParam [1, -2, -2])])
    run steps = some ([.fin 6, .fin 7], some [.fin 1, .fin 0]) ∧
    ∃ steps', clonePipeline steps = .ok steps' ∧ run steps' = some ([.fin 6, .fin 7], some [.fin 1, .fin 0]) :=
  ⟨by decide +kernel, _, rfl, by decide +kernel⟩

end Skada

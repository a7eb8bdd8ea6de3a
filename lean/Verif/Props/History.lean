/-
C133: pipelines over histories of `fit`, `set_params` and evaluation calls.
-/
import Verif.Model.History
import Verif.Props.Selectors
import Verif.Props.Domain
import Verif.Props.PerDomain

namespace Skada
open Np Spec Life

section History
variable {α β σ : Type} [Cell α]

/-- The configuration of a pipeline object. -/
def Spec.config (ps : List (PStep α σ)) : List ((String → Bool) × Step α σ) := ps.map (fun p => (p.keep, p.step))

/-- A new pipeline object with this configuration; nothing has been fitted. -/
def Spec.fresh (steps : List ((String → Bool) × Step α σ)) : List (PStep α σ) := steps.map (fun s => ⟨s.1, s.2, none⟩)

/-- `set_params` on a configuration. -/
def Spec.configure (steps : List ((String → Bool) × Step α σ)) : Op α σ → List ((String → Bool) × Step α σ)
  | .setParams k st => steps.modify k (fun s => (s.1, st))
  | _ => steps

/-- Is the operation a `fit`? -/
def Spec.IsFit : Op α σ → Prop
  | .fit _ _ _ => True
  | _ => False

omit [Cell α] in
theorem store_config (p : PStep α σ) (f : Option (Fitted σ)) : (p.store f).keep = p.keep ∧ (p.store f).step = p.step := by
  cases f <;> exact ⟨rfl, rfl⟩

theorem fitLoop_config (ps : List (PStep α σ)) (c : Cont α) (y : Option (List Num)) (params : Dict) :
    config (fitLoop ps c y params).1 = config ps := by
  induction ps generalizing c y with
  | nil => rfl
  | cons p rest ih =>
    cases rest with
    | nil =>
      unfold fitLoop
      cases (p.step.fit c y (params.filter (fun kv => p.keep kv.1))).2 with
      | error e => rfl
      | ok r => rfl
    | cons q rest =>
      unfold fitLoop
      simp only
      have hp := store_config p (storesOnFitTransform p.step c y (params.filter (fun kv => p.keep kv.1)))
      cases (p.step.fitTransform c y (params.filter (fun kv => p.keep kv.1))).2 with
      | error e => simp only [config, List.map_cons, hp.1, hp.2]
      | ok r =>
        obtain ⟨f, c', y'⟩ := r
        have := ih c' y'
        simp only [config, List.map_cons, hp.1, hp.2] at this ⊢
        rw [this]

theorem fit_config (ps : List (PStep α σ)) (X : List α) (y : Option (List Num)) (params : Dict) : config (Life.fit ps X y params).1 = config ps := by
  unfold Life.fit
  split
  · rfl
  · exact fitLoop_config ps _ y params

/-- C133 (configuration). The configuration of a pipeline is what `set_params` made it; fitting and evaluation do not change it. -/
theorem C133_config (ps : List (PStep α σ)) (ops : List (Op α σ)) : config (run ps ops) = ops.foldl configure (config ps) := by
  induction ops generalizing ps with
  | nil => rfl
  | cons op ops ih =>
    have : run ps (op :: ops) = run (Life.step ps op) ops := rfl
    rw [this, ih, List.foldl_cons]
    congr 1
    cases op with
    | fit X y params => exact fit_config ps X y params
    | setParams k st =>
      simp only [Life.step, config, configure]
      apply List.ext_getElem?
      intro i
      simp only [List.getElem?_map, List.getElem?_modify]
      by_cases h : k = i
      · simp only [h, if_true]; cases ps[i]? <;> rfl
      · simp only [if_neg h]; cases ps[i]? <;> rfl
    | evaluate => rfl

/-- What is stored is what the call computed. -/
theorem stores_ok {st : Step α σ} {c c' : Cont α} {y y' : Option (List Num)} {params : Dict} {f : Fitted σ}
    (h : (st.fitTransform c y params).2 = .ok (f, c', y')) : storesOnFitTransform st c y params = some f := by
  have shared : ∀ (s : Sel α σ) (c : Cont α) (y : Option (List Num)) (params : Dict) (g : σ) (out : StepOut α) (z : Option (List Num)),
      (s.sharedFitTransformOut c y params).2 = .ok ((g, out), z) → sharedStores s c y params = some (.one g) := by
    intro s c y params g out z h
    unfold Sel.sharedFitTransformOut at h
    unfold sharedStores
    by_cases hft : s.est.hasFitTransform = true
    · rw [if_pos hft] at h
      rw [if_pos hft, h]
    · rw [if_neg hft] at h
      rw [if_neg hft]
      rcases hs : s.sharedFit .fit c y params with ⟨calls, r⟩
      rw [hs] at h
      cases r with
      | error e => cases h
      | ok r =>
        obtain ⟨⟨a, b⟩, z'⟩ := r
        simp only at h ⊢
        split at h
        · cases h
        · split at h
          · cases h
          · cases h; rfl
  cases st with
  | shared s =>
    simp only [Step.fitTransform] at h
    simp only [storesOnFitTransform]
    rcases hs : s.sharedFitTransformOut c y params with ⟨calls, r⟩
    rw [hs] at h
    cases r with
    | error e => cases h
    | ok r =>
      obtain ⟨⟨a, b⟩, z'⟩ := r
      simp only at h
      split at h
      · cases h
      · cases h; exact shared s c y params a b y' (by rw [hs])
  | perDomain s =>
    simp only [Step.fitTransform] at h
    simp only [storesOnFitTransform]
    rcases hs : s.perDomainFitTransformOut c y params with ⟨calls, r⟩
    rw [hs] at h
    unfold Sel.perDomainFitTransformOut at hs
    by_cases hft : s.est.hasFitTransform = true
    · rw [if_pos hft] at hs
      rw [if_pos hft]
      rcases hp : s.perDomainFit .fitTransform c y params with ⟨calls', r'⟩
      rw [hp] at hs
      cases r' with
      | error e => cases hs; cases h
      | ok r' =>
        simp only at hs
        simp only [Prod.mk.injEq] at hs
        obtain ⟨-, hs⟩ := hs
        split at hs
        · subst hs; cases h
        · subst hs
          simp only at h
          split at h
          · cases h
          · cases h; rfl
    · rw [if_neg hft] at hs
      split at hs <;> (cases hs; cases h)
  | select side s =>
    simp only [Step.fitTransform] at h
    simp only [storesOnFitTransform]
    rcases hs : s.selectFitTransform side c y params with ⟨calls, r⟩
    rw [hs] at h
    unfold Sel.selectFitTransform at hs
    cases hp : preFilter side c y params with
    | error e => rw [hp] at hs; cases hs; cases h
    | ok t =>
      obtain ⟨c1, y1, p1⟩ := t
      rw [hp] at hs
      simp only at hs ⊢
      rcases ho : s.sharedFitTransformOut c1 y1 p1 with ⟨calls', r'⟩
      rw [ho] at hs
      cases r' with
      | error e => cases hs; cases h
      | ok r' =>
        obtain ⟨⟨a, b⟩, z'⟩ := r'
        simp only [Prod.mk.injEq] at hs
        obtain ⟨-, hs⟩ := hs
        split at hs
        · subst hs; cases h
        · subst hs
          cases h
          exact shared s c1 y1 p1 a b z' (by rw [ho])
  | sourceTarget s =>
    simp only [Step.fitTransform] at h
    simp only [storesOnFitTransform]
    rcases hs : s.fitTransformOut c y params with ⟨calls, r⟩
    rw [hs] at h
    unfold SST.fitTransformOut at hs
    by_cases hft : s.source.hasFitTransform = true
    · rw [if_pos hft] at hs
      rw [if_pos hft]
      rcases hp : s.fit .fitTransform c y params with ⟨calls', r'⟩
      rw [hp] at hs
      cases r' with
      | error e => cases hs; cases h
      | ok r' =>
        simp only [Prod.mk.injEq] at hs
        obtain ⟨-, hs⟩ := hs
        split at hs
        · subst hs; cases h
        · subst hs
          simp only at h
          split at h
          · cases h
          · cases h; rfl
    · rw [if_neg hft] at hs
      rcases hp : s.fit .fit c y params with ⟨calls', r'⟩
      rw [hp] at hs
      cases r' <;> (cases hs; cases h)

/-- A successful loop stores in every step what the model of `Pipeline.fit` computes, whatever was stored before. -/
theorem fitLoop_ok (ps : List (PStep α σ)) (c : Cont α) (y : Option (List Num)) (params : Dict) :
    ((∃ r, (fitSteps (config ps) c y params).2 = .ok r) ↔ (fitLoop ps c y params).2 = .ok ()) ∧
    (∀ e, (fitSteps (config ps) c y params).2 = .error e ↔ (fitLoop ps c y params).2 = .error e) ∧
    ∀ fs y', (fitSteps (config ps) c y params).2 = .ok (fs, y') →
      (fitLoop ps c y params).1 = List.zipWith (fun s f => ⟨s.1, s.2, some (s.2, f)⟩) (config ps) fs ∧ fs.length = ps.length := by
  induction ps generalizing c y with
  | nil =>
    refine ⟨⟨fun _ => rfl, fun _ => ⟨_, rfl⟩⟩, fun e => ⟨fun h => (by cases h), fun h => (by cases h)⟩, ?_⟩
    intro fs y' h
    cases h
    exact ⟨rfl, rfl⟩
  | cons p rest ih =>
    cases rest with
    | nil =>
      have hc : config [p] = [(p.keep, p.step)] := rfl
      rw [hc]
      unfold fitLoop fitSteps
      rcases hf : p.step.fit c y (params.filter (fun kv => p.keep kv.1)) with ⟨calls, r⟩
      cases r with
      | error e =>
        refine ⟨⟨fun ⟨r, h⟩ => (by cases h), fun h => (by cases h)⟩, fun e' => ⟨fun h => (by cases h; rfl), fun h => (by cases h; rfl)⟩, fun fs y' h => by cases h⟩
      | ok r =>
        obtain ⟨f, y1⟩ := r
        refine ⟨⟨fun _ => rfl, fun _ => ⟨_, rfl⟩⟩, fun e' => ⟨fun h => (by cases h), fun h => (by cases h)⟩, ?_⟩
        intro fs y' h
        cases h
        exact ⟨rfl, rfl⟩
    | cons q rest =>
      have hc : config (p :: q :: rest) = (p.keep, p.step) :: config (q :: rest) := rfl
      rw [hc]
      have hc2 : config (q :: rest) = (q.keep, q.step) :: config rest := rfl
      unfold fitLoop
      simp only
      rw [hc2]
      unfold fitSteps
      rw [← hc2]
      rcases hf : p.step.fitTransform c y (params.filter (fun kv => p.keep kv.1)) with ⟨calls, r⟩
      cases r with
      | error e =>
        refine ⟨⟨fun ⟨r, h⟩ => (by cases h), fun h => (by cases h)⟩, fun e' => ⟨fun h => (by cases h; rfl), fun h => (by cases h; rfl)⟩, fun fs y' h => by cases h⟩
      | ok r =>
        obtain ⟨f, c', y1⟩ := r
        have hst := stores_ok (st := p.step) (c := c) (y := y) (params := params.filter (fun kv => p.keep kv.1)) (by rw [hf])
        obtain ⟨h1, h2, h3⟩ := ih c' y1
        simp only
        rcases hr : fitSteps (config (q :: rest)) c' y1 params with ⟨calls', r'⟩
        rw [hr] at h1 h2 h3
        cases r' with
        | error e =>
          refine ⟨⟨fun ⟨r, h⟩ => (by cases h), fun h => ?_⟩, fun e' => ⟨fun h => ?_, fun h => ?_⟩, fun fs y' h => by cases h⟩
          · obtain ⟨r, hr'⟩ := h1.2 h; cases hr'
          · cases h; exact (h2 e).1 rfl
          · exact (h2 e').2 h
        | ok r' =>
          obtain ⟨fs', y2⟩ := r'
          refine ⟨⟨fun _ => h1.1 ⟨_, rfl⟩, fun _ => ⟨_, rfl⟩⟩, fun e' => ⟨fun h => (by cases h), fun h => ?_⟩, ?_⟩
          · have := (h2 e').2 h; cases this
          · intro fs y' h
            cases h
            obtain ⟨h4, h5⟩ := h3 fs' y2 rfl
            rw [h4, hst]
            exact ⟨rfl, by simp [h5]⟩

omit [Cell α] in
theorem config_dropLast (ps : List (PStep α σ)) : (config ps).dropLast = config ps.dropLast := by
  unfold config; rw [List.map_dropLast]

/-- C133 (fit). A call of `fit` on a pipeline object succeeds, or raises, exactly as a first call on a new pipeline with the same configuration, whatever happened before;
after a success every step stores the estimators of this call. -/
theorem C133_fit (ps : List (PStep α σ)) (X : List α) (y : Option (List Num)) (params : Dict) :
    (∀ e, (Life.fit ps X y params).2 = .error e ↔ (pipelineFit (config ps) X y params).2 = .error e) ∧
    ∀ fs y', (pipelineFit (config ps) X y params).2 = .ok (fs, y') →
      Life.fit ps X y params = (List.zipWith (fun s f => ⟨s.1, s.2, some (s.2, f)⟩) (config ps) fs, .ok ()) ∧ fs.length = ps.length := by
  unfold Life.fit pipelineFit
  have hchk : ((config ps).dropLast.any (fun st => !st.2.isTransformer)) = ps.dropLast.any (fun p => !p.step.isTransformer) := by
    rw [config_dropLast]; unfold config; rw [List.any_map]; rfl
  rw [hchk]
  split
  · refine ⟨fun e => ⟨fun h => (by cases h; rfl), fun h => (by cases h; rfl)⟩, fun fs y' h => by cases h⟩
  · obtain ⟨h1, h2, h3⟩ := fitLoop_ok ps (Cont.fromInput (.array X)) y params
    refine ⟨fun e => (h2 e).symm, ?_⟩
    intro fs y' h
    obtain ⟨h4, h5⟩ := h3 fs y' h
    refine ⟨?_, h5⟩
    rw [← h4, ← h1.1 ⟨_, h⟩]

theorem lifeRun_append (ps : List (PStep α σ)) (a b : List (Op α σ)) : run ps (a ++ b) = run (run ps a) b := List.foldl_append

theorem eval_setParams (ask : Step α σ → Fitted σ → List α → Option (List Num) → Dict → Py β) (ps : List (PStep α σ)) (k : Nat) (st : Step α σ)
    (X : List α) (y : Option (List Num)) (params : Dict) :
    eval ask (ps.modify k (fun p => { p with step := st })) X y params = eval ask ps X y params := by
  induction ps generalizing k X with
  | nil => simp
  | cons p rest ih =>
    cases k with
    | zero =>
      rw [List.modify_zero_cons]
      cases rest <;> rfl
    | succ k =>
      rw [List.modify_succ_cons]
      cases rest with
      | nil => simp
      | cons q rest =>
        have hne : (q :: rest).modify k (fun p => { p with step := st }) ≠ [] := by simp
        obtain ⟨q', rest', hq⟩ := List.exists_cons_of_ne_nil hne
        have := fun X => ih k X
        rw [hq] at this ⊢
        unfold eval
        cases p.stored with
        | none => rfl
        | some f =>
          simp only
          cases f.1.transform f.2 X (params.filter (fun kv => p.keep kv.1)) with
          | error e => rfl
          | ok X' => exact this X'

theorem eval_quiet (ask : Step α σ → Fitted σ → List α → Option (List Num) → Dict → Py β) (ops : List (Op α σ)) (hq : ∀ op ∈ ops, ¬ IsFit op)
    (ps : List (PStep α σ)) (X : List α) (y : Option (List Num)) (params : Dict) :
    eval ask (run ps ops) X y params = eval ask ps X y params := by
  induction ops generalizing ps with
  | nil => rfl
  | cons op ops ih =>
    have h : run ps (op :: ops) = run (Life.step ps op) ops := rfl
    rw [h, ih (fun o ho => hq o (List.mem_cons_of_mem _ ho))]
    cases op with
    | fit X y params => exact absurd trivial (hq _ (List.mem_cons_self ..))
    | setParams k st => exact eval_setParams ask ps k st X y params
    | evaluate => rfl

/-- C133 (the last fit decides). Whatever was done with a pipeline object before — fits on other data, failed fits, changed parameters — and whatever parameters are set
afterwards: if its last `fit` returned, every answer is that of a new pipeline, configured as this one was at that moment and fitted once, with the data of that call. -/
theorem C133_last_fit (ask : Step α σ → Fitted σ → List α → Option (List Num) → Dict → Py β) (ps : List (PStep α σ)) (before after : List (Op α σ))
    (X : List α) (y : Option (List Num)) (params : Dict) (hq : ∀ op ∈ after, ¬ IsFit op)
    (hok : (Life.fit (run ps before) X y params).2 = .ok ()) (X' : List α) (y' : Option (List Num)) (params' : Dict) :
    eval ask (run ps (before ++ [.fit X y params] ++ after)) X' y' params' =
      eval ask (Life.fit (fresh (before.foldl configure (config ps))) X y params).1 X' y' params' := by
  rw [lifeRun_append, lifeRun_append, eval_quiet ask after hq]
  have hstep : run (run ps before) [.fit X y params] = (Life.fit (run ps before) X y params).1 := rfl
  rw [hstep]
  obtain ⟨h1, h2⟩ := C133_fit (run ps before) X y params
  obtain ⟨-, h4⟩ := C133_fit (fresh (before.foldl configure (config ps))) X y params
  have hcfg : config (fresh (before.foldl configure (config ps))) = config (run ps before) := by
    rw [C133_config]
    unfold fresh config
    rw [List.map_map]
    exact List.map_id' _
  rw [hcfg] at h4
  cases hp : (pipelineFit (config (run ps before)) X y params).2 with
  | error e => rw [(h1 e).2 hp] at hok; cases hok
  | ok r =>
    rw [(h2 r.1 r.2 hp).1, (h4 r.1 r.2 hp).1]

/-- C133 (the object). After a successful `fit` the pipeline object is the same as a new one of the same configuration fitted once with the data of that call; in particular
`get_estimator` of every step returns an estimator of that call. -/
theorem C133_object (ps : List (PStep α σ)) (ops : List (Op α σ)) (X : List α) (y : Option (List Num)) (params : Dict)
    (hok : (Life.fit (run ps ops) X y params).2 = .ok ()) :
    run ps (ops ++ [.fit X y params]) = (Life.fit (fresh (ops.foldl configure (config ps))) X y params).1 := by
  have hstep : run (run ps ops) [.fit X y params] = (Life.fit (run ps ops) X y params).1 := rfl
  rw [lifeRun_append, hstep]
  obtain ⟨h1, h2⟩ := C133_fit (run ps ops) X y params
  obtain ⟨-, h4⟩ := C133_fit (fresh (ops.foldl configure (config ps))) X y params
  have hcfg : config (fresh (ops.foldl configure (config ps))) = config (run ps ops) := by
    rw [C133_config]
    unfold fresh config
    rw [List.map_map]
    exact List.map_id' _
  rw [hcfg] at h4
  cases hp : (pipelineFit (config (run ps ops)) X y params).2 with
  | error e => rw [(h1 e).2 hp] at hok; cases hok
  | ok r => rw [(h2 r.1 r.2 hp).1, (h4 r.1 r.2 hp).1]

/-- C133 (before the first fit). A pipeline that was never fitted answers nothing: `NotFittedError`. -/
theorem C133_not_fitted (ask : Step α σ → Fitted σ → List α → Option (List Num) → Dict → Py β) (steps : List ((String → Bool) × Step α σ))
    (ops : List (Op α σ)) (hq : ∀ op ∈ ops, ¬ IsFit op) (X : List α) (y : Option (List Num)) (params : Dict) :
    eval ask (run (fresh steps) ops) X y params = .error .valueError := by
  rw [eval_quiet ask ops hq]
  cases steps with
  | nil => rfl
  | cons s rest => cases rest <;> rfl

theorem fitLoop_failed (ps ps' : List (PStep α σ)) (hc : config ps' = config ps) (c : Cont α) (y : Option (List Num)) (params : Dict) (e : PyErr)
    (h : (fitLoop ps c y params).2 = .error e) :
    ∃ k, k < ps.length ∧ (∀ i < k, ∃ p, (fitLoop ps c y params).1[i]? = some p ∧ (fitLoop ps' c y params).1[i]? = some p ∧ p.stored ≠ none) ∧
      (∀ i, k < i → (fitLoop ps c y params).1[i]? = ps[i]?) ∧ (k + 1 = ps.length → (fitLoop ps c y params).1[k]? = ps[k]?) := by
  induction ps generalizing ps' c y with
  | nil => cases h
  | cons p rest ih =>
    cases ps' with
    | nil => cases hc
    | cons p' rest' =>
      simp only [config, List.map_cons, List.cons.injEq, Prod.mk.injEq] at hc
      obtain ⟨⟨hk, hst⟩, hr⟩ := hc
      cases rest with
      | nil =>
        refine ⟨0, by simp, fun i hi => absurd hi (by omega), fun i hi => ?_, fun _ => ?_⟩
        · unfold fitLoop at h ⊢
          cases hf : (p.step.fit c y (params.filter (fun kv => p.keep kv.1))).2 with
          | error e' => rfl
          | ok r => rw [hf] at h; cases h
        · unfold fitLoop at h ⊢
          cases hf : (p.step.fit c y (params.filter (fun kv => p.keep kv.1))).2 with
          | error e' => rfl
          | ok r => rw [hf] at h; cases h
      | cons q rest =>
        cases rest' with
        | nil => cases hr
        | cons q' rest' =>
          unfold fitLoop at h ⊢
          simp only at h ⊢
          rcases hf : p.step.fitTransform c y (params.filter (fun kv => p.keep kv.1)) with ⟨calls, r⟩
          cases r with
          | error e' =>
            rw [hf] at h
            refine ⟨0, by simp, fun i hi => absurd hi (by omega), fun i hi => ?_, fun hl => ?_⟩
            · simp only
              obtain ⟨j, rfl⟩ : ∃ j, i = j + 1 := ⟨i - 1, by omega⟩
              simp
            · simp at hl
          | ok r =>
            obtain ⟨f, c', y1⟩ := r
            have hsto := stores_ok (st := p.step) (c := c) (y := y) (params := params.filter (fun kv => p.keep kv.1)) (by rw [hf])
            rw [hf] at h
            simp only at h
            obtain ⟨k, h1, h2, h3, h4⟩ := ih (q' :: rest') (by simpa [config] using hr) c' y1 h
            refine ⟨k + 1, by simpa using h1, ?_, ?_, ?_⟩
            · intro i hi
              cases i with
              | zero =>
                rw [hk, hst, hf, hsto]
                exact ⟨_, rfl, by simp [PStep.store, hk, hst], by simp [PStep.store]⟩
              | succ i =>
                rw [hk, hst, hf]
                simpa using h2 i (by omega)
            · intro i hi
              obtain ⟨j, rfl⟩ : ∃ j, i = j + 1 := ⟨i - 1, by omega⟩
              simpa using h3 j (by omega)
            · intro hl
              simpa using h4 (by simpa using hl)

/-- C133 (a failed fit), partial: what a `fit` that raises leaves behind.  There is a step where it failed; the steps before it hold the estimators of the new call (the same as
in a new pipeline after the same call), the steps after it hold what they held before, and if it is the last step it holds what it held before.  The full claim, that a failed
`fit` has no effect, is false (`C133_mixed_counterexample`). -/
theorem C133_failed_fit_partial (ps : List (PStep α σ)) (X : List α) (y : Option (List Num)) (params : Dict) (e : PyErr)
    (h : (Life.fit ps X y params).2 = .error e) (hne : ps ≠ []) :
    ∃ k, k < ps.length ∧
      (∀ i < k, ∃ p, (Life.fit ps X y params).1[i]? = some p ∧ (Life.fit (fresh (config ps)) X y params).1[i]? = some p ∧ p.stored ≠ none) ∧
      (∀ i, k < i → (Life.fit ps X y params).1[i]? = ps[i]?) ∧ (k + 1 = ps.length → (Life.fit ps X y params).1[k]? = ps[k]?) := by
  have hcfg : config (fresh (config ps)) = config ps := by
    unfold fresh config
    rw [List.map_map]
    exact List.map_id' _
  have hchk : (fresh (config ps)).dropLast.any (fun p => !p.step.isTransformer) = ps.dropLast.any (fun p => !p.step.isTransformer) := by
    have : ∀ l : List (PStep α σ), l.dropLast.any (fun p => !p.step.isTransformer) = (config l).dropLast.any (fun s => !s.2.isTransformer) := by
      intro l; rw [config_dropLast]; unfold config; rw [List.any_map]; rfl
    rw [this, this, hcfg]
  unfold Life.fit at h ⊢
  rw [hchk]
  split at h
  · rename_i hb
    rw [if_pos hb]
    exact ⟨0, List.length_pos_of_ne_nil hne, fun i hi => absurd hi (by omega), fun _ _ => rfl, fun _ => rfl⟩
  · rename_i hb
    simp only [if_neg hb]
    exact fitLoop_failed ps _ hcfg _ y params e h

/-- C133 (one step). A pipeline of one selector is not changed by a `fit` that raises. -/
theorem C133_failed_single (p : PStep α σ) (X : List α) (y : Option (List Num)) (params : Dict) (e : PyErr)
    (h : (Life.fit [p] X y params).2 = .error e) : (Life.fit [p] X y params).1 = [p] := by
  unfold Life.fit at h ⊢
  simp only [List.dropLast_singleton, List.any_nil, Bool.false_eq_true, if_false] at h ⊢
  unfold fitLoop at h ⊢
  cases hf : (p.step.fit (Cont.fromInput (.array X)) y (params.filter (fun kv => p.keep kv.1))).2 with
  | error e' => rfl
  | ok r => rw [hf] at h; cases h

theorem autoMask_get {y : Option (List Num)} {p q : Dict} (h : p.get "sample_domain" = q.get "sample_domain") : autoMask y p = autoMask y q := by
  unfold autoMask
  rw [h]

theorem boolFill_idem {y b : List Num} {m : List Bool} {v : Num} (h : boolFill y m v = .ok b) : boolFill b m v = .ok b := by
  obtain ⟨h1, h2, h3⟩ := boolFill_ok h
  have hl : b.length = m.length := h2.trans h1
  cases hb : boolFill b m v with
  | error e => unfold boolFill at hb; rw [if_neg (by omega)] at hb; cases hb
  | ok c =>
    obtain ⟨-, -, h6⟩ := boolFill_ok hb
    congr 1
    apply List.ext_getElem?
    intro i
    rw [h6, h3]
    split <;> rfl

theorem mem_fill {y b : List Num} {m : List Bool} {v : Num} (h : boolFill y m v = .ok b) {x : Num} (hx : x ∈ b) : x = v ∨ x ∈ y := by
  obtain ⟨h1, h2, h3⟩ := boolFill_ok h
  obtain ⟨i, hi⟩ := List.mem_iff_getElem?.1 hx
  rw [h3] at hi
  split at hi
  · left; cases hi; rfl
  · right; exact List.mem_iff_getElem?.2 ⟨i, hi⟩

/-- Masked labels have the type of the labels they were made from. -/
theorem findYType_fill {y b : List Num} {m : List Bool} {t : YType} (ht : findYType y = .ok t) (h : boolFill y m (maskLabel t) = .ok b) :
    findYType b = .ok t := by
  cases t with
  | discrete =>
    apply findYType_discrete
    have hy : ∀ v ∈ y, ∃ n : Int, v = .fin n := by
      unfold findYType at ht
      split at ht
      · cases ht
      · split at ht
        · split at ht <;> cases ht
        · rename_i hn
          intro v hv
          apply (Num.isIntegral_iff v).1
          by_contra hc
          exact hn (List.any_eq_true.2 ⟨v, hv, by simpa using hc⟩)
    intro v hv
    rcases mem_fill h hv with rfl | h'
    · exact ⟨-1, by simp [maskLabel]⟩
    · exact hy v h'
  | continuous =>
    obtain ⟨h1, h2, h3⟩ := boolFill_ok h
    by_cases hnan : Num.nan ∈ b
    · exact findYType_nan hnan
    · have : b = y := by
        apply List.ext_getElem?
        intro i
        rw [h3]
        split
        · rename_i hm
          exfalso
          apply hnan
          have := h3 i
          rw [if_pos hm] at this
          exact List.mem_iff_getElem?.2 ⟨i, this⟩
        · rfl
      rw [this]; exact ht

theorem autoMask_idem {y y' : Option (List Num)} {p : Dict} (h : autoMask y p = .ok y') : autoMask y' p = .ok y' := by
  unfold autoMask at h ⊢
  cases y with
  | none => cases h; rfl
  | some a =>
    simp only at h
    split at h
    · rename_i hn; cases h; simp [hn]
    · rename_i hn
      cases ht : findYType a with
      | error e => rw [ht] at h; cases h
      | ok t =>
        rw [ht] at h
        simp only at h
        cases hm : sourceMaskOf (p.get "sample_domain") with
        | error e => rw [hm] at h; cases h
        | ok src =>
          rw [hm] at h
          simp only at h
          cases hb : boolFill a (src.map (!·)) (maskLabel t) with
          | error e => rw [hb] at h; cases h
          | ok b =>
            rw [hb] at h
            cases h
            simp only [if_neg hn]
            rw [findYType_fill ht hb]
            simp only
            rw [boolFill_idem hb]

/-- C133 (fitting again with the same array). The labels are masked in place, so that a second `fit` with the array of the caller sees masked labels.  If the first step hides target
labels this makes no difference: the second run makes the same calls to the estimators and ends in the same way. -/
theorem C133_same_labels_partial (keep : String → Bool) (first : Step α σ) (rest : List ((String → Bool) × Step α σ)) (X : List α) (y : Option (List Num)) (params : Dict)
    (hs : Hides first) (hkeep : keep "sample_domain" = true) (fs : List (Fitted σ)) (y' : Option (List Num))
    (h : (pipelineFit ((keep, first) :: rest) X y params).2 = .ok (fs, y')) :
    pipelineFit ((keep, first) :: rest) X y' params = pipelineFit ((keep, first) :: rest) X y params := by
  have hm : autoMask y (params.filter (fun kv => keep kv.1)) = autoMask y' (params.filter (fun kv => keep kv.1)) := by
    unfold pipelineFit at h
    split at h
    · cases h
    · refine fitSteps_labels (fun a b => autoMask a (params.filter (fun kv => keep kv.1)) = autoMask b (params.filter (fun kv => keep kv.1)))
        (fun _ => rfl) (fun _ _ _ h1 h2 => h1.trans h2) params _ ?_ _ _ _ h
      intro st _ _ a b hab
      by_cases hk : st.1 "sample_domain" = true
      · have hg : Dict.get (params.filter (fun kv => keep kv.1)) "sample_domain" = Dict.get (params.filter (fun kv => st.1 kv.1)) "sample_domain" := by
          unfold Dict.get
          rw [lookup_filter_key keep params _ hkeep, lookup_filter_key st.1 params _ hk]
        rw [autoMask_get (y := a) hg, autoMask_get (y := b) hg, hab, autoMask_idem hab]
      · have hg : Dict.get (params.filter (fun kv => st.1 kv.1)) "sample_domain" = .none := by
          unfold Dict.get
          have : (params.filter (fun kv => st.1 kv.1)).lookup "sample_domain" = none := by
            rw [List.lookup_eq_none_iff]
            intro kv hkv
            have := (List.mem_filter.1 hkv).2
            by_contra hne
            have heq : "sample_domain" = kv.1 := by simpa using hne
            rw [← heq] at this
            exact hk this
          rw [this]; rfl
        have : b = a := by
          unfold autoMask at hab
          cases a with
          | none => cases hab; rfl
          | some v => simp only [hg, if_true] at hab; cases hab; rfl
        rw [this]
  unfold pipelineFit
  split
  · rfl
  · cases rest with
    | nil => simp only [fitSteps, fit_congr hs hm]
    | cons r rest => simp only [fitSteps, fitTransform_congr hs hm]

theorem lookup_forall₂ {γ δ : Type} (P : Int → δ → Prop) (g : δ → γ) {ds : List Int} {os : List (Int × δ)}
    (h : List.Forall₂ (fun d o => o.1 = d ∧ P d o.2) ds os) (d : Int) :
    (d ∈ ds → ∃ o, P d o ∧ (os.map (fun o => (o.1, g o.2))).lookup d = some (g o)) ∧
    (d ∉ ds → (os.map (fun o => (o.1, g o.2))).lookup d = none) := by
  induction h with
  | nil => simp
  | @cons a o ds os hab _ ih =>
    obtain ⟨k, o⟩ := o
    obtain ⟨rfl, hP⟩ := hab
    rw [List.map_cons, List.lookup_cons]
    by_cases hd : d = k
    · subst hd
      simp only [beq_self_eq_true]
      exact ⟨fun _ => ⟨o, hP, rfl⟩, fun hn => absurd (List.mem_cons_self ..) hn⟩
    · rw [beq_false_of_ne hd]
      simp only
      constructor
      · intro hm
        exact ih.1 ((List.mem_cons.1 hm).resolve_left hd)
      · intro hn
        exact ih.2 (fun h => hn (List.mem_cons_of_mem _ h))

/-- C133 (`get_estimator` of a `PerDomain`). After a `fit` of a per-domain selector, as often as the object was used before: `get_estimator(d)` gives the estimator that was fitted on the
rows of domain `d` in that call if the domain occurs in it, and a `KeyError` otherwise, even if an earlier fit had seen the domain. -/
theorem C133_get_estimator (p : PStep α σ) (s : Sel α σ) (hs : p.step = .perDomain s) (X : List α) (y y' : Option (List Num)) (params routed : Dict)
    (sd : List Int) (hsd : (params.filter (fun kv => p.keep kv.1)).lookup "sample_domain" = some (domParam sd))
    (hmask : s.ownMask y (params.filter (fun kv => p.keep kv.1)) = .ok y')
    (hroute : prepareRouting s.final s.est.hasTransform (s.est.request .fit) (params.filter (fun kv => p.keep kv.1)) = .ok routed)
    (hal : Aligned sd X y' routed)
    (hkeep : s.est.hasTransform = true ∨ routed.has "sample_domain" = true ∨ ∀ l, y' = some l → NoneMasked l)
    (hok : (Life.fit [p] X y params).2 = .ok ()) :
    ∃ p', (Life.fit [p] X y params).1 = [p'] ∧
      ∀ d, (d ∈ sd → ∃ f out, s.est.invoke .fit (domainCall d sd X y' routed) = .ok (f, out) ∧ getEstimator p' (some (.label d)) = .ok f) ∧
        (d ∉ sd → getEstimator p' (some (.label d)) = .error .keyError) := by
  obtain ⟨-, h2⟩ := C14_fit_partial s .fit X y y' _ routed sd hsd hmask hroute hal hkeep
  unfold Life.fit at hok ⊢
  simp only [List.dropLast_singleton, List.any_nil, Bool.false_eq_true, if_false] at hok ⊢
  unfold fitLoop at hok ⊢
  rw [hs] at hok ⊢
  simp only [Step.fit] at hok ⊢
  rcases hr : s.perDomainFit .fit (Cont.fromInput (.array X)) y (params.filter (fun kv => p.keep kv.1)) with ⟨calls, r⟩
  rw [hr] at hok h2
  cases r with
  | error e => cases hok
  | ok r =>
    obtain ⟨r, y1⟩ := r
    obtain ⟨-, -, h3⟩ := h2 _ rfl
    refine ⟨_, rfl, ?_⟩
    intro d
    obtain ⟨h4, h5⟩ := lookup_forall₂ (fun d (o : List Nat × σ × StepOut α) => o.1 = domainIdx sd d ∧ s.est.invoke .fit (domainCall d sd X y' routed) = .ok (o.2.1, o.2.2))
      (fun o : List Nat × σ × StepOut α => o.2.1) h3 d
    constructor
    · intro hd
      obtain ⟨o, ⟨-, ho⟩, hl⟩ := h4 (mem_unique.2 hd)
      refine ⟨o.2.1, o.2.2, ho, ?_⟩
      simp only [getEstimator, PStep.store, hs, hl]
    · intro hd
      simp only [getEstimator, PStep.store, hs, h5 (fun h => hd (mem_unique.1 h))]

end History

/-! ### Examples -/

/-- A scaler: it learns the first value of the data and subtracts it; it takes `sample_domain`. -/
def exHScaler : Est Num ℚ where
  hasTransform := true
  hasFitTransform := false
  fitReq := [("sample_domain", .yes)]
  fitTransformReq := [("sample_domain", .yes)]
  transformReq := []
  fit := fun c => match c.X with
    | .fin a :: _ => .ok a
    | _ => .error .valueError
  fitTransform := fun _ => .error .attributeError
  transform := fun a X _ => .ok (.arr (X.map (fun x => match x with | .fin v => .fin (v - a) | x => x)))

/-- A classifier: it learns the last value of the data and refuses labels that are all the same. -/
def exHClf : Est Num ℚ where
  hasTransform := false
  hasFitTransform := false
  fitReq := []
  fitTransformReq := []
  transformReq := []
  fit := fun c => match c.y, c.X.getLast? with
    | some (a :: l), some (.fin v) => if l.all (fun b => decide (b = a)) then .error .valueError else .ok v
    | _, _ => .error .valueError
  fitTransform := fun _ => .error .attributeError
  transform := fun _ _ _ => .error .attributeError

/-- What the classifier answers: the values, moved by what it has learnt. -/
def exHAsk : Step Num ℚ → Fitted ℚ → List Num → Option (List Num) → Dict → Py (List Num)
  | _, .one a, X, _, _ => .ok (X.map (fun x => match x with | .fin v => .fin (v - a) | x => x))
  | _, _, _, _, _ => .error .valueError

/-- A pipeline of the two. -/
def exHPipe : List ((String → Bool) × Step Num ℚ) :=
  [(fun _ => true, .shared ⟨exHScaler, true, false⟩), (fun _ => true, .shared ⟨exHClf, true, true⟩)]

/-- Three source rows, one target row. -/
def exHDict : Dict := [("sample_domain", domParam [1, 1, 1, -2])]

/-- The hypothesis of `C133_last_fit` and of `C133_object` on a history with a failed fit, another configuration and two good fits; the answers are those of the last one. -/
example :
    let y : Option (List Num) := some [.fin 0, .fin 1, .fin 1, .fin 0]
    let before : List (Op Num ℚ) := [.fit [.fin 0, .fin 5, .fin 10, .fin 11] y exHDict, .fit [.fin 7, .fin 7, .fin 7, .fin 7] (some [.fin 0, .fin 0, .fin 0, .fin 1]) exHDict,
      .evaluate, .setParams 0 (.shared ⟨exHScaler, false, false⟩)]
    (Life.fit (run (fresh exHPipe) before) [.fin 1, .fin 2, .fin 3, .fin 4] y exHDict).2 = .ok () ∧
    eval exHAsk (run (fresh exHPipe) (before ++ [.fit [.fin 1, .fin 2, .fin 3, .fin 4] y exHDict] ++ [.setParams 1 (.shared ⟨exHClf, false, true⟩)])) [.fin 10] none [] = .ok [.fin 7] := by
  decide +kernel

/-- `C133_not_fitted` on the same pipeline. -/
example : eval exHAsk (run (fresh exHPipe) [.evaluate, .setParams 0 (.shared ⟨exHScaler, false, false⟩)]) [.fin 10] none [] = .error .valueError := by
  decide +kernel

/-- C133 is false for a `fit` that raises: a pipeline of a scaler and a classifier was fitted on `A`; a second `fit` on `B`, whose source labels are all the same, raises in the classifier.
Afterwards the pipeline answers without an exception, and the answer is neither that of before nor that of a new pipeline that has seen one call: the scaler is that of `B`, the
classifier that of `A`. -/
theorem C133_mixed_counterexample :
    ∃ (steps : List ((String → Bool) × Step Num ℚ)) (XA XB : List Num) (yA yB : Option (List Num)) (params : Dict)
      (ask : Step Num ℚ → Fitted ℚ → List Num → Option (List Num) → Dict → Py (List Num)),
      (Life.fit (fresh steps) XA yA params).2 = .ok () ∧
      (Life.fit (run (fresh steps) [.fit XA yA params]) XB yB params).2 = .error .valueError ∧
      eval ask (run (fresh steps) [.fit XA yA params]) [.fin 10] none [] = .ok [.fin 0] ∧
      eval ask (run (fresh steps) [.fit XB yB params]) [.fin 10] none [] = .error .valueError ∧
      eval ask (run (fresh steps) [.fit XA yA params, .fit XB yB params]) [.fin 10] none [] = .ok [.fin (-100)] :=
  ⟨exHPipe, [.fin 0, .fin 5, .fin 10, .fin 11], [.fin 100, .fin 100, .fin 100, .fin 100], some [.fin 0, .fin 1, .fin 1, .fin 0], some [.fin 0, .fin 0, .fin 0, .fin 1],
    exHDict, exHAsk, by decide +kernel⟩

/-- The same call for a single classifier: nothing is changed (`C133_failed_single`). -/
example :
    let p : PStep Num ℚ := ⟨fun _ => true, .shared ⟨exHClf, true, true⟩, some (.shared ⟨exHClf, true, true⟩, .one 10)⟩
    (Life.fit [p] [.fin 100, .fin 100, .fin 100, .fin 100] (some [.fin 0, .fin 0, .fin 0, .fin 1]) exHDict).2 = .error .valueError := by
  decide +kernel

/-- `C133_same_labels_partial` on labels that are masked by the first fit: both runs give the estimators the same labels. -/
example :
    let steps : List ((String → Bool) × Step Num (Option (List Num))) := [(fun _ => true, .shared ⟨exEst true [("sample_domain", .yes)], true, false⟩), (fun _ => true, .shared ⟨exEst false [], true, true⟩)]
    let X : List Num := [.fin 10, .fin 11, .fin 12, .fin 13]
    ((pipelineFit steps X (some [.fin 0, .fin 1, .fin 1, .fin 0]) exDict).2.map Prod.snd = .ok (some [.fin 0, .fin 1, .fin (-1), .fin (-1)])) ∧
    (pipelineFit steps X (some [.fin 0, .fin 1, .fin (-1), .fin (-1)]) exDict).1.map (fun c => (c.X, c.y)) =
      (pipelineFit steps X (some [.fin 0, .fin 1, .fin 1, .fin 0]) exDict).1.map (fun c => (c.X, c.y)) := by
  decide +kernel

/-- Fitting twice with the same array is not the same as fitting once if a step in front of the hiding one sees the labels: in the second call it sees masked labels. -/
theorem C133_same_labels_counterexample :
    ∃ (steps : List ((String → Bool) × Step Num (Option (List Num)))) (X : List Num) (y y' : List Num) (params : Dict),
      (pipelineFit steps X (some y) params).2.map Prod.snd = .ok (some y') ∧
      (pipelineFit steps X (some y) params).1.map (fun c => c.y) = [some [.fin 0, .fin 1, .fin 1, .fin 0], some [.fin 0, .fin 1, .fin (-1), .fin (-1)]] ∧
      (pipelineFit steps X (some y') params).1.map (fun c => c.y) = [some [.fin 0, .fin 1, .fin (-1), .fin (-1)], some [.fin 0, .fin 1, .fin (-1), .fin (-1)]] :=
  ⟨[(fun _ => true, .shared ⟨exEst true [("sample_domain", .yes)], false, false⟩), (fun _ => true, .shared ⟨exEst false [("sample_domain", .yes)], true, true⟩)],
    [.fin 10, .fin 11, .fin 12, .fin 13], [.fin 0, .fin 1, .fin 1, .fin 0], [.fin 0, .fin 1, .fin (-1), .fin (-1)], exDict, by decide +kernel⟩

/-- `C133_get_estimator`: fitted on the domains 1 and 2 after a fit on the domains 1 and 3. -/
example :
    let p : PStep Num (Option (List Num)) := ⟨fun _ => true, .perDomain ⟨exEst false [], true, true⟩, none⟩
    let ps := run [p] [.fit [.fin 10, .fin 11] (some [.fin 0, .fin 1]) [("sample_domain", domParam [1, 3])],
      .fit [.fin 10, .fin 11, .fin 12] (some [.fin 0, .fin 1, .fin 2]) [("sample_domain", domParam [2, 1, 2])]]
    ps.map (fun p => getEstimator p (some (.label 1))) = [.ok (some [.fin 1])] ∧
    ps.map (fun p => getEstimator p (some (.label 2))) = [.ok (some [.fin 0, .fin 2])] ∧
    ps.map (fun p => getEstimator p (some (.label 3))) = [.error .keyError] := by
  decide +kernel

end Skada

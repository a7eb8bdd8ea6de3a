/-
Property C136: the order of the samples does not matter. A pipeline fitted on the same samples in another order is equivalent, and its answers
about samples in another order are the same answers in that order.
-/
import Verif.Lemmas.OrderAdapters
import Verif.Props.Selectors
import Mathlib.Algebra.BigOperators.Group.List.Basic

namespace Skada
open Np Spec

variable {α β σ : Type}

/-! ### Pipelines -/

/-- C136 (fitting). Two fits on the same samples in two orders: the estimators receive corresponding calls, and the fitted steps are
equivalent, or both fits end with the same exception. Missing (both counterexamples below): `PerDomain` around a predictor, and steps behind
`SelectSource`/`SelectTarget` that combine the remaining rows with parameters or labels of all rows. -/
theorem C136_fit_partial [Cell α] (Q : σ → σ → Prop) (steps : List ((String → Bool) × Step α σ)) (hsteps : ∀ st ∈ steps, StepOrder Q st.2)
    (l l' : List Nat) (hl : Reorder l l') (X X' : List α) (hX : Rows l l' X X') (y y' : Option (List Num)) (hy : RowsOpt l l' y y')
    (p p' : Dict) (hp : RowsDict l l' p p') (hn : (p.map Prod.fst).Nodup) (hsel : SelectsOk p steps) :
    List.Forall₂ CallRel (pipelineFit steps X y p).1 (pipelineFit steps X' y' p').1 ∧
      RelPy (fun a b => List.Forall₂ (FittedRel Q) a.1 b.1 ∧ RowsOpt l l' a.2 b.2)
        (pipelineFit steps X y p).2 (pipelineFit steps X' y' p').2 := by
  unfold pipelineFit
  split
  · exact ⟨List.Forall₂.nil, rfl⟩
  · exact Order.fitSteps_rows hn hl hp steps hsteps hsel hl (c := Cont.fromInput (.array X)) (c' := Cont.fromInput (.array X'))
      ⟨hX, trivial, List.Forall₂.nil, List.nodup_nil⟩ hy (Or.inl ⟨rfl, rfl⟩) (Or.inl ⟨rfl, rfl⟩)

/-- C136 (answers). `predict`, `predict_proba`, `transform`, … on samples in two orders, by two pipelines that are equivalent: when the final
estimator answers sample by sample, the answers are the same in the two orders. -/
theorem C136_predict [Cell α] {γ : Type} (Q : σ → σ → Prop) (steps steps' : List ((String → Bool) × Step α σ × Fitted σ))
    (hs : List.Forall₂ (fun a b => a.1 = b.1 ∧ a.2.1 = b.2.1 ∧ StepOrder Q a.2.1 ∧ FittedRel Q a.2.2 b.2.2) steps steps')
    (keep : String → Bool) (s : Sel α σ) (f f' : σ) (hf : Q f f') (req : Request) (query : σ → Call α → Py (List γ))
    (hq : ∀ k k', Reorder k k' → ∀ f f', Q f f' → ∀ c c', RowsCall k k' c c' → RelPy (Rows k k') (query f c) (query f' c'))
    (l l' : List Nat) (hl : Reorder l l') (X X' : List α) (hX : Rows l l' X X') (p p' : Dict) (hp : RowsDict l l' p p') :
    RelPy (Rows l l') (stepsRoute steps (keep, s, f) req query X none p) (stepsRoute steps' (keep, s, f') req query X' none p') := by
  refine Order.py_imp (Order.stepsRoute_rows (R := Rows) hq hf hl (y := none) (y' := none) trivial hp hs hX) ?_
  rintro a b ⟨k, k', -, hr, hk⟩
  obtain ⟨rfl, rfl⟩ := hk rfl
  exact hr

/-- C136 (scores). When the method of the final estimator gives the same result for the same labelled samples in any order, so does that of
the pipeline; masked samples are left out in both orders. -/
theorem C136_score [Cell α] (Q : σ → σ → Prop) (steps steps' : List ((String → Bool) × Step α σ × Fitted σ))
    (hs : List.Forall₂ (fun a b => a.1 = b.1 ∧ a.2.1 = b.2.1 ∧ StepOrder Q a.2.1 ∧ FittedRel Q a.2.2 b.2.2) steps steps')
    (keep : String → Bool) (s : Sel α σ) (f f' : σ) (hf : Q f f') (req : Request) (score : σ → Call α → Py β)
    (hq : ∀ k k', Reorder k k' → ∀ f f', Q f f' → ∀ c c', RowsCall k k' c c' → score f c = score f' c')
    (l l' : List Nat) (hl : Reorder l l') (X X' : List α) (hX : Rows l l' X X') (y y' : Option (List Num)) (hy : RowsOpt l l' y y')
    (p p' : Dict) (hp : RowsDict l l' p p') :
    stepsRoute steps (keep, s, f) req score X y p = stepsRoute steps' (keep, s, f') req score X' y' p' := by
  refine Sides.py_eq (Order.py_imp (Order.stepsRoute_rows (R := fun _ _ => Eq) ?_ hf hl hy hp hs hX) ?_)
  · intro k k' hk f f' hf c c' hc
    rw [hq k k' hk f f' hf c c' hc]
    exact Sides.py_refl (fun _ => rfl) _
  · rintro a b ⟨k, k', -, hr, -⟩
    exact hr

namespace Order

theorem take_total {γ : Type} [Inhabited γ] {a a' : List γ} {idx : List Nat} (hi : ∀ i ∈ idx, i < a.length) (h : take a idx = .ok a') :
    a' = idx.map (fun i => a.getD i default) := by
  induction idx generalizing a' with
  | nil => simp only [take, Except.ok.injEq] at h; exact h.symm
  | cons i idx ih =>
    have hlt := hi i List.mem_cons_self
    simp only [take, List.getElem?_eq_getElem hlt] at h
    rcases ht : take a idx with e | r
    · rw [ht] at h; simp at h
    · rw [ht] at h
      simp only [Except.ok.injEq] at h
      subst h
      rw [ih (fun j hj => hi j (List.mem_cons_of_mem _ hj)) ht]
      simp [List.getD, List.getElem?_eq_getElem hlt]

theorem take_of_rows {γ : Type} {n : Nat} {idx : List Nat} (hi : ∀ i ∈ idx, i < n) {a a' : List γ} (h : Rows (List.range n) idx a a') :
    take a idx = .ok a' := by
  obtain ⟨f, rfl, rfl⟩ := h
  induction idx with
  | nil => rfl
  | cons i idx ih =>
    have hlt : i < n := hi i List.mem_cons_self
    simp only [take, List.getElem?_map, List.getElem?_range hlt, Option.map_some, ih (fun j hj => hi j (List.mem_cons_of_mem _ hj)),
      List.map_cons]

/-- Two arrays of which the second is the first, indexed by a permutation. -/
theorem rows_of_take {γ : Type} [Inhabited γ] {idx : List Nat} {a a' : List γ} (hp : idx.Perm (List.range a.length))
    (h : take a idx = .ok a') : Rows (List.range a.length) idx a a' := by
  refine ⟨fun i => a.getD i default, ?_, take_total (fun i hi => List.mem_range.1 (hp.mem_iff.1 hi)) h⟩
  refine List.ext_getElem (by simp) (fun i h1 h2 => ?_)
  simp [List.getD, List.getElem?_eq_getElem h1]

theorem reorder_range {idx : List Nat} {n : Nat} (hp : idx.Perm (List.range n)) : Reorder (List.range n) idx :=
  ⟨List.nodup_range, hp.symm⟩

theorem zip_fitted {Q : σ → σ → Prop} {steps : List ((String → Bool) × Step α σ)} (hs : ∀ st ∈ steps, StepOrder Q st.2) {fs fs' : List (Fitted σ)}
    (h : List.Forall₂ (FittedRel Q) fs fs') :
    List.Forall₂ (fun a b => a.1 = b.1 ∧ a.2.1 = b.2.1 ∧ StepOrder Q a.2.1 ∧ FittedRel Q a.2.2 b.2.2)
      (List.zipWith (fun st f => (st.1, st.2, f)) steps fs) (List.zipWith (fun st f => (st.1, st.2, f)) steps fs') := by
  induction h generalizing steps with
  | nil => cases steps <;> exact List.Forall₂.nil
  | cons hab _ ih =>
    cases steps with
    | nil => exact List.Forall₂.nil
    | cons st steps =>
      exact List.Forall₂.cons ⟨rfl, rfl, hs st List.mem_cons_self, hab⟩ (ih (fun t ht => hs t (List.mem_cons_of_mem _ ht)))

theorem forall₂_snoc {γ δ : Type} {R : γ → δ → Prop} {a : List γ} {x : γ} {b : List δ} (h : List.Forall₂ R (a ++ [x]) b) :
    ∃ b' x', b = b' ++ [x'] ∧ List.Forall₂ R a b' ∧ R x x' := by
  induction a generalizing b with
  | nil =>
    cases h with
    | cons h1 h2 =>
      cases h2
      exact ⟨[], _, rfl, List.Forall₂.nil, h1⟩
  | cons y a ih =>
    cases h with
    | cons h1 h2 =>
      obtain ⟨b', x', rfl, h3, h4⟩ := ih h2
      exact ⟨_ :: b', x', rfl, List.Forall₂.cons h1 h3, h4⟩

end Order

/-- C136 (what a user sees). `fit(X, y, sample_domain=sd)` and `fit(X[idx], y[idx], sample_domain=sd[idx])` for a permutation `idx`: the same
exception, or two fitted pipelines whose answers about `Xt` and `Xt[jdx]`, for any permutation `jdx`, are `out` and `out[jdx]`. -/
theorem C136_user_partial [Cell α] [Inhabited α] {γ : Type} (Q : σ → σ → Prop) (steps : List ((String → Bool) × Step α σ)) (keep : String → Bool)
    (s : Sel α σ) (hsteps : ∀ st ∈ steps ++ [(keep, .shared s)], StepOrder Q st.2)
    (X X' : List α) (y y' : List Num) (sd sd' : List Int) (hy : y.length = X.length) (hsd : sd.length = X.length)
    (hsel : SelectsOk [("sample_domain", domParam sd)] (steps ++ [(keep, .shared s)]))
    (idx : List Nat) (hidx : idx.Perm (List.range X.length)) (hX' : take X idx = .ok X') (hy' : take y idx = .ok y')
    (hsd' : take sd idx = .ok sd') :
    let run := pipelineFit (steps ++ [(keep, .shared s)]) X (some y) [("sample_domain", domParam sd)]
    let run' := pipelineFit (steps ++ [(keep, .shared s)]) X' (some y') [("sample_domain", domParam sd')]
    (∀ e, run.2 = .error e → run'.2 = .error e) ∧
    ∀ fs f ys, run.2 = .ok (fs ++ [.one f], ys) → ∃ fs' f' ys', run'.2 = .ok (fs' ++ [.one f'], ys') ∧ Q f f' ∧
      ∀ (req : Request) (query : σ → Call α → Py (List γ)),
        (∀ k k', Reorder k k' → ∀ f f', Q f f' → ∀ c c', RowsCall k k' c c' → RelPy (Rows k k') (query f c) (query f' c')) →
      ∀ (Xt Xt' : List α) (e e' : List Int) (jdx : List Nat), e.length = Xt.length → jdx.Perm (List.range Xt.length) →
        take Xt jdx = .ok Xt' → take e jdx = .ok e' →
        RelPy (fun out out' => take out jdx = .ok out')
          (stepsRoute (List.zipWith (fun st f => (st.1, st.2, f)) steps fs) (keep, s, f) req query Xt none [("sample_domain", domParam e)])
          (stepsRoute (List.zipWith (fun st f => (st.1, st.2, f)) steps fs') (keep, s, f') req query Xt' none
            [("sample_domain", domParam e')]) := by
  intro run run'
  have : Inhabited Num := ⟨.nan⟩
  have hfit := (C136_fit_partial Q (steps ++ [(keep, .shared s)]) hsteps (List.range X.length) idx (Order.reorder_range hidx) X X'
    (Order.rows_of_take hidx hX') (some y) (some y') (by
      have := Order.rows_of_take (hy ▸ hidx) hy'
      rw [hy] at this; exact this)
    [("sample_domain", domParam sd)] [("sample_domain", domParam sd')]
    (List.Forall₂.cons ⟨rfl, Order.domParam_rows (by
      have := Order.rows_of_take (hsd ▸ hidx) hsd'
      rw [hsd] at this; exact this)⟩ List.Forall₂.nil) (by simp) hsel).2
  constructor
  · intro e he
    change RelPy _ run.2 run'.2 at hfit
    rw [he] at hfit
    cases h : run'.2 with
    | error e' => rw [h] at hfit; exact congrArg Except.error (Eq.symm hfit)
    | ok a => rw [h] at hfit; exact hfit.elim
  · intro fs f ys hr
    change RelPy _ run.2 run'.2 at hfit
    rw [hr] at hfit
    cases h : run'.2 with
    | error e' => rw [h] at hfit; exact hfit.elim
    | ok a =>
      rw [h] at hfit
      obtain ⟨fs2, ys2⟩ := a
      obtain ⟨h1, -⟩ := hfit
      obtain ⟨fs', x', rfl, h3, h4⟩ := Order.forall₂_snoc h1
      cases x' with
      | one f' =>
        refine ⟨fs', f', ys2, rfl, h4, ?_⟩
        intro req query hq Xt Xt' e e' jdx he hj hXt heq
        have hlt : ∀ i ∈ jdx, i < Xt.length := fun i hi => List.mem_range.1 (hj.mem_iff.1 hi)
        refine Order.py_imp (C136_predict Q _ _ (Order.zip_fitted (fun st hst => hsteps st (List.mem_append_left _ hst)) h3) keep s f f' h4 req
          query hq (List.range Xt.length) jdx (Order.reorder_range hj) Xt Xt' (Order.rows_of_take hj hXt) _ _
          (List.Forall₂.cons ⟨rfl, Order.domParam_rows (by
            have := Order.rows_of_take (he ▸ hj) heq
            rw [he] at this; exact this)⟩ List.Forall₂.nil)) ?_
        intro a b hab
        exact Order.take_of_rows hlt hab
      | perDomain l => exact h4.elim
      | sourceTarget a b => exact h4.elim

/-! ### Which estimators do not see the order -/

/-- C136 (mapping and subspace adapters in general). -/
theorem C136_mapEst {φ : Type} (R : φ → φ → Prop) (Q : σ → σ → Prop) (wrap : φ → σ) (unwrap : σ → φ) (hwrap : ∀ a b, R a b → Q (wrap a) (wrap b))
    (hunwrap : ∀ a b, Q a b → R (unwrap a) (unwrap b)) (fit : List α → Option (List Num) → SDArg → Py φ)
    (tr : φ → List α → SDArg → Bool → Py (List α)) (hfit : FitFree R fit) (htr : TransformFree R tr) :
    OrderFree Q (mapEst wrap unwrap fit tr) := by
  refine ⟨fun _ => rfl, ?_, ?_, ?_⟩
  · rintro l l' hl ⟨X, y, p⟩ ⟨X', y', p'⟩ ⟨hX, hy, hp⟩
    simp only [mapEst]
    rcases Sides.py_cases (Order.sdArg_rows hl (Order.get hp "sample_domain")) with ⟨e, h1, h2⟩ | ⟨sd, sd', h1, h2, hs⟩
    · rw [h1, h2]; exact rfl
    · rw [h1, h2]
      simp only
      rcases Sides.py_cases (hfit l l' hl X X' hX y y' hy sd sd' hs) with ⟨e, k1, k2⟩ | ⟨f, f', k1, k2, hf⟩
      · rw [k1, k2]; exact rfl
      · rw [k1, k2]; exact hwrap f f' hf
  · rintro l l' hl ⟨X, y, p⟩ ⟨X', y', p'⟩ ⟨hX, hy, hp⟩
    simp only [mapEst]
    rcases Sides.py_cases (Order.sdArg_rows hl (Order.get hp "sample_domain")) with ⟨e, h1, h2⟩ | ⟨sd, sd', h1, h2, hs⟩
    · rw [h1, h2]; exact rfl
    · rw [h1, h2]
      simp only
      rcases Sides.py_cases (hfit l l' hl X X' hX y y' hy sd sd' hs) with ⟨e, k1, k2⟩ | ⟨f, f', k1, k2, hf⟩
      · rw [k1, k2]; exact rfl
      · rw [k1, k2]
        simp only
        rcases Sides.py_cases (htr f f' hf l l' hl X X' hX sd sd' hs true) with ⟨e, j1, j2⟩ | ⟨o, o', j1, j2, ho⟩
        · rw [j1, j2]; exact rfl
        · rw [j1, j2]; exact ⟨hwrap f f' hf, ho⟩
  · intro l l' hl f f' hf X X' hX p p' hp
    simp only [mapEst]
    rcases Sides.py_cases (Order.sdArg_rows hl (Order.get hp "sample_domain")) with ⟨e, h1, h2⟩ | ⟨sd, sd', h1, h2, hs⟩
    · rw [h1, h2]; exact rfl
    · rw [h1, h2, Order.truthy_rows hl (Order.get hp "allow_source")]
      simp only
      rcases Sides.py_cases (htr _ _ (hunwrap f f' hf) l l' hl X X' hX sd sd' hs (truthy (p'.get "allow_source"))) with
        ⟨e, j1, j2⟩ | ⟨o, o', j1, j2, ho⟩
      · rw [j1, j2]; exact rfl
      · rw [j1, j2]; exact ho

namespace Order

theorem baseTransform_rows {l l' : List Nat} (hl : Reorder l l') {X X' : List α} (hX : Rows l l' X X') {p p' : Dict} (hp : RowsDict l l' p p') :
    RelPy (RowsOut l l') (baseTransform X p) (baseTransform X' p') := by
  unfold baseTransform
  rcases Sides.py_cases (sdArg_rows hl (get hp "sample_domain")) with ⟨e, h1, h2⟩ | ⟨sd, sd', h1, h2, hs⟩
  · rw [h1, h2]; exact rfl
  · rw [h1, h2, truthy_rows hl (get hp "allow_source")]
    simp only
    rcases Sides.py_cases (checkX_rows hl hX hs { allowSource := truthy (p'.get "allow_source") }) with ⟨e, j1, j2⟩ | ⟨o, o', j1, j2, ho⟩
    · rw [j1, j2]; exact rfl
    · rw [j1, j2]
      obtain ⟨a, b⟩ := o
      obtain ⟨a', b'⟩ := o'
      obtain ⟨h3, h4, -⟩ := ho
      simp only at h3 h4
      subst h3 h4
      exact hX

end Order

/-- C136 (reweighting adapters in general). -/
theorem C136_reweightEst {φ : Type} (R : φ → φ → Prop) (Q : σ → σ → Prop) (wrap : φ → σ) (hwrap : ∀ a b, R a b → Q (wrap a) (wrap b))
    (fit : List α → Option (List Num) → SDArg → Py φ) (weights : φ → List α → Option (List Num) → SDArg → Py (List (Option ℚ)))
    (hfit : FitFree R fit) (hw : WeightsFree R weights) : OrderFree Q (reweightEst wrap fit weights) := by
  refine ⟨fun _ => rfl, ?_, ?_, fun l l' hl f f' _ X X' hX p p' hp => Order.baseTransform_rows hl hX hp⟩
  · rintro l l' hl ⟨X, y, p⟩ ⟨X', y', p'⟩ ⟨hX, hy, hp⟩
    simp only [reweightEst]
    rcases Sides.py_cases (Order.sdArg_rows hl (Order.get hp "sample_domain")) with ⟨e, h1, h2⟩ | ⟨sd, sd', h1, h2, hs⟩
    · rw [h1, h2]; exact rfl
    · rw [h1, h2]
      simp only
      rcases Sides.py_cases (hfit l l' hl X X' hX y y' hy sd sd' hs) with ⟨e, k1, k2⟩ | ⟨f, f', k1, k2, hf⟩
      · rw [k1, k2]; exact rfl
      · rw [k1, k2]; exact hwrap f f' hf
  · rintro l l' hl ⟨X, y, p⟩ ⟨X', y', p'⟩ ⟨hX, hy, hp⟩
    simp only [reweightEst]
    rcases Sides.py_cases (Order.sdArg_rows hl (Order.get hp "sample_domain")) with ⟨e, h1, h2⟩ | ⟨sd, sd', h1, h2, hs⟩
    · rw [h1, h2]; exact rfl
    · rw [h1, h2]
      simp only
      rcases Sides.py_cases (hfit l l' hl X X' hX y y' hy sd sd' hs) with ⟨e, k1, k2⟩ | ⟨f, f', k1, k2, hf⟩
      · rw [k1, k2]; exact rfl
      · rw [k1, k2]
        simp only
        rcases Sides.py_cases (hw f f' hf l l' hl X X' hX y y' hy sd sd' hs) with ⟨e, j1, j2⟩ | ⟨o, o', j1, j2, ho⟩
        · rw [j1, j2]; exact rfl
        · rw [j1, j2]
          exact ⟨hwrap f f' hf, hX, List.Forall₂.cons ⟨rfl, Or.inl ⟨_, _, Order.rows_map ho _, rfl, rfl⟩⟩ List.Forall₂.nil⟩

/-! ### The adapters -/

namespace Order

theorem splitN_map {l : List Nat} (hn : l ≠ []) (dt : DType) (tl : List Nat) (f : Nat → α) (s : Nat → Int) :
    Map.splitN ⟨dt, tl, l.map f⟩ (l.map s) = .ok (⟨dt, tl, (l.filter (fun i => decide (0 ≤ s i))).map f⟩,
      ⟨dt, tl, (l.filter (fun i => !decide (0 ≤ s i))).map f⟩) := by
  simp only [Map.splitN, splitX_map hn]
  rfl

theorem ne_nil {l l' : List Nat} (hl : Reorder l l') (hn : l ≠ []) : l' ≠ [] := fun h => hn ((reorder_nil hl).2 h)

variable {K : Type} [Field K] {d : Nat}

theorem colMean_perm {X X' : List (Fin d → K)} (h : X.Perm X') : Map.colMean X = Map.colMean X' := by
  funext j
  simp only [Map.colMean, (h.map (fun x => x j)).sum_eq, h.length_eq]

theorem empCov_perm (b : Bool) {X X' : List (Fin d → K)} (h : X.Perm X') : Map.empCov b X = Map.empCov b X' := by
  simp only [Map.empCov, colMean_perm h, h.length_eq]
  congr 1
  funext i j
  rw [(h.map _).sum_eq]

theorem estimateCov_perm (auto : List (Fin d → K) → Matrix (Fin d) (Fin d) K) (hauto : ∀ X X', X.Perm X' → auto X = auto X')
    (shrinkage : Option (Option K)) (b : Bool) {X X' : List (Fin d → K)} (h : X.Perm X') :
    Map.estimateCov auto shrinkage b X = Map.estimateCov auto shrinkage b X' := by
  unfold Map.estimateCov
  split
  · exact hauto X X' h
  · exact empCov_perm b h
  · simp only [empCov_perm b h]

end Order

section Adapters
variable {K : Type} [Field K] {d : Nat}

/-- C136 (CORAL). The step of `CORAL`, in exact arithmetic: with no shrinkage or a numeric one there is nothing to assume; the automatic
shrinkage `auto` has to be independent of the order itself. -/
theorem C136_coral (wrap : Map.Coral K d → σ) (unwrap : σ → Map.Coral K d) (auto : List (Fin d → K) → Matrix (Fin d) (Fin d) K)
    (shrinkage : Option (Option K)) (hauto : shrinkage = some none → ∀ X X', X.Perm X' → auto X = auto X')
    (sqrtM invsqrtM : Matrix (Fin d) (Fin d) K → Matrix (Fin d) (Fin d) K) (b : Bool) :
    OrderFree Eq (Shallow.coralEst wrap unwrap (Map.estimateCov auto shrinkage b) sqrtM invsqrtM b) := by
  have hcov : ∀ X X', X.Perm X' → Map.estimateCov auto shrinkage b X = Map.estimateCov auto shrinkage b X' := by
    intro X X' h
    by_cases hs : shrinkage = some none
    · exact Order.estimateCov_perm auto (hauto hs) shrinkage b h
    · have : ∀ Y, Map.estimateCov auto shrinkage b Y = Map.estimateCov (fun _ => 0) shrinkage b Y := by
        intro Y
        unfold Map.estimateCov
        split
        · exact absurd rfl hs
        · rfl
        · rfl
      rw [this X, this X']
      exact Order.estimateCov_perm _ (fun _ _ _ => rfl) shrinkage b h
  refine C136_mapEst Eq Eq wrap unwrap (fun a b h => by rw [h]) (fun a b h => by rw [h]) _ _ ?_ ?_
  · intro l l' hl X X' hX y y' _ sd sd' hs
    refine Order.check_bind hl (Order.rows_map hX _) hs _ (fun s hn => ?_)
    obtain ⟨f, rfl, rfl⟩ := hX
    have hp : ∀ m : Nat → Bool, ((l.filter m).map (Shallow.vecRow d ∘ f)).Perm ((l'.filter m).map (Shallow.vecRow d ∘ f)) :=
      fun m => (hl.perm.filter m).map _
    simp only [List.map_map, Order.splitN_map hn, Order.splitN_map (Order.ne_nil hl hn)]
    show RelPy Eq (if _ then _ else _) (if _ then _ else _)
    simp only [Order.colMean_perm (hp _), hcov _ _ (hp _), (hp _).length_eq]
    exact Sides.py_refl (fun _ => rfl) _
  · rintro F _ rfl l l' hl X X' hX sd sd' hs as
    refine Order.toRows_rows (Order.rowsOf_arr ?_)
    refine Order.check_bind hl (Order.rows_map hX _) hs _ (fun s hn => ?_)
    obtain ⟨f, rfl, rfl⟩ := hX
    simp only [List.map_map, Order.splitN_map hn, Order.splitN_map (Order.ne_nil hl hn)]
    have hlen : ∀ m : Nat → Bool, (l.filter m).length = (l'.filter m).length := fun m => (hl.perm.filter m).length_eq
    refine Order.mergeN_rows hl hn s ?_ ?_
    · simp only [List.length_map, hlen]
      split
      · refine ⟨rfl, rfl, ?_⟩
        split <;> simp only [List.map_map] <;> exact ⟨_, rfl, rfl⟩
      · exact ⟨rfl, rfl, _, rfl, rfl⟩
    · simp only [List.length_map, hlen]
      split
      · refine ⟨rfl, rfl, ?_⟩
        simp only [List.map_map]
        exact ⟨_, rfl, rfl⟩
      · exact ⟨rfl, rfl, _, rfl, rfl⟩

/-- C136 (optimal-transport mapping). The steps of `OTMapping` and its variants, for a transport solver that does not look at the order of
source and target samples: fitted on the same sides in other orders it moves each sample to the same place. -/
theorem C136_ot (Q : σ → σ → Prop) (R : (NArr (List Num) → Py (NArr (List Num))) → (NArr (List Num) → Py (NArr (List Num))) → Prop)
    (hR : ∀ T T', R T T' → ∀ k k', Reorder k k' → ∀ dt tl X X', Rows k k' X X' →
      RelPy (fun A B => A.dtype = B.dtype ∧ A.tail = B.tail ∧ Rows k k' A.rows B.rows) (T ⟨dt, tl, X⟩) (T' ⟨dt, tl, X'⟩))
    (ot : NArr (List Num) → Option (List Num) → NArr (List Num) → Option (List Num) → Py (NArr (List Num) → Py (NArr (List Num))))
    (hot : ∀ k k', Reorder k k' → ∀ j j', Reorder j j' → ∀ dt tl Xs Xs' ys ys' Xt Xt' yt yt', Rows k k' Xs Xs' → RowsOpt k k' ys ys' →
      Rows j j' Xt Xt' → RowsOpt j j' yt yt' → RelPy R (ot ⟨dt, tl, Xs⟩ ys ⟨dt, tl, Xt⟩ yt) (ot ⟨dt, tl, Xs'⟩ ys' ⟨dt, tl, Xt'⟩ yt'))
    (wrap : (NArr (List Num) → Py (NArr (List Num))) → σ) (unwrap : σ → NArr (List Num) → Py (NArr (List Num)))
    (hwrap : ∀ a b, R a b → Q (wrap a) (wrap b)) (hunwrap : ∀ a b, Q a b → R (unwrap a) (unwrap b)) (tail : List Nat) :
    OrderFree Q (otEst wrap unwrap ot tail) := by
  refine C136_mapEst R Q wrap unwrap hwrap hunwrap _ _ ?_ ?_
  · intro l l' hl X X' hX y y' hy sd sd' hs
    refine Order.check_bind hl hX hs _ (fun s hn => ?_)
    obtain ⟨f, rfl, rfl⟩ := hX
    simp only [Order.splitN_map hn, Order.splitN_map (Order.ne_nil hl hn)]
    cases y with
    | none =>
      cases y' with
      | some y' => exact hy.elim
      | none =>
        exact hot _ _ (Order.reorder_filter hl _) _ _ (Order.reorder_filter hl _) _ _ _ _ none none _ _ none none ⟨f, rfl, rfl⟩ trivial
          ⟨f, rfl, rfl⟩ trivial
    | some y =>
      cases y' with
      | none => exact hy.elim
      | some y' =>
        obtain ⟨g, rfl, rfl⟩ := hy
        simp only [Map.splitY, Order.splitX_map hn, Order.splitX_map (Order.ne_nil hl hn)]
        exact hot _ _ (Order.reorder_filter hl _) _ _ (Order.reorder_filter hl _) _ _ _ _ (some _) (some _) _ _ (some _) (some _)
          ⟨f, rfl, rfl⟩ ⟨g, rfl, rfl⟩ ⟨f, rfl, rfl⟩ ⟨g, rfl, rfl⟩
  · intro T T' hT l l' hl X X' hX sd sd' hs as
    refine Order.rowsOf_arr ?_
    refine Order.check_bind hl hX hs _ (fun s hn => ?_)
    obtain ⟨f, rfl, rfl⟩ := hX
    simp only [Order.splitN_map hn, Order.splitN_map (Order.ne_nil hl hn)]
    refine Order.py_bind (R := fun (a b : NArr (List Num) × NArr (List Num)) =>
      Order.RowsArr (l.filter (fun i => decide (0 ≤ s i))) (l'.filter (fun i => decide (0 ≤ s i))) a.1 b.1 ∧
      Order.RowsArr (l.filter (fun i => !decide (0 ≤ s i))) (l'.filter (fun i => !decide (0 ≤ s i))) a.2 b.2) ?_ ?_
    · exact ⟨⟨rfl, rfl, f, rfl, rfl⟩, ⟨rfl, rfl, f, rfl, rfl⟩⟩
    · rintro ⟨⟨dt, tl, A⟩, B⟩ ⟨⟨dt', tl', A'⟩, B'⟩ ⟨⟨h1, h2, h3⟩, h4⟩
      simp only at h1 h2 h3 h4
      subst h1 h2
      simp only [Order.rows_length (Order.reorder_filter hl _) h3]
      split
      · exact Order.py_bind (hR T T' hT _ _ (Order.reorder_filter hl _) _ _ _ _ h3) (fun _ _ h => Order.mergeN_rows hl hn s h h4)
      · exact Order.mergeN_rows hl hn s ⟨rfl, rfl, h3⟩ h4

/-- C136 (subspace alignment). For a PCA that does not see the order of its rows. -/
theorem C136_subspaceAlignment (wrap : (Σ p, Subsp.Pca K d p × Subsp.Pca K d p) → σ) (unwrap : σ → Σ p, Subsp.Pca K d p × Subsp.Pca K d p)
    (pca : ∀ p, List (Fin d → K) → Subsp.Pca K d p) (hpca : ∀ p X X', X.Perm X' → pca p X = pca p X') (n : Option Nat) :
    OrderFree Eq (Shallow.saEst wrap unwrap pca n) := by
  refine C136_mapEst Eq Eq wrap unwrap (fun a b h => by rw [h]) (fun a b h => by rw [h]) _ _ ?_ ?_
  · intro l l' hl X X' hX y y' _ sd sd' hs
    have hargs : RelPy (fun a b => a.1.Perm b.1 ∧ a.2.1.Perm b.2.1 ∧ a.2.2 = b.2.2) (Subsp.saFitArgs n (Shallow.vecs d X) sd)
        (Subsp.saFitArgs n (Shallow.vecs d X') sd') := by
      refine Order.check_bind hl (Order.rows_map hX _) hs _ (fun s hn => ?_)
      obtain ⟨f, rfl, rfl⟩ := hX
      have hp : ∀ m : Nat → Bool, ((l.filter m).map (Shallow.vecRow d ∘ f)).Perm ((l'.filter m).map (Shallow.vecRow d ∘ f)) :=
        fun m => (hl.perm.filter m).map _
      simp only [List.map_map, Order.splitX_map hn, Order.splitX_map (Order.ne_nil hl hn), List.length_map, hl.perm.length_eq]
      refine Order.py_bind (R := fun (a b : List (Fin d → K) × List (Fin d → K)) => a.1.Perm b.1 ∧ a.2.Perm b.2) ?_ ?_
      · exact ⟨hp _, hp _⟩
      rintro ⟨a, b⟩ ⟨a', b'⟩ ⟨h1, h2⟩
      simp only [h1.length_eq, h2.length_eq]
      refine Order.py_bind (R := fun _ _ => True) (Sides.py_refl (fun _ => trivial) _) (fun _ _ _ => ?_)
      exact Order.py_bind (R := fun _ _ => True) (Sides.py_refl (fun _ => trivial) _) (fun _ _ _ => ⟨h1, h2, rfl⟩)
    simp only [Shallow.saFit]
    rcases Sides.py_cases hargs with ⟨e, h1, h2⟩ | ⟨⟨a, b, p⟩, ⟨a', b', p'⟩, h1, h2, h3, h4, h5⟩
    · rw [h1, h2]; exact rfl
    · rw [h1, h2]
      simp only at h3 h4 h5
      subst h5
      simp only [hpca p a a' h3, hpca p b b' h4]
      exact rfl
  · rintro F _ rfl l l' hl X X' hX sd sd' hs as
    refine Order.toRows_rows (Order.rowsOf_arr ?_)
    refine Order.check_bind hl (Order.rows_map hX _) hs _ (fun s hn => ?_)
    obtain ⟨f, rfl, rfl⟩ := hX
    simp only [List.map_map, Order.splitX_map hn, Order.splitX_map (Order.ne_nil hl hn)]
    exact Order.mergeN_rows hl hn s ⟨rfl, rfl, Order.rows_map ⟨_, rfl, rfl⟩ _⟩ ⟨rfl, rfl, Order.rows_map ⟨_, rfl, rfl⟩ _⟩

/-- C136 (transfer subspace learning). For an optimiser that gives the same matrix for the same labelled source and target samples. -/
theorem C136_transferSubspace {p : Nat} (wrap : Matrix (Fin d) (Fin p) K → σ) (unwrap : σ → Matrix (Fin d) (Fin p) K)
    (opt : List (Fin d → K) → List Num → List (Fin d → K) → Matrix (Fin d) (Fin p) K)
    (hopt : ∀ k k', Reorder k k' → ∀ Xs Xs' ys ys' Xt Xt', Rows k k' Xs Xs' → Rows k k' ys ys' → Xt.Perm Xt' → opt Xs ys Xt = opt Xs' ys' Xt') :
    OrderFree Eq (Shallow.tslEst wrap unwrap opt) := by
  refine C136_mapEst Eq Eq wrap unwrap (fun a b h => by rw [h]) (fun a b h => by rw [h]) _ _ ?_ ?_
  · intro l l' hl X X' hX y y' hy sd sd' hs
    refine Order.check_bind hl (Order.rows_map hX _) hs _ (fun s hn => ?_)
    obtain ⟨f, rfl, rfl⟩ := hX
    simp only [List.map_map, Order.splitX_map hn, Order.splitX_map (Order.ne_nil hl hn)]
    cases y with
    | none =>
      cases y' with
      | some y' => exact hy.elim
      | none => exact rfl
    | some y =>
      cases y' with
      | none => exact hy.elim
      | some y' =>
        obtain ⟨g, rfl, rfl⟩ := hy
        simp only [Order.splitX_map hn, Order.splitX_map (Order.ne_nil hl hn)]
        exact hopt _ _ (Order.reorder_filter hl _) _ _ _ _ _ _ ⟨_, rfl, rfl⟩ ⟨g, rfl, rfl⟩ ((hl.perm.filter _).map _)
  · rintro F _ rfl l l' hl X X' hX sd sd' hs as
    refine Order.toRows_rows (Order.rowsOf_arr ?_)
    refine Order.check_bind hl (Order.rows_map hX _) hs _ (fun s hn => ?_)
    obtain ⟨f, rfl, rfl⟩ := hX
    simp only [List.map_map, Order.splitX_map hn, Order.splitX_map (Order.ne_nil hl hn)]
    exact Order.mergeN_rows hl hn s ⟨rfl, rfl, Order.rows_map ⟨_, rfl, rfl⟩ _⟩ ⟨rfl, rfl, Order.rows_map ⟨_, rfl, rfl⟩ _⟩

end Adapters

namespace Order

theorem scatterZeros_map {K : Type} [Field K] (l : List Nat) (m : Nat → Bool) (w : Nat → Option K) :
    RW.scatterZeros l.length (flatnonzero (l.map m)) ((l.filter m).map w) = .ok (l.map (fun i => if m i then w i else some 0)) := by
  rw [RW.scatterZeros, replicate_map, idxAssign_map]

theorem mean_perm {K : Type} [Field K] {a b : List K} (h : a.Perm b) : RW.mean a = RW.mean b := by
  simp only [RW.mean, h.sum_eq, h.length_eq]

theorem batch_rows {γ : Type} {k k' : List Nat} (hk : Reorder k k') {X X' : List α} (hX : Rows k k' X X') (g : α → γ) :
    RelPy (fun a b => a = X.map g ∧ b = X'.map g) (RW.batch g X) (RW.batch g X') := by
  unfold RW.batch
  simp only [rows_nil hk hX]
  split
  · exact rfl
  · exact ⟨rfl, rfl⟩

theorem normaliseMean_rows {k k' : List Nat} (hk : Reorder k k') {K : Type} [Field K] [LinearOrder K] {w w' : List K} (h : Rows k k' w w') :
    Rows k k' (RW.normaliseMean w) (RW.normaliseMean w') := by
  unfold RW.normaliseMean
  rw [mean_perm (rows_perm hk h), rows_length hk h]
  split
  · exact rows_map h _
  · exact rows_map h _

theorem zipWith_maps {γ δ ε : Type} (l : List γ) (f : γ → δ) (g : γ → ε) {ζ : Type} (h : δ → ε → ζ) :
    List.zipWith h (l.map f) (l.map g) = l.map (fun i => h (f i) (g i)) := by
  induction l with
  | nil => rfl
  | cons i l ih => simp [ih]

theorem src_bind {γ : Type} {l l' : List Nat} (hl : Reorder l l') (hn : l ≠ []) (s : Nat → Int) {S : γ → γ → Prop} {f g : List Nat → Py γ}
    (h : RelPy S (f (flatnonzero (l.map (fun i => decide (0 ≤ s i))))) (g (flatnonzero (l'.map (fun i => decide (0 ≤ s i)))))) :
    RelPy S (RW.sourceIdx (l.map s) >>= f) (RW.sourceIdx (l'.map s) >>= g) := by
  rw [sourceIdx_map hn, sourceIdx_map (ne_nil hl hn)]
  exact h

theorem take_bind {γ δ : Type} (l l' : List Nat) (m : Nat → Bool) (a : Nat → δ) {S : γ → γ → Prop} {f g : List δ → Py γ}
    (h : RelPy S (f ((l.filter m).map a)) (g ((l'.filter m).map a))) :
    RelPy S (take (l.map a) (flatnonzero (l.map m)) >>= f) (take (l'.map a) (flatnonzero (l'.map m)) >>= g) := by
  rw [take_rows, take_rows]
  exact h

theorem domainLabels_map (l : List Nat) (m : Nat → Bool) :
    RW.domainLabels l.length (flatnonzero (l.map m)) = .ok (l.map (fun i => if m i then (0 : Int) else 1)) := by
  have : (flatnonzero (l.map m)).map (fun _ => (0 : Int)) = (l.filter m).map (fun _ => 0) := by
    rw [List.map_const', List.map_const', length_flatnonzero_rows]
  rw [RW.domainLabels, this, replicate_map, idxAssign_map]

end Order

/-- C136 (density ratios). The step of `DensityReweight`, for a density estimator that does not see the order of its training rows. -/
theorem C136_density (wrap : (α → ℚ) × (α → ℚ) → σ) (kde : List α → α → ℚ) (hkde : ∀ X X', X.Perm X' → kde X = kde X') (exp : ℚ → ℚ) :
    OrderFree Eq (reweightEst wrap (fun X _ sd => RW.densityFit kde X sd) (fun g X _ sd => RW.densityWeights exp g X sd)) := by
  refine C136_reweightEst Eq Eq wrap (fun a b h => by rw [h]) _ _ ?_ ?_
  · intro l l' hl X X' hX y y' _ sd sd' hs
    refine Order.check_bind hl hX hs _ (fun s hn => ?_)
    obtain ⟨f, rfl, rfl⟩ := hX
    simp only [Order.splitX_map hn, Order.splitX_map (Order.ne_nil hl hn)]
    refine Order.py_bind (R := fun (a b : List α × List α) => a.1.Perm b.1 ∧ a.2.Perm b.2) ?_ ?_
    · exact ⟨(hl.perm.filter _).map _, (hl.perm.filter _).map _⟩
    · rintro ⟨a, b⟩ ⟨a', b'⟩ ⟨h1, h2⟩
      have e1 : a = [] ↔ a' = [] := ⟨fun h => (h ▸ h1).nil_eq.symm, fun h => (h ▸ h1).eq_nil⟩
      have e2 : b = [] ↔ b' = [] := ⟨fun h => (h ▸ h2).nil_eq.symm, fun h => (h ▸ h2).eq_nil⟩
      simp only [e1, e2, hkde a a' h1, hkde b b' h2]
      exact Sides.py_refl (fun _ => rfl) _
  · rintro F _ rfl l l' hl X X' hX y y' _ sd sd' hs
    refine Order.check_bind hl hX hs _ (fun s hn => ?_)
    obtain ⟨f, rfl, rfl⟩ := hX
    have hk := Order.reorder_filter hl (fun i => decide (0 ≤ s i))
    refine Order.src_bind hl hn s ?_
    refine Order.take_bind l l' _ f ?_
    have hXs : Rows (l.filter (fun i => decide (0 ≤ s i))) (l'.filter (fun i => decide (0 ≤ s i))) _ _ := ⟨f, rfl, rfl⟩
    generalize (l.filter (fun i => decide (0 ≤ s i))).map f = Xs at hXs ⊢
    generalize (l'.filter (fun i => decide (0 ≤ s i))).map f = Xs' at hXs ⊢
    refine Order.py_bind (Order.batch_rows hk hXs F.1) ?_
    rintro _ _ ⟨rfl, rfl⟩
    refine Order.py_bind (Order.batch_rows hk hXs F.2) ?_
    rintro _ _ ⟨rfl, rfl⟩
    obtain ⟨w, h1, h2⟩ := Order.normaliseMean_rows (K := ℚ) hk (w := List.zipWith (fun t s => exp (t - s)) (Xs.map F.2) (Xs.map F.1))
      (w' := List.zipWith (fun t s => exp (t - s)) (Xs'.map F.2) (Xs'.map F.1)) (by
        rw [Order.zipWith_maps, Order.zipWith_maps]
        exact Order.rows_map hXs _)
    simp only [h1, h2, List.length_map, Order.scatterZeros_map]
    exact ⟨_, rfl, rfl⟩

/-- C136 (discriminator). The step of `DiscriminatorReweight`, for a domain classifier that does not see the order of its labelled rows. -/
theorem C136_discriminator (wrap : (α → ℚ) → σ) (clf : List α → List Int → α → ℚ)
    (hclf : ∀ k k', Reorder k k' → ∀ X X' y y', Rows k k' X X' → Rows k k' y y' → clf X y = clf X' y') (eps : ℚ) :
    OrderFree Eq (reweightEst wrap (fun X _ sd => RW.discriminatorFit clf X sd) (fun g X _ sd => RW.discriminatorWeights eps g X sd)) := by
  refine C136_reweightEst Eq Eq wrap (fun a b h => by rw [h]) _ _ ?_ ?_
  · intro l l' hl X X' hX y y' _ sd sd' hs
    refine Order.check_bind hl hX hs _ (fun s hn => ?_)
    obtain ⟨f, rfl, rfl⟩ := hX
    refine Order.src_bind hl hn s ?_
    simp only [List.length_map, Order.domainLabels_map]
    exact hclf l l' hl _ _ _ _ ⟨f, rfl, rfl⟩ ⟨_, rfl, rfl⟩
  · rintro F _ rfl l l' hl X X' hX y y' _ sd sd' hs
    refine Order.check_bind hl hX hs _ (fun s hn => ?_)
    obtain ⟨f, rfl, rfl⟩ := hX
    have hk := Order.reorder_filter hl (fun i => decide (0 ≤ s i))
    refine Order.src_bind hl hn s ?_
    refine Order.take_bind l l' _ f ?_
    have hXs : Rows (l.filter (fun i => decide (0 ≤ s i))) (l'.filter (fun i => decide (0 ≤ s i))) _ _ := ⟨f, rfl, rfl⟩
    generalize (l.filter (fun i => decide (0 ≤ s i))).map f = Xs at hXs ⊢
    generalize (l'.filter (fun i => decide (0 ≤ s i))).map f = Xs' at hXs ⊢
    refine Order.py_bind (Order.batch_rows hk hXs F) ?_
    rintro _ _ ⟨rfl, rfl⟩
    simp only [Order.mean_perm ((((Order.rows_perm hk hXs).map F).map (RW.clip eps)).map (fun p => (1 - p) / p))]
    obtain ⟨g, rfl, rfl⟩ := hXs
    simp only [List.map_map, List.length_map, Order.scatterZeros_map]
    exact ⟨_, rfl, rfl⟩

/-- C136 (Gaussian ratios). `GaussianReweight`, for a density fitted without regard to the order: the weights of samples in another order, after
a fit in another order, are the weights in that order. -/
theorem C136_gaussian {K : Type} [Field K] [LinearOrder K] (pdf : List α → α → K) (hpdf : ∀ X X', X.Perm X' → pdf X = pdf X')
    (j j' : List Nat) (hj : Reorder j j') (Xf Xf' : List α) (hXf : Rows j j' Xf Xf') (e e' : SDArg) (he : RowsSD j j' e e')
    (l l' : List Nat) (hl : Reorder l l') (X X' : List α) (hX : Rows l l' X X') (sd sd' : SDArg) (hs : RowsSD l l' sd sd') :
    RelPy (Rows l l') (RW.gaussianFitWeights pdf Xf e X sd) (RW.gaussianFitWeights pdf Xf' e' X' sd') := by
  refine Order.check_bind hj hXf he _ (fun t hm => ?_)
  obtain ⟨g, rfl, rfl⟩ := hXf
  simp only [Order.splitX_map hm, Order.splitX_map (Order.ne_nil hj hm)]
  refine Order.py_bind (R := fun (a b : List α × List α) => a.1.Perm b.1 ∧ a.2.Perm b.2) ?_ ?_
  · exact ⟨(hj.perm.filter _).map _, (hj.perm.filter _).map _⟩
  · rintro ⟨a, b⟩ ⟨a', b'⟩ ⟨h1, h2⟩
    simp only [hpdf a a' h1, hpdf b b' h2]
    refine Order.check_bind hl hX hs _ (fun s hn => ?_)
    obtain ⟨f, rfl, rfl⟩ := hX
    refine Order.src_bind hl hn s ?_
    refine Order.take_bind l l' _ f ?_
    simp only [List.map_map, List.length_map, Order.scatterZeros_map]
    exact ⟨_, rfl, rfl⟩

namespace Order

theorem domIdx_map {l : List Nat} (hn : l ≠ []) (s : Nat → Int) : extractDomainsIndices (l.map s) =
    .ok ((unique (l.map s)).map (fun d => (d, flatnonzero (l.map (fun i => decide (s i = d)))))) := by
  unfold extractDomainsIndices
  rw [if_neg (by simpa using hn)]
  simp only [List.map_map, Function.comp_def]

theorem mapM_map_ok {γ δ ε : Type} (f : δ → Py ε) (k : γ → δ) (g : γ → ε) (h : ∀ a, f (k a) = .ok (g a)) (l : List γ) :
    (l.map k).mapM f = .ok (l.map g) := by
  induction l with
  | nil => rfl
  | cons a l ih => rw [List.map_cons, List.mapM_cons, h, ih]; rfl

theorem perDomainSplit_map {l : List Nat} (hn : l ≠ []) (f : Nat → α) (s : Nat → Int) :
    perDomainSplit [some (l.map f)] (l.map s) =
      .ok (((unique (l.map s)).filter (fun d => decide (0 ≤ d))).map (fun d => (d, [some ((l.filter (fun i => decide (s i = d))).map f)])),
        ((unique (l.map s)).filter (fun d => !decide (0 ≤ d))).map (fun d => (d, [some ((l.filter (fun i => decide (s i = d))).map f)]))) := by
  unfold perDomainSplit
  simp only [List.cons_ne_self, ↓reduceIte, domIdx_map hn]
  rw [mapM_map_ok _ _ (fun d => (d, [some ((l.filter (fun i => decide (s i = d))).map f)]))]
  · simp only [List.filter_map, Function.comp_def]
  · intro d
    simp only [mapM_one, take_rows]
    rfl

theorem mongeLoop_rows [Cell α] (maps : List (Int × (α → α))) (dt : DType) (tl : List Nat) {l l' : List Nat} (f : Nat → α) (s : Nat → Int) :
    ∀ (ds : List Int) (o : Nat → α), RelPy (Rows l l')
      (Map.mongeLoop maps ⟨dt, tl, l.map f⟩ (ds.map (fun d => (d, flatnonzero (l.map (fun i => decide (s i = d)))))) (l.map o))
      (Map.mongeLoop maps ⟨dt, tl, l'.map f⟩ (ds.map (fun d => (d, flatnonzero (l'.map (fun i => decide (s i = d)))))) (l'.map o))
  | [], o => ⟨o, rfl, rfl⟩
  | d :: ds, o => by
    simp only [List.map_cons, Map.mongeLoop]
    cases hlk : Map.lookup maps d with
    | error e => exact rfl
    | ok g =>
      refine take_bind l l' (fun i => decide (s i = d)) f ?_
      simp only [List.map_map, idxAssign_map]
      exact mongeLoop_rows maps dt tl f s ds _

end Order

/-- C136 (linear Monge mappings). The step of `MultiLinearMongeAlignment`, for statistics of a domain (covariance and mean) that do not
depend on the order of its rows. -/
theorem C136_monge {K γ δ : Type} [Cell (List K)] (wrap : List (Int × (List K → List K)) → σ) (unwrap : σ → List (Int × (List K → List K)))
    (covMean : List (List K) → γ) (hcov : ∀ X X', X.Perm X' → covMean X = covMean X') (bary : List γ → δ) (mapping : γ → δ → List K → List K)
    (d : Nat) : OrderFree Eq (Shallow.mongeEst wrap unwrap covMean bary mapping d) := by
  refine C136_mapEst Eq Eq wrap unwrap (fun a b h => by rw [h]) (fun a b h => by rw [h]) _ _ ?_ ?_
  · intro l l' hl X X' hX y y' _ sd sd' hs
    refine Order.check_bind hl hX hs _ (fun s hn => ?_)
    obtain ⟨f, rfl, rfl⟩ := hX
    have hu : unique (l.map s) = unique (l'.map s) := Order.unique_perm (hl.perm.map s)
    have hc : ∀ m : Nat → Bool, covMean ((l.filter m).map f) = covMean ((l'.filter m).map f) :=
      fun m => hcov _ _ ((hl.perm.filter m).map f)
    simp only [Order.perDomainSplit_map hn, Order.perDomainSplit_map (Order.ne_nil hl hn), hu]
    refine Order.py_of_eq ?_
    show (if _ then _ else _) = (if _ then _ else _)
    simp only [List.map_eq_nil_iff, List.map_map, Function.comp_def, hc]
  · rintro F _ rfl l l' hl X X' hX sd sd' hs as
    refine Order.rowsOf_arr ?_
    refine Order.check_bind hl hX hs _ (fun s hn => ?_)
    obtain ⟨f, rfl, rfl⟩ := hX
    have hu : unique (l.map s) = unique (l'.map s) := Order.unique_perm (hl.perm.map s)
    simp only [Order.domIdx_map hn, Order.domIdx_map (Order.ne_nil hl hn), hu]
    exact Order.py_bind (Order.mongeLoop_rows F .float [d] f s _ f) (fun _ _ h => ⟨rfl, rfl, h⟩)

/-- C136 (label propagation in general). An adapter that proposes the same label for the same sample. -/
theorem C136_labelEst (Q : σ → σ → Prop) (state : σ) (hQ : Q state state) (prop : List α → List Int → SDArg → Py (List α × List Int))
    (hprop : ∀ l l', Reorder l l' → ∀ X X', Rows l l' X X' → ∀ y y', Rows l l' y y' → ∀ sd sd', RowsSD l l' sd sd' →
      RelPy (fun a b => Rows l l' a.1 b.1 ∧ Rows l l' a.2 b.2) (prop X y sd) (prop X' y' sd')) :
    OrderFree Q (Shallow.labelEst state prop) := by
  refine ⟨fun _ => rfl, fun _ _ _ _ _ _ => rfl, ?_, fun l l' hl f f' _ X X' hX p p' hp => Order.baseTransform_rows hl hX hp⟩
  rintro l l' hl ⟨X, y, p⟩ ⟨X', y', p'⟩ ⟨hX, hy, hp⟩
  simp only [Shallow.labelEst]
  rcases Sides.py_cases (Order.sdArg_rows hl (Order.get hp "sample_domain")) with ⟨e, h1, h2⟩ | ⟨sd, sd', h1, h2, hs⟩
  · rw [h1, h2]; exact rfl
  · rw [h1, h2]
    cases y with
    | none =>
      cases y' with
      | some y' => exact hy.elim
      | none => exact rfl
    | some y =>
      cases y' with
      | none => exact hy.elim
      | some y' =>
        simp only
        rcases Sides.py_cases (hprop l l' hl X X' hX _ _ (Order.rows_map hy _) sd sd' hs) with ⟨e, j1, j2⟩ | ⟨⟨a, b⟩, ⟨a', b'⟩, j1, j2, h3, h4⟩
        · rw [j1, j2]; exact rfl
        · rw [j1, j2]
          exact ⟨hQ, h3, Order.rows_map h4 _, List.Forall₂.nil⟩

/-! ### An estimator for the examples, and where the order does matter -/

/-- An estimator for the examples: it learns the sum of the rows, weighted by `sample_weight` if there is one, and subtracts it. -/
def sumEst (hasTr : Bool) (req : Request) : Est Num ℚ :=
  let fit : Call Num → ℚ := fun c => match c.params.get "sample_weight" with
    | .arr w => (List.zipWith (fun x v => Shallow.labelNum x * Shallow.labelNum v) c.X w).sum
    | _ => (c.X.map Shallow.labelNum).sum
  let tr : ℚ → List Num → List Num := fun f X => X.map (fun x => .fin (Shallow.labelNum x - f))
  ⟨hasTr, hasTr, req, req, req, fun c => .ok (fit c), fun c => .ok (fit c, .arr (tr (fit c) c.X)), fun f X _ => .ok (.arr (tr f X))⟩

/-- It does not see the order. -/
theorem sumEst_orderFree (hasTr : Bool) (req : Request) : OrderFree Eq (sumEst hasTr req) := by
  have key : ∀ l l', Reorder l l' → ∀ c c' : Call Num, RowsCall l l' c c' →
      (match c.params.get "sample_weight" with
        | .arr w => (List.zipWith (fun x v => Shallow.labelNum x * Shallow.labelNum v) c.X w).sum
        | _ => (c.X.map Shallow.labelNum).sum) =
      (match c'.params.get "sample_weight" with
        | .arr w => (List.zipWith (fun x v => Shallow.labelNum x * Shallow.labelNum v) c'.X w).sum
        | _ => (c'.X.map Shallow.labelNum).sum) := by
    rintro l l' hl ⟨X, y, p⟩ ⟨X', y', p'⟩ ⟨⟨f, rfl, rfl⟩, hy, hp⟩
    rcases Order.get hp "sample_weight" with ⟨w, w', ⟨g, rfl, rfl⟩, h1, h2⟩ | ⟨h1, h2⟩
    · simp only [h1, h2, Order.zipWith_maps]
      exact (hl.perm.map _).sum_eq
    · simp only at h1 h2 ⊢
      rw [← h1]
      cases h : p.get "sample_weight" with
      | arr a => exact absurd h (h2 a)
      | scalar v => exact ((hl.perm.map _).map _).sum_eq
      | none => exact ((hl.perm.map _).map _).sum_eq
  refine ⟨fun h => h, ?_, ?_, ?_⟩
  · intro l l' hl c c' hc
    exact key l l' hl c c' hc
  · intro l l' hl c c' hc
    refine ⟨key l l' hl c c' hc, ?_⟩
    have := key l l' hl c c' hc
    simp only [sumEst]
    rw [this]
    exact Order.rows_map hc.X _
  · rintro l l' hl f _ rfl X X' hX p p' hp
    exact Order.rows_map hX _

/-- A scaler and a regressor, fitted on two sources and a target. -/
def orderDemo : List ((String → Bool) × Step Num ℚ) :=
  [(fun _ => true, .shared ⟨sumEst true [], true, false⟩), (fun _ => true, .perDomain ⟨sumEst true [], true, false⟩)]

/-- The final regressor of the example. -/
def orderLast : Sel Num ℚ := ⟨sumEst false [("sample_weight", .yes)], true, true⟩

/-- Its predictions. -/
def orderQuery : ℚ → Call Num → Py (List ℚ) := fun f c => .ok (c.X.map (fun x => Shallow.labelNum x + f))

example : (∀ st ∈ orderDemo ++ [(fun _ => true, .shared orderLast)], StepOrder Eq st.2) ∧
    SelectsOk [("sample_domain", domParam [1, -2, 1, 3])] (orderDemo ++ [(fun _ => true, .shared orderLast)]) ∧
    [2, 0, 3, 1].Perm (List.range 4) ∧
    take [Num.fin 5, .fin 7, .fin 1, .fin 2] [2, 0, 3, 1] = .ok [Num.fin 1, .fin 5, .fin 2, .fin 7] ∧
    (∀ k k', Reorder k k' → ∀ f f', f = f' → ∀ c c', RowsCall k k' c c' → RelPy (Rows k k') (orderQuery f c) (orderQuery f' c')) := by
  refine ⟨?_, ?_, by decide, by decide +kernel, ?_⟩
  · intro st hst
    simp only [orderDemo, List.cons_append, List.nil_append, List.mem_cons, List.not_mem_nil, or_false] at hst
    rcases hst with rfl | rfl | rfl
    · exact sumEst_orderFree _ _
    · exact ⟨sumEst_orderFree _ _, rfl⟩
    · exact sumEst_orderFree _ _
  · simp [orderDemo, SelectsOk]
  · rintro k k' _ f _ rfl c c' hc
    exact Order.rows_map hc.X _

deriving instance DecidableEq for Fitted

/-- The two fits of the example succeed with the same fitted estimators; predictions of the fitted pipeline for samples in two orders. -/
example : (pipelineFit (orderDemo ++ [(fun _ => true, .shared orderLast)]) [.fin 5, .fin 7, .fin 1, .fin 2]
      (some [.fin 0, .fin 1, .fin 1, .fin 0]) [("sample_domain", domParam [1, -2, 1, 3])]).2.map (fun r => r.1) =
    .ok [.one 15, .perDomain [(-2, -8), (1, -24), (3, -13)], .one 24] ∧
    (pipelineFit (orderDemo ++ [(fun _ => true, .shared orderLast)]) [.fin 1, .fin 5, .fin 2, .fin 7]
      (some [.fin 1, .fin 0, .fin 0, .fin 1]) [("sample_domain", domParam [1, 1, 3, -2])]).2.map (fun r => r.1) =
    .ok [.one 15, .perDomain [(-2, -8), (1, -24), (3, -13)], .one 24] := by
  decide +kernel

example : stepsRoute (List.zipWith (fun st f => (st.1, st.2, f)) orderDemo [.one 15, .perDomain [(-2, -8), (1, -24), (3, -13)]])
      (fun _ => true, orderLast, 24) [] orderQuery [.fin 6, .fin 3] none [("sample_domain", domParam [1, -2])] = .ok [39, 20] ∧
    stepsRoute (List.zipWith (fun st f => (st.1, st.2, f)) orderDemo [.one 15, .perDomain [(-2, -8), (1, -24), (3, -13)]])
      (fun _ => true, orderLast, 24) [] orderQuery [.fin 3, .fin 6] none [("sample_domain", domParam [-2, 1])] = .ok [20, 39] := by
  decide +kernel

/-- C136 (counterexample: parameters behind `SelectSource`). A scaler inside `SelectSource` and a regressor that takes `sample_weight`,
which the scaler does not: behind `SelectSource` there are two rows but three weights, so that the weight of a row depends on the place of
the target sample that was left out. The same three samples in two orders give different regressors (skada/base.py:193-196, 564-573). -/
theorem C136_select_counterexample :
    let steps : List ((String → Bool) × Step Num ℚ) := [(fun k => k == "sample_domain", .select .source ⟨sumEst true [], true, false⟩),
      (fun _ => true, .shared ⟨sumEst false [("sample_weight", .yes)], true, true⟩)]
    (∀ st ∈ steps, StepOrder Eq st.2) ∧
    take [Num.fin 5, .fin 7, .fin 1] [1, 0, 2] = .ok [Num.fin 7, .fin 5, .fin 1] ∧
    (pipelineFit steps [.fin 5, .fin 7, .fin 1] (some [.fin 0, .fin 1, .fin 1])
      [("sample_domain", domParam [1, -2, 3]), ("sample_weight", .arr [.fin 1, .fin 2, .fin 3])]).2.map (fun r => r.1) =
      .ok [.one 6, .one (-11)] ∧
    (pipelineFit steps [.fin 7, .fin 5, .fin 1] (some [.fin 1, .fin 0, .fin 1])
      [("sample_domain", domParam [-2, 1, 3]), ("sample_weight", .arr [.fin 2, .fin 1, .fin 3])]).2.map (fun r => r.1) =
      .ok [.one 6, .one (-7)] := by
  refine ⟨?_, by decide +kernel, by decide +kernel, by decide +kernel⟩
  intro st hst
  simp only [List.mem_cons, List.not_mem_nil, or_false] at hst
  rcases hst with rfl | rfl
  · exact sumEst_orderFree _ _
  · exact sumEst_orderFree _ _

/-- C136 (counterexample: `PerDomain` around a predictor). The rows of a domain are taken by their place before masked rows were removed
(skada/base.py:475-484): with a masked sample of domain 1 the regressor of domain 1 is trained with the row of domain 2, or with nothing,
depending on the order; both fits fail in the end. -/
theorem C136_perDomain_counterexample :
    let steps : List ((String → Bool) × Step Num ℚ) := [(fun _ => true, .perDomain ⟨sumEst false [], false, true⟩)]
    let run := pipelineFit steps [.fin 10, .fin 11, .fin 12] (some [.fin 0, .fin (-1), .fin 1]) [("sample_domain", domParam [1, 1, 2])]
    let run' := pipelineFit steps [.fin 12, .fin 10, .fin 11] (some [.fin 1, .fin 0, .fin (-1)]) [("sample_domain", domParam [2, 1, 1])]
    run.1.map (fun c => c.X) = [[.fin 10, .fin 12]] ∧ run.2 = .error .indexError ∧ run'.1.length = 0 ∧ run'.2 = .error .indexError := by
  decide +kernel

/-- C136 (counterexample: nearest neighbours). `X[~source_idx]` takes the rows mirrored to the source rows (skada/_reweight.py:817), so the
weights depend on the places of the samples: source sample 10 gets weight 2, and after moving the target sample 9 to the front weight 1. -/
theorem C136_nearest_counterexample :
    let knn : List Int → Int → Nat := fun Xs x =>
      (List.range Xs.length).foldl (fun b i => if (Xs.getD i 0 - x).natAbs < (Xs.getD b 0 - x).natAbs then i else b) 0
    take [0, 10, 9, 11] [2, 0, 1, 3] = .ok [(9 : Int), 0, 10, 11] ∧ take [1, 1, -2, -2] [2, 0, 1, 3] = .ok [(-2 : Int), 1, 1, -2] ∧
    (RW.nnWeights knn false [0, 10, 9, 11] (.vec [1, 1, -2, -2]) : Py (List ℚ)) = .ok [0, 2, 1, 1] ∧
    (RW.nnWeights knn false [9, 0, 10, 11] (.vec [-2, 1, 1, -2]) : Py (List ℚ)) = .ok [1, 1, 1, 1] := by
  decide +kernel

/-- C136 (counterexample: kernel embeddings). `transform` of TCA and TJM returns, for its training samples, the rows of sources and then
those of targets, whatever the order of the samples asked for (skada/_subspace.py:362-365, 522-526): samples 5, 1, 7, 2 get the embeddings
of 1, 2, 5, 7. -/
theorem C136_kernel_counterexample :
    let F : Subsp.Embedding Int ℚ 1 := ⟨[1, 2], [5, 7], [fun _ => 1, fun _ => 1, fun _ => 0, fun _ => 1]⟩
    let k : Int → Int → ℚ := fun x y => x * y
    take [1, 2, 5, 7] [2, 0, 3, 1] = .ok [(5 : Int), 1, 7, 2] ∧
    (Subsp.kernelTransform k F [1, 2, 5, 7] (.vec [1, 1, -2, -2]) true).map (fun r => r.map (fun v => v 0)) = .ok [10, 20, 50, 70] ∧
    (Subsp.kernelTransform k F [5, 1, 7, 2] (.vec [-2, 1, -2, 1]) true).map (fun r => r.map (fun v => v 0)) = .ok [10, 20, 50, 70] := by
  decide +kernel

end Skada

/-
Properties C12, C16, C18: label masking in pipelines of selectors, and the metadata container.
-/
import Verif.Lemmas.Selectors
import Mathlib.Data.List.Induction

namespace Skada
open Np Spec

variable {α β σ : Type}

/-! ### C12 -/

/-- `v` is an integer. -/
def Spec.IsInt (v : Num) : Prop := ∃ z : Int, v = .fin z

/-- Two label vectors of the same kind: both are class labels (integers only), or both are regression targets (no
infinities, some entry is missing or not an integer). -/
def Spec.SameKind (y₁ y₂ : List Num) : Prop :=
  ((∀ v ∈ y₁, IsInt v) ∧ (∀ v ∈ y₂, IsInt v)) ∨
  ((∀ v ∈ y₁, v ≠ .pinf ∧ v ≠ .ninf) ∧ (∀ v ∈ y₂, v ≠ .pinf ∧ v ≠ .ninf) ∧
    (∃ v ∈ y₁, ¬ IsInt v) ∧ (∃ v ∈ y₂, ¬ IsInt v))

/-- Two label vectors that differ at most on target samples. -/
def Spec.AgreeOnSource (sd : List Int) (y₁ y₂ : List Num) : Prop :=
  y₁.length = y₂.length ∧ ∀ (i : Nat) (d : Int), sd[i]? = some d → 0 ≤ d → y₁[i]? = y₂[i]?

theorem isIntegral_iff (v : Num) : v.isIntegral = true ↔ IsInt v := by
  unfold IsInt
  cases v with
  | fin q =>
    simp only [Num.isIntegral, beq_iff_eq, Num.fin.injEq]
    constructor
    · intro h; exact ⟨q.num, (Rat.coe_int_num_of_den_eq_one h).symm⟩
    · rintro ⟨z, rfl⟩; rfl
  | nan => simp [Num.isIntegral]
  | pinf => simp [Num.isIntegral]
  | ninf => simp [Num.isIntegral]

theorem findYType_int {y : List Num} (h : ∀ v ∈ y, IsInt v) : findYType y = .ok .discrete := by
  unfold findYType
  rw [if_neg, if_neg]
  · simp only [List.any_eq_true, not_exists, not_and]
    intro v hv
    simp [(isIntegral_iff v).2 (h v hv)]
  · simp only [List.any_eq_true, not_exists, not_and]
    intro v hv
    obtain ⟨z, rfl⟩ := h v hv
    simp [Num.isNan]

theorem findYType_cont {y : List Num} (h : ∀ v ∈ y, v ≠ .pinf ∧ v ≠ .ninf) (hn : ∃ v ∈ y, ¬ IsInt v) :
    findYType y = .ok .continuous := by
  unfold findYType
  split
  · rfl
  · rename_i hnan
    rw [if_pos, if_neg]
    · simp only [List.any_eq_true, not_exists, not_and] at hnan ⊢
      intro v hv
      have := h v hv
      have hv' := hnan v hv
      cases v <;> simp_all [Num.isFinite, Num.isNan]
    · obtain ⟨v, hv, hi⟩ := hn
      rw [List.any_eq_true]
      refine ⟨v, hv, ?_⟩
      rw [← isIntegral_iff] at hi
      simpa using hi

theorem findYType_sameKind {y₁ y₂ : List Num} (h : SameKind y₁ y₂) : findYType y₁ = findYType y₂ := by
  rcases h with ⟨h1, h2⟩ | ⟨h1, h2, h3, h4⟩
  · rw [findYType_int h1, findYType_int h2]
  · rw [findYType_cont h1 h3, findYType_cont h2 h4]

theorem boolFill_agree {sd : List Int} {y₁ y₂ : List Num} (h : AgreeOnSource sd y₁ y₂) (v : Num) :
    boolFill y₁ ((sd.map (fun d => decide (0 ≤ d))).map (!·)) v
      = boolFill y₂ ((sd.map (fun d => decide (0 ≤ d))).map (!·)) v := by
  unfold boolFill
  rw [h.1]
  split
  · rfl
  · rename_i hl
    congr 1
    apply List.ext_getElem?
    intro i
    simp only [List.getElem?_zipWith, List.getElem?_map]
    cases hsd : sd[i]? with
    | none => simp
    | some d =>
      by_cases hd : 0 ≤ d
      · rw [h.2 i d hsd hd]
      · have hi : i < sd.length := (List.getElem?_eq_some_iff.1 hsd).1
        have hl' : y₂.length = sd.length := by simpa using hl
        rw [List.getElem?_eq_getElem (l := y₁) (by rw [h.1]; omega), List.getElem?_eq_getElem (l := y₂) (by omega)]
        simp [hd]

theorem autoMask_agree {sd : List Int} {y₁ y₂ : List Num} {params : Dict}
    (hsd : params.lookup "sample_domain" = some (domParam sd)) (h : AgreeOnSource sd y₁ y₂) (hk : SameKind y₁ y₂) :
    autoMask (some y₁) params = autoMask (some y₂) params := by
  unfold autoMask
  simp only [get_eq_of_lookup hsd, domParam_ne_none, if_false, findYType_sameKind hk, sourceMaskOf_domParam]
  cases findYType y₂ with
  | error e => rfl
  | ok t =>
    simp only
    unfold extractSourceIndices
    split
    · rfl
    · rename_i m hm
      split at hm
      · cases hm
      · simp only [Except.ok.injEq] at hm
        subst hm
        rw [boolFill_agree h]

/-- A selector that hides target labels: `Shared` or `PerDomain` with `mask_target_labels=True` (the default). -/
def Spec.Hides : Step α σ → Prop
  | .shared s | .perDomain s => s.mask = true
  | .select _ _ | .sourceTarget _ => False

theorem fit_congr {st : Step α σ} (hs : Hides st) {c : Cont α} {y₁ y₂ : Option (List Num)} {params : Dict}
    (h : autoMask y₁ params = autoMask y₂ params) : st.fit c y₁ params = st.fit c y₂ params := by
  cases st with
  | shared s =>
    simp only [Hides] at hs
    simp only [Step.fit, Sel.sharedFit, Sel.ownMask, hs, if_true, h]
  | perDomain s =>
    simp only [Hides] at hs
    simp only [Step.fit, Sel.perDomainFit, Sel.ownMask, hs, if_true, h]
  | select _ _ => exact hs.elim
  | sourceTarget _ => exact hs.elim

theorem fitTransform_congr [Cell α] {st : Step α σ} (hs : Hides st) {c : Cont α} {y₁ y₂ : Option (List Num)}
    {params : Dict} (h : autoMask y₁ params = autoMask y₂ params) :
    st.fitTransform c y₁ params = st.fitTransform c y₂ params := by
  cases st with
  | shared s =>
    simp only [Hides] at hs
    simp only [Step.fitTransform, Sel.sharedFitTransformOut, Sel.sharedFit, Sel.ownMask, hs, if_true, h]
  | perDomain s =>
    simp only [Hides] at hs
    simp only [Step.fitTransform, Sel.perDomainFitTransformOut, Sel.perDomainFit, Sel.ownMask, hs, if_true, h]
  | select _ _ => exact hs.elim
  | sourceTarget _ => exact hs.elim

/-- C12. Fitting a pipeline of selectors whose first step hides target labels is non-interfering: two label vectors of
one kind that agree on the source samples give the same run — the same data in every call made to any estimator, the
same fitted steps, the same exception if there is one — whatever the estimators and the later steps are. -/
theorem C12_target_labels_hidden [Cell α] (keep : String → Bool) (first : Step α σ)
    (rest : List ((String → Bool) × Step α σ)) (X : List α) (sd : List Int) (y₁ y₂ : List Num) (params : Dict)
    (hs : Hides first) (hkeep : keep "sample_domain" = true)
    (hsd : params.lookup "sample_domain" = some (domParam sd))
    (hy : AgreeOnSource sd y₁ y₂) (hk : SameKind y₁ y₂) :
    pipelineFit ((keep, first) :: rest) X (some y₁) params = pipelineFit ((keep, first) :: rest) X (some y₂) params := by
  have hsd' := (lookup_filter_key keep params _ hkeep).trans hsd
  have hm := autoMask_agree hsd' hy hk
  unfold pipelineFit
  split
  · rfl
  · cases rest with
    | nil => simp only [fitSteps, fit_congr hs hm]
    | cons r rest => simp only [fitSteps, fitTransform_congr hs hm]

/-- An estimator for the examples: it accepts everything, `fit` keeps the labels it has seen. -/
def exEst (hasTr : Bool) (req : Request) : Est Num (Option (List Num)) :=
  ⟨hasTr, hasTr, req, req, req, fun c => .ok c.y, fun c => .ok (c.y, .arr c.X), fun _ X _ => .ok (.arr X)⟩

/-- Data for the examples: two source samples, two target samples. -/
def exDict : Dict := [("sample_domain", domParam [1, 2, -3, -3])]

/-- A scaler followed by a classifier: only the source labels are used, and the final classifier, which does not take
`sample_domain`, is not even given the target rows. -/
example : (pipelineFit [(fun _ => true, Step.shared ⟨exEst true [("sample_domain", .yes)], true, false⟩),
      (fun _ => true, Step.shared ⟨exEst false [], true, true⟩)]
      [.fin 10, .fin 11, .fin 12, .fin 13] (some [.fin 0, .fin 1, .fin 1, .fin 0]) exDict).1.map
        (fun c => (c.X, c.y)) =
    [([.fin 10, .fin 11, .fin 12, .fin 13], some [.fin 0, .fin 1, .fin (-1), .fin (-1)]),
     ([.fin 10, .fin 11], some [.fin 0, .fin 1])] := by decide +kernel

example : AgreeOnSource [1, 2, -3, -3] [.fin 0, .fin 1, .fin 1, .fin 0] [.fin 0, .fin 1, .fin 7, .fin 3] ∧
    SameKind [.fin 0, .fin 1, .fin 1, .fin 0] [.fin 0, .fin 1, .fin 7, .fin 3] := by
  refine ⟨⟨rfl, ?_⟩, Or.inl ⟨?_, ?_⟩⟩
  · intro i d h hd
    match i with
    | 0 => rfl
    | 1 => rfl
    | 2 => simp at h; omega
    | 3 => simp at h; omega
    | i + 4 => simp at h
  · intro v hv; simp at hv; rcases hv with rfl | rfl | rfl
    · exact ⟨0, by norm_num⟩
    · exact ⟨1, by norm_num⟩
    · exact ⟨0, by norm_num⟩
  · intro v hv; simp at hv; rcases hv with rfl | rfl | rfl | rfl
    · exact ⟨0, by norm_num⟩
    · exact ⟨1, by norm_num⟩
    · exact ⟨7, by norm_num⟩
    · exact ⟨3, by norm_num⟩

/-- The condition on the kind is needed: one non-integral *target* label turns the mask from `-1` into NaN, which an
estimator that is given all rows can see. -/
theorem C12_kind_needed :
    let run (y : List Num) := (pipelineFit
      [(fun _ => true, Step.shared ⟨exEst false [("sample_domain", .yes)], true, true⟩)]
      [.fin 10, .fin 11, .fin 12, .fin 13] (some y) exDict).1.map (fun c => c.y)
    AgreeOnSource [1, 2, -3, -3] [.fin 0, .fin 1, .fin 1, .fin 0] [.fin 0, .fin 1, .fin (1/2), .fin 0] ∧
    run [.fin 0, .fin 1, .fin 1, .fin 0] = [some [.fin 0, .fin 1, .fin (-1), .fin (-1)]] ∧
    run [.fin 0, .fin 1, .fin (1/2), .fin 0] = [some [.fin 0, .fin 1, .nan, .nan]] := by
  refine ⟨⟨rfl, ?_⟩, by decide +kernel, by decide +kernel⟩
  intro i d h hd
  match i with
  | 0 => rfl
  | 1 => rfl
  | 2 => simp at h; omega
  | 3 => simp at h; omega
  | i + 4 => simp at h

/-! ### C16 -/

/-- Every result of a run satisfies `P`. -/
def Spec.Returns {γ : Type} (r : Run α γ) (P : γ → Prop) : Prop := ∀ v, r.2 = .ok v → P v

theorem boolFill_ok {y y' : List Num} {m : List Bool} {v : Num} (h : boolFill y m v = .ok y') :
    y.length = m.length ∧ y'.length = y.length ∧
      ∀ (i : Nat), y'[i]? = if m[i]? = some true then some v else y[i]? := by
  unfold boolFill at h
  split at h
  · cases h
  · rename_i hl
    simp only [ne_eq, not_not] at hl
    simp only [Except.ok.injEq] at h
    subst h
    refine ⟨hl, by simp [hl], ?_⟩
    intro i
    rw [List.getElem?_zipWith]
    by_cases hi : i < y.length
    · rw [List.getElem?_eq_getElem (l := m) (by omega), List.getElem?_eq_getElem (l := y) hi]
      cases m[i] <;> simp
    · rw [List.getElem?_eq_none (l := m) (by omega), List.getElem?_eq_none (l := y) (by omega)]
      simp

/-- What masking may do to a label vector: nothing happens to source labels. -/
theorem autoMask_source {y y' : Option (List Num)} {params : Dict} {sd : List Int}
    (hsd : params.get "sample_domain" = domParam sd ∨ params.get "sample_domain" = .none)
    (h : autoMask y params = .ok y') :
    (y = none ∧ y' = none) ∨ ∃ a b, y = some a ∧ y' = some b ∧ (b = a ∨ ∃ t, findYType a = .ok t ∧
      b.length = a.length ∧ a.length = sd.length ∧
      ∀ (i : Nat) (d : Int), sd[i]? = some d → b[i]? = if 0 ≤ d then a[i]? else some (maskLabel t)) := by
  unfold autoMask at h
  cases y with
  | none => simp only [Except.ok.injEq] at h; exact Or.inl ⟨rfl, h.symm⟩
  | some y =>
    right
    simp only at h
    split at h
    · simp only [Except.ok.injEq] at h; exact ⟨y, y, rfl, h.symm, Or.inl rfl⟩
    · rename_i hn
      rcases hsd with hsd | hsd
      · rw [hsd, sourceMaskOf_domParam] at h
        cases ht : findYType y with
        | error e => simp [ht] at h
        | ok t =>
          simp only [ht] at h
          unfold extractSourceIndices at h
          by_cases hsd0 : sd = []
          · simp [hsd0] at h
          · simp only [hsd0, if_false] at h
            cases hf : boolFill y ((sd.map (fun d => decide (0 ≤ d))).map (!·)) (maskLabel t) with
            | error e => rw [hf] at h; cases h
            | ok b =>
              simp only [hf, Except.ok.injEq] at h
              obtain ⟨h1, h2, h3⟩ := boolFill_ok hf
              refine ⟨y, b, rfl, h.symm, Or.inr ⟨t, ht, h2, by simpa using h1, ?_⟩⟩
              intro i d hid
              rw [h3 i]
              simp only [List.getElem?_map, hid, Option.map_some]
              by_cases hd : 0 ≤ d <;> simp [hd]
      · exact absurd hsd hn

theorem sharedFit_labels {s : Sel α σ} {m : Method} {c : Cont α} {y : Option (List Num)} {params : Dict}
    {r : (σ × StepOut α) × Option (List Num)} (h : (s.sharedFit m c y params).2 = .ok r) :
    s.ownMask y params = .ok r.2 := by
  unfold Sel.sharedFit at h
  cases ha : s.ownMask y params with
  | error e => simp [ha] at h
  | ok y' =>
    simp only [ha] at h
    split at h
    · cases h
    · simp only at h
      split at h
      · cases h
      · simp only [Except.ok.injEq] at h; rw [← h]

theorem sharedFitTransformOut_labels {s : Sel α σ} {c : Cont α} {y : Option (List Num)} {params : Dict}
    {r : (σ × StepOut α) × Option (List Num)} (h : (s.sharedFitTransformOut c y params).2 = .ok r) :
    s.ownMask y params = .ok r.2 := by
  unfold Sel.sharedFitTransformOut at h
  split at h
  · exact sharedFit_labels h
  · split at h
    · cases h
    · rename_i calls f o y' heq
      have := sharedFit_labels (r := ((f, o), y')) (by rw [heq])
      simp only at h
      split at h
      · cases h
      · split at h
        · cases h
        · simp only [Except.ok.injEq] at h; rw [← h]; exact this

theorem perDomainFit_labels {s : Sel α σ} {m : Method} {c : Cont α} {y : Option (List Num)} {params : Dict}
    {r : List (Int × List Nat × σ × StepOut α) × Option (List Num)} (h : (s.perDomainFit m c y params).2 = .ok r) :
    s.ownMask y params = .ok r.2 := by
  unfold Sel.perDomainFit at h
  cases ha : s.ownMask y params with
  | error e => simp [ha] at h
  | ok y' =>
    simp only [ha] at h
    split at h
    · cases h
    · split at h
      · cases h
      · split at h
        · cases h
        · split at h
          · cases h
          · simp only [Except.ok.injEq] at h; rw [← h]

/-- The labels the caller holds after a step: unchanged, or masked by a step that hides labels. -/
theorem fit_labels {st : Step α σ} {c : Cont α} {y : Option (List Num)} {params : Dict}
    {v : Fitted σ × Option (List Num)} (hv : (st.fit c y params).2 = .ok v) :
    v.2 = y ∨ (Hides st ∧ autoMask y params = .ok v.2) := by
  cases st with
  | shared s =>
    simp only [Step.fit] at hv
    split at hv
    · cases hv
    · rename_i calls f o y' heq
      have := sharedFit_labels (r := ((f, o), y')) (by rw [heq])
      simp only [Except.ok.injEq] at hv
      rw [← hv]
      unfold Sel.ownMask at this
      split at this
      · exact Or.inr ⟨by assumption, this⟩
      · simp only [Except.ok.injEq] at this; exact Or.inl this.symm
  | perDomain s =>
    simp only [Step.fit] at hv
    split at hv
    · cases hv
    · rename_i calls r y' heq
      have := perDomainFit_labels (r := (r, y')) (by rw [heq])
      simp only [Except.ok.injEq] at hv
      rw [← hv]
      unfold Sel.ownMask at this
      split at this
      · exact Or.inr ⟨by assumption, this⟩
      · simp only [Except.ok.injEq] at this; exact Or.inl this.symm
  | select side s =>
    simp only [Step.fit] at hv
    split at hv
    · cases hv
    · simp only [Except.ok.injEq] at hv; rw [← hv]; exact Or.inl rfl
  | sourceTarget s =>
    simp only [Step.fit] at hv
    split at hv
    · cases hv
    · simp only [Except.ok.injEq] at hv; rw [← hv]; exact Or.inl rfl

theorem fitTransform_labels [Cell α] {st : Step α σ} {c : Cont α} {y : Option (List Num)} {params : Dict}
    {v : Fitted σ × Cont α × Option (List Num)} (hv : (st.fitTransform c y params).2 = .ok v) :
    v.2.2 = y ∨ (Hides st ∧ autoMask y params = .ok v.2.2) := by
  cases st with
  | shared s =>
    simp only [Step.fitTransform] at hv
    split at hv
    · cases hv
    · rename_i calls f o y' heq
      have := sharedFitTransformOut_labels (r := ((f, o), y')) (by rw [heq])
      simp only at hv
      split at hv
      · cases hv
      simp only [Except.ok.injEq] at hv
      rw [← hv]
      unfold Sel.ownMask at this
      split at this
      · exact Or.inr ⟨by assumption, this⟩
      · simp only [Except.ok.injEq] at this; exact Or.inl this.symm
  | perDomain s =>
    simp only [Step.fitTransform] at hv
    split at hv
    · cases hv
    · rename_i calls f o y' heq
      have : s.ownMask y params = .ok y' := by
        unfold Sel.perDomainFitTransformOut at heq
        split at heq
        · split at heq
          · cases heq
          · rename_i r y'' heq'
            have := perDomainFit_labels (r := (r, y'')) (by rw [heq'])
            simp only [Prod.mk.injEq] at heq
            obtain ⟨-, heq⟩ := heq
            split at heq
            · cases heq
            · simp only [Except.ok.injEq, Prod.mk.injEq] at heq
              rw [← heq.2]; exact this
        · split at heq
          · cases heq
          · cases heq
      simp only at hv
      split at hv
      · cases hv
      simp only [Except.ok.injEq] at hv
      rw [← hv]
      unfold Sel.ownMask at this
      split at this
      · exact Or.inr ⟨by assumption, this⟩
      · simp only [Except.ok.injEq] at this; exact Or.inl this.symm
  | select side s =>
    simp only [Step.fitTransform] at hv
    split at hv
    · cases hv
    · simp only [Except.ok.injEq] at hv; rw [← hv]; exact Or.inl rfl
  | sourceTarget s =>
    simp only [Step.fitTransform] at hv
    split at hv
    · cases hv
    · simp only at hv
      split at hv
      · cases hv
      · simp only [Except.ok.injEq] at hv; rw [← hv]; exact Or.inl rfl

/-- Induction over the steps: a relation between label vectors that every masking step respects holds between the
labels before and after fitting. -/
theorem fitSteps_labels [Cell α] (R : Option (List Num) → Option (List Num) → Prop) (hrefl : ∀ y, R y y)
    (htrans : ∀ a b c, R a b → R b c → R a c) (params : Dict)
    (steps : List ((String → Bool) × Step α σ))
    (hstep : ∀ st ∈ steps, Hides st.2 → ∀ y y', autoMask y (params.filter (fun kv => st.1 kv.1)) = .ok y' → R y y')
    (c : Cont α) (y : Option (List Num)) (v : List (Fitted σ) × Option (List Num))
    (hv : (fitSteps steps c y params).2 = .ok v) : R y v.2 := by
  induction steps generalizing c y v with
  | nil => simp only [fitSteps, Except.ok.injEq] at hv; rw [← hv]; exact hrefl y
  | cons st rest ih =>
    obtain ⟨keep, st⟩ := st
    cases rest with
    | nil =>
      simp only [fitSteps] at hv
      split at hv
      · cases hv
      · rename_i calls f y' heq
        simp only [Except.ok.injEq] at hv
        rw [← hv]
        rcases fit_labels (v := (f, y')) (by rw [heq]) with h | ⟨h1, h2⟩
        · simp only at h; rw [h]; exact hrefl y
        · exact hstep (keep, st) (by simp) h1 _ _ h2
    | cons r rest =>
      simp only [fitSteps] at hv
      split at hv
      · cases hv
      · rename_i calls f c' y' heq
        have h1 : R y y' := by
          rcases fitTransform_labels (v := (f, c', y')) (by rw [heq]) with h | ⟨h1, h2⟩
          · simp only at h; rw [h]; exact hrefl y
          · exact hstep (keep, st) (by simp) h1 _ _ h2
        split at hv
        · cases hv
        · rename_i calls' fs y'' heq'
          simp only [Except.ok.injEq] at hv
          rw [← hv]
          exact htrans _ _ _ h1 (ih (fun st hst => hstep st (by simp [hst])) c' y' (fs, y'') (by rw [heq']))

theorem get_filter_key (p : String → Bool) (d : Dict) (k : String) (v : Param Num)
    (h : d.lookup k = some v ∨ d.lookup k = none) :
    Dict.get (d.filter (fun kv => p kv.1)) k = v ∨ Dict.get (d.filter (fun kv => p kv.1)) k = .none := by
  by_cases hp : p k = true
  · unfold Dict.get
    rw [lookup_filter_key p d k hp]
    rcases h with h | h <;> simp [h]
  · right
    unfold Dict.get
    have : (d.filter (fun kv => p kv.1)).lookup k = none := by
      apply lookup_eq_none_of_not_mem
      intro hm
      obtain ⟨kv, hkv, rfl⟩ := List.mem_map.1 hm
      exact hp (List.mem_filter.1 hkv).2
    simp [this]

/-- C16, partial: what a successful fit of any pipeline of selectors leaves alone.  Source labels are never changed.
The full claim — no label is changed — is false, see `C16_counterexample`. -/
theorem C16_source_labels_partial [Cell α] (steps : List ((String → Bool) × Step α σ)) (X : List α) (sd : List Int)
    (y : List Num) (params : Dict)
    (hsd : params.lookup "sample_domain" = some (domParam sd) ∨ params.lookup "sample_domain" = none) :
    Returns (pipelineFit steps X (some y) params) (fun v => ∃ y', v.2 = some y' ∧ y'.length = y.length ∧
      ∀ i : Nat, (∀ d : Int, sd[i]? = some d → 0 ≤ d) → y'[i]? = y[i]?) := by
  intro v hv
  unfold pipelineFit at hv
  split at hv
  · cases hv
  let R : Option (List Num) → Option (List Num) → Prop := fun a b =>
    (a = none ∧ b = none) ∨ ∃ p q : List Num, a = some p ∧ b = some q ∧ q.length = p.length ∧
      ∀ i : Nat, (∀ d : Int, sd[i]? = some d → 0 ≤ d) → q[i]? = p[i]?
  have := fitSteps_labels R (by intro y; cases y; exact Or.inl ⟨rfl, rfl⟩; exact Or.inr ⟨_, _, rfl, rfl, rfl, fun _ _ => rfl⟩)
    (by
      rintro a b c (⟨rfl, rfl⟩ | ⟨p, q, rfl, rfl, h1, h2⟩) (⟨h, h'⟩ | ⟨p', q', h, h', h3, h4⟩)
      · exact Or.inl ⟨rfl, h'⟩
      · cases h
      · cases h
      · simp only [Option.some.injEq] at h
        subst h
        exact Or.inr ⟨_, _, rfl, h', h3.trans h1, fun i hi => (h4 i hi).trans (h2 i hi)⟩)
    params steps (by
      intro st hst _ y y' ha
      rcases autoMask_source (get_filter_key st.1 params _ _ hsd) ha with ⟨rfl, rfl⟩ | ⟨a, b, rfl, rfl, rfl | ⟨t, -, h1, h2, h3⟩⟩
      · exact Or.inl ⟨rfl, rfl⟩
      · exact Or.inr ⟨_, _, rfl, rfl, rfl, fun _ _ => rfl⟩
      · refine Or.inr ⟨_, _, rfl, rfl, h1, fun i hi => ?_⟩
        cases hs : sd[i]? with
        | none =>
          have : sd.length ≤ i := by simpa using hs
          rw [List.getElem?_eq_none (by omega), List.getElem?_eq_none (by omega)]
        | some d => rw [h3 i d hs, if_pos (hi d hs)])
    _ _ v hv
  rcases this with ⟨h, -⟩ | ⟨p, q, h, h', h1, h2⟩
  · cases h
  · simp only [Option.some.injEq] at h
    subst h
    exact ⟨q, h', h1, h2⟩

/-- All target labels of `y` are masked already: `-1` for class labels, NaN for regression targets. -/
def Spec.TargetsMasked (sd : List Int) (y : List Num) : Prop :=
  ((∀ v ∈ y, IsInt v) ∧ ∀ (i : Nat) (d : Int), sd[i]? = some d → d < 0 → y[i]? = some (.fin (-1))) ∨
  ((∃ v ∈ y, ¬ IsInt v) ∧ (∀ v ∈ y, v ≠ .pinf ∧ v ≠ .ninf) ∧
    ∀ (i : Nat) (d : Int), sd[i]? = some d → d < 0 → y[i]? = some .nan)

/-- C16, partial: the label array is unchanged if its target labels are masked already, if no step hides labels, or if
no `sample_domain` is given. -/
theorem C16_unchanged_partial [Cell α] (steps : List ((String → Bool) × Step α σ)) (X : List α) (sd : List Int)
    (y : List Num) (params : Dict)
    (h : (params.lookup "sample_domain" = some (domParam sd) ∧ TargetsMasked sd y) ∨
      (∀ st ∈ steps, ¬ Hides st.2) ∨ params.lookup "sample_domain" = none) :
    Returns (pipelineFit steps X (some y) params) (fun v => v.2 = some y) := by
  intro v hv
  unfold pipelineFit at hv
  split at hv
  · cases hv
  have := fitSteps_labels (fun a b => a = some y → b = some y) (fun _ h => h) (fun _ _ _ h1 h2 h => h2 (h1 h))
    params steps (by
      rintro st hst hh _ y' ha rfl
      rcases h with ⟨hsd, hm⟩ | h | h
      · rcases autoMask_source (get_filter_key st.1 params _ _ (Or.inl hsd)) ha with
          ⟨h0, -⟩ | ⟨a, b, h0, rfl, rfl | ⟨t, ht, h1, h2, h3⟩⟩
        · cases h0
        · exact h0.symm
        · simp only [Option.some.injEq] at h0
          subst h0
          congr 1
          apply List.ext_getElem?
          intro i
          cases hs : sd[i]? with
          | none =>
            have : sd.length ≤ i := by simpa using hs
            rw [List.getElem?_eq_none (by omega), List.getElem?_eq_none (by omega)]
          | some d =>
            rw [h3 i d hs]
            by_cases hd : 0 ≤ d
            · rw [if_pos hd]
            · rw [if_neg hd]
              rcases hm with ⟨hi, hm⟩ | ⟨hn, hf, hm⟩
              · rw [findYType_int hi] at ht
                cases ht
                exact (hm i d hs (by omega)).symm
              · rw [findYType_cont hf hn] at ht
                cases ht
                exact (hm i d hs (by omega)).symm
      · exact absurd hh (h st hst)
      · have hg : Dict.get (params.filter (fun kv => st.1 kv.1)) "sample_domain" = .none := by
          rcases get_filter_key st.1 params "sample_domain" .none (Or.inr h) with h | h <;> exact h
        rcases autoMask_source (sd := []) (Or.inr hg) ha with ⟨h0, -⟩ | ⟨a, b, h0, rfl, rfl | ⟨t, -, h1, h2, h3⟩⟩
        · cases h0
        · exact h0.symm
        · simp only [autoMask, hg, if_true, Except.ok.injEq] at ha
          exact ha.symm)
    _ _ v hv
  exact this rfl

/-- C16 is false: fitting a default pipeline overwrites the target labels in the caller's array. -/
theorem C16_counterexample :
    (pipelineFit [(fun _ => true, Step.shared ⟨exEst false [], true, true⟩)]
      [.fin 10, .fin 11, .fin 12, .fin 13] (some [.fin 0, .fin 1, .fin 1, .fin 0]) exDict).2.map Prod.snd =
    .ok (some [.fin 0, .fin 1, .fin (-1), .fin (-1)]) := by decide +kernel

/-- Two hiding steps on labels that are masked already, and steps that do not hide. -/
example : (pipelineFit [(fun _ => true, Step.shared ⟨exEst true [], true, false⟩),
      (fun _ => true, Step.shared ⟨exEst false [], true, true⟩)]
      [.fin 10, .fin 11, .fin 12, .fin 13] (some [.fin 0, .fin 1, .fin (-1), .fin (-1)]) exDict).2.map Prod.snd =
    .ok (some [.fin 0, .fin 1, .fin (-1), .fin (-1)]) := by decide +kernel

example : (pipelineFit [(fun _ => true, Step.select .source ⟨exEst true [], true, false⟩),
      (fun _ => true, Step.shared ⟨exEst false [], false, true⟩)]
      [.fin 10, .fin 11, .fin 12, .fin 13] (some [.fin 0, .fin 1, .fin 1, .fin 0]) exDict).2.map Prod.snd =
    .ok (some [.fin 0, .fin 1, .fin 1, .fin 0]) := by decide +kernel

/-! ### C18 -/

/-- Parts of a step output. -/
def Spec.outX : StepOut α → Option (List α)
  | .arr X | .pair X _ | .triple X _ _ => some X
  | .other => none

/-- The labels an output carries: only triples do. -/
def Spec.outY : StepOut α → Option (Option (List Num))
  | .triple _ y _ => some y
  | _ => none

/-- The metadata an output carries. -/
def Spec.outParams : StepOut α → Dict
  | .pair _ p | .triple _ _ p => p
  | _ => []

/-- The container after a sequence of step outputs. -/
def mergeAll (c : Cont α) (outs : List (StepOut α)) : Py (Cont α) := outs.foldlM Cont.mergeIn c

theorem nodup_put (d : Dict) (k : String) (v : Param Num) (h : (d.map Prod.fst).Nodup) :
    ((d.put k v).map Prod.fst).Nodup ∧ ∀ k', k' ∈ (d.put k v).map Prod.fst → k' = k ∨ k' ∈ d.map Prod.fst := by
  induction d with
  | nil => simp [Dict.put]
  | cons kv d ih =>
    obtain ⟨a, b⟩ := kv
    simp only [List.map_cons, List.nodup_cons] at h
    obtain ⟨ih1, ih2⟩ := ih h.2
    simp only [Dict.put]
    split
    · rename_i he
      refine ⟨by simpa using h, ?_⟩
      intro k' hk'
      right; simpa using hk'
    · rename_i he
      refine ⟨?_, ?_⟩
      · simp only [List.map_cons, List.nodup_cons]
        refine ⟨fun hm => ?_, ih1⟩
        rcases ih2 a hm with h' | h'
        · exact he h'
        · exact h.1 h'
      · intro k' hk'
        simp only [List.map_cons, List.mem_cons] at hk' ⊢
        rcases hk' with rfl | hk'
        · exact Or.inr (Or.inl rfl)
        · rcases ih2 k' hk' with h' | h'
          · exact Or.inl h'
          · exact Or.inr (Or.inr h')

theorem nodup_update (d e : Dict) (h : (d.map Prod.fst).Nodup) : ((d.update e).map Prod.fst).Nodup := by
  unfold Dict.update
  induction e generalizing d with
  | nil => exact h
  | cons kv e ih => exact ih _ (nodup_put d kv.1 kv.2 h).1

/-- C18. After any history of step outputs, the container hands out: the `X` of the last output; the labels of the last
triple, or the caller's if there was none (or it had no labels); and for every metadata key the value of the last output that
wrote it, or else the caller's. -/
theorem C18_history (X : List α) (outs : List (StepOut α)) (y : Option (List Num)) (params : Dict)
    (hok : ∀ o ∈ outs, o ≠ .other) (hkeys : ∀ o ∈ outs, ((outParams o).map Prod.fst).Nodup) :
    ∃ c, mergeAll (Cont.fromInput (.array X)) outs = .ok c ∧
      (c.mergeOut y params).1 = (outs.filterMap outX).getLast?.getD X ∧
      (c.mergeOut y params).2.1 = (match (outs.filterMap outY).getLast? with
        | some (some l) => some l
        | some none => y
        | none => y) ∧
      ∀ k, (c.mergeOut y params).2.2.lookup k =
        match (outs.filterMap (fun o => (outParams o).lookup k)).getLast? with
        | some v => some v
        | none => params.lookup k := by
  -- invariant over the history, built from the right end
  have inv : ∀ outs : List (StepOut α), (∀ o ∈ outs, o ≠ .other) →
      (∀ o ∈ outs, ((outParams o).map Prod.fst).Nodup) →
      ∃ c : Cont α, mergeAll (Cont.fromInput (.array X)) outs = .ok c ∧
        c.features = (outs.filterMap outX).getLast?.getD X ∧
        c.labels = ((outs.filterMap outY).getLast?).getD none ∧
        (c.metadata.map Prod.fst).Nodup ∧
        ∀ k, c.metadata.lookup k = (outs.filterMap (fun o => (outParams o).lookup k)).getLast? := by
    intro outs
    induction outs using List.reverseRecOn with
    | nil => intro _ _; exact ⟨⟨X, none, []⟩, rfl, rfl, rfl, by simp, fun _ => rfl⟩
    | append_singleton outs o ih =>
      intro hok hkeys
      obtain ⟨c, hc, h1, h2, h3, h4⟩ := ih (fun o h => hok o (by simp [h])) (fun o h => hkeys o (by simp [h]))
      have ho := hok o (by simp)
      have hk := hkeys o (by simp)
      have hm : mergeAll (Cont.fromInput (.array X)) (outs ++ [o]) = c.mergeIn o := by
        unfold mergeAll at hc ⊢
        rw [List.foldlM_append, hc]
        change (Cont.mergeIn c o >>= fun c' => pure c') = _
        simp
      rw [hm]
      cases o with
      | other => exact absurd rfl ho
      | arr X' =>
        refine ⟨_, rfl, ?_, ?_, h3, ?_⟩
        · simp [List.filterMap_append, outX]
        · simp [List.filterMap_append, outY, h2]
        · intro k; simp [List.filterMap_append, outParams, h4]
      | pair X' p =>
        refine ⟨_, rfl, ?_, ?_, nodup_update _ _ h3, ?_⟩
        · simp [List.filterMap_append, outX]
        · simp [List.filterMap_append, outY, h2]
        · intro k
          simp only [outParams] at hk
          rw [lookup_update _ p _ hk, h4, List.filterMap_append]
          simp only [outParams, List.filterMap_cons, List.filterMap_nil]
          cases p.lookup k <;> simp
      | triple X' y' p =>
        refine ⟨_, rfl, ?_, ?_, nodup_update _ _ h3, ?_⟩
        · simp [List.filterMap_append, outX]
        · simp [List.filterMap_append, outY]
        · intro k
          simp only [outParams] at hk
          rw [lookup_update _ p _ hk, h4, List.filterMap_append]
          simp only [outParams, List.filterMap_cons, List.filterMap_nil]
          cases p.lookup k <;> simp
  obtain ⟨c, hc, h1, h2, h3, h4⟩ := inv outs hok hkeys
  refine ⟨c, hc, h1, ?_, ?_⟩
  · simp only [Cont.mergeOut, h2]
    cases (outs.filterMap outY).getLast? with
    | none => rfl
    | some l => cases l <;> rfl
  · intro k
    simp only [Cont.mergeOut]
    rw [lookup_update _ _ _ h3, h4]
    cases (outs.filterMap (fun o => (outParams o).lookup k)).getLast? <;> rfl

/-- C18 (other outputs). An output that is neither an array nor a pair or triple is rejected with `ValueError`. -/
theorem C18_rejects (X : List α) (outs : List (StepOut α)) (h : .other ∈ outs) :
    mergeAll (Cont.fromInput (.array X)) outs = .error .valueError := by
  unfold mergeAll
  generalize Cont.fromInput (.array X) = c
  induction outs generalizing c with
  | nil => simp at h
  | cons o outs ih =>
    rw [List.foldlM_cons]
    cases o with
    | other => rfl
    | arr X' => exact ih (by simpa using h) _
    | pair X' p => exact ih (by simpa using h) _
    | triple X' y' p => exact ih (by simpa using h) _

example : (mergeAll (Cont.fromInput (.array [1, 2]))
      [.triple [3, 4] (some [.fin 7, .fin 8]) [("w", .scalar (.fin 1)), ("v", .scalar (.fin 2))], .arr [5, 6],
        .pair [7, 8] [("w", .scalar (.fin 3))]]).map
      (fun c => c.mergeOut (some [.fin 0, .fin 0]) [("u", .scalar (.fin 9)), ("w", .scalar (.fin 9))])
    = .ok ([7, 8], some [.fin 7, .fin 8],
        [("u", .scalar (.fin 9)), ("w", .scalar (.fin 3)), ("v", .scalar (.fin 2))]) := by rfl

end Skada

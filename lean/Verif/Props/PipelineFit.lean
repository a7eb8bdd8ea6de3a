/-
Property C108: what the final estimator of a DA pipeline is trained on.
-/
import Verif.Props.Selectors
import Verif.Props.Outputs

namespace Skada
open Np Spec

variable {α σ : Type}

/-- The labels after masking: source labels stay, target labels become `-1` if all labels are integers and NaN
otherwise. -/
noncomputable def Spec.maskedLabels (sd : List Int) (y : List Num) : List Num :=
  open Classical in
  List.zipWith (fun (d : Int) v => if 0 ≤ d then v else if ∀ u ∈ y, IsInt u then .fin (-1) else .nan) sd y

/-- Data travelling through the pipeline: the rows, labels set by an adapter, weights set by an adapter. -/
structure Spec.Flow (α : Type) where
  X : List α
  labels : Option (List Num)
  weights : Option (List Num)

/-- How the output of a step changes the data: an array replaces the rows; `(X, {"sample_weight": w})` also sets the
weights; `(X, y, {})` also sets the labels. -/
inductive Spec.Emits (a : Flow α) : StepOut α → Flow α → Prop
  | rows (X : List α) : Emits a (.arr X) ⟨X, a.labels, a.weights⟩
  | weights (X : List α) (w : List Num) : Emits a (.pair X [("sample_weight", .arr w)]) ⟨X, a.labels, some w⟩
  | labels (X : List α) (y : List Num) : Emits a (.triple X (some y) []) ⟨X, some y, a.weights⟩

/-- The requests of a domain-aware step: `sample_domain` and `allow_source` are requested, nothing else is. -/
def Spec.AsksDomain (r : Request) : Prop :=
  ∃ rest : Request, r = ("allow_source", .yes) :: ("sample_domain", .yes) :: rest ∧
    ∀ q ∈ rest, q.2 = .no ∨ q.2 = .unset ∨ q.2 = .warn

/-- The requests of an ordinary scikit-learn step: nothing is requested. -/
def Spec.AsksNothing (r : Request) : Prop := ∀ q ∈ r, q.2 = .no ∨ q.2 = .unset ∨ q.2 = .warn

/-- A run of `fit_transform` through a chain of transformers, one after the other: each receives the current rows, the
current labels (those set by an adapter, else `yc`) and, if it asks for it, `sample_domain`. -/
inductive Spec.Adapts (sd : List Int) (yc : List Num) : List (Est α σ) → Flow α → Flow α → List (Call α) → List σ → Prop
  | nil (a : Flow α) : Adapts sd yc [] a a [] []
  | step (e : Est α σ) (rest : List (Est α σ)) (a b c : Flow α) (p : Dict) (f : σ) (out : StepOut α)
      (calls : List (Call α)) (fs : List σ)
      (hp : AsksDomain e.fitTransformReq ∧ p = [("sample_domain", domParam sd)] ∨ AsksNothing e.fitTransformReq ∧ p = [])
      (ht : e.hasTransform = true) (hft : e.hasFitTransform = true)
      (hrun : e.fitTransform ⟨a.X, some (a.labels.getD yc), p⟩ = .ok (f, out))
      (hout : Emits a out b) (hrest : Adapts sd yc rest b c calls fs) :
      Adapts sd yc (e :: rest) a c (⟨a.X, some (a.labels.getD yc), p⟩ :: calls) (f :: fs)

/-- The container that holds the data. -/
def Spec.Flow.cont (a : Flow α) : Cont α :=
  ⟨a.X, a.labels, match a.weights with | some w => [("sample_weight", .arr w)] | none => []⟩

theorem emits_mergeIn {a b : Flow α} {out : StepOut α} (h : Emits a out b) : a.cont.mergeIn out = .ok b.cont := by
  obtain ⟨X, l, w⟩ := a
  cases h with
  | rows X' => rfl
  | weights X' w' => cases w <;> rfl
  | labels X' y' => cases w <;> rfl

theorem filterMap_quiet {r : Request} (params : Dict) (h : AsksNothing r) : consumeParams r params = [] := by
  unfold consumeParams
  rw [List.filterMap_eq_nil_iff]
  intro q hq
  rcases h q hq with h | h | h <;> rw [h]

theorem consume_domain {r : Request} {params : Dict} {v : Param Num} (h : AsksDomain r)
    (h1 : params.lookup "sample_domain" = some v) (h2 : params.lookup "allow_source" = none) :
    consumeParams r params = [("sample_domain", v)] := by
  obtain ⟨rest, rfl, hr⟩ := h
  have := filterMap_quiet params hr
  unfold consumeParams at this ⊢
  rw [List.filterMap_cons, List.filterMap_cons, this]
  simp [h1, h2]

/-- The parameters a step sees: those of the caller and those of earlier adapters. -/
theorem cont_params (a : Flow α) (sd : List Int) (y : Option (List Num)) :
    (a.cont.mergeOut y [("sample_domain", domParam sd)]) =
      (a.X, (match a.labels with | some l => some l | none => y),
        ("sample_domain", domParam sd) :: a.cont.metadata) := by
  obtain ⟨X, l, w⟩ := a
  cases w <;> rfl

theorem cont_lookups (a : Flow α) (sd : List Int) :
    List.lookup "sample_domain" (("sample_domain", domParam sd) :: a.cont.metadata) = some (domParam sd) ∧
    List.lookup "allow_source" (("sample_domain", domParam sd) :: a.cont.metadata) = none := by
  refine ⟨List.lookup_cons_self, ?_⟩
  obtain ⟨X, l, w⟩ := a
  cases w <;> simp [Flow.cont, List.lookup]

theorem keep_sd {keep : String → Bool} (hk : keep "sample_domain" = true) (sd : List Int) :
    List.filter (fun kv : String × Param Num => keep kv.1) [("sample_domain", domParam sd)] = [("sample_domain", domParam sd)] := by
  simp [hk]

theorem isTransformer_ne {steps : List ((String → Bool) × Step α σ)} (h : ∀ st ∈ steps, st.2.isTransformer = true)
    (l : (String → Bool) × Step α σ) : (steps ++ [l]).dropLast.any (fun st => !st.2.isTransformer) = false := by
  rw [List.dropLast_concat, List.any_eq_false]
  intro st hst
  simp [h st hst]

/-- One chain of shared transformers in front of a final step. -/
theorem chain_fit [Cell α] {keep : String → Bool} (hk : keep "sample_domain" = true) {sd : List Int} {yc : List Num}
    {es : List (Est α σ)} {a b : Flow α} {calls : List (Call α)} {fs : List σ}
    (h : Adapts sd yc es a b calls fs) (mask : Bool) (y : List Num)
    (hm : ∀ e : Est α σ, ∀ l, l = y ∨ l = yc →
      Sel.ownMask ⟨e, mask, false⟩ (some l) [("sample_domain", domParam sd)] = .ok (some yc))
    (last : (String → Bool) × Step α σ)
    (hl : last.2.fit b.cont (some y) (List.filter (fun kv : String × Param Num => last.1 kv.1) [("sample_domain", domParam sd)])
      = last.2.fit b.cont (some yc) (List.filter (fun kv : String × Param Num => last.1 kv.1) [("sample_domain", domParam sd)])) :
    fitSteps (es.map (fun e => (keep, Step.shared ⟨e, mask, false⟩)) ++ [last]) a.cont (some y)
        [("sample_domain", domParam sd)] =
      match last.2.fit b.cont (some yc)
        (List.filter (fun kv : String × Param Num => last.1 kv.1) [("sample_domain", domParam sd)]) with
      | (cs, .error e) => (calls ++ cs, .error e)
      | (cs, .ok (f, y')) => (calls ++ cs, .ok (fs.map .one ++ [f], y')) := by
  induction h generalizing y with
  | nil a =>
    simp only [List.map_nil, List.nil_append, fitSteps]
    rw [hl]
    split <;> rename_i h1 <;> rw [h1]
  | step e rest a b c p f out calls fs hp ht hft hrun hout hrest ih =>
    have ih' := ih yc (fun e l hl => hm e l (by rcases hl with h | h <;> exact Or.inr h)) rfl
    have hstep : (Step.shared ⟨e, mask, false⟩ : Step α σ).fitTransform a.cont (some y)
        (List.filter (fun kv : String × Param Num => keep kv.1) [("sample_domain", domParam sd)]) =
        ([⟨a.X, some (a.labels.getD yc), p⟩], .ok (.one f, b.cont, some yc)) := by
      rw [keep_sd hk]
      have hroute : prepareRouting false true e.fitTransformReq
          (("sample_domain", domParam sd) :: a.cont.metadata) = .ok p := by
        unfold prepareRouting
        simp only [Bool.not_true, Bool.or_false, Bool.false_eq_true, if_false, Except.ok.injEq]
        rcases hp with ⟨h1, rfl⟩ | ⟨h1, rfl⟩
        · exact consume_domain h1 (cont_lookups a sd).1 (cont_lookups a sd).2
        · exact filterMap_quiet _ h1
      have hlab : (match a.labels with | some l => some l | none => some yc) = some (a.labels.getD yc) := by
        cases a.labels <;> rfl
      simp only [Step.fitTransform, Sel.sharedFitTransformOut, hft, if_true, Sel.sharedFit, hm e y (Or.inl rfl), cont_params,
        Sel.routedCall, Est.request, ht, hroute, hlab, Sel.removeMasked, Bool.true_or, Est.invoke, hrun, emits_mergeIn hout]
    have hne : ∃ r rs, List.map (fun e => (keep, (Step.shared ⟨e, mask, false⟩ : Step α σ))) rest ++ [last] = r :: rs := by
      cases rest <;> simp
    obtain ⟨r, rs, hr⟩ := hne
    rw [List.map_cons, List.cons_append, hr, fitSteps, hstep, ← hr]
    · simp only
      rw [ih']
      split <;> rename_i h1 <;> split at h1 <;> simp_all
    · simp

/-! ### The masked labels -/

theorem findYType_of {y : List Num} (hinf : Num.pinf ∉ y ∧ Num.ninf ∉ y) :
    (findYType y = .ok .discrete ∧ ∀ v ∈ y, IsInt v) ∨ (findYType y = .ok .continuous ∧ ¬ ∀ v ∈ y, IsInt v) := by
  by_cases h : ∀ v ∈ y, IsInt v
  · exact Or.inl ⟨findYType_int h, h⟩
  · right
    refine ⟨findYType_cont (fun v hv => ⟨?_, ?_⟩) ?_, h⟩
    · rintro rfl; exact hinf.1 hv
    · rintro rfl; exact hinf.2 hv
    · push Not at h; exact h

theorem length_maskedLabels {sd : List Int} {y : List Num} (h : y.length = sd.length) :
    (maskedLabels sd y).length = sd.length := by
  simp [maskedLabels, h]

theorem getElem_maskedLabels {sd : List Int} {y : List Num} (h : y.length = sd.length) {i : Nat} (hi : i < sd.length)
    (hi' : i < (maskedLabels sd y).length) :
    (maskedLabels sd y)[i] = open Classical in
      if 0 ≤ sd[i] then y[i] else if ∀ u ∈ y, IsInt u then .fin (-1) else .nan := by
  simp [maskedLabels]

theorem isInt_negOne : IsInt (.fin (-1)) := ⟨-1, by norm_num⟩

theorem not_isInt_nan : ¬ IsInt .nan := by rintro ⟨z, hz⟩; cases hz

/-- Masking keeps the kind of the labels, as far as it matters. -/
theorem maskedLabels_int {sd : List Int} {y : List Num} (h : y.length = sd.length) (hy : ∀ v ∈ y, IsInt v) :
    ∀ v ∈ maskedLabels sd y, IsInt v := by
  intro v hv
  obtain ⟨i, hi, rfl⟩ := List.getElem_of_mem hv
  rw [length_maskedLabels h] at hi
  rw [getElem_maskedLabels h hi]
  split
  · exact hy _ (List.getElem_mem _)
  · exact isInt_negOne

theorem maskedLabels_not_int {sd : List Int} {y : List Num} (h : y.length = sd.length) (hy : ¬ ∀ v ∈ y, IsInt v) :
    ¬ ∀ v ∈ maskedLabels sd y, IsInt v := by
  intro hall
  apply hy
  intro v hv
  obtain ⟨i, hi, rfl⟩ := List.getElem_of_mem hv
  have hi2 : i < sd.length := by omega
  have hi3 : i < (maskedLabels sd y).length := by rw [length_maskedLabels h]; exact hi2
  have := hall _ (List.getElem_mem hi3)
  rw [getElem_maskedLabels h hi2] at this
  split at this
  · exact this
  · exact absurd this not_isInt_nan

theorem maskedLabels_inf {sd : List Int} {y : List Num} (h : y.length = sd.length) (hinf : Num.pinf ∉ y ∧ Num.ninf ∉ y) :
    Num.pinf ∉ maskedLabels sd y ∧ Num.ninf ∉ maskedLabels sd y := by
  have key : ∀ v ∈ maskedLabels sd y, v ∈ y ∨ v = .fin (-1) ∨ v = .nan := by
    intro v hv
    obtain ⟨i, hi, rfl⟩ := List.getElem_of_mem hv
    rw [length_maskedLabels h] at hi
    rw [getElem_maskedLabels h hi]
    split
    · exact Or.inl (List.getElem_mem _)
    · split
      · exact Or.inr (Or.inl rfl)
      · exact Or.inr (Or.inr rfl)
  constructor <;> intro hm <;> rcases key _ hm with h | h | h
  · exact hinf.1 h
  · cases h
  · cases h
  · exact hinf.2 h
  · cases h
  · cases h

theorem autoMask_masked {sd : List Int} (hsd : sd ≠ []) {y l : List Num} (h : y.length = sd.length)
    (hinf : Num.pinf ∉ y ∧ Num.ninf ∉ y) (hl : l = y ∨ l = maskedLabels sd y) :
    autoMask (some l) [("sample_domain", domParam sd)] = .ok (some (maskedLabels sd y)) := by
  have hlen : l.length = sd.length := by rcases hl with rfl | rfl <;> [exact h; exact length_maskedLabels h]
  have hlook : List.lookup "sample_domain" [("sample_domain", domParam sd)] = some (domParam sd) := List.lookup_cons_self
  have key : ∃ t, findYType l = .ok t ∧ maskLabel t = open Classical in if ∀ u ∈ y, IsInt u then .fin (-1) else .nan := by
    rcases findYType_of hinf with ⟨h1, h2⟩ | ⟨h1, h2⟩
    · rcases hl with rfl | rfl
      · exact ⟨_, h1, by rw [if_pos h2]; rfl⟩
      · exact ⟨_, findYType_int (maskedLabels_int h h2), by rw [if_pos h2]; rfl⟩
    · rcases hl with rfl | rfl
      · exact ⟨_, h1, by rw [if_neg h2]; rfl⟩
      · rcases findYType_of (maskedLabels_inf h hinf) with ⟨_, h4⟩ | ⟨h3, h4⟩
        · exact absurd h4 (maskedLabels_not_int h h2)
        · exact ⟨_, h3, by rw [if_neg h2]; rfl⟩
  obtain ⟨t, ht, hmk⟩ := key
  unfold autoMask
  simp only [get_eq_of_lookup hlook, domParam_ne_none, if_false, ht, sourceMaskOf_domParam, extractSourceIndices_ok hsd]
  unfold boolFill
  rw [if_neg (by simp [hlen])]
  simp only [Except.ok.injEq, Option.some.injEq]
  apply List.ext_getElem
  · simp [hlen, length_maskedLabels h]
  · intro i h1 h2
    have hi : i < sd.length := by rwa [length_maskedLabels h] at h2
    have hi' : i < l.length := by omega
    rw [getElem_maskedLabels h hi, List.getElem_zipWith]
    simp only [List.getElem_map]
    have hli : 0 ≤ sd[i] → l[i] = y[i] := by
      intro hd
      rcases hl with rfl | rfl
      · rfl
      · rw [getElem_maskedLabels h hi, if_pos hd]
    by_cases hd : 0 ≤ sd[i]
    · simp [hd, hli hd]
    · simp [hd, hmk]

/-- Removing masked rows leaves exactly the rows selected by `keep`, if those are the unmasked ones. -/
theorem removeMasked_rows {X : List α} {l : List Num} {m : List Bool} {t : YType} (ht : findYType l = .ok t)
    (hm : unmaskedOf t l = m) (hX : X.length = l.length) (p : Dict) :
    Skada.removeMasked X l p = .ok (sel m X, sel m l, p.map (fun kv => (kv.1, maskParam m kv.2))) := by
  have hlen : (unmaskedOf t l).length = l.length := by cases t <;> simp [unmaskedOf]
  unfold Skada.removeMasked
  simp only [ht]
  rw [applyDomainMasks_sel (by rw [hlen, hX]) (by rintro _ ⟨⟩; exact hlen.symm), hm]
  rfl

/-- The labels of the source samples are no masks: not missing, and not `-1` when all labels are integers. -/
def Spec.Labelled (sd : List Int) (y : List Num) : Prop :=
  Num.pinf ∉ y ∧ Num.ninf ∉ y ∧
    ∀ v ∈ sourceRows sd y, v ≠ .nan ∧ ((∀ u ∈ y, IsInt u) → v ≠ .fin (-1))

theorem mem_sourceRows_getElem {β : Type} {sd : List Int} {a : List β} {i : Nat} (h1 : i < sd.length) (h2 : i < a.length)
    (hd : 0 ≤ sd[i]) : a[i] ∈ sourceRows sd a := by
  unfold sourceRows
  refine List.mem_map.2 ⟨(sd[i], a[i]), List.mem_filter.2 ⟨?_, by simpa using hd⟩, rfl⟩
  have : (sd.zip a)[i]'(by simp; omega) = (sd[i], a[i]) := by simp
  rw [← this]
  exact List.getElem_mem _

theorem masked_unmasked {sd : List Int} {y : List Num} (h : y.length = sd.length) (hl : Labelled sd y) :
    ∃ t, findYType (maskedLabels sd y) = .ok t ∧
      unmaskedOf t (maskedLabels sd y) = sd.map (fun d => decide (0 ≤ d)) := by
  obtain ⟨hp, hn, hsrc⟩ := hl
  rcases findYType_of ⟨hp, hn⟩ with ⟨_, h2⟩ | ⟨_, h2⟩
  · refine ⟨.discrete, findYType_int (maskedLabels_int h h2), ?_⟩
    apply List.ext_getElem
    · simp [unmaskedOf, length_maskedLabels h]
    · intro i h3 h4
      have hi : i < sd.length := by simpa using h4
      simp only [unmaskedOf, List.getElem_map]
      rw [getElem_maskedLabels h hi]
      by_cases hd : 0 ≤ sd[i]
      · rw [if_pos hd]
        have := (hsrc _ (mem_sourceRows_getElem hi (by omega) hd)).2 h2
        have he : (y[i]'(by omega)).eqNegOne = false := by
          rw [← Bool.not_eq_true, Num.eqNegOne_iff]; exact this
        simp [he, hd]
      · rw [if_neg hd, if_pos h2]
        simp [hd, Num.eqNegOne]
  · refine ⟨.continuous, ?_, ?_⟩
    · rcases findYType_of (maskedLabels_inf h ⟨hp, hn⟩) with ⟨_, h4⟩ | ⟨h3, _⟩
      · exact absurd h4 (maskedLabels_not_int h h2)
      · exact h3
    · apply List.ext_getElem
      · simp [unmaskedOf, length_maskedLabels h]
      · intro i h3 h4
        have hi : i < sd.length := by simpa using h4
        simp only [unmaskedOf, List.getElem_map]
        rw [getElem_maskedLabels h hi]
        by_cases hd : 0 ≤ sd[i]
        · rw [if_pos hd]
          have h5 := (hsrc _ (mem_sourceRows_getElem hi (by omega) hd)).1
          have h6 : y[i]'(by omega) ≠ .pinf := fun hh => hp (hh ▸ List.getElem_mem _)
          have h7 : y[i]'(by omega) ≠ .ninf := fun hh => hn (hh ▸ List.getElem_mem _)
          have : (y[i]'(by omega)).isFinite = true := by
            cases hv : y[i]'(by omega) with
            | fin q => rfl
            | nan => exact absurd hv h5
            | pinf => exact absurd hv h6
            | ninf => exact absurd hv h7
          simp [this, hd]
        · rw [if_neg hd, if_neg h2]
          simp [hd, Num.isFinite]

theorem sourceRows_masked {sd : List Int} {y : List Num} (h : y.length = sd.length) :
    sourceRows sd (maskedLabels sd y) = sourceRows sd y := by
  have key : ∀ (c : Num) (sd : List Int) (y : List Num), y.length = sd.length →
      sourceRows sd (List.zipWith (fun (d : Int) v => if 0 ≤ d then v else c) sd y) = sourceRows sd y := by
    intro c sd y
    induction sd generalizing y with
    | nil => intro _; simp [sourceRows]
    | cons d sd ih =>
      intro h
      cases y with
      | nil => simp at h
      | cons v y =>
        have := ih y (by simpa using h)
        unfold sourceRows at *
        by_cases hd : 0 ≤ d
        · simpa [hd] using this
        · simpa [hd] using this
  exact key _ sd y h

/-! ### The final step -/

/-- What the final estimator is given as weights: nothing, or the entry of `sample_weight`. -/
def Spec.weightParam (w : Option (List Num)) : Dict :=
  match w with | some w => [("sample_weight", .arr w)] | none => []

theorem route_final {a : Alias} {b : Flow α} {sd : List Int} {p : Dict}
    (ha : a = .yes ∧ p = weightParam b.weights ∨ (a = .no ∨ a = .unset ∧ b.weights = none) ∧ p = []) :
    routeParams [("sample_weight", a)] (("sample_domain", domParam sd) :: b.cont.metadata) = .ok p := by
  obtain ⟨X, l, w⟩ := b
  rcases ha with ⟨rfl, rfl⟩ | ⟨rfl | ⟨rfl, hw⟩, rfl⟩
  · cases w <;> simp [routeParams, Flow.cont, weightParam, Dict.has, List.lookup, domParam]
  · cases w <;> simp [routeParams, Flow.cont]
  · simp only at hw
    subst hw
    simp [routeParams, Flow.cont, Dict.has, List.lookup, domParam]

theorem maskParam_weights {m : List Bool} {w : Option (List Num)} (h : ∀ v, w = some v → v.length = m.length) :
    (weightParam w).map (fun kv => (kv.1, maskParam m kv.2)) = weightParam (w.map (sel m)) := by
  cases w with
  | none => rfl
  | some v => simp [weightParam, maskParam, h v rfl]

/-- Fitting the final shared step: the call it makes. -/
theorem final_fit {fin : Est α σ} {mask : Bool} {b : Flow α} {sd : List Int} {y yc : List Num} {a : Alias} {p : Dict}
    {m : List Bool} {t : YType} {keep : String → Bool} (hk : keep "sample_domain" = true)
    (hm : Sel.ownMask ⟨fin, mask, true⟩ (some y) [("sample_domain", domParam sd)] = .ok (some yc))
    (hreq : fin.fitReq = [("sample_weight", a)]) (htr : fin.hasTransform = false)
    (ha : a = .yes ∧ p = weightParam b.weights ∨ (a = .no ∨ a = .unset ∧ b.weights = none) ∧ p = [])
    (ht : findYType (b.labels.getD yc) = .ok t) (hu : unmaskedOf t (b.labels.getD yc) = m)
    (hX : b.X.length = (b.labels.getD yc).length) :
    (Step.shared ⟨fin, mask, true⟩ : Step α σ).fit b.cont (some y)
        (List.filter (fun kv : String × Param Num => keep kv.1) [("sample_domain", domParam sd)]) =
      ([⟨sel m b.X, some (sel m (b.labels.getD yc)), p.map (fun kv => (kv.1, maskParam m kv.2))⟩],
        match fin.fit ⟨sel m b.X, some (sel m (b.labels.getD yc)), p.map (fun kv => (kv.1, maskParam m kv.2))⟩ with
        | .error e => .error e
        | .ok f => .ok (.one f, some yc)) := by
  rw [keep_sd hk]
  have hlab : (match b.labels with | some l => some l | none => some yc) = some (b.labels.getD yc) := by
    cases b.labels <;> rfl
  have hno : Dict.has p "sample_domain" = false := by
    rcases ha with ⟨_, rfl⟩ | ⟨_, rfl⟩
    · cases b.weights <;> simp [weightParam, Dict.has, List.lookup]
    · rfl
  simp only [Step.fit, Sel.sharedFit, hm, cont_params, Sel.routedCall, Est.request, hreq, htr, prepareRouting,
    Bool.true_or, if_true, route_final ha, hlab, Sel.removeMasked, hno, Bool.or_self, Bool.false_eq_true, if_false,
    removeMasked_rows ht hu hX, Est.invoke]
  cases fin.fit ⟨sel m b.X, some (sel m (b.labels.getD yc)), p.map (fun kv => (kv.1, maskParam m kv.2))⟩ <;> rfl

/-! ### C108 -/

/-- A DA pipeline of shared steps: transformers, then a final estimator, all masking target labels or none. -/
def Spec.daPipeline (keep : String → Bool) (es : List (Est α σ)) (fin : Est α σ) (mask : Bool) :
    List ((String → Bool) × Step α σ) :=
  es.map (fun e => (keep, Step.shared ⟨e, mask, false⟩)) ++ [(keep, Step.shared ⟨fin, mask, true⟩)]

theorem daPipeline_fit [Cell α] {keep : String → Bool} {es : List (Est α σ)} {fin : Est α σ} {mask : Bool} {X : List α}
    {y yc : List Num} {sd : List Int} {b : Flow α} {calls : List (Call α)} {fs : List σ}
    (hk : keep "sample_domain" = true)
    (h : Adapts sd yc es ⟨X, none, none⟩ b calls fs)
    (hm : ∀ (e : Est α σ) (g : Bool), ∀ l, l = y ∨ l = yc →
      Sel.ownMask ⟨e, mask, g⟩ (some l) [("sample_domain", domParam sd)] = .ok (some yc)) :
    pipelineFit (daPipeline keep es fin mask) X (some y) [("sample_domain", domParam sd)] =
      match (Step.shared ⟨fin, mask, true⟩ : Step α σ).fit b.cont (some yc)
        (List.filter (fun kv : String × Param Num => keep kv.1) [("sample_domain", domParam sd)]) with
      | (cs, .error e) => (calls ++ cs, .error e)
      | (cs, .ok (f, y')) => (calls ++ cs, .ok (fs.map .one ++ [f], y')) := by
  have htr : ∀ st ∈ es.map (fun e => (keep, (Step.shared ⟨e, mask, false⟩ : Step α σ))), st.2.isTransformer = true := by
    clear hm
    generalize (⟨X, none, none⟩ : Flow α) = a at h
    induction h with
    | nil a => intro st hst; simp at hst
    | step e rest a b c p f out calls fs hp ht hft hrun hout hrest ih =>
      intro st hst
      rcases List.mem_cons.1 hst with rfl | hst
      · exact ht
      · exact ih st hst
  unfold pipelineFit daPipeline
  rw [isTransformer_ne htr]
  exact chain_fit hk h mask y (fun e => hm e false) (keep, _) (by
    rw [keep_sd hk]
    simp only [Step.fit, Sel.sharedFit, hm fin true y (Or.inl rfl), hm fin true yc (Or.inr rfl)])

theorem ownMask_true {e : Est α σ} {g : Bool} {sd : List Int} (hsd : sd ≠ []) {y l : List Num} (h : y.length = sd.length)
    (hinf : Num.pinf ∉ y ∧ Num.ninf ∉ y) (hl : l = y ∨ l = maskedLabels sd y) :
    Sel.ownMask ⟨e, true, g⟩ (some l) [("sample_domain", domParam sd)] = .ok (some (maskedLabels sd y)) := by
  simp only [Sel.ownMask, if_true]
  exact autoMask_masked hsd h hinf hl

/-- C108 (training data). Fit a pipeline of any number of transformers (adapters or ordinary ones) that output rows and
possibly weights, and a final estimator that takes weights or not. If the source labels are proper, the final
estimator is fitted once, after all transformers, on exactly the transformed rows of the source samples, their own
labels, and — if it asks for weights and an adapter made some — the weights of those samples; all in the order of the
data. -/
theorem C108_training_data [Cell α] (keep : String → Bool) (es : List (Est α σ)) (fin : Est α σ) (X X' : List α)
    (y : List Num) (sd : List Int) (w : Option (List Num)) (calls : List (Call α)) (fs : List σ) (a : Alias)
    (hk : keep "sample_domain" = true) (hsd : sd ≠ []) (hy : y.length = sd.length) (hlab : Labelled sd y)
    (h : Adapts sd (maskedLabels sd y) es ⟨X, none, none⟩ ⟨X', none, w⟩ calls fs)
    (hX' : X'.length = sd.length) (hw : ∀ v, w = some v → v.length = sd.length)
    (htr : fin.hasTransform = false) (hreq : fin.fitReq = [("sample_weight", a)])
    (p : Dict) (hp : a = .yes ∧ p = weightParam (w.map (sourceRows sd)) ∨ (a = .no ∨ a = .unset ∧ w = none) ∧ p = []) :
    pipelineFit (daPipeline keep es fin true) X (some y) [("sample_domain", domParam sd)] =
      (calls ++ [⟨sourceRows sd X', some (sourceRows sd y), p⟩],
        match fin.fit ⟨sourceRows sd X', some (sourceRows sd y), p⟩ with
        | .error e => .error e
        | .ok f => .ok (fs.map .one ++ [.one f], some (maskedLabels sd y))) := by
  have hinf : Num.pinf ∉ y ∧ Num.ninf ∉ y := ⟨hlab.1, hlab.2.1⟩
  obtain ⟨t, ht, hu⟩ := masked_unmasked hy hlab
  have hpp : a = .yes ∧ (if a = .yes then weightParam w else []) = weightParam w ∨
      (a = .no ∨ a = .unset ∧ w = none) ∧ (if a = .yes then weightParam w else []) = [] := by
    rcases hp with ⟨rfl, _⟩ | ⟨h1, _⟩
    · exact Or.inl ⟨rfl, by simp⟩
    · refine Or.inr ⟨h1, ?_⟩
      rcases h1 with rfl | ⟨rfl, _⟩ <;> simp
  have hpm : List.map (fun kv => (kv.1, maskParam (sd.map (fun d => decide (0 ≤ d))) kv.2))
      (if a = .yes then weightParam w else []) = p := by
    rcases hp with ⟨rfl, rfl⟩ | ⟨h1, rfl⟩
    · simp only [if_true]
      rw [maskParam_weights (by simpa using hw)]
      congr 2
      funext v
      exact sel_source sd v
    · rcases h1 with rfl | ⟨rfl, _⟩ <;> simp
  rw [daPipeline_fit hk h (fun e g l hl => ownMask_true hsd hy hinf hl)]
  rw [final_fit (b := ⟨X', none, w⟩) (y := maskedLabels sd y) hk (ownMask_true hsd hy hinf (Or.inr rfl)) hreq htr hpp ht hu
    (by simp [hX', length_maskedLabels hy])]
  simp only [Option.getD_none, sel_source, sourceRows_masked hy, hpm]
  cases fin.fit ⟨sourceRows sd X', some (sourceRows sd y), p⟩ <;> rfl

theorem mem_targetRows_getElem {β : Type} {sd : List Int} {a : List β} {i : Nat} (h1 : i < sd.length) (h2 : i < a.length)
    (hd : sd[i] < 0) : a[i] ∈ targetRows sd a := by
  unfold targetRows
  refine List.mem_map.2 ⟨(sd[i], a[i]), List.mem_filter.2 ⟨?_, by simpa using hd⟩, rfl⟩
  have : (sd.zip a)[i]'(by simp; omega) = (sd[i], a[i]) := by simp
  rw [← this]
  exact List.getElem_mem _

/-- C108 (label propagation). If an adapter replaces the labels by `-1` on the source samples and class labels on the
target samples, the final estimator is fitted on exactly the target rows with those labels (and their weights, if it
takes weights), whether or not the steps mask the labels given by the user, and whatever these are. -/
theorem C108_propagated_labels [Cell α] (keep : String → Bool) (es : List (Est α σ)) (fin : Est α σ) (mask : Bool)
    (X X' : List α) (y yc l : List Num) (sd : List Int) (w : Option (List Num)) (calls : List (Call α)) (fs : List σ)
    (a : Alias) (hk : keep "sample_domain" = true) (hsd : sd ≠ []) (hy : y.length = sd.length)
    (hinf : Num.pinf ∉ y ∧ Num.ninf ∉ y) (hyc : yc = if mask then maskedLabels sd y else y)
    (h : Adapts sd yc es ⟨X, none, none⟩ ⟨X', some l, w⟩ calls fs)
    (hl : l.length = sd.length) (hls : ∀ v ∈ sourceRows sd l, v = .fin (-1))
    (hlt : ∀ v ∈ targetRows sd l, IsInt v ∧ v ≠ .fin (-1))
    (hX' : X'.length = sd.length) (hw : ∀ v, w = some v → v.length = sd.length)
    (htr : fin.hasTransform = false) (hreq : fin.fitReq = [("sample_weight", a)])
    (p : Dict) (hp : a = .yes ∧ p = weightParam (w.map (targetRows sd)) ∨ (a = .no ∨ a = .unset ∧ w = none) ∧ p = []) :
    pipelineFit (daPipeline keep es fin mask) X (some y) [("sample_domain", domParam sd)] =
      (calls ++ [⟨targetRows sd X', some (targetRows sd l), p⟩],
        match fin.fit ⟨targetRows sd X', some (targetRows sd l), p⟩ with
        | .error e => .error e
        | .ok f => .ok (fs.map .one ++ [.one f], some yc)) := by
  have hm : ∀ (e : Est α σ) (g : Bool), ∀ l, l = y ∨ l = yc →
      Sel.ownMask ⟨e, mask, g⟩ (some l) [("sample_domain", domParam sd)] = .ok (some yc) := by
    intro e g l hl
    cases mask with
    | true => subst hyc; exact ownMask_true hsd hy hinf hl
    | false =>
      simp only [Bool.false_eq_true, if_false] at hyc
      subst hyc
      rcases hl with rfl | rfl <;> rfl
  have hint : ∀ v ∈ l, IsInt v := by
    intro v hv
    obtain ⟨i, hi, rfl⟩ := List.getElem_of_mem hv
    by_cases hd : 0 ≤ sd[i]
    · rw [hls _ (mem_sourceRows_getElem (by omega) hi hd)]; exact isInt_negOne
    · exact (hlt _ (mem_targetRows_getElem (by omega) hi (by omega))).1
  have hu : unmaskedOf .discrete l = sd.map (fun d => decide (d < 0)) := by
    apply List.ext_getElem
    · simp [unmaskedOf, hl]
    · intro i h3 h4
      have hi : i < sd.length := by simpa using h4
      have hi' : i < l.length := by omega
      simp only [unmaskedOf, List.getElem_map]
      by_cases hd : 0 ≤ sd[i]
      · rw [hls _ (mem_sourceRows_getElem hi hi' hd)]
        simp [Num.eqNegOne, hd]
      · have := (hlt _ (mem_targetRows_getElem hi hi' (by omega))).2
        have he : l[i].eqNegOne = false := by rw [← Bool.not_eq_true, Num.eqNegOne_iff]; exact this
        simp [he]; omega
  have hpp : a = .yes ∧ (if a = .yes then weightParam w else []) = weightParam w ∨
      (a = .no ∨ a = .unset ∧ w = none) ∧ (if a = .yes then weightParam w else []) = [] := by
    rcases hp with ⟨rfl, _⟩ | ⟨h1, _⟩
    · exact Or.inl ⟨rfl, by simp⟩
    · refine Or.inr ⟨h1, ?_⟩
      rcases h1 with rfl | ⟨rfl, _⟩ <;> simp
  have hpm : List.map (fun kv => (kv.1, maskParam (sd.map (fun d => decide (d < 0))) kv.2))
      (if a = .yes then weightParam w else []) = p := by
    rcases hp with ⟨rfl, rfl⟩ | ⟨h1, rfl⟩
    · simp only [if_true]
      rw [maskParam_weights (by simpa using hw)]
      congr 2
      funext v
      exact sel_target sd v
    · rcases h1 with rfl | ⟨rfl, _⟩ <;> simp
  rw [daPipeline_fit hk h hm]
  rw [final_fit (b := ⟨X', some l, w⟩) (y := yc) hk (hm fin true yc (Or.inr rfl)) hreq htr hpp
    (findYType_int hint) hu (by simp [hX', hl])]
  simp only [Option.getD_some, sel_target, hpm]
  cases fin.fit ⟨targetRows sd X', some (targetRows sd l), p⟩ <;> rfl

/-- C108 (weights nobody takes). If an adapter made weights and the final estimator neither requested nor declined
`sample_weight`, fitting raises a `ValueError` (`IncompatibleMetadataError`) before the final estimator is called. -/
theorem C108_unclaimed_weights [Cell α] (keep : String → Bool) (es : List (Est α σ)) (fin : Est α σ) (X X' : List α)
    (y : List Num) (sd : List Int) (w : List Num) (calls : List (Call α)) (fs : List σ)
    (hk : keep "sample_domain" = true) (hsd : sd ≠ []) (hy : y.length = sd.length)
    (hinf : Num.pinf ∉ y ∧ Num.ninf ∉ y)
    (h : Adapts sd (maskedLabels sd y) es ⟨X, none, none⟩ ⟨X', none, some w⟩ calls fs)
    (hreq : fin.fitReq = [("sample_weight", .unset)]) :
    pipelineFit (daPipeline keep es fin true) X (some y) [("sample_domain", domParam sd)] =
      (calls, .error .valueError) := by
  have hr : routeParams [("sample_weight", .unset)] [("sample_domain", domParam sd), ("sample_weight", .arr w)]
      = .error .valueError := by
    simp [routeParams, Dict.has, List.lookup, domParam]
  have hmeta : (⟨X', none, some w⟩ : Flow α).cont.metadata = [("sample_weight", .arr w)] := rfl
  rw [daPipeline_fit hk h (fun e g l hl => ownMask_true hsd hy hinf hl), keep_sd hk]
  simp only [Step.fit, Sel.sharedFit, ownMask_true hsd hy hinf (Or.inr rfl), cont_params, hmeta, Sel.routedCall, Est.request,
    hreq, prepareRouting, Bool.true_or, if_true, hr, List.append_nil]

/-- C108 (domain-aware final estimator). A final estimator that asks for `sample_domain` receives all transformed rows,
source and target, with the masked labels and the domain labels. -/
theorem C108_domain_aware_final [Cell α] (keep : String → Bool) (es : List (Est α σ)) (fin : Est α σ) (X X' : List α)
    (y : List Num) (sd : List Int) (w : Option (List Num)) (calls : List (Call α)) (fs : List σ)
    (hk : keep "sample_domain" = true) (hsd : sd ≠ []) (hy : y.length = sd.length)
    (hinf : Num.pinf ∉ y ∧ Num.ninf ∉ y)
    (h : Adapts sd (maskedLabels sd y) es ⟨X, none, none⟩ ⟨X', none, w⟩ calls fs)
    (hreq : fin.fitReq = [("sample_domain", .yes)]) :
    pipelineFit (daPipeline keep es fin true) X (some y) [("sample_domain", domParam sd)] =
      (calls ++ [⟨X', some (maskedLabels sd y), [("sample_domain", domParam sd)]⟩],
        match fin.fit ⟨X', some (maskedLabels sd y), [("sample_domain", domParam sd)]⟩ with
        | .error e => .error e
        | .ok f => .ok (fs.map .one ++ [.one f], some (maskedLabels sd y))) := by
  have hr : routeParams [("sample_domain", .yes)] (("sample_domain", domParam sd) :: weightParam w)
      = .ok [("sample_domain", domParam sd)] := by
    simp [routeParams, List.lookup, domParam]
  have hmeta : (⟨X', none, w⟩ : Flow α).cont.metadata = weightParam w := by cases w <;> rfl
  rw [daPipeline_fit hk h (fun e g l hl => ownMask_true hsd hy hinf hl), keep_sd hk]
  simp only [Step.fit, Sel.sharedFit, ownMask_true hsd hy hinf (Or.inr rfl), cont_params, hmeta, Sel.routedCall, Est.request,
    hreq, prepareRouting, Bool.true_or, if_true, hr, Sel.removeMasked, Dict.has, List.lookup_cons_self, Option.isSome_some,
    Bool.or_true, Est.invoke]
  cases fin.fit ⟨X', some (maskedLabels sd y), [("sample_domain", domParam sd)]⟩ <;> rfl

/-! #### Examples -/

/-- A scaler: doubles the rows and asks for nothing. -/
def demoScaler : Est Num Nat :=
  ⟨true, true, [("sample_weight", .unset)], [("sample_weight", .unset)], [], fun _ => .ok 0,
    fun c => .ok (0, .arr (c.X.map (fun v => match v with | .fin q => .fin (2 * q) | v => v))), fun _ X _ => .ok (.arr X)⟩

/-- A reweighting adapter: weight 3 for every row. -/
def demoReweight : Est Num Nat :=
  ⟨true, true, [("sample_domain", .yes)], [("allow_source", .yes), ("sample_domain", .yes)], [], fun _ => .ok 0,
    fun c => .ok (1, .pair c.X [("sample_weight", .arr (c.X.map (fun _ => .fin 3)))]), fun _ X _ => .ok (.arr X)⟩

/-- A label propagation adapter: `-1` for rows with a label, class 1 for the others. -/
def demoProp : Est Num Nat :=
  ⟨true, true, [("sample_domain", .yes)], [("allow_source", .yes), ("sample_domain", .yes)], [], fun _ => .ok 0,
    fun c => .ok (2, .triple c.X (c.y.map (List.map (fun v => if v = .fin (-1) then .fin 1 else .fin (-1)))) []),
    fun _ X _ => .ok (.arr X)⟩

/-- A final classifier with a given request for weights; its state is the number of training rows. -/
def demoClf (a : Alias) : Est Num Nat :=
  ⟨false, false, [("sample_weight", a)], [], [], fun c => .ok c.X.length, fun _ => .error .attributeError,
    fun _ _ _ => .error .attributeError⟩

theorem demo_mask : maskedLabels [1, -2, 1] [.fin 0, .fin 1, .fin 1] = [.fin 0, .fin (-1), .fin 1] := by
  have h : ∀ u ∈ [Num.fin 0, .fin 1, .fin 1], IsInt u := by
    intro u hu
    simp only [List.mem_cons, List.not_mem_nil, or_false, or_self] at hu
    rcases hu with rfl | rfl
    · exact ⟨0, by norm_num⟩
    · exact ⟨1, by norm_num⟩
  simp only [maskedLabels, List.zipWith_cons_cons, List.zipWith_nil_right]
  rw [if_pos h]
  norm_num

theorem demo_adapts : Adapts [1, -2, 1] (maskedLabels [1, -2, 1] [.fin 0, .fin 1, .fin 1]) [demoScaler, demoReweight]
    ⟨[.fin 5, .fin 6, .fin 7], none, none⟩ ⟨[.fin 10, .fin 12, .fin 14], none, some [.fin 3, .fin 3, .fin 3]⟩
    [⟨[.fin 5, .fin 6, .fin 7], some (maskedLabels [1, -2, 1] [.fin 0, .fin 1, .fin 1]), []⟩,
      ⟨[.fin 10, .fin 12, .fin 14], some (maskedLabels [1, -2, 1] [.fin 0, .fin 1, .fin 1]),
        [("sample_domain", domParam [1, -2, 1])]⟩] [0, 1] := by
  refine .step demoScaler _ _ ⟨[.fin 10, .fin 12, .fin 14], none, none⟩ _ _ _ (.arr [.fin 10, .fin 12, .fin 14]) _ _ (Or.inr ⟨?_, rfl⟩) rfl rfl ?_ (.rows _)
    (.step demoReweight _ _ _ _ _ _ _ _ _ (Or.inl ⟨⟨[], rfl, by simp⟩, rfl⟩) rfl rfl rfl (.weights _ _) (.nil _))
  · intro q hq
    simp only [demoScaler, List.mem_singleton] at hq
    subst hq
    simp
  · rw [demo_mask]; simp [demoScaler]; norm_num

/-- The hypotheses of C108 are met by a scaler, a reweighter and a classifier. -/
example : Labelled [1, -2, 1] [.fin 0, .fin 1, .fin 1] ∧
    ∃ b calls fs, Adapts [1, -2, 1] (maskedLabels [1, -2, 1] [.fin 0, .fin 1, .fin 1]) [demoScaler, demoReweight]
      ⟨[.fin 5, .fin 6, .fin 7], none, none⟩ b calls fs := by
  refine ⟨⟨by simp, by simp, ?_⟩, _, _, _, demo_adapts⟩
  intro v hv
  simp only [sourceRows, List.zip_cons_cons, List.zip_nil_right] at hv
  norm_num at hv
  rcases hv with rfl | rfl <;> norm_num <;> rintro ⟨⟩

example : ((pipelineFit (daPipeline (fun _ => true) [demoScaler, demoReweight] (demoClf .yes) true) [.fin 5, .fin 6, .fin 7]
    (some [.fin 0, .fin 1, .fin 1]) [("sample_domain", domParam [1, -2, 1])]).1.map (fun c => (c.X, c.y, c.params))).getLast? =
    some ([.fin 10, .fin 14], some [.fin 0, .fin 1], [("sample_weight", .arr [.fin 3, .fin 3])]) := by decide +kernel

example : ((pipelineFit (daPipeline (fun _ => true) [demoScaler, demoProp] (demoClf .yes) true) [.fin 5, .fin 6, .fin 7]
    (some [.fin 0, .fin 1, .fin 1]) [("sample_domain", domParam [1, -2, 1])]).1.map (fun c => (c.X, c.y, c.params))).getLast? =
    some ([.fin 12], some [.fin 1], []) := by decide +kernel

example : (pipelineFit (daPipeline (fun _ => true) [demoReweight] (demoClf .unset) true) [.fin 5, .fin 6, .fin 7]
    (some [.fin 0, .fin 1, .fin 1]) [("sample_domain", domParam [1, -2, 1])]).2.toOption.isNone = true := by decide +kernel

/-- The condition on the labels is needed: with the classes `-1` and `1`, all source samples of class `-1` are taken for
masked ones and dropped, so the final classifier is trained on one class only. -/
theorem C108_negative_class_counterexample :
    (pipelineFit (daPipeline (fun _ => true) [demoScaler] (demoClf .unset) true) [.fin 5, .fin 6, .fin 7, .fin 8]
      (some [.fin (-1), .fin 1, .fin (-1), .fin 1]) [("sample_domain", domParam [1, 1, 1, -2])]).1.getLast?.map
        (fun c => (c.X, c.y)) = some ([.fin 12], some [.fin 1]) := by decide +kernel

end Skada

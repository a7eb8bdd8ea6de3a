/-
Properties C17, C19, C20, C59 and C60: construction of DA pipelines, parameters and cloning of selectors.
-/
import Verif.Lemmas.Pipeline

namespace Skada

/-! ### Vocabulary -/

/-- The wrapping rules: `None` and selectors stay; `"shared"` and `"per_domain"` put the estimator itself into a fresh
selector with the given masking choice; a callable decides. -/
inductive Spec.Wrapped (d : DefSel) (mask : Bool) : StepVal → StepVal → Prop
  | none : Wrapped d mask .none .none
  | sel (s : SelObj) : Wrapped d mask (.sel s) (.sel s)
  | shared (e : EstObj) : d = .str "shared" → Wrapped d mask (.est e) (.sel ⟨.shared, e, some mask, false⟩)
  | perDomain (e : EstObj) : d = .str "per_domain" → Wrapped d mask (.est e) (.sel ⟨.perDomain, e, some mask, false⟩)
  | callable (e : EstObj) (f : EstObj → Bool → Py (Option SelObj)) (s : SelObj) :
      d = .callable f → f e mask = .ok (some s) → Wrapped d mask (.est e) (.sel s)

/-- The flag `final` of a step. -/
def Spec.isFinal : StepVal → Bool
  | .sel s => s.final
  | _ => false

/-- A step with its flag `final` set to the given value. -/
def Spec.withFinal (b : Bool) : StepVal → StepVal
  | .sel s => .sel { s with final := b }
  | v => v

/-- The name of a step of a nested pipeline: `outer__inner` if the pipeline was named. -/
def Spec.fullName : Option String → String → String
  | some o, n => o ++ ("__" ++ n)
  | none, n => n

/-- The arguments with nested DA pipelines replaced by their steps. -/
def Spec.flat (args : List Arg) : List (Option String × StepVal) :=
  args.flatMap (fun a => match a with
    | .plain n v => [(n, v)]
    | .nested o steps => steps.map (fun s => (some (fullName o s.1), withFinal false s.2)))

/-- The masking choice which applies to the last of the given steps: the caller's, unless one of them predicts target
labels. -/
def Spec.maskFor (mask : Bool) (vs : List StepVal) : Bool :=
  mask && vs.all (fun v => match v with | .est e => !e.predicts | _ => true)

open Spec

/-! ### C20 -/

/-- C20. A step is wrapped exactly according to the rules above. -/
theorem C20_wrap (v w : StepVal) (d : DefSel) (mask : Bool) :
    wrapWithSelector v d mask = .ok w ↔ Wrapped d mask v w := by
  constructor
  · intro h
    unfold wrapWithSelector at h
    split at h
    · cases h; exact .none
    · cases h; exact .sel _
    · rename_i e
      split at h
      · rename_i f
        split at h
        · cases h
        · cases h
        · rename_i s hf
          cases h
          exact .callable e f s rfl hf
      · rename_i name
        split at h
        · cases h
        · rename_i k hk
          by_cases h1 : name = "shared"
          · subst h1
            simp only [defaultSelectors, List.lookup_cons, beq_self_eq_true, Option.some.injEq] at hk
            subst hk
            simp only [Kind.construct] at h
            cases h
            exact .shared e rfl
          · by_cases h2 : name = "per_domain"
            · subst h2
              have : (defaultSelectors.lookup "per_domain") = some .perDomain := by decide
              rw [this] at hk
              cases hk
              simp only [Kind.construct] at h
              cases h
              exact .perDomain e rfl
            · rw [defaultSelectors, lookup_cons_ne' h1, lookup_cons_ne' h2] at hk
              cases hk
      · cases h
  · intro h
    cases h with
    | none => rfl
    | sel s => rfl
    | shared e hd => subst hd; rfl
    | perDomain e hd => subst hd; rfl
    | callable e f s hd hf => subst hd; simp [wrapWithSelector, hf]

/-- C20 (selector classes as callables). Giving one of the selector classes as `default_selector` wraps the estimator into a new selector of this
class, not final and masking as asked; `SelectTarget` and `SelectSourceTarget` refuse to mask (so in a pipeline they are only accepted after a step
that predicts target labels), and the latter keeps no `mask_target_labels`. -/
theorem C20_class (k : Kind) (e : EstObj) (mask : Bool) :
    (mask = true → k = .selectTarget ∨ k = .sourceTarget →
      wrapWithSelector (.est e) (.callable (fun e m => (k.construct e m).map some)) mask = .error .valueError) ∧
    (mask = false ∨ k ≠ .selectTarget ∧ k ≠ .sourceTarget →
      ∃ s : SelObj, wrapWithSelector (.est e) (.callable (fun e m => (k.construct e m).map some)) mask = .ok (.sel s) ∧ s.kind = k ∧ s.base = e ∧
        s.final = false ∧ (k ≠ .sourceTarget → s.mask = some mask) ∧ (k = .sourceTarget → s.mask = none)) := by
  constructor
  · rintro rfl (rfl | rfl) <;> rfl
  · intro h
    cases k <;> cases mask <;> simp at h <;> exact ⟨_, rfl, rfl, rfl, rfl, by simp, by simp⟩

example : wrapWithSelector (.est ⟨"PCA", false, true, 0⟩) (.callable (fun e m => (Kind.selectTarget.construct e m).map some)) true = .error .valueError :=
  (C20_class .selectTarget _ true).1 rfl (Or.inl rfl)

/-- C20 (idempotence). Wrapping a wrapped step again, with whatever settings, changes nothing. -/
theorem C20_idempotent (v w : StepVal) (d d' : DefSel) (mask mask' : Bool)
    (h : wrapWithSelector v d mask = .ok w) : wrapWithSelector w d' mask' = .ok w := by
  rw [C20_wrap] at h ⊢
  cases h with
  | none => exact .none
  | sel s => exact .sel s
  | shared e _ => exact .sel _
  | perDomain e _ => exact .sel _
  | callable e f s _ _ => exact .sel _

/-- C20 (rejection), partial: every other kind of `default_selector` — no string and no callable, or a callable which
returns something else than a selector — raises `ValueError`; an unknown name raises an exception, but a different one
(`C20_counterexample`). -/
theorem C20_rejects_partial (e : EstObj) (mask : Bool) :
    wrapWithSelector (.est e) .other mask = .error .valueError ∧
    (∀ f, f e mask = .ok none → wrapWithSelector (.est e) (.callable f) mask = .error .valueError) ∧
    (∀ name, name ≠ "shared" → name ≠ "per_domain" → ∀ w, wrapWithSelector (.est e) (.str name) mask ≠ .ok w) := by
  refine ⟨rfl, fun f hf => by simp [wrapWithSelector, hf], ?_⟩
  intro name h1 h2 w hw
  rw [C20_wrap] at hw
  cases hw with
  | shared _ h => exact h1 (by simpa using h)
  | perDomain _ h => exact h2 (by simpa using h)
  | callable _ _ _ h => cases h

/-- C20 is false for unknown names: the message of the intended `ValueError` cannot be built
(`dict_keys` has no method `join`, skada/_pipeline.py:130), so `AttributeError` is raised instead, for every one. -/
theorem C20_counterexample (e : EstObj) (mask : Bool) (name : String) (h1 : name ≠ "shared") (h2 : name ≠ "per_domain") :
    wrapWithSelector (.est e) (.str name) mask = .error .attributeError := by
  have : defaultSelectors.lookup name = none := by
    rw [defaultSelectors, lookup_cons_ne' h1, lookup_cons_ne' h2]
    rfl
  simp only [wrapWithSelector, this]

/-! ### C19 -/

theorem unmark_ok {v w : StepVal} (h : v.unmark = .ok w) : w = withFinal false v := by
  unfold StepVal.unmark at h
  split at h
  · cases h; rfl
  · cases h

theorem flattenNested_ok {o : Option String} {steps : List (String × StepVal)} {r : List (Option String × StepVal)}
    (h : flattenNested o steps = .ok r) :
    r = steps.map (fun s => (some (fullName o s.1), withFinal false s.2)) := by
  induction steps generalizing r with
  | nil => cases h; rfl
  | cons s steps ih =>
    obtain ⟨n, v⟩ := s
    unfold flattenNested at h
    split at h
    · cases h
    · rename_i v' hv
      split at h
      · cases h
      · rename_i r' hr
        cases h
        rw [ih hr, unmark_ok hv]
        cases o <;> rfl

theorem flattenArgs_ok {args : List Arg} {r : List (Option String × StepVal)} (h : flattenArgs args = .ok r) :
    r = flat args := by
  induction args generalizing r with
  | nil => cases h; rfl
  | cons a args ih =>
    cases a with
    | plain n v =>
      unfold flattenArgs at h
      split at h
      · cases h
      · rename_i r' hr
        cases h
        rw [ih hr]
        rfl
    | nested o steps =>
      unfold flattenArgs at h
      split at h
      · cases h
      · rename_i a ha
        split at h
        · cases h
        · rename_i r' hr
          cases h
          rw [ih hr, flattenNested_ok ha]
          simp only [flat, List.flatMap_cons]

theorem wrapWithSelectors_ok {d : DefSel} {vs ws : List StepVal} {mask : Bool}
    (h : wrapWithSelectors d vs mask = .ok ws) :
    ws.length = vs.length ∧ ∀ (i : Nat) v, vs[i]? = some v →
      ∃ w, ws[i]? = some w ∧ Wrapped d (maskFor mask (vs.take (i + 1))) v w := by
  induction vs generalizing ws mask with
  | nil => cases h; simp
  | cons v vs ih =>
    unfold wrapWithSelectors at h
    simp only at h
    split at h
    · cases h
    · rename_i w hw
      split at h
      · cases h
      · rename_i ws' hws
        cases h
        obtain ⟨h1, h2⟩ := ih hws
        refine ⟨by simp [h1], ?_⟩
        have hm : ∀ l, maskFor mask (v :: l) = maskFor (if v.predicts then false else mask) l := by
          intro l
          unfold maskFor
          rw [List.all_cons]
          cases v with
          | none => simp [StepVal.predicts]
          | sel s => simp [StepVal.predicts]
          | est e => cases hp : e.predicts <;> simp [StepVal.predicts, hp]
        intro i x hx
        cases i with
        | zero =>
          simp only [List.getElem?_cons_zero, Option.some.injEq] at hx
          subst hx
          refine ⟨w, rfl, ?_⟩
          rw [List.take_succ_cons, hm, List.take_zero]
          have : maskFor (if v.predicts then false else mask) [] = (if v.predicts then false else mask) := by
            simp [maskFor]
          rw [this]
          exact (C20_wrap _ _ _ _).1 hw
        | succ i =>
          obtain ⟨w', hw', hW⟩ := h2 i x (by simpa using hx)
          refine ⟨w', by simpa using hw', ?_⟩
          rw [List.take_succ_cons, hm]
          exact hW

theorem markLast_ok {l r : List (String × StepVal)} (h : markLast l = .ok r) :
    r.length = l.length ∧ l ≠ [] ∧ (∀ (i : Nat) x, l[i]? = some x →
      r[i]? = some (if i + 1 = l.length then (x.1, withFinal true x.2) else x)) ∧
    ∃ x s, l.getLast? = some x ∧ x.2 = .sel s := by
  induction l generalizing r with
  | nil => cases h
  | cons x l ih =>
    cases l with
    | nil =>
      obtain ⟨n, v⟩ := x
      unfold markLast at h
      split at h
      · cases h
        refine ⟨rfl, by simp, ?_, _, _, rfl, rfl⟩
        intro i x hx
        cases i with
        | zero => simp at hx; subst hx; simp [withFinal]
        | succ i => simp at hx
      · cases h
    | cons y l =>
      unfold markLast at h
      split at h
      · cases h
      · rename_i r' hr
        cases h
        obtain ⟨h1, -, h2, z, s, hz, hs⟩ := ih hr
        refine ⟨by simp [h1], by simp, ?_, z, s, by simpa using hz, hs⟩
        intro i x hx
        cases i with
        | zero => simp at hx; subst hx; simp
        | succ i =>
          have := h2 i x (by simpa using hx)
          simp only [List.getElem?_cons_succ, this, List.length_cons]
          congr 1
          split <;> split <;> first | rfl | omega

theorem makeDaPipeline_ok {args : List Arg} {d : DefSel} {mask : Bool} {steps : List (String × StepVal)}
    (h : makeDaPipeline args d mask = .ok steps) : ∃ ws, wrapWithSelectors d ((flat args).map Prod.snd) mask = .ok ws ∧
      markLast (List.zipWith (fun un (as : String × StepVal) => (un.getD as.1, as.2)) ((flat args).map Prod.fst)
          ((nameEstimators ws).zip ws)) = .ok steps := by
  unfold makeDaPipeline at h
  split at h
  · cases h
  · split at h
    · cases h
    · rename_i fl hfl
      split at h
      · cases h
      · rename_i ws hws
        rw [flattenArgs_ok hfl] at h hws
        exact ⟨ws, hws, h⟩

/-- C19 (steps). The pipeline has one step for each given one (steps of nested DA pipelines counted one by one), in the
given order, each wrapped by the rules of C20; a name given by the user is kept. -/
theorem C19_steps (args : List Arg) (d : DefSel) (mask : Bool) (steps : List (String × StepVal))
    (h : makeDaPipeline args d mask = .ok steps) :
    steps.length = (flat args).length ∧
    ∀ (i : Nat) name v, (flat args)[i]? = some (name, v) →
      ∃ n w, Wrapped d (maskFor mask (((flat args).map Prod.snd).take (i + 1))) v w ∧
        steps[i]? = some (n, if i + 1 = steps.length then withFinal true w else w) ∧
        (∀ un, name = some un → n = un) := by
  obtain ⟨ws, hws, hml⟩ := makeDaPipeline_ok h
  obtain ⟨h1, h2⟩ := wrapWithSelectors_ok hws
  obtain ⟨h3, -, h4, -⟩ := markLast_ok hml
  simp only [List.length_map] at h1
  have hlen : (List.zipWith (fun un (as : String × StepVal) => (un.getD as.1, as.2)) ((flat args).map Prod.fst)
          ((nameEstimators ws).zip ws)).length = (flat args).length := by
    simp [length_nameEstimators, h1]
  refine ⟨h3.trans hlen, ?_⟩
  intro i name v hi
  obtain ⟨w, hw, hW⟩ := h2 i v (by rw [List.getElem?_map, hi]; rfl)
  have hil : i < (flat args).length := (List.getElem?_eq_some_iff.1 hi).1
  have hnil : i < (nameEstimators ws).length := by rw [length_nameEstimators, h1]; exact hil
  have hz : (List.zipWith (fun un (as : String × StepVal) => (un.getD as.1, as.2)) ((flat args).map Prod.fst)
          ((nameEstimators ws).zip ws))[i]? = some (name.getD (nameEstimators ws)[i], w) := by
    have := (List.getElem?_zip_eq_some (z := ((nameEstimators ws)[i], w))).2 ⟨List.getElem?_eq_getElem hnil, hw⟩
    rw [List.getElem?_zipWith, List.getElem?_map, hi, this]
    rfl
  have := h4 i _ hz
  refine ⟨name.getD (nameEstimators ws)[i], w, hW, ?_, ?_⟩
  · rw [this]
    rw [hlen, ← hlen, ← h3]
    congr 1
    split <;> rfl
  · rintro un rfl; rfl

/-- C19 (automatic names). If no class name contains a hyphen (Python identifiers never do), the names of the steps
which were not named by the user are pairwise distinct. -/
theorem C19_auto_names_distinct (args : List Arg) (d : DefSel) (mask : Bool) (steps : List (String × StepVal))
    (h : makeDaPipeline args d mask = .ok steps)
    (hid : ∀ st ∈ steps, '-' ∉ (baseName st.2).toList) (i j : Nat) (a b : StepVal) (n : String) (v w : StepVal)
    (hi : (flat args)[i]? = some (none, a)) (hj : (flat args)[j]? = some (none, b))
    (hni : steps[i]? = some (n, v)) (hnj : steps[j]? = some (n, w)) : i = j := by
  obtain ⟨ws, hws, hml⟩ := makeDaPipeline_ok h
  obtain ⟨h1, -⟩ := wrapWithSelectors_ok hws
  obtain ⟨h3, -, h4, -⟩ := markLast_ok hml
  simp only [List.length_map] at h1
  have hbn : ∀ b v, baseName (withFinal b v) = baseName v := by
    intro b v; cases v <;> rfl
  have hz : ∀ (i : Nat) name v, (flat args)[i]? = some (name, v) → ∃ w,
      ws[i]? = some w ∧ ∃ m, (nameEstimators ws)[i]? = some m ∧
      (List.zipWith (fun un (as : String × StepVal) => (un.getD as.1, as.2)) ((flat args).map Prod.fst)
          ((nameEstimators ws).zip ws))[i]? = some (name.getD m, w) := by
    intro i name v hi
    have hil : i < (flat args).length := (List.getElem?_eq_some_iff.1 hi).1
    have hnil : i < (nameEstimators ws).length := by rw [length_nameEstimators, h1]; exact hil
    have hwil : i < ws.length := by rw [h1]; exact hil
    refine ⟨ws[i], List.getElem?_eq_getElem hwil, (nameEstimators ws)[i], List.getElem?_eq_getElem hnil, ?_⟩
    have := (List.getElem?_zip_eq_some (z := ((nameEstimators ws)[i], ws[i]))).2
      ⟨List.getElem?_eq_getElem hnil, List.getElem?_eq_getElem hwil⟩
    rw [List.getElem?_zipWith, List.getElem?_map, hi, this]
    rfl
  have hnd : (nameEstimators ws).Nodup := by
    apply nodup_nameEstimators
    intro x hx
    obtain ⟨k, hk, rfl⟩ := List.getElem_of_mem hx
    have hkf : k < (flat args).length := by rw [← h1]; exact hk
    obtain ⟨w', hw', m, -, hzk⟩ := hz k _ _ (List.getElem?_eq_getElem hkf)
    have := h4 k _ hzk
    have hst := hid _ (List.mem_of_getElem? this)
    rw [List.getElem?_eq_getElem hk] at hw'
    cases hw'
    split at hst
    · simpa [hbn] using hst
    · exact hst
  obtain ⟨wi, -, mi, hmi, hzi⟩ := hz i _ _ hi
  obtain ⟨wj, -, mj, hmj, hzj⟩ := hz j _ _ hj
  have ei := h4 i _ hzi
  have ej := h4 j _ hzj
  rw [hni, Option.some.injEq] at ei
  rw [hnj, Option.some.injEq] at ej
  have e1 : n = mi := by
    have := congrArg Prod.fst ei
    split at this <;> exact this
  have e2 : n = mj := by
    have := congrArg Prod.fst ej
    split at this <;> exact this
  subst e1
  subst e2
  have hil := (List.getElem?_eq_some_iff.1 hmi).1
  exact (List.getElem?_inj hil hnd).1 (hmi.trans hmj.symm)

/-- C19 (finality), partial: the last step is final, and the only one, provided that no selector already marked as final
is given as a step of its own and a callable `default_selector` returns fresh selectors.  Without the proviso it
is false, see `C19_counterexample`. -/
theorem C19_final_partial (args : List Arg) (d : DefSel) (mask : Bool) (steps : List (String × StepVal))
    (h : makeDaPipeline args d mask = .ok steps)
    (hpl : ∀ n v, Arg.plain n v ∈ args → isFinal v = false)
    (hfr : ∀ f e m s, d = .callable f → f e m = .ok (some s) → s.final = false) :
    ∀ (i : Nat) st, steps[i]? = some st → (isFinal st.2 = true ↔ i + 1 = steps.length) := by
  obtain ⟨hl, hst⟩ := C19_steps args d mask steps h
  have hflat : ∀ x ∈ flat args, isFinal x.2 = false := by
    intro x hx
    obtain ⟨a, ha, hxa⟩ := List.mem_flatMap.1 hx
    cases a with
    | plain n v =>
      simp only [List.mem_singleton] at hxa
      subst hxa
      exact hpl n v ha
    | nested o l =>
      simp only [List.mem_map] at hxa
      obtain ⟨s, -, rfl⟩ := hxa
      cases s.2 <;> rfl
  have hsel : ∃ s, ∃ n, steps.getLast? = some (n, .sel s) := by
    obtain ⟨ws, hws, hml⟩ := makeDaPipeline_ok h
    obtain ⟨h3, hne, h4, x, s, hx, hs⟩ := markLast_ok hml
    generalize hz : List.zipWith (fun un (as : String × StepVal) => (un.getD as.1, as.2)) ((flat args).map Prod.fst)
          ((nameEstimators ws).zip ws) = z at *
    rw [List.getLast?_eq_getElem?] at hx
    have := h4 _ _ hx
    have hpos : 0 < z.length := List.length_pos_of_ne_nil hne
    rw [if_pos (by omega), hs] at this
    refine ⟨{ s with final := true }, x.1, ?_⟩
    rw [List.getLast?_eq_getElem?, h3]
    exact this
  intro i st hi
  have hil : i < steps.length := (List.getElem?_eq_some_iff.1 hi).1
  have hif : i < (flat args).length := by rw [← hl]; exact hil
  obtain ⟨n, w, hW, hs, -⟩ := hst i _ _ (List.getElem?_eq_getElem hif)
  rw [hi, Option.some.injEq] at hs
  subst hs
  simp only
  have hw : isFinal w = false := by
    have hv := hflat _ (List.getElem_mem hif)
    generalize (flat args)[i].2 = v at hW hv
    cases hW with
    | none => rfl
    | sel s => exact hv
    | shared e _ => rfl
    | perDomain e _ => rfl
    | callable e f s hd hf => exact hfr f e _ s hd hf
  by_cases hlast : i + 1 = steps.length
  · simp only [hlast, if_true, iff_true]
    obtain ⟨s, m, hm⟩ := hsel
    rw [List.getLast?_eq_getElem?, show steps.length - 1 = i by omega, hi] at hm
    simp only [hlast, if_true, Option.some.injEq, Prod.mk.injEq] at hm
    cases w with
    | sel s' => rfl
    | none => cases hm.2
    | est e => cases hm.2
  · simp [hlast, hw]

/-- C19 (empty call). -/
theorem C19_empty (d : DefSel) (mask : Bool) : makeDaPipeline [] d mask = .error .typeError := rfl

/-- C19 is false for a selector taken from another pipeline and given as an inner step: it stays final
(only the selectors of whole nested pipelines are unmarked, skada/_pipeline.py:96-99). -/
theorem C19_counterexample :
    let a : EstObj := ⟨"StandardScaler", false, true, 1⟩
    let b : EstObj := ⟨"SVC", false, false, 2⟩
    ∃ p q, makeDaPipeline [.plain none (.est a)] (.str "shared") true = .ok [("standardscaler", p)] ∧
      makeDaPipeline [.plain none p, .plain none (.est b)] (.str "shared") true
        = .ok [("standardscaler", p), ("svc", q)] ∧ isFinal p = true ∧ isFinal q = true := by
  refine ⟨.sel ⟨.shared, ⟨"StandardScaler", false, true, 1⟩, some true, true⟩,
    .sel ⟨.shared, ⟨"SVC", false, false, 2⟩, some true, true⟩, ?_⟩
  decide +kernel

/-- Repeated types are numbered, nested pipelines flattened, user names kept. -/
example : (makeDaPipeline
      [.plain none (.est ⟨"PCA", false, true, 1⟩), .plain (some "adapter") (.est ⟨"PCA", false, true, 2⟩),
       .nested none [("coraladapter", .sel ⟨.shared, ⟨"CORALAdapter", false, true, 3⟩, some true, true⟩)],
       .plain none (.sel ⟨.perDomain, ⟨"PCA", false, true, 4⟩, some false, false⟩),
       .plain none (.est ⟨"PCA", false, true, 5⟩)] (.str "shared") true).map (fun l => l.map Prod.fst)
    = .ok ["pca-1", "adapter", "coraladapter", "perdomain_pca", "pca-3"] := by decide +kernel

/-! ### C59 -/

theorem hasDunder_append {a b : List Char} (h : hasDunder b = true) : hasDunder (a ++ b) = true := by
  induction a with
  | nil => exact h
  | cons c a ih => rw [List.cons_append, hasDunder, ih, Bool.or_true]

theorem hasDunder_single {l : List Char} (h : '_' ∉ l) : hasDunder l = false := by
  induction l with
  | nil => rfl
  | cons c l ih =>
    simp only [List.mem_cons, not_or] at h
    rw [hasDunder, ih h.2, Bool.or_false]
    simp [Ne.symm h.1]

theorem hasDunder_suffix {a b : List Char} (ha : hasDunder a = false) (hl : a.getLast? ≠ some '_')
    (hb : '_' ∉ b) : hasDunder (a ++ b) = false := by
  induction a with
  | nil => exact hasDunder_single hb
  | cons c a ih =>
    rw [hasDunder, Bool.or_eq_false_iff] at ha
    rw [List.cons_append, hasDunder, Bool.or_eq_false_iff]
    cases a with
    | nil =>
      simp only [List.nil_append]
      simp only [List.getLast?_singleton, ne_eq, Option.some.injEq] at hl
      refine ⟨?_, hasDunder_single hb⟩
      simp [hl]
    | cons d a =>
      refine ⟨?_, ih ha.2 (by simpa using hl)⟩
      simpa using ha.1

theorem digits_no_underscore (n : Nat) : '_' ∉ (toString n).toList := by
  rw [Nat.toString_eq_ofList_toDigits, String.toList_ofList]
  intro h
  have := Nat.isDigit_of_mem_toDigits (by decide) (by decide) h
  revert this
  decide

/-- A proper class name for automatic naming: after lower-casing it is not empty, contains neither hyphen nor underscore,
and is none of the names reserved by `Pipeline`. -/
def Spec.ProperClass (cls : String) : Prop :=
  cls.toLower ≠ "" ∧ '-' ∉ cls.toLower.toList ∧ '_' ∉ cls.toLower.toList ∧ cls.toLower ≠ "steps" ∧
    cls.toLower ≠ "memory" ∧ cls.toLower ≠ "verbose"

/-- The class name used for a step. -/
def Spec.stepClass : StepVal → String
  | .none => "NoneType"
  | .est e => e.cls
  | .sel s => s.base.cls

theorem baseName_proper {v : StepVal} (h : ProperClass (stepClass v)) :
    '-' ∉ (baseName v).toList ∧ hasDunder (baseName v).toList = false ∧ (baseName v).toList.getLast? ≠ some '_' ∧
    baseName v ∉ ["steps", "transform_input", "memory", "verbose"] := by
  have plain : ∀ c : String, ProperClass c → '-' ∉ c.toLower.toList ∧ hasDunder c.toLower.toList = false ∧
      c.toLower.toList.getLast? ≠ some '_' ∧ c.toLower ∉ ["steps", "transform_input", "memory", "verbose"] := by
    rintro c ⟨h0, h1, h2, h3, h4, h5⟩
    refine ⟨h1, hasDunder_single h2, fun h => h2 (List.mem_of_getLast? h), ?_⟩
    simp only [List.mem_cons, List.not_mem_nil, or_false, not_or]
    refine ⟨h3, ?_, h4, h5⟩
    intro h
    rw [h] at h2
    revert h2
    decide
  have pd : ∀ c : String, ProperClass c → '-' ∉ ("perdomain_" ++ c.toLower).toList ∧
      hasDunder ("perdomain_" ++ c.toLower).toList = false ∧
      ("perdomain_" ++ c.toLower).toList.getLast? ≠ some '_' ∧
      "perdomain_" ++ c.toLower ∉ ["steps", "transform_input", "memory", "verbose"] := by
    rintro c ⟨h0, h1, h2, -⟩
    have hp : ("perdomain_" : String).toList = ['p','e','r','d','o','m','a','i','n','_'] := rfl
    have hne : c.toLower.toList ≠ [] := by
      intro h; exact h0 (String.toList_injective (by rw [h]; rfl))
    rw [String.toList_append, hp]
    refine ⟨by simpa using h1, ?_, ?_, ?_⟩
    · obtain ⟨x, l, hx⟩ := List.exists_cons_of_ne_nil hne
      rw [hx] at h2 ⊢
      simp only [List.mem_cons, not_or] at h2
      have := hasDunder_single (l := x :: l) (by simp only [List.mem_cons, not_or]; exact h2)
      simp [hasDunder, Ne.symm h2.1] at this ⊢
      exact this
    · rw [List.getLast?_append_of_ne_nil _ hne]
      intro h
      exact h2 (List.mem_of_getLast? h)
    · intro h
      have h' := List.mem_map_of_mem (f := fun s : String => s.toList.head?) h
      rw [String.toList_append, hp] at h'
      have e : (['p','e','r','d','o','m','a','i','n','_'] ++ c.toLower.toList).head? = some 'p' := rfl
      rw [e] at h'
      revert h'
      decide
  cases v with
  | none => simp only [baseName]; decide
  | est e => exact plain _ h
  | sel s =>
    obtain ⟨k, b, m, f⟩ := s
    cases k with
    | sourceTarget => simp only [baseName, Kind.className]; decide +kernel
    | perDomain => exact pd _ h
    | shared => exact plain _ h
    | selectSource => exact plain _ h
    | selectTarget => exact plain _ h
    | custom c => exact plain _ h

/-- C59, partial: a pipeline made of unnamed steps with proper class names, none of them a nested pipeline, passes the
name check made by every `fit`.  With nested pipelines the claim is false, see below. -/
theorem C59_auto_names_valid_partial (args : List Arg) (d : DefSel) (mask : Bool) (steps : List (String × StepVal))
    (h : makeDaPipeline args d mask = .ok steps)
    (hplain : ∀ a ∈ args, ∃ v, a = .plain none v) (hcls : ∀ st ∈ steps, ProperClass (stepClass st.2)) :
    validateNames (steps.map Prod.fst) = .ok () := by
  have hnone : ∀ x ∈ flat args, x.1 = none := by
    intro x hx
    obtain ⟨a, ha, hxa⟩ := List.mem_flatMap.1 hx
    obtain ⟨v, rfl⟩ := hplain a ha
    simp only [List.mem_singleton] at hxa
    rw [hxa]
  obtain ⟨ws, hws, hml⟩ := makeDaPipeline_ok h
  obtain ⟨h1, -⟩ := wrapWithSelectors_ok hws
  obtain ⟨h3, -, h4, -⟩ := markLast_ok hml
  simp only [List.length_map] at h1
  have hlen : steps.length = ws.length := by rw [h3]; simp [length_nameEstimators, h1]
  -- the names are the automatic ones
  have hname : ∀ (i : Nat) (hi : i < steps.length), ∃ w, ws[i]? = some w ∧
      (nameEstimators ws)[i]? = some steps[i].1 ∧ baseName steps[i].2 = baseName w := by
    intro i hi
    have hil : i < (flat args).length := by omega
    have hnil : i < (nameEstimators ws).length := by rw [length_nameEstimators]; omega
    have hwil : i < ws.length := by omega
    have hx := hnone _ (List.getElem_mem hil)
    have hz := (List.getElem?_zip_eq_some (z := ((nameEstimators ws)[i], ws[i]))).2
      ⟨List.getElem?_eq_getElem hnil, List.getElem?_eq_getElem hwil⟩
    have hzz : (List.zipWith (fun un (as : String × StepVal) => (un.getD as.1, as.2)) ((flat args).map Prod.fst)
          ((nameEstimators ws).zip ws))[i]? = some ((nameEstimators ws)[i], ws[i]) := by
      rw [List.getElem?_zipWith, List.getElem?_map, List.getElem?_eq_getElem hil, hz]
      simp [hx]
    have hs := h4 i _ hzz
    rw [List.getElem?_eq_getElem hi, Option.some.injEq] at hs
    refine ⟨ws[i], List.getElem?_eq_getElem hwil, ?_, ?_⟩
    · rw [hs, List.getElem?_eq_getElem hnil]
      split <;> rfl
    · rw [hs]
      split
      · simp only; generalize ws[i] = v; cases v <;> rfl
      · rfl
  have hnames : steps.map Prod.fst = nameEstimators ws := by
    apply List.ext_getElem?
    intro i
    by_cases hi : i < steps.length
    · obtain ⟨w, -, hn, -⟩ := hname i hi
      rw [hn, List.getElem?_map, List.getElem?_eq_getElem hi]
      rfl
    · rw [List.getElem?_eq_none (by simpa using hi),
        List.getElem?_eq_none (by rw [length_nameEstimators]; omega)]
  have hprop : ∀ w ∈ ws, '-' ∉ (baseName w).toList ∧ hasDunder (baseName w).toList = false ∧
      (baseName w).toList.getLast? ≠ some '_' ∧ baseName w ∉ ["steps", "transform_input", "memory", "verbose"] := by
    intro w hw
    obtain ⟨i, hi, rfl⟩ := List.getElem_of_mem hw
    obtain ⟨w', hw', -, hb⟩ := hname i (by omega)
    rw [List.getElem?_eq_getElem hi] at hw'
    cases hw'
    rw [← hb]
    exact baseName_proper (hcls _ (List.getElem_mem (by omega)))
  rw [hnames]
  unfold validateNames
  rw [if_neg (by rw [not_not]; exact nodup_nameEstimators ws (fun w hw => (hprop w hw).1))]
  have each : ∀ n ∈ nameEstimators ws, ∃ w ∈ ws, n = baseName w ∨ ∃ k : Nat, n = baseName w ++ ("-" ++ toString k) := by
    intro n hn
    obtain ⟨i, hi, rfl⟩ := List.getElem_of_mem hn
    have hwi : i < ws.length := by rw [← length_nameEstimators]; exact hi
    have := getElem_nameEstimators ws i _ (List.getElem?_eq_getElem hwi)
    rw [List.getElem?_eq_getElem hi, Option.some.injEq] at this
    refine ⟨ws[i], List.getElem_mem hwi, ?_⟩
    rw [this]
    split
    · exact Or.inl rfl
    · exact Or.inr ⟨_, rfl⟩
  rw [if_neg, if_neg]
  · rw [List.any_eq_true]
    rintro ⟨n, hn, hd⟩
    obtain ⟨w, hw, rfl | ⟨k, rfl⟩⟩ := each n hn
    · rw [(hprop w hw).2.1] at hd; cases hd
    · rw [String.toList_append, hasDunder_suffix (hprop w hw).2.1 (hprop w hw).2.2.1] at hd
      · cases hd
      · rw [String.toList_append]
        simp only [List.mem_append, not_or]
        exact ⟨by decide, digits_no_underscore k⟩
  · rw [List.any_eq_true]
    rintro ⟨n, hn, hd⟩
    simp only [decide_eq_true_eq] at hd
    obtain ⟨w, hw, rfl | ⟨k, rfl⟩⟩ := each n hn
    · exact (hprop w hw).2.2.2 hd
    · have hy : '-' ∈ (baseName w ++ ("-" ++ toString k)).toList := by simp [String.toList_append]
      have : ∀ m ∈ ["steps", "transform_input", "memory", "verbose"], '-' ∉ m.toList := by decide
      exact this _ hd hy

/-- C59 is false for named nested pipelines: the steps of a DA pipeline given as a pair `(name, pipeline)` are named
`name__step`, and `Pipeline` rejects names with a double underscore; such a pipeline can be built but no `fit`
succeeds. -/
theorem C59_counterexample (args : List Arg) (d : DefSel) (mask : Bool) (steps : List (String × StepVal))
    (h : makeDaPipeline args d mask = .ok steps) (o : String) (l : List (String × StepVal)) (hl : l ≠ [])
    (hmem : Arg.nested (some o) l ∈ args) : validateNames (steps.map Prod.fst) = .error .valueError := by
  obtain ⟨x, l', rfl⟩ := List.exists_cons_of_ne_nil hl
  have hx : (some (o ++ ("__" ++ x.1)), withFinal false x.2) ∈ flat args :=
    List.mem_flatMap.2 ⟨_, hmem, by simp [fullName]⟩
  obtain ⟨i, hi, he⟩ := List.getElem_of_mem hx
  obtain ⟨-, h2⟩ := C19_steps args d mask steps h
  obtain ⟨n, w, -, hs, hn⟩ := h2 i _ _ ((List.getElem?_eq_getElem hi).trans (congrArg some he))
  have hn := hn _ rfl
  have hbad : (steps.map Prod.fst).any (fun n => hasDunder n.toList) = true := by
    rw [List.any_eq_true]
    refine ⟨n, List.mem_map.2 ⟨_, List.mem_of_getElem? hs, rfl⟩, ?_⟩
    rw [hn, String.toList_append, String.toList_append]
    exact hasDunder_append (by simp [hasDunder])
  unfold validateNames
  split
  · rfl
  · split
    · rfl
    · rfl

/-- Two unnamed nested pipelines of the same type: equal names, so `fit` fails as well. -/
theorem C59_counterexample_unnamed :
    let coral : Nat → Arg := fun k => .nested none
      [("coraladapter", .sel ⟨.shared, ⟨"CORALAdapter", false, true, k⟩, some true, true⟩)]
    ((makeDaPipeline [coral 0, coral 1, .plain none (.est ⟨"SVC", false, false, 2⟩)] (.str "shared") true).bind
      (fun steps => validateNames (steps.map Prod.fst))) = .error .valueError := by decide +kernel

example : ProperClass "StandardScaler" ∧ ProperClass "SVC" := by unfold ProperClass; decide +kernel

/-! ### C17 and C60 -/

theorem setKey_self {ps : List (String × Val)} (hnd : (ps.map Prod.fst).Nodup) {k : String} {v : Val} (h : (k, v) ∈ ps) :
    setKey ps k v = ps := by
  induction ps with
  | nil => rfl
  | cons kv ps ih =>
    obtain ⟨k', v'⟩ := kv
    simp only [List.map_cons, List.nodup_cons] at hnd
    unfold setKey
    rcases List.mem_cons.1 h with he | hm
    · cases he; simp
    · have : k' ≠ k := by
        rintro rfl
        exact hnd.1 (List.mem_map.2 ⟨_, hm, rfl⟩)
      rw [if_neg this, ih hnd.2 hm]

theorem foldl_setKey_self {ps kw : List (String × Val)} (hnd : (ps.map Prod.fst).Nodup) (h : ∀ kv ∈ kw, kv ∈ ps) :
    kw.foldl (fun ps kv => setKey ps kv.1 kv.2) ps = ps := by
  induction kw with
  | nil => rfl
  | cons kv kw ih =>
    rw [List.foldl_cons, setKey_self hnd (h kv (by simp))]
    exact ih (fun x hx => h x (by simp [hx]))

theorem putKey_filter (ps : List (String × Val)) (k : String) (v : Val) :
    (putKey ps k v).filter (fun kv => decide (kv.1 ≠ k)) = ps.filter (fun kv => decide (kv.1 ≠ k)) := by
  induction ps with
  | nil => simp [putKey]
  | cons kv ps ih =>
    obtain ⟨k', v'⟩ := kv
    unfold putKey
    by_cases hk : k' = k
    · simp [hk]
    · rw [if_neg hk, List.filter_cons, List.filter_cons, ih]

theorem lookup_putKey (ps : List (String × Val)) (k : String) (v : Val) : (putKey ps k v).lookup k = some v := by
  induction ps with
  | nil => simp [putKey]
  | cons kv ps ih =>
    obtain ⟨k', v'⟩ := kv
    unfold putKey
    by_cases hk : k' = k
    · subst hk; simp
    · rw [if_neg hk, lookup_cons_ne' (Ne.symm hk), ih]

/-- C17, partial. The clone of a selector with one base estimator has the same class and a base estimator with the same
class and parameters; its masking choice is the default one.  Not the same one: see `C17_counterexample`. -/
theorem C17_clone_partial (s : PSel) (cls : String) (ps : List (String × Val)) (hk : s.kind ≠ .sourceTarget)
    (hb : s.base = .obj cls ps) (hnd : (ps.map Prod.fst).Nodup) :
    ∃ s', s.clone = .ok s' ∧ s'.kind = s.kind ∧ s'.base = s.base ∧
      (s'.mask = s.mask ↔ s.mask = s.kind.defaultMask) := by
  have h1 : s.getParams = .ok (putKey ps "base_estimator" (.obj cls ps)) := by
    simp [PSel.getParams, hk, hb, Val.getParams]
  have h2 : (Val.obj cls ps).setParams (ps.filter (fun kv => decide (kv.1 ≠ "base_estimator"))) = .ok (.obj cls ps) := by
    simp only [Val.setParams]
    rw [if_neg, foldl_setKey_self hnd (fun kv hkv => (List.mem_filter.1 hkv).1)]
    rw [List.any_eq_true]
    rintro ⟨kv, hkv, hno⟩
    simp only [decide_eq_true_eq] at hno
    exact hno (List.mem_map.2 ⟨kv, (List.mem_filter.1 hkv).1, rfl⟩)
  refine ⟨⟨s.kind, .obj cls ps, s.kind.defaultMask, false⟩, ?_, rfl, hb.symm, eq_comm⟩
  unfold PSel.clone
  simp only [h1, lookup_putKey, putKey_filter]
  unfold PSel.init
  rw [h2]
  rw [if_neg]
  intro h
  simp only [Bool.and_eq_true, decide_eq_true_eq] at h
  rw [h.1] at h
  exact absurd h.2 (by decide)

/-- C17 is false: `get_params` omits `mask_target_labels` (skada/base.py:256-258), so every clone of a selector built
with `mask_target_labels=False` masks target labels again. -/
theorem C17_counterexample (k : Kind) (h : k = .shared ∨ k = .perDomain ∨ k = .selectSource) (cls : String)
    (ps : List (String × Val)) (hnd : (ps.map Prod.fst).Nodup) (f : Bool) :
    ∃ s', (PSel.mk k (.obj cls ps) false f).clone = .ok s' ∧ s'.mask = true := by
  have hk : k ≠ .sourceTarget ∧ k.defaultMask = true := by rcases h with rfl | rfl | rfl <;> decide
  obtain ⟨s', h1, -, -, h4⟩ := C17_clone_partial ⟨k, .obj cls ps, false, f⟩ cls ps hk.1 rfl hnd
  refine ⟨s', h1, ?_⟩
  simp only [hk.2, Bool.false_eq_true, iff_false] at h4
  simpa using h4

/-- C17 is false for `SelectSourceTarget`, which cannot be cloned at all. -/
theorem C17_counterexample_source_target (s : PSel) (h : s.kind = .sourceTarget) : s.clone = .error .attributeError := by
  simp [PSel.clone, PSel.getParams, h]

/-- C17: the mark of the final step is lost, too. -/
theorem C17_final_lost (s s' : PSel) (h : s.clone = .ok s') : s'.final = false := by
  unfold PSel.clone at h
  split at h
  · cases h
  · split at h
    · cases h
    · unfold PSel.init at h
      split at h
      · cases h
      · split at h
        · cases h
        · cases h; rfl

theorem lookup_setKey {ps : List (String × Val)} {k : String} (v : Val) (n : String) (h : k ∈ ps.map Prod.fst) :
    (setKey ps k v).lookup n = if n = k then some v else ps.lookup n := by
  induction ps with
  | nil => simp at h
  | cons kv ps ih =>
    obtain ⟨k', v'⟩ := kv
    unfold setKey
    by_cases hk : k' = k
    · subst hk
      by_cases hn : n = k'
      · subst hn; simp
      · rw [if_pos rfl, lookup_cons_ne' hn, lookup_cons_ne' hn, if_neg hn]
    · have hm : k ∈ ps.map Prod.fst := by
        simp only [List.map_cons, List.mem_cons] at h
        rcases h with h | h
        · exact absurd h.symm hk
        · exact h
      rw [if_neg hk]
      by_cases hn : n = k'
      · subst hn; simp [hk]
      · rw [lookup_cons_ne' hn, lookup_cons_ne' hn, ih hm]

/-- C60, partial. Setting a parameter of the base estimator through its selector sets exactly this parameter of the
base estimator, and `get_params` reports it; an unknown name raises `ValueError`.  The exception is a parameter called
`base_estimator`, see `C60_counterexample`. -/
theorem C60_set_param_partial (s : PSel) (cls : String) (ps : List (String × Val)) (hk : s.kind ≠ .sourceTarget)
    (hb : s.base = .obj cls ps) (k : String) (v : Val) (hne : k ≠ "base_estimator") :
    (k ∉ ps.map Prod.fst → s.setParams [(k, v)] = .error .valueError) ∧
    (k ∈ ps.map Prod.fst → ∃ s' ps', s.setParams [(k, v)] = .ok s' ∧ s'.base = .obj cls ps' ∧
      (∀ n, ps'.lookup n = if n = k then some v else ps.lookup n) ∧
      s'.kind = s.kind ∧ s'.mask = s.mask ∧ s'.final = s.final ∧
      ∃ g, s'.getParams = .ok g ∧ g.lookup k = some v) := by
  have hlk : ([(k, v)] : List (String × Val)).lookup "base_estimator" = none := by
    rw [lookup_cons_ne' (Ne.symm hne)]; rfl
  have hf : ([(k, v)] : List (String × Val)).filter (fun kv => decide (kv.1 ≠ "base_estimator")) = [(k, v)] := by
    simp [hne]
  constructor
  · intro hk
    unfold PSel.setParams
    simp only [hlk, Option.getD_none, hf, hb, Val.setParams]
    rw [if_pos (by simpa using hk)]
  · intro hmem
    refine ⟨{ s with base := .obj cls (setKey ps k v) }, setKey ps k v, ?_, rfl, ?_, rfl, rfl, rfl, ?_⟩
    · unfold PSel.setParams
      simp only [hlk, Option.getD_none, hf, hb, Val.setParams]
      rw [if_neg (by simpa using hmem)]
      rfl
    · intro n; exact lookup_setKey v n hmem
    · refine ⟨putKey (setKey ps k v) "base_estimator" (.obj cls (setKey ps k v)), ?_, ?_⟩
      · simp [PSel.getParams, hk, Val.getParams]
      · have : ∀ (l : List (String × Val)) w, (putKey l "base_estimator" w).lookup k = l.lookup k := by
          intro l w
          induction l with
          | nil => simp [putKey, lookup_cons_ne' hne]
          | cons kv l ih =>
            obtain ⟨a, b⟩ := kv
            unfold putKey
            by_cases ha : a = "base_estimator"
            · subst ha; rw [if_pos rfl, lookup_cons_ne' hne, lookup_cons_ne' hne]
            · rw [if_neg ha]
              by_cases hka : k = a
              · subst hka; simp
              · rw [lookup_cons_ne' hka, lookup_cons_ne' hka, ih]
        rw [this, lookup_setKey v k hmem, if_pos rfl]

/-- C60 is false for a base estimator with a parameter `base_estimator`, such as `DASVMClassifier`: setting
it through the selector replaces the whole base estimator (skada/base.py:277-278). -/
theorem C60_counterexample :
    let dasvm : Val := .obj "DASVMClassifier" [("base_estimator", .obj "SVC" []), ("k", .atom "3")]
    let s : PSel := ⟨.shared, dasvm, true, true⟩
    ∃ s', s.setParams [("base_estimator", .obj "SVC" [("C", .atom "2")])] = .ok s' ∧
      s'.base = .obj "SVC" [("C", .atom "2")] := by
  exact ⟨⟨.shared, .obj "SVC" [("C", .atom "2")], true, true⟩, rfl, rfl⟩

example : ∃ s', (PSel.mk .shared (.obj "SVC" [("C", .atom "1"), ("kernel", .atom "rbf")]) true true).setParams
    [("C", .atom "2")] = .ok s' ∧ s'.base = .obj "SVC" [("C", .atom "2"), ("kernel", .atom "rbf")] := ⟨_, rfl, rfl⟩

end Skada

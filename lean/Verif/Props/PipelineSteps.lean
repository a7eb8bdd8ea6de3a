/-
Property C111: per-domain and per-side transformers in a DA pipeline.
-/
import Verif.Props.PipelineRun
import Verif.Props.SelectDomain
import Verif.Model.PipelineSteps

namespace Skada
open Np Spec

variable {α β σ : Type}

/-- A transformer that, fitted on the call `c`, ends in state `f` and transforms row by row with `m` — the rows it was
fitted on as well as later ones. -/
structure Spec.FitsRowwise (e : Est α σ) (c : Call α) (f : σ) (m : α → α) : Prop where
  fitted : e.fitTransform c = .ok (f, .arr (c.X.map m))
  later : ∀ Z : List α, Z ≠ [] → e.transform f Z [] = .ok (.arr (Z.map m))

/-- An ordinary transformer: it has `transform` and `fit_transform` and asks for no parameters. -/
structure Spec.Ordinary (e : Est α σ) : Prop where
  transform : e.hasTransform = true
  fitTransform : e.hasFitTransform = true
  fitAsks : AsksNothing e.fitTransformReq
  asks : AsksNothing e.transformReq

/-- The rest of the pipeline, after a first step that made the calls `cs` and was fitted to `g`. -/
def Spec.afterStep (cs : List (Call α)) (g : Fitted σ) (r : Run α (List (Fitted σ) × Option (List Num))) :
    Run α (List (Fitted σ) × Option (List Num)) :=
  (cs ++ r.1, match r.2 with
    | .error e => .error e
    | .ok (fs, y) => .ok (g :: fs, y))

theorem pipelineFit_cons [Cell α] {keep : String → Bool} {st : Step α σ} {rest : List ((String → Bool) × Step α σ)}
    (hst : st.isTransformer = true) (hr : rest ≠ []) (hrest : ∀ s ∈ rest.dropLast, s.2.isTransformer = true)
    {X X' : List α} {y y' : Option (List Num)} {params : Dict} {cs : List (Call α)} {g : Fitted σ}
    (h : st.fitTransform (Cont.fromInput (.array X)) y (params.filter (fun kv => keep kv.1))
      = (cs, .ok (g, Cont.fromInput (.array X'), y'))) :
    pipelineFit ((keep, st) :: rest) X y params = afterStep cs g (pipelineFit rest X' y' params) := by
  obtain ⟨s, rest', rfl⟩ := List.exists_cons_of_ne_nil hr
  have h1 : (s :: rest').dropLast.any (fun st => !st.2.isTransformer) = false := by
    rw [List.any_eq_false]
    intro q hq
    simp [hrest q hq]
  unfold pipelineFit
  rw [h1]
  simp only [List.dropLast_cons_cons, List.any_cons, hst, Bool.not_true, Bool.false_or, h1, Bool.false_eq_true, if_false]
  rw [fitSteps, h]
  · simp only [afterStep]
    generalize fitSteps (s :: rest') (Cont.fromInput (XArg.array X')) y' params = r
    obtain ⟨calls, res⟩ := r
    cases res <;> rfl
  · simp

theorem routing_inner {r : Request} (hr : AsksNothing r) (p : Dict) : prepareRouting false true r p = .ok [] := by
  unfold prepareRouting
  rw [filterMap_quiet p hr]
  rfl

/-! ### `PerDomain` -/

theorem perDomainLoop_ok {s : Sel α σ} {m : Method} {X : List α} {y : Option (List Num)} {routed : Dict}
    {sd : List Int} (hal : Aligned sd X y routed) (g : Int → σ) (out : Int → StepOut α) (ds : List Int)
    (h : ∀ d ∈ ds, s.est.invoke m (domainCall d sd X y routed) = .ok (g d, out d)) :
    s.perDomainLoop m X y routed sd ds =
      (ds.map (fun d => domainCall d sd X y routed), .ok (ds.map (fun d => (d, domainIdx sd d, g d, out d)))) := by
  induction ds with
  | nil => rfl
  | cons d ds ih =>
    unfold Sel.perDomainLoop
    simp only [takeCall_domainIdx hal, h d (by simp), ih (fun d hd => h d (by simp [hd])), List.map_cons]

theorem mergeStepOuts_arr [Cell α] (n : Nat) (outs : List (List Nat × List α)) (hne : outs ≠ []) :
    mergeStepOuts n (outs.map (fun o => (o.1, StepOut.arr o.2))) =
      match mergeOutputs n (outs.map (fun o => (o.1, (⟨.float, [], o.2⟩ : NArr α)))) with
      | .error e => .error e
      | .ok a => .ok (.arr a.rows) := by
  have : (outs.map (fun o => (o.1, StepOut.arr o.2))).mapM StepOut.asArr
      = .ok (outs.map (fun o => (o.1, (⟨.float, [], o.2⟩ : NArr α)))) := by
    clear hne
    induction outs with
    | nil => rfl
    | cons o outs ih => rw [List.map_cons, List.mapM_cons, ih]; rfl
  obtain ⟨o, outs', rfl⟩ := List.exists_cons_of_ne_nil hne
  rw [List.map_cons] at this ⊢
  unfold mergeStepOuts
  rw [this]
  rfl

theorem domainRows_ne_nil {sd : List Int} {a : List α} (h : a.length = sd.length) {d : Int} (hd : d ∈ sd) :
    domainRows d sd a ≠ [] := by
  intro h0
  have h1 := length_domainRows h d
  rw [h0, List.length_nil] at h1
  obtain ⟨i, hi, rfl⟩ := List.getElem_of_mem hd
  have : i ∈ domainIdx sd sd[i] := mem_domainIdx.2 (List.getElem?_eq_getElem hi)
  rw [List.length_eq_zero_iff.1 h1.symm] at this
  simp at this

/-- C111 (`PerDomain`, fitting). A pipeline that starts with a `PerDomain` transformer: the transformer of each domain is
fitted on the rows of its domain (with their labels, those of target domains masked), and the rest of the pipeline is
fitted as if it had been given the data with every row transformed by the transformer of its own domain. -/
theorem C111_per_domain_fit [Cell α] (keep : String → Bool) (e : Est α σ) (rest : List ((String → Bool) × Step α σ))
    (X : List α) (y : List Num) (sd : List Int) (g : Int → σ) (m : Int → α → α)
    (hk : keep "sample_domain" = true) (he : Ordinary e) (hr : rest ≠ [])
    (hrest : ∀ s ∈ rest.dropLast, s.2.isTransformer = true) (hsd : sd ≠ []) (hX : X.length = sd.length)
    (hy : y.length = sd.length) (hinf : Num.pinf ∉ y ∧ Num.ninf ∉ y)
    (hm : ∀ d ∈ sd, FitsRowwise e ⟨domainRows d sd X, some (domainRows d sd (maskedLabels sd y)), []⟩ (g d) (m d))
    (hcast : ∀ d x, Cell.cast .float (m d x) = m d x) :
    pipelineFit ((keep, .perDomain ⟨e, true, false⟩) :: rest) X (some y) [("sample_domain", domParam sd)] =
      afterStep ((unique sd).map (fun d => ⟨domainRows d sd X, some (domainRows d sd (maskedLabels sd y)), []⟩))
        (.perDomain ((unique sd).map (fun d => (d, g d))))
        (pipelineFit rest (List.zipWith m sd X) (some (maskedLabels sd y)) [("sample_domain", domParam sd)]) := by
  apply pipelineFit_cons (by exact he.transform) hr hrest
  rw [keep_sd hk]
  have hlook : List.lookup "sample_domain" [("sample_domain", domParam sd)] = some (domParam sd) := List.lookup_cons_self
  have hal : Aligned sd X (some (maskedLabels sd y)) [] :=
    ⟨hX, by rintro l ⟨⟩; exact length_maskedLabels hy, by simp⟩
  have hloop := perDomainLoop_ok (s := ⟨e, true, false⟩) (m := .fitTransform) hal g
    (fun d => .arr ((domainRows d sd X).map (m d))) (unique sd) (by
      intro d hd
      exact (hm d (mem_unique.1 hd)).fitted)
  obtain ⟨rows, hrows, hlen, hdom⟩ := merge_domains hX hsd .float [] (fun d => (domainRows d sd X).map (m d)) (by
    intro d hd
    refine ⟨by simp, ?_⟩
    intro r hr
    obtain ⟨x, -, rfl⟩ := List.mem_map.1 hr
    exact hcast d x)
  have hz : rows = List.zipWith m sd X := rows_of_domains hX m (by rw [hlen, hX]) hdom
  have hmerge := mergeStepOuts_arr X.length ((unique sd).map (fun d => (domainIdx sd d, (domainRows d sd X).map (m d))))
    (by simp only [ne_eq, List.map_eq_nil_iff, unique_eq_nil]; exact hsd)
  simp only [List.map_map, Function.comp_def, hrows, hz] at hmerge
  simp only [Step.fitTransform, Sel.perDomainFitTransformOut, he.fitTransform, if_true, Sel.perDomainFit,
    ownMask_true hsd hy hinf (Or.inl rfl), Cont.fromInput, Cont.mergeOut, update_nil, has_of_lookup hlook, Bool.not_true,
    Bool.false_eq_true, if_false, get_eq_of_lookup hlook, domainsOf_domParam, Sel.routedCall, Est.request,
    he.transform, routing_inner he.fitAsks, Sel.removeMasked, Bool.true_or, hloop, List.map_map,
    Function.comp_def, hmerge, Cont.mergeIn]
  rfl

/-- C111 (`PerDomain`, prediction). With `sample_domain` given and all its labels seen during `fit`, predicting is
predicting with the rest of the pipeline on the data with every row transformed by the transformer of its own domain. -/
theorem C111_per_domain_predict [Cell α] (keep : String → Bool) (mask : Bool) (e : Est α σ) (domains : List Int)
    (g : Int → σ) (m : Int → α → α) (rest : List ((String → Bool) × Step α σ × Fitted σ))
    (last : (String → Bool) × Sel α σ × σ) (req : Request) (query : σ → Call α → Py β) (X : List α)
    (y : Option (List Num)) (sd : List Int)
    (hk : keep "sample_domain" = true) (he : Ordinary e) (hsd : sd ≠ []) (hX : X.length = sd.length)
    (hseen : ∀ d ∈ sd, d ∈ domains)
    (hm : ∀ d ∈ domains, ∀ Z : List α, Z ≠ [] → e.transform (g d) Z [] = .ok (.arr (Z.map (m d))))
    (hcast : ∀ d x, Cell.cast .float (m d x) = m d x) :
    stepsRoute ((keep, .perDomain ⟨e, mask, false⟩, .perDomain (domains.map (fun d => (d, g d)))) :: rest) last req query X y
        [("sample_domain", domParam sd)] =
      stepsRoute rest last req query (List.zipWith m sd X) y [("sample_domain", domParam sd)] := by
  have hlook : List.lookup "sample_domain" [("sample_domain", domParam sd)] = some (domParam sd) := List.lookup_cons_self
  have hal : Aligned sd X none [] := ⟨hX, by simp, by simp⟩
  obtain ⟨rows, h1, h2, h3⟩ := C13_routing (⟨e, mask, false⟩ : Sel α σ) e.transformReq (domains.map (fun d => (d, g d)))
    e.transformQuery X none [("sample_domain", domParam sd)] [] sd hlook hsd (by rw [he.transform]; exact routing_inner he.asks _)
    hal .float [] (fun d => (domainRows d sd X).map (m d))
    (fun d hd => ⟨g d, by
        have := hseen d hd
        clear hseen hm
        induction domains with
        | nil => simp at this
        | cons a l ih =>
          rw [List.map_cons, List.lookup_cons]
          by_cases h : d = a
          · subst h; simp
          · rw [beq_false_of_ne h]
            exact ih (by simpa [h] using this), by
        unfold Est.transformQuery
        have := hm d (hseen d hd) (domainRows d sd X) (domainRows_ne_nil hX hd)
        simp only [domainCall, domainParams, List.map_nil, this]⟩)
    (fun d hd => ⟨by simp, by
      intro r hr
      obtain ⟨x, -, rfl⟩ := List.mem_map.1 hr
      exact hcast _ _⟩)
  have hz : rows = List.zipWith m sd X := rows_of_domains hX m (by rw [h2, hX]) h3
  rw [stepsRoute, keep_sd hk]
  simp only [Step.transform, h1, rowsOf, hz]

/-- C111 (`PerDomain`, refusals). A label that was not seen during `fit` makes prediction fail, with `ValueError` if the
transformers themselves accept their rows; so does, with `KeyError`, leaving out `sample_domain`, although every other
method of the library takes data without it for target data. -/
theorem C111_per_domain_refusals [Cell α] (keep : String → Bool) (mask : Bool) (e : Est α σ) (domains : List Int)
    (g : Int → σ) (rest : List ((String → Bool) × Step α σ × Fitted σ))
    (last : (String → Bool) × Sel α σ × σ) (req : Request) (query : σ → Call α → Py β) (X : List α)
    (y : Option (List Num)) (sd : List Int)
    (hk : keep "sample_domain" = true) (he : Ordinary e) (hX : X.length = sd.length)
    (hm : ∀ f Z p, ∃ o, e.transform f Z p = .ok o) :
    ((∃ d ∈ sd, d ∉ domains) →
      stepsRoute ((keep, .perDomain ⟨e, mask, false⟩, .perDomain (domains.map (fun d => (d, g d)))) :: rest) last req query
        X y [("sample_domain", domParam sd)] = .error .valueError) ∧
    stepsRoute ((keep, .perDomain ⟨e, mask, false⟩, .perDomain (domains.map (fun d => (d, g d)))) :: rest) last req query
      X y [] = .error .keyError := by
  have hlook : List.lookup "sample_domain" [("sample_domain", domParam sd)] = some (domParam sd) := List.lookup_cons_self
  constructor
  · rintro ⟨d, hd, hun⟩
    have hno : (domains.map (fun d => (d, g d))).lookup d = none := by
      rw [List.lookup_eq_none_iff]
      rintro ⟨a, f⟩ ha
      obtain ⟨b, hb, hab⟩ := List.mem_map.1 ha
      simp only [Prod.mk.injEq] at hab
      obtain ⟨rfl, -⟩ := hab
      simp only [ne_eq, bne_iff_ne]
      rintro rfl
      exact hun hb
    have hal : Aligned sd X none [] := ⟨hX, by simp, by simp⟩
    have := (C13_unseen (⟨e, mask, false⟩ : Sel α σ) e.transformReq (domains.map (fun d => (d, g d))) e.transformQuery X none
      [("sample_domain", domParam sd)] sd hlook ⟨d, hd, hno⟩).2 []
      (by rw [he.transform]; exact routing_inner he.asks _) hal (by
        intro f c
        obtain ⟨o, ho⟩ := hm f c.X c.params
        unfold Est.transformQuery
        rw [ho]
        cases o <;> exact ⟨_, rfl⟩)
    rw [stepsRoute, keep_sd hk]
    simp only [Step.transform, this, rowsOf]
  · rw [stepsRoute]
    simp only [List.filter_nil, Step.transform, Sel.perDomainRoute, he.transform, routing_inner he.asks, Dict.has,
      List.lookup_nil, Option.isSome_none, Bool.not_false, if_true, rowsOf]

/-! ### `SelectSourceTarget` -/

theorem fitSide_ok {s : SST α σ} {e : Est α σ} {X : List α} {y : List Num} {p : Dict} {sd : List Int} (side : Side)
    (hf : s.final = false) (hs : s.source.hasTransform = true) (he : AsksNothing e.fitTransformReq)
    (hX : X.length = sd.length) (hy : y.length = sd.length) (hne : sideRows side sd sd ≠ []) {f : σ} {out : StepOut α}
    (h : e.fitTransform ⟨sideRows side sd X, some (sideRows side sd y), []⟩ = .ok (f, out)) :
    s.fitSide e .fitTransform X (some y) p (sideMask side sd)
      = ([⟨sideRows side sd X, some (sideRows side sd y), []⟩], .ok (f, out)) := by
  unfold SST.fitSide
  rw [if_neg (fun h0 => hne ((sideMask_count_zero side sd).1 h0)),
    applyDomainMasks_sel (by rw [length_sideMask, hX]) (by rintro l ⟨⟩; rw [length_sideMask, hy])]
  simp only [Option.map_some, sel_sideMask, hf, hs, Est.request, routing_inner he, Sel.removeMasked, Bool.true_or, if_true,
    Est.invoke, h]

/-- Two outputs, one per side, merged. -/
theorem merge_sides [Cell β] {sd : List Int} {X : List α} (hX : X.length = sd.length) (dt : DType) (tl : List Nat)
    (out : Side → List β)
    (hout : ∀ side, (out side).length = (sideRows side sd X).length ∧ ∀ r ∈ out side, Cell.cast dt r = r) :
    ∃ rows, mergeOutputs X.length [(flatnonzero (sideMask .source sd), (⟨dt, tl, out .source⟩ : NArr β)),
        (flatnonzero (sideMask .target sd), ⟨dt, tl, out .target⟩)] = .ok ⟨dt, tl, rows⟩ ∧ rows.length = X.length ∧
      sourceRows sd rows = out .source ∧ targetRows sd rows = out .target := by
  let outs : List (List Nat × NArr β) := [Side.source, Side.target].map
    (fun side => (flatnonzero (sideMask side sd), ⟨dt, tl, out side⟩))
  have hlen : ∀ side, (flatnonzero (sideMask side sd)).length = (sideRows side sd X).length := fun side =>
    (take_ok_iff.1 (take_sideMask side hX)).length_eq
  have hfit : Fit X.length dt tl outs := by
    intro p hp
    obtain ⟨q, -, rfl⟩ := List.mem_map.1 hp
    refine ⟨?_, ?_, rfl, rfl, (hout _).2⟩
    · intro i hi
      obtain ⟨d, hd, -⟩ := mem_sideMask.1 hi
      rw [hX]
      exact (List.getElem?_eq_some_iff.1 hd).1
    · exact (hout _).1.trans (hlen _).symm
  have hdis : (outs.flatMap Prod.fst).Nodup := by
    rw [List.nodup_flatMap]
    refine ⟨?_, ?_⟩
    · intro p hp
      obtain ⟨q, -, rfl⟩ := List.mem_map.1 hp
      exact nodup_flatnonzero _
    · rw [List.pairwise_map]
      simp only [List.pairwise_cons, List.mem_cons, List.not_mem_nil, or_false, Function.onFun, forall_eq,
        List.Pairwise.nil, and_true, implies_true, IsEmpty.forall_iff]
      rw [List.disjoint_left]
      intro i hi hj
      obtain ⟨d, hd, h1⟩ := mem_sideMask.1 hi
      obtain ⟨d', hd', h2⟩ := mem_sideMask.1 hj
      rw [hd] at hd'
      simp only [Option.some.injEq] at hd'
      subst hd'
      simp at h1 h2
      omega
  obtain ⟨rows, hrows, hsc⟩ := C10_scatter_partial X.length dt tl outs (by simp [outs]) hfit hdis
  have hside : ∀ side, side ∈ [Side.source, Side.target] → sideRows side sd rows = out side := by
    intro side hs
    apply sideRows_eq_of_written (hsc.length.trans hX) ((hout _).1.trans (hlen _).symm)
    intro k i hki
    exact hsc.written (flatnonzero (sideMask side sd), out side)
      (List.mem_map.2 ⟨(flatnonzero (sideMask side sd), ⟨dt, tl, out side⟩), List.mem_map.2 ⟨side, hs, rfl⟩, rfl⟩) k i hki
  exact ⟨rows, hrows, hsc.length, hside .source (by simp), hside .target (by simp)⟩

/-- Source rows by one map, target rows by another. -/
def Spec.bySide (ms mt : α → β) (d : Int) (x : α) : β := if 0 ≤ d then ms x else mt x

theorem rows_of_sides {sd : List Int} {X : List α} (hX : X.length = sd.length) {ms mt : α → β} {rows : List β}
    (hl : rows.length = sd.length) (h1 : sourceRows sd rows = (sourceRows sd X).map ms)
    (h2 : targetRows sd rows = (targetRows sd X).map mt) : rows = List.zipWith (bySide ms mt) sd X := by
  apply ext_of_rows (sd := sd)
  · exact hl.symm
  · simp [hX]
  · rw [h1]
    clear h1 h2 hl
    induction sd generalizing X with
    | nil => simp [sourceRows]
    | cons d sd ih =>
      cases X with
      | nil => simp at hX
      | cons x X =>
        have := ih (X := X) (by simpa using hX)
        unfold sourceRows at this ⊢
        simp only [List.zip_cons_cons, List.filter_cons, List.zipWith_cons_cons]
        by_cases h : 0 ≤ d <;> simp [h, this, bySide]
  · rw [h2]
    clear h1 h2 hl
    induction sd generalizing X with
    | nil => simp [targetRows]
    | cons d sd ih =>
      cases X with
      | nil => simp at hX
      | cons x X =>
        have := ih (X := X) (by simpa using hX)
        unfold targetRows at this ⊢
        simp only [List.zip_cons_cons, List.filter_cons, List.zipWith_cons_cons]
        by_cases h : d < 0
        · have h' : ¬ 0 ≤ d := by omega
          simp [h, h', this, bySide]
        · simp [h, this]

/-- C111 (`SelectSourceTarget`, fitting). A pipeline that starts with a `SelectSourceTarget` of two transformers: the
first is fitted on the source rows, the second on the target rows — with their true labels, nothing is masked here —
and the rest of the pipeline is fitted as if it had been given the data with source rows transformed by the first and
target rows by the second, and the labels unmasked. -/
theorem C111_source_target_fit [Cell α] (keep : String → Bool) (e : Est α σ) (t : Option (Est α σ))
    (rest : List ((String → Bool) × Step α σ)) (X : List α) (y : List Num) (sd : List Int) (fs ft : σ) (ms mt : α → α)
    (hk : keep "sample_domain" = true) (he : Ordinary e) (ht : AsksNothing (t.getD e).fitTransformReq) (hr : rest ≠ [])
    (hrest : ∀ s ∈ rest.dropLast, s.2.isTransformer = true) (hX : X.length = sd.length) (hy : y.length = sd.length)
    (hns : 0 < nSource sd) (hnt : 0 < nTarget sd)
    (hs : FitsRowwise e ⟨sourceRows sd X, some (sourceRows sd y), []⟩ fs ms)
    (hm : FitsRowwise (t.getD e) ⟨targetRows sd X, some (targetRows sd y), []⟩ ft mt)
    (hcast : ∀ x, Cell.cast .float (ms x) = ms x ∧ Cell.cast .float (mt x) = mt x) :
    pipelineFit ((keep, .sourceTarget ⟨e, t, false⟩) :: rest) X (some y) [("sample_domain", domParam sd)] =
      afterStep [⟨sourceRows sd X, some (sourceRows sd y), []⟩, ⟨targetRows sd X, some (targetRows sd y), []⟩]
        (.sourceTarget fs ft)
        (pipelineFit rest (List.zipWith (bySide ms mt) sd X) (some y) [("sample_domain", domParam sd)]) := by
  apply pipelineFit_cons (by exact he.transform) hr hrest
  rw [keep_sd hk]
  have hsd : sd ≠ [] := by rintro rfl; simp [nSource] at hns
  have hlook : List.lookup "sample_domain" [("sample_domain", domParam sd)] = some (domParam sd) := List.lookup_cons_self
  have hchk := sstCheck_ok (X := X) (y := some y) hsd hlook hX (by rintro l ⟨⟩; exact hy)
  have h1 : sideRows .source sd sd ≠ [] := by
    intro h0
    have := (sideMask_count_zero .source sd).2 h0
    rw [← sideRows_length .source (a := sd) rfl] at this
    simp only [sideRows] at this
    rw [length_sourceRows rfl] at this
    omega
  have h2 : sideRows .target sd sd ≠ [] := by
    intro h0
    have := (sideMask_count_zero .target sd).2 h0
    rw [← sideRows_length .target (a := sd) rfl] at this
    simp only [sideRows] at this
    rw [length_targetRows rfl] at this
    omega
  have hfs := fitSide_ok (s := ⟨e, t, false⟩) (e := e) (p := Dict.put [("sample_domain", domParam sd)] "sample_domain" (domParam sd))
    .source rfl he.transform he.fitAsks hX hy h1 hs.fitted
  have hft := fitSide_ok (s := ⟨e, t, false⟩) (e := t.getD e) (p := Dict.put [("sample_domain", domParam sd)] "sample_domain" (domParam sd))
    .target rfl he.transform ht hX hy h2 hm.fitted
  obtain ⟨rows, hrows, hlen, hsr, htr⟩ := merge_sides (β := α) hX .float []
    (fun side => match side with | .source => (sourceRows sd X).map ms | .target => (targetRows sd X).map mt) (by
      intro side
      cases side with
      | source =>
        refine ⟨by simp [sideRows], ?_⟩
        intro r hr
        obtain ⟨x, -, rfl⟩ := List.mem_map.1 hr
        exact (hcast x).1
      | target =>
        refine ⟨by simp [sideRows], ?_⟩
        intro r hr
        obtain ⟨x, -, rfl⟩ := List.mem_map.1 hr
        exact (hcast x).2)
  have hz := rows_of_sides hX (hlen.trans hX) hsr htr
  have hmerge := mergeStepOuts_arr X.length [(flatnonzero (sideMask .source sd), (sourceRows sd X).map ms),
    (flatnonzero (sideMask .target sd), (targetRows sd X).map mt)] (by simp)
  simp only [List.map_cons, List.map_nil, hrows, hz] at hmerge
  simp only [sideMask] at hfs hft hmerge
  simp only [sideRows] at hfs hft
  simp only [Step.fitTransform, SST.fitTransformOut, he.fitTransform, if_true, SST.fit, Cont.fromInput, Cont.mergeOut,
    update_nil, hchk, hfs, hft, hmerge, Cont.mergeIn]
  rfl

theorem route_only_domain {r : Request} (h : Plain r) {p : Dict} (hp : ∀ kv ∈ p, kv.1 = "sample_domain") :
    routeParams r p = .ok [] := by
  have hl : ∀ k, k ≠ "sample_domain" → ∀ q : Dict, (∀ kv ∈ q, kv.1 = "sample_domain") → q.lookup k = none := by
    intro k hk q hq
    induction q with
    | nil => rfl
    | cons a q ih =>
      obtain ⟨a1, a2⟩ := a
      have ha : a1 = "sample_domain" := hq (a1, a2) (by simp)
      subst ha
      rw [lookup_cons_ne hk]
      exact ih fun kv hkv => hq kv (by simp [hkv])
  unfold routeParams
  dsimp only
  rw [show (r.any (fun q => decide (q.2 = .unset) && Dict.has (p.filter (fun kv => decide (kv.2 ≠ .none))) q.1)) = false by
    rw [List.any_eq_false]
    intro q hq
    simp [Dict.has, hl q.1 (h.2 q hq) _ (fun kv hkv => hp kv (List.mem_of_mem_filter hkv))]]
  simp only [Bool.false_eq_true, if_false, Except.ok.injEq]
  rw [List.filterMap_eq_nil_iff]
  intro q hq
  rcases h.1 q hq with h | h | h <;> rw [h]

theorem fitSide_last {s : SST α σ} {e : Est α σ} {X : List α} {y : List Num} {sd : List Int} (side : Side)
    (hs : s.source.hasTransform = false) (he : Plain e.fitReq) (hX : X.length = sd.length) (hy : y.length = sd.length)
    (hne : sideRows side sd sd ≠ []) (hn : NoneMasked (sideRows side sd y)) {f : σ}
    (h : e.fit ⟨sideRows side sd X, some (sideRows side sd y), []⟩ = .ok f) :
    s.fitSide e .fit X (some y) (Dict.put [("sample_domain", domParam sd)] "sample_domain" (domParam sd)) (sideMask side sd)
      = ([⟨sideRows side sd X, some (sideRows side sd y), []⟩], .ok (f, .other)) := by
  have hrm := removeMasked_none (p := []) ((sideRows_length side hX).trans (sideRows_length side hy).symm) hn
  have hroute : ∀ p : Dict, (∀ kv ∈ p, kv.1 = "sample_domain") → prepareRouting s.final false e.fitReq p = .ok [] := by
    intro p hp
    unfold prepareRouting
    rw [Bool.not_false, Bool.or_true, if_pos rfl]
    exact route_only_domain he hp
  unfold SST.fitSide
  rw [if_neg (fun h0 => hne ((sideMask_count_zero side sd).1 h0)),
    applyDomainMasks_sel (by rw [length_sideMask, hX]) (by rintro l ⟨⟩; rw [length_sideMask, hy])]
  simp only [Option.map_some, sel_sideMask, hs, Est.request]
  rw [hroute _ (by simp [Dict.put])]
  simp only [Sel.removeMasked, Bool.false_or, Dict.has, List.lookup_nil, hrm, Est.invoke, Option.isSome_none, Bool.false_eq_true,
    if_false, h]

/-- C111 (`SelectSourceTarget` as the last step). The source estimator is fitted on the source rows with their labels,
the target estimator on the target rows with theirs; each is kept for its own side. -/
theorem C111_source_target_last [Cell α] (keep : String → Bool) (e : Est α σ) (t : Option (Est α σ)) (fin : Bool)
    (X : List α) (y : List Num) (sd : List Int) (fs ft : σ) (hk : keep "sample_domain" = true)
    (he : e.hasTransform = false) (hes : Plain e.fitReq) (het : Plain (t.getD e).fitReq)
    (hX : X.length = sd.length) (hy : y.length = sd.length) (hns : 0 < nSource sd) (hnt : 0 < nTarget sd)
    (hls : NoneMasked (sourceRows sd y)) (hlt : NoneMasked (targetRows sd y))
    (hs : e.fit ⟨sourceRows sd X, some (sourceRows sd y), []⟩ = .ok fs)
    (ht : (t.getD e).fit ⟨targetRows sd X, some (targetRows sd y), []⟩ = .ok ft) :
    pipelineFit [(keep, .sourceTarget ⟨e, t, fin⟩)] X (some y) [("sample_domain", domParam sd)] =
      ([⟨sourceRows sd X, some (sourceRows sd y), []⟩, ⟨targetRows sd X, some (targetRows sd y), []⟩],
        .ok ([.sourceTarget fs ft], some y)) := by
  have hsd : sd ≠ [] := by rintro rfl; simp [nSource] at hns
  have hlook : List.lookup "sample_domain" [("sample_domain", domParam sd)] = some (domParam sd) := List.lookup_cons_self
  have hchk := sstCheck_ok (X := X) (y := some y) hsd hlook hX (by rintro l ⟨⟩; exact hy)
  have h1 : sideRows .source sd sd ≠ [] := by
    intro h0
    have := (sideMask_count_zero .source sd).2 h0
    rw [← sideRows_length .source (a := sd) rfl] at this
    simp only [sideRows] at this
    rw [length_sourceRows rfl] at this
    omega
  have h2 : sideRows .target sd sd ≠ [] := by
    intro h0
    have := (sideMask_count_zero .target sd).2 h0
    rw [← sideRows_length .target (a := sd) rfl] at this
    simp only [sideRows] at this
    rw [length_targetRows rfl] at this
    omega
  have hfs := fitSide_last (s := ⟨e, t, fin⟩) (e := e) .source he hes hX hy h1 hls hs
  have hft := fitSide_last (s := ⟨e, t, fin⟩) (e := t.getD e) .target he het hX hy h2 hlt ht
  simp only [sideMask] at hfs hft
  simp only [sideRows] at hfs hft
  simp only [pipelineFit, List.dropLast_singleton, List.any_nil, Bool.false_eq_true, if_false, fitSteps, keep_sd hk,
    Step.fit, SST.fit, Cont.fromInput, Cont.mergeOut, update_nil, hchk, hfs, hft]
  rfl

/-- C111 (`SelectSourceTarget`, prediction). Predicting is predicting with the rest of the pipeline on the data with
source rows transformed by the source transformer and target rows by the target transformer; without `sample_domain`
every row is a target row. -/
theorem C111_source_target_predict [Cell α] (keep : String → Bool) (e : Est α σ) (t : Option (Est α σ)) (fs ft : σ)
    (ms mt : α → α) (rest : List ((String → Bool) × Step α σ × Fitted σ)) (last : (String → Bool) × Sel α σ × σ)
    (req : Request) (query : σ → Call α → Py β) (X : List α) (y : Option (List Num)) (sd : List Int)
    (hk : keep "sample_domain" = true) (he : Ordinary e) (ht : AsksNothing (t.getD e).transformReq) (hX0 : X ≠ [])
    (hX : X.length = sd.length)
    (hs : ∀ Z : List α, Z ≠ [] → e.transform fs Z [] = .ok (.arr (Z.map ms)))
    (hm : ∀ Z : List α, Z ≠ [] → (t.getD e).transform ft Z [] = .ok (.arr (Z.map mt)))
    (hcast : ∀ x, Cell.cast .float (ms x) = ms x ∧ Cell.cast .float (mt x) = mt x) :
    stepsRoute ((keep, .sourceTarget ⟨e, t, false⟩, .sourceTarget fs ft) :: rest) last req query X y
        [("sample_domain", domParam sd)] =
      stepsRoute rest last req query (List.zipWith (bySide ms mt) sd X) y [("sample_domain", domParam sd)] ∧
    stepsRoute ((keep, .sourceTarget ⟨e, t, false⟩, .sourceTarget fs ft) :: rest) last req query X y [] =
      stepsRoute rest last req query (X.map mt) y [] := by
  have key : ∀ sd : List Int, X.length = sd.length →
      (⟨e, t, false⟩ : SST α σ).route true e.transformReq (t.getD e).transformReq ((e, fs), (t.getD e, ft))
        (fun e => e.1.transformQuery e.2) X none [("sample_domain", domParam sd)]
        = .ok ⟨.float, [], List.zipWith (bySide ms mt) sd X⟩ := by
    intro sd hX
    have hsd : sd ≠ [] := by rintro rfl; exact hX0 (List.length_eq_zero_iff.1 hX)
    have hne : ∀ side, sideRows side sd sd ≠ [] → sideRows side sd X ≠ [] := by
      intro side h h0
      apply h
      rw [← sideMask_count_zero, ← sideRows_length side hX, h0]
      rfl
    obtain ⟨rows, h1, h2, h3, h4⟩ := C15_source_target_route_partial (⟨e, t, false⟩ : SST α σ) true e.transformReq
      (t.getD e).transformReq (e, fs) (t.getD e, ft) (fun e => e.1.transformQuery e.2) X none
      [("sample_domain", domParam sd)] sd List.lookup_cons_self hsd hX (by simp) .float []
      (fun side => match side with | .source => (sourceRows sd X).map ms | .target => (targetRows sd X).map mt) (by
        intro side h
        have h0 := hne side h
        cases side with
        | source =>
          refine ⟨[], by rw [he.transform]; exact routing_inner he.asks _, ?_⟩
          simp only [Est.transformQuery, sideCall, sideRows] at h0 ⊢
          rw [hs _ h0]
        | target =>
          refine ⟨[], by rw [he.transform]; exact routing_inner ht _, ?_⟩
          simp only [Est.transformQuery, sideCall, sideRows] at h0 ⊢
          rw [hm _ h0]) (by
        intro side
        cases side with
        | source =>
          refine ⟨by simp [sideRows], ?_⟩
          intro r hr
          obtain ⟨x, -, rfl⟩ := List.mem_map.1 hr
          exact (hcast x).1
        | target =>
          refine ⟨by simp [sideRows], ?_⟩
          intro r hr
          obtain ⟨x, -, rfl⟩ := List.mem_map.1 hr
          exact (hcast x).2)
    rw [h1, rows_of_sides hX (h2.trans hX) h3 h4]
  constructor
  · rw [stepsRoute, keep_sd hk]
    simp only [Step.transform, key sd hX, rowsOf]
  · have hd : sstCheck X (none : Option (List Num)) [] = .ok (List.replicate X.length (-1)) := by
      have hn : List.replicate X.length (-1 : Int) ≠ [] := by simpa using hX0
      simp [sstCheck, Dict.get, sdArg, checkXDomain, hX0, checkFlags_default, defaultTargetOnly, extractSourceIndices_ok hn]
    have hd' := sstCheck_ok (X := X) (y := none) (p := [("sample_domain", domParam (List.replicate X.length (-1)))])
      (sd := List.replicate X.length (-1)) (by simpa using hX0) List.lookup_cons_self (by simp) (by simp)
    have hr : (⟨e, t, false⟩ : SST α σ).route true e.transformReq (t.getD e).transformReq ((e, fs), (t.getD e, ft))
        (fun e => e.1.transformQuery e.2) X none [] = .ok ⟨.float, [], List.zipWith (bySide ms mt) (List.replicate X.length (-1)) X⟩ := by
      rw [← key (List.replicate X.length (-1)) (by simp)]
      unfold SST.route
      rw [hd, hd']
      rfl
    have hz : List.zipWith (bySide ms mt) (List.replicate X.length (-1)) X = X.map mt := by
      clear hX hX0 hd hd' hr key
      induction X with
      | nil => rfl
      | cons x X ih => simp [List.replicate_succ, ih, bySide]
    rw [stepsRoute]
    simp only [List.filter_nil, Step.transform, hr, rowsOf, hz]

/-! ### Whole methods -/

theorem maskedLabels_idem {sd : List Int} {y : List Num} (h : y.length = sd.length) :
    maskedLabels sd (maskedLabels sd y) = maskedLabels sd y := by
  have hl := length_maskedLabels h
  apply List.ext_getElem
  · rw [length_maskedLabels hl, hl]
  · intro i h1 h2
    have hi : i < sd.length := by rwa [hl] at h2
    rw [getElem_maskedLabels hl hi, getElem_maskedLabels h hi]
    by_cases hd : 0 ≤ sd[i]
    · simp [hd]
    · simp only [hd, if_false]
      by_cases hy : ∀ u ∈ y, IsInt u
      · rw [if_pos hy, if_pos (maskedLabels_int h hy)]
      · rw [if_neg hy, if_neg (maskedLabels_not_int h hy)]

theorem labelled_masked {sd : List Int} {y : List Num} (h : y.length = sd.length) (hl : Labelled sd y) :
    Labelled sd (maskedLabels sd y) := by
  obtain ⟨h1, h2, h3⟩ := hl
  obtain ⟨h4, h5⟩ := maskedLabels_inf (sd := sd) h ⟨h1, h2⟩
  refine ⟨h4, h5, ?_⟩
  rw [sourceRows_masked h]
  intro v hv
  refine ⟨(h3 v hv).1, fun hall => (h3 v hv).2 ?_⟩
  by_contra hn
  exact maskedLabels_not_int h hn hall

/-- The steps of a pipeline of shared selectors, as steps of any kind. -/
theorem stepsRoute_shared [Cell α] (l : List ((String → Bool) × Sel α σ × σ)) (last : (String → Bool) × Sel α σ × σ)
    (req : Request) (query : σ → Call α → Py β) (X : List α) (y : Option (List Num)) (params : Dict) :
    stepsRoute (l.map (fun q => (q.1, Step.shared q.2.1, Fitted.one q.2.2))) last req query X y params
      = pipelineRoute l last req query X y params := by
  induction l generalizing X with
  | nil => rfl
  | cons q l ih =>
    obtain ⟨keep, s, f⟩ := q
    simp only [List.map_cons, stepsRoute, pipelineRoute, Step.transform]
    cases hs : s.sharedTransform f X (params.filter (fun kv => keep kv.1)) with
    | error err => rfl
    | ok o => cases o <;> simp [ih]

/-- C111 (per-domain scaling in front of a method). `fit` and `predict` of a pipeline made of a `PerDomain` transformer,
any adapters and a final estimator: the adapters and the final estimator work on the data in which each row has been
transformed by the transformer of its own domain, in `fit` and in `predict`; the final estimator sees the source rows
and labels only. -/
theorem C111_per_domain_method [Cell α] (keep : String → Bool) (e : Est α σ) (es : List (Est α σ)) (fin : Est α σ)
    (X X' Xt Z : List α) (y : List Num) (sd sdt : List Int) (g : Int → σ) (m : Int → α → α) (w : Option (List Num))
    (calls : List (Call α)) (fs : List σ) (a : Alias) (f : σ) (req : Request) (query : σ → Call α → Py β) (p : Dict)
    (hk : keep "sample_domain" = true) (he : Ordinary e) (hsd : sd ≠ []) (hX : X.length = sd.length)
    (hy : y.length = sd.length) (hlab : Labelled sd y)
    (hm : ∀ d ∈ sd, FitsRowwise e ⟨domainRows d sd X, some (domainRows d sd (maskedLabels sd y)), []⟩ (g d) (m d))
    (hcast : ∀ d x, Cell.cast .float (m d x) = m d x)
    (h : Adapts sd (maskedLabels sd y) es ⟨List.zipWith m sd X, none, none⟩ ⟨X', none, w⟩ calls fs)
    (hX' : X'.length = sd.length) (hw : ∀ v, w = some v → v.length = sd.length)
    (htr : fin.hasTransform = false) (hreq : fin.fitReq = [("sample_weight", a)])
    (hp : a = .yes ∧ p = weightParam (w.map (sourceRows sd)) ∨ (a = .no ∨ a = .unset ∧ w = none) ∧ p = [])
    (hfit : fin.fit ⟨sourceRows sd X', some (sourceRows sd y), p⟩ = .ok f)
    (hq : Plain req) (hXt : Xt ≠ []) (hlt : sdt.length = Xt.length) (hneg : ∀ d ∈ sdt, d < 0) (hseen : ∀ d ∈ sdt, d ∈ sd)
    (hpass : Passes [("sample_domain", domParam sdt)] es fs (List.zipWith m sdt Xt) Z) :
    (pipelineFit ((keep, .perDomain ⟨e, true, false⟩) :: daPipeline keep es fin true) X (some y)
        [("sample_domain", domParam sd)]).2
        = .ok (.perDomain ((unique sd).map (fun d => (d, g d))) :: (fs.map .one ++ [.one f]), some (maskedLabels sd y)) ∧
      stepsRoute ((keep, .perDomain ⟨e, true, false⟩, .perDomain ((unique sd).map (fun d => (d, g d)))) ::
          (fittedSteps keep true es fs).map (fun q => (q.1, .shared q.2.1, .one q.2.2)))
        (keep, ⟨fin, true, true⟩, f) req query Xt none [("sample_domain", domParam sdt)] = query f ⟨Z, none, []⟩ := by
  have hsdt : sdt ≠ [] := by rintro rfl; exact hXt (List.length_eq_zero_iff.1 hlt.symm)
  constructor
  · have htrs : ∀ e ∈ es, e.hasTransform = true := by
      clear hX' hw hp hfit hpass
      generalize (⟨List.zipWith m sd X, none, none⟩ : Flow α) = a0 at h
      generalize (⟨X', none, w⟩ : Flow α) = b0 at h
      induction h with
      | nil a => intro e he; simp at he
      | step e rest a b c p f out calls fs hp ht hft hrun hout hrest ih =>
        intro e' he
        rcases List.mem_cons.1 he with rfl | he
        · exact ht
        · exact ih e' he
    rw [C111_per_domain_fit keep e (daPipeline keep es fin true) X y sd g m hk he (by simp [daPipeline]) (by
        intro s hs
        simp only [daPipeline, List.dropLast_concat] at hs
        obtain ⟨e', he', rfl⟩ := List.mem_map.1 hs
        exact htrs e' he') hsd hX hy ⟨hlab.1, hlab.2.1⟩ hm hcast]
    have hidem := maskedLabels_idem (sd := sd) hy
    have := C108_training_data keep es fin (List.zipWith m sd X) X' (maskedLabels sd y) sd w calls fs a hk hsd
      (length_maskedLabels hy) (labelled_masked hy hlab) (by rw [hidem]; exact h) hX' hw htr hreq p hp
    rw [this]
    simp only [sourceRows_masked hy, hfit, afterStep, hidem]
  · rw [C111_per_domain_predict keep true e (unique sd) g m _ _ req query Xt none sdt hk he hsdt hlt.symm
      (fun d hd => mem_unique.2 (hseen d hd)) (fun d hd => (hm d (mem_unique.1 hd)).later) hcast, stepsRoute_shared]
    exact C109_predict keep true es fs fin f req query _ Z _ hk hq
      (Or.inr ⟨sdt, by simp [hlt], hneg, rfl⟩) hpass

/-! ### Examples -/

/-- Difference of two numbers. -/
def demoSub (a x : Num) : Num :=
  match x, a with
  | .fin u, .fin v => .fin (u - v)
  | _, _ => .nan

/-- A transformer that subtracts the first row it was fitted on. -/
def demoShift : Est Num Num where
  hasTransform := true
  hasFitTransform := true
  fitReq := []
  fitTransformReq := []
  transformReq := []
  fit c := .ok (c.X.headD (.fin 0))
  fitTransform c := .ok (c.X.headD (.fin 0), .arr (c.X.map (demoSub (c.X.headD (.fin 0)))))
  transform f X _ := .ok (.arr (X.map (demoSub f)))

/-- A final estimator that remembers its first row. -/
def demoLast : Est Num Num where
  hasTransform := false
  hasFitTransform := false
  fitReq := [("sample_weight", .unset)]
  fitTransformReq := []
  transformReq := []
  fit c := .ok (c.X.headD (.fin 0))
  fitTransform _ := .error .attributeError
  transform _ _ _ := .error .attributeError

theorem demoShift_ordinary : Ordinary demoShift := ⟨rfl, rfl, by simp [AsksNothing, demoShift], by simp [AsksNothing, demoShift]⟩

/-- Two domains with different origins: each is shifted by its own first row, and the final estimator sees the shifted
source rows. -/
example : (pipelineFit ((fun _ => true, .perDomain ⟨demoShift, true, false⟩) :: daPipeline (fun _ => true) [] demoLast true)
      [.fin 1, .fin 5, .fin 10, .fin 20] (some [.fin 0, .fin 3, .fin 1, .fin 4]) [("sample_domain", domParam [1, -2, 1, -2])]).1.map
      (fun c => (c.X, c.y))
    = [([.fin 5, .fin 20], some [.fin (-1), .fin (-1)]), ([.fin 1, .fin 10], some [.fin 0, .fin 1]),
       ([.fin 0, .fin 9], some [.fin 0, .fin 1])] := by decide +kernel

/-- The hypotheses of `C111_per_domain_fit` hold for it. -/
example := C111_per_domain_fit (fun _ => true) demoShift (daPipeline (fun _ => true) [] demoLast true)
  [.fin 1, .fin 5, .fin 10, .fin 20] [.fin 0, .fin 3, .fin 1, .fin 4] [1, -2, 1, -2]
  (fun d => if d = 1 then .fin 1 else .fin 5) (fun d => demoSub (if d = 1 then .fin 1 else .fin 5)) rfl demoShift_ordinary
  (by simp [daPipeline]) (by simp [daPipeline]) (by simp) rfl rfl (by decide)
  (by
    intro d hd
    have : d = 1 ∨ d = -2 := by
      simp only [List.mem_cons, List.not_mem_nil, or_false] at hd
      tauto
    rcases this with rfl | rfl
    · exact ⟨rfl, fun _ _ => rfl⟩
    · exact ⟨rfl, fun _ _ => rfl⟩)
  (fun _ _ => rfl)

/-- New rows of a domain are shifted by the first training row of that domain. -/
example : stepsRoute [(fun _ => true, .perDomain ⟨demoShift, true, false⟩, .perDomain [(-2, .fin 5), (1, .fin 1)])]
      (fun _ => true, ⟨demoLast, true, true⟩, .fin 0) [] (fun _ c => .ok c.X) [.fin 6, .fin 7] none
      [("sample_domain", domParam [-2, -2])] = .ok [.fin 1, .fin 2] := by decide +kernel

/-- A target domain that was not there during `fit`. -/
example : stepsRoute [(fun _ => true, .perDomain ⟨demoShift, true, false⟩, .perDomain [(-2, .fin 5), (1, .fin 1)])]
      (fun _ => true, ⟨demoLast, true, true⟩, .fin 0) [] (fun _ c => .ok c.X) [.fin 6, .fin 7] none
      [("sample_domain", domParam [-2, -3])] = .error .valueError := by decide +kernel

example := C111_per_domain_predict (fun _ => true) true demoShift [-2, 1] (fun d => if d = 1 then .fin 1 else .fin 5)
  (fun d => demoSub (if d = 1 then .fin 1 else .fin 5)) [] (fun _ => true, ⟨demoLast, true, true⟩, .fin 0) []
  (fun _ c => .ok c.X) [.fin 6, .fin 7] none [-2, -2] rfl demoShift_ordinary (by simp) rfl (by simp)
  (fun _ _ _ _ => rfl) (fun _ _ => rfl)

example := C111_per_domain_refusals (fun _ => true) true demoShift [-2, 1] (fun d => if d = 1 then .fin 1 else .fin 5)
  [] (fun _ => true, ⟨demoLast, true, true⟩, .fin 0) [] (fun _ c => .ok c.X) [.fin 6, .fin 7] none [-2, -3] rfl
  demoShift_ordinary rfl (fun _ _ _ => ⟨_, rfl⟩)

/-- Source and target rows shifted by their own side; the labels of the target rows are the caller's. -/
example : (pipelineFit ((fun _ => true, .sourceTarget ⟨demoShift, none, false⟩) :: daPipeline (fun _ => true) [] demoLast true)
      [.fin 1, .fin 5, .fin 10, .fin 20] (some [.fin 0, .fin 3, .fin 1, .fin 4]) [("sample_domain", domParam [1, -2, 3, -4])]).1.map
      (fun c => (c.X, c.y))
    = [([.fin 1, .fin 10], some [.fin 0, .fin 1]), ([.fin 5, .fin 20], some [.fin 3, .fin 4]),
       ([.fin 0, .fin 9], some [.fin 0, .fin 1])] := by decide +kernel

example := C111_source_target_fit (fun _ => true) demoShift none (daPipeline (fun _ => true) [] demoLast true)
  [.fin 1, .fin 5, .fin 10, .fin 20] [.fin 0, .fin 3, .fin 1, .fin 4] [1, -2, 3, -4] (.fin 1) (.fin 5) (demoSub (.fin 1))
  (demoSub (.fin 5)) rfl demoShift_ordinary demoShift_ordinary.fitAsks (by simp [daPipeline]) (by simp [daPipeline])
  rfl rfl (by decide) (by decide) ⟨rfl, fun _ _ => rfl⟩ ⟨rfl, fun _ _ => rfl⟩ (fun _ => ⟨rfl, rfl⟩)

example : stepsRoute [(fun _ => true, .sourceTarget ⟨demoShift, none, false⟩, .sourceTarget (.fin 1) (.fin 5))]
      (fun _ => true, ⟨demoLast, true, true⟩, .fin 0) [] (fun _ c => .ok c.X) [.fin 6, .fin 7] none [] =
    .ok [.fin 1, .fin 2] := by decide +kernel

example := C111_source_target_predict (fun _ => true) demoShift none (.fin 1) (.fin 5) (demoSub (.fin 1)) (demoSub (.fin 5))
  [] (fun _ => true, ⟨demoLast, true, true⟩, .fin 0) [] (fun _ c => .ok c.X) [.fin 6, .fin 7] none [3, -4] rfl
  demoShift_ordinary demoShift_ordinary.asks (by simp) rfl (fun _ _ => rfl) (fun _ _ => rfl) (fun _ => ⟨rfl, rfl⟩)

/-- A last step with one classifier per side. -/
example := C111_source_target_last (fun _ => true) demoLast (some { demoLast with fit := fun c => .ok (c.X.getLastD (.fin 0)) }) true
  [.fin 1, .fin 5, .fin 10, .fin 20] [.fin 0, .fin 3, .fin 1, .fin 4] [1, -2, 3, -4] (.fin 1) (.fin 20) rfl rfl
  (by simp [Plain, AsksNothing, demoLast]) (by simp [Plain, AsksNothing, demoLast]) rfl rfl (by decide) (by decide)
  (.inl (by
    intro v hv
    have : sourceRows [1, -2, 3, -4] [Num.fin 0, .fin 3, .fin 1, .fin 4] = [.fin 0, .fin 1] := by decide +kernel
    rw [this] at hv
    have : v = .fin 0 ∨ v = .fin 1 := by simpa using hv
    rcases this with rfl | rfl
    · exact ⟨⟨0, rfl⟩, by decide⟩
    · exact ⟨⟨1, rfl⟩, by decide⟩))
  (.inl (by
    intro v hv
    have : targetRows [1, -2, 3, -4] [Num.fin 0, .fin 3, .fin 1, .fin 4] = [.fin 3, .fin 4] := by decide +kernel
    rw [this] at hv
    have : v = .fin 3 ∨ v = .fin 4 := by simpa using hv
    rcases this with rfl | rfl
    · exact ⟨⟨3, rfl⟩, by decide⟩
    · exact ⟨⟨4, rfl⟩, by decide⟩)) rfl rfl

/-- The hypotheses of `C111_per_domain_method` hold for the same data. -/
example := C111_per_domain_method (fun _ => true) demoShift [] demoLast
  [.fin 1, .fin 5, .fin 10, .fin 20] [.fin 0, .fin 0, .fin 9, .fin 15] [.fin 6, .fin 7] [.fin 1, .fin 2]
  [.fin 0, .fin 3, .fin 1, .fin 4] [1, -2, 1, -2] [-2, -2]
  (fun d => if d = 1 then .fin 1 else .fin 5) (fun d => demoSub (if d = 1 then .fin 1 else .fin 5)) none [] [] .unset
  (.fin 0) [] (fun _ c => .ok c.X) [] rfl demoShift_ordinary (by simp) rfl rfl
  ⟨by decide, by decide, by
    intro v hv
    have : sourceRows [1, -2, 1, -2] [Num.fin 0, .fin 3, .fin 1, .fin 4] = [.fin 0, .fin 1] := by decide +kernel
    rw [this] at hv
    have : v = .fin 0 ∨ v = .fin 1 := by simpa using hv
    rcases this with rfl | rfl <;> exact ⟨by decide, fun _ => by decide +kernel⟩⟩
  (by
    intro d hd
    have : d = 1 ∨ d = -2 := by
      simp only [List.mem_cons, List.not_mem_nil, or_false] at hd
      tauto
    rcases this with rfl | rfl
    · exact ⟨rfl, fun _ _ => rfl⟩
    · exact ⟨rfl, fun _ _ => rfl⟩)
  (fun _ _ => rfl)
  (by
    have : List.zipWith (fun d => demoSub (if d = 1 then .fin 1 else .fin 5)) [1, -2, 1, -2]
        [Num.fin 1, .fin 5, .fin 10, .fin 20] = [.fin 0, .fin 0, .fin 9, .fin 15] := by decide +kernel
    rw [this]
    exact .nil _)
  rfl (by simp) rfl rfl (Or.inr ⟨Or.inr ⟨rfl, rfl⟩, rfl⟩) rfl ⟨by simp [AsksNothing], by simp⟩ (by simp) rfl
  (by decide) (by decide)
  (by
    have : List.zipWith (fun d => demoSub (if d = 1 then .fin 1 else .fin 5)) [-2, -2]
        [Num.fin 6, .fin 7] = [.fin 1, .fin 2] := by decide +kernel
    rw [this]
    exact .nil _)

end Skada

/-
C116: the functions that build pipelines pass their arguments on, and pipelines do not share settings.
-/
import Verif.Props.Ctor
import Mathlib.Data.List.Induction

namespace Skada
open Ctor

namespace Ctor

instance : Inhabited AVal := ⟨.none⟩

/-- The default values in the signature of a factory. -/
def Factory.defaults (f : Factory) : Kw := f.params.filterMap (fun p => p.2.map (fun v => (p.1, v)))

/-- What the tables of the factories have in common. -/
structure Regular (f : Factory) : Prop where
  nodup : (f.params.map Prod.fst).Nodup
  isSome : ∀ p ∈ f.params, p.2.isSome = true
  pass : ∀ p ∈ f.cls.params, (f.pass.lookup p.1 = some p.1 ∧ p.1 ∈ f.params.map Prod.fst) ∨
    (f.pass.lookup p.1 = none ∧ p.1 ∉ f.params.map Prod.fst ∧ p.2.isSome = true)
  sub : ∀ a ∈ f.pass, a.1 ∈ f.cls.params.map Prod.fst
  sub2 : ∀ p ∈ f.params, p.1 ∈ f.cls.params.map Prod.fst
  keep : f.cls.keepKw = false

theorem factories_regular : ∀ f ∈ factories, Regular f := by
  have h : ∀ f ∈ factories, (f.params.map Prod.fst).Nodup ∧ (∀ p ∈ f.params, p.2.isSome = true) ∧
      (∀ p ∈ f.cls.params, (f.pass.lookup p.1 = some p.1 ∧ p.1 ∈ f.params.map Prod.fst) ∨
        (f.pass.lookup p.1 = none ∧ p.1 ∉ f.params.map Prod.fst ∧ p.2.isSome = true)) ∧
      (∀ a ∈ f.pass, a.1 ∈ f.cls.params.map Prod.fst) ∧ (∀ p ∈ f.params, p.1 ∈ f.cls.params.map Prod.fst) ∧ f.cls.keepKw = false := by
    decide +kernel
  exact fun f hf => ⟨(h f hf).1, (h f hf).2.1, (h f hf).2.2.1, (h f hf).2.2.2.1, (h f hf).2.2.2.2.1, (h f hf).2.2.2.2.2⟩

theorem lookup_pass (l : List (String × String)) (g : String → AVal) (q : String) :
    (l.map (fun a => (a.1, g a.2))).lookup q = (l.lookup q).map g := by
  induction l with
  | nil => rfl
  | cons a l ih =>
    rw [List.map_cons, List.lookup_cons, List.lookup_cons]
    cases q == a.1
    · exact ih
    · rfl

theorem lookup_none {l : Kw} {q : String} (h : q ∉ l.map Prod.fst) : l.lookup q = none := by
  induction l with
  | nil => rfl
  | cons a l ih =>
    simp only [List.map_cons, List.mem_cons, not_or] at h
    rw [List.lookup_cons, show (q == a.1) = false by simpa using h.1]
    exact ih h.2

theorem lookup_append (l m : Kw) (q : String) : (l ++ m).lookup q = (l.lookup q).or (m.lookup q) := by
  induction l with
  | nil => rfl
  | cons a l ih =>
    rw [List.cons_append, List.lookup_cons, List.lookup_cons]
    cases q == a.1
    · exact ih
    · rfl

theorem defaults_names {ps : List (String × Option AVal)} (h : ∀ p ∈ ps, p.2.isSome = true) :
    (ps.filterMap (fun p => p.2.map (fun v => (p.1, v)))).map Prod.fst = ps.map Prod.fst := by
  induction ps with
  | nil => rfl
  | cons p ps ih =>
    obtain ⟨q, v⟩ := p
    cases v with
    | none => simpa using h (q, none) (by simp)
    | some v =>
      have := ih fun p hp => h p (by simp [hp])
      simp [this]

theorem lookup_defaults {f : Factory} (hr : Regular f) {q : String} {v : AVal} (h : (q, some v) ∈ f.params) : f.defaults.lookup q = some v := by
  have hm : (q, v) ∈ f.defaults := List.mem_filterMap.2 ⟨(q, some v), h, rfl⟩
  exact lookup_of_mem (by unfold Factory.defaults; rw [defaults_names hr.isSome]; exact hr.nodup) hm

/-- The arguments a factory passes on are those given, or its defaults. -/
theorem construct_pass {f : Factory} (hr : Regular f) {kw : Kw} (hk : ∀ a ∈ kw, a.1 ∈ f.params.map Prod.fst) :
    ∃ vals, bindArgs f.params false kw = .ok vals ∧
      f.cls.construct (f.pass.map (fun a => (a.1, (vals.lookup a.2).getD .none))) = f.cls.construct (kw ++ f.defaults) := by
  let a : String × Option AVal → AVal := fun p => ((argOf kw p).getD .none)
  refine ⟨f.params.map (fun p => (p.1, a p)), ?_, ?_⟩
  · unfold bindArgs
    rw [if_neg]
    · refine mapM_ok fun p hp => ?_
      rw [bindOne_eq]
      obtain ⟨q, v⟩ := p
      cases v with
      | none => exact absurd (hr.isSome _ hp) (by simp)
      | some v =>
        simp only [a, argOf]
        cases kw.lookup q <;> rfl
    · simpa using fun x v hx => by simpa using hk (x, v) hx
  · have hvals : ∀ p ∈ f.params, (f.params.map (fun p => (p.1, a p))).lookup p.1 = some (a p) := by
      intro p hp
      refine lookup_of_mem (l := f.params.map (fun p => (p.1, a p))) (a := (p.1, a p)) ?_ (List.mem_map.2 ⟨p, hp, rfl⟩)
      rw [List.map_map]
      exact hr.nodup
    have harg : ∀ p ∈ f.cls.params, ∃ v,
        argOf (f.pass.map (fun b => (b.1, ((f.params.map (fun p => (p.1, a p))).lookup b.2).getD .none))) p = some v ∧
          argOf (kw ++ f.defaults) p = some v := by
      intro p hp
      unfold argOf
      rw [lookup_pass f.pass (fun b => ((f.params.map (fun p => (p.1, a p))).lookup b).getD .none) p.1, lookup_append]
      rcases hr.pass p hp with ⟨h1, h2⟩ | ⟨h1, h2, h3⟩
      · obtain ⟨q, hq, hqp⟩ := List.mem_map.1 h2
        rw [h1]
        simp only [Option.map_some, Option.some_or]
        rw [← hqp, hvals q hq]
        refine ⟨a q, rfl, ?_⟩
        obtain ⟨q, v⟩ := q
        cases v with
        | none => exact absurd (hr.isSome _ hq) (by simp)
        | some v =>
          rw [lookup_defaults hr hq]
          simp only [a, argOf]
          cases kw.lookup q <;> rfl
      · rw [h1, lookup_none (l := kw) (fun h => h2 (by obtain ⟨b, hb, he⟩ := List.mem_map.1 h; exact he ▸ hk b hb)),
          lookup_none (l := f.defaults) (by unfold Factory.defaults; rw [defaults_names hr.isSome]; exact h2)]
        obtain ⟨v, hv⟩ := Option.isSome_iff_exists.1 h3
        exact ⟨v, hv, hv⟩
    choose! g hg1 hg2 using harg
    rw [construct_eq f.cls _ (Or.inr ?_) g hg1, construct_eq f.cls _ (Or.inr ?_) g hg2]
    · unfold build
      rw [hr.keep]
      simp
    · intro b hb
      rcases List.mem_append.1 hb with hb | hb
      · obtain ⟨p, hp, he⟩ := List.mem_map.1 (hk b hb)
        exact he ▸ hr.sub2 p hp
      · obtain ⟨p, hp, he⟩ := List.mem_filterMap.1 hb
        obtain ⟨v, hv, rfl⟩ := Option.map_eq_some_iff.1 he
        exact hr.sub2 p hp
    · intro b hb
      obtain ⟨p, hp, rfl⟩ := List.mem_map.1 hb
      exact hr.sub p hp

end Ctor

/-- C116.  A factory called with arguments of its signature builds its adapter with exactly these arguments and, for the others, the defaults of
its signature, and fails exactly as the adapter's constructor does; any other argument raises `TypeError`. -/
theorem C116_forward (f : Factory) (hf : f ∈ factories) (e : AVal) (he : e ≠ .none) (kw : Kw) :
    ((∀ a ∈ kw, a.1 ∈ f.params.map Prod.fst) →
      (f.call (some e) kw).map Prod.fst = f.cls.construct (kw ++ f.defaults) ∧ (f.call none kw).map Prod.fst = f.cls.construct (kw ++ f.defaults)) ∧
    (∀ base, (∃ a ∈ kw, a.1 ∉ f.params.map Prod.fst) → f.call base kw = .error .typeError) := by
  have hr := factories_regular f hf
  constructor
  · intro hk
    obtain ⟨vals, h1, h2⟩ := construct_pass hr hk
    unfold Factory.call
    rw [h1]
    simp only [h2]
    constructor
    · cases f.cls.construct (kw ++ f.defaults) with
      | error _ => rfl
      | ok o => cases e <;> first | exact absurd rfl he | rfl
    · cases f.cls.construct (kw ++ f.defaults) <;> rfl
  · intro base ⟨a, ha, hout⟩
    unfold Factory.call bindArgs
    rw [if_pos]
    simp only [Bool.not_false, Bool.true_and, List.any_eq_true, decide_eq_true_eq]
    exact ⟨a, ha, hout⟩

/-- C116 (defaults).  Leaving an argument out means the same for the factory and for the adapter it builds, except in `LinearOTMapping` and
`OTLabelProp` (see the counterexample) and for `gamma`, which the adapters require and three factories set to 1. -/
theorem C116_defaults_partial (f : Factory) (hf : f ∈ factories) (hn : f.name ∉ ["LinearOTMapping", "OTLabelProp"]) (kw : Kw)
    (hk : ∀ a ∈ kw, a.1 ∈ f.params.map Prod.fst) :
    (f.call none kw).map Prod.fst = f.cls.construct
      (if f.name ∈ ["KLIEPReweight", "MMDTarSReweight", "MMDLSConSMapping"] then kw ++ [("gamma", .num 1)] else kw) := by
  rw [((C116_forward f hf (.bool true) (by simp) kw).1 hk).2]
  have hr := factories_regular f hf
  have key : ∀ f ∈ factories, f.name ∉ ["LinearOTMapping", "OTLabelProp"] → ∀ p ∈ f.cls.params,
      (p.1 = "gamma" ∧ f.name ∈ ["KLIEPReweight", "MMDTarSReweight", "MMDLSConSMapping"] ∧ f.defaults.lookup "gamma" = some (.num 1)) ∨
        ((p.1 = "gamma" → f.name ∉ ["KLIEPReweight", "MMDTarSReweight", "MMDLSConSMapping"]) ∧
          p.2.isSome ∧ (f.defaults.lookup p.1 = none ∨ f.defaults.lookup p.1 = p.2)) := by decide +kernel
  have hgam : ∀ f ∈ factories, f.name ∈ ["KLIEPReweight", "MMDTarSReweight", "MMDLSConSMapping"] → "gamma" ∈ f.cls.params.map Prod.fst := by
    decide +kernel
  have harg : ∀ p ∈ f.cls.params, ∃ v, argOf (kw ++ f.defaults) p = some v ∧
      argOf (if f.name ∈ ["KLIEPReweight", "MMDTarSReweight", "MMDLSConSMapping"] then kw ++ [("gamma", .num 1)] else kw) p = some v := by
    intro p hp
    unfold argOf
    rw [lookup_append]
    rcases key f hf hn p hp with ⟨h1, h2, h3⟩ | ⟨h0, h1, h2⟩
    · rw [h1, h3, if_pos h2, lookup_append]
      cases hl : kw.lookup "gamma" with
      | none => exact ⟨.num 1, rfl, rfl⟩
      | some v => exact ⟨v, rfl, rfl⟩
    · obtain ⟨v, hv⟩ := Option.isSome_iff_exists.1 h1
      have hlk : List.lookup p.1 (if f.name ∈ ["KLIEPReweight", "MMDTarSReweight", "MMDLSConSMapping"] then kw ++ [("gamma", AVal.num 1)] else kw) =
          kw.lookup p.1 := by
        by_cases hm : f.name ∈ ["KLIEPReweight", "MMDTarSReweight", "MMDLSConSMapping"]
        · rw [if_pos hm, lookup_append]
          have hne : (p.1 == "gamma") = false := beq_eq_false_iff_ne.2 (fun h => h0 h hm)
          simp [List.lookup, hne]
        · rw [if_neg hm]
      rw [hlk]
      rcases h2 with h2 | h2 <;> rw [h2, hv] <;> cases kw.lookup p.1 <;> simp
  choose! g hg1 hg2 using harg
  have hk2 : ∀ b ∈ kw, b.1 ∈ f.cls.params.map Prod.fst := fun b hb => by
    obtain ⟨p, hp, he⟩ := List.mem_map.1 (hk b hb)
    exact he ▸ hr.sub2 p hp
  have hk3 : ∀ b ∈ (if f.name ∈ ["KLIEPReweight", "MMDTarSReweight", "MMDLSConSMapping"] then kw ++ [("gamma", AVal.num 1)] else kw),
      b.1 ∈ f.cls.params.map Prod.fst := by
    intro b hb
    by_cases hm : f.name ∈ ["KLIEPReweight", "MMDTarSReweight", "MMDLSConSMapping"]
    · rw [if_pos hm] at hb
      rcases List.mem_append.1 hb with hb | hb
      · exact hk2 b hb
      · rw [List.mem_singleton.1 hb]
        exact hgam f hf hm
    · rw [if_neg hm] at hb
      exact hk2 b hb
  rw [construct_eq f.cls _ (Or.inr ?_) g hg1, construct_eq f.cls _ (Or.inr hk3) g hg2]
  · unfold build
    rw [hr.keep]
    simp
  · intro b hb
    rcases List.mem_append.1 hb with hb | hb
    · exact hk2 b hb
    · obtain ⟨p, hp, he⟩ := List.mem_filterMap.1 hb
      obtain ⟨v, hv, rfl⟩ := Option.map_eq_some_iff.1 he
      exact hr.sub2 p hp

/-- C116 fails: `LinearOTMapping()` regularises with 1, `LinearOTMappingAdapter()` with 1e-8, which is also what the documentation of
`LinearOTMapping` gives as default; `OTLabelProp()` passes `reg=0`, `OTLabelPropAdapter()` has `None`. -/
theorem C116_defaults_counterexample :
    (linearOTMappingFactory.call none []).map (fun r => r.1.attr "reg") = .ok (.num 1) ∧
    (linearOTMappingAdapter.construct []).map (fun o => o.attr "reg") = .ok (.num (1 / 100000000)) ∧
    (otLabelPropFactory.call none []).map (fun r => r.1.attr "reg") = .ok (.num 0) ∧
    (otLabelPropAdapter.construct []).map (fun o => o.attr "reg") = .ok .none := by
  refine ⟨?_, ?_, ?_, ?_⟩ <;> decide +kernel

/-- C116 (final estimator).  The estimator given is the pipeline's last step as it is.  Without one, or with `None`, it is the documented default,
which takes sample weights in all pipelines whose adapter makes or passes on weights; only `ClassRegularizerOTMapping(None)` raises
`AttributeError`. -/
theorem C116_final (f : Factory) (hf : f ∈ factories) (kw : Kw) (o : Obj) (h : f.cls.construct (kw ++ f.defaults) = .ok o)
    (hk : ∀ a ∈ kw, a.1 ∈ f.params.map Prod.fst) :
    (∀ e, e ≠ .none → f.call (some e) kw = .ok (o, e)) ∧ f.call none kw = .ok (o, .est f.final) ∧
    f.call (some .none) kw = (if f.name = "ClassRegularizerOTMapping" then .error .attributeError else .ok (o, .est f.final)) ∧
    (f.final.wantsWeights = true ↔ f.name ∈ ["DensityReweight", "GaussianReweight", "DiscriminatorReweight", "KLIEPReweight",
      "NearestNeighborReweight", "KMMReweight", "MMDTarSReweight", "OTLabelProp"]) := by
  obtain ⟨vals, h1, h2⟩ := construct_pass (factories_regular f hf) hk
  have e : ∀ base, f.call base kw = (match base with
      | none => .ok (o, .est f.final)
      | some .none => if f.sharedFinal then .error .attributeError else .ok (o, .est f.final)
      | some v => .ok (o, v)) := by
    intro base
    unfold Factory.call
    rw [h1]
    simp only [h2, h]
    cases base with
    | none => rfl
    | some v => cases v <;> rfl
  have hs : ∀ f ∈ factories, (f.sharedFinal = true ↔ f.name = "ClassRegularizerOTMapping") ∧
      (f.final.wantsWeights = true ↔ f.name ∈ ["DensityReweight", "GaussianReweight", "DiscriminatorReweight", "KLIEPReweight",
        "NearestNeighborReweight", "KMMReweight", "MMDTarSReweight", "OTLabelProp"]) := by decide +kernel
  refine ⟨fun v hv => ?_, e none, ?_, (hs f hf).2⟩
  · rw [e]
    cases v <;> first | exact absurd rfl hv | rfl
  · rw [e]
    by_cases hc : f.sharedFinal = true
    · rw [if_pos ((hs f hf).1.1 hc)]; simp only [hc, if_true]
    · rw [if_neg (fun hh => hc ((hs f hf).1.2 hh))]; simp only [Bool.not_eq_true] at hc; simp [hc]

/-- `KLIEPReweight(gamma=2, cv=3)` meets the hypotheses of `C116_forward`, `C116_defaults_partial` and `C116_final`. -/
example : kliepReweightFactory ∈ factories ∧ (∀ a ∈ ([("gamma", .num 2), ("cv", .num 3)] : Kw), a.1 ∈ kliepReweightFactory.params.map Prod.fst) ∧
    ((kliepReweightFactory.call none [("gamma", .num 2), ("cv", .num 3)]).map fun r => (r.1.attr "gamma", r.1.attr "cv", r.1.attr "max_iter")) =
      .ok (.num 2, .num 3, .num 1000) ∧
    ((kliepReweightFactory.call none [("cv", .num 3)]).map fun r => (r.1.attr "gamma", r.1.attr "cv")) = .ok (.num 1, .num 3) ∧
    otMappingFactory.call none [("reg_e", .num 2)] = .error .typeError := by
  refine ⟨by simp [factories], ?_, ?_, ?_, ?_⟩ <;> decide +kernel

/-! ### Settings of one pipeline and another -/

namespace Ctor

/-- Every pipeline holds an object of its own, and objects not yet made have no settings. -/
structure Own (h : Heap) : Prop where
  nodup : h.pipes.Nodup
  lt : ∀ r ∈ h.pipes, r < h.next
  fresh : ∀ r, h.next ≤ r → ∀ p, h.store r p = none

end Ctor

/-- Pipelines as values: the parameters set on the final estimator of each.  A new pipeline has none, and setting one concerns one pipeline. -/
def Spec.pipelinesStep (ps : List (String → Option AVal)) : Op → List (String → Option AVal)
  | .build _ => ps ++ [(fun _ => none : String → Option AVal)]
  | .set i p v => ps.modify i (fun s q => if q = p then some v else s q)

/-- After a list of operations. -/
def Spec.pipelines (ops : List Op) : List (String → Option AVal) := ops.foldl Spec.pipelinesStep []

namespace Ctor

theorem own_step {h : Heap} (ho : Own h) {op : Op} (hf : ∀ f, op = .build f → f.sharedFinal = false) : Own (h.step op) := by
  cases op with
  | build f =>
    simp only [Heap.step, hf f rfl, Bool.false_eq_true, if_false]
    refine ⟨?_, ?_, fun r hr => ho.fresh r (by simp only at hr; omega)⟩
    · rw [List.nodup_append]
      refine ⟨ho.nodup, by simp, ?_⟩
      intro a ha b hb
      have := ho.lt a ha
      simp only [List.mem_singleton] at hb
      omega
    · intro r hr
      rcases List.mem_append.1 hr with hr | hr
      · have := ho.lt r hr; simp only; omega
      · simp only [List.mem_singleton] at hr; simp only; omega
  | set i p v =>
    simp only [Heap.step]
    cases hi : h.pipes[i]? with
    | none => exact ho
    | some r =>
      refine ⟨ho.nodup, ho.lt, fun r' hr' q => ?_⟩
      have := ho.lt r (List.mem_of_getElem? hi)
      simp only at hr' ⊢
      rw [if_neg (by omega)]
      exact ho.fresh r' hr' q

theorem own_run (ops : List Op) (hf : ∀ f, .build f ∈ ops → f.sharedFinal = false) :
    let h := ops.foldl Heap.step Heap.init
    Own h ∧ h.pipes.map h.store = Spec.pipelines ops := by
  induction ops using List.reverseRecOn with
  | nil => exact ⟨⟨by simp [Heap.init], by simp [Heap.init], fun _ _ _ => rfl⟩, rfl⟩
  | append_singleton ops op ih =>
    obtain ⟨ho, hp⟩ := ih fun f h => hf f (by simp [h])
    simp only [Spec.pipelines, List.foldl_append, List.foldl_cons, List.foldl_nil] at hp ⊢
    rw [← hp]
    generalize ops.foldl Heap.step Heap.init = h at ho
    have hop : ∀ f, op = .build f → f.sharedFinal = false := fun f h => hf f (by simp [h])
    refine ⟨own_step ho hop, ?_⟩
    cases op with
    | build f =>
      simp only [Spec.pipelinesStep, Heap.step, hop f rfl, Bool.false_eq_true, if_false, List.map_append, List.map_cons, List.map_nil]
      congr 2
      funext p
      exact ho.fresh _ le_rfl p
    | set i p v =>
      simp only [Spec.pipelinesStep, Heap.step]
      cases hi : h.pipes[i]? with
      | none =>
        simp only
        rw [List.modify_eq_self]
        simpa using hi
      | some r =>
        simp only
        apply List.ext_getElem?
        intro j
        rw [List.getElem?_map, List.getElem?_modify, List.getElem?_map]
        cases hj : h.pipes[j]? with
        | none => rfl
        | some r' =>
          simp only [Option.map_some]
          by_cases hij : i = j
          · subst hij
            rw [hi] at hj
            cases hj
            simp
          · have hne : r' ≠ r := fun he => hij
              ((List.getElem?_inj (List.getElem?_eq_some_iff.1 hi).1 ho.nodup).1 (by rw [hi, hj, he]))
            simp [hij, hne]

end Ctor

/-- C116 (no shared settings).  Whatever pipelines are built one after another without `base_estimator`, by any factories except
`ClassRegularizerOTMapping`, and whatever parameters are set on their final estimators: each pipeline has the parameters set on it and no
others. -/
theorem C116_isolated_partial (ops : List Op) (hf : ∀ f, .build f ∈ ops → f ∈ factories ∧ f.name ≠ "ClassRegularizerOTMapping") (i : Nat) (p : String) :
    (ops.foldl Heap.step Heap.init).param i p = (Spec.pipelines ops)[i]?.bind (fun s => s p) := by
  have hs : ∀ f ∈ factories, f.name ≠ "ClassRegularizerOTMapping" → f.sharedFinal = false := by decide +kernel
  have h := (own_run ops fun f h => hs f (hf f h).1 (hf f h).2).2
  rw [← h, List.getElem?_map]
  unfold Heap.param
  cases (ops.foldl Heap.step Heap.init).pipes[i]? <;> rfl

/-- C116 fails: setting a parameter on one `ClassRegularizerOTMapping()` sets it on all others, also on those built later. -/
theorem C116_isolated_counterexample (p : String) (v : AVal) :
    ([.build classRegularizerOTMappingFactory, .set 0 p v, .build classRegularizerOTMappingFactory].foldl Heap.step Heap.init).param 1 p = some v ∧
      (Spec.pipelines [.build classRegularizerOTMappingFactory, .set 0 p v, .build classRegularizerOTMappingFactory])[1]?.bind (fun s => s p) = none := by
  constructor
  · simp [Heap.param, Heap.step, Heap.init, classRegularizerOTMappingFactory]
  · simp [Spec.pipelines, Spec.pipelinesStep]

/-- Two pipelines, the second with `C=10`. -/
example : (∀ f, .build f ∈ [Op.build otMappingFactory, .build coralFactory, .set 1 "C" (.num 10)] → f ∈ factories ∧ f.name ≠ "ClassRegularizerOTMapping") ∧
    ([Op.build otMappingFactory, .build coralFactory, .set 1 "C" (.num 10)].foldl Heap.step Heap.init).param 1 "C" = some (.num 10) ∧
    ([Op.build otMappingFactory, .build coralFactory, .set 1 "C" (.num 10)].foldl Heap.step Heap.init).param 0 "C" = none := by
  refine ⟨?_, by decide +kernel, by decide +kernel⟩
  intro f hf
  simp only [List.mem_cons, Op.build.injEq, reduceCtorEq, List.not_mem_nil, or_false] at hf
  rcases hf with rfl | rfl <;> exact ⟨by simp [factories], by decide⟩

/-! ### Transport objects -/

/-- The transport class of each OT mapping adapter (`norm` is that of the class regularisation). -/
def Spec.transportClass (cls : String) (norm : AVal) : Option String :=
  match cls with
  | "OTMappingAdapter" => some "EMDTransport"
  | "EntropicOTMappingAdapter" => some "SinkhornTransport"
  | "ClassRegularizerOTMappingAdapter" => if norm = .str "lpl1" then some "SinkhornLpl1Transport" else
      if norm = .str "l1l2" then some "SinkhornL1l2Transport" else none
  | "LinearOTMappingAdapter" => some "LinearTransport"
  | _ => none

/-- C116 (transport).  Each parameter of an OT mapping adapter reaches the transport object under its own name, all of them except the
`norm` of the class regularisation, which chooses the class; an unknown norm raises `AssertionError` when the adapter is fitted. -/
theorem C116_transport (c : Cls) (hc : c ∈ [otMappingAdapter, entropicOTMappingAdapter, classRegularizerOTMappingAdapter, linearOTMappingAdapter])
    (kw : Kw) (o : Obj) (h : c.construct kw = .ok o) :
    match Spec.transportClass c.name (o.attr "norm") with
    | none => transport c.name o = .error .assertionError
    | some t => ∃ args, transport c.name o = .ok (t, args) ∧
        (∀ p ∈ c.params.map Prod.fst, p = "norm" ∧ c.name = "ClassRegularizerOTMappingAdapter" ∨ args.lookup p = some (o.attr p)) ∧
        ∀ a ∈ args, a.1 ∈ c.params.map Prod.fst := by
  simp only [List.mem_cons, List.not_mem_nil, or_false] at hc
  rcases hc with rfl | rfl | rfl | rfl
  · refine ⟨_, rfl, ?_, ?_⟩ <;> simp [otMappingAdapter, List.lookup]
  · refine ⟨_, rfl, ?_, ?_⟩ <;> simp [entropicOTMappingAdapter, List.lookup]
  · have hname : classRegularizerOTMappingAdapter.name = "ClassRegularizerOTMappingAdapter" := rfl
    rw [hname]
    simp only [Spec.transportClass, transport]
    by_cases h1 : o.attr "norm" = .str "lpl1"
    · simp [h1, classRegularizerOTMappingAdapter, List.lookup]; tauto
    · by_cases h2 : o.attr "norm" = .str "l1l2"
      · simp [h2, classRegularizerOTMappingAdapter, List.lookup]; tauto
      · simp [h1, h2]
  · refine ⟨_, rfl, ?_, ?_⟩ <;> simp [linearOTMappingAdapter, List.lookup]

/-- `ClassRegularizerOTMappingAdapter(norm="l1l2", reg_cl=2)`, and an unknown norm. -/
example : ((classRegularizerOTMappingAdapter.construct [("norm", .str "l1l2"), ("reg_cl", .num 2)]).bind
      (transport "ClassRegularizerOTMappingAdapter")).map (fun r => (r.1, r.2.lookup "reg_cl", r.2.lookup "tol")) =
    .ok ("SinkhornL1l2Transport", some (.num 2), some (.num (1 / 100000000))) ∧
    (classRegularizerOTMappingAdapter.construct [("norm", .str "l2")]).bind (transport "ClassRegularizerOTMappingAdapter") =
      .error .assertionError := by
  constructor <;> decide +kernel

end Skada

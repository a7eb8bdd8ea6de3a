/-
C135: an argument that is left out has its documented default.
-/
import Verif.Spec.Documented
import Verif.Props.Factories

namespace Skada
open Ctor

/-- C135 (estimators).  An object built without an argument whose default is documented has the documented value, whatever the other arguments
are; `max_iter` of `KMMReweightAdapter` is the exception. -/
theorem C135_classes_partial (c : Cls) (hc : c ∈ library) (kw : Kw) (o : Obj) (h : c.construct kw = .ok o) (a : String × AVal)
    (ha : a ∈ Spec.documented c.name) (hx : (c.name, a.1) ∉ Spec.undocumented) (hk : kw.lookup a.1 = none) : o.attr a.1 = a.2 := by
  have key : ∀ c ∈ library, ∀ a ∈ Spec.documented c.name, (c.name, a.1) ∉ Spec.undocumented →
      ∃ p ∈ c.params, p.1 = a.1 ∧ p.2.map (c.norm p.1) = some (.ok a.2) := by decide +kernel
  obtain ⟨p, hp, he, hd⟩ := key c hc a ha hx
  obtain ⟨w, hw, hs⟩ := (construct_ok (lib_sound c hc).nodup h).stored p hp
  unfold argOf at hw
  rw [he, hk, Option.none_or] at hw
  rw [hw, Option.map_some, hs] at hd
  rw [← he]
  simpa using hd

/-- C135 (functions).  The same for the adapter in the pipeline that a factory builds, with or without a base estimator; the exceptions are
`max_iter` of `KMMReweight` and `reg` of `LinearOTMapping`. -/
theorem C135_factories_partial (f : Factory) (hf : f ∈ factories) (base : Option AVal) (kw : Kw) (r : Obj × AVal) (h : f.call base kw = .ok r)
    (a : String × AVal) (ha : a ∈ Spec.documented f.name) (hx : (f.name, a.1) ∉ Spec.undocumented) (hk : kw.lookup a.1 = none) :
    r.1.attr a.1 = a.2 := by
  have key : ∀ f ∈ factories, f.cls ∈ library ∧ ∀ a ∈ Spec.documented f.name, (f.name, a.1) ∉ Spec.undocumented →
      ∃ p ∈ f.cls.params, p.1 = a.1 ∧ ((f.defaults.lookup a.1).or p.2).map (f.cls.norm p.1) = some (.ok a.2) := by
    intro f hf
    refine ⟨?_, ?_⟩
    · simp only [factories, List.mem_cons, List.not_mem_nil, or_false] at hf
      rcases hf with rfl | rfl | rfl | rfl | rfl | rfl | rfl | rfl | rfl | rfl | rfl | rfl | rfl | rfl | rfl | rfl | rfl | rfl | rfl | rfl <;>
        simp [library, densityReweightFactory, gaussianReweightFactory, discriminatorReweightFactory, kliepReweightFactory,
          nearestNeighborReweightFactory, kmmReweightFactory, mmdTarSReweightFactory, otMappingFactory, entropicOTMappingFactory,
          classRegularizerOTMappingFactory, linearOTMappingFactory, multiLinearMongeAlignmentFactory, coralFactory, mmdLSConSMappingFactory,
          subspaceAlignmentFactory, transferComponentAnalysisFactory, transferJointMatchingFactory, transferSubspaceLearningFactory,
          otLabelPropFactory, jcpotLabelPropFactory]
    · revert f hf
      decide +kernel
  obtain ⟨hl, key⟩ := key f hf
  obtain ⟨p, hp, he, hd⟩ := key a ha hx
  have hin : ∀ b ∈ kw, b.1 ∈ f.params.map Prod.fst := by
    by_contra hne
    push Not at hne
    rw [(C116_forward f hf (.bool true) (by simp) kw).2 base hne] at h
    cases h
  obtain ⟨vals, h1, h2⟩ := construct_pass (factories_regular f hf) hin
  have hcons : f.cls.construct (kw ++ f.defaults) = .ok r.1 := by
    unfold Factory.call at h
    rw [h1] at h
    simp only [h2] at h
    cases hcc : f.cls.construct (kw ++ f.defaults) with
    | error e => rw [hcc] at h; cases h
    | ok o =>
      rw [hcc] at h
      simp only at h
      split at h
      · cases h; rfl
      · split at h <;> cases h
        rfl
      · cases h; rfl
  obtain ⟨w, hw, hs⟩ := (construct_ok (lib_sound f.cls hl).nodup hcons).stored p hp
  unfold argOf at hw
  rw [lookup_append, he, hk, Option.none_or] at hw
  rw [hw, Option.map_some, hs] at hd
  rw [← he]
  simpa using hd

/-- C135 (base estimators).  Without `base_estimator` the pipeline ends with an estimator of the documented class, except in `JCPOTLabelProp`. -/
theorem C135_final_partial (f : Factory) (hf : f ∈ factories) (hn : f.name ≠ "JCPOTLabelProp") (kw : Kw) (r : Obj × AVal)
    (h : f.call none kw = .ok r) (s : String) (hs : Spec.documentedFinal f.name = some s) : ∃ e : AEst, r.2 = .est e ∧ e.cls = s := by
  have key : ∀ f ∈ factories, f.name ≠ "JCPOTLabelProp" → ∀ s ∈ Spec.documentedFinal f.name, f.final.cls = s := by decide +kernel
  refine ⟨f.final, ?_, key f hf hn s hs⟩
  unfold Factory.call at h
  split at h
  · cases h
  · split at h
    · cases h
    · cases h; rfl

/-- C135 (DASVM).  "It is a SVC by default" (skada/_self_labeling.py:36). -/
theorem C135_dasvm (kw : Kw) (o : Obj) (h : dasvmClassifier.construct kw = .ok o)
    (hk : kw.lookup "base_estimator" = none ∨ kw.lookup "base_estimator" = some .none) :
    ∃ e : AEst, o.attr "base_estimator" = .est e ∧ e.cls = "SVC" := by
  obtain ⟨w, hw, hs⟩ := (construct_ok (lib_sound dasvmClassifier (by simp [library])).nodup h).stored ("base_estimator", some .none) (by
    simp [dasvmClassifier])
  refine ⟨svcProbability, ?_, rfl⟩
  have : w = .none := by
    unfold argOf at hw
    rcases hk with hk | hk <;> rw [hk] at hw <;> simpa using hw.symm
  subst this
  exact (Except.ok.inj hs).symm

/-- C135 (DASVM, continued).  `DASVMClassifier` remembers estimators and indices only if asked to (skada/_self_labeling.py:44-48). -/
theorem C135_dasvm_memory (kw : Kw) (o : Obj) (h : dasvmClassifier.construct kw = .ok o) (p : String)
    (hp : p = "save_estimators" ∨ p = "save_indices") (hk : kw.lookup p = none) : o.attr p = .bool false := by
  have key : (p, some (.bool false)) ∈ dasvmClassifier.params := by
    rcases hp with rfl | rfl <;> simp [dasvmClassifier]
  obtain ⟨w, hw, hs⟩ := (construct_ok (lib_sound dasvmClassifier (by simp [library])).nodup h).stored _ key
  have : w = .bool false := by
    unfold argOf at hw
    rw [hk] at hw
    simpa using hw.symm
  subst this
  have hne : p ≠ "base_estimator" := by rcases hp with rfl | rfl <;> decide
  simp only [dasvmClassifier, if_neg hne] at hs
  exact (Except.ok.inj hs).symm

/-- C135 (label propagation).  Of the adapters of the package only JCPOT announces that it predicts target labels (skada/_ot.py:946-947), which
`make_da_pipeline` asks for. -/
theorem C135_announces (c : Cls) (hc : c ∈ library) (kw : Kw) (o : Obj) (h : c.construct kw = .ok o) :
    o.derived.lookup "predicts_target_labels" = if c.name = "JCPOTLabelPropAdapter" then some (.bool true) else none := by
  have hd : ∃ g, o.derived = c.derived g := by
    unfold Cls.construct at h
    split at h
    · cases h
    · split at h
      · cases h
      · cases h; exact ⟨_, rfl⟩
  obtain ⟨g, hg⟩ := hd
  rw [hg]
  clear h hg
  unfold library at hc
  simp only [List.mem_cons, List.not_mem_nil, or_false] at hc
  rcases hc with rfl | rfl | rfl | rfl | rfl | rfl | rfl | rfl | rfl | rfl | rfl | rfl | rfl | rfl | rfl | rfl | rfl | rfl | rfl | rfl | rfl | rfl | rfl <;>
    rfl

/-- C135 (transfer subspace learning).  Without `base_estimator` it ends with the classifier of the single nearest neighbour. -/
theorem C135_nearest (kw : Kw) (r : Obj × AVal) (h : transferSubspaceLearningFactory.call none kw = .ok r) :
    ∃ e : AEst, r.2 = .est e ∧ e.cls = "KNeighborsClassifier" ∧ e.cfg = "n_neighbors=1" := by
  unfold Factory.call at h
  split at h
  · cases h
  · split at h
    · cases h
    · cases h; exact ⟨_, rfl, rfl, rfl⟩

/-- C135 fails: the documentation of KMM gives `max_iter` as 100 and the code uses 1000 (skada/_reweight.py:979, 1009, 1164, 1137); that of
`LinearOTMapping` gives `reg` as 1e-8 and the code uses 1 (skada/_mapping.py:494, 482); that of `JCPOTLabelProp` gives `LinearRegression()`, a
regressor, and the code uses `LogisticRegression()` (skada/_ot.py:1003, 1035). -/
theorem C135_counterexample :
    (("max_iter", .num 100) ∈ Spec.documented "KMMReweightAdapter" ∧
      (kmmReweightAdapter.construct []).map (fun o => o.attr "max_iter") = .ok (.num 1000)) ∧
    (("max_iter", .num 100) ∈ Spec.documented "KMMReweight" ∧
      (kmmReweightFactory.call none []).map (fun r => r.1.attr "max_iter") = .ok (.num 1000)) ∧
    (("reg", .num (1 / 100000000)) ∈ Spec.documented "LinearOTMapping" ∧
      (linearOTMappingFactory.call none []).map (fun r => r.1.attr "reg") = .ok (.num 1)) ∧
    (Spec.documentedFinal "JCPOTLabelProp" = some "LinearRegression" ∧
      (jcpotLabelPropFactory.call none []).map (fun r => r.2) = .ok (.est { cls := "LogisticRegression" })) := by
  decide +kernel

/-- `TransferSubspaceLearningAdapter(mu=1)` and `JDOTClassifier(alpha=0.1, numItermax=7)` (a further keyword argument) meet the hypotheses of
`C135_classes_partial`, `KMMReweight(SVC(), max_iter=5)` those of `C135_factories_partial`, `KLIEPReweight(cv=3)` those of
`C135_final_partial`. -/
example :
    (transferSubspaceLearningAdapter.construct [("mu", .num 1)]).map (fun o => (o.attr "mu", o.attr "reg", o.attr "base_method")) =
      .ok (.num 1, .num (1 / 100), .str "flda") ∧
    (jdotClassifier.construct [("alpha", .num (1 / 10)), ("numItermax", .num 7)]).map
      (fun o => (o.attr "alpha", o.attr "metric", o.attr "base_estimator")) =
      .ok (.num (1 / 10), .str "multinomial", .est { cls := "LogisticRegression" }) ∧
    (kmmReweightFactory.call (some (.est svc)) [("max_iter", .num 5)]).map (fun r => (r.1.attr "kernel", r.1.attr "B", r.1.attr "max_iter")) =
      .ok (.str "rbf", .num 1000, .num 5) ∧
    (kliepReweightFactory.call none [("cv", .num 3)]).map (fun r => r.2) = .ok (.est { cls := "LogisticRegression", wantsWeights := true }) ∧
    (dasvmClassifier.construct [("save_indices", .bool true)]).map (fun o => (o.attr "save_estimators", o.attr "save_indices")) =
      .ok (.bool false, .bool true) ∧
    (jcpotLabelPropAdapter.construct []).map (fun o => o.derived) = .ok [("predicts_target_labels", .bool true)] ∧
    (transferSubspaceLearningFactory.call none [("mu", .num 1)]).map (fun r => r.2) = .ok (.est kNeighbors) ∧
    ("B", .num 1000) ∈ Spec.documented "KMMReweight" ∧ ("KMMReweight", "B") ∉ Spec.undocumented := by
  decide +kernel

end Skada

/-
C115: constructor arguments survive `clone` and `set_params`.  C116: the functions that build pipelines pass their arguments on.
-/
import Verif.Lemmas.Ctor

namespace Skada
open Ctor

/-! ### C115: constructors, `clone`, `set_params` -/

namespace Ctor

/-- What `__init__` stores is stored unchanged by another `__init__`, and parameter names differ. -/
structure Sound (c : Cls) : Prop where
  nodup : (c.params.map Prod.fst).Nodup
  idem : ∀ p v w, c.norm p v = .ok w → c.norm p w = .ok w

theorem or_idem {v w d : AVal} (hd : d.truthy = .ok true) (h : v.or d = .ok w) : w.or d = .ok w := by
  unfold AVal.or at h
  split at h
  · cases h
  · rename_i ht
    cases h
    unfold AVal.or
    rw [ht]
  · cases h
    unfold AVal.or
    rw [hd]

theorem orPredictor_idem {v w : AVal} {d : AEst} (hd : (d.hasFit && d.hasPredict) = true) (h : v.orPredictor d = .ok w) :
    w.orPredictor d = .ok w := by
  unfold AVal.orPredictor at h
  split at h
  · cases h
    unfold AVal.orPredictor
    simp only [hd, if_true]
  · rename_i e
    split at h
    · rename_i he
      cases h
      unfold AVal.orPredictor
      simp only [he, if_true]
    · cases h
  · cases h

theorem idem_plain {c : Cls} (h : c.norm = fun _ v => .ok v) : ∀ p v w, c.norm p v = .ok w → c.norm p w = .ok w := by
  intro p v w _
  rw [h]

theorem lib_cases {P : Cls → Prop} (h1 : P densityReweightAdapter) (h2 : P discriminatorReweightAdapter) (h3 : P kmmReweightAdapter)
    (h4 : P transferSubspaceLearningAdapter) (h5 : P jdotRegressor) (h6 : P jdotClassifier) (h7 : P dasvmClassifier)
    (h8 : ∀ c ∈ library, c.norm = (fun _ v => .ok v) → (c.params.map Prod.fst).Nodup → c.varKw = false → c.keepKw = false → P c) :
    ∀ c ∈ library, P c := by
  have h9 : ∀ c, c ∈ library → c.norm = (fun _ v => .ok v) → (decide (c.params.map Prod.fst).Nodup && !c.varKw && !c.keepKw) = true → P c := by
    intro c hc hn hd
    simp only [Bool.and_eq_true, decide_eq_true_eq, Bool.not_eq_true'] at hd
    exact h8 c hc hn hd.1.1 hd.1.2 hd.2
  have hmem := fun c (h : c ∈ library) => h9 c h
  unfold library at *
  simp only [List.forall_mem_cons, List.not_mem_nil, false_imp_iff, implies_true, and_true] at hmem ⊢
  obtain ⟨-, a2, -, a4, a5, -, a7, a8, a9, a10, a11, a12, a13, a14, a15, a16, a17, -, -, -, a21, a22, -⟩ := hmem
  exact ⟨h1, a2 rfl (by decide), h2, a4 rfl (by decide), a5 rfl (by decide), h3, a7 rfl (by decide), a8 rfl (by decide), a9 rfl (by decide),
    a10 rfl (by decide), a11 rfl (by decide), a12 rfl (by decide), a13 rfl (by decide), a14 rfl (by decide), a15 rfl (by decide),
    a16 rfl (by decide), a17 rfl (by decide), h4, h5, h6, a21 rfl (by decide), a22 rfl (by decide), h7⟩

theorem lib_sound : ∀ c ∈ library, Sound c := by
  refine lib_cases ?_ ?_ ?_ ?_ ?_ ?_ ?_ (fun c _ hn hd _ _ => ⟨hd, idem_plain hn⟩)
  · refine ⟨by decide, fun p v w h => ?_⟩
    simp only [densityReweightAdapter] at h ⊢
    split at h
    · rename_i hp; rw [if_pos hp]; exact or_idem rfl h
    · rename_i hp; rw [if_neg hp]
  · refine ⟨by decide, fun p v w h => ?_⟩
    simp only [discriminatorReweightAdapter] at h ⊢
    split at h
    · rename_i hp; rw [if_pos hp]; exact or_idem rfl h
    · rename_i hp; rw [if_neg hp]
  · refine ⟨by decide, fun p v w h => ?_⟩
    simp only [kmmReweightAdapter] at h ⊢
    split at h
    · rename_i hp; rw [if_pos hp]
      split at h
      · rename_i hv; cases h; rw [if_pos hv]
      · cases h
    · rename_i hp; rw [if_neg hp]
  · refine ⟨by decide, fun p v w h => ?_⟩
    simp only [transferSubspaceLearningAdapter] at h ⊢
    split at h
    · rename_i hp; rw [if_pos hp]
      split at h
      · rename_i hv; cases h; rw [if_pos hv]
      · cases h
    · rename_i hp; rw [if_neg hp]
      split at h
      · rename_i hp2; rw [if_pos hp2]
        split at h
        · cases h; norm_num
        · split at h
          · cases h
          · rename_i hr; cases h; simp only [if_neg hr]
        · cases h; rfl
        · cases h
      · rename_i hp2; rw [if_neg hp2]
  · refine ⟨by decide, fun p v w h => ?_⟩
    simp only [jdotRegressor] at h ⊢
    split at h
    · rename_i hp; rw [if_pos hp]; exact orPredictor_idem rfl h
    · rename_i hp; rw [if_neg hp]
  · refine ⟨by decide, fun p v w h => ?_⟩
    simp only [jdotClassifier] at h ⊢
    split at h
    · rename_i hp; rw [if_pos hp]; exact orPredictor_idem rfl h
    · rename_i hp; rw [if_neg hp]
  · refine ⟨by decide, fun p v w h => ?_⟩
    simp only [dasvmClassifier] at h ⊢
    split at h
    · rename_i hp; rw [if_pos hp]
      split at h
      · cases h; rfl
      · rename_i hv
        cases h
        cases v <;> first | rfl | exact absurd rfl hv
    · rename_i hp; rw [if_neg hp]

theorem argOf_getParams {c : Cls} (o : Obj) {p : String × Option AVal} (hp : p ∈ c.params) : argOf (c.getParams o) p = some (o.attr p.1) := by
  unfold argOf Cls.getParams
  rw [lookup_map_params o.attr (List.mem_map.2 ⟨p, hp, rfl⟩)]
  rfl

theorem known_getParams (c : Cls) (o : Obj) : Known c (c.getParams o) := by
  refine Or.inr fun a ha => ?_
  obtain ⟨p, hp, rfl⟩ := List.mem_map.1 ha
  exact List.mem_map.2 ⟨p, hp, rfl⟩

theorem filter_getParams (c : Cls) (o : Obj) : (c.getParams o).filter (fun a => decide (a.1 ∉ c.params.map Prod.fst)) = [] := by
  rw [List.filter_eq_nil_iff]
  intro a ha
  obtain ⟨p, hp, rfl⟩ := List.mem_map.1 ha
  simp only [decide_not, Bool.not_eq_true', decide_eq_false_iff_not, not_not]
  exact List.mem_map.2 ⟨p, hp, rfl⟩

/-- Rebuilding an object from its parameters. -/
theorem construct_getParams (c : Cls) (o : Obj) :
    c.construct (c.getParams o) = build c [] (c.params.mapM (fun p => c.normOne (p.1, o.attr p.1))) := by
  rw [construct_eq c _ (known_getParams c o) (fun p => o.attr p.1) (fun p hp => argOf_getParams o hp)]
  unfold build
  rw [filter_getParams]
  simp

theorem all_getParams (c : Cls) (o o' : Obj) :
    (c.getParams o).all (fun a => decide (o'.attr a.1 = a.2)) = true ↔ ∀ p ∈ c.params, o'.attr p.1 = o.attr p.1 := by
  simp [Cls.getParams, List.all_eq_true]

theorem setParam_attr {c : Cls} {o o' : Obj} {p : String} {v : AVal} (hn : o.attrs.map Prod.fst = c.params.map Prod.fst)
    (h : c.setParam o p v = .ok o') : p ∈ c.params.map Prod.fst ∧ o'.attr p = v ∧ (∀ q, q ≠ p → o'.attr q = o.attr q) ∧
      o'.derived = o.derived ∧ o'.kwargs = o.kwargs := by
  unfold Cls.setParam at h
  split at h
  · rename_i hp
    cases h
    refine ⟨hp, ?_, fun q hq => ?_, rfl, rfl⟩
    · rw [← hn] at hp
      unfold Obj.attr
      simp only
      generalize o.attrs = l at hp
      induction l with
      | nil => simp at hp
      | cons a l ih =>
        rw [List.map_cons]
        by_cases ha : a.1 = p
        · simp [ha, List.lookup]
        · rw [if_neg ha, List.lookup_cons, show (p == a.1) = false by simpa using fun h => ha h.symm]
          exact ih ((List.mem_cons.1 hp).resolve_left fun h => ha h.symm)
    · unfold Obj.attr
      simp only
      congr 1
      generalize o.attrs = l
      induction l with
      | nil => rfl
      | cons a l ih =>
        rw [List.map_cons, List.lookup_cons, List.lookup_cons]
        by_cases ha : a.1 = p
        · rw [if_pos ha, ha]
          simp only [show (q == p) = false by simpa using hq]
          exact ih
        · rw [if_neg ha]
          rw [ih]
  · cases h

end Ctor

/-- C115.  Every argument that is given and is not `None` is stored as it is; a `weight_estimator` or `domain_classifier` must also be true
as a Python value. -/
theorem C115_stored (c : Cls) (hc : c ∈ library) (kw : Kw) (o : Obj) (h : c.construct kw = .ok o) (p : String) (v : AVal)
    (hp : p ∈ c.params.map Prod.fst) (hv : kw.lookup p = some v) (hnone : v ≠ .none)
    (ht : p = "weight_estimator" ∨ p = "domain_classifier" → v.truthy = .ok true) : o.attr p = v := by
  obtain ⟨q, hq, rfl⟩ := List.mem_map.1 hp
  obtain ⟨w, hw, hs⟩ := (construct_ok (lib_sound c hc).nodup h).stored q hq
  have : w = v := by
    unfold argOf at hw
    rw [hv] at hw
    simpa using hw.symm
  subst this
  have key : ∀ c ∈ library, ∀ u, c.norm q.1 w = .ok u → u = w := by
    refine lib_cases ?_ ?_ ?_ ?_ ?_ ?_ ?_ (fun c _ hn _ _ _ u hu => by rw [hn] at hu; cases hu; rfl)
    · intro u hu
      simp only [densityReweightAdapter] at hu
      split at hu
      · rename_i hp; unfold AVal.or at hu; rw [ht (Or.inl hp)] at hu; cases hu; rfl
      · cases hu; rfl
    · intro u hu
      simp only [discriminatorReweightAdapter] at hu
      split at hu
      · rename_i hp; unfold AVal.or at hu; rw [ht (Or.inr hp)] at hu; cases hu; rfl
      · cases hu; rfl
    · intro u hu
      simp only [kmmReweightAdapter] at hu
      split at hu
      · split at hu <;> cases hu; rfl
      · cases hu; rfl
    · intro u hu
      simp only [transferSubspaceLearningAdapter] at hu
      split at hu
      · split at hu <;> cases hu; rfl
      · split at hu
        · split at hu
          · exact absurd rfl hnone
          · split at hu <;> cases hu; rfl
          · cases hu; rfl
          · cases hu
        · cases hu; rfl
    · intro u hu
      simp only [jdotRegressor, AVal.orPredictor] at hu
      split at hu
      · split at hu
        · exact absurd rfl hnone
        · split at hu <;> cases hu; rfl
        · cases hu
      · cases hu; rfl
    · intro u hu
      simp only [jdotClassifier, AVal.orPredictor] at hu
      split at hu
      · split at hu
        · exact absurd rfl hnone
        · split at hu <;> cases hu; rfl
        · cases hu
      · cases hu; rfl
    · intro u hu
      simp only [dasvmClassifier] at hu
      split at hu
      · cases w <;> first | exact absurd rfl hnone | (cases hu; rfl)
      · cases hu; rfl
  exact key c hc _ hs

/-- C115 (copies).  `clone` of any estimator of the package, however built, succeeds and has the same parameters and computed attributes; only
further keyword arguments (kept by the JDOT classes alone) are not copied. -/
theorem C115_clone_partial (c : Cls) (hc : c ∈ library) (kw : Kw) (o : Obj) (h : c.construct kw = .ok o) :
    c.clone o = .ok { o with kwargs := [] } ∧ (c.name ≠ "JDOTRegressor" → c.name ≠ "JDOTClassifier" → o.kwargs = []) := by
  have hs := lib_sound c hc
  have hb := construct_ok hs.nodup h
  constructor
  · have hm : c.params.mapM (fun p => c.normOne (p.1, o.attr p.1)) = .ok o.attrs := by
      rw [mapM_ok (g := fun p => (p.1, o.attr p.1))]
      · exact congrArg _ (attrs_eq hs.nodup hb.names).symm
      · intro p hp
        obtain ⟨v, -, hv⟩ := hb.stored p hp
        exact normOne_ok (hs.idem _ _ _ hv)
    unfold Cls.clone
    rw [construct_getParams, hm]
    simp only [build, List.filter_nil, ite_self]
    have hd : c.derived (fun p => (o.attrs.lookup p).getD .none) = o.derived := hb.derived.symm
    rw [hd, if_pos ((all_getParams c o ⟨o.attrs, o.derived, []⟩).2 fun p _ => rfl)]
  · intro h1 h2
    have key : ∀ c ∈ library, c.name ≠ "JDOTRegressor" → c.name ≠ "JDOTClassifier" → c.keepKw = false := by
      refine lib_cases ?_ ?_ ?_ ?_ ?_ ?_ ?_ (fun c _ _ _ _ hk _ _ => hk) <;> intro a b <;> first | rfl | exact absurd rfl a | exact absurd rfl b
    rw [hb.kwargs, key c hc h1 h2]
    rfl

/-- C115 (`set_params`).  Copying after `set_params(p=v)`, which is what a pipeline or a parameter search does before it fits, gives the object
built with `p=v` in the first place, if the constructor stores `v` as it is; otherwise it raises: the constructor's error if the constructor
rejects `v`, `RuntimeError` if it replaces `v`. -/
theorem C115_set_params (c : Cls) (hc : c ∈ library) (kw : Kw) (o : Obj) (h : c.construct kw = .ok o) (p : String) (v : AVal)
    (hp : p ∈ c.params.map Prod.fst) :
    ∃ o', c.setParam o p v = .ok o' ∧ o'.attr p = v ∧ (∀ q, q ≠ p → o'.attr q = o.attr q) ∧
      (∀ e, c.construct ((p, v) :: kw) = .error e → c.clone o' = .error e) ∧
      ∀ o2, c.construct ((p, v) :: kw) = .ok o2 →
        c.clone o' = if o2.attr p = v then .ok { o2 with kwargs := [] } else .error .runtimeError := by
  have hs := lib_sound c hc
  have hb := construct_ok hs.nodup h
  obtain ⟨o', ho'⟩ : ∃ o', c.setParam o p v = .ok o' := by unfold Cls.setParam; rw [if_pos hp]; exact ⟨_, rfl⟩
  obtain ⟨-, h1, h2, -, -⟩ := setParam_attr hb.names ho'
  have hk : Known c ((p, v) :: kw) := by
    rcases hb.known with hk | hk
    · exact Or.inl hk
    · exact Or.inr (fun a ha => by
        rcases List.mem_cons.1 ha with rfl | ha
        · exact hp
        · exact hk a ha)
  let a : String × Option AVal → AVal := fun q => ((argOf ((p, v) :: kw) q).getD .none)
  have harg : ∀ q ∈ c.params, argOf ((p, v) :: kw) q = some (a q) ∧ c.norm q.1 (a q) = c.norm q.1 (o'.attr q.1) := by
    intro q hq
    by_cases hqp : q.1 = p
    · have : argOf ((p, v) :: kw) q = some v := by simp [argOf, hqp, List.lookup]
      refine ⟨by simp [a, this], ?_⟩
      simp only [a, this, Option.getD_some, hqp, h1]
    · obtain ⟨w, hw, hn⟩ := hb.stored q hq
      have : argOf ((p, v) :: kw) q = some w := by
        unfold argOf at hw ⊢
        rw [List.lookup_cons, show (q.1 == p) = false by simpa using hqp]
        exact hw
      refine ⟨by simp [a, this], ?_⟩
      simp only [a, this, Option.getD_some]
      rw [h2 q.1 hqp, hn, hs.idem _ _ _ hn]
  have hm : c.params.mapM (fun q => c.normOne (q.1, a q)) = c.params.mapM (fun q => c.normOne (q.1, o'.attr q.1)) :=
    mapM_congr' fun q hq => normOne_congr (harg q hq).2
  have e1 := construct_eq c _ hk a (fun q hq => (harg q hq).1)
  rw [hm] at e1
  have e2 := construct_getParams c o'
  refine ⟨o', ho', h1, h2, fun e he => ?_, fun o2 he => ?_⟩
  · rw [e1] at he
    unfold Cls.clone
    rw [e2]
    cases hr : c.params.mapM (fun q => c.normOne (q.1, o'.attr q.1)) with
    | error e' => rw [hr] at he; exact he
    | ok attrs => rw [hr] at he; cases he
  · have hb2 := construct_ok hs.nodup he
    rw [e1] at he
    unfold Cls.clone
    rw [e2]
    cases hr : c.params.mapM (fun q => c.normOne (q.1, o'.attr q.1)) with
    | error e' => rw [hr] at he; cases he
    | ok attrs =>
      rw [hr] at he
      simp only [build, Except.ok.injEq] at he
      subst he
      simp only [build, List.filter_nil, ite_self]
      have hothers : ∀ q ∈ c.params, q.1 ≠ p → (attrs.lookup q.1).getD .none = o'.attr q.1 := by
        intro q hq hqp
        obtain ⟨w, hw, hn⟩ := hb2.stored q hq
        obtain ⟨w', hw', hn'⟩ := hb.stored q hq
        have : w = w' := by
          unfold argOf at hw hw'
          rw [List.lookup_cons, show (q.1 == p) = false by simpa using hqp] at hw
          rw [hw] at hw'
          simpa using hw'
        subst this
        rw [hn'] at hn
        rw [h2 q.1 hqp]
        exact (Except.ok.inj hn).symm
      have hiff : (c.getParams o').all (fun a => decide (Obj.attr ⟨attrs, c.derived (fun p => (attrs.lookup p).getD .none), []⟩ a.1 = a.2)) = true
          ↔ (attrs.lookup p).getD .none = v := by
        rw [all_getParams]
        constructor
        · intro hall
          obtain ⟨q, hq, rfl⟩ := List.mem_map.1 hp
          rw [← h1]
          exact hall q hq
        · intro hpv q hq
          by_cases hqp : q.1 = p
          · rw [hqp, h1]; exact hpv
          · exact hothers q hq hqp
      by_cases hv : (attrs.lookup p).getD .none = v
      · rw [if_pos (hiff.2 hv)]
        unfold Obj.attr
        simp only
        rw [if_pos hv]
      · rw [if_neg (fun h => hv (hiff.1 h))]
        unfold Obj.attr
        simp only
        rw [if_neg hv]


/-- C115 (bad arguments).  A keyword argument that no parameter has raises `TypeError`, except for the JDOT and DASVM classes, and so does a
missing `gamma` of KLIEP, MMDTarS and MMDLSConS. -/
theorem C115_unknown_partial (c : Cls) (hc : c ∈ library) (kw : Kw) :
    (c.name ∉ ["JDOTRegressor", "JDOTClassifier", "DASVMClassifier"] → (∃ a ∈ kw, a.1 ∉ c.params.map Prod.fst) → c.construct kw = .error .typeError) ∧
    (c.name ∈ ["KLIEPReweightAdapter", "MMDTarSReweightAdapter", "MMDLSConSMappingAdapter"] → kw.lookup "gamma" = none →
      c.construct kw = .error .typeError) := by
  constructor
  · intro hn ⟨a, ha, hout⟩
    have key : ∀ c ∈ library, c.name ∉ ["JDOTRegressor", "JDOTClassifier", "DASVMClassifier"] → c.varKw = false := by
      refine lib_cases ?_ ?_ ?_ ?_ ?_ ?_ ?_ (fun c _ _ _ hv _ _ => hv) <;> intro h <;> first | rfl | exact absurd (by decide) h
    have : (!c.varKw && kw.any (fun a => decide (a.1 ∉ c.params.map Prod.fst))) = true := by
      rw [key c hc hn]
      simp only [Bool.not_false, Bool.true_and, List.any_eq_true, decide_eq_true_eq]
      exact ⟨a, ha, hout⟩
    unfold Cls.construct bindArgs
    rw [if_pos this]
  · intro hn hg
    have key : ∀ c ∈ library, c.name ∈ ["KLIEPReweightAdapter", "MMDTarSReweightAdapter", "MMDLSConSMappingAdapter"] →
        ∃ l, c.params = ("gamma", none) :: l := by
      unfold library
      simp only [List.forall_mem_cons, List.not_mem_nil, false_imp_iff, implies_true, and_true]
      refine ⟨?_, ?_, ?_, ?_, ?_, ?_, ?_, ?_, ?_, ?_, ?_, ?_, ?_, ?_, ?_, ?_, ?_, ?_, ?_, ?_, ?_, ?_, ?_⟩ <;> intro h <;>
        first | exact ⟨_, rfl⟩ | exact absurd h (by decide)
    obtain ⟨l, hl⟩ := key c hc hn
    have hb : bindArgs c.params c.varKw kw = .error .typeError := by
      unfold bindArgs
      split
      · rfl
      · rw [hl, List.mapM_cons]
        have : bindOne kw ("gamma", none) = .error .typeError := by unfold bindOne; simp only [hg]
        rw [this]
        rfl
    unfold Cls.construct
    rw [hb]

/-- C115 fails: a misspelt argument of `DASVMClassifier` is ignored. -/
theorem C115_misspelt_counterexample :
    dasvmClassifier.construct [("save_estimator", .bool true)] = dasvmClassifier.construct [] ∧
      (dasvmClassifier.construct []).map (·.attr "save_estimators") = .ok (.bool false) := by
  constructor <;> decide +kernel

/-- C115 fails: what `JDOTRegressor(**kwargs)` is to pass to the `fit` of its base estimator is lost in a copy, and so in a pipeline, whose
`fit` works on copies. -/
theorem C115_kwargs_counterexample :
    ∃ o, jdotRegressor.construct [("check_input", .bool false)] = .ok o ∧ o.kwargs = [("check_input", .bool false)] ∧
      (jdotRegressor.clone o).map (·.kwargs) = .ok [] := by
  refine ⟨_, rfl, ?_, ?_⟩ <;> decide +kernel

/-- The parameters for which `None` stands for a default. -/
def Ctor.noneDefaults : List (Cls × String) :=
  [(densityReweightAdapter, "weight_estimator"), (discriminatorReweightAdapter, "domain_classifier"), (transferSubspaceLearningAdapter, "reg"),
    (jdotRegressor, "base_estimator"), (jdotClassifier, "base_estimator"), (dasvmClassifier, "base_estimator")]

/-- C115 fails: where the constructor takes `None` for a default, `set_params` takes `None` too, but copying then raises `RuntimeError`. -/
theorem C115_none_counterexample : ∀ x ∈ noneDefaults, ∃ o o', x.1.construct [(x.2, .none)] = .ok o ∧ x.1.setParam o x.2 .none = .ok o' ∧
    x.1.clone o' = .error .runtimeError := by
  unfold noneDefaults
  simp only [List.forall_mem_cons, List.not_mem_nil, false_imp_iff, implies_true, and_true]
  refine ⟨⟨_, _, rfl, rfl, ?_⟩, ⟨_, _, rfl, rfl, ?_⟩, ⟨_, _, rfl, rfl, ?_⟩, ⟨_, _, rfl, rfl, ?_⟩, ⟨_, _, rfl, rfl, ?_⟩, ⟨_, _, rfl, rfl, ?_⟩⟩ <;>
    decide +kernel

/-- C115 fails: an unfitted ensemble (scikit-learn's have a length that needs the fitted members) cannot be given as `domain_classifier` or
`weight_estimator`: the constructor raises `AttributeError`. -/
theorem C115_ensemble_counterexample (e : AEst) (he : e.len = .unfitted) :
    discriminatorReweightAdapter.construct [("domain_classifier", .est e)] = .error .attributeError ∧
      densityReweightAdapter.construct [("weight_estimator", .est e)] = .error .attributeError := by
  have ht : (AVal.est e).truthy = .error .attributeError := by simp only [AVal.truthy, he]
  constructor
  · have h : discriminatorReweightAdapter.norm "domain_classifier" (.est e) = .error .attributeError := by
      simp only [discriminatorReweightAdapter, if_true, AVal.or, ht]
    rw [construct_eq _ _ (Or.inr (by simp [discriminatorReweightAdapter])) (fun _ => .est e) (by simp [discriminatorReweightAdapter, argOf])]
    have : discriminatorReweightAdapter.params = [("domain_classifier", some .none)] := rfl
    rw [this, List.mapM_cons]
    unfold Cls.normOne
    simp only [h]
    rfl
  · have h : densityReweightAdapter.norm "weight_estimator" (.est e) = .error .attributeError := by
      simp only [densityReweightAdapter, if_true, AVal.or, ht]
    rw [construct_eq _ _ (Or.inr (by simp [densityReweightAdapter])) (fun _ => .est e) (by simp [densityReweightAdapter, argOf])]
    have : densityReweightAdapter.params = [("weight_estimator", some .none)] := rfl
    rw [this, List.mapM_cons]
    unfold Cls.normOne
    simp only [h]
    rfl

/-- C115 fails: `set_params` takes values the constructor rejects. -/
theorem C115_unchecked_counterexample :
    (∃ o o', kmmReweightAdapter.construct [] = .ok o ∧ kmmReweightAdapter.construct [("kernel", .str "gauss")] = .error .valueError ∧
      kmmReweightAdapter.setParam o "kernel" (.str "gauss") = .ok o' ∧ kmmReweightAdapter.clone o' = .error .valueError) ∧
    (∃ o o', transferSubspaceLearningAdapter.construct [] = .ok o ∧
      transferSubspaceLearningAdapter.construct [("reg", .num 2)] = .error .valueError ∧
      transferSubspaceLearningAdapter.setParam o "reg" (.num 2) = .ok o' ∧ transferSubspaceLearningAdapter.clone o' = .error .valueError) := by
  refine ⟨⟨_, _, rfl, by decide +kernel, rfl, by decide +kernel⟩, ?_⟩
  have he : transferSubspaceLearningAdapter.construct [("reg", .num 2)] = .error .valueError := by decide +kernel
  cases h : transferSubspaceLearningAdapter.construct [] with
  | error e =>
    have : (transferSubspaceLearningAdapter.construct []).toOption.isSome = true := by decide +kernel
    rw [h] at this
    cases this
  | ok o =>
    obtain ⟨o', h1, -, -, h2, -⟩ := C115_set_params _ (by simp [library]) [] o h "reg" (.num 2) (by decide)
    exact ⟨o, o', rfl, he, h1, h2 _ he⟩

/-- C115 fails: the classifier inside `NearestNeighborReweightAdapter` is made by the constructor, so after `set_params` it still has the old
setting, until the adapter is copied. -/
theorem C115_stale_counterexample : ∃ o o', nearestNeighborReweightAdapter.construct [] = .ok o ∧
    nearestNeighborReweightAdapter.setParam o "n_neighbors" (.num 5) = .ok o' ∧ o'.attr "n_neighbors" = .num 5 ∧
    o'.derived.lookup "base_estimator__n_neighbors" = some (.num 1) ∧
    (nearestNeighborReweightAdapter.clone o').map (·.derived.lookup "base_estimator__n_neighbors") = .ok (some (.num 5)) := by
  refine ⟨_, _, rfl, rfl, ?_, ?_, ?_⟩ <;> decide +kernel

/-- The hypotheses of `C115_stored`, `C115_clone_partial` and `C115_set_params` are met: `KMMReweightAdapter(kernel="linear", eps=1/2)`. -/
example : kmmReweightAdapter ∈ library ∧ ∃ o, kmmReweightAdapter.construct [("kernel", .str "linear"), ("eps", .num (1 / 2))] = .ok o ∧
    o.attr "kernel" = .str "linear" ∧ o.attr "eps" = .num (1 / 2) ∧ o.attr "B" = .num 1000 ∧ kmmReweightAdapter.clone o = .ok o ∧
    ((kmmReweightAdapter.setParam o "B" (.num 7)).bind kmmReweightAdapter.clone).map (fun o => (o.attr "B", o.attr "eps")) = .ok (.num 7, .num (1 / 2)) := by
  refine ⟨by simp [library], _, rfl, ?_, ?_, ?_, ?_, ?_⟩ <;> decide +kernel

/-- `C115_unknown_partial`: `OTMappingAdapter(reg_e=1)`, `KLIEPReweightAdapter(cv=3)`. -/
example : otMappingAdapter.construct [("reg_e", .num 1)] = .error .typeError ∧ kliepReweightAdapter.construct [("cv", .num 3)] = .error .typeError := by
  constructor <;> decide +kernel

/-- `C115_ensemble_counterexample`: `RandomForestClassifier()`; and a fitted ensemble is accepted. -/
example : ({ cls := "RandomForestClassifier", len := .unfitted } : AEst).len = .unfitted ∧
    (discriminatorReweightAdapter.construct [("domain_classifier", .est { cls := "RandomForestClassifier", len := .value 100 })]).map
      (·.attr "domain_classifier") = .ok (.est { cls := "RandomForestClassifier", len := .value 100 }) := by
  constructor <;> decide +kernel

end Skada

/- Helper lemmas for metadata routing in pipelines. -/
import Verif.Spec.Routing
import Verif.Lemmas.Routing

namespace Skada
open Route

variable {α β σ : Type}

namespace Route
open Spec

theorem mem_names {req : Request} {k : String} : k ∈ names req ↔ Asks req k := by
  unfold names Asks
  rw [List.mem_filterMap]
  constructor
  · rintro ⟨⟨p, a⟩, hr, h⟩
    cases a <;> simp only [Option.some.injEq, reduceCtorEq] at h
    · exact .inl (h ▸ hr)
    · exact .inr (.inl (h ▸ hr))
    · exact .inr (.inr (.inl (h ▸ hr)))
    · exact .inr (.inr (.inr ⟨p, h ▸ hr⟩))
  · rintro (h | h | h | ⟨p, h⟩)
    · exact ⟨_, h, rfl⟩
    · exact ⟨_, h, rfl⟩
    · exact ⟨_, h, rfl⟩
    · exact ⟨_, h, rfl⟩

/-! ### Steps -/

/-- The requests that the router of a step passes on. -/
def baseReqs : Step α σ → Reqs
  | .shared s | .perDomain s | .select _ s => estReqs s.est
  | .sourceTarget s => estReqs (s.target.getD s.source)

theorem stepChildren_eq (st : Step α σ) : stepChildren st = oneChild (baseReqs st) := by
  cases st with
  | shared s => rfl
  | perDomain s => rfl
  | select side s => rfl
  | sourceTarget s =>
    simp only [stepChildren, baseReqs]
    cases s.target with
    | none => rfl
    | some t => simp only [Option.map_some, Option.getD_some]; exact twoChildren_some _ _

theorem selNames_simple {r : Reqs} {m : Meth} (hm : m ≠ .fitTransform) :
    selNames (oneChild r) m = .ok (ownNames m ++ names (r m)) := by
  unfold selNames
  rw [self_of, childNames_simple hm]
  simp only [bind, Except.bind, names_yes]
  rfl

theorem selNames_fitTransform {r : Reqs} : selNames (oneChild r) .fitTransform = .ok ["sample_domain"] := by
  unfold selNames
  rw [self_of, childNames_fitTransform]
  simp only [bind, Except.bind, names_yes]
  rfl

theorem marked_map_append (init : List Reqs) (last : Reqs) : marked ((init ++ [last]).map oneChild) =
    init.map (fun r => (false, oneChild r)) ++ [(true, oneChild last)] := by
  rw [List.map_append, List.map_singleton, marked_append, List.map_map]
  rfl

theorem pipeNames_fit (init : List Reqs) (last : Reqs) : pipeNames ((init ++ [last]).map oneChild) .fit =
    .ok ((init.map (fun _ => ["sample_domain"])).flatten ++ ("sample_domain" :: names (last .fit))) := by
  unfold pipeNames
  rw [marked_map_append]
  rw [mapM_all_ok (g := fun s : Bool × List (String × Reqs) => if s.1 then "sample_domain" :: names (last .fit) else ["sample_domain"])]
  · simp only [bind, Except.bind, List.map_append, List.map_map, List.flatten_append]
    simp [Function.comp_def, pure, Except.pure]
  · intro s hs
    rcases List.mem_append.mp hs with hs | hs
    · obtain ⟨r, _, rfl⟩ := List.mem_map.mp hs
      rw [show callees false .fit = [.fitTransform] from rfl]
      simp only [List.mapM_cons, List.mapM_nil, selNames_fitTransform]
      rfl
    · rw [List.mem_singleton] at hs
      subst hs
      rw [show callees true .fit = [.fit] from rfl]
      simp only [List.mapM_cons, List.mapM_nil, selNames_simple (r := last) (m := .fit) (by simp)]
      simp [ownNames, bind, Except.bind, pure, Except.pure]

theorem callees_eval {m : Meth} (hm : Evaluates m) : callees false m = [.transform] ∧ callees true m = [m] ∧
    ownNames m = ["sample_domain", "allow_source"] ∧ m ≠ .fitTransform := by
  cases m <;> first | exact hm.elim | exact ⟨rfl, rfl, rfl, by simp⟩

theorem pipeNames_eval {m : Meth} (hm : Evaluates m) (init : List Reqs) (last : Reqs) :
    pipeNames ((init ++ [last]).map oneChild) m =
    .ok ((init.map (fun r => "sample_domain" :: names (r .transform))).flatten ++
      ("sample_domain" :: "allow_source" :: names (last m))) := by
  obtain ⟨h1, h2, h3, h4⟩ := callees_eval hm
  unfold pipeNames
  rw [marked_map_append, List.mapM_append, List.mapM_map]
  rw [mapM_all_ok (g := fun r : Reqs => "sample_domain" :: names (r .transform))]
  · simp only [List.mapM_cons, List.mapM_nil, h2, selNames_simple h4, h3]
    simp [bind, Except.bind, pure, Except.pure]
  · intro r _
    change (do let l' ← (callees false m).mapM (selNames (oneChild r)); return l'.flatten : Py (List String)) = _
    simp only [h1, List.mapM_cons, List.mapM_nil, selNames_simple (r := r) (m := .transform) (by simp)]
    simp [ownNames, bind, Except.bind, pure, Except.pure]

/-- Two dictionaries that look the same to an estimator with the given names. -/
structure Agree (l : List String) (d e : Dict) : Prop where
  nd : (d.map Prod.fst).Nodup
  ne : (e.map Prod.fst).Nodup
  look : ∀ k ∈ l, d.lookup k = e.lookup k
  dom : d.get "sample_domain" = e.get "sample_domain"

theorem update_lookup (e : Dict) (k : String) : ∃ o : Option (Param Num), ∀ d : Dict, (d.update e).lookup k = o.or (d.lookup k) := by
  induction e with
  | nil => exact ⟨none, fun d => by simp [update_nil]⟩
  | cons kv e ih =>
    obtain ⟨o, ho⟩ := ih
    refine ⟨o.or (if k = kv.1 then some kv.2 else none), fun d => ?_⟩
    change ((d.put kv.1 kv.2).update e).lookup k = _
    rw [ho, lookup_put]
    cases o <;> by_cases h : k = kv.1 <;> simp [h]

theorem Agree.update {l : List String} {d e : Dict} (h : Agree l d e) (f : Dict) : Agree l (d.update f) (e.update f) where
  nd := nodup_update h.nd f
  ne := nodup_update h.ne f
  look k hk := by
    obtain ⟨o, ho⟩ := update_lookup f k
    rw [ho, ho, h.look k hk]
  dom := by
    obtain ⟨o, ho⟩ := update_lookup f "sample_domain"
    have := h.dom
    unfold Dict.get at this ⊢
    rw [ho, ho]
    cases o with
    | none => simpa using this
    | some v => rfl

theorem Agree.mono {l l' : List String} {d e : Dict} (h : Agree l d e) (hl : ∀ k ∈ l', k ∈ l) : Agree l' d e :=
  ⟨h.nd, h.ne, fun k hk => h.look k (hl k hk), h.dom⟩

theorem Agree.prepare {req : Request} {d e : Dict} (h : Agree (names req) d e) (a b : Bool) :
    prepareRouting a b req d = prepareRouting a b req e := by
  unfold prepareRouting
  rw [routeParams_congr h.nd h.ne (fun k hk => by rw [h.look k hk]), consumeParams_congr h.look]

theorem Agree.route {req : Request} {d e : Dict} (h : Agree (names req) d e) : routeParams req d = routeParams req e :=
  routeParams_congr h.nd h.ne (fun k hk => by rw [h.look k hk])

theorem ownMask_congr (s : Sel α σ) (y : Option (List Num)) {d e : Dict} (h : d.get "sample_domain" = e.get "sample_domain") :
    s.ownMask y d = s.ownMask y e := by
  unfold Sel.ownMask autoMask
  rw [h]

theorem sharedFit_congr (s : Sel α σ) (m : Method) (c : Cont α) (y : Option (List Num)) {d e : Dict}
    (h : Agree (names (s.est.request m)) d e) : s.sharedFit m c y d = s.sharedFit m c y e := by
  unfold Sel.sharedFit
  rw [ownMask_congr s y h.dom]
  rcases s.ownMask y e with err | y'
  · rfl
  · simp only [Cont.mergeOut, Sel.routedCall, (h.update c.metadata).prepare]

theorem perDomainFit_congr (s : Sel α σ) (m : Method) (c : Cont α) (y : Option (List Num)) {d e : Dict}
    (h : Agree (names (s.est.request m)) d e) (hh : (d.lookup "sample_domain").isSome = (e.lookup "sample_domain").isSome) :
    s.perDomainFit m c y d = s.perDomainFit m c y e := by
  unfold Sel.perDomainFit
  rw [ownMask_congr s y h.dom]
  rcases s.ownMask y e with err | y'
  · rfl
  · have hh' : (d.update c.metadata).has "sample_domain" = (e.update c.metadata).has "sample_domain" := by
      obtain ⟨o, ho⟩ := update_lookup c.metadata "sample_domain"
      unfold Dict.has
      rw [ho, ho]
      cases o with
      | none => simpa using hh
      | some v => rfl
    simp only [Cont.mergeOut, Sel.routedCall, (h.update c.metadata).prepare, hh', (h.update c.metadata).dom]
    rfl

theorem sharedTransform_congr (s : Sel α σ) (f : σ) (X : List α) {d e : Dict} (h : Agree (names s.est.transformReq) d e) :
    s.sharedTransform f X d = s.sharedTransform f X e := by
  unfold Sel.sharedTransform
  rw [h.prepare]

theorem sharedFitTransform_congr [Cell α] (s : Sel α σ) (c : Cont α) (y : Option (List Num)) {d e : Dict}
    (h1 : Agree (names s.est.fitTransformReq) d e) (h2 : Agree (names s.est.fitReq) d e) (h3 : Agree (names s.est.transformReq) d e) :
    Step.fitTransform (.shared s) c y d = Step.fitTransform (.shared s) c y e := by
  have : s.sharedFitTransformOut c y d = s.sharedFitTransformOut c y e := by
    unfold Sel.sharedFitTransformOut
    rw [sharedFit_congr s .fitTransform c y h1, sharedFit_congr s .fit c y h2]
    simp only [Cont.mergeOut, (h3.update c.metadata).route]
  simp only [Step.fitTransform, this]

/-! ### What the routers hand out -/

theorem selRoute_simple {r : Reqs} {m : Meth} (hm : m ≠ .fitTransform) {params : Dict} (hp : (params.map Prod.fst).Nodup) :
    ∃ d, selRoute (oneChild r) m params = .ok d ∧ Agree (names (r m)) d params ∧
      ((params.lookup "sample_domain") ≠ some .none → (d.lookup "sample_domain") = (params.lookup "sample_domain")) := by
  obtain ⟨d, hd, hn, hl⟩ := selRoute_ok (childNames_simple (r := r) hm) hp
  have hs : "sample_domain" ∈ ownNames m := by cases m <;> simp [ownNames]
  have key : d.lookup "sample_domain" = params.lookup "sample_domain" ∨
      d.lookup "sample_domain" = (params.lookup "sample_domain").filter (fun v => decide (v ≠ .none)) := by
    rw [hl]
    by_cases hk : "sample_domain" ∈ names (r m)
    · exact .inl (if_pos hk)
    · exact .inr (by rw [if_neg hk, if_pos hs])
  refine ⟨d, hd, ⟨hn, hp, fun k hk => by rw [hl, if_pos hk], ?_⟩, ?_⟩
  · unfold Dict.get
    rcases key with h | h
    · rw [h]
    · rw [h]
      rcases params.lookup "sample_domain" with _ | v
      · rfl
      · cases v <;> rfl
  · intro hv
    rcases key with h | h
    · exact h
    · rw [h]
      rcases hq : params.lookup "sample_domain" with _ | v
      · rfl
      · cases v <;> first | exact absurd hq hv | rfl

theorem selRoute_fitTransform {r : Reqs} {params : Dict} (hp : (params.map Prod.fst).Nodup) :
    ∃ d, selRoute (oneChild r) .fitTransform params = .ok d ∧ (d.map Prod.fst).Nodup ∧ ∀ k, d.lookup k =
      if k = "sample_domain" then (params.lookup k).filter (fun v => decide (v ≠ .none)) else none := by
  obtain ⟨d, hd, hn, hl⟩ := selRoute_ok (childNames_fitTransform (r := r)) hp
  refine ⟨d, hd, hn, fun k => ?_⟩
  rw [hl]
  simp [ownNames]

theorem selRoute_single {r : Reqs} {m : Meth} {v : Param Num} (hv : v ≠ .none) :
    selRoute (oneChild r) m [("sample_domain", v)] = .ok [("sample_domain", v)] := by
  have hnd : (([("sample_domain", v)] : Dict).map Prod.fst).Nodup := by simp
  obtain ⟨l, hl⟩ : ∃ l, childNames (oneChild r) m = .ok l := by
    by_cases hm : m = .fitTransform
    · exact ⟨_, hm ▸ childNames_fitTransform⟩
    · exact ⟨_, childNames_simple hm⟩
  have hown : ((ownNames m).filterMap (fun k => (([("sample_domain", v)] : Dict).lookup k |>.filter (fun v => decide (v ≠ .none))).map
      (fun v => (k, v))) : Dict) = [("sample_domain", v)] := by
    have h1 : (([("sample_domain", v)] : Dict).lookup "sample_domain").filter (fun v => decide (v ≠ .none)) = some v := by
      rw [List.lookup_cons_self]; simp [Option.filter, hv]
    have h2 : (([("sample_domain", v)] : Dict).lookup "allow_source") = none := rfl
    cases m <;> simp only [ownNames, List.filterMap_cons, List.filterMap_nil, h1, h2] <;> rfl
  unfold selRoute
  rw [self_of, hl]
  simp only [routeParams_yes _ _ hnd, hown, bind, Except.bind]
  by_cases hk : "sample_domain" ∈ l
  · simp [hk, Dict.has, Dict.get, List.lookup_cons_self, Dict.update, Dict.put]
  · simp [hk, Dict.update]

theorem paramsFor_single (m : Meth) (d : Dict) : paramsFor [(m, d)] m = d := by
  simp [paramsFor, List.lookup_cons_self]

theorem pipeRoute_ok {init : List Reqs} {last : Reqs} {params : Dict} {caller mi ml : Meth} {l : List String}
    (hi : callees false caller = [mi]) (hl : callees true caller = [ml])
    (hn : pipeNames ((init ++ [last]).map oneChild) caller = .ok l) (hne : params ≠ []) (hacc : ∀ kv ∈ params, kv.1 ∈ l)
    {g : Reqs → Dict} (hg : ∀ r, selRoute (oneChild r) mi params = .ok (g r)) {d : Dict}
    (hd : selRoute (oneChild last) ml params = .ok d) :
    pipeRoute ((init ++ [last]).map oneChild) caller params = .ok (init.map (fun r => [(mi, g r)]) ++ [[(ml, d)]]) := by
  unfold pipeRoute
  rw [if_neg (by simpa using hne), hn, marked_map_append]
  simp only [bind, Except.bind]
  rw [if_neg]
  · rw [List.mapM_append, List.mapM_map, mapM_all_ok (g := fun r : Reqs => [(mi, g r)])]
    · simp only [List.mapM_cons, List.mapM_nil, hl, hd, bind, Except.bind, pure, Except.pure]
    · intro r _
      simp only [Function.comp_apply, hi, List.mapM_cons, List.mapM_nil, hg, bind, Except.bind, pure, Except.pure]
  · simp only [List.any_eq_true, decide_eq_true_eq, not_exists, not_and, not_not]
    exact hacc

theorem pipeRoute_refused {init : List Reqs} {last : Reqs} {params : Dict} {caller : Meth} {l : List String}
    (hn : pipeNames ((init ++ [last]).map oneChild) caller = .ok l) (hacc : ∃ kv ∈ params, kv.1 ∉ l) :
    pipeRoute ((init ++ [last]).map oneChild) caller params = .error .typeError := by
  obtain ⟨kv, hkv, hk⟩ := hacc
  unfold pipeRoute
  rw [if_neg (by intro h; rw [List.isEmpty_iff] at h; rw [h] at hkv; simp at hkv), hn]
  simp only [bind, Except.bind]
  rw [if_pos]
  rw [List.any_eq_true]
  exact ⟨kv, hkv, by simpa using hk⟩

theorem children_append (init : List (Step α σ)) (last : Step α σ) :
    (init ++ [last]).map stepChildren = (init.map baseReqs ++ [baseReqs last]).map oneChild := by
  simp [stepChildren_eq]

/-- Fitting with the routed parameters, step by step. -/
theorem fitLoop_everything [Cell α] (init : List (Step α σ)) (last : Step α σ) (params : Dict) (g : Reqs → Dict) (d : Dict)
    (hi : ∀ st ∈ init, ∀ c y, Step.fitTransform st c y (g (baseReqs st)) = Step.fitTransform st c y params)
    (hl : ∀ c y, Step.fit last c y d = Step.fit last c y params) (c : Cont α) (y : Option (List Num)) :
    fitLoop ((init ++ [last]).zip (init.map (fun st => [(Meth.fitTransform, g (baseReqs st))]) ++ [[(Meth.fit, d)]])) c y =
      fitSteps (everything (init ++ [last])) c y params := by
  have hf : params.filter (fun kv => (fun _ : String => true) kv.1) = params := by simp
  induction init generalizing c y with
  | nil =>
    simp only [List.nil_append, List.map_nil, List.zip_cons_cons, List.zip_nil_right, everything, List.map_cons, fitLoop, fitSteps,
      paramsFor_single, hl, hf]
    rcases last.fit c y params with ⟨_, _ | ⟨_, _⟩⟩ <;> rfl
  | cons st init ih =>
    have ih := ih (fun s hs => hi s (List.mem_cons_of_mem _ hs))
    have h0 := hi st (by simp) c y
    obtain ⟨a, as, ha⟩ : ∃ a as, (init ++ [last]).zip (init.map (fun st => [(Meth.fitTransform, g (baseReqs st))]) ++ [[(Meth.fit, d)]]) =
        a :: as := by cases init <;> exact ⟨_, _, rfl⟩
    obtain ⟨b, bs, hb⟩ : ∃ b bs, everything (init ++ [last]) = b :: bs := by cases init <;> exact ⟨_, _, rfl⟩
    have e1 : ((st :: init) ++ [last]).zip ((st :: init).map (fun st => [(Meth.fitTransform, g (baseReqs st))]) ++ [[(Meth.fit, d)]]) =
        (st, [(Meth.fitTransform, g (baseReqs st))]) :: a :: as := by rw [← ha]; rfl
    have e2 : everything ((st :: init) ++ [last]) = (fun _ => true, st) :: b :: bs := by rw [← hb]; rfl
    rw [e1, e2]
    simp only [fitLoop, fitSteps, paramsFor_single, h0, hf]
    rcases st.fitTransform c y params with ⟨calls, _ | ⟨f, c', y'⟩⟩
    · rfl
    · have := ih c' y'
      rw [ha, hb] at this
      simp only [this]
      rcases fitSteps (b :: bs) c' y' params with ⟨_, _ | ⟨_, _⟩⟩ <;> rfl

theorem sharedRoute_congr (s : Sel α σ) {req : Request} (query : σ → Call α → Py β) (f : σ) (X : List α) (y : Option (List Num))
    {d e : Dict} (h : Agree (names req) d e) : s.sharedRoute req query f X y d = s.sharedRoute req query f X y e := by
  unfold Sel.sharedRoute
  rw [h.prepare]

/-- Evaluating with the routed parameters, step by step. -/
theorem evalLoop_everything [Cell α] (steps : List (Step α σ × Fitted σ)) (last : Sel α σ × σ) (req : Request)
    (query : σ → Call α → Py β) (caller : Meth) (y : Option (List Num)) (params : Dict) (g : Reqs → Dict) (d : Dict)
    (hi : ∀ st ∈ steps, ∀ X, st.1.transform st.2 X (g (baseReqs st.1)) = st.1.transform st.2 X params)
    (hl : ∀ X, last.1.sharedRoute req query last.2 X y d = last.1.sharedRoute req query last.2 X y params) (X : List α) :
    evalLoop last req query caller y steps (steps.map (fun st => [(Meth.transform, g (baseReqs st.1))]) ++ [[(caller, d)]]) X =
      stepsRoute (everything steps) (fun _ => true, last) req query X y params := by
  have hf : params.filter (fun kv => (fun _ : String => true) kv.1) = params := by simp
  induction steps generalizing X with
  | nil =>
    obtain ⟨s, f⟩ := last
    simp only [List.map_nil, List.nil_append, evalLoop, List.headD_cons, paramsFor_single, everything, stepsRoute, hl, hf]
  | cons st steps ih =>
    obtain ⟨st, f⟩ := st
    have ih := ih (fun s hs => hi s (List.mem_cons_of_mem _ hs))
    have h0 := hi (st, f) (by simp) X
    obtain ⟨s, fl⟩ := last
    simp only [List.map_cons, List.cons_append, evalLoop, List.headD_cons, paramsFor_single, everything, stepsRoute, hf, List.tail_cons]
      at h0 ⊢
    rw [h0]
    rcases st.transform f X params with _ | X'
    · rfl
    · exact ih X'

end Route
end Skada

/- Helper lemmas for metadata routing. -/
import Verif.Model.Routing
import Verif.Lemmas.Selectors

namespace Skada.Route
open Skada

variable {α β σ : Type}

theorem mapM_all_ok {γ δ : Type} {l : List γ} {f : γ → Py δ} {g : γ → δ} (h : ∀ a ∈ l, f a = .ok (g a)) :
    l.mapM f = .ok (l.map g) := by
  induction l with
  | nil => rfl
  | cons a l ih =>
    rw [List.mapM_cons, h a (by simp), ih (fun b hb => h b (by simp [hb]))]
    rfl

theorem marked_append {γ : Type} (l : List γ) (a : γ) : marked (l ++ [a]) = l.map (fun b => (false, b)) ++ [(true, a)] := by
  induction l with
  | nil => rfl
  | cons b l ih =>
    cases l with
    | nil => rfl
    | cons c l => simp only [List.cons_append, marked] at ih ⊢; rw [ih]; simp

/-! ### Dictionaries -/

theorem keys_put (d : Dict) (k : String) (v : Param Num) :
    (d.put k v).map Prod.fst = if k ∈ d.map Prod.fst then d.map Prod.fst else d.map Prod.fst ++ [k] := by
  induction d with
  | nil => simp [Dict.put]
  | cons kv d ih =>
    obtain ⟨a, b⟩ := kv
    simp only [Dict.put]
    by_cases ha : a = k
    · subst ha; simp
    · rw [if_neg ha]
      simp only [List.map_cons, ih, List.mem_cons]
      have : ¬ k = a := fun h => ha h.symm
      by_cases hk : k ∈ d.map Prod.fst
      · rw [if_pos hk, if_pos (.inr hk)]
      · rw [if_neg hk, if_neg (by simp only [this, false_or]; exact hk)]; rfl

theorem nodup_put {d : Dict} (h : (d.map Prod.fst).Nodup) (k : String) (v : Param Num) :
    ((d.put k v).map Prod.fst).Nodup := by
  rw [keys_put]
  split
  · exact h
  · rename_i hk
    rw [List.nodup_append]
    exact ⟨h, by simp, fun a ha b hb => by simp at hb; subst hb; exact fun e => hk (e ▸ ha)⟩

theorem nodup_update {d : Dict} (h : (d.map Prod.fst).Nodup) (e : Dict) : ((d.update e).map Prod.fst).Nodup := by
  unfold Dict.update
  induction e generalizing d with
  | nil => exact h
  | cons kv e ih => exact ih (nodup_put h _ _)

theorem nodup_filter {d : Dict} (h : (d.map Prod.fst).Nodup) (p : String × Param Num → Bool) :
    ((d.filter p).map Prod.fst).Nodup := h.sublist (List.Sublist.map _ List.filter_sublist)

theorem lookup_filter_not (p : String → Bool) (d : Dict) (k : String) (h : p k = false) :
    (d.filter (fun kv => p kv.1)).lookup k = none := by
  apply lookup_eq_none_of_not_mem
  simp only [List.mem_map, List.mem_filter, not_exists, not_and]
  rintro ⟨a, b⟩ ⟨_, hp⟩ rfl
  simp [h] at hp

/-- Dropping the parameters that are `None`. -/
theorem lookup_filter_none {d : Dict} (h : (d.map Prod.fst).Nodup) (k : String) :
    (d.filter (fun kv => decide (kv.2 ≠ .none))).lookup k = (d.lookup k).filter (fun v => decide (v ≠ .none)) := by
  induction d with
  | nil => rfl
  | cons kv d ih =>
    obtain ⟨a, b⟩ := kv
    simp only [List.map_cons, List.nodup_cons] at h
    have ih := ih h.2
    rw [List.filter_cons]
    by_cases hk : k = a
    · subst hk
      rw [List.lookup_cons_self]
      by_cases hb : b = .none
      · rw [if_neg (by simp [hb]), ih, lookup_eq_none_of_not_mem h.1]
        simp [Option.filter, hb]
      · rw [if_pos (by simp [hb]), List.lookup_cons_self]; simp [Option.filter, hb]
    · rw [lookup_cons_ne hk]
      by_cases hb : b = .none
      · rw [if_neg (by simp [hb]), ih]
      · rw [if_pos (by simp [hb]), lookup_cons_ne hk, ih]

/-! ### Requests -/

theorem routeParams_congr {req : Request} {d e : Dict} (hd : (d.map Prod.fst).Nodup) (he : (e.map Prod.fst).Nodup)
    (h : ∀ k ∈ names req, (d.lookup k).filter (fun v => decide (v ≠ .none)) = (e.lookup k).filter (fun v => decide (v ≠ .none))) :
    routeParams req d = routeParams req e := by
  have hn : ∀ r ∈ req, r.2 = .yes ∨ r.2 = .unset ∨ r.2 = .warn → r.1 ∈ names req := by
    intro r hr hy
    refine List.mem_filterMap.mpr ⟨r, hr, ?_⟩
    rcases hy with hy | hy | hy <;> rw [hy]
  have hna : ∀ r ∈ req, ∀ a, r.2 = .name a → a ∈ names req := by
    intro r hr a hy
    exact List.mem_filterMap.mpr ⟨r, hr, by rw [hy]⟩
  unfold routeParams
  simp only [Dict.has, lookup_filter_none hd, lookup_filter_none he]
  have h1 : req.any (fun r => decide (r.2 = .unset) && ((d.lookup r.1).filter (fun v => decide (v ≠ .none))).isSome) =
      req.any (fun r => decide (r.2 = .unset) && ((e.lookup r.1).filter (fun v => decide (v ≠ .none))).isSome) := by
    rw [Bool.eq_iff_iff]
    simp only [List.any_eq_true, Bool.and_eq_true, decide_eq_true_eq]
    constructor <;> rintro ⟨r, hr, hu, hs⟩ <;> refine ⟨r, hr, hu, ?_⟩
    · rw [← h r.1 (hn r hr (.inr (.inl hu)))]; exact hs
    · rw [h r.1 (hn r hr (.inr (.inl hu)))]; exact hs
  rw [h1]
  congr 2
  apply List.filterMap_congr
  intro r hr
  rcases hr2 : r.2 with _ | _ | _ | _ | a
  · simp only []; rw [h r.1 (hn r hr (.inl hr2))]
  · rfl
  · rfl
  · rfl
  · simp only []; rw [h a (hna r hr a hr2)]

theorem consumeParams_congr {req : Request} {d e : Dict} (h : ∀ k ∈ names req, d.lookup k = e.lookup k) :
    consumeParams req d = consumeParams req e := by
  unfold consumeParams
  apply List.filterMap_congr
  intro r hr
  rcases hr2 : r.2 with _ | _ | _ | _ | a
  · simp only []
    rw [h r.1 (List.mem_filterMap.mpr ⟨r, hr, by rw [hr2]⟩)]
  · rfl
  · rfl
  · rfl
  · simp only []
    rw [h a (List.mem_filterMap.mpr ⟨r, hr, by rw [hr2]⟩)]

/-! ### Selectors -/

theorem twoChildren_some (s t : Reqs) : twoChildren s (some t) = oneChild t := by
  simp [twoChildren, oneChild, addChild]

theorem childNames_simple {r : Reqs} {m : Meth} (hm : m ≠ .fitTransform) : childNames (oneChild r) m = .ok (names (r m)) := by
  cases m <;> first | (exact absurd rfl hm) | rfl | simp [childNames, oneChild, addChild, selMapping, Reqs.of]

theorem childNames_fitTransform {r : Reqs} : childNames (oneChild r) .fitTransform = .ok [] := by
  simp [childNames, oneChild, addChild, selMapping]; rfl

/-- What a selector asks for itself. -/
def ownNames : Meth → List String
  | .fit | .partialFit | .transform | .fitTransform => ["sample_domain"]
  | .predict | .predictProba | .predictLogProba | .score | .decisionFunction => ["sample_domain", "allow_source"]

theorem self_of (m : Meth) : selfReqs.of m = .ok ((ownNames m).map (fun k => (k, .yes))) := by
  cases m <;> rfl

theorem names_yes (l : List String) : names (l.map (fun k => (k, .yes))) = l := by
  induction l with
  | nil => rfl
  | cons a l ih => simp only [names, List.map_cons, List.filterMap_cons] at ih ⊢; rw [ih]

theorem routeParams_yes (l : List String) (d : Dict) (h : (d.map Prod.fst).Nodup) :
    routeParams (l.map (fun k => (k, .yes))) d =
      .ok (l.filterMap (fun k => ((d.lookup k).filter (fun v => decide (v ≠ .none))).map (fun v => (k, v)))) := by
  unfold routeParams
  simp only [List.filterMap_map, lookup_filter_none h]
  rw [if_neg (by simp)]
  rfl

theorem lookup_own {l : List String} (g : String → Option (Param Num)) (k : String) :
    (l.filterMap (fun k => (g k).map (fun v => (k, v)))).lookup k = if k ∈ l then g k else none := by
  induction l with
  | nil => rfl
  | cons a l ih =>
    rw [List.filterMap_cons]
    by_cases hk : k = a
    · subst hk
      rcases hg : g k with _ | v
      · rw [hg] at ih; simp [ih]
      · simp [List.lookup_cons_self]
    · rcases hg : g a with _ | v
      · simp only [Option.map_none]; rw [ih]; simp [hk]
      · simp only [Option.map_some]; rw [lookup_cons_ne hk, ih]; simp [hk]

theorem keys_own (g : String → Option (Param Num)) (o : List String) :
    (((o.filterMap (fun k => (g k).map (fun v => (k, v)))) : Dict).map Prod.fst).Sublist o := by
  induction o with
  | nil => exact .slnil
  | cons a o ih =>
    rw [List.filterMap_cons]
    rcases g a with _ | v
    · exact ih.cons a
    · exact ih.cons_cons a

theorem mem_of_lookup {d : Dict} {k : String} {v : Param Num} (h : d.lookup k = some v) : (k, v) ∈ d := by
  induction d with
  | nil => simp at h
  | cons kv d ih =>
    obtain ⟨a, b⟩ := kv
    by_cases hk : k = a
    · subst hk; rw [List.lookup_cons_self] at h; simp at h; simp [h]
    · rw [lookup_cons_ne hk] at h; exact List.mem_cons_of_mem _ (ih h)

theorem lookup_of_mem' {d : Dict} (hn : (d.map Prod.fst).Nodup) {kv : String × Param Num} (h : kv ∈ d) :
    d.lookup kv.1 = some kv.2 := by
  induction d with
  | nil => simp at h
  | cons a d ih =>
    obtain ⟨a, b⟩ := a
    simp only [List.map_cons, List.nodup_cons] at hn
    rcases List.mem_cons.mp h with rfl | h
    · exact List.lookup_cons_self
    · rw [lookup_cons_ne, ih hn.2 h]
      intro e; exact hn.1 (e ▸ List.mem_map_of_mem h)

/-- The parameters of a method of a selector. -/
theorem selRoute_ok {ch : List (String × Reqs)} {m : Meth} {l : List String} (hl : childNames ch m = .ok l) {params : Dict}
    (hp : (params.map Prod.fst).Nodup) :
    ∃ d, selRoute ch m params = .ok d ∧ (d.map Prod.fst).Nodup ∧ ∀ k, d.lookup k =
      if k ∈ l then params.lookup k else if k ∈ ownNames m then (params.lookup k).filter (fun v => decide (v ≠ .none)) else none := by
  have hown : ((((ownNames m).filterMap (fun k => ((params.lookup k).filter (fun v => decide (v ≠ .none))).map
      (fun v => (k, v)))) : Dict).map Prod.fst).Nodup := by
    exact List.Nodup.sublist (keys_own _ _) (by cases m <;> decide)
  unfold selRoute
  rw [self_of, hl]
  simp only [routeParams_yes _ _ hp, bind, Except.bind]
  have hfil : ((params.filter (fun kv => decide (kv.1 ∈ l))).map Prod.fst).Nodup := nodup_filter hp _
  rw [if_neg]
  · refine ⟨_, rfl, nodup_update hown _, fun k => ?_⟩
    rw [lookup_update _ _ _ hfil, lookup_own (fun k => (params.lookup k).filter (fun v => decide (v ≠ .none)))]
    by_cases hk : k ∈ l
    · rw [lookup_filter_key (fun k => decide (k ∈ l)) _ _ (by simpa using hk), if_pos hk]
      rcases params.lookup k with _ | v
      · simp
      · simp
    · rw [lookup_filter_not (fun k => decide (k ∈ l)) _ _ (by simpa using hk), if_neg hk]
      simp
  · simp only [List.any_eq_true, List.mem_filter, decide_eq_true_eq, Bool.and_eq_true, not_exists, not_and]
    rintro ⟨k, v⟩ ⟨hkv, _⟩ hh
    simp only [Dict.has, Dict.get, lookup_own (fun k => (params.lookup k).filter (fun v => decide (v ≠ .none)))] at hh ⊢
    rw [lookup_of_mem' hp hkv] at hh ⊢
    by_cases hk : k ∈ ownNames m
    · rw [if_pos hk] at hh ⊢
      by_cases hv : v = .none
      · simp [hv] at hh
      · simp [Option.filter, hv]
    · rw [if_neg hk] at hh; simp at hh

end Skada.Route

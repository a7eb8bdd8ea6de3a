/-
Lemmas for C134: dictionaries, masks, routing and selectors under a change of domain labels that keeps the sides.
-/
import Verif.Spec.Sides
import Verif.Lemmas.Selectors
import Verif.Model.PipelineSteps
import Verif.Model.Mapping

namespace Skada
open Np Spec

variable {α β σ : Type}

namespace Sides

theorem mask {sd sd' : List Int} (h : SameSides sd sd') : sd.map (fun d => decide (0 ≤ d)) = sd'.map (fun d => decide (0 ≤ d)) := by
  induction h with
  | nil => rfl
  | cons h _ ih => simp only [List.map_cons, ih, decide_eq_decide.2 h]

theorem negMask {sd sd' : List Int} (h : SameSides sd sd') : sd.map (fun d => decide (d < 0)) = sd'.map (fun d => decide (d < 0)) := by
  induction h with
  | nil => rfl
  | @cons a b _ _ h _ ih =>
    have : (a < 0) ↔ (b < 0) := by omega
    simp only [List.map_cons, ih, decide_eq_decide.2 this]

theorem length {sd sd' : List Int} (h : SameSides sd sd') : sd.length = sd'.length := List.Forall₂.length_eq h

theorem refl (sd : List Int) : SameSides sd sd := List.forall₂_same.2 (fun _ _ => Iff.rfl)

theorem nil_iff {sd sd' : List Int} (h : SameSides sd sd') : sd = [] ↔ sd' = [] := by
  rw [← List.length_eq_zero_iff, ← List.length_eq_zero_iff, length h]

theorem extract {sd sd' : List Int} (h : SameSides sd sd') : extractSourceIndices sd = extractSourceIndices sd' := by
  unfold extractSourceIndices
  simp only [nil_iff h, mask h]

theorem relParam_refl (k : String) (v : Param Num) : RelParam k v v := Or.inl rfl

theorem dict_refl (d : Dict) : RelDict d d := List.forall₂_same.2 (fun _ _ => ⟨rfl, Or.inl rfl⟩)

theorem domParam_cases {k : String} {v v' : Param Num} (h : RelParam k v v') : (v = .none ↔ v' = .none) := by
  rcases h with rfl | ⟨-, sd, sd', -, rfl, rfl⟩
  · exact Iff.rfl
  · simp [domParam]

/-- Lookup in related dictionaries. -/
theorem lookup {d d' : Dict} (h : RelDict d d') (k : String) :
    (d.lookup k = none ∧ d'.lookup k = none) ∨ ∃ v v', d.lookup k = some v ∧ d'.lookup k = some v' ∧ RelParam k v v' := by
  induction h with
  | nil => exact Or.inl ⟨rfl, rfl⟩
  | @cons a b l l' hab _ ih =>
    obtain ⟨ka, va⟩ := a
    obtain ⟨kb, vb⟩ := b
    obtain ⟨rfl, hv⟩ := hab
    simp only [List.lookup_cons]
    by_cases hk : k = ka
    · subst hk
      simp only [beq_self_eq_true]
      exact Or.inr ⟨_, _, rfl, rfl, hv⟩
    · rw [beq_false_of_ne hk]
      exact ih

theorem has {d d' : Dict} (h : RelDict d d') (k : String) : d.has k = d'.has k := by
  unfold Dict.has
  rcases lookup h k with ⟨h1, h2⟩ | ⟨v, v', h1, h2, -⟩
  · rw [h1, h2]
  · rw [h1, h2]; rfl

theorem get {d d' : Dict} (h : RelDict d d') (k : String) : RelParam k (d.get k) (d'.get k) := by
  unfold Dict.get
  rcases lookup h k with ⟨h1, h2⟩ | ⟨v, v', h1, h2, hr⟩
  · rw [h1, h2]; exact Or.inl rfl
  · rw [h1, h2]; exact hr

theorem get_eq {d d' : Dict} (h : RelDict d d') {k : String} (hk : k ≠ "sample_domain") : d.get k = d'.get k := by
  rcases get h k with h | ⟨h, -⟩
  · exact h
  · exact absurd h hk

theorem put {d d' : Dict} (h : RelDict d d') {k : String} {v v' : Param Num} (hv : RelParam k v v') : RelDict (d.put k v) (d'.put k v') := by
  induction h with
  | nil => exact List.Forall₂.cons ⟨rfl, hv⟩ List.Forall₂.nil
  | @cons a b l l' hab hl ih =>
    obtain ⟨ka, va⟩ := a
    obtain ⟨kb, vb⟩ := b
    obtain ⟨rfl, hv'⟩ := hab
    simp only at hv'
    simp only [Dict.put]
    split
    · rename_i hk; subst hk; exact List.Forall₂.cons ⟨rfl, hv⟩ hl
    · exact List.Forall₂.cons ⟨rfl, hv'⟩ ih

theorem update {d d' e e' : Dict} (h : RelDict d d') (he : RelDict e e') : RelDict (d.update e) (d'.update e') := by
  unfold Dict.update
  induction he generalizing d d' with
  | nil => exact h
  | @cons a b l l' hab _ ih =>
    obtain ⟨ka, va⟩ := a
    obtain ⟨kb, vb⟩ := b
    obtain ⟨rfl, hv⟩ := hab
    simp only [List.foldl_cons]
    exact ih (put h hv)

theorem filterKey {d d' : Dict} (h : RelDict d d') (f : String → Bool) : RelDict (d.filter (fun kv => f kv.1)) (d'.filter (fun kv => f kv.1)) := by
  induction h with
  | nil => exact List.Forall₂.nil
  | @cons a b l l' hab _ ih =>
    rw [List.filter_cons, List.filter_cons, ← hab.1]
    split
    · exact List.Forall₂.cons hab ih
    · exact ih

theorem filterNone {d d' : Dict} (h : RelDict d d') : RelDict (d.filter (fun kv => decide (kv.2 ≠ .none))) (d'.filter (fun kv => decide (kv.2 ≠ .none))) := by
  induction h with
  | nil => exact List.Forall₂.nil
  | @cons a b l l' hab _ ih =>
    have := domParam_cases hab.2
    rw [List.filter_cons, List.filter_cons]
    by_cases hn : a.2 = .none
    · rw [if_neg (by simpa using hn), if_neg (by simpa using this.1 hn)]; exact ih
    · rw [if_pos (by simpa using hn), if_pos (by simpa using fun h => hn (this.2 h))]
      exact List.Forall₂.cons hab ih

/-- Related parameters without a domain entry are equal. -/
theorem dict_eq {d d' : Dict} (h : RelDict d d') (hn : ∀ kv ∈ d, kv.1 ≠ "sample_domain") : d = d' := by
  induction h with
  | nil => rfl
  | @cons a b l l' hab _ ih =>
    rw [ih (fun kv hkv => hn kv (List.mem_cons_of_mem _ hkv))]
    congr 1
    rcases hab.2 with h | ⟨h, -⟩
    · exact Prod.ext hab.1 h
    · exact absurd h (hn a (List.mem_cons_self ..))

theorem keys_mem {d d' : Dict} (h : RelDict d d') {P : String → Prop} (hP : ∀ kv ∈ d, P kv.1) : ∀ kv ∈ d', P kv.1 := by
  induction h with
  | nil => simp
  | @cons a b l l' hab _ ih =>
    intro kv hkv
    rcases List.mem_cons.1 hkv with rfl | hm
    · rw [← hab.1]; exact hP a (List.mem_cons_self ..)
    · exact ih (fun kv h => hP kv (List.mem_cons_of_mem _ h)) kv hm

theorem sel {m : List Bool} {sd sd' : List Int} (h : SameSides sd sd') : SameSides (Np.sel m sd) (Np.sel m sd') := by
  induction h generalizing m with
  | nil => cases m with
    | nil => exact List.Forall₂.nil
    | cons b m => cases b <;> exact List.Forall₂.nil
  | cons hab _ ih => cases m with
    | nil => exact List.Forall₂.nil
    | cons b m => cases b with
      | false => exact ih
      | true => exact List.Forall₂.cons hab ih

theorem domainsOf_dom (sd : List Int) : domainsOf (domParam sd) = .ok sd := domainsOf_domParam sd


theorem sel_map {γ δ : Type} (f : γ → δ) (m : List Bool) (l : List γ) : Np.sel m (l.map f) = (Np.sel m l).map f := by
  induction l generalizing m with
  | nil => cases m with
    | nil => rfl
    | cons b m => cases b <;> rfl
  | cons a l ih => cases m with
    | nil => rfl
    | cons b m => cases b with
      | false => exact ih m
      | true => exact congrArg (f a :: ·) (ih m)

theorem maskParam_rel {k : String} {v v' : Param Num} (h : RelParam k v v') (m : List Bool) : RelParam k (maskParam m v) (maskParam m v') := by
  rcases h with rfl | ⟨hk, sd, sd', hs, rfl, rfl⟩
  · exact Or.inl rfl
  · refine Or.inr ⟨hk, ?_⟩
    simp only [domParam, maskParam, List.length_map, length hs, sel_map]
    split
    · exact ⟨_, _, sel hs, rfl, rfl⟩
    · exact ⟨_, _, hs, rfl, rfl⟩

theorem maskDict {d d' : Dict} (h : RelDict d d') (m : List Bool) :
    RelDict (d.map (fun kv => (kv.1, maskParam m kv.2))) (d'.map (fun kv => (kv.1, maskParam m kv.2))) := by
  induction h with
  | nil => exact List.Forall₂.nil
  | cons hab _ ih => exact List.Forall₂.cons ⟨hab.1, maskParam_rel hab.2 m⟩ ih

theorem py_cases {γ δ : Type} {R : γ → δ → Prop} {x : Py γ} {x' : Py δ} (h : RelPy R x x') :
    (∃ e, x = .error e ∧ x' = .error e) ∨ ∃ a b, x = .ok a ∧ x' = .ok b ∧ R a b := by
  cases x <;> cases x'
  · rename_i a b; have : a = b := h; subst this; exact Or.inl ⟨_, rfl, rfl⟩
  · exact h.elim
  · exact h.elim
  · exact Or.inr ⟨_, _, rfl, rfl, h⟩

theorem py_refl {γ : Type} {R : γ → γ → Prop} (hR : ∀ a, R a a) (x : Py γ) : RelPy R x x := by
  cases x
  · exact rfl
  · exact hR _

theorem py_eq {γ : Type} {x x' : Py γ} (h : RelPy Eq x x') : x = x' := by
  rcases py_cases h with ⟨e, rfl, rfl⟩ | ⟨a, b, rfl, rfl, rfl⟩ <;> rfl

/-- Data that differ in the names of domains at most. -/
def RelData {γ : Type} (a b : List α × γ × Dict) : Prop := a.1 = b.1 ∧ a.2.1 = b.2.1 ∧ RelDict a.2.2 b.2.2

theorem masks {X : List α} {y : Option (List Num)} {d d' : Dict} (h : RelDict d d') (m : List Bool) :
    RelPy RelData (applyDomainMasks X y d m) (applyDomainMasks X y d' m) := by
  unfold applyDomainMasks
  split
  · exact rfl
  · simp only
    split
    · exact rfl
    · exact ⟨rfl, rfl, maskDict h m⟩

theorem removeMasked_rel {X : List α} {y : List Num} {d d' : Dict} (h : RelDict d d') :
    RelPy RelData (Skada.removeMasked X y d) (Skada.removeMasked X y d') := by
  unfold Skada.removeMasked
  split
  · exact rfl
  · rename_i t _
    rcases py_cases (masks (X := X) (y := some y) h (unmaskedOf t y)) with ⟨e, h1, h2⟩ | ⟨⟨a, b, c⟩, ⟨a', b', c'⟩, h1, h2, ha, hb, hc⟩
    · rw [h1, h2]; exact rfl
    · rw [h1, h2]
      simp only at ha hb hc
      subst ha hb
      cases b
      · exact ⟨rfl, rfl, hc⟩
      · exact ⟨rfl, rfl, hc⟩

theorem selRemove {t : Bool} {X : List α} {y : Option (List Num)} {d d' : Dict} (h : RelDict d d') :
    RelPy RelData (Sel.removeMasked t X y d) (Sel.removeMasked t X y d') := by
  unfold Sel.removeMasked
  cases y with
  | none => exact ⟨rfl, rfl, h⟩
  | some y =>
    simp only [has h]
    split
    · exact ⟨rfl, rfl, h⟩
    · rcases py_cases (removeMasked_rel (X := X) (y := y) h) with ⟨e, h1, h2⟩ | ⟨⟨a, b, c⟩, ⟨a', b', c'⟩, h1, h2, ha, hb, hc⟩
      · rw [h1, h2]; exact rfl
      · rw [h1, h2]
        simp only at ha hb hc
        subst ha hb
        exact ⟨rfl, rfl, hc⟩

/-- Keys after `_remove_masked`. -/
theorem selRemove_keys {t : Bool} {X : List α} {y : Option (List Num)} {d : Dict} {P : String → Prop} (hP : ∀ kv ∈ d, P kv.1)
    {r : List α × Option (List Num) × Dict} (h : Sel.removeMasked t X y d = .ok r) : ∀ kv ∈ r.2.2, P kv.1 := by
  unfold Sel.removeMasked at h
  cases y with
  | none => cases h; exact hP
  | some y =>
    simp only at h
    split at h
    · cases h; exact hP
    · unfold Skada.removeMasked applyDomainMasks at h
      cases hy : findYType y with
      | error e => simp [hy] at h
      | ok ty =>
        cases hX : Np.boolIndex X (unmaskedOf ty y) with
        | error e => simp [hy, hX] at h
        | ok X' =>
          cases hyy : Np.boolIndex y (unmaskedOf ty y) with
          | error e => simp [hy, hX, hyy] at h
          | ok y' =>
            simp only [hy, hX, hyy, Except.ok.injEq] at h
            subst h
            intro kv hkv
            obtain ⟨kv', h', rfl⟩ := List.mem_map.1 hkv
            exact hP kv' h'

/-! ### Routing -/

theorem relFilterMap {req : Request} {f g : String × Alias → Option (String × Param Num)}
    (h : ∀ r ∈ req, (f r = none ∧ g r = none) ∨ ∃ a b, f r = some a ∧ g r = some b ∧ a.1 = b.1 ∧ RelParam a.1 a.2 b.2) :
    RelDict (req.filterMap f) (req.filterMap g) := by
  induction req with
  | nil => exact List.Forall₂.nil
  | cons r req ih =>
    have ih' := ih (fun r hr => h r (List.mem_cons_of_mem _ hr))
    rcases h r (List.mem_cons_self ..) with ⟨h1, h2⟩ | ⟨a, b, h1, h2, hab⟩
    · rw [List.filterMap_cons_none h1, List.filterMap_cons_none h2]; exact ih'
    · rw [List.filterMap_cons_some h1, List.filterMap_cons_some h2]; exact List.Forall₂.cons hab ih'

theorem relParam_move {k k' : String} {v v' : Param Num} (hk : k ≠ "sample_domain") (h : RelParam k v v') : RelParam k' v v' := by
  rcases h with h | ⟨h, -⟩
  · exact Or.inl h
  · exact absurd h hk

theorem relMap {x x' : Option (Param Num)} {k : String}
    (h : (x = none ∧ x' = none) ∨ ∃ v v', x = some v ∧ x' = some v' ∧ RelParam k v v') :
    (x.map (fun v => (k, v)) = none ∧ x'.map (fun v => (k, v)) = none) ∨
      ∃ a b, x.map (fun v => (k, v)) = some a ∧ x'.map (fun v => (k, v)) = some b ∧ a.1 = b.1 ∧ RelParam a.1 a.2 b.2 := by
  rcases h with ⟨rfl, rfl⟩ | ⟨v, v', rfl, rfl, hv⟩
  · exact Or.inl ⟨rfl, rfl⟩
  · exact Or.inr ⟨_, _, rfl, rfl, rfl, hv⟩

theorem route {req : Request} (hreq : ∀ r ∈ req, r.2 ≠ .name "sample_domain") {d d' : Dict} (h : RelDict d d') :
    RelPy RelDict (routeParams req d) (routeParams req d') := by
  unfold routeParams
  have hf := filterNone h
  simp only [has hf]
  split
  · exact rfl
  · refine relFilterMap (fun r hr => ?_)
    obtain ⟨k, a⟩ := r
    cases a with
    | yes => exact relMap (lookup hf k)
    | name a =>
      have ha : a ≠ "sample_domain" := fun e => hreq _ hr (by rw [e])
      refine relMap ((lookup hf a).imp id ?_)
      rintro ⟨v, v', h1, h2, hv⟩
      exact ⟨v, v', h1, h2, relParam_move ha hv⟩
    | no => left; exact ⟨rfl, rfl⟩
    | unset => left; exact ⟨rfl, rfl⟩
    | warn => left; exact ⟨rfl, rfl⟩

theorem consume {req : Request} {d d' : Dict} (h : RelDict d d') : RelDict (consumeParams req d) (consumeParams req d') := by
  unfold consumeParams
  refine relFilterMap (fun r _ => ?_)
  obtain ⟨k, a⟩ := r
  cases a with
  | yes => exact relMap (lookup h k)
  | name a => exact relMap (lookup h a)
  | no => left; exact ⟨rfl, rfl⟩
  | unset => left; exact ⟨rfl, rfl⟩
  | warn => left; exact ⟨rfl, rfl⟩

theorem prepare {req : Request} (hreq : ∀ r ∈ req, r.2 ≠ .name "sample_domain") {f t : Bool} {d d' : Dict} (h : RelDict d d') :
    RelPy RelDict (prepareRouting f t req d) (prepareRouting f t req d') := by
  unfold prepareRouting
  split
  · exact route hreq h
  · exact consume h

theorem prepare_asked {req : Request} {f t : Bool} {d r : Dict} (h : prepareRouting f t req d = .ok r) :
    ∀ kv ∈ r, Asked req kv.1 := by
  unfold prepareRouting at h
  intro kv hkv
  split at h
  · unfold routeParams at h
    simp only at h
    split at h
    · cases h
    · cases h
      obtain ⟨⟨k, a⟩, hr, hv⟩ := List.mem_filterMap.1 hkv
      refine ⟨_, hr, ?_⟩
      cases a with
      | yes => obtain ⟨v, -, rfl⟩ := Option.map_eq_some_iff.1 hv; exact Or.inl ⟨rfl, rfl⟩
      | name a => obtain ⟨v, -, rfl⟩ := Option.map_eq_some_iff.1 hv; exact Or.inr ⟨a, rfl, Or.inl rfl⟩
      | no => cases hv
      | unset => cases hv
      | warn => cases hv
  · cases h
    obtain ⟨⟨k, a⟩, hr, hv⟩ := List.mem_filterMap.1 hkv
    refine ⟨_, hr, ?_⟩
    cases a with
    | yes => obtain ⟨v, -, rfl⟩ := Option.map_eq_some_iff.1 hv; exact Or.inl ⟨rfl, rfl⟩
    | name a => obtain ⟨v, -, rfl⟩ := Option.map_eq_some_iff.1 hv; exact Or.inr ⟨a, rfl, Or.inr rfl⟩
    | no => cases hv
    | unset => cases hv
    | warn => cases hv

/-! ### Masks of labels -/

theorem sourceMask {v v' : Param Num} {k : String} (h : RelParam k v v') : sourceMaskOf v = sourceMaskOf v' := by
  rcases h with rfl | ⟨-, sd, sd', hs, rfl, rfl⟩
  · rfl
  · rw [sourceMaskOf_domParam, sourceMaskOf_domParam, extract hs]

theorem autoMask_rel {y : Option (List Num)} {d d' : Dict} (h : RelDict d d') : autoMask y d = autoMask y d' := by
  have hg := get h "sample_domain"
  unfold autoMask
  cases y with
  | none => rfl
  | some y => simp only [domParam_cases hg, sourceMask hg]

theorem ownMask_rel (s : Sel α σ) {y : Option (List Num)} {d d' : Dict} (h : RelDict d d') : s.ownMask y d = s.ownMask y d' := by
  unfold Sel.ownMask
  rw [autoMask_rel h]

theorem sideMask {v v' : Param Num} {k : String} (h : RelParam k v v') (side : Side) : side.mask v = side.mask v' := by
  unfold Side.mask
  rw [sourceMask h]

/-! ### Selectors -/

/-- Containers that differ in the names of domains at most. -/
def RelCont (c c' : Cont α) : Prop := c.features = c'.features ∧ c.labels = c'.labels ∧ RelDict c.metadata c'.metadata

theorem mergeOut_rel {c c' : Cont α} (h : RelCont c c') {y : Option (List Num)} {d d' : Dict} (hd : RelDict d d') :
    RelData (c.mergeOut y d) (c'.mergeOut y d') := by
  obtain ⟨h1, h2, h3⟩ := h
  unfold Cont.mergeOut
  exact ⟨h1, by simp only [h2], update hd h3⟩

theorem mergeIn_rel {c c' : Cont α} (h : RelCont c c') {o o' : StepOut α} (ho : RelOut o o') :
    RelPy RelCont (c.mergeIn o) (c'.mergeIn o') := by
  obtain ⟨h1, h2, h3⟩ := h
  cases o <;> cases o' <;> first | exact ho.elim | skip
  · exact ⟨ho, h2, h3⟩
  · exact ⟨ho.1, h2, update h3 ho.2⟩
  · exact ⟨ho.1, ho.2.1, update h3 ho.2.2⟩
  · exact rfl

theorem request_noAlias {e : Est α σ} (h : SidesOnly e) (m : Method) : ∀ r ∈ e.request m, r.2 ≠ .name "sample_domain" := by
  cases m
  · exact h.noAlias _ (Or.inl rfl)
  · exact h.noAlias _ (Or.inr (Or.inl rfl))

theorem invoke_rel {e : Est α σ} (h : SidesOnly e) (m : Method) {c c' : Call α} (hc : RelCall c c')
    (ha : ∀ kv ∈ c.params, Asked (e.request m) kv.1) :
    RelPy (fun a b => a.1 = b.1 ∧ RelOut a.2 b.2) (e.invoke m c) (e.invoke m c') := by
  obtain ⟨X, y, p⟩ := c
  obtain ⟨X', y', p'⟩ := c'
  obtain ⟨h1, h2, h3⟩ := hc
  simp only at h1 h2 h3
  subst h1 h2
  cases m with
  | fit =>
    simp only [Est.invoke]
    rw [h.fit X y p p' h3 ha]
    split
    · exact rfl
    · exact ⟨rfl, trivial⟩
  | fitTransform => exact h.fitTransform X y p p' h3 ha

theorem routedCall_rel {s : Sel α σ} (h : SidesOnly s.est) (m : Method) {X : List α} {y : Option (List Num)} {d d' : Dict}
    (hd : RelDict d d') :
    RelPy (fun a b => RelCall a b ∧ ∀ kv ∈ a.params, Asked (s.est.request m) kv.1) (s.routedCall m X y d) (s.routedCall m X y d') := by
  unfold Sel.routedCall
  rcases py_cases (prepare (request_noAlias h m) (f := s.final) (t := s.est.hasTransform) hd) with ⟨e, h1, h2⟩ | ⟨a, b, h1, h2, hab⟩
  · rw [h1, h2]; exact rfl
  · rw [h1, h2]
    simp only
    rcases py_cases (selRemove (t := s.est.hasTransform) (X := X) (y := y) hab) with ⟨e, h3, h4⟩ | ⟨r, r', h3, h4, hr⟩
    · rw [h3, h4]; exact rfl
    · rw [h3, h4]
      exact ⟨hr, selRemove_keys (prepare_asked h1) h3⟩

/-- The result of fitting one estimator. -/
def RelFit (a b : (σ × StepOut α) × Option (List Num)) : Prop := a.1.1 = b.1.1 ∧ RelOut a.1.2 b.1.2 ∧ a.2 = b.2

theorem sharedFit_rel {s : Sel α σ} (h : SidesOnly s.est) (m : Method) {c c' : Cont α} (hc : RelCont c c') {y : Option (List Num)}
    {d d' : Dict} (hd : RelDict d d') : RelRun RelFit (s.sharedFit m c y d) (s.sharedFit m c' y d') := by
  unfold Sel.sharedFit
  rw [ownMask_rel s hd]
  split
  · exact ⟨List.Forall₂.nil, rfl⟩
  · rename_i y' _
    have hm := mergeOut_rel hc (y := y') hd
    rcases hx : c.mergeOut y' d with ⟨X, y2, p⟩
    rcases hx' : c'.mergeOut y' d' with ⟨X', y2', p'⟩
    rw [hx, hx'] at hm
    obtain ⟨h1, h2, h3⟩ := hm
    simp only at h1 h2 h3
    subst h1 h2
    simp only
    rcases py_cases (routedCall_rel h m (X := X) (y := y2) h3) with ⟨e, h4, h5⟩ | ⟨a, b, h4, h5, hab, hk⟩
    · rw [h4, h5]; exact ⟨List.Forall₂.nil, rfl⟩
    · rw [h4, h5]
      refine ⟨List.Forall₂.cons hab List.Forall₂.nil, ?_⟩
      simp only
      rcases py_cases (invoke_rel h m hab hk) with ⟨e, h6, h7⟩ | ⟨r, r', h6, h7, hr⟩
      · rw [h6, h7]; exact rfl
      · rw [h6, h7]; exact ⟨hr.1, hr.2, rfl⟩

theorem sharedTransform_rel {s : Sel α σ} (h : SidesOnly s.est) {f : σ} {X : List α} {d d' : Dict} (hd : RelDict d d') :
    RelPy RelOut (s.sharedTransform f X d) (s.sharedTransform f X d') := by
  unfold Sel.sharedTransform
  rcases py_cases (prepare (h.noAlias _ (Or.inr (Or.inr rfl))) (f := s.final) (t := s.est.hasTransform) hd) with
    ⟨e, h1, h2⟩ | ⟨a, b, h1, h2, hab⟩
  · rw [h1, h2]; exact rfl
  · rw [h1, h2]; exact h.transform f X a b hab (prepare_asked h1)

/-- Cases of related runs. -/
theorem run_cases {γ δ : Type} {R : γ → δ → Prop} {r : Run α γ} {r' : Run α δ} (h : RelRun R r r') :
    ∃ calls calls', List.Forall₂ RelCall calls calls' ∧
      ((∃ e, r = (calls, .error e) ∧ r' = (calls', .error e)) ∨ ∃ a b, r = (calls, .ok a) ∧ r' = (calls', .ok b) ∧ R a b) := by
  obtain ⟨calls, x⟩ := r
  obtain ⟨calls', x'⟩ := r'
  refine ⟨calls, calls', h.1, ?_⟩
  rcases py_cases h.2 with ⟨e, h1, h2⟩ | ⟨a, b, h1, h2, hr⟩
  · simp only at h1 h2; subst h1 h2; exact Or.inl ⟨e, rfl, rfl⟩
  · simp only at h1 h2; subst h1 h2; exact Or.inr ⟨a, b, rfl, rfl, hr⟩

theorem sharedFitTransformOut_rel {s : Sel α σ} (h : SidesOnly s.est) {c c' : Cont α} (hc : RelCont c c') {y : Option (List Num)}
    {d d' : Dict} (hd : RelDict d d') : RelRun RelFit (s.sharedFitTransformOut c y d) (s.sharedFitTransformOut c' y d') := by
  unfold Sel.sharedFitTransformOut
  split
  · exact sharedFit_rel h _ hc hd
  · obtain ⟨calls, calls', hcalls, ⟨e, h1, h2⟩ | ⟨⟨⟨f, o⟩, y1⟩, ⟨⟨f', o'⟩, y1'⟩, h1, h2, hr⟩⟩ := run_cases (sharedFit_rel h .fit hc (y := y) hd)
    · rw [h1, h2]; exact ⟨hcalls, rfl⟩
    · rw [h1, h2]
      obtain ⟨r1, -, r2⟩ := hr
      simp only at r1 r2
      subst r1 r2
      have hm := mergeOut_rel hc (y := y1) hd
      rcases hx : c.mergeOut y1 d with ⟨X, y2, p⟩
      rcases hx' : c'.mergeOut y1 d' with ⟨X', y2', p'⟩
      rw [hx, hx'] at hm
      obtain ⟨m1, m2, m3⟩ := hm
      simp only at m1 m2 m3
      subst m1 m2
      refine ⟨hcalls, ?_⟩
      simp only [hx, hx']
      rcases py_cases (route (h.noAlias _ (Or.inr (Or.inr rfl))) m3) with ⟨e, h3, h4⟩ | ⟨a, b, h3, h4, hab⟩
      · rw [h3, h4]; exact rfl
      · rw [h3, h4]
        simp only
        rcases py_cases (sharedTransform_rel h (f := f) (X := X) hab) with ⟨e, h5, h6⟩ | ⟨q, q', h5, h6, hq⟩
        · rw [h5, h6]; exact rfl
        · rw [h5, h6]; exact ⟨rfl, hq, rfl⟩

theorem preFilter_rel {side : Side} {c c' : Cont α} (hc : RelCont c c') {y : Option (List Num)} {d d' : Dict} (hd : RelDict d d') :
    RelPy (fun a b => RelCont a.1 b.1 ∧ a.2.1 = b.2.1 ∧ RelDict a.2.2 b.2.2) (preFilter side c y d) (preFilter side c' y d') := by
  unfold preFilter
  have hm := mergeOut_rel hc (y := y) hd
  rcases hx : c.mergeOut y d with ⟨X, y2, p⟩
  rcases hx' : c'.mergeOut y d' with ⟨X', y2', p'⟩
  rw [hx, hx'] at hm
  obtain ⟨m1, m2, m3⟩ := hm
  simp only at m1 m2 m3
  subst m1 m2
  simp only
  rw [sideMask (get m3 "sample_domain")]
  split
  · exact rfl
  · rename_i m _
    rcases py_cases (masks (X := X) (y := y2) m3 m) with ⟨e, h1, h2⟩ | ⟨⟨a1, a2, a3⟩, ⟨b1, b2, b3⟩, h1, h2, r1, r2, r3⟩
    · rw [h1, h2]; exact rfl
    · rw [h1, h2]
      simp only at r1 r2 r3 ⊢
      subst r1 r2
      rcases py_cases (mergeIn_rel hc (o := .triple a1 a2 a3) (o' := .triple a1 a2 b3) ⟨rfl, rfl, r3⟩) with
        ⟨e, h3, h4⟩ | ⟨q, q', h3, h4, hq⟩
      · rw [h3, h4]; exact rfl
      · rw [h3, h4]; exact ⟨hq, rfl, r3⟩

theorem selectFit_rel {s : Sel α σ} (h : SidesOnly s.est) {side : Side} {c c' : Cont α} (hc : RelCont c c') {y : Option (List Num)}
    {d d' : Dict} (hd : RelDict d d') :
    RelRun (fun a b => a.1 = b.1) (s.selectFit side c y d) (s.selectFit side c' y d') := by
  unfold Sel.selectFit
  rcases py_cases (preFilter_rel (side := side) hc (y := y) hd) with ⟨e, h1, h2⟩ | ⟨⟨a1, a2, a3⟩, ⟨b1, b2, b3⟩, h1, h2, r1, r2, r3⟩
  · rw [h1, h2]; exact ⟨List.Forall₂.nil, rfl⟩
  · rw [h1, h2]
    simp only at r1 r2 r3 ⊢
    subst r2
    obtain ⟨calls, calls', hcalls, ⟨e, h3, h4⟩ | ⟨a, b, h3, h4, hr⟩⟩ := run_cases (sharedFit_rel h .fit r1 (y := a2) r3)
    · rw [h3, h4]; exact ⟨hcalls, rfl⟩
    · rw [h3, h4]; exact ⟨hcalls, hr.1⟩

theorem selectFitTransform_rel {s : Sel α σ} (h : SidesOnly s.est) {side : Side} {c c' : Cont α} (hc : RelCont c c')
    {y : Option (List Num)} {d d' : Dict} (hd : RelDict d d') :
    RelRun (fun a b => a.1 = b.1 ∧ RelCont a.2 b.2) (s.selectFitTransform side c y d) (s.selectFitTransform side c' y d') := by
  unfold Sel.selectFitTransform
  rcases py_cases (preFilter_rel (side := side) hc (y := y) hd) with ⟨e, h1, h2⟩ | ⟨⟨a1, a2, a3⟩, ⟨b1, b2, b3⟩, h1, h2, r1, r2, r3⟩
  · rw [h1, h2]; exact ⟨List.Forall₂.nil, rfl⟩
  · rw [h1, h2]
    simp only at r1 r2 r3 ⊢
    subst r2
    obtain ⟨calls, calls', hcalls, ⟨e, h3, h4⟩ | ⟨⟨⟨f, o⟩, y1⟩, ⟨⟨f', o'⟩, y1'⟩, h3, h4, hr⟩⟩ :=
      run_cases (sharedFitTransformOut_rel h r1 (y := a2) r3)
    · rw [h3, h4]; exact ⟨hcalls, rfl⟩
    · rw [h3, h4]
      refine ⟨hcalls, ?_⟩
      simp only
      rcases py_cases (mergeIn_rel r1 hr.2.1) with ⟨e, h5, h6⟩ | ⟨q, q', h5, h6, hq⟩
      · simp only at h5 h6; rw [h5, h6]; exact rfl
      · simp only at h5 h6; rw [h5, h6]; exact ⟨hr.1, hq⟩

/-! ### `SelectSourceTarget` -/

theorem unique_pos {l : List Int} : 0 < (Np.unique l).length ↔ l ≠ [] := by
  rw [List.length_pos_iff_exists_mem]
  constructor
  · rintro ⟨a, ha⟩ rfl
    exact absurd (Np.mem_unique.1 ha) (by simp)
  · intro h
    obtain ⟨a, ha⟩ := List.exists_mem_of_ne_nil l h
    exact ⟨a, Np.mem_unique.2 ha⟩

theorem unique_pos_rel {l l' : List Int} (h : SameSides l l') : (0 < (Np.unique l).length) ↔ (0 < (Np.unique l').length) := by
  rw [unique_pos, unique_pos, ne_eq, ne_eq, nil_iff h]

/-- The flags which do not count domains. -/
def Plain (f : Flags) : Prop := f.allowMultiSource = true ∧ f.allowMultiTarget = true ∧ f.allowCommonIdx = true

theorem checkFlags_rel {f : Flags} (hf : Plain f) {sd sd' : List Int} (h : SameSides sd sd') : checkFlags f sd = checkFlags f sd' := by
  obtain ⟨f1, f2, f3⟩ := hf
  unfold checkFlags
  have h1 := unique_pos_rel (sel (m := sd'.map (fun d => decide (0 ≤ d))) h)
  have h2 := unique_pos_rel (sel (m := (sd'.map (fun d => decide (0 ≤ d))).map (!·)) h)
  simp only [f1, f2, f3, mask h, Bool.not_true, Bool.false_and, Bool.false_eq_true, if_false, decide_eq_decide.2 h1,
    decide_eq_decide.2 h2]

theorem checkX {f : Flags} (hf : Plain f) {sd sd' : List Int} (h : SameSides sd sd') (X : List α) :
    (∃ e, checkXDomain X (.vec sd) f = .error e ∧ checkXDomain X (.vec sd') f = .error e) ∨
      (checkXDomain X (.vec sd) f = .ok (X, sd) ∧ checkXDomain X (.vec sd') f = .ok (X, sd')) := by
  unfold checkXDomain
  simp only [extract h, length h, checkFlags_rel hf h]
  by_cases hX : X = []
  · left; exact ⟨_, if_pos hX, if_pos hX⟩
  · simp only [if_neg hX]
    cases extractSourceIndices sd' with
    | error e => left; exact ⟨_, rfl, rfl⟩
    | ok m =>
      by_cases hl : X.length ≠ sd'.length
      · left; exact ⟨_, if_pos hl, if_pos hl⟩
      · simp only [if_neg hl, Bool.false_eq_true, if_false]
        cases checkFlags f sd' with
        | error e => left; exact ⟨_, rfl, rfl⟩
        | ok _ => right; exact ⟨rfl, rfl⟩

theorem checkXy {f : Flags} (hf : Plain f) {sd sd' : List Int} (h : SameSides sd sd') (X : List α) (y : List Num) (b : Bool := true) :
    (∃ e, checkXyDomain X y (.vec sd) f b = .error e ∧ checkXyDomain X y (.vec sd') f b = .error e) ∨
      (checkXyDomain X y (.vec sd) f b = .ok (X, y, sd) ∧ checkXyDomain X y (.vec sd') f b = .ok (X, y, sd')) := by
  unfold checkXyDomain
  simp only [extract h, checkFlags_rel hf h]
  by_cases hX : X = []
  · left; exact ⟨_, if_pos hX, if_pos hX⟩
  · simp only [if_neg hX]
    by_cases hy : y = []
    · left; exact ⟨_, if_pos hy, if_pos hy⟩
    · simp only [if_neg hy]
      by_cases hb : (!b && y.any (fun v => !v.isFinite)) = true
      · left; exact ⟨_, if_pos hb, if_pos hb⟩
      · simp only [if_neg hb]
        by_cases hl : X.length ≠ y.length
        · left; exact ⟨_, if_pos hl, if_pos hl⟩
        · simp only [if_neg hl]
          cases extractSourceIndices sd' with
          | error e => left; exact ⟨_, rfl, rfl⟩
          | ok m =>
            simp only
            cases checkFlags f sd' with
            | error e => left; exact ⟨_, rfl, rfl⟩
            | ok _ => right; exact ⟨rfl, rfl⟩

theorem sdArg_domParam (sd : List Int) : sdArg (domParam sd) = .ok (.vec sd) := by
  have hd := domainsOf_domParam sd
  simp only [domParam] at hd
  simp only [sdArg, domParam, hd]

theorem sstCheck_rel {X : List α} {y : Option (List Num)} {d d' : Dict} (h : RelDict d d') :
    RelPy SameSides (sstCheck X y d) (sstCheck X y d') := by
  unfold sstCheck
  rcases get h "sample_domain" with hg | ⟨-, sd, sd', hs, hv, hv'⟩
  · rw [hg]; exact py_refl refl _
  · rw [hv, hv', sdArg_domParam, sdArg_domParam]
    cases y with
    | none =>
      simp only
      rcases checkX (f := {}) ⟨rfl, rfl, rfl⟩ hs X with ⟨e, h1, h2⟩ | ⟨h1, h2⟩
      · rw [h1, h2]; exact rfl
      · rw [h1, h2]; exact hs
    | some y =>
      simp only
      rcases checkXy (f := {}) ⟨rfl, rfl, rfl⟩ hs X y with ⟨e, h1, h2⟩ | ⟨h1, h2⟩
      · rw [h1, h2]; exact rfl
      · rw [h1, h2]; exact hs

theorem domRel {sd sd' : List Int} (h : SameSides sd sd') : RelParam "sample_domain" (domParam sd) (domParam sd') :=
  Or.inr ⟨rfl, sd, sd', h, rfl, rfl⟩

theorem domDict {sd sd' : List Int} (h : SameSides sd sd') :
    RelDict [("sample_domain", domParam sd)] [("sample_domain", domParam sd')] :=
  List.Forall₂.cons ⟨rfl, domRel h⟩ List.Forall₂.nil

theorem invokeEq {e : Est α σ} (h : SidesEq e) (m : Method) {c c' : Call α} (hc : RelCall c c')
    (ha : ∀ kv ∈ c.params, Asked (e.request m) kv.1) : e.invoke m c = e.invoke m c' := by
  obtain ⟨X, y, p⟩ := c
  obtain ⟨X', y', p'⟩ := c'
  obtain ⟨h1, h2, h3⟩ := hc
  simp only at h1 h2 h3
  subst h1 h2
  cases m with
  | fit => simp only [Est.invoke]; rw [h.fit X y p p' h3 ha]
  | fitTransform => exact h.fitTransformEq X y p p' h3 ha

theorem fitSide_rel (s : SST α σ) {e : Est α σ} (h : SidesEq e) (m : Method) {X : List α} {y : Option (List Num)} {d d' : Dict}
    (hd : RelDict d d') (mk : List Bool) : RelRun Eq (s.fitSide e m X y d mk) (s.fitSide e m X y d' mk) := by
  unfold SST.fitSide
  split
  · exact ⟨List.Forall₂.nil, rfl⟩
  · rcases py_cases (masks (X := X) (y := y) hd mk) with ⟨e', h1, h2⟩ | ⟨⟨a1, a2, a3⟩, ⟨b1, b2, b3⟩, h1, h2, r1, r2, r3⟩
    · rw [h1, h2]; exact ⟨List.Forall₂.nil, rfl⟩
    · rw [h1, h2]
      simp only at r1 r2 r3 ⊢
      subst r1 r2
      rcases py_cases (prepare (request_noAlias h.toSidesOnly m) (f := s.final) (t := s.source.hasTransform) r3) with
        ⟨e', h3, h4⟩ | ⟨q, q', h3, h4, hq⟩
      · rw [h3, h4]; exact ⟨List.Forall₂.nil, rfl⟩
      · rw [h3, h4]
        simp only
        rcases py_cases (selRemove (t := s.source.hasTransform) (X := a1) (y := a2) hq) with ⟨e', h5, h6⟩ | ⟨⟨c1, c2, c3⟩, ⟨d1, d2, d3⟩, h5, h6, hr⟩
        · rw [h5, h6]; exact ⟨List.Forall₂.nil, rfl⟩
        · rw [h5, h6]
          have hc : RelCall (⟨c1, c2, c3⟩ : Call α) ⟨d1, d2, d3⟩ := hr
          refine ⟨List.Forall₂.cons hc List.Forall₂.nil, ?_⟩
          simp only
          rw [invokeEq h m hc (selRemove_keys (prepare_asked h3) h5)]
          exact py_refl (fun _ => rfl) _

theorem sstFit_rel {s : SST α σ} (h1 : SidesEq s.source) (h2 : SidesEq (s.target.getD s.source)) (m : Method) {c c' : Cont α}
    (hc : RelCont c c') {y : Option (List Num)} {d d' : Dict} (hd : RelDict d d') :
    RelRun Eq (s.fit m c y d) (s.fit m c' y d') := by
  unfold SST.fit
  have hm := mergeOut_rel hc (y := y) hd
  rcases hx : c.mergeOut y d with ⟨X, y2, p⟩
  rcases hx' : c'.mergeOut y d' with ⟨X', y2', p'⟩
  rw [hx, hx'] at hm
  obtain ⟨m1, m2, m3⟩ := hm
  simp only at m1 m2 m3
  subst m1 m2
  simp only
  rcases py_cases (sstCheck_rel (X := X) (y := y2) m3) with ⟨e, k1, k2⟩ | ⟨sd, sd', k1, k2, hs⟩
  · rw [k1, k2]; exact ⟨List.Forall₂.nil, rfl⟩
  · rw [k1, k2]
    simp only [mask hs]
    have hp := put m3 (domRel hs)
    obtain ⟨calls, calls', hcalls, ⟨e, k3, k4⟩ | ⟨a, b, k3, k4, hr⟩⟩ :=
      run_cases (fitSide_rel s h1 m (X := X) (y := y2) hp (sd'.map (fun d => decide (0 ≤ d))))
    · rw [k3, k4]; exact ⟨hcalls, rfl⟩
    · rw [k3, k4]
      subst hr
      obtain ⟨fs, os⟩ := a
      simp only
      obtain ⟨calls2, calls2', hcalls2, ⟨e, k5, k6⟩ | ⟨a2, b2, k5, k6, hr2⟩⟩ :=
        run_cases (fitSide_rel s h2 m (X := X) (y := y2) hp ((sd'.map (fun d => decide (0 ≤ d))).map (!·)))
      · rw [k5, k6]; exact ⟨List.rel_append hcalls hcalls2, rfl⟩
      · rw [k5, k6]
        subst hr2
        exact ⟨List.rel_append hcalls hcalls2, rfl⟩

theorem sstFitTransformOut_rel [Cell α] {s : SST α σ} (h1 : SidesEq s.source) (h2 : SidesEq (s.target.getD s.source)) {c c' : Cont α}
    (hc : RelCont c c') {y : Option (List Num)} {d d' : Dict} (hd : RelDict d d') :
    RelRun Eq (s.fitTransformOut c y d) (s.fitTransformOut c' y d') := by
  unfold SST.fitTransformOut
  split
  · obtain ⟨calls, calls', hcalls, ⟨e, k3, k4⟩ | ⟨a, b, k3, k4, hr⟩⟩ := run_cases (sstFit_rel h1 h2 .fitTransform hc (y := y) hd)
    · rw [k3, k4]; exact ⟨hcalls, rfl⟩
    · rw [k3, k4]
      subst hr
      refine ⟨hcalls, ?_⟩
      simp only [hc.1]
      exact py_refl (fun _ => rfl) _
  · obtain ⟨calls, calls', hcalls, ⟨e, k3, k4⟩ | ⟨a, b, k3, k4, hr⟩⟩ := run_cases (sstFit_rel h1 h2 .fit hc (y := y) hd)
    · rw [k3, k4]; exact ⟨hcalls, rfl⟩
    · rw [k3, k4]; exact ⟨hcalls, rfl⟩

theorem out_refl (o : StepOut α) : RelOut o o := by
  cases o
  · exact rfl
  · exact ⟨rfl, dict_refl _⟩
  · exact ⟨rfl, rfl, dict_refl _⟩
  · trivial

/-! ### Steps and pipelines -/

theorem stepFitTransform_rel [Cell α] {st : Step α σ} (h : StepSides st) {c c' : Cont α} (hc : RelCont c c') {y : Option (List Num)}
    {d d' : Dict} (hd : RelDict d d') :
    RelRun (fun a b => a.1 = b.1 ∧ RelCont a.2.1 b.2.1 ∧ a.2.2 = b.2.2) (st.fitTransform c y d) (st.fitTransform c' y d') := by
  cases st with
  | shared s =>
    simp only [Step.fitTransform]
    obtain ⟨calls, calls', hcalls, ⟨e, k1, k2⟩ | ⟨⟨⟨f, o⟩, y1⟩, ⟨⟨f', o'⟩, y1'⟩, k1, k2, hr⟩⟩ :=
      run_cases (sharedFitTransformOut_rel h hc (y := y) hd)
    · rw [k1, k2]; exact ⟨hcalls, rfl⟩
    · rw [k1, k2]
      obtain ⟨r1, r2, r3⟩ := hr
      simp only at r1 r2 r3
      subst r1 r3
      refine ⟨hcalls, ?_⟩
      simp only
      rcases py_cases (mergeIn_rel hc r2) with ⟨e, k3, k4⟩ | ⟨q, q', k3, k4, hq⟩
      · rw [k3, k4]; exact rfl
      · rw [k3, k4]; exact ⟨rfl, hq, rfl⟩
  | perDomain s => exact h.elim
  | select side s =>
    simp only [Step.fitTransform]
    obtain ⟨calls, calls', hcalls, ⟨e, k1, k2⟩ | ⟨⟨f, o⟩, ⟨f', o'⟩, k1, k2, hr⟩⟩ :=
      run_cases (selectFitTransform_rel h (side := side) hc (y := y) hd)
    · rw [k1, k2]; exact ⟨hcalls, rfl⟩
    · rw [k1, k2]
      obtain ⟨r1, r2⟩ := hr
      simp only at r1 r2
      subst r1
      exact ⟨hcalls, rfl, r2, rfl⟩
  | sourceTarget s =>
    simp only [Step.fitTransform]
    obtain ⟨calls, calls', hcalls, ⟨e, k1, k2⟩ | ⟨⟨f, o⟩, ⟨f', o'⟩, k1, k2, hr⟩⟩ :=
      run_cases (sstFitTransformOut_rel h.1 h.2 hc (y := y) hd)
    · rw [k1, k2]; exact ⟨hcalls, rfl⟩
    · rw [k1, k2]
      cases hr
      refine ⟨hcalls, ?_⟩
      simp only
      rcases py_cases (mergeIn_rel hc (out_refl o)) with ⟨e, k3, k4⟩ | ⟨q, q', k3, k4, hq⟩
      · rw [k3, k4]; exact rfl
      · rw [k3, k4]; exact ⟨rfl, hq, rfl⟩

theorem stepFit_rel {st : Step α σ} (h : StepSides st) {c c' : Cont α} (hc : RelCont c c') {y : Option (List Num)}
    {d d' : Dict} (hd : RelDict d d') : RelRun Eq (st.fit c y d) (st.fit c' y d') := by
  cases st with
  | shared s =>
    simp only [Step.fit]
    obtain ⟨calls, calls', hcalls, ⟨e, k1, k2⟩ | ⟨⟨⟨f, o⟩, y1⟩, ⟨⟨f', o'⟩, y1'⟩, k1, k2, hr⟩⟩ :=
      run_cases (sharedFit_rel h .fit hc (y := y) hd)
    · rw [k1, k2]; exact ⟨hcalls, rfl⟩
    · rw [k1, k2]
      obtain ⟨r1, -, r3⟩ := hr
      simp only at r1 r3
      subst r1 r3
      exact ⟨hcalls, rfl⟩
  | perDomain s => exact h.elim
  | select side s =>
    simp only [Step.fit]
    obtain ⟨calls, calls', hcalls, ⟨e, k1, k2⟩ | ⟨⟨f, o⟩, ⟨f', o'⟩, k1, k2, hr⟩⟩ :=
      run_cases (selectFit_rel h (side := side) hc (y := y) hd)
    · rw [k1, k2]; exact ⟨hcalls, rfl⟩
    · rw [k1, k2]
      simp only at hr
      subst hr
      exact ⟨hcalls, rfl⟩
  | sourceTarget s =>
    simp only [Step.fit]
    obtain ⟨calls, calls', hcalls, ⟨e, k1, k2⟩ | ⟨a, b, k1, k2, hr⟩⟩ := run_cases (sstFit_rel h.1 h.2 .fit hc (y := y) hd)
    · rw [k1, k2]; exact ⟨hcalls, rfl⟩
    · rw [k1, k2]; cases hr; exact ⟨hcalls, rfl⟩

theorem fitSteps_rel [Cell α] {steps : List ((String → Bool) × Step α σ)} (h : ∀ st ∈ steps, StepSides st.2) {c c' : Cont α}
    (hc : RelCont c c') {y : Option (List Num)} {d d' : Dict} (hd : RelDict d d') :
    RelRun Eq (fitSteps steps c y d) (fitSteps steps c' y d') := by
  induction steps generalizing c c' y with
  | nil => exact ⟨List.Forall₂.nil, rfl⟩
  | cons st rest ih =>
    obtain ⟨keep, st⟩ := st
    have hst := h _ (List.mem_cons_self ..)
    cases rest with
    | nil =>
      simp only [fitSteps]
      obtain ⟨calls, calls', hcalls, ⟨e, k1, k2⟩ | ⟨a, b, k1, k2, hr⟩⟩ :=
        run_cases (stepFit_rel hst hc (y := y) (filterKey hd keep))
      · rw [k1, k2]; exact ⟨hcalls, rfl⟩
      · rw [k1, k2]; cases hr; exact ⟨hcalls, rfl⟩
    | cons st2 rest =>
      simp only [fitSteps]
      obtain ⟨calls, calls', hcalls, ⟨e, k1, k2⟩ | ⟨⟨f, c1, y1⟩, ⟨f', c1', y1'⟩, k1, k2, hr⟩⟩ :=
        run_cases (stepFitTransform_rel hst hc (y := y) (filterKey hd keep))
      · rw [k1, k2]; exact ⟨hcalls, rfl⟩
      · rw [k1, k2]
        obtain ⟨r1, r2, r3⟩ := hr
        simp only at r1 r2 r3
        subst r1 r3
        simp only
        obtain ⟨calls2, calls2', hcalls2, ⟨e, k3, k4⟩ | ⟨a, b, k3, k4, hr2⟩⟩ :=
          run_cases (ih (fun st hst => h st (List.mem_cons_of_mem _ hst)) r2 (y := y1))
        · rw [k3, k4]; exact ⟨List.rel_append hcalls hcalls2, rfl⟩
        · rw [k3, k4]; cases hr2; exact ⟨List.rel_append hcalls hcalls2, rfl⟩

/-! ### Evaluation -/

theorem transformQuery_rel {e : Est α σ} (h : SidesOnly e) {f : σ} {X : List α} {y : Option (List Num)} {d d' : Dict} (hd : RelDict d d')
    (ha : ∀ kv ∈ d, Asked e.transformReq kv.1) : e.transformQuery f ⟨X, y, d⟩ = e.transformQuery f ⟨X, y, d'⟩ := by
  unfold Est.transformQuery
  rcases py_cases (h.transform f X d d' hd ha) with ⟨err, k1, k2⟩ | ⟨a, b, k1, k2, hr⟩
  · simp only [k1, k2]
  · simp only [k1, k2]
    cases a <;> cases b <;> first | exact hr.elim | skip
    · have : _ = _ := hr; rw [this]
    · rfl
    · rfl
    · rfl

theorem sideOutputs_rel {τ : Type} {s : SST α σ} {t : Bool} {query : τ → Call α → Py (QOut β)} {X : List α} {y : Option (List Num)}
    {d d' : Dict} (hd : RelDict d d') (l : List (τ × Request × List Bool))
    (hl : ∀ q ∈ l, (∀ r ∈ q.2.1, r.2 ≠ .name "sample_domain") ∧
      ∀ X y p p', RelDict p p' → (∀ kv ∈ p, Asked q.2.1 kv.1) → query q.1 ⟨X, y, p⟩ = query q.1 ⟨X, y, p'⟩) :
    s.sideOutputs t query X y d l = s.sideOutputs t query X y d' l := by
  induction l with
  | nil => rfl
  | cons q l ih =>
    obtain ⟨e, req, mk⟩ := q
    have ih' := ih (fun q hq => hl q (List.mem_cons_of_mem _ hq))
    obtain ⟨h1, h2⟩ := hl _ (List.mem_cons_self ..)
    simp only at h1 h2
    simp only [SST.sideOutputs, ih']
    split
    · rfl
    · rcases py_cases (masks (X := X) (y := y) hd mk) with ⟨e', k1, k2⟩ | ⟨⟨a1, a2, a3⟩, ⟨b1, b2, b3⟩, k1, k2, r1, r2, r3⟩
      · rw [k1, k2]
      · rw [k1, k2]
        simp only at r1 r2 r3 ⊢
        subst r1 r2
        rcases py_cases (prepare h1 (f := s.final) (t := s.source.hasTransform) r3) with ⟨e', k3, k4⟩ | ⟨q, q', k3, k4, hq⟩
        · rw [k3, k4]
        · rw [k3, k4]
          simp only
          rw [h2 _ _ q q' hq (prepare_asked k3)]

theorem sstRoute_rel {τ : Type} [Cell β] {s : SST α σ} {t : Bool} {reqS reqT : Request} {fitted : τ × τ} {query : τ → Call α → Py (QOut β)}
    {X : List α} {y : Option (List Num)} {d d' : Dict} (hd : RelDict d d')
    (hS : (∀ r ∈ reqS, r.2 ≠ .name "sample_domain") ∧
      ∀ X y p p', RelDict p p' → (∀ kv ∈ p, Asked reqS kv.1) → query fitted.1 ⟨X, y, p⟩ = query fitted.1 ⟨X, y, p'⟩)
    (hT : (∀ r ∈ reqT, r.2 ≠ .name "sample_domain") ∧
      ∀ X y p p', RelDict p p' → (∀ kv ∈ p, Asked reqT kv.1) → query fitted.2 ⟨X, y, p⟩ = query fitted.2 ⟨X, y, p'⟩) :
    s.route t reqS reqT fitted query X y d = s.route t reqS reqT fitted query X y d' := by
  unfold SST.route
  rcases py_cases (sstCheck_rel (X := X) (y := y) hd) with ⟨e, k1, k2⟩ | ⟨sd, sd', k1, k2, hs⟩
  · rw [k1, k2]
  · rw [k1, k2]
    simp only [mask hs]
    rw [sideOutputs_rel (put hd (domRel hs))]
    intro q hq
    simp only [List.mem_cons, List.not_mem_nil, or_false] at hq
    rcases hq with rfl | rfl
    · exact hS
    · exact hT

theorem stepTransform_rel [Cell α] {st : Step α σ} (h : StepSides st) (f : Fitted σ) {X : List α} {d d' : Dict} (hd : RelDict d d') :
    st.transform f X d = st.transform f X d' := by
  cases st with
  | shared s =>
    cases f with
    | one f =>
      simp only [Step.transform]
      rcases py_cases (sharedTransform_rel h (f := f) (X := X) hd) with ⟨e, k1, k2⟩ | ⟨a, b, k1, k2, hr⟩
      · rw [k1, k2]
      · rw [k1, k2]
        cases a <;> cases b <;> first | exact hr.elim | skip
        · have : _ = _ := hr; rw [this]
        · rfl
        · rfl
        · rfl
    | perDomain _ => rfl
    | sourceTarget _ _ => rfl
  | perDomain s => exact h.elim
  | select side s =>
    cases f with
    | one f =>
      simp only [Step.transform]
      rcases py_cases (sharedTransform_rel h (f := f) (X := X) hd) with ⟨e, k1, k2⟩ | ⟨a, b, k1, k2, hr⟩
      · rw [k1, k2]
      · rw [k1, k2]
        cases a <;> cases b <;> first | exact hr.elim | skip
        · have : _ = _ := hr; rw [this]
        · rfl
        · rfl
        · rfl
    | perDomain _ => rfl
    | sourceTarget _ _ => rfl
  | sourceTarget s =>
    cases f with
    | sourceTarget fs ft =>
      simp only [Step.transform]
      rw [sstRoute_rel hd]
      · exact ⟨h.1.noAlias _ (Or.inr (Or.inr rfl)), fun X y p p' hp ha => transformQuery_rel h.1.toSidesOnly hp ha⟩
      · exact ⟨h.2.noAlias _ (Or.inr (Or.inr rfl)), fun X y p p' hp ha => transformQuery_rel h.2.toSidesOnly hp ha⟩
    | one _ => rfl
    | perDomain _ => rfl

theorem sharedRoute_rel {s : Sel α σ} {req : Request} {query : σ → Call α → Py β} {f : σ} {X : List α} {y : Option (List Num)}
    {d d' : Dict} (hd : RelDict d d') (h1 : ∀ r ∈ req, r.2 ≠ .name "sample_domain")
    (h2 : ∀ X y p p', RelDict p p' → (∀ kv ∈ p, Asked req kv.1) → query f ⟨X, y, p⟩ = query f ⟨X, y, p'⟩) :
    s.sharedRoute req query f X y d = s.sharedRoute req query f X y d' := by
  unfold Sel.sharedRoute
  rcases py_cases (prepare h1 (f := s.final) (t := s.est.hasTransform) hd) with ⟨e', k3, k4⟩ | ⟨q, q', k3, k4, hq⟩
  · rw [k3, k4]
  · rw [k3, k4]
    simp only
    rcases py_cases (selRemove (t := s.est.hasTransform) (X := X) (y := y) hq) with ⟨e', h5, h6⟩ | ⟨⟨c1, c2, c3⟩, ⟨d1, d2, d3⟩, h5, h6, r1, r2, r3⟩
    · rw [h5, h6]
    · rw [h5, h6]
      simp only at r1 r2 r3 ⊢
      subst r1 r2
      exact h2 _ _ _ _ r3 (selRemove_keys (prepare_asked k3) h5)

theorem stepsRoute_rel [Cell α] {steps : List ((String → Bool) × Step α σ × Fitted σ)} (h : ∀ st ∈ steps, StepSides st.2.1)
    {last : (String → Bool) × Sel α σ × σ} {req : Request} {query : σ → Call α → Py β} {X : List α} {y : Option (List Num)} {d d' : Dict}
    (hd : RelDict d d') (h1 : ∀ r ∈ req, r.2 ≠ .name "sample_domain")
    (h2 : ∀ f X y p p', RelDict p p' → (∀ kv ∈ p, Asked req kv.1) → query f ⟨X, y, p⟩ = query f ⟨X, y, p'⟩) :
    stepsRoute steps last req query X y d = stepsRoute steps last req query X y d' := by
  induction steps generalizing X with
  | nil => exact sharedRoute_rel (filterKey hd _) h1 (h2 _)
  | cons st rest ih =>
    obtain ⟨keep, st, f⟩ := st
    simp only [stepsRoute]
    have hst : StepSides st := h _ (List.mem_cons_self ..)
    rw [stepTransform_rel hst f (filterKey hd keep)]
    cases st.transform f X (d'.filter (fun kv => keep kv.1)) with
    | error e => rfl
    | ok X' => exact ih (fun st hst => h st (List.mem_cons_of_mem _ hst))

/-! ### Functions of a `sample_domain` argument -/

theorem check_bind {γ : Type} {f : Flags} (hf : Plain f) {sd sd' : List Int} (h : SameSides sd sd') (X : List α)
    {k k' : List α × List Int → Py γ} (hk : k (X, sd) = k' (X, sd')) :
    (checkXDomain X (.vec sd) f >>= k) = (checkXDomain X (.vec sd') f >>= k') := by
  rcases checkX hf h X with ⟨e, h1, h2⟩ | ⟨h1, h2⟩
  · rw [h1, h2]; rfl
  · rw [h1, h2]; exact hk

theorem checkXy_bind {γ : Type} {f : Flags} (hf : Plain f) {sd sd' : List Int} (h : SameSides sd sd') (X : List α) (y : List Num)
    {k k' : List α × List Num × List Int → Py γ} (hk : k (X, y, sd) = k' (X, y, sd')) :
    (checkXyDomain X y (.vec sd) f >>= k) = (checkXyDomain X y (.vec sd') f >>= k') := by
  rcases checkXy hf h X y with ⟨e, h1, h2⟩ | ⟨h1, h2⟩
  · rw [h1, h2]; rfl
  · rw [h1, h2]; exact hk

theorem splitX_rel {sd sd' : List Int} (h : SameSides sd sd') (X : List α) : RW.splitX X sd = RW.splitX X sd' := by
  unfold RW.splitX sourceTargetSplit
  rw [extract h]

theorem sourceIdx_rel {sd sd' : List Int} (h : SameSides sd sd') : RW.sourceIdx sd = RW.sourceIdx sd' := by
  unfold RW.sourceIdx
  rw [extract h]

theorem splitN_rel {sd sd' : List Int} (h : SameSides sd sd') (X : NArr α) : Map.splitN X sd = Map.splitN X sd' := by
  unfold Map.splitN
  rw [splitX_rel h]

theorem splitY_rel {sd sd' : List Int} (h : SameSides sd sd') (y : Option (List α)) : Map.splitY y sd = Map.splitY y sd' := by
  unfold Map.splitY
  cases y with
  | none => rfl
  | some y => simp only [splitX_rel h]

theorem mergePair_rel [Cell α] {sd sd' : List Int} (h : SameSides sd sd') (p : NArr α × NArr α) : mergePair sd p = mergePair sd' p := by
  have hn : sd.map (fun d => !decide (0 ≤ d)) = sd'.map (fun d => !decide (0 ≤ d)) := by
    have := congrArg (List.map (!·)) (mask h)
    simpa [List.map_map, Function.comp_def] using this
  unfold mergePair mergeArrays
  simp only [mask h, negMask h, length h, hn]

theorem mergeN_rel [Cell α] {sd sd' : List Int} (h : SameSides sd sd') (s t : NArr α) : Map.mergeN s t sd = Map.mergeN s t sd' := by
  by_cases h0 : sd = []
  · rw [h0, (nil_iff h).1 h0]
  · have h0' : sd' ≠ [] := fun e => h0 ((nil_iff h).2 e)
    unfold Map.mergeN sourceTargetMerge
    simp only [pairUp, if_neg h0, if_neg h0', extract h, funext (mergePair_rel h)]
    cases ([(some s, some t)] : List _).mapM checkPair with
    | error e => rfl
    | ok ps =>
      simp only [List.length_cons, List.length_nil]
      cases extractSourceIndices sd' with
      | error e => rfl
      | ok m =>
        simp only
        cases ps.mapM (mergePair sd') with
        | error e => rfl
        | ok ms => rcases ms with _ | ⟨a, _ | ⟨b, l⟩⟩ <;> rfl

/-! ### Order-preserving renaming of domains -/

theorem insertU_map {f : Int → Int} (hf : StrictMono f) (x : Int) (l : List Int) :
    Np.insertU (f x) (l.map f) = (Np.insertU x l).map f := by
  induction l with
  | nil => rfl
  | cons y l ih =>
    simp only [List.map_cons, Np.insertU, hf.lt_iff_lt, ih]
    split_ifs <;> rfl

theorem unique_map {f : Int → Int} (hf : StrictMono f) (l : List Int) : Np.unique (l.map f) = (Np.unique l).map f := by
  induction l with
  | nil => rfl
  | cons x l ih =>
    have e1 : Np.unique ((x :: l).map f) = Np.insertU (f x) (Np.unique (l.map f)) := rfl
    have e2 : Np.unique (x :: l) = Np.insertU x (Np.unique l) := rfl
    rw [e1, e2, ih, insertU_map hf]

theorem domainIdx_map {f : Int → Int} (hf : StrictMono f) (sd : List Int) (d : Int) : domainIdx (sd.map f) (f d) = domainIdx sd d := by
  unfold domainIdx
  simp only [List.map_map, Function.comp_def, hf.injective.eq_iff]

theorem perDomainLoop_map {f : Int → Int} (hf : StrictMono f) (s : Sel α σ) (m : Method) (X : List α) (y : Option (List Num)) (routed : Dict)
    (sd ds : List Int) : s.perDomainLoop m X y routed (sd.map f) (ds.map f) =
      ((s.perDomainLoop m X y routed sd ds).1, (s.perDomainLoop m X y routed sd ds).2.map (fun r => r.map (fun o => (f o.1, o.2)))) := by
  induction ds with
  | nil => rfl
  | cons d ds ih =>
    simp only [List.map_cons, Sel.perDomainLoop, domainIdx_map hf, ih]
    cases takeCall X y routed (domainIdx sd d) with
    | error e => rfl
    | ok call =>
      dsimp only
      cases s.est.invoke m call with
      | error e => rfl
      | ok o =>
        dsimp only
        rcases s.perDomainLoop m X y routed sd ds with ⟨calls, r⟩
        cases r <;> rfl

theorem lookup_map {f : Int → Int} (hf : StrictMono f) (ests : List (Int × σ)) (d : Int) :
    (ests.map (fun o => (f o.1, o.2))).lookup (f d) = ests.lookup d := by
  induction ests with
  | nil => rfl
  | cons e ests ih =>
    obtain ⟨k, e⟩ := e
    have : (f d == f k) = (d == k) := by rw [Bool.eq_iff_iff, beq_iff_eq, beq_iff_eq, hf.injective.eq_iff]
    simp only [List.map_cons, List.lookup_cons, this, ih]

theorem perDomainOutputs_map {β : Type} {f : Int → Int} (hf : StrictMono f) (ests : List (Int × σ)) (query : σ → Call α → Py (QOut β)) (X : List α)
    (y : Option (List Num)) (routed : Dict) (sd ds : List Int) :
    perDomainOutputs (ests.map (fun o => (f o.1, o.2))) query X y routed (sd.map f) (ds.map f) =
      perDomainOutputs ests query X y routed sd ds := by
  induction ds with
  | nil => rfl
  | cons d ds ih => simp only [List.map_cons, perDomainOutputs, lookup_map hf, domainIdx_map hf, ih]

theorem sameSides_map {f : Int → Int} (hs : ∀ d, 0 ≤ d ↔ 0 ≤ f d) (sd : List Int) : SameSides sd (sd.map f) := by
  induction sd with
  | nil => exact List.Forall₂.nil
  | cons d sd ih => exact List.Forall₂.cons (hs d) ih

end Sides
end Skada

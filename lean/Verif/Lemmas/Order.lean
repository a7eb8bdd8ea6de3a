/-
Lemmas for C136: dictionaries, masks, routing, merging and selectors when the samples are reordered.
-/
import Verif.Spec.Order
import Verif.Lemmas.Sides

namespace Skada
open Np Spec

variable {α β σ γ δ : Type}

namespace Order

/-! ### Rows -/

theorem reorder_filter {l l' : List Nat} (h : Reorder l l') (m : Nat → Bool) : Reorder (l.filter m) (l'.filter m) :=
  ⟨h.nodup.filter _, h.perm.filter _⟩

theorem reorder_nil {l l' : List Nat} (h : Reorder l l') : l = [] ↔ l' = [] := by
  rw [← List.length_eq_zero_iff, ← List.length_eq_zero_iff, h.perm.length_eq]

theorem rows_length {l l' : List Nat} (h : Reorder l l') {a a' : List γ} (ha : Rows l l' a a') : a.length = a'.length := by
  obtain ⟨f, rfl, rfl⟩ := ha
  simp [h.perm.length_eq]

theorem rows_nil {l l' : List Nat} (h : Reorder l l') {a a' : List γ} (ha : Rows l l' a a') : a = [] ↔ a' = [] := by
  rw [← List.length_eq_zero_iff, ← List.length_eq_zero_iff, rows_length h ha]

theorem rows_map {l l' : List Nat} {a a' : List γ} (ha : Rows l l' a a') (g : γ → δ) : Rows l l' (a.map g) (a'.map g) := by
  obtain ⟨f, rfl, rfl⟩ := ha
  exact ⟨g ∘ f, by simp, by simp⟩

theorem rows_perm {l l' : List Nat} (h : Reorder l l') {a a' : List γ} (ha : Rows l l' a a') : a.Perm a' := by
  obtain ⟨f, rfl, rfl⟩ := ha
  exact h.perm.map f

theorem any_perm {a a' : List γ} (h : a.Perm a') (q : γ → Bool) : a.any q = a'.any q := by
  rw [Bool.eq_iff_iff, List.any_eq_true, List.any_eq_true]
  exact ⟨fun ⟨x, hx, hq⟩ => ⟨x, h.mem_iff.1 hx, hq⟩, fun ⟨x, hx, hq⟩ => ⟨x, h.mem_iff.2 hx, hq⟩⟩

theorem rows_any {l l' : List Nat} (h : Reorder l l') {a a' : List γ} (ha : Rows l l' a a') (q : γ → Bool) : a.any q = a'.any q :=
  any_perm (rows_perm h ha) q

theorem unique_perm {a a' : List Int} (h : a.Perm a') : Np.unique a = Np.unique a' := by
  refine List.Perm.eq_of_pairwise (le := (· < ·)) (fun x y _ _ h1 h2 => absurd h1 (not_lt.2 h2.le)) (Np.pairwise_unique _) (Np.pairwise_unique _) ?_
  refine (List.perm_ext_iff_of_nodup (Np.nodup_unique _) (Np.nodup_unique _)).2 (fun x => ?_)
  rw [Np.mem_unique, Np.mem_unique, h.mem_iff]

theorem sel_rows (l : List Nat) (m : Nat → Bool) (f : Nat → γ) : Np.sel (l.map m) (l.map f) = (l.filter m).map f := by
  induction l with
  | nil => rfl
  | cons i l ih => cases h : m i <;> simp [Np.sel, h, ih]

theorem boolIndex_rows (l : List Nat) (m : Nat → Bool) (f : Nat → γ) : Np.boolIndex (l.map f) (l.map m) = .ok ((l.filter m).map f) := by
  simp [Np.boolIndex, sel_rows]

theorem take_rows (l : List Nat) (m : Nat → Bool) (f : Nat → γ) :
    Np.take (l.map f) (Np.flatnonzero (l.map m)) = .ok ((l.filter m).map f) := by
  rw [Np.take_flatnonzero (by simp), sel_rows]

theorem findYType_perm {y y' : List Num} (h : y.Perm y') : findYType y = findYType y' := by
  unfold findYType
  simp only [any_perm h]

theorem checkYMasking_perm {y y' : List Num} (h : y.Perm y') : checkYMasking y = checkYMasking y' := by
  unfold checkYMasking
  rw [findYType_perm h]
  simp only [any_perm h]

/-! ### Dictionaries -/

theorem param_none {l l' : List Nat} {v v' : Param Num} (h : RowsParam l l' v v') : v = .none ↔ v' = .none := by
  rcases h with ⟨a, a', -, rfl, rfl⟩ | ⟨rfl, -⟩
  · simp
  · exact Iff.rfl

theorem lookup {l l' : List Nat} {d d' : Dict} (h : RowsDict l l' d d') (k : String) :
    (d.lookup k = none ∧ d'.lookup k = none) ∨ ∃ v v', d.lookup k = some v ∧ d'.lookup k = some v' ∧ RowsParam l l' v v' := by
  induction h with
  | nil => exact Or.inl ⟨rfl, rfl⟩
  | @cons a b t t' hab _ ih =>
    obtain ⟨ka, va⟩ := a
    obtain ⟨kb, vb⟩ := b
    obtain ⟨rfl, hv⟩ := hab
    simp only [List.lookup_cons]
    by_cases hk : k = ka
    · subst hk
      simp only [beq_self_eq_true]
      exact Or.inr ⟨_, _, rfl, rfl, hv⟩
    · rw [beq_false_of_ne hk]
      exact ih

theorem has {l l' : List Nat} {d d' : Dict} (h : RowsDict l l' d d') (k : String) : d.has k = d'.has k := by
  unfold Dict.has
  rcases lookup h k with ⟨h1, h2⟩ | ⟨v, v', h1, h2, -⟩
  · rw [h1, h2]
  · rw [h1, h2]; rfl

theorem get {l l' : List Nat} {d d' : Dict} (h : RowsDict l l' d d') (k : String) : RowsParam l l' (d.get k) (d'.get k) := by
  unfold Dict.get
  rcases lookup h k with ⟨h1, h2⟩ | ⟨v, v', h1, h2, hr⟩
  · rw [h1, h2]; exact Or.inr ⟨rfl, by simp⟩
  · rw [h1, h2]; exact hr

theorem put {l l' : List Nat} {d d' : Dict} (h : RowsDict l l' d d') {k : String} {v v' : Param Num} (hv : RowsParam l l' v v') :
    RowsDict l l' (d.put k v) (d'.put k v') := by
  induction h with
  | nil => exact List.Forall₂.cons ⟨rfl, hv⟩ List.Forall₂.nil
  | @cons a b t t' hab ht ih =>
    obtain ⟨ka, va⟩ := a
    obtain ⟨kb, vb⟩ := b
    obtain ⟨rfl, hv'⟩ := hab
    simp only at hv'
    simp only [Dict.put]
    split
    · rename_i hk; subst hk; exact List.Forall₂.cons ⟨rfl, hv⟩ ht
    · exact List.Forall₂.cons ⟨rfl, hv'⟩ ih

theorem update {l l' : List Nat} {d d' e e' : Dict} (h : RowsDict l l' d d') (he : RowsDict l l' e e') :
    RowsDict l l' (d.update e) (d'.update e') := by
  unfold Dict.update
  induction he generalizing d d' with
  | nil => exact h
  | @cons a b t t' hab _ ih =>
    obtain ⟨ka, va⟩ := a
    obtain ⟨kb, vb⟩ := b
    obtain ⟨rfl, hv⟩ := hab
    simp only [List.foldl_cons]
    exact ih (put h hv)

theorem keys_put (d : Dict) (k : String) (v : Param Num) :
    (d.put k v).map Prod.fst = if k ∈ d.map Prod.fst then d.map Prod.fst else d.map Prod.fst ++ [k] := by
  induction d with
  | nil => rfl
  | cons a d ih =>
    obtain ⟨ka, va⟩ := a
    simp only [Dict.put]
    by_cases hk : ka = k
    · subst hk; simp
    · have hk' : ¬ k = ka := fun e => hk e.symm
      rw [if_neg hk]
      simp only [List.map_cons, ih, List.mem_cons, hk', false_or]
      split <;> rfl

theorem mem_keys_put {d : Dict} {k k' : String} {v : Param Num} :
    k' ∈ (d.put k v).map Prod.fst ↔ k' = k ∨ k' ∈ d.map Prod.fst := by
  rw [keys_put]
  split
  · rename_i h
    exact ⟨Or.inr, fun h' => h'.elim (fun e => e ▸ h) id⟩
  · simp only [List.mem_append, List.mem_singleton]; exact or_comm

theorem mem_keys_update {d e : Dict} {k : String} :
    k ∈ (d.update e).map Prod.fst ↔ k ∈ d.map Prod.fst ∨ k ∈ e.map Prod.fst := by
  unfold Dict.update
  induction e generalizing d with
  | nil => simp
  | cons a e ih =>
    rw [List.foldl_cons, ih, mem_keys_put, List.map_cons, List.mem_cons]
    tauto

theorem nodup_put {d : Dict} (hn : (d.map Prod.fst).Nodup) (k : String) (v : Param Num) : ((d.put k v).map Prod.fst).Nodup := by
  rw [keys_put]
  split
  · exact hn
  · rename_i hm
    exact List.nodup_append.2 ⟨hn, by simp, by rintro x hx y hy rfl; exact hm (List.mem_singleton.1 hy ▸ hx)⟩

theorem nodup_update {d e : Dict} (hn : (d.map Prod.fst).Nodup) : ((d.update e).map Prod.fst).Nodup := by
  unfold Dict.update
  induction e generalizing d with
  | nil => exact hn
  | cons a e ih => exact ih (nodup_put hn a.1 a.2)

/-- Writing over every entry: afterwards all are aligned with the new rows, whatever they were aligned with before. -/
theorem update_cover {l0 l0' l l' : List Nat} {d d' e e' : Dict} (h : RowsDict l0 l0' d d') (he : RowsDict l l' e e')
    (hn : (d.map Prod.fst).Nodup) (hc : ∀ kv ∈ d, kv.1 ∈ e.map Prod.fst) : RowsDict l l' (d.update e) (d'.update e') := by
  have key : ∀ {e e' : Dict}, RowsDict l l' e e' → ∀ {d d' : Dict}, (d.map Prod.fst).Nodup →
      List.Forall₂ (fun a b : String × Param Num => a.1 = b.1 ∧ (RowsParam l l' a.2 b.2 ∨ a.1 ∈ e.map Prod.fst)) d d' →
      RowsDict l l' (d.update e) (d'.update e') := by
    intro e e' he
    induction he with
    | nil =>
      intro d d' _ h
      exact h.imp (fun _ _ hab => ⟨hab.1, hab.2.resolve_right (by simp)⟩)
    | @cons a b t t' hab _ ih =>
      obtain ⟨ka, va⟩ := a
      obtain ⟨kb, vb⟩ := b
      obtain ⟨rfl, hv⟩ := hab
      intro d d' hn h
      have hput := nodup_put hn ka va
      refine ih hput ?_
      clear ih hput
      induction h with
      | nil => exact List.Forall₂.cons ⟨rfl, Or.inl hv⟩ List.Forall₂.nil
      | @cons x y s s' hxy hs ihs =>
        obtain ⟨kx, vx⟩ := x
        obtain ⟨ky, vy⟩ := y
        obtain ⟨rfl, hxy⟩ := hxy
        rw [List.map_cons, List.nodup_cons] at hn
        simp only [Dict.put]
        by_cases hk : kx = ka
        · subst hk
          simp only [if_true]
          refine List.Forall₂.cons ⟨rfl, Or.inl hv⟩ ?_
          have hno : ∀ z ∈ s, z.1 ≠ kx := fun z hz e => hn.1 (List.mem_map.2 ⟨z, hz, e⟩)
          clear ihs hxy hn
          induction hs with
          | nil => exact List.Forall₂.nil
          | @cons z w u u' hzw _ ihu =>
            refine List.Forall₂.cons ⟨hzw.1, hzw.2.imp id (fun hm => ?_)⟩ (ihu (fun z hz => hno z (List.mem_cons_of_mem _ hz)))
            rcases List.mem_cons.1 hm with h | h
            · exact absurd h (hno z (List.mem_cons_self ..))
            · exact h
        · simp only [if_neg hk]
          refine List.Forall₂.cons ⟨rfl, hxy.imp id (fun hm => ?_)⟩ (ihs hn.2)
          rcases List.mem_cons.1 hm with h | h
          · exact absurd h hk
          · exact h
  refine key he hn ?_
  clear key hn
  induction h with
  | nil => exact List.Forall₂.nil
  | @cons a b t t' hab _ ih =>
    exact List.Forall₂.cons ⟨hab.1, Or.inr (hc a (List.mem_cons_self ..))⟩ (ih (fun kv hkv => hc kv (List.mem_cons_of_mem _ hkv)))

theorem filterKey {l l' : List Nat} {d d' : Dict} (h : RowsDict l l' d d') (f : String → Bool) :
    RowsDict l l' (d.filter (fun kv => f kv.1)) (d'.filter (fun kv => f kv.1)) := by
  induction h with
  | nil => exact List.Forall₂.nil
  | @cons a b t t' hab _ ih =>
    rw [List.filter_cons, List.filter_cons, ← hab.1]
    split
    · exact List.Forall₂.cons hab ih
    · exact ih

theorem filterNone {l l' : List Nat} {d d' : Dict} (h : RowsDict l l' d d') :
    RowsDict l l' (d.filter (fun kv => decide (kv.2 ≠ .none))) (d'.filter (fun kv => decide (kv.2 ≠ .none))) := by
  induction h with
  | nil => exact List.Forall₂.nil
  | @cons a b t t' hab _ ih =>
    have := param_none hab.2
    rw [List.filter_cons, List.filter_cons]
    by_cases hn : a.2 = .none
    · rw [if_neg (by simpa using hn), if_neg (by simpa using this.1 hn)]; exact ih
    · rw [if_pos (by simpa using hn), if_pos (by simpa using fun h => hn (this.2 h))]
      exact List.Forall₂.cons hab ih

/-! ### Masks -/

theorem maskParam_rows {l l' : List Nat} {v v' : Param Num} (h : RowsParam l l' v v') (m : Nat → Bool) :
    RowsParam (l.filter m) (l'.filter m) (maskParam (l.map m) v) (maskParam (l'.map m) v') := by
  rcases h with ⟨a, a', ⟨f, rfl, rfl⟩, rfl, rfl⟩ | ⟨rfl, hv⟩
  · left
    refine ⟨_, _, ⟨f, rfl, rfl⟩, ?_, ?_⟩ <;> simp [maskParam, sel_rows]
  · right
    cases v with
    | arr a => exact absurd rfl (hv a)
    | scalar v => exact ⟨rfl, by simp [maskParam]⟩
    | none => exact ⟨rfl, by simp [maskParam]⟩

theorem maskDict {l l' : List Nat} {d d' : Dict} (h : RowsDict l l' d d') (m : Nat → Bool) :
    RowsDict (l.filter m) (l'.filter m) (d.map (fun kv => (kv.1, maskParam (l.map m) kv.2)))
      (d'.map (fun kv => (kv.1, maskParam (l'.map m) kv.2))) := by
  induction h with
  | nil => exact List.Forall₂.nil
  | cons hab _ ih => exact List.Forall₂.cons ⟨hab.1, maskParam_rows hab.2 m⟩ ih

/-- Data in two orders. -/
def RowsData (l l' : List Nat) (a b : List α × Option (List Num) × Dict) : Prop :=
  Rows l l' a.1 b.1 ∧ RowsOpt l l' a.2.1 b.2.1 ∧ RowsDict l l' a.2.2 b.2.2

theorem masks {l l' : List Nat} {X X' : List α} (hX : Rows l l' X X') {y y' : Option (List Num)} (hy : RowsOpt l l' y y') {d d' : Dict}
    (hd : RowsDict l l' d d') (m : Nat → Bool) :
    ∃ a b, applyDomainMasks X y d (l.map m) = .ok a ∧ applyDomainMasks X' y' d' (l'.map m) = .ok b ∧
      RowsData (l.filter m) (l'.filter m) a b ∧ (a.2.1.isSome = y.isSome) ∧ a.2.2.map Prod.fst = d.map Prod.fst := by
  obtain ⟨f, rfl, rfl⟩ := hX
  cases y with
  | none =>
    cases y' with
    | some y' => exact hy.elim
    | none =>
      simp only [applyDomainMasks, boolIndex_rows]
      exact ⟨_, _, rfl, rfl, ⟨⟨f, rfl, rfl⟩, trivial, maskDict hd m⟩, rfl, by simp⟩
  | some y =>
    cases y' with
    | none => exact hy.elim
    | some y' =>
      obtain ⟨g, rfl, rfl⟩ := hy
      simp only [applyDomainMasks, boolIndex_rows]
      exact ⟨_, _, rfl, rfl, ⟨⟨f, rfl, rfl⟩, ⟨g, rfl, rfl⟩, maskDict hd m⟩, rfl, by simp⟩

theorem unmasked_rows (t : YType) : ∃ m : Num → Bool, ∀ y, unmaskedOf t y = y.map m := by
  cases t
  · exact ⟨_, fun _ => rfl⟩
  · exact ⟨_, fun _ => rfl⟩

theorem selRemove {l l' : List Nat} (hl : Reorder l l') {t : Bool} {X X' : List α} (hX : Rows l l' X X') {y y' : Option (List Num)}
    (hy : RowsOpt l l' y y') {d d' : Dict} (hd : RowsDict l l' d d') :
    RelPy (fun a b => ∃ k k', Reorder k k' ∧ RowsData k k' a b ∧ (t = true ∨ y = none → k = l ∧ k' = l'))
      (Sel.removeMasked t X y d) (Sel.removeMasked t X' y' d') := by
  unfold Sel.removeMasked
  cases y with
  | none =>
    cases y' with
    | some y' => exact hy.elim
    | none => exact ⟨l, l', hl, ⟨hX, trivial, hd⟩, fun _ => ⟨rfl, rfl⟩⟩
  | some y =>
    cases y' with
    | none => exact hy.elim
    | some y' =>
      simp only [has hd]
      split
      · exact ⟨l, l', hl, ⟨hX, hy, hd⟩, fun _ => ⟨rfl, rfl⟩⟩
      · rename_i ht
        unfold Skada.removeMasked
        obtain ⟨g, rfl, rfl⟩ := hy
        rw [findYType_perm (hl.perm.map g)]
        cases findYType (l'.map g) with
        | error e => exact rfl
        | ok ty =>
          obtain ⟨m, hm⟩ := unmasked_rows ty
          simp only [hm, List.map_map]
          obtain ⟨⟨a1, a2, a3⟩, ⟨b1, b2, b3⟩, h1, h2, ⟨r1, r2, r3⟩, h4, -⟩ :=
            masks hX (y := some (l.map g)) (y' := some (l'.map g)) ⟨g, rfl, rfl⟩ hd (m ∘ g)
          rw [h1, h2]
          simp only at r1 r2 r3 h4
          cases a2 with
          | none => simp at h4
          | some a2 =>
            cases b2 with
            | none => exact r2.elim
            | some b2 =>
              refine ⟨_, _, reorder_filter hl _, ⟨r1, r2, r3⟩, fun h => ?_⟩
              rcases h with h | h
              · exact absurd (by simp [h]) ht
              · cases h

/-! ### Routing -/

theorem relFilterMap {l l' : List Nat} {req : Request} {f g : String × Alias → Option (String × Param Num)}
    (h : ∀ r ∈ req, (f r = none ∧ g r = none) ∨ ∃ a b, f r = some a ∧ g r = some b ∧ a.1 = b.1 ∧ RowsParam l l' a.2 b.2) :
    RowsDict l l' (req.filterMap f) (req.filterMap g) := by
  induction req with
  | nil => exact List.Forall₂.nil
  | cons r req ih =>
    have ih' := ih (fun r hr => h r (List.mem_cons_of_mem _ hr))
    rcases h r (List.mem_cons_self ..) with ⟨h1, h2⟩ | ⟨a, b, h1, h2, hab⟩
    · rw [List.filterMap_cons_none h1, List.filterMap_cons_none h2]; exact ih'
    · rw [List.filterMap_cons_some h1, List.filterMap_cons_some h2]; exact List.Forall₂.cons hab ih'

theorem relMap {l l' : List Nat} {x x' : Option (Param Num)} (k : String)
    (h : (x = none ∧ x' = none) ∨ ∃ v v', x = some v ∧ x' = some v' ∧ RowsParam l l' v v') :
    (x.map (fun v => (k, v)) = none ∧ x'.map (fun v => (k, v)) = none) ∨
      ∃ a b, x.map (fun v => (k, v)) = some a ∧ x'.map (fun v => (k, v)) = some b ∧ a.1 = b.1 ∧ RowsParam l l' a.2 b.2 := by
  rcases h with ⟨rfl, rfl⟩ | ⟨v, v', rfl, rfl, hv⟩
  · exact Or.inl ⟨rfl, rfl⟩
  · exact Or.inr ⟨_, _, rfl, rfl, rfl, hv⟩

theorem route {l l' : List Nat} {req : Request} {d d' : Dict} (h : RowsDict l l' d d') :
    RelPy (RowsDict l l') (routeParams req d) (routeParams req d') := by
  unfold routeParams
  have hf := filterNone h
  simp only [has hf]
  split
  · exact rfl
  · refine relFilterMap (fun r _ => ?_)
    obtain ⟨k, a⟩ := r
    cases a with
    | yes => exact relMap _ (lookup hf k)
    | name a => exact relMap _ (lookup hf a)
    | no => left; exact ⟨rfl, rfl⟩
    | unset => left; exact ⟨rfl, rfl⟩
    | warn => left; exact ⟨rfl, rfl⟩

theorem consume {l l' : List Nat} {req : Request} {d d' : Dict} (h : RowsDict l l' d d') :
    RowsDict l l' (consumeParams req d) (consumeParams req d') := by
  unfold consumeParams
  refine relFilterMap (fun r _ => ?_)
  obtain ⟨k, a⟩ := r
  cases a with
  | yes => exact relMap _ (lookup h k)
  | name a => exact relMap _ (lookup h a)
  | no => left; exact ⟨rfl, rfl⟩
  | unset => left; exact ⟨rfl, rfl⟩
  | warn => left; exact ⟨rfl, rfl⟩

theorem prepare {l l' : List Nat} {req : Request} {f t : Bool} {d d' : Dict} (h : RowsDict l l' d d') :
    RelPy (RowsDict l l') (prepareRouting f t req d) (prepareRouting f t req d') := by
  unfold prepareRouting
  split
  · exact route h
  · exact consume h

/-! ### Domains -/

theorem domainsOf_rows {l l' : List Nat} (hl : Reorder l l') {v v' : Param Num} (h : RowsParam l l' v v') :
    RelPy (Rows l l') (domainsOf v) (domainsOf v') := by
  rcases h with ⟨a, a', ha, rfl, rfl⟩ | ⟨rfl, hv⟩
  · unfold domainsOf
    simp only [rows_any hl ha]
    split
    · exact rfl
    · exact rows_map ha _
  · cases v with
    | arr a => exact absurd rfl (hv a)
    | scalar v => exact rfl
    | none => exact rfl

theorem extract_rows {l l' : List Nat} (hl : Reorder l l') {sd sd' : List Int} (h : Rows l l' sd sd') :
    RelPy (Rows l l') (extractSourceIndices sd) (extractSourceIndices sd') := by
  unfold extractSourceIndices
  simp only [rows_nil hl h]
  split
  · exact rfl
  · exact rows_map h _

theorem sourceMask_rows {l l' : List Nat} (hl : Reorder l l') {v v' : Param Num} (h : RowsParam l l' v v') :
    RelPy (Rows l l') (sourceMaskOf v) (sourceMaskOf v') := by
  unfold sourceMaskOf
  rcases Sides.py_cases (domainsOf_rows hl h) with ⟨e, h1, h2⟩ | ⟨a, b, h1, h2, hab⟩
  · rw [h1, h2]; exact rfl
  · rw [h1, h2]; exact extract_rows hl hab

theorem sideMask_rows {l l' : List Nat} (hl : Reorder l l') {v v' : Param Num} (h : RowsParam l l' v v') (side : Side) :
    RelPy (Rows l l') (side.mask v) (side.mask v') := by
  unfold Side.mask
  rcases Sides.py_cases (sourceMask_rows hl h) with ⟨e, h1, h2⟩ | ⟨a, b, h1, h2, hab⟩
  · rw [h1, h2]; exact rfl
  · rw [h1, h2]
    cases side
    · exact hab
    · exact rows_map hab _

theorem autoMask_rows {l l' : List Nat} (hl : Reorder l l') {y y' : Option (List Num)} (hy : RowsOpt l l' y y') {d d' : Dict}
    (h : RowsDict l l' d d') : RelPy (fun a b => RowsOpt l l' a b ∧ a.isSome = y.isSome) (autoMask y d) (autoMask y' d') := by
  have hg := get h "sample_domain"
  unfold autoMask
  cases y with
  | none =>
    cases y' with
    | some y' => exact hy.elim
    | none => exact ⟨trivial, rfl⟩
  | some y =>
    cases y' with
    | none => exact hy.elim
    | some y' =>
      simp only [param_none hg]
      split
      · exact ⟨hy, rfl⟩
      · rw [findYType_perm (rows_perm hl hy)]
        cases findYType y' with
        | error e => exact rfl
        | ok t =>
          simp only
          rcases Sides.py_cases (sourceMask_rows hl hg) with ⟨e, h1, h2⟩ | ⟨a, b, h1, h2, hab⟩
          · rw [h1, h2]; exact rfl
          · rw [h1, h2]
            obtain ⟨f, rfl, rfl⟩ := hy
            obtain ⟨g, rfl, rfl⟩ := hab
            have key : ∀ k : List Nat, Np.boolFill (k.map f) ((k.map g).map (!·)) (maskLabel t) =
                .ok (k.map (fun i => if !g i then maskLabel t else f i)) := by
              intro k
              simp only [Np.boolFill, List.length_map, ne_eq, not_true_eq_false, if_false]
              congr 1
              induction k with
              | nil => rfl
              | cons i k ih => simp only [List.map_cons, List.zipWith_cons_cons, ih]
            simp only [key]
            exact ⟨⟨_, rfl, rfl⟩, rfl⟩

theorem ownMask_rows (s : Sel α σ) {l l' : List Nat} (hl : Reorder l l') {y y' : Option (List Num)} (hy : RowsOpt l l' y y') {d d' : Dict}
    (h : RowsDict l l' d d') : RelPy (fun a b => RowsOpt l l' a b ∧ a.isSome = y.isSome) (s.ownMask y d) (s.ownMask y' d') := by
  unfold Sel.ownMask
  split
  · exact autoMask_rows hl hy h
  · exact ⟨hy, rfl⟩

/-! ### The container and single estimators -/

/-- Containers in two orders. -/
structure RowsCont (l l' : List Nat) (c c' : Cont α) : Prop where
  features : Rows l l' c.features c'.features
  labels : RowsOpt l l' c.labels c'.labels
  metadata : RowsDict l l' c.metadata c'.metadata
  nodup : (c.metadata.map Prod.fst).Nodup

/-- What the caller passes is aligned with the container, or all of it is overridden by the container. -/
def Over (l0 l0' l l' : List Nat) (y : Option (List Num)) (p : Dict) (c : Cont α) : Prop :=
  (l = l0 ∧ l' = l0') ∨ ((y.isSome = true → c.labels.isSome = true) ∧ ∀ kv ∈ p, kv.1 ∈ c.metadata.map Prod.fst)

theorem over_sub {l0 l0' l l' : List Nat} {y : Option (List Num)} {p p2 : Dict} {c : Cont α} (h : Over l0 l0' l l' y p c)
    (hs : ∀ kv ∈ p2, kv ∈ p) : Over l0 l0' l l' y p2 c :=
  h.imp id (fun h => ⟨h.1, fun kv hkv => h.2 kv (hs kv hkv)⟩)

theorem over_y {l0 l0' l l' : List Nat} {y y2 : Option (List Num)} {p : Dict} {c : Cont α} (h : Over l0 l0' l l' y p c)
    (hs : y2.isSome = y.isSome) : Over l0 l0' l l' y2 p c :=
  h.imp id (fun h => ⟨fun e => h.1 (hs ▸ e), h.2⟩)

theorem mergeOut_rows {l0 l0' l l' : List Nat} {c c' : Cont α} (hc : RowsCont l l' c c') {y y' : Option (List Num)}
    (hy : RowsOpt l0 l0' y y') {d d' : Dict} (hd : RowsDict l0 l0' d d') (hn : (d.map Prod.fst).Nodup) (ho : Over l0 l0' l l' y d c) :
    RowsData l l' (c.mergeOut y d) (c'.mergeOut y' d') := by
  obtain ⟨X, la, md⟩ := c
  obtain ⟨X', la', md'⟩ := c'
  obtain ⟨h1, h2, h3, -⟩ := hc
  simp only at h1 h2 h3
  refine ⟨h1, ?_, ?_⟩
  · simp only [Cont.mergeOut]
    cases la with
    | some a => cases la' with
      | some b => exact h2
      | none => exact h2.elim
    | none => cases la' with
      | some b => exact h2.elim
      | none =>
        simp only
        rcases ho with ⟨rfl, rfl⟩ | ⟨ho, -⟩
        · exact hy
        · cases y with
          | none => cases y' with
            | none => trivial
            | some _ => exact hy.elim
          | some _ => exact absurd (ho rfl) (by simp)
  · simp only [Cont.mergeOut]
    rcases ho with ⟨rfl, rfl⟩ | ⟨-, ho⟩
    · exact update hd h3
    · exact update_cover hd h3 hn ho

theorem mergeIn_rows {l l' : List Nat} {c c' : Cont α} (hc : RowsCont l l' c c') {o o' : StepOut α} (ho : RowsOut l l' o o') :
    RelPy (RowsCont l l') (c.mergeIn o) (c'.mergeIn o') := by
  obtain ⟨-, hlab, hmd, hn⟩ := hc
  cases o <;> cases o' <;> first | exact ho.elim | skip
  · exact ⟨ho, hlab, hmd, hn⟩
  · exact ⟨ho.1, hlab, update hmd ho.2, nodup_update hn⟩
  · exact ⟨ho.1, ho.2.1, update hmd ho.2.2, nodup_update hn⟩
  · exact rfl

theorem invoke_rows {Q : σ → σ → Prop} {e : Est α σ} (h : OrderFree Q e) (m : Method) {k k' : List Nat} (hk : Reorder k k') {c c' : Call α}
    (hc : RowsCall k k' c c') : RelPy (fun a b => Q a.1 b.1 ∧ RowsOut k k' a.2 b.2) (e.invoke m c) (e.invoke m c') := by
  cases m with
  | fit =>
    simp only [Est.invoke]
    rcases Sides.py_cases (h.fit k k' hk c c' hc) with ⟨e, h1, h2⟩ | ⟨a, b, h1, h2, hab⟩
    · rw [h1, h2]; exact rfl
    · rw [h1, h2]; exact ⟨hab, trivial⟩
  | fitTransform => exact h.fitTransform k k' hk c c' hc

theorem routedCall_rows {s : Sel α σ} (m : Method) {l l' : List Nat} (hl : Reorder l l') {X X' : List α} (hX : Rows l l' X X')
    {y y' : Option (List Num)} (hy : RowsOpt l l' y y') {d d' : Dict} (hd : RowsDict l l' d d') :
    RelPy (fun a b => ∃ k k', Reorder k k' ∧ RowsCall k k' a b ∧ (s.est.hasTransform = true → k = l ∧ k' = l'))
      (s.routedCall m X y d) (s.routedCall m X' y' d') := by
  unfold Sel.routedCall
  rcases Sides.py_cases (prepare (req := s.est.request m) (f := s.final) (t := s.est.hasTransform) hd) with ⟨e, h1, h2⟩ | ⟨a, b, h1, h2, hab⟩
  · rw [h1, h2]; exact rfl
  · rw [h1, h2]
    simp only
    rcases Sides.py_cases (selRemove hl (t := s.est.hasTransform) hX hy hab) with ⟨e, h3, h4⟩ | ⟨r, r', h3, h4, k, k', hk, hr, hkl⟩
    · rw [h3, h4]; exact rfl
    · rw [h3, h4]
      exact ⟨k, k', hk, ⟨hr.1, hr.2.1, hr.2.2⟩, fun h => hkl (Or.inl h)⟩

/-- Runs in two orders: the calls see the same samples, the results are related. -/
def RowsRun {γ δ : Type} (R : γ → δ → Prop) (r : Run α γ) (r' : Run α δ) : Prop :=
  List.Forall₂ CallRel r.1 r'.1 ∧ RelPy R r.2 r'.2

theorem run_cases {γ δ : Type} {R : γ → δ → Prop} {r : Run α γ} {r' : Run α δ} (h : RowsRun R r r') :
    ∃ calls calls', List.Forall₂ CallRel calls calls' ∧
      ((∃ e, r = (calls, .error e) ∧ r' = (calls', .error e)) ∨ ∃ a b, r = (calls, .ok a) ∧ r' = (calls', .ok b) ∧ R a b) := by
  obtain ⟨calls, x⟩ := r
  obtain ⟨calls', x'⟩ := r'
  refine ⟨calls, calls', h.1, ?_⟩
  rcases Sides.py_cases h.2 with ⟨e, h1, h2⟩ | ⟨a, b, h1, h2, hr⟩
  · simp only at h1 h2; subst h1 h2; exact Or.inl ⟨e, rfl, rfl⟩
  · simp only at h1 h2; subst h1 h2; exact Or.inr ⟨a, b, rfl, rfl, hr⟩

theorem sharedFit_rows {Q : σ → σ → Prop} {s : Sel α σ} (h : OrderFree Q s.est) (m : Method) {l0 l0' l l' : List Nat} (hl0 : Reorder l0 l0')
    (hl : Reorder l l') {c c' : Cont α} (hc : RowsCont l l' c c') {y y' : Option (List Num)} (hy : RowsOpt l0 l0' y y') {d d' : Dict}
    (hd : RowsDict l0 l0' d d') (hn : (d.map Prod.fst).Nodup) (ho : Over l0 l0' l l' y d c) :
    RowsRun (fun a b => Q a.1.1 b.1.1 ∧ (s.est.hasTransform = true → RowsOut l l' a.1.2 b.1.2) ∧ RowsOpt l0 l0' a.2 b.2 ∧
      a.2.isSome = y.isSome) (s.sharedFit m c y d) (s.sharedFit m c' y' d') := by
  unfold Sel.sharedFit
  rcases Sides.py_cases (ownMask_rows s hl0 hy hd) with ⟨e, h1, h2⟩ | ⟨y1, y1', h1, h2, hy1, hs⟩
  · rw [h1, h2]; exact ⟨List.Forall₂.nil, rfl⟩
  · rw [h1, h2]
    have hm := mergeOut_rows hc hy1 hd hn (over_y ho hs)
    rcases hx : c.mergeOut y1 d with ⟨X, y2, p⟩
    rcases hx' : c'.mergeOut y1' d' with ⟨X', y2', p'⟩
    rw [hx, hx'] at hm
    obtain ⟨m1, m2, m3⟩ := hm
    simp only at m1 m2 m3
    simp only [hx, hx']
    rcases Sides.py_cases (routedCall_rows (s := s) m hl m1 m2 m3) with ⟨e, h4, h5⟩ | ⟨a, b, h4, h5, k, k', hk, hab, hkl⟩
    · rw [h4, h5]; exact ⟨List.Forall₂.nil, rfl⟩
    · rw [h4, h5]
      refine ⟨List.Forall₂.cons ⟨k, k', hk, hab⟩ List.Forall₂.nil, ?_⟩
      simp only
      rcases Sides.py_cases (invoke_rows h m hk hab) with ⟨e, h6, h7⟩ | ⟨r, r', h6, h7, hr⟩
      · rw [h6, h7]; exact rfl
      · rw [h6, h7]
        refine ⟨hr.1, fun ht => ?_, hy1, hs⟩
        obtain ⟨rfl, rfl⟩ := hkl ht
        exact hr.2

theorem sharedTransform_rows {Q : σ → σ → Prop} {s : Sel α σ} (h : OrderFree Q s.est) {l l' : List Nat} (hl : Reorder l l') {f f' : σ}
    (hf : Q f f') {X X' : List α} (hX : Rows l l' X X') {d d' : Dict} (hd : RowsDict l l' d d') :
    RelPy (RowsOut l l') (s.sharedTransform f X d) (s.sharedTransform f' X' d') := by
  unfold Sel.sharedTransform
  rcases Sides.py_cases (prepare (req := s.est.transformReq) (f := s.final) (t := s.est.hasTransform) hd) with ⟨e, h1, h2⟩ | ⟨a, b, h1, h2, hab⟩
  · rw [h1, h2]; exact rfl
  · rw [h1, h2]; exact h.transform l l' hl f f' hf X X' hX a b hab

theorem sharedFitTransformOut_rows {Q : σ → σ → Prop} {s : Sel α σ} (h : OrderFree Q s.est) {l0 l0' l l' : List Nat} (hl0 : Reorder l0 l0')
    (hl : Reorder l l') {c c' : Cont α} (hc : RowsCont l l' c c') {y y' : Option (List Num)} (hy : RowsOpt l0 l0' y y') {d d' : Dict}
    (hd : RowsDict l0 l0' d d') (hn : (d.map Prod.fst).Nodup) (ho : Over l0 l0' l l' y d c) :
    RowsRun (fun a b => Q a.1.1 b.1.1 ∧ RowsOut l l' a.1.2 b.1.2 ∧ RowsOpt l0 l0' a.2 b.2 ∧ a.2.isSome = y.isSome)
      (s.sharedFitTransformOut c y d) (s.sharedFitTransformOut c' y' d') := by
  unfold Sel.sharedFitTransformOut
  split
  · rename_i hft
    have := sharedFit_rows h .fitTransform hl0 hl hc hy hd hn ho
    obtain ⟨calls, calls', hcalls, ⟨e, h1, h2⟩ | ⟨a, b, h1, h2, r1, r2, r3⟩⟩ := run_cases this
    · rw [h1, h2]; exact ⟨hcalls, rfl⟩
    · rw [h1, h2]; exact ⟨hcalls, r1, r2 (h.transformer hft), r3⟩
  · obtain ⟨calls, calls', hcalls, ⟨e, h1, h2⟩ | ⟨⟨⟨f, o⟩, y1⟩, ⟨⟨f', o'⟩, y1'⟩, h1, h2, r1, -, r3, r4⟩⟩ :=
      run_cases (sharedFit_rows h .fit hl0 hl hc hy hd hn ho)
    · rw [h1, h2]; exact ⟨hcalls, rfl⟩
    · rw [h1, h2]
      simp only at r1 r3 r4
      have hm := mergeOut_rows hc r3 hd hn (over_y ho r4)
      rcases hx : c.mergeOut y1 d with ⟨X, y2, p⟩
      rcases hx' : c'.mergeOut y1' d' with ⟨X', y2', p'⟩
      rw [hx, hx'] at hm
      obtain ⟨m1, m2, m3⟩ := hm
      simp only at m1 m2 m3
      refine ⟨hcalls, ?_⟩
      simp only [hx, hx']
      rcases Sides.py_cases (route (req := s.est.transformReq) m3) with ⟨e, h3, h4⟩ | ⟨a, b, h3, h4, hab⟩
      · rw [h3, h4]; exact rfl
      · rw [h3, h4]
        simp only
        rcases Sides.py_cases (sharedTransform_rows h hl r1 m1 hab) with ⟨e, h5, h6⟩ | ⟨q, q', h5, h6, hq⟩
        · rw [h5, h6]; exact rfl
        · rw [h5, h6]; exact ⟨r1, hq, r3, r4⟩

/-! ### Merging the outputs of groups of samples -/

theorem length_flatnonzero_rows (l : List Nat) (m : Nat → Bool) : (Np.flatnonzero (l.map m)).length = (l.filter m).length := by
  have h := take_rows l m (fun i => i)
  have : ∀ {a : List Nat} {idx r : List Nat}, Np.take a idx = .ok r → r.length = idx.length := by
    intro a idx
    induction idx with
    | nil => intro r h; cases h; rfl
    | cons i idx ih =>
      intro r h
      unfold Np.take at h
      cases hi : a[i]? with
      | none => simp [hi] at h
      | some x =>
        cases ht : Np.take a idx with
        | error e => simp [hi, ht] at h
        | ok r' =>
          simp only [hi, ht, Except.ok.injEq] at h
          subst h
          simp [ih ht]
  simpa using (this h).symm

theorem putAll_shift {γ : Type} (x : γ) (out : List γ) (w : List (Nat × γ)) :
    Np.putAll (x :: out) (w.map (fun p => (p.1 + 1, p.2))) = x :: Np.putAll out w := by
  induction w generalizing out with
  | nil => rfl
  | cons p w ih => simp only [List.map_cons, Np.putAll, List.set_cons_succ, ih]

theorem putAll_rows {γ : Type} (l : List Nat) (m : Nat → Bool) (z h : Nat → γ) :
    Np.putAll (l.map z) ((Np.flatnonzero (l.map m)).zip ((l.filter m).map h)) = l.map (fun i => if m i then h i else z i) := by
  induction l with
  | nil => rfl
  | cons i l ih =>
    have hz : ∀ (idx : List Nat) (v : List γ), (idx.map (· + 1)).zip v = (idx.zip v).map (fun p => (p.1 + 1, p.2)) := by
      intro idx v
      induction idx generalizing v with
      | nil => rfl
      | cons a idx ih => cases v with
        | nil => rfl
        | cons b v => simp [ih]
    cases hm : m i with
    | false =>
      have : Np.flatnonzero (false :: l.map m) = (Np.flatnonzero (l.map m)).map (· + 1) := by
        simp [Np.flatnonzero, Np.nonzeroFrom, Np.nonzeroFrom_succ]
      simp only [List.map_cons, hm, this, List.filter_cons, Bool.false_eq_true, if_false, hz, putAll_shift, ih]
    | true =>
      have : Np.flatnonzero (true :: l.map m) = 0 :: (Np.flatnonzero (l.map m)).map (· + 1) := by
        simp [Np.flatnonzero, Np.nonzeroFrom, Np.nonzeroFrom_succ]
      simp only [List.map_cons, hm, this, List.filter_cons, if_true, List.zip_cons_cons, Np.putAll, List.set_cons_zero, hz, putAll_shift, ih]

theorem flatnonzero_lt {m : List Bool} {i : Nat} (h : i ∈ Np.flatnonzero m) : i < m.length := by
  obtain ⟨hi, -⟩ := List.getElem?_eq_some_iff.1 (Np.mem_flatnonzero.1 h)
  exact hi

theorem scatter_rows [Cell α] (dt dt' : DType) (tl tl' : List Nat) (l : List Nat) (m : Nat → Bool) (z h : Nat → α) :
    scatter ⟨dt, tl, l.map z⟩ (Np.flatnonzero (l.map m)) ⟨dt', tl', (l.filter m).map h⟩ =
      if tl ≠ tl' then .error .valueError else .ok ⟨dt, tl, l.map (fun i => if m i then Cell.cast dt (h i) else z i)⟩ := by
  unfold scatter
  simp only
  split
  · rfl
  · rw [List.map_map, Np.idxAssign_ok (fun i hi => by simpa using flatnonzero_lt hi) (by simp [length_flatnonzero_rows]), putAll_rows]
    rfl

/-- Arrays in two orders. -/
def RowsArr (l l' : List Nat) (a a' : NArr α) : Prop := a.dtype = a'.dtype ∧ a.tail = a'.tail ∧ Rows l l' a.rows a'.rows

/-- Outputs of one group of samples, with their positions. -/
def RowsPart {γ : Type} (R : List Nat → List Nat → γ → γ → Prop) (l l' : List Nat) (a b : List Nat × γ) : Prop :=
  ∃ m : Nat → Bool, a.1 = Np.flatnonzero (l.map m) ∧ b.1 = Np.flatnonzero (l'.map m) ∧ R (l.filter m) (l'.filter m) a.2 b.2

theorem scatter_rel [Cell α] {l l' : List Nat} {out out' : NArr α} (ho : RowsArr l l' out out') (m : Nat → Bool) {v v' : NArr α}
    (hv : RowsArr (l.filter m) (l'.filter m) v v') :
    RelPy (RowsArr l l') (scatter out (Np.flatnonzero (l.map m)) v) (scatter out' (Np.flatnonzero (l'.map m)) v') := by
  obtain ⟨dt, tl, rows⟩ := out
  obtain ⟨dt', tl', rows'⟩ := out'
  obtain ⟨vdt, vtl, vrows⟩ := v
  obtain ⟨vdt', vtl', vrows'⟩ := v'
  obtain ⟨h1, h2, z, h3, h4⟩ := ho
  obtain ⟨k1, k2, h, k3, k4⟩ := hv
  simp only at h1 h2 h3 h4 k1 k2 k3 k4
  subst h1 h2 h3 h4 k1 k2 k3 k4
  rw [scatter_rows, scatter_rows]
  split
  · exact rfl
  · exact ⟨rfl, rfl, _, rfl, rfl⟩

theorem zerosFor_rel [Cell α] {l l' k k' : List Nat} {v v' : NArr α} (hv : RowsArr k k' v v') :
    RowsArr l l' (zerosFor l.length v) (zerosFor l'.length v') := by
  obtain ⟨h1, h2, -⟩ := hv
  refine ⟨h1, h2, fun _ => Cell.zero v.tail, ?_, ?_⟩
  · simp [zerosFor]
  · simp [zerosFor, h2]

theorem scatterAll_rel [Cell α] {l l' : List Nat} {outs outs' : List (List Nat × NArr α)} (h : List.Forall₂ (RowsPart RowsArr l l') outs outs')
    {out out' : NArr α} (ho : RowsArr l l' out out') : RelPy (RowsArr l l') (scatterAll out outs) (scatterAll out' outs') := by
  induction h generalizing out out' with
  | nil => exact ho
  | @cons a b t t' hab _ ih =>
    obtain ⟨idx, v⟩ := a
    obtain ⟨idx', v'⟩ := b
    obtain ⟨m, h1, h2, hv⟩ := hab
    simp only at h1 h2 hv
    subst h1 h2
    simp only [scatterAll]
    rcases Sides.py_cases (scatter_rel ho m hv) with ⟨e, h1, h2⟩ | ⟨q, q', h1, h2, hq⟩
    · rw [h1, h2]; exact rfl
    · rw [h1, h2]; exact ih hq

theorem mergeOutputs_rel [Cell α] {l l' : List Nat} {outs outs' : List (List Nat × NArr α)}
    (h : List.Forall₂ (RowsPart RowsArr l l') outs outs') :
    RelPy (RowsArr l l') (mergeOutputs l.length outs) (mergeOutputs l'.length outs') := by
  unfold mergeOutputs
  cases h with
  | nil => exact rfl
  | cons hab ht =>
    have hab' := hab
    obtain ⟨m, -, -, hv⟩ := hab'
    exact scatterAll_rel (List.Forall₂.cons hab ht) (zerosFor_rel hv)

theorem mapM_rel {γ γ' δ δ' : Type} {R : γ → γ' → Prop} {S : δ → δ' → Prop} {f : γ → Py δ} {g : γ' → Py δ'}
    (hfg : ∀ a b, R a b → RelPy S (f a) (g b)) {l : List γ} {l' : List γ'} (h : List.Forall₂ R l l') :
    RelPy (List.Forall₂ S) (l.mapM f) (l'.mapM g) := by
  induction h with
  | nil => exact List.Forall₂.nil
  | @cons a b t t' hab _ ih =>
    rw [List.mapM_cons, List.mapM_cons]
    rcases Sides.py_cases (hfg a b hab) with ⟨e, h1, h2⟩ | ⟨q, q', h1, h2, hq⟩
    · rw [h1, h2]; exact rfl
    · rw [h1, h2]
      rcases Sides.py_cases ih with ⟨e, h3, h4⟩ | ⟨r, r', h3, h4, hr⟩
      · rw [h3, h4]; exact rfl
      · rw [h3, h4]; exact List.Forall₂.cons hq hr

/-- Named arrays in two orders. -/
def RowsArrs (l l' : List Nat) : List (String × NArr α) → List (String × NArr α) → Prop :=
  List.Forall₂ (fun a b => a.1 = b.1 ∧ RowsArr l l' a.2 b.2)

/-- Arrays that may be absent. -/
def RowsArrOpt (l l' : List Nat) : Option (NArr α) → Option (NArr α) → Prop
  | none, none => True
  | some a, some b => RowsArr l l' a b
  | _, _ => False

/-- Container outputs in two orders. -/
structure RowsCn (l l' : List Nat) (a b : Container α Num Num) : Prop where
  X : RowsArr l l' a.X b.X
  y : RowsArrOpt l l' a.y b.y
  params : RowsArrs l l' a.params b.params

/-- Accumulators in two orders. -/
structure RowsAcc (l l' : List Nat) (a b : MergeAcc α Num Num) : Prop where
  X : RowsArrOpt l l' a.X b.X
  y : RowsArrOpt l l' a.y b.y
  params : RowsArrs l l' a.params b.params

theorem accScatter_rel [Cell α] {l l' : List Nat} {acc acc' : Option (NArr α)} (ha : RowsArrOpt l l' acc acc') (m : Nat → Bool) {v v' : NArr α}
    (hv : RowsArr (l.filter m) (l'.filter m) v v') :
    RelPy (fun a b => RowsArrOpt l l' a b ∧ a.isSome = true) (accScatter l.length acc (Np.flatnonzero (l.map m)) v)
      (accScatter l'.length acc' (Np.flatnonzero (l'.map m)) v') := by
  unfold accScatter
  have hz : RowsArr l l' (acc.getD (zerosFor l.length v)) (acc'.getD (zerosFor l'.length v')) := by
    cases acc <;> cases acc'
    · exact zerosFor_rel hv
    · exact ha.elim
    · exact ha.elim
    · exact ha
  rcases Sides.py_cases (scatter_rel hz m hv) with ⟨e, h1, h2⟩ | ⟨q, q', h1, h2, hq⟩
  · rw [h1, h2]; exact rfl
  · rw [h1, h2]; exact ⟨hq, rfl⟩

theorem accParam_rel {l l' : List Nat} (m : Nat → Bool) {acc acc' : List (String × NArr Num)} (ha : RowsArrs l l' acc acc')
    {kv kv' : String × NArr Num} (hk : kv.1 = kv'.1) (hv : RowsArr (l.filter m) (l'.filter m) kv.2 kv'.2) :
    RelPy (RowsArrs l l') (accParam l.length (Np.flatnonzero (l.map m)) acc kv) (accParam l'.length (Np.flatnonzero (l'.map m)) acc' kv') := by
  obtain ⟨k, v⟩ := kv
  obtain ⟨k', v'⟩ := kv'
  simp only at hk hv
  subst hk
  induction ha with
  | nil =>
    simp only [accParam]
    rcases Sides.py_cases (scatter_rel (zerosFor_rel (l := l) (l' := l') hv) m hv) with ⟨e, h1, h2⟩ | ⟨q, q', h1, h2, hq⟩
    · rw [h1, h2]; exact rfl
    · rw [h1, h2]; exact List.Forall₂.cons ⟨rfl, hq⟩ List.Forall₂.nil
  | @cons a b t t' hab ht ih =>
    obtain ⟨ka, va⟩ := a
    obtain ⟨kb, vb⟩ := b
    obtain ⟨rfl, hab⟩ := hab
    simp only at hab
    simp only [accParam]
    split
    · rcases Sides.py_cases (scatter_rel hab m hv) with ⟨e, h1, h2⟩ | ⟨q, q', h1, h2, hq⟩
      · rw [h1, h2]; exact rfl
      · rw [h1, h2]; exact List.Forall₂.cons ⟨rfl, hq⟩ ht
    · rcases Sides.py_cases ih with ⟨e, h1, h2⟩ | ⟨q, q', h1, h2, hq⟩
      · rw [h1, h2]; exact rfl
      · rw [h1, h2]; exact List.Forall₂.cons ⟨rfl, hab⟩ hq

theorem accParams_rel {l l' : List Nat} (m : Nat → Bool) {ps ps' : List (String × NArr Num)} (hp : RowsArrs (l.filter m) (l'.filter m) ps ps')
    {acc acc' : List (String × NArr Num)} (ha : RowsArrs l l' acc acc') :
    RelPy (RowsArrs l l') (accParams l.length (Np.flatnonzero (l.map m)) acc ps) (accParams l'.length (Np.flatnonzero (l'.map m)) acc' ps') := by
  induction hp generalizing acc acc' with
  | nil => exact ha
  | @cons a b t t' hab _ ih =>
    simp only [accParams]
    rcases Sides.py_cases (accParam_rel m ha hab.1 hab.2) with ⟨e, h1, h2⟩ | ⟨q, q', h1, h2, hq⟩
    · rw [h1, h2]; exact rfl
    · rw [h1, h2]; exact ih hq

theorem mergeStep_rel [Cell α] {l l' : List Nat} {acc acc' : MergeAcc α Num Num} (ha : RowsAcc l l' acc acc')
    {d d' : List Nat × Container α Num Num} (hd : RowsPart RowsCn l l' d d') :
    RelPy (fun a b => RowsAcc l l' a b ∧ a.X.isSome = true) (mergeStep l.length acc d) (mergeStep l'.length acc' d') := by
  obtain ⟨idx, v⟩ := d
  obtain ⟨idx', v'⟩ := d'
  obtain ⟨m, h1, h2, hv⟩ := hd
  simp only at h1 h2 hv
  subst h1 h2
  unfold mergeStep
  rcases Sides.py_cases (accScatter_rel ha.X m hv.X) with ⟨e, h1, h2⟩ | ⟨q, q', h1, h2, hq⟩
  · simp only [h1, h2]; exact rfl
  · simp only [h1, h2]
    have hy := hv.y
    cases hy1 : v.y <;> cases hy2 : v'.y <;> rw [hy1, hy2] at hy
    · simp only
      rcases Sides.py_cases (accParams_rel m hv.params ha.params) with ⟨e, h5, h6⟩ | ⟨s, s', h5, h6, hs⟩
      · rw [h5, h6]; exact rfl
      · rw [h5, h6]; exact ⟨⟨hq.1, ha.y, hs⟩, hq.2⟩
    · exact hy.elim
    · exact hy.elim
    · simp only
      rcases Sides.py_cases (accScatter_rel ha.y m hy) with ⟨e, h3, h4⟩ | ⟨r, r', h3, h4, hr⟩
      · rw [h3, h4]; exact rfl
      · rw [h3, h4]
        simp only
        rcases Sides.py_cases (accParams_rel m hv.params ha.params) with ⟨e, h5, h6⟩ | ⟨s, s', h5, h6, hs⟩
        · rw [h5, h6]; exact rfl
        · rw [h5, h6]; exact ⟨⟨hq.1, hr.1, hs⟩, hq.2⟩

theorem mergeSteps_rel [Cell α] {l l' : List Nat} {outs outs' : List (List Nat × Container α Num Num)}
    (h : List.Forall₂ (RowsPart RowsCn l l') outs outs') {acc acc' : MergeAcc α Num Num} (ha : RowsAcc l l' acc acc')
    (hs : acc.X.isSome = true ∨ outs ≠ []) :
    RelPy (fun a b => RowsAcc l l' a b ∧ a.X.isSome = true) (mergeSteps l.length acc outs) (mergeSteps l'.length acc' outs') := by
  induction h generalizing acc acc' with
  | nil => exact ⟨ha, hs.resolve_right (by simp)⟩
  | @cons a b t t' hab _ ih =>
    simp only [mergeSteps]
    rcases Sides.py_cases (mergeStep_rel ha hab) with ⟨e, h1, h2⟩ | ⟨q, q', h1, h2, hq⟩
    · rw [h1, h2]; exact rfl
    · rw [h1, h2]; exact ih hq.1 (Or.inl hq.2)

theorem paramArrs_rel {l l' : List Nat} {d d' : Dict} (h : RowsDict l l' d d') : RelPy (RowsArrs l l') (paramArrs d) (paramArrs d') := by
  induction h with
  | nil => exact List.Forall₂.nil
  | @cons a b t t' hab _ ih =>
    obtain ⟨ka, va⟩ := a
    obtain ⟨kb, vb⟩ := b
    obtain ⟨rfl, hv⟩ := hab
    simp only at hv
    rcases hv with ⟨x, x', hx, rfl, rfl⟩ | ⟨rfl, hv⟩
    · simp only [paramArrs]
      rcases Sides.py_cases ih with ⟨e, h1, h2⟩ | ⟨q, q', h1, h2, hq⟩
      · rw [h1, h2]; exact rfl
      · rw [h1, h2]; exact List.Forall₂.cons ⟨rfl, rfl, rfl, hx⟩ hq
    · cases va with
      | arr x => exact absurd rfl (hv x)
      | scalar v => exact rfl
      | none => exact rfl

theorem asContainer_rel {l l' : List Nat} {o o' : StepOut α} (h : RowsOut l l' o o') : RelPy (RowsCn l l') o.asContainer o'.asContainer := by
  cases o <;> cases o' <;> first | exact h.elim | skip
  · exact rfl
  · rename_i X p X' p'
    simp only [StepOut.asContainer]
    rcases Sides.py_cases (paramArrs_rel h.2) with ⟨e, h1, h2⟩ | ⟨q, q', h1, h2, hq⟩
    · rw [h1, h2]; exact rfl
    · rw [h1, h2]; exact ⟨⟨rfl, rfl, h.1⟩, trivial, hq⟩
  · rename_i X y p X' y' p'
    simp only [StepOut.asContainer]
    rcases Sides.py_cases (paramArrs_rel h.2.2) with ⟨e, h1, h2⟩ | ⟨q, q', h1, h2, hq⟩
    · rw [h1, h2]; exact rfl
    · rw [h1, h2]
      refine ⟨⟨rfl, rfl, h.1⟩, ?_, hq⟩
      have := h.2.1
      cases y <;> cases y'
      · trivial
      · exact this.elim
      · exact this.elim
      · exact ⟨rfl, rfl, this⟩
  · exact rfl

theorem mergeStepOuts_rel [Cell α] {l l' : List Nat} {outs outs' : List (List Nat × StepOut α)}
    (h : List.Forall₂ (RowsPart RowsOut l l') outs outs') :
    RelPy (RowsOut l l') (mergeStepOuts l.length outs) (mergeStepOuts l'.length outs') := by
  have harr : RelPy (List.Forall₂ (RowsPart RowsArr l l')) (outs.mapM StepOut.asArr) (outs'.mapM StepOut.asArr) := by
    refine mapM_rel (fun a b hab => ?_) h
    obtain ⟨idx, o⟩ := a
    obtain ⟨idx', o'⟩ := b
    obtain ⟨m, h1, h2, ho⟩ := hab
    simp only at ho
    cases o <;> cases o' <;> first | exact ho.elim | exact rfl | skip
    exact ⟨m, h1, h2, rfl, rfl, ho⟩
  have hcont : RelPy (List.Forall₂ (RowsPart RowsCn l l')) (outs.mapM StepOut.asCont) (outs'.mapM StepOut.asCont) := by
    refine mapM_rel (fun a b hab => ?_) h
    obtain ⟨idx, o⟩ := a
    obtain ⟨idx', o'⟩ := b
    obtain ⟨m, h1, h2, ho⟩ := hab
    simp only at ho
    simp only [StepOut.asCont]
    rcases Sides.py_cases (asContainer_rel ho) with ⟨e, h3, h4⟩ | ⟨q, q', h3, h4, hq⟩
    · rw [h3, h4]; exact rfl
    · rw [h3, h4]; exact ⟨m, h1, h2, hq⟩
  have hfin : RelPy (RowsOut l l')
      (match outs.mapM StepOut.asCont with
        | .error e => .error e
        | .ok cs => match mergeContainers l.length cs with
          | .error e => .error e
          | .ok acc => .ok (.triple ((acc.X.map NArr.rows).getD []) (acc.y.map NArr.rows) (acc.params.map (fun kv => (kv.1, .arr kv.2.rows)))))
      (match outs'.mapM StepOut.asCont with
        | .error e => .error e
        | .ok cs => match mergeContainers l'.length cs with
          | .error e => .error e
          | .ok acc => .ok (.triple ((acc.X.map NArr.rows).getD []) (acc.y.map NArr.rows)
              (acc.params.map (fun kv => (kv.1, .arr kv.2.rows))))) := by
    rcases Sides.py_cases hcont with ⟨e, h1, h2⟩ | ⟨cs, cs', h1, h2, hcs⟩
    · rw [h1, h2]; exact rfl
    · rw [h1, h2]
      simp only
      have hmc : RelPy (fun a b => RowsAcc l l' a b ∧ a.X.isSome = true) (mergeContainers l.length cs) (mergeContainers l'.length cs') := by
        unfold mergeContainers
        cases hcs with
        | nil => exact rfl
        | cons hab ht => exact mergeSteps_rel (List.Forall₂.cons hab ht) ⟨trivial, trivial, List.Forall₂.nil⟩ (Or.inr (by simp))
      rcases Sides.py_cases hmc with ⟨e, h3, h4⟩ | ⟨a, b, h3, h4, hab, hs⟩
      · rw [h3, h4]; exact rfl
      · rw [h3, h4]
        obtain ⟨aX, ay, ap⟩ := a
        obtain ⟨bX, by', bp⟩ := b
        obtain ⟨r1, r2, r3⟩ := hab
        simp only at r1 r2 r3 hs
        refine ⟨?_, ?_, ?_⟩
        · cases aX with
          | none => simp at hs
          | some aX => cases bX with
            | none => exact r1.elim
            | some bX => exact r1.2.2
        · cases ay <;> cases by'
          · trivial
          · exact r2.elim
          · exact r2.elim
          · exact r2.2.2
        · simp only
          clear h3 h4
          induction r3 with
          | nil => exact List.Forall₂.nil
          | cons hab _ ih => exact List.Forall₂.cons ⟨hab.1, Or.inl ⟨_, _, hab.2.2.2, rfl, rfl⟩⟩ ih
  cases h with
  | nil => exact rfl
  | @cons a b t t' hab ht =>
    obtain ⟨idx, o⟩ := a
    obtain ⟨idx', o'⟩ := b
    obtain ⟨m, -, -, ho⟩ := hab
    simp only at ho
    cases o <;> cases o' <;> first | exact ho.elim | skip
    · simp only [mergeStepOuts]
      rcases Sides.py_cases harr with ⟨e, h1, h2⟩ | ⟨q, q', h1, h2, hq⟩
      · rw [h1, h2]; exact rfl
      · rw [h1, h2]
        simp only
        rcases Sides.py_cases (mergeOutputs_rel hq) with ⟨e, h3, h4⟩ | ⟨r, r', h3, h4, hr⟩
        · rw [h3, h4]; exact rfl
        · rw [h3, h4]; exact hr.2.2
    · exact hfin
    · exact hfin
    · exact rfl

/-! ### `PerDomain` -/

theorem takeParams_rows {l l' : List Nat} (m : Nat → Bool) {d d' : Dict} (h : RowsDict l l' d d') :
    RelPy (RowsDict (l.filter m) (l'.filter m)) (takeParams (Np.flatnonzero (l.map m)) d) (takeParams (Np.flatnonzero (l'.map m)) d') := by
  induction h with
  | nil => exact List.Forall₂.nil
  | @cons a b t t' hab _ ih =>
    obtain ⟨ka, va⟩ := a
    obtain ⟨kb, vb⟩ := b
    obtain ⟨rfl, hv⟩ := hab
    simp only at hv
    rcases hv with ⟨x, x', ⟨f, rfl, rfl⟩, rfl, rfl⟩ | ⟨rfl, hv⟩
    · simp only [takeParams, take_rows]
      rcases Sides.py_cases ih with ⟨e, h1, h2⟩ | ⟨q, q', h1, h2, hq⟩
      · rw [h1, h2]; exact rfl
      · rw [h1, h2]; exact List.Forall₂.cons ⟨rfl, Or.inl ⟨_, _, ⟨f, rfl, rfl⟩, rfl, rfl⟩⟩ hq
    · cases va with
      | arr x => exact absurd rfl (hv x)
      | scalar v => exact rfl
      | none => exact rfl

theorem takeCall_rows {l l' : List Nat} (m : Nat → Bool) {X X' : List α} (hX : Rows l l' X X') {y y' : Option (List Num)}
    (hy : RowsOpt l l' y y') {d d' : Dict} (hd : RowsDict l l' d d') :
    RelPy (RowsCall (l.filter m) (l'.filter m)) (takeCall X y d (Np.flatnonzero (l.map m))) (takeCall X' y' d' (Np.flatnonzero (l'.map m))) := by
  obtain ⟨f, rfl, rfl⟩ := hX
  cases y with
  | none => cases y' with
    | some _ => exact hy.elim
    | none =>
      simp only [takeCall, take_rows]
      rcases Sides.py_cases (takeParams_rows m hd) with ⟨e, h1, h2⟩ | ⟨q, q', h1, h2, hq⟩
      · rw [h1, h2]; exact rfl
      · rw [h1, h2]; exact ⟨⟨f, rfl, rfl⟩, trivial, hq⟩
  | some y => cases y' with
    | none => exact hy.elim
    | some y' =>
      obtain ⟨g, rfl, rfl⟩ := hy
      simp only [takeCall, take_rows]
      rcases Sides.py_cases (takeParams_rows m hd) with ⟨e, h1, h2⟩ | ⟨q, q', h1, h2, hq⟩
      · rw [h1, h2]; exact rfl
      · rw [h1, h2]; exact ⟨⟨f, rfl, rfl⟩, ⟨g, rfl, rfl⟩, hq⟩

theorem domainIdx_rows (l : List Nat) (s : Nat → Int) (d : Int) :
    domainIdx (l.map s) d = Np.flatnonzero (l.map (fun i => decide (s i = d))) := by
  unfold domainIdx
  rw [List.map_map]; rfl

theorem perDomainLoop_rows {Q : σ → σ → Prop} {s : Sel α σ} (h : OrderFree Q s.est) (m : Method) {l l' : List Nat} (hl : Reorder l l')
    {X X' : List α} (hX : Rows l l' X X') {y y' : Option (List Num)} (hy : RowsOpt l l' y y') {d d' : Dict} (hd : RowsDict l l' d d')
    (sd : Nat → Int) (ds : List Int) :
    RowsRun (List.Forall₂ (fun a b => a.1 = b.1 ∧ Q a.2.2.1 b.2.2.1 ∧ RowsPart RowsOut l l' (a.2.1, a.2.2.2) (b.2.1, b.2.2.2)))
      (s.perDomainLoop m X y d (l.map sd) ds) (s.perDomainLoop m X' y' d' (l'.map sd) ds) := by
  induction ds with
  | nil => exact ⟨List.Forall₂.nil, List.Forall₂.nil⟩
  | cons t ds ih =>
    simp only [Sel.perDomainLoop, domainIdx_rows]
    rcases Sides.py_cases (takeCall_rows (fun i => decide (sd i = t)) hX hy hd) with ⟨e, h1, h2⟩ | ⟨a, b, h1, h2, hab⟩
    · rw [h1, h2]; exact ⟨List.Forall₂.nil, rfl⟩
    · rw [h1, h2]
      simp only
      have hk := reorder_filter hl (fun i => decide (sd i = t))
      have hcall : CallRel a b := ⟨_, _, hk, hab⟩
      rcases Sides.py_cases (invoke_rows h m hk hab) with ⟨e, h3, h4⟩ | ⟨⟨f, o⟩, ⟨f', o'⟩, h3, h4, hr⟩
      · rw [h3, h4]; exact ⟨List.Forall₂.cons hcall List.Forall₂.nil, rfl⟩
      · rw [h3, h4]
        simp only
        obtain ⟨calls, calls', hcalls, ⟨e, h5, h6⟩ | ⟨q, q', h5, h6, hq⟩⟩ := run_cases ih
        · rw [h5, h6]; exact ⟨List.Forall₂.cons hcall hcalls, rfl⟩
        · rw [h5, h6]
          exact ⟨List.Forall₂.cons hcall hcalls, List.Forall₂.cons ⟨rfl, hr.1, _, rfl, rfl, hr.2⟩ hq⟩

theorem perDomainFit_rows {Q : σ → σ → Prop} {s : Sel α σ} (h : OrderFree Q s.est) (ht : s.est.hasTransform = true) (m : Method)
    {l0 l0' l l' : List Nat} (hl0 : Reorder l0 l0') (hl : Reorder l l') {c c' : Cont α} (hc : RowsCont l l' c c') {y y' : Option (List Num)}
    (hy : RowsOpt l0 l0' y y') {d d' : Dict} (hd : RowsDict l0 l0' d d') (hn : (d.map Prod.fst).Nodup) (ho : Over l0 l0' l l' y d c) :
    RowsRun (fun a b => List.Forall₂ (fun a b => a.1 = b.1 ∧ Q a.2.2.1 b.2.2.1 ∧ RowsPart RowsOut l l' (a.2.1, a.2.2.2) (b.2.1, b.2.2.2)) a.1 b.1 ∧
      RowsOpt l0 l0' a.2 b.2 ∧ a.2.isSome = y.isSome) (s.perDomainFit m c y d) (s.perDomainFit m c' y' d') := by
  unfold Sel.perDomainFit
  rcases Sides.py_cases (ownMask_rows s hl0 hy hd) with ⟨e, h1, h2⟩ | ⟨y1, y1', h1, h2, hy1, hs⟩
  · rw [h1, h2]; exact ⟨List.Forall₂.nil, rfl⟩
  · rw [h1, h2]
    have hm := mergeOut_rows hc hy1 hd hn (over_y ho hs)
    rcases hx : c.mergeOut y1 d with ⟨X, y2, p⟩
    rcases hx' : c'.mergeOut y1' d' with ⟨X', y2', p'⟩
    rw [hx, hx'] at hm
    obtain ⟨m1, m2, m3⟩ := hm
    simp only at m1 m2 m3
    simp only [hx, hx', has m3]
    split
    · exact ⟨List.Forall₂.nil, rfl⟩
    · rcases Sides.py_cases (domainsOf_rows hl (get m3 "sample_domain")) with ⟨e, h3, h4⟩ | ⟨sd, sd', h3, h4, hsd⟩
      · rw [h3, h4]; exact ⟨List.Forall₂.nil, rfl⟩
      · rw [h3, h4]
        simp only
        rcases Sides.py_cases (routedCall_rows (s := s) m hl m1 m2 m3) with ⟨e, h5, h6⟩ | ⟨a, b, h5, h6, k, k', hk, hab, hkl⟩
        · rw [h5, h6]; exact ⟨List.Forall₂.nil, rfl⟩
        · rw [h5, h6]
          obtain ⟨rfl, rfl⟩ := hkl ht
          simp only [unique_perm (rows_perm hl hsd)]
          obtain ⟨g, rfl, rfl⟩ := hsd
          obtain ⟨calls, calls', hcalls, ⟨e, h7, h8⟩ | ⟨q, q', h7, h8, hq⟩⟩ :=
            run_cases (perDomainLoop_rows h m hl hab.X hab.y hab.params g (Np.unique (k'.map g)))
          · rw [h7, h8]; exact ⟨hcalls, rfl⟩
          · rw [h7, h8]; exact ⟨hcalls, hq, hy1, hs⟩

theorem forall₂_maps {γ γ' δ δ' : Type} {R : γ → γ' → Prop} {S : δ → δ' → Prop} {f : γ → δ} {g : γ' → δ'} {l : List γ} {l' : List γ'}
    (h : List.Forall₂ R l l') (hfg : ∀ a b, R a b → S (f a) (g b)) : List.Forall₂ S (l.map f) (l'.map g) := by
  induction h with
  | nil => exact List.Forall₂.nil
  | cons hab _ ih => exact List.Forall₂.cons (hfg _ _ hab) ih

/-- The fitted estimators of a `PerDomain` selector, one by one. -/
def RowsFits (Q : σ → σ → Prop) : List (Int × σ) → List (Int × σ) → Prop := List.Forall₂ (fun a b => a.1 = b.1 ∧ Q a.2 b.2)

theorem rows_len {l l' : List Nat} {X X' : List γ} (h : Rows l l' X X') : X.length = l.length ∧ X'.length = l'.length := by
  obtain ⟨f, rfl, rfl⟩ := h
  simp

theorem perDomainFitTransformOut_rows [Cell α] {Q : σ → σ → Prop} {s : Sel α σ} (h : OrderFree Q s.est) (ht : s.est.hasTransform = true)
    {l0 l0' l l' : List Nat} (hl0 : Reorder l0 l0') (hl : Reorder l l') {c c' : Cont α} (hc : RowsCont l l' c c') {y y' : Option (List Num)}
    (hy : RowsOpt l0 l0' y y') {d d' : Dict} (hd : RowsDict l0 l0' d d') (hn : (d.map Prod.fst).Nodup) (ho : Over l0 l0' l l' y d c) :
    RowsRun (fun a b => RowsFits Q a.1.1 b.1.1 ∧ RowsOut l l' a.1.2 b.1.2 ∧ RowsOpt l0 l0' a.2 b.2 ∧ a.2.isSome = y.isSome)
      (s.perDomainFitTransformOut c y d) (s.perDomainFitTransformOut c' y' d') := by
  unfold Sel.perDomainFitTransformOut
  split
  · obtain ⟨calls, calls', hcalls, ⟨e, h1, h2⟩ | ⟨⟨r, y1⟩, ⟨r', y1'⟩, h1, h2, hr, hy1, hs⟩⟩ :=
      run_cases (perDomainFit_rows h ht .fitTransform hl0 hl hc hy hd hn ho)
    · rw [h1, h2]; exact ⟨hcalls, rfl⟩
    · rw [h1, h2]
      refine ⟨hcalls, ?_⟩
      simp only at hr hy1 hs ⊢
      rw [(rows_len hc.features).1, (rows_len hc.features).2]
      rcases Sides.py_cases (mergeStepOuts_rel (forall₂_maps hr (S := RowsPart RowsOut l l') (f := fun o => (o.2.1, o.2.2.2))
        (g := fun o => (o.2.1, o.2.2.2)) (fun a b hab => hab.2.2))) with ⟨e, h3, h4⟩ | ⟨q, q', h3, h4, hq⟩
      · rw [h3, h4]; exact rfl
      · rw [h3, h4]
        exact ⟨forall₂_maps hr (fun a b hab => ⟨hab.1, hab.2.1⟩), hq, hy1, hs⟩
  · rcases Sides.py_cases (ownMask_rows s hl0 hy hd) with ⟨e, h1, h2⟩ | ⟨y1, y1', h1, h2, -⟩
    · rw [h1, h2]; exact ⟨List.Forall₂.nil, rfl⟩
    · rw [h1, h2]; exact ⟨List.Forall₂.nil, rfl⟩

end Order
end Skada

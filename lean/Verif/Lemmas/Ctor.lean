/- Helper lemmas about constructors and `clone`. -/
import Verif.Model.Ctor
import Verif.Lemmas.Np

namespace Skada.Ctor

/-- The argument a constructor sees for a parameter. -/
def argOf (kw : Kw) (p : String × Option AVal) : Option AVal := (kw.lookup p.1).or p.2

theorem bindOne_eq (kw : Kw) (p : String × Option AVal) :
    bindOne kw p = match argOf kw p with
      | some v => .ok (p.1, v)
      | none => .error .typeError := by
  unfold bindOne argOf
  cases kw.lookup p.1 <;> cases p.2 <;> rfl

theorem mapM_congr' {α β : Type} {f g : α → Py β} {l : List α} (h : ∀ a ∈ l, f a = g a) : l.mapM f = l.mapM g := by
  induction l with
  | nil => rfl
  | cons a l ih => rw [List.mapM_cons, List.mapM_cons, h a (by simp), ih (fun b hb => h b (by simp [hb]))]

theorem mapM_map' {α β γ : Type} {f : β → Py γ} {g : α → β} {l : List α} : (l.map g).mapM f = l.mapM (fun a => f (g a)) := by
  induction l with
  | nil => rfl
  | cons a l ih => rw [List.map_cons, List.mapM_cons, List.mapM_cons, ih]

/-- No argument is unknown. -/
def Known (c : Cls) (kw : Kw) : Prop := c.varKw = true ∨ ∀ a ∈ kw, a.1 ∈ c.params.map Prod.fst

theorem known_iff {c : Cls} {kw : Kw} :
    (!c.varKw && kw.any (fun a => decide (a.1 ∉ c.params.map Prod.fst))) = false ↔ Known c kw := by
  unfold Known
  cases c.varKw <;> simp [List.any_eq_false]

/-- The object built from stored attributes. -/
def build (c : Cls) (kw : Kw) (r : Py Kw) : Py Obj :=
  match r with
  | .error e => .error e
  | .ok attrs => .ok ⟨attrs, c.derived (fun p => (attrs.lookup p).getD .none),
      if c.keepKw then kw.filter (fun a => decide (a.1 ∉ c.params.map Prod.fst)) else []⟩

/-- `construct` when every parameter has a value. -/
theorem construct_eq (c : Cls) (kw : Kw) (hk : Known c kw) (a : String × Option AVal → AVal) (ha : ∀ p ∈ c.params, argOf kw p = some (a p)) :
    c.construct kw = build c kw (c.params.mapM (fun p => c.normOne (p.1, a p))) := by
  have hb : bindArgs c.params c.varKw kw = .ok (c.params.map (fun p => (p.1, a p))) := by
    unfold bindArgs
    rw [known_iff.2 hk]
    exact mapM_ok fun p hp => by rw [bindOne_eq, ha p hp]
  unfold Cls.construct build
  rw [hb]
  simp only [mapM_map']
  cases c.params.mapM (fun p => c.normOne (p.1, a p)) <;> rfl

theorem lookup_of_mem {l : Kw} (hn : (l.map Prod.fst).Nodup) {a : String × AVal} (h : a ∈ l) : l.lookup a.1 = some a.2 := by
  induction l with
  | nil => simp at h
  | cons b l ih =>
    simp only [List.map_cons, List.nodup_cons] at hn
    rcases List.mem_cons.1 h with rfl | h
    · simp [List.lookup]
    · have hne : a.1 ≠ b.1 := fun he => hn.1 (he ▸ List.mem_map.2 ⟨a, h, rfl⟩)
      rw [List.lookup_cons, show (a.1 == b.1) = false by simpa using hne]
      exact ih hn.2 h

theorem stored_forall {c : Cls} {kw : Kw} {ps : List (String × Option AVal)} {vals attrs : Kw}
    (f1 : List.Forall₂ (fun p b => bindOne kw p = .ok b) ps vals) (f2 : List.Forall₂ (fun a b => c.normOne a = .ok b) vals attrs) :
    List.Forall₂ (fun p b => b.1 = p.1 ∧ ∃ v, argOf kw p = some v ∧ c.norm p.1 v = .ok b.2) ps attrs := by
  induction f1 generalizing attrs with
  | nil => cases f2; exact .nil
  | cons h1 _ ih =>
    cases f2 with
    | cons h2 h3 =>
      refine .cons ?_ (ih h3)
      rw [bindOne_eq] at h1
      split at h1
      · rename_i v hv
        cases h1
        unfold Cls.normOne at h2
        simp only at h2
        split at h2
        · cases h2
        · rename_i w hw
          cases h2
          exact ⟨rfl, v, hv, hw⟩
      · cases h1

theorem forall2_names {R : String × Option AVal → String × AVal → Prop} {ps : List (String × Option AVal)} {attrs : Kw}
    (h : List.Forall₂ (fun p b => b.1 = p.1 ∧ R p b) ps attrs) : attrs.map Prod.fst = ps.map Prod.fst := by
  induction h with
  | nil => rfl
  | cons h _ ih => rw [List.map_cons, List.map_cons, h.1, ih]

theorem forall2_mem {R : String × Option AVal → String × AVal → Prop} {ps : List (String × Option AVal)} {attrs : Kw}
    (h : List.Forall₂ R ps attrs) {p : String × Option AVal} (hp : p ∈ ps) : ∃ b ∈ attrs, R p b := by
  induction h with
  | nil => simp at hp
  | cons h _ ih =>
    rcases List.mem_cons.1 hp with rfl | hp
    · exact ⟨_, by simp, h⟩
    · obtain ⟨b, hb, hR⟩ := ih hp
      exact ⟨b, by simp [hb], hR⟩

/-- What a successful `construct` did. -/
structure Built (c : Cls) (kw : Kw) (o : Obj) : Prop where
  known : Known c kw
  names : o.attrs.map Prod.fst = c.params.map Prod.fst
  stored : ∀ p ∈ c.params, ∃ v, argOf kw p = some v ∧ c.norm p.1 v = .ok (o.attr p.1)
  derived : o.derived = c.derived o.attr
  kwargs : o.kwargs = if c.keepKw then kw.filter (fun a => decide (a.1 ∉ c.params.map Prod.fst)) else []

theorem construct_ok {c : Cls} {kw : Kw} {o : Obj} (hn : (c.params.map Prod.fst).Nodup) (h : c.construct kw = .ok o) : Built c kw o := by
  unfold Cls.construct at h
  cases hb : bindArgs c.params c.varKw kw with
  | error e => rw [hb] at h; cases h
  | ok vals =>
    rw [hb] at h
    simp only at h
    cases hm : vals.mapM c.normOne with
    | error e => rw [hm] at h; cases h
    | ok attrs =>
      rw [hm] at h
      simp only [Except.ok.injEq] at h
      unfold bindArgs at hb
      split at hb
      · cases hb
      · rename_i hk
        have hk := known_iff.1 (by simpa using hk)
        have hall := stored_forall (mapM_eq_ok_iff.1 hb) (mapM_eq_ok_iff.1 hm)
        have hnames := forall2_names hall
        subst h
        refine ⟨hk, hnames, fun p hp => ?_, rfl, rfl⟩
        obtain ⟨b, hb, hb1, v, hv, hw⟩ := forall2_mem hall hp
        refine ⟨v, hv, ?_⟩
        rw [hw]
        unfold Obj.attr
        rw [← hb1, lookup_of_mem (by rw [hnames]; exact hn) hb]
        rfl

/-- Attributes determine the object's list of attributes. -/
theorem attrs_eq {c : Cls} {attrs : Kw} (hn : (c.params.map Prod.fst).Nodup) (h : attrs.map Prod.fst = c.params.map Prod.fst) :
    attrs = c.params.map (fun p => (p.1, (attrs.lookup p.1).getD .none)) := by
  have h1 : attrs = (attrs.map Prod.fst).map (fun q => (q, (attrs.lookup q).getD .none)) := by
    rw [List.map_map]
    conv_lhs => rw [← List.map_id attrs]
    refine List.map_congr_left fun a ha => ?_
    simp only [id, Function.comp]
    rw [lookup_of_mem (by rw [h]; exact hn) ha]
    rfl
  rw [h, List.map_map] at h1
  exact h1

theorem lookup_map_params {ps : List (String × Option AVal)} (f : String → AVal) {q : String} (h : q ∈ ps.map Prod.fst) :
    (ps.map (fun p => (p.1, f p.1))).lookup q = some (f q) := by
  induction ps with
  | nil => simp at h
  | cons p ps ih =>
    rw [List.map_cons, List.lookup_cons]
    by_cases he : q = p.1
    · subst he; simp
    · rw [show (q == p.1) = false by simpa using he]
      exact ih (by simpa [he] using h)

/-- Equal normalised arguments give equal results. -/
theorem normOne_congr {c : Cls} {q : String} {v w : AVal} (h : c.norm q v = c.norm q w) : c.normOne (q, v) = c.normOne (q, w) := by
  unfold Cls.normOne
  simp only [h]

theorem normOne_ok {c : Cls} {q : String} {v w : AVal} (h : c.norm q v = .ok w) : c.normOne (q, v) = .ok (q, w) := by
  unfold Cls.normOne
  simp only [h]

end Skada.Ctor

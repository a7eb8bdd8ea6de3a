/-
Lemmas for C137: selectors and pipelines asked about some of the samples of a batch.
-/
import Verif.Lemmas.OrderSteps
import Verif.Lemmas.OrderAdapters
import Verif.Spec.Batch
import Mathlib.Data.Finset.Card
import Mathlib.Data.Finset.Image

namespace Skada
open Np Spec

variable {α β σ γ δ : Type}

namespace Batch

theorem when_ok {R : γ → δ → Prop} {x : γ} {b : Py δ} {y : δ} (hb : b = .ok y) (h : R x y) : Whenever R (.ok x) b := by
  intro x' hx'
  cases hx'
  exact ⟨y, hb, h⟩

theorem when_err {R : γ → δ → Prop} {e : PyErr} {b : Py δ} : Whenever R (.error e : Py γ) b := fun _ hx => nomatch hx

theorem when_rel {R : γ → δ → Prop} {a : Py γ} {b : Py δ} (h : RelPy R a b) : Whenever R a b := by
  rcases Sides.py_cases h with ⟨e, rfl, rfl⟩ | ⟨x, y, rfl, rfl, hr⟩
  · exact when_err
  · exact when_ok rfl hr

theorem when_cases {R : γ → δ → Prop} {a : Py γ} {b : Py δ} (h : Whenever R a b) :
    (∃ e, a = .error e) ∨ ∃ x y, a = .ok x ∧ b = .ok y ∧ R x y := by
  cases a with
  | error e => exact Or.inl ⟨e, rfl⟩
  | ok x =>
    obtain ⟨y, h1, h2⟩ := h x rfl
    exact Or.inr ⟨x, y, rfl, h1, h2⟩

theorem when_bind {γ' δ' : Type} {R : γ → γ' → Prop} {S : δ → δ' → Prop} {x : Py γ} {x' : Py γ'} (h : Whenever R x x') {f : γ → Py δ}
    {g : γ' → Py δ'} (hfg : ∀ a b, R a b → Whenever S (f a) (g b)) : Whenever S (x >>= f) (x' >>= g) := by
  rcases when_cases h with ⟨e, rfl⟩ | ⟨a, b, rfl, rfl, hab⟩
  · exact when_err
  · exact hfg a b hab

theorem when_imp {R S : γ → δ → Prop} {a : Py γ} {b : Py δ} (h : Whenever R a b) (hi : ∀ x y, R x y → S x y) : Whenever S a b := by
  intro x hx
  obtain ⟨y, h1, h2⟩ := h x hx
  exact ⟨y, h1, hi x y h2⟩

/-! ### Parts -/

theorem part_ne {l l' : List Nat} (h : Part l l') : l ≠ [] := by
  rintro rfl
  obtain ⟨i, hi⟩ := List.exists_mem_of_ne_nil _ h.ne
  exact absurd (h.sub i hi) (by simp)

theorem part_refl {l : List Nat} (h : l ≠ []) : Part l l := ⟨fun _ => id, h⟩

theorem part_filter {l l' : List Nat} (h : Part l l') (m : Nat → Bool) (hm : l'.filter m ≠ []) : Part (l.filter m) (l'.filter m) :=
  ⟨fun i hi => by rw [List.mem_filter] at hi ⊢; exact ⟨h.sub i hi.1, hi.2⟩, hm⟩

theorem rows_sub {l l' : List Nat} (h : Part l l') {a a' : List γ} (ha : Rows l l' a a') : ∀ x ∈ a', x ∈ a := by
  obtain ⟨f, rfl, rfl⟩ := ha
  intro x hx
  obtain ⟨i, hi, rfl⟩ := List.mem_map.1 hx
  exact List.mem_map.2 ⟨i, h.sub i hi, rfl⟩

theorem rows_ne {l l' : List Nat} (h : Part l l') {a a' : List γ} (ha : Rows l l' a a') : a ≠ [] ∧ a' ≠ [] := by
  obtain ⟨f, rfl, rfl⟩ := ha
  simp [part_ne h, h.ne]

/-! ### Checks -/

theorem domainsOf_part {l l' : List Nat} (hl : Part l l') {v v' : Param Num} (h : RowsParam l l' v v') :
    Whenever (Rows l l') (domainsOf v) (domainsOf v') := by
  rcases h with ⟨a, a', ha, rfl, rfl⟩ | ⟨rfl, hv⟩
  · unfold domainsOf
    simp only
    split
    · exact when_err
    · rename_i hn
      have hn' : ¬ (a'.any (fun v => !v.isFinite) = true) := by
        intro hc
        obtain ⟨x, hx, hq⟩ := List.any_eq_true.1 hc
        exact hn (List.any_eq_true.2 ⟨x, rows_sub hl ha x hx, hq⟩)
      rw [if_neg hn']
      exact when_ok rfl (Order.rows_map ha _)
  · cases v with
    | arr a => exact absurd rfl (hv a)
    | none => exact when_err
    | scalar v => exact when_err

theorem sdArg_part {l l' : List Nat} (hl : Part l l') {v v' : Param Num} (h : RowsParam l l' v v') :
    Whenever (RowsSD l l') (sdArg v) (sdArg v') := by
  rcases h with ⟨a, a', ha, rfl, rfl⟩ | ⟨rfl, hv⟩
  · simp only [sdArg]
    rcases when_cases (domainsOf_part hl (v := .arr a) (v' := .arr a') (Or.inl ⟨a, a', ha, rfl, rfl⟩)) with ⟨e, h1⟩ | ⟨s, s', h1, h2, hs⟩
    · rw [h1]; exact when_err
    · rw [h1, h2]; exact when_ok rfl hs
  · cases v with
    | arr a => exact absurd rfl (hv a)
    | none => exact when_ok rfl trivial
    | scalar v =>
      intro x hx
      refine ⟨x, hx, ?_⟩
      simp only [sdArg] at hx
      split at hx
      · cases hx; exact rfl
      · cases hx
      · cases hx

theorem unique_len {ι : Type} [LinearOrder ι] {a a' : List ι} (h : ∀ x ∈ a', x ∈ a) : (Np.unique a').length ≤ (Np.unique a).length := by
  refine List.Subperm.length_le (List.subperm_of_subset (Np.nodup_unique _) (fun x hx => ?_))
  rw [Np.mem_unique] at hx ⊢
  exact h x hx

theorem unique_card {ι : Type} [LinearOrder ι] (a : List ι) : (Np.unique a).length = a.toFinset.card := by
  rw [← List.toFinset_card_of_nodup (Np.nodup_unique a)]
  congr 1
  ext x
  simp [Np.mem_unique]

theorem abs_inj (a : List Int) : (Np.unique a).length = (Np.unique ((Np.unique a).map (fun d => (d.natAbs : Int)))).length ↔
    ∀ x ∈ a, ∀ y ∈ a, x.natAbs = y.natAbs → x = y := by
  have h1 : ((Np.unique a).map (fun d => (d.natAbs : Int))).toFinset = a.toFinset.image (fun d => (d.natAbs : Int)) := by
    ext x
    simp [Np.mem_unique]
  rw [unique_card, unique_card, h1, eq_comm, Finset.card_image_iff]
  constructor
  · intro h x hx y hy he
    exact h (by simpa using hx) (by simpa using hy) (Int.natCast_inj.2 he)
  · intro h x hx y hy he
    exact h x (by simpa using hx) y (by simpa using hy) (Int.natCast_inj.1 he)

theorem checkFlags_part (f : Flags) {sd sd' : List Int} (h : ∀ x ∈ sd', x ∈ sd) (hc : checkFlags f sd = .ok ()) : checkFlags f sd' = .ok () := by
  have h1 : ∀ s : List Int, Np.sel (s.map (fun d => decide (0 ≤ d))) s = s.filter (fun d => decide (0 ≤ d)) := fun s => Np.sel_map_self _ s
  have h2 : ∀ s : List Int, Np.sel ((s.map (fun d => decide (0 ≤ d))).map (!·)) s = s.filter (fun d => !decide (0 ≤ d)) := by
    intro s; rw [List.map_map]; exact Np.sel_map_self _ s
  have hs : ∀ q : Int → Bool, (Np.unique (sd'.filter q)).length ≤ (Np.unique (sd.filter q)).length := by
    intro q
    refine unique_len (fun x hx => ?_)
    rw [List.mem_filter] at hx ⊢
    exact ⟨h x hx.1, hx.2⟩
  have ha := hs (fun d => decide (0 ≤ d))
  have hb := hs (fun d => !decide (0 ≤ d))
  unfold checkFlags at hc ⊢
  simp only [h1, h2] at hc ⊢
  split at hc
  · cases hc
  rename_i c1
  split at hc
  · cases hc
  rename_i c2
  split at hc
  · cases hc
  rename_i c3
  split at hc
  · cases hc
  rename_i c4
  split at hc
  · cases hc
  rename_i c5
  simp only [Bool.and_eq_true, Bool.not_eq_true', decide_eq_true_eq, not_and, ne_eq, not_not] at c1 c2 c3 c4 c5
  rw [if_neg, if_neg, if_neg, if_neg, if_neg]
  · simp only [Bool.and_eq_true, Bool.not_eq_true', decide_eq_true_eq, not_and]
    intro hf hn
    exact hn ((abs_inj sd').2 (fun x hx y hy he => (abs_inj sd).1 (c5 hf) x (h x hx) y (h y hy) he))
  · simp only [Bool.and_eq_true, Bool.not_eq_true', decide_eq_true_eq, not_and]
    intro hf; have := c4 hf; omega
  · simp only [Bool.and_eq_true, Bool.not_eq_true', decide_eq_true_eq, not_and]
    intro hf; have := c3 hf; omega
  · simp only [Bool.and_eq_true, Bool.not_eq_true', decide_eq_true_eq, not_and]
    intro hf; have := c2 hf; omega
  · simp only [Bool.and_eq_true, Bool.not_eq_true', decide_eq_true_eq, not_and]
    intro hf; have := c1 hf; omega

theorem checkX_part {l l' : List Nat} (hl : Part l l') {X X' : List α} (hX : Rows l l' X X') {sd sd' : SDArg} (hs : RowsSD l l' sd sd')
    (f : Flags) (ad : Option (List AllowedDomain) := none) :
    Whenever (fun a b => a.1 = X ∧ b.1 = X' ∧ Rows l l' a.2 b.2) (checkXDomain X sd f ad) (checkXDomain X' sd' f ad) := by
  unfold checkXDomain
  obtain ⟨n1, n2⟩ := rows_ne hl hX
  rw [if_neg n1, if_neg n2]
  have key : ∀ s s' : List Int, Rows l l' s s' → Whenever (fun a b => a.1 = X ∧ b.1 = X' ∧ Rows l l' a.2 b.2)
      (match extractSourceIndices s with
        | .error e => (.error e : Py (List α × List Int))
        | .ok _ => if X.length ≠ s.length then .error .valueError
          else if (match ad with | none => false | some allow => (Np.unique s).any (fun d => !domainAllowed allow d)) then .error .valueError
          else match checkFlags f s with
            | .error e => .error e
            | .ok _ => .ok (X, s))
      (match extractSourceIndices s' with
        | .error e => (.error e : Py (List α × List Int))
        | .ok _ => if X'.length ≠ s'.length then .error .valueError
          else if (match ad with | none => false | some allow => (Np.unique s').any (fun d => !domainAllowed allow d)) then .error .valueError
          else match checkFlags f s' with
            | .error e => .error e
            | .ok _ => .ok (X', s')) := by
    intro s s' hss
    obtain ⟨m1, m2⟩ := rows_ne hl hss
    have hsub := rows_sub hl hss
    have e1 : X'.length = s'.length := by
      obtain ⟨fx, -, rfl⟩ := hX
      obtain ⟨g, -, rfl⟩ := hss
      simp
    have h1 : extractSourceIndices s = .ok (s.map (fun d => decide (0 ≤ d))) := by simp [extractSourceIndices, m1]
    have h2 : extractSourceIndices s' = .ok (s'.map (fun d => decide (0 ≤ d))) := by simp [extractSourceIndices, m2]
    rw [h1, h2]
    simp only
    rw [if_neg (not_not.2 e1)]
    split
    · exact when_err
    · have hbad : (match ad with | none => false | some allow => (Np.unique s).any (fun d => !domainAllowed allow d)) = false →
          (match ad with | none => false | some allow => (Np.unique s').any (fun d => !domainAllowed allow d)) = false := by
        intro hb
        cases ad with
        | none => rfl
        | some allow =>
          simp only [List.any_eq_false, Np.mem_unique] at hb ⊢
          exact fun x hx => hb x (hsub x hx)
      generalize (match ad with | none => false | some allow => (Np.unique s).any (fun d => !domainAllowed allow d)) = b1 at hbad ⊢
      generalize (match ad with | none => false | some allow => (Np.unique s').any (fun d => !domainAllowed allow d)) = b2 at hbad ⊢
      cases b1 with
      | true => exact when_err
      | false =>
        rw [hbad rfl]
        simp only [Bool.false_eq_true, if_false]
        cases hf : checkFlags f s with
        | error e => exact when_err
        | ok u =>
          rw [checkFlags_part f hsub hf]
          exact when_ok rfl ⟨rfl, rfl, hss⟩
  have hlen : X.length = l.length ∧ X'.length = l'.length := by
    obtain ⟨fx, rfl, rfl⟩ := hX
    simp
  cases sd with
  | none => cases sd' with
    | none =>
      cases f.allowAuto with
      | false => exact when_err
      | true =>
        simp only [Bool.not_true, Bool.false_eq_true, if_false]
        refine key _ _ ⟨fun _ => defaultTargetOnly, ?_, ?_⟩
        · rw [hlen.1, List.map_const']
        · rw [hlen.2, List.map_const']
    | scalar _ => exact hs.elim
    | vec _ => exact hs.elim
  | scalar d => cases sd' with
    | none => exact hs.elim
    | scalar d' =>
      have hs : d = d' := hs
      subst hs
      refine key _ _ ⟨fun _ => d, ?_, ?_⟩
      · rw [hlen.1, List.map_const']
      · rw [hlen.2, List.map_const']
    | vec _ => exact hs.elim
  | vec s => cases sd' with
    | none => exact hs.elim
    | scalar _ => exact hs.elim
    | vec s' => exact key s s' hs

theorem sstCheck_part {l l' : List Nat} (hl : Part l l') {X X' : List α} (hX : Rows l l' X X') {d d' : Dict} (h : RowsDict l l' d d') :
    Whenever (Rows l l') (sstCheck X none d) (sstCheck X' none d') := by
  unfold sstCheck
  rcases when_cases (sdArg_part hl (Order.get h "sample_domain")) with ⟨e, h1⟩ | ⟨s, s', h1, h2, hs⟩
  · rw [h1]; exact when_err
  · rw [h1, h2]
    simp only
    rcases when_cases (checkX_part hl hX hs {}) with ⟨e, h3⟩ | ⟨⟨a1, a2⟩, ⟨b1, b2⟩, h3, h4, -, -, hr⟩
    · rw [h3]; exact when_err
    · rw [h3, h4]; exact when_ok rfl hr

/-! ### Merging the outputs of the groups of samples -/

/-- A group of samples, with the output for each. -/
abbrev Group (β : Type) := (Nat → Bool) × (Nat → β)

/-- The output of a group within the batch `l`. -/
def part (dt : DType) (tl : List Nat) (l : List Nat) (g : Group β) : List Nat × NArr β :=
  (Np.flatnonzero (l.map g.1), ⟨dt, tl, (l.filter g.1).map g.2⟩)

/-- What the merge writes for one sample. -/
def final [Cell β] (dt : DType) (gs : List (Group β)) (z : β) (i : Nat) : β :=
  gs.foldl (fun acc g => if g.1 i then Cell.cast dt (g.2 i) else acc) z

theorem scatterAll_groups [Cell β] (dt : DType) (tl l : List Nat) (gs : List (Group β)) (z : Nat → β) :
    scatterAll ⟨dt, tl, l.map z⟩ (gs.map (part dt tl l)) = .ok ⟨dt, tl, l.map (fun i => final dt gs (z i) i)⟩ := by
  induction gs generalizing z with
  | nil => rfl
  | cons g gs ih =>
    rw [List.map_cons, part, scatterAll, Order.scatter_rows]
    simp only [ne_eq, not_true_eq_false, if_false]
    exact ih _

theorem mergeOutputs_groups [Cell β] (dt : DType) (tl l : List Nat) (gs : List (Group β)) (hg : gs ≠ []) :
    mergeOutputs l.length (gs.map (part dt tl l)) = .ok ⟨dt, tl, l.map (fun i => final dt gs (Cell.zero tl) i)⟩ := by
  cases gs with
  | nil => exact absurd rfl hg
  | cons g gs =>
    have hz : zerosFor l.length (part dt tl l g).2 = ⟨dt, tl, l.map (fun _ => Cell.zero tl)⟩ := by
      simp [zerosFor, part, List.map_const']
    have := scatterAll_groups dt tl l (g :: gs) (fun _ => Cell.zero tl)
    rw [← hz] at this
    exact this

/-- The groups that occur in `l'`. -/
def present (l' : List Nat) (gs : List (Group β)) : List (Group β) := gs.filter (fun g => l'.any g.1)

theorem final_present [Cell β] (dt : DType) (l' : List Nat) (gs : List (Group β)) (z : β) (i : Nat) (hi : i ∈ l') :
    final dt (present l' gs) z i = final dt gs z i := by
  unfold final present
  induction gs generalizing z with
  | nil => rfl
  | cons g gs ih =>
    rw [List.filter_cons]
    split
    · rw [List.foldl_cons, List.foldl_cons]; exact ih _
    · rename_i h
      have : g.1 i = false := by
        cases hgi : g.1 i with
        | false => rfl
        | true => exact absurd (List.any_eq_true.2 ⟨i, hi, hgi⟩) h
      rw [List.foldl_cons, this]; exact ih _

theorem merge_present [Cell β] {dt : DType} {tl l l' : List Nat} {gs : List (Group β)} (hp : present l' gs ≠ []) :
    Whenever (fun a b => a.dtype = dt ∧ a.tail = tl ∧ b.dtype = dt ∧ b.tail = tl ∧ Rows l l' a.rows b.rows)
      (mergeOutputs l.length (gs.map (part dt tl l))) (mergeOutputs l'.length ((present l' gs).map (part dt tl l'))) := by
  have hg : gs ≠ [] := by rintro rfl; exact hp rfl
  rw [mergeOutputs_groups _ _ _ _ hg, mergeOutputs_groups _ _ _ _ hp]
  refine when_ok rfl ⟨rfl, rfl, rfl, rfl, fun i => final dt gs (Cell.zero tl) i, rfl, ?_⟩
  exact List.map_congr_left (fun i hi => final_present dt l' gs _ i hi)

/-! ### `PerDomain` -/

theorem filter_any (l : List Nat) (m : Nat → Bool) : l.any m = true ↔ l.filter m ≠ [] := by
  rw [List.any_eq_true, ne_eq, List.filter_eq_nil_iff]
  push Not
  exact Iff.rfl

theorem unique_part {l l' : List Nat} (hl : Part l l') (s : Nat → Int) :
    Np.unique (l'.map s) = (Np.unique (l.map s)).filter (fun d => l'.any (fun i => decide (s i = d))) := by
  refine List.Perm.eq_of_pairwise (le := (· < ·)) (fun x y _ _ h1 h2 => absurd h1 (not_lt.2 h2.le)) (Np.pairwise_unique _)
    ((Np.pairwise_unique _).filter _) ?_
  refine (List.perm_ext_iff_of_nodup (Np.nodup_unique _) ((Np.nodup_unique _).filter _)).2 (fun x => ?_)
  rw [Np.mem_unique, List.mem_filter, Np.mem_unique]
  simp only [List.any_eq_true, List.mem_map, decide_eq_true_eq]
  exact ⟨fun ⟨i, hi, h⟩ => ⟨⟨i, hl.sub i hi, h⟩, i, hi, h⟩, fun h => h.2⟩

/-- Relation of array answers of one dtype and row shape. -/
def SameQ (dt : DType) (tl l l' : List Nat) (a b : QOut β) : Prop :=
  match a, b with
  | .arr a, .arr b => a.dtype = dt ∧ a.tail = tl ∧ b.dtype = dt ∧ b.tail = tl ∧ Rows l l' a.rows b.rows
  | .number _, .number _ => True
  | _, _ => False

theorem array_query {τ : Type} {dt : DType} {tl : List Nat} {query : τ → Call α → Py (QOut β)} (hq : ArrayBatch dt tl query) {l l' : List Nat}
    (hl : Part l l') {f : τ} {c c' : Call α} (hc : RowsCall l l' c c') : Whenever (SameQ dt tl l l') (query f c) (query f c') := by
  refine when_imp (hq l l' hl f c c' hc) (fun x y h => ?_)
  cases x <;> cases y <;> exact h

/-- The two answers about one group, the second one only if some of its samples are asked about. -/
theorem group_query {τ : Type} {dt : DType} {tl : List Nat} {query : τ → Call α → Py (QOut β)} {f : τ} (hq : ArrayBatch dt tl (fun _ : Unit => query f))
    {l l' : List Nat} (hl : Part l l') {m : Nat → Bool} (hm : l.filter m ≠ []) {c c' : Call α} (hc : RowsCall (l.filter m) (l'.filter m) c c')
    (hcc : RowsCall (l.filter m) (l.filter m) c c) {a : NArr β} (h : query f c = .ok (.arr a)) :
    ∃ g : Nat → β, (Np.flatnonzero (l.map m), a) = part dt tl l (m, g) ∧
      (l'.filter m ≠ [] → query f c' = .ok (.arr (part dt tl l' (m, g)).2)) := by
  by_cases hp : l'.filter m = []
  · obtain ⟨y, h1, h2⟩ := array_query hq (part_refl hm) (f := ()) hcc _ h
    cases y with
    | number v => exact h2.elim
    | arr b =>
      obtain ⟨r1, r2, -, -, g, r3, -⟩ := h2
      refine ⟨g, ?_, fun hne => absurd hp hne⟩
      obtain ⟨adt, atl, ar⟩ := a
      simp only at r1 r2 r3
      subst r1 r2 r3
      rfl
  · obtain ⟨y, h1, h2⟩ := array_query hq (part_filter hl m hp) (f := ()) hc _ h
    cases y with
    | number v => exact h2.elim
    | arr b =>
      obtain ⟨r1, r2, r3, r4, g, r5, r6⟩ := h2
      obtain ⟨adt, atl, ar⟩ := a
      obtain ⟨bdt, btl, br⟩ := b
      simp only at r1 r2 r3 r4 r5 r6
      subst r1 r2 r3 r4 r5 r6
      exact ⟨g, rfl, fun _ => h1⟩

theorem dict_self {l l' : List Nat} {d d' : Dict} (h : RowsDict l l' d d') : RowsDict l l d d := by
  induction h with
  | nil => exact List.Forall₂.nil
  | @cons a b t t' hab _ ih =>
    refine List.Forall₂.cons ⟨rfl, ?_⟩ ih
    rcases hab.2 with ⟨x, x', ⟨f, h1, -⟩, h2, -⟩ | ⟨-, hv⟩
    · exact Or.inl ⟨x, x, ⟨f, h1, h1⟩, h2, h2⟩
    · exact Or.inr ⟨rfl, hv⟩

theorem opt_self {l l' : List Nat} {y y' : Option (List γ)} (h : RowsOpt l l' y y') : RowsOpt l l y y := by
  cases y with
  | none => exact trivial
  | some y => cases y' with
    | none => exact h.elim
    | some y' =>
      obtain ⟨f, h1, -⟩ := h
      exact ⟨f, h1, h1⟩

theorem call_self {l l' : List Nat} {c c' : Call α} (h : RowsCall l l' c c') : RowsCall l l c c := by
  obtain ⟨⟨f, h1, -⟩, h2, h3⟩ := h
  exact ⟨⟨f, h1, h1⟩, opt_self h2, dict_self h3⟩

theorem mapM_asArr_cons (o : List Nat × QOut β) (outs : List (List Nat × QOut β)) {arrs : List (List Nat × NArr β)}
    (h : (o :: outs).mapM QOut.asArr = .ok arrs) :
    ∃ a rest, o.2 = .arr a ∧ outs.mapM QOut.asArr = .ok rest ∧ arrs = (o.1, a) :: rest := by
  rw [List.mapM_cons] at h
  obtain ⟨idx, o⟩ := o
  cases o with
  | number v => cases h
  | arr a =>
    cases hr : outs.mapM QOut.asArr with
    | error e => rw [hr] at h; cases h
    | ok rest =>
      rw [hr] at h
      exact ⟨a, rest, rfl, rfl, by cases h; rfl⟩

theorem perDomainOutputs_part {dt : DType} {tl : List Nat} {ests : List (Int × σ)} {query : σ → Call α → Py (QOut β)}
    (hq : ArrayBatch dt tl query) {l l' : List Nat} (hl : Part l l') {X X' : List α} (hX : Rows l l' X X') {y y' : Option (List Num)}
    (hy : RowsOpt l l' y y') {d d' : Dict} (hd : RowsDict l l' d d') (sd : Nat → Int) (ds : List Int)
    (hds : ∀ t ∈ ds, l.filter (fun i => decide (sd i = t)) ≠ []) {outs : List (List Nat × QOut β)}
    (h : perDomainOutputs ests query X y d (l.map sd) ds = .ok outs) {arrs : List (List Nat × NArr β)} (ha : outs.mapM QOut.asArr = .ok arrs) :
    ∃ gs : List (Group β), arrs = gs.map (part dt tl l) ∧ gs.map Prod.fst = ds.map (fun t i => decide (sd i = t)) ∧
      ∃ outs', perDomainOutputs ests query X' y' d' (l'.map sd) (ds.filter (fun t => l'.any (fun i => decide (sd i = t)))) = .ok outs' ∧
        outs'.mapM QOut.asArr = .ok ((present l' gs).map (part dt tl l')) := by
  induction ds generalizing outs arrs with
  | nil =>
    cases h
    cases ha
    exact ⟨[], rfl, rfl, [], rfl, rfl⟩
  | cons t ds ih =>
    simp only [perDomainOutputs] at h
    cases he : ests.lookup t with
    | none => rw [he] at h; cases h
    | some e =>
      rw [he] at h
      simp only [Order.domainIdx_rows] at h
      rcases Sides.py_cases (Order.takeCall_rows (fun i => decide (sd i = t)) hX hy hd) with ⟨_, h1, -⟩ | ⟨c, c', h1, h2, hc⟩
      · rw [h1] at h; cases h
      · rw [h1] at h
        simp only at h
        cases hqr : query e c with
        | error _ => rw [hqr] at h; cases h
        | ok o =>
          rw [hqr] at h
          simp only at h
          cases hr : perDomainOutputs ests query X y d (l.map sd) ds with
          | error _ => rw [hr] at h; cases h
          | ok r =>
            rw [hr] at h
            cases h
            obtain ⟨a, rest, ho, hrest, rfl⟩ := mapM_asArr_cons _ _ ha
            simp only at ho
            subst ho
            obtain ⟨gs, hg1, hg2, outs', ho1, ho2⟩ := ih (fun t ht => hds t (List.mem_cons_of_mem _ ht)) hr hrest
            obtain ⟨g, hga, hgb⟩ := group_query (fun l l' hl _ => hq l l' hl e) hl (hds t (by simp)) hc (call_self hc) hqr
            refine ⟨(fun i => decide (sd i = t), g) :: gs, by rw [List.map_cons, ← hga, hg1], by rw [List.map_cons, hg2]; rfl, ?_⟩
            rw [List.filter_cons]
            by_cases hp : l'.any (fun i => decide (sd i = t)) = true
            · rw [if_pos hp]
              simp only [perDomainOutputs, Order.domainIdx_rows, he, h2, hgb ((filter_any _ _).1 hp), ho1]
              refine ⟨_, rfl, ?_⟩
              rw [List.mapM_cons, ho2]
              simp only [present, List.filter_cons, hp, if_true]
              rfl
            · rw [if_neg hp]
              refine ⟨outs', ho1, ?_⟩
              rw [ho2]
              simp only [present, List.filter_cons]
              rw [if_neg hp]

theorem present_domains {l l' : List Nat} (hl : Part l l') (sd : Nat → Int) {gs : List (Group β)}
    (h : gs.map Prod.fst = (Np.unique (l.map sd)).map (fun t i => decide (sd i = t))) : present l' gs ≠ [] := by
  obtain ⟨i, hi⟩ := List.exists_mem_of_ne_nil _ hl.ne
  have h1 : (fun j => decide (sd j = sd i)) ∈ gs.map Prod.fst := by
    rw [h]
    exact List.mem_map.2 ⟨sd i, Np.mem_unique.2 (List.mem_map_of_mem (hl.sub i hi)), rfl⟩
  obtain ⟨g, hg, hge⟩ := List.mem_map.1 h1
  have : g ∈ present l' gs := by
    refine List.mem_filter.2 ⟨hg, List.any_eq_true.2 ⟨i, hi, ?_⟩⟩
    rw [hge]; simp
  intro hn
  rw [hn] at this
  exact absurd this (by simp)

theorem perDomainRoute_part [Cell β] {dt : DType} {tl : List Nat} {s : Sel α σ} {req : Request} {ests : List (Int × σ)}
    {query : σ → Call α → Py (QOut β)} (hq : ArrayBatch dt tl query) {l l' : List Nat} (hl : Part l l') {X X' : List α} (hX : Rows l l' X X')
    {d d' : Dict} (hd : RowsDict l l' d d') :
    Whenever (fun a b => a.dtype = dt ∧ a.tail = tl ∧ b.dtype = dt ∧ b.tail = tl ∧ Rows l l' a.rows b.rows)
      (s.perDomainRoute req ests query X none d) (s.perDomainRoute req ests query X' none d') := by
  unfold Sel.perDomainRoute
  rcases Sides.py_cases (Order.prepare (req := req) (f := s.final) (t := s.est.hasTransform) hd) with ⟨e, h1, h2⟩ | ⟨r, r', h1, h2, hr⟩
  · rw [h1]; exact when_err
  · rw [h1, h2]
    simp only [Order.has hd]
    split
    · exact when_err
    · rcases when_cases (domainsOf_part hl (Order.get hd "sample_domain")) with ⟨e, h3⟩ | ⟨sd, sd', h3, h4, f, rfl, rfl⟩
      · rw [h3]; exact when_err
      · rw [h3, h4]
        simp only
        cases ho : perDomainOutputs ests query X none r (l.map f) (Np.unique (l.map f)) with
        | error e => exact when_err
        | ok outs =>
          simp only [mergeQOuts]
          cases ha : outs.mapM QOut.asArr with
          | error e => exact when_err
          | ok arrs =>
            have hds : ∀ t ∈ Np.unique (l.map f), l.filter (fun i => decide (f i = t)) ≠ [] := by
              intro t ht
              obtain ⟨i, hi, rfl⟩ := List.mem_map.1 (Np.mem_unique.1 ht)
              exact List.ne_nil_of_mem (List.mem_filter.2 ⟨hi, by simp⟩)
            obtain ⟨gs, rfl, hg, outs', ho', ha'⟩ := perDomainOutputs_part hq hl hX (y := none) (y' := none) trivial hr f _ hds ho ha
            rw [unique_part hl f, ho']
            simp only [ha']
            obtain ⟨fx, rfl, rfl⟩ := hX
            rw [List.length_map, List.length_map]
            exact merge_present (present_domains hl f hg)

/-! ### `SelectSourceTarget` -/

theorem sideOutputs_part {τ : Type} {dt : DType} {tl : List Nat} (s : SST α σ) (isT : Bool) {query : τ → Call α → Py (QOut β)}
    {l l' : List Nat} (hl : Part l l') {X X' : List α} (hX : Rows l l' X X') {d d' : Dict}
    (hd : RowsDict l l' d d') (es : List (τ × Request × (Nat → Bool))) (hq : ∀ e ∈ es, ArrayBatch dt tl (fun _ : Unit => query e.1)) {outs : List (List Nat × NArr β)}
    (h : s.sideOutputs isT query X none d (es.map (fun e => (e.1, e.2.1, l.map e.2.2))) = .ok outs) :
    ∃ gs : List (Group β), outs = gs.map (part dt tl l) ∧ (∀ e ∈ es, l'.any e.2.2 = true → e.2.2 ∈ gs.map Prod.fst) ∧
      s.sideOutputs isT query X' none d' (es.map (fun e => (e.1, e.2.1, l'.map e.2.2))) = .ok ((present l' gs).map (part dt tl l')) := by
  induction es generalizing outs with
  | nil =>
    cases h
    exact ⟨[], rfl, by simp, rfl⟩
  | cons e es ih =>
    obtain ⟨t, req, m⟩ := e
    simp only [List.map_cons, SST.sideOutputs, Order.count_filter, List.length_eq_zero_iff] at h ⊢
    by_cases hm : l.filter m = []
    · have hm' : l'.filter m = [] := by
        rw [List.filter_eq_nil_iff] at hm ⊢
        exact fun i hi => hm i (hl.sub i hi)
      rw [if_pos hm] at h
      rw [if_pos hm']
      obtain ⟨gs, h1, h2, h3⟩ := ih (fun e he => hq e (List.mem_cons_of_mem _ he)) h
      refine ⟨gs, h1, ?_, h3⟩
      intro e he ha
      rcases List.mem_cons.1 he with rfl | he
      · exact absurd hm' ((filter_any _ _).1 ha)
      · exact h2 e he ha
    · rw [if_neg hm] at h
      obtain ⟨⟨a1, a2, a3⟩, ⟨b1, b2, b3⟩, h3, h4, ⟨r1, r2, r3⟩, -, -⟩ := Order.masks hX (y := none) (y' := none) trivial hd m
      rw [h3] at h
      simp only at h r1 r2 r3
      rcases Sides.py_cases (Order.prepare (req := req) (f := s.final) (t := s.source.hasTransform) r3) with ⟨_, h5, -⟩ | ⟨q, q', h5, h6, hqq⟩
      · rw [h5] at h; cases h
      · rw [h5] at h
        simp only at h
        have hc : RowsCall (l.filter m) (l'.filter m) (⟨a1, if isT then none else a2, q⟩ : Call α) ⟨b1, if isT then none else b2, q'⟩ := by
          refine ⟨r1, ?_, hqq⟩
          cases isT
          · exact r2
          · exact trivial
        cases hqr : query t ⟨a1, if isT then none else a2, q⟩ with
        | error _ => rw [hqr] at h; cases h
        | ok o =>
          rw [hqr] at h
          cases o with
          | number v => cases h
          | arr a =>
            simp only at h
            cases hr : s.sideOutputs isT query X none d (es.map (fun e => (e.1, e.2.1, l.map e.2.2))) with
            | error _ => rw [hr] at h; cases h
            | ok r =>
              rw [hr] at h
              cases h
              obtain ⟨gs, h7, h8, h9⟩ := ih (fun e he => hq e (List.mem_cons_of_mem _ he)) hr
              obtain ⟨g, hga, hgb⟩ := group_query (hq (t, req, m) (by simp)) hl hm hc (call_self hc) hqr
              refine ⟨(m, g) :: gs, by rw [List.map_cons, ← hga, h7], ?_, ?_⟩
              · intro e he ha
                rcases List.mem_cons.1 he with rfl | he
                · simp
                · exact List.mem_cons_of_mem _ (h8 e he ha)
              · by_cases hm' : l'.filter m = []
                · have hany : ¬ (l'.any m = true) := fun ha => (filter_any _ _).1 ha hm'
                  rw [if_pos hm', h9]
                  simp only [present, List.filter_cons]
                  rw [if_neg hany]
                · rw [if_neg hm', h4]
                  simp only [h6, hgb hm', h9, present, List.filter_cons, (filter_any _ _).2 hm', if_true]
                  rfl

theorem sstRoute_part {τ : Type} [Cell β] {dt : DType} {tl : List Nat} (s : SST α σ) (isT : Bool) (reqS reqT : Request) (fs : τ × τ)
    {query : τ → Call α → Py (QOut β)} (hq1 : ArrayBatch dt tl (fun _ : Unit => query fs.1)) (hq2 : ArrayBatch dt tl (fun _ : Unit => query fs.2))
    {l l' : List Nat} (hl : Part l l') {X X' : List α} (hX : Rows l l' X X') {d d' : Dict} (hd : RowsDict l l' d d') :
    Whenever (fun a b => a.dtype = dt ∧ a.tail = tl ∧ b.dtype = dt ∧ b.tail = tl ∧ Rows l l' a.rows b.rows)
      (s.route isT reqS reqT fs query X none d) (s.route isT reqS reqT fs query X' none d') := by
  unfold SST.route
  rcases when_cases (sstCheck_part hl hX hd) with ⟨e, h1⟩ | ⟨sd, sd', h1, h2, f, rfl, rfl⟩
  · rw [h1]; exact when_err
  · rw [h1, h2]
    have hd2 : RowsDict l l' (d.put "sample_domain" (domParam (l.map f))) (d'.put "sample_domain" (domParam (l'.map f))) :=
      Order.put hd (Order.domParam_rows ⟨f, rfl, rfl⟩)
    have e1 : ∀ k : List Nat, ([(fs.1, reqS, (k.map f).map (fun d => decide (0 ≤ d))), (fs.2, reqT, ((k.map f).map (fun d => decide (0 ≤ d))).map (!·))] :
        List (τ × Request × List Bool)) =
        [(fs.1, reqS, fun i => decide (0 ≤ f i)), (fs.2, reqT, fun i => !decide (0 ≤ f i))].map (fun e => (e.1, e.2.1, k.map e.2.2)) := by
      intro k
      simp [List.map_map, Function.comp_def]
    simp only [e1]
    cases ho : s.sideOutputs isT query X none (d.put "sample_domain" (domParam (l.map f)))
        ([(fs.1, reqS, fun i => decide (0 ≤ f i)), (fs.2, reqT, fun i => !decide (0 ≤ f i))].map (fun e => (e.1, e.2.1, l.map e.2.2))) with
    | error e => exact when_err
    | ok outs =>
      obtain ⟨gs, rfl, hg, hs⟩ := sideOutputs_part s isT hl hX hd2 _ (by simpa using ⟨hq1, hq2⟩) ho
      rw [hs]
      obtain ⟨fx, rfl, rfl⟩ := hX
      simp only [List.length_map]
      refine merge_present ?_
      obtain ⟨i, hi⟩ := List.exists_mem_of_ne_nil _ hl.ne
      have key : ∀ m : Nat → Bool, m i = true → m ∈ gs.map Prod.fst → present l' gs ≠ [] := by
        intro m hm hmem
        obtain ⟨g, hg1, rfl⟩ := List.mem_map.1 hmem
        exact List.ne_nil_of_mem (List.mem_filter.2 ⟨hg1, List.any_eq_true.2 ⟨i, hi, hm⟩⟩)
      by_cases hfi : 0 ≤ f i
      · have hm : (fun i => decide (0 ≤ f i)) i = true := by simp [hfi]
        exact key _ hm (hg (fs.1, reqS, fun i => decide (0 ≤ f i)) (by simp) (List.any_eq_true.2 ⟨i, hi, hm⟩))
      · have hm : (fun i => !decide (0 ≤ f i)) i = true := by simp [hfi]
        exact key _ hm (hg (fs.2, reqT, fun i => !decide (0 ≤ f i)) (by simp) (List.any_eq_true.2 ⟨i, hi, hm⟩))

/-! ### Pipelines -/

theorem rowsOf_part {dt : DType} {tl l l' : List Nat} {a b : Py (NArr α)}
    (h : Whenever (fun a b => a.dtype = dt ∧ a.tail = tl ∧ b.dtype = dt ∧ b.tail = tl ∧ Rows l l' a.rows b.rows) a b) :
    Whenever (Rows l l') (rowsOf a) (rowsOf b) := by
  rcases when_cases h with ⟨e, rfl⟩ | ⟨x, y, rfl, rfl, hr⟩
  · exact when_err
  · exact when_ok rfl hr.2.2.2.2

theorem transformQuery_part {e : Est α σ} (h : BatchFree e) : ArrayBatch .float [] e.transformQuery := by
  intro l l' hl f c c' hc
  unfold Est.transformQuery
  rcases when_cases (h l l' hl f c.X c'.X hc.X c.params c'.params hc.params) with ⟨e, h1⟩ | ⟨o, o', h1, h2, ho⟩
  · rw [h1]; exact when_err
  · rw [h1, h2]
    cases o <;> cases o' <;> first | exact ho.elim | skip
    · exact when_ok rfl ⟨rfl, rfl, rfl, rfl, ho⟩
    · exact when_ok rfl trivial
    · exact when_ok rfl trivial
    · exact when_ok rfl trivial

theorem sharedTransform_part {s : Sel α σ} (h : BatchFree s.est) {l l' : List Nat} (hl : Part l l') (f : σ) {X X' : List α} (hX : Rows l l' X X')
    {d d' : Dict} (hd : RowsDict l l' d d') : Whenever (RowsOut l l') (s.sharedTransform f X d) (s.sharedTransform f X' d') := by
  unfold Sel.sharedTransform
  rcases Sides.py_cases (Order.prepare (req := s.est.transformReq) (f := s.final) (t := s.est.hasTransform) hd) with ⟨e, h1, h2⟩ | ⟨a, b, h1, h2, hab⟩
  · rw [h1]; exact when_err
  · rw [h1, h2]; exact h l l' hl f X X' hX a b hab

theorem stepTransform_part [Cell α] {st : Step α σ} (h : StepBatch st) (f : Fitted σ) {l l' : List Nat} (hl : Part l l') {X X' : List α}
    (hX : Rows l l' X X') {d d' : Dict} (hd : RowsDict l l' d d') : Whenever (Rows l l') (st.transform f X d) (st.transform f X' d') := by
  have hone : ∀ (s : Sel α σ), BatchFree s.est → ∀ g, Whenever (Rows l l')
      (match s.sharedTransform g X d with
        | .error e => (.error e : Py (List α))
        | .ok (.arr X') => .ok X'
        | .ok _ => .error .typeError)
      (match s.sharedTransform g X' d' with
        | .error e => (.error e : Py (List α))
        | .ok (.arr X') => .ok X'
        | .ok _ => .error .typeError) := by
    intro s hs g
    rcases when_cases (sharedTransform_part hs hl g hX hd) with ⟨e, h1⟩ | ⟨o, o', h1, h2, ho⟩
    · rw [h1]; exact when_err
    · rw [h1, h2]
      cases o <;> cases o' <;> first | exact ho.elim | exact when_err | skip
      exact when_ok rfl ho
  cases st with
  | shared s => cases f with
    | one g => exact hone s h g
    | perDomain _ => exact when_err
    | sourceTarget _ _ => exact when_err
  | select side s => cases f with
    | one g => exact hone s h g
    | perDomain _ => exact when_err
    | sourceTarget _ _ => exact when_err
  | perDomain s => cases f with
    | one _ => exact when_err
    | perDomain ests => exact rowsOf_part (perDomainRoute_part (transformQuery_part h) hl hX hd)
    | sourceTarget _ _ => exact when_err
  | sourceTarget s => cases f with
    | one _ => exact when_err
    | perDomain _ => exact when_err
    | sourceTarget fs ft =>
      refine rowsOf_part (dt := .float) (tl := []) (sstRoute_part s true _ _ _ ?_ ?_ hl hX hd)
      · exact fun l l' hl _ => transformQuery_part h.1 l l' hl fs
      · exact fun l l' hl _ => transformQuery_part h.2 l l' hl ft

theorem stepsRoute_part [Cell α] {query : σ → Call α → Py (List β)} (hq : QueryBatch query) {req : Request} {keepL : String → Bool} {s : Sel α σ}
    {f : σ} {l l' : List Nat} (hl : Part l l') {d d' : Dict} (hd : RowsDict l l' d d') {steps : List ((String → Bool) × Step α σ × Fitted σ)}
    (hs : ∀ st ∈ steps, StepBatch st.2.1) {X X' : List α} (hX : Rows l l' X X') :
    Whenever (Rows l l') (stepsRoute steps (keepL, s, f) req query X none d) (stepsRoute steps (keepL, s, f) req query X' none d') := by
  induction steps generalizing X X' with
  | nil =>
    simp only [stepsRoute, Sel.sharedRoute]
    rcases Sides.py_cases (Order.prepare (req := req) (f := s.final) (t := s.est.hasTransform) (Order.filterKey hd keepL)) with
      ⟨e, h1, h2⟩ | ⟨a, b, h1, h2, hab⟩
    · rw [h1]; exact when_err
    · rw [h1, h2]
      exact hq l l' hl f _ _ ⟨hX, trivial, hab⟩
  | cons st steps ih =>
    obtain ⟨keep, st, g⟩ := st
    simp only [stepsRoute]
    rcases when_cases (stepTransform_part (st := st) (hs (keep, st, g) (by simp)) g hl hX (Order.filterKey hd keep)) with ⟨e, h1⟩ | ⟨a, b, h1, h2, hab⟩
    · rw [h1]; exact when_err
    · rw [h1, h2]
      exact ih (fun st hst => hs st (List.mem_cons_of_mem _ hst)) hab

end Batch
end Skada

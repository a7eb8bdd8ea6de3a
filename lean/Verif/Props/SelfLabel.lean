/-
Properties of DASVM: C39 (selection) and C74 (training).
-/
import Verif.Lemmas.SelfLabel

namespace Skada
open Np Spec RW Map SL

/-! ### C39: selection of points -/

section Selection
set_option linter.unusedSectionVars false
variable {K : Type} [Field K] [LinearOrder K] [IsStrictOrderedRing K]

/-- C39 (what is selected). If some point is admissible (not yet marked and satisfying the condition) and `k ≥ 1`, one selection marks
exactly the best admissible point of each of the two score columns (the first one on ties) and nothing else. -/
theorem C39_selection_partial (k : Nat) (mask cond : List Bool) (rows : List (K × K)) (hk : 0 < k)
    (h1 : mask.length = rows.length) (h2 : cond.length = rows.length) (hne : ∃ i, Adm mask cond i) :
    ∃ i0 i1 mask', findPoints k mask (.two rows) cond = .ok mask' ∧ mask'.length = mask.length ∧
      Best (rows.map Prod.fst) (Adm mask cond) i0 ∧ Best (rows.map Prod.snd) (Adm mask cond) i1 ∧
      ∀ j, j < mask.length → mask'[j]? = if j = i0 ∨ j = i1 then some true else mask[j]? :=
  findPoints_spec k mask cond rows hk h1 h2 hne

/-- C39 (nothing to select). Without admissible points, or with `k = 0`, nothing changes and nothing fails. -/
theorem C39_no_selection (k : Nat) (mask cond : List Bool) (d : Dec K) (h : k = 0 ∨ ¬ ∃ i, Adm mask cond i) :
    findPoints k mask d cond = .ok mask := findPoints_none k mask cond d h

/-- C39 (negation of the role of `k`). For every data set and every `k ≥ 1` the selection is the one for `k = 1`: at most one
point per class is taken, however large `k` is. -/
theorem C39_k_counterexample (k : Nat) (mask cond : List Bool) (rows : List (K × K)) (hk : 0 < k)
    (h1 : mask.length = rows.length) (h2 : cond.length = rows.length) :
    findPoints k mask (.two rows) cond = findPoints 1 mask (.two rows) cond := by
  by_cases hne : ∃ i, Adm mask cond i
  · obtain ⟨i0, i1, m, hm, hl, hb0, hb1, hv⟩ := findPoints_spec k mask cond rows hk h1 h2 hne
    obtain ⟨j0, j1, m', hm', hl', hb0', hb1', hv'⟩ := findPoints_spec 1 mask cond rows one_pos h1 h2 hne
    have uniq : ∀ (col : List K) (i j : Nat), Best col (Adm mask cond) i → Best col (Adm mask cond) j → i = j := by
      rintro col i j ⟨ha, v, hv, hbest⟩ ⟨ha', v', hv', hbest'⟩
      have a1 := hbest j v' ha' hv'
      have a2 := hbest' i v ha hv
      have : v = v' := le_antisymm a2.1 a1.1
      have := a1.2 this.symm
      have := a2.2 ‹v = v'›
      omega
    have e0 := uniq _ _ _ hb0 hb0'
    have e1 := uniq _ _ _ hb1 hb1'
    subst e0; subst e1
    rw [hm, hm']
    congr 1
    apply List.ext_getElem?
    intro j
    by_cases hj : j < mask.length
    · rw [hv j hj, hv' j hj]
    · rw [List.getElem?_eq_none (by omega), List.getElem?_eq_none (by omega)]
  · rw [findPoints_none k _ _ _ (Or.inr hne), findPoints_none 1 _ _ _ (Or.inr hne)]

/-- Six admissible points, `k = 3`: two are selected. -/
example : findPoints (K := ℚ) 3 [false, false, true, false, false, false] (.two [(1, -1), (3, -3), (9, 9), (-2, 2), (-4, 4), (0, 0)])
    [true, true, true, true, true, false] = .ok [false, true, true, false, true, false] := by decide +kernel

end Selection

/-! ### C74: training of DASVM -/

section Training
set_option linter.unusedSectionVars false
variable {K : Type} [Field K] [LinearOrder K] [IsStrictOrderedRing K] {α β E : Type} [DecidableEq β]

/-- A row lies strictly inside the margin of an estimator (and not on its decision boundary). -/
def Spec.InMargin (L : Learner α β E K) (e : E) (x : α) : Prop := 0 < |L.decision e x| ∧ |L.decision e x| < 1

/-- From one list of deleted source rows to the next: no row comes back and at most two rows are newly deleted. -/
def Spec.Grow (a b : List Bool) : Prop :=
  a.length = b.length ∧ (∀ j : Nat, a[j]? = some true → b[j]? = some true) ∧
    ∃ i0 i1 : Nat, ∀ j : Nat, b[j]? ≠ a[j]? → j = i0 ∨ j = i1

/-- Why a target row is used with a pseudo-label: it lies inside the margin of the current estimator, or it was used before and its
pseudo-label did not change. -/
def Spec.Justified (L : Learner α β E K) (Xt : List α) (ests : List E) (adds : List (List Bool)) : Prop :=
  ∀ (i j : Nat) (e : E) (a a' : List Bool) (x : α), ests[i]? = some e → adds[i]? = some a → adds[i + 1]? = some a' →
    Xt[j]? = some x → a'[j]? = some true →
      InMargin L e x ∨ (a[j]? = some true ∧ ∃ e0, 0 < i ∧ ests[i - 1]? = some e0 ∧ L.predict e x = L.predict e0 x)

theorem inMargin_init (x : K) :
    ((decide (-x < 1) && decide (0 < -x)) || (decide (x < 1) && decide (0 < x))) = true ↔ 0 < |x| ∧ |x| < 1 := by
  simp only [Bool.or_eq_true, Bool.and_eq_true, decide_eq_true_eq]
  rcases lt_trichotomy x 0 with h | h | h
  · rw [abs_of_neg h]
    constructor
    · rintro (⟨h1, h2⟩ | ⟨h1, h2⟩)
      · exact ⟨h2, h1⟩
      · exact absurd h2 (not_lt.2 h.le)
    · rintro ⟨h1, h2⟩; exact Or.inl ⟨h2, h1⟩
  · subst h; simp
  · rw [abs_of_pos h]
    constructor
    · rintro (⟨h1, h2⟩ | ⟨h1, h2⟩)
      · exact ⟨h, by linarith⟩
      · exact ⟨h2, h1⟩
    · rintro ⟨h1, h2⟩; exact Or.inr ⟨h2, h1⟩

theorem inMargin_loop (x : K) :
    ((decide (-x + 1 < 1) && decide (0 < -x + 1)) || (decide (x + 1 < 1) && decide (0 < x + 1))) = true ↔ 0 < |x| ∧ |x| < 1 := by
  simp only [Bool.or_eq_true, Bool.and_eq_true, decide_eq_true_eq]
  rcases lt_trichotomy x 0 with h | h | h
  · rw [abs_of_neg h]
    constructor
    · rintro (⟨h1, h2⟩ | ⟨h1, h2⟩)
      · exact ⟨by linarith, by linarith⟩
      · exact ⟨by linarith, by linarith⟩
    · rintro ⟨h1, h2⟩; exact Or.inr ⟨by linarith, by linarith⟩
  · subst h; simp
  · rw [abs_of_pos h]
    constructor
    · rintro (⟨h1, h2⟩ | ⟨h1, h2⟩)
      · exact ⟨h, by linarith⟩
      · exact ⟨h, by linarith⟩
    · rintro ⟨h1, h2⟩; exact Or.inl ⟨by linarith, by linarith⟩

theorem batch_ok_iff {γ : Type} {f : α → γ} {X : List α} {r : List γ} : batch f X = .ok r ↔ X ≠ [] ∧ r = X.map f := by
  unfold batch
  split
  · simp_all
  · simp_all [eq_comm]

/-- The decision array of a partially marked set: two columns built from the decision values of the unmarked rows and 1 for the
marked ones. -/
theorem getDecision_two {L : Learner α β E K} {e : E} {X : List α} {mask : List Bool} (hl : mask.length = X.length)
    (hf : 0 < mask.count false) :
    getDecision L e X mask = .ok (.two ((List.zipWith (fun a x => if a then 1 else L.decision e x) mask X).map
      (fun x => (-x + 1, x + 1)))) := by
  unfold getDecision
  rw [if_pos hf]
  have hne : sel (mask.map (!·)) X ≠ [] := by
    intro h
    have := length_sel (m := mask.map (!·)) (a := X) (by simpa using hl)
    rw [h] at this
    have h2 : (mask.map (!·)).count true = mask.count false := by
      clear hl hf h this
      induction mask with
      | nil => rfl
      | cons b m ih => cases b <;> simp [ih]
    simp only [List.length_nil] at this
    omega
  rw [batch_ok hne]
  simp only [ok_bind]
  have hput : putMask (mask.map (!·)) (X.map (fun _ => (1 : K))) ((sel (mask.map (!·)) X).map (L.decision e))
      = List.zipWith (fun a x => if a then 1 else L.decision e x) mask X := by
    clear hf hne
    induction mask generalizing X with
    | nil => cases X with
      | nil => rfl
      | cons x X => simp at hl
    | cons b m ih =>
      cases X with
      | nil => simp at hl
      | cons x X =>
        have := ih (X := X) (by simpa using hl)
        cases b <;> simp only [List.map_cons, Bool.not_false, Bool.not_true, putMask, sel, this, List.zipWith_cons_cons, if_true,
          Bool.false_eq_true, if_false]
  rw [boolAssign_ok (by simpa using hl.symm), hput]
  · rfl
  · rw [List.length_map, length_sel (by simpa using hl)]

theorem getDecision_one {L : Learner α β E K} {e : E} {X : List α} {mask : List Bool} (hf : mask.count false = 0) :
    getDecision L e X mask = .ok (.one (X.map (fun _ => 1))) := by
  unfold getDecision
  rw [if_neg (by omega)]

/-- Selection on the sources: growth by at most two. -/
theorem grow_source {L : Learner α β E K} {e : E} {k : Nat} {X : List α} {mask mask' : List Bool} {d : Dec K}
    (hl : mask.length = X.length) (hd : getDecision L e X mask = .ok d)
    (h : findPoints k mask d (X.map (fun _ => true)) = .ok mask') : Grow mask mask' := by
  obtain ⟨hlen, hmono⟩ := findPoints_grow h
  refine ⟨hlen.symm, hmono, ?_⟩
  by_cases hf : 0 < mask.count false
  · rw [getDecision_two hl hf] at hd
    injection hd with hd
    subst hd
    obtain ⟨i0, i1, hi⟩ := findPoints_two (by simp [hl]) (by simp [hl]) h
    exact ⟨i0, i1, fun j hj => (hi j hj).1⟩
  · rw [findPoints_none k mask _ d (Or.inr (by
      rintro ⟨i, hi, -⟩
      have := List.mem_of_getElem? hi
      rw [← List.count_pos_iff] at this
      omega))] at h
    injection h with h
    subst h
    exact ⟨0, 0, fun j hj => absurd rfl hj⟩

/-- The state of the loop and its history. -/
structure HInv (L : Learner α β E K) (Xs : List α) (Xt : List α) (s : St E) : Prop where
  del_len : s.del.length = Xs.length
  add_len : s.add.length = Xt.length
  est_last : s.ests.getLast? = some s.est
  del_last : s.dels.getLast? = some s.del
  add_last : s.adds.getLast? = some s.add
  len1 : s.dels.length = s.ests.length + 1
  len2 : s.adds.length = s.ests.length + 1
  del_first : s.dels.head? = some (Xs.map (fun _ => false))
  add_first : s.adds.head? = some (Xt.map (fun _ => false))
  chain : s.dels.IsChain Grow
  just : Justified L Xt s.ests s.adds

theorem isChain_snoc {γ : Type} {R : γ → γ → Prop} {l : List γ} {a b : γ} (h : l.IsChain R) (hl : l.getLast? = some a)
    (hr : R a b) : (l ++ [b]).IsChain R := by
  rw [List.isChain_append]
  refine ⟨h, by simp, ?_⟩
  intro x hx y hy
  rw [hl] at hx
  simp at hx hy
  subst hx; subst hy
  exact hr

theorem justified_snoc {L : Learner α β E K} {Xt : List α} {ests : List E} {adds : List (List Bool)} {e0 e : E}
    {a a' : List Bool} (h : Justified L Xt ests adds) (hlen : adds.length = ests.length + 1) (he : ests.getLast? = some e0)
    (ha : adds.getLast? = some a)
    (hnew : ∀ (j : Nat) (x : α), Xt[j]? = some x → a'[j]? = some true → InMargin L e x ∨ (a[j]? = some true ∧ L.predict e x = L.predict e0 x)) :
    Justified L Xt (ests ++ [e]) (adds ++ [a']) := by
  intro i j e' b b' x h1 h2 h3 h4 h5
  have hne : 0 < ests.length := by
    rcases ests with _ | ⟨c, l⟩
    · simp at he
    · simp
  rw [List.getLast?_eq_getElem?] at he ha
  by_cases hi : i < ests.length
  · rw [List.getElem?_append_left hi] at h1
    rw [List.getElem?_append_left (by omega)] at h2 h3
    rcases h i j e' b b' x h1 h2 h3 h4 h5 with hm | ⟨hm1, e1, hm2, hm3, hm4⟩
    · exact Or.inl hm
    · exact Or.inr ⟨hm1, e1, hm2, by rw [List.getElem?_append_left (by omega)]; exact hm3, hm4⟩
  · have hi2 : i = ests.length := by
      by_contra hc
      rw [List.getElem?_eq_none (by simp; omega)] at h1
      simp at h1
    subst hi2
    rw [List.getElem?_append_right (le_refl _)] at h1
    simp at h1
    subst h1
    rw [List.getElem?_append_left (by omega)] at h2
    rw [List.getElem?_append_right (by omega)] at h3
    have : ests.length + 1 - adds.length = 0 := by omega
    rw [this] at h3
    simp at h3
    subst h3
    have e1 : adds.length - 1 = ests.length := by omega
    rw [e1, h2] at ha
    injection ha with ha
    subst ha
    rcases hnew j x h4 h5 with hm | ⟨hm1, hm2⟩
    · exact Or.inl hm
    · exact Or.inr ⟨hm1, e0, hne, by rw [List.getElem?_append_left (by omega)]; exact he, hm2⟩

theorem init_inv {L : Learner α β E K} {k : Nat} {Xs : List α} {ys : List β} {Xt : List α} {s : St E}
    (h : dasvmInit L k Xs ys Xt = .ok s) : HInv L Xs Xt s ∧ L.fit Xs ys = .ok s.est ∧ s.ests = [s.est] := by
  unfold dasvmInit at h
  simp only [bind_ok_iff] at h
  obtain ⟨e, he, ds, hds, dt, hdt, del', hdel, mg, hmg, add', hadd, hs⟩ := h
  rw [batch_ok_iff] at hds hdt
  injection hs with hs
  subst hs
  obtain ⟨-, rfl⟩ := hds
  obtain ⟨-, rfl⟩ := hdt
  obtain ⟨g1, g2⟩ := findPoints_grow hdel
  obtain ⟨g3, g4⟩ := findPoints_grow hadd
  refine ⟨⟨by simpa using g1, by simpa using g3, rfl, rfl, rfl, rfl, rfl, rfl, rfl, ?_, ?_⟩, he, rfl⟩
  · simp only [List.isChain_cons_cons, List.isChain_singleton, and_true]
    obtain ⟨i0, i1, hi⟩ := findPoints_two (by simp) (by simp) hdel
    exact ⟨g1.symm, g2, i0, i1, fun j hj => (hi j hj).1⟩
  · intro i j e' a a' x h1 h2 h3 h4 h5
    have hi : i = 0 := by
      by_contra hc
      rw [List.getElem?_eq_none (by simp; omega)] at h1
      simp at h1
    subst hi
    simp at h1 h2 h3
    subst h1; subst h2; subst h3
    simp only [inMargin, Except.ok.injEq] at hmg
    obtain ⟨i0, i1, hi⟩ := findPoints_two (by simp) (by rw [← hmg]; simp) hadd
    have hj : j < Xt.length := by
      by_contra hc; rw [List.getElem?_eq_none (by omega)] at h4; simp at h4
    have := hi j (by rw [h5]; simp [hj])
    obtain ⟨-, ⟨-, hm⟩, -⟩ := this
    rw [← hmg] at hm
    simp only [List.getElem?_map, h4, Option.map_some, Option.some.injEq] at hm
    exact Or.inl ((inMargin_init _).1 hm)

theorem step_inv {L : Learner α β E K} {k : Nat} {Xs : List α} {ys : List β} {Xt : List α} {s s' : St E}
    (hi : HInv L Xs Xt s) (h : dasvmStep L k Xs ys Xt s = .ok s') :
    HInv L Xs Xt s' ∧ s'.ests = s.ests ++ [s'.est] := by
  unfold dasvmStep at h
  simp only [bind_ok_iff] at h
  obtain ⟨semi, hsemi, e, he, ds, hds, dt, hdt, del', hdel, mg, hmg, add', hadd, hs⟩ := h
  injection hs with hs
  subst hs
  set add := List.zipWith (fun a x => a && decide (L.predict e x = L.predict s.est x)) s.add Xt with hadd0
  have hal : add.length = Xt.length := by rw [hadd0, List.length_zipWith, hi.add_len, min_self]
  have g := grow_source hi.del_len hds hdel
  obtain ⟨g3, g4⟩ := findPoints_grow hadd
  refine ⟨⟨by rw [← g.1]; exact hi.del_len, by rw [g3, hal], by simp, by simp, by simp, by simp [hi.len1], by simp [hi.len2], ?_, ?_,
    isChain_snoc hi.chain hi.del_last g, ?_⟩, rfl⟩
  · have := hi.del_first
    cases hdl : s.dels with
    | nil => rw [hdl] at this; simp at this
    | cons a l => rw [hdl] at this; simpa using this
  · have := hi.add_first
    cases hdl : s.adds with
    | nil => rw [hdl] at this; simp at this
    | cons a l => rw [hdl] at this; simpa using this
  · apply justified_snoc hi.just hi.len2 hi.est_last hi.add_last
    intro j x hx hj
    have hjl : j < Xt.length := by
      by_contra hc; rw [List.getElem?_eq_none (by omega)] at hx; simp at hx
    by_cases hold : add[j]? = some true
    · right
      rw [hadd0, List.getElem?_zipWith, hx] at hold
      cases ha : s.add[j]? with
      | none => rw [ha] at hold; simp at hold
      | some a => rw [ha] at hold; simpa using hold
    · left
      by_cases hf : 0 < add.count false
      · rw [getDecision_two hal hf] at hdt
        injection hdt with hdt
        subst hdt
        simp only [inMargin, Except.ok.injEq] at hmg
        obtain ⟨i0, i1, hii⟩ := findPoints_two (by simp [hal]) (by rw [← hmg]; simp) hadd
        obtain ⟨-, ⟨hadm, hm⟩, -⟩ := hii j (by rw [hj]; exact fun h => hold h.symm)
        rw [← hmg] at hm
        simp only [List.getElem?_map, List.getElem?_zipWith, hadm, hx, Option.map_some, Option.some.injEq] at hm
        exact (inMargin_loop _).1 hm
      · exfalso
        rw [getDecision_one (by omega)] at hdt
        injection hdt with hdt
        subst hdt
        simp [inMargin] at hmg

theorem loop_inv {L : Learner α β E K} {k : Nat} {Xs : List α} {ys : List β} {Xt : List α} (n : Nat) {s s' : St E}
    (hi : HInv L Xs Xt s) (h : dasvmLoop L k Xs ys Xt n s = .ok s') :
    HInv L Xs Xt s' ∧ s.ests <+: s'.ests ∧ s'.ests.length ≤ s.ests.length + n ∧
      (s'.ests.length < s.ests.length + n → s'.margin.count true = 0) := by
  induction n generalizing s with
  | zero => injection h with h; subst h; exact ⟨hi, List.prefix_refl _, le_refl _, fun h => by omega⟩
  | succ n ih =>
    unfold dasvmLoop at h
    split at h
    · rename_i hm
      injection h with h; subst h; exact ⟨hi, List.prefix_refl _, by omega, fun _ => hm⟩
    · split at h
      · exact absurd h (by simp)
      · rename_i s1 hs1
        obtain ⟨h1, h2⟩ := step_inv hi hs1
        obtain ⟨h3, h4, h5, h6⟩ := ih h1 h
        rw [h2] at h4 h5 h6
        refine ⟨h3, (List.prefix_append _ _).trans h4, ?_, ?_⟩
        · simp at h5; omega
        · intro hlt; apply h6; simp; omega

/-- C74 (training). Whenever DASVM training returns, with source rows `Xs`, their labels `ys` and target rows `Xt`: the first
estimator is trained on the labelled sources only; the final one, used by `predict`, on the target rows only, labelled by the last
intermediate estimator; at most `max_iter - 1` rounds took place; the recorded sets of deleted source rows start empty and grow by at
most two rows per round; a target row is only ever used with a pseudo-label if it lies inside the margin of the current estimator or
kept the pseudo-label it already had. -/
theorem C74_training (L : Learner α β E K) (k maxIter : Nat) (X : List α) (y : List β) (sd : List Int) (f : Fitted E)
    (hX : X ≠ []) (hy : y.length = X.length) (hlen : sd.length = X.length)
    (h : dasvmFit L k maxIter X y (.vec sd) = .ok f) :
    ∃ (ests : List E) (last : E) (dels adds : List (List Bool)),
      f.ests = ests ++ [f.final] ∧ f.dels = dels ++ [(sourceRows sd X).map (fun _ => true)] ∧
      f.adds = adds ++ [(targetRows sd X).map (fun _ => true)] ∧
      ests.head? = some f.base ∧ L.fit (sourceRows sd X) (sourceRows sd y) = .ok f.base ∧
      ests.getLast? = some last ∧ L.fit (targetRows sd X) ((targetRows sd X).map (L.predict last)) = .ok f.final ∧
      ests.length ≤ 1 + (maxIter - 1) ∧ dels.length = ests.length + 1 ∧ adds.length = ests.length + 1 ∧
      dels.head? = some ((sourceRows sd X).map (fun _ => false)) ∧ dels.IsChain Grow ∧
      adds.head? = some ((targetRows sd X).map (fun _ => false)) ∧ Justified L (targetRows sd X) ests adds := by
  have hsd : sd ≠ [] := sd_ne hX hlen
  unfold dasvmFit at h
  rw [check_ok hX hlen] at h
  simp only [ok_bind] at h
  rw [splitX_ok hsd hlen, splitX_ok hsd (by omega)] at h
  simp only [ok_bind, bind_ok_iff] at h
  obtain ⟨s0, h0, s, hs, yt, hyt, e, he, hf⟩ := h
  injection hf with hf
  subst hf
  obtain ⟨i1, i2, i3⟩ := init_inv h0
  obtain ⟨l1, l2, l3, -⟩ := loop_inv _ i1 hs
  rw [batch_ok_iff] at hyt
  obtain ⟨-, rfl⟩ := hyt
  refine ⟨s.ests, s.est, s.dels, s.adds, rfl, rfl, rfl, ?_, i2, l1.est_last, he, ?_, l1.len1, l1.len2, l1.del_first, l1.chain,
    l1.add_first, l1.just⟩
  · obtain ⟨t, ht⟩ := l2
    rw [← ht, i3]; rfl
  · rw [i3] at l3; simpa using l3

/-! #### The rounds in detail -/

/-- The rows marked `true`, in order. -/
def Spec.marked {γ : Type} (mask : List Bool) (X : List γ) : List γ := ((mask.zip X).filter (fun r => r.1)).map Prod.snd

/-- The rows marked `false`, in order. -/
def Spec.unmarked {γ : Type} (mask : List Bool) (X : List γ) : List γ := ((mask.zip X).filter (fun r => !r.1)).map Prod.snd

/-- The first row with the smallest value of `f` among those satisfying `P`. -/
def Spec.FirstMin {γ : Type} (X : List γ) (P : Nat → γ → Prop) (f : γ → K) (i : Nat) : Prop :=
  ∃ x, X[i]? = some x ∧ P i x ∧ ∀ (j : Nat) (z : γ), X[j]? = some z → P j z → f x ≤ f z ∧ (f z = f x → i ≤ j)

/-- One selection: what was marked before stays marked; if `k ≥ 1` and some unmarked row is eligible, the eligible unmarked rows with the
smallest and the largest decision value (the first ones on ties) are marked too; nothing else. -/
def Spec.Selects (L : Learner α β E K) (e : E) (k : Nat) (X : List α) (old : Nat → Prop) (elig : α → Prop) (new : List Bool) : Prop :=
  new.length = X.length ∧
    (((k = 0 ∨ ¬ ∃ (j : Nat) (x : α), X[j]? = some x ∧ ¬ old j ∧ elig x) ∧
        ∀ j, j < X.length → (new[j]? = some true ↔ old j)) ∨
      (0 < k ∧ ∃ i0 i1, FirstMin X (fun j x => ¬ old j ∧ elig x) (L.decision e) i0 ∧
        FirstMin X (fun j x => ¬ old j ∧ elig x) (fun x => - L.decision e x) i1 ∧
        ∀ j, j < X.length → (new[j]? = some true ↔ old j ∨ j = i0 ∨ j = i1)))

/-- The rounds of a run: in round `i` the source rows to drop and the target rows to add are selected by the current estimator — target
rows whose pseudo-label changed are dropped again before — and the next estimator is trained on the source rows not dropped, with
their labels, and the added target rows, labelled by the current estimator. -/
def Spec.Rounds (L : Learner α β E K) (k : Nat) (Xs : List α) (ys : List β) (Xt : List α) (ests : List E)
    (dels adds : List (List Bool)) : Prop :=
  ∀ (i : Nat) (e : E), ests[i]? = some e → ∃ dl dl' ad ad', dels[i]? = some dl ∧ dels[i + 1]? = some dl' ∧
    adds[i]? = some ad ∧ adds[i + 1]? = some ad' ∧
    Selects L e k Xs (fun j => dl[j]? = some true) (fun _ => True) dl' ∧
    Selects L e k Xt (fun j => ad[j]? = some true ∧ ∀ e0 x, 0 < i → ests[i - 1]? = some e0 → Xt[j]? = some x →
      L.predict e x = L.predict e0 x) (InMargin L e) ad' ∧
    ∀ e', ests[i + 1]? = some e' →
      L.fit (unmarked dl' Xs ++ marked ad' Xt) (unmarked dl' ys ++ (marked ad' Xt).map (L.predict e)) = .ok e'

theorem sel_marked {γ : Type} (mask : List Bool) (X : List γ) : sel mask X = marked mask X := by
  have := sel_map (fun b : Bool => b) mask X
  simpa [marked] using this

theorem sel_unmarked {γ : Type} (mask : List Bool) (X : List γ) : sel (mask.map (!·)) X = unmarked mask X :=
  sel_map (fun b : Bool => !b) mask X

/-- From the model's selection to the specification. -/
theorem selects_of_findPoints {L : Learner α β E K} {e : E} {k : Nat} {X : List α} {mask cond new : List Bool} {rows : List (K × K)}
    (elig : α → Prop) (f g : K → K) (h1 : mask.length = X.length) (hr : rows.length = X.length) (hc : cond.length = X.length)
    (hcond : ∀ (j : Nat) (x : α), X[j]? = some x → mask[j]? = some false → (cond[j]? = some true ↔ elig x))
    (hrow : ∀ (j : Nat) (x : α), X[j]? = some x → mask[j]? = some false → elig x →
      rows[j]? = some (f (L.decision e x), g (L.decision e x)))
    (hf : ∀ x z, elig x → elig z → (f (L.decision e z) ≤ f (L.decision e x) → L.decision e x ≤ L.decision e z))
    (hg : ∀ x z, elig x → elig z → (g (L.decision e z) ≤ g (L.decision e x) → L.decision e z ≤ L.decision e x))
    (h : findPoints k mask (.two rows) cond = .ok new) :
    Selects L e k X (fun j => mask[j]? = some true) elig new := by
  have hmask : ∀ j, j < X.length → (mask[j]? = some false ↔ ¬ mask[j]? = some true) := by
    intro j hj
    rw [List.getElem?_eq_getElem (by omega)]
    simp
  have hadm : ∀ (j : Nat) (x : α), X[j]? = some x → (Adm mask cond j ↔ (¬ mask[j]? = some true ∧ elig x)) := by
    intro j x hx
    have hj : j < X.length := by
      by_contra hc; rw [List.getElem?_eq_none (by omega)] at hx; simp at hx
    unfold Adm
    rw [← hmask j hj]
    constructor
    · rintro ⟨a, b⟩; exact ⟨a, (hcond j x hx a).1 b⟩
    · rintro ⟨a, b⟩; exact ⟨a, (hcond j x hx a).2 b⟩
  have hadmlt : ∀ j, Adm mask cond j → ∃ x, X[j]? = some x := by
    intro j hj
    have : j < X.length := by
      by_contra hc; have := hj.1; rw [List.getElem?_eq_none (by omega)] at this; simp at this
    exact ⟨_, List.getElem?_eq_getElem this⟩
  by_cases hno : k = 0 ∨ ¬ ∃ i, Adm mask cond i
  · rw [findPoints_none k mask cond _ hno] at h
    injection h with h
    subst h
    refine ⟨h1, Or.inl ⟨?_, fun j _ => Iff.rfl⟩⟩
    rcases hno with hno | hno
    · exact Or.inl hno
    · right
      rintro ⟨j, x, hx, h2⟩
      exact hno ⟨j, (hadm j x hx).2 h2⟩
  · rw [not_or, not_not] at hno
    obtain ⟨i0, i1, m, hm, hl, hb0, hb1, hv⟩ := findPoints_spec k mask cond rows (Nat.pos_of_ne_zero hno.1) (by omega) (by omega) hno.2
    rw [hm] at h
    injection h with h
    subst h
    refine ⟨by omega, Or.inr ⟨Nat.pos_of_ne_zero hno.1, i0, i1, ?_, ?_, ?_⟩⟩
    · obtain ⟨ha, v, hv0, hbest⟩ := hb0
      obtain ⟨x, hx⟩ := hadmlt i0 ha
      have hax := (hadm i0 x hx).1 ha
      refine ⟨x, hx, hax, ?_⟩
      intro j z hz hpz
      have haz := (hadm j z hz).2 hpz
      rw [List.getElem?_map, hrow i0 x hx ha.1 hax.2] at hv0
      simp only [Option.map_some, Option.some.injEq] at hv0
      obtain ⟨b1, b2⟩ := hbest j (f (L.decision e z)) haz (by rw [List.getElem?_map, hrow j z hz haz.1 hpz.2]; rfl)
      rw [← hv0] at b1 b2
      refine ⟨hf x z hax.2 hpz.2 b1, fun he => b2 (by rw [he])⟩
    · obtain ⟨ha, v, hv0, hbest⟩ := hb1
      obtain ⟨x, hx⟩ := hadmlt i1 ha
      have hax := (hadm i1 x hx).1 ha
      refine ⟨x, hx, hax, ?_⟩
      intro j z hz hpz
      have haz := (hadm j z hz).2 hpz
      rw [List.getElem?_map, hrow i1 x hx ha.1 hax.2] at hv0
      simp only [Option.map_some, Option.some.injEq] at hv0
      obtain ⟨b1, b2⟩ := hbest j (g (L.decision e z)) haz (by rw [List.getElem?_map, hrow j z hz haz.1 hpz.2]; rfl)
      rw [← hv0] at b1 b2
      refine ⟨by have := hg x z hax.2 hpz.2 b1; linarith, fun he => b2 (by rw [neg_inj.1 he])⟩
    · intro j hj
      rw [hv j (by omega)]
      split
      · rename_i hij; simp [hij]
      · rename_i hij
        constructor
        · exact Or.inl
        · rintro (hh | hh)
          · exact hh
          · exact absurd hh hij

/-- Selection with the decision array of the loop. -/
theorem selects_loop {L : Learner α β E K} {e : E} {k : Nat} {X : List α} {mask cond new : List Bool} {d : Dec K}
    (elig : α → Prop) (h1 : mask.length = X.length) (hd : getDecision L e X mask = .ok d) (hc : cond.length = X.length)
    (hcond : ∀ (j : Nat) (x : α), X[j]? = some x → mask[j]? = some false → (cond[j]? = some true ↔ elig x))
    (h : findPoints k mask d cond = .ok new) : Selects L e k X (fun j => mask[j]? = some true) elig new := by
  by_cases hf : 0 < mask.count false
  · rw [getDecision_two h1 hf] at hd
    injection hd with hd
    subst hd
    refine selects_of_findPoints elig (fun v => -v + 1) (fun v => v + 1) h1 (by simp [h1]) hc hcond ?_ ?_ ?_ h
    · intro j x hx hm _
      simp [List.getElem?_zipWith, hx, hm]
    · intro x z _ _ hh; linarith
    · intro x z _ _ hh; linarith
  · have hall : ∀ j, j < X.length → mask[j]? = some true := by
      intro j hj
      rw [List.getElem?_eq_getElem (by omega)]
      cases hb : mask[j]'(by omega) with
      | true => rfl
      | false =>
        exfalso
        apply hf
        rw [List.count_pos_iff, ← hb]
        exact List.getElem_mem _
    have hno : ¬ ∃ i, Adm mask cond i := by
      rintro ⟨i, hi, -⟩
      have := List.mem_of_getElem? hi
      rw [← List.count_pos_iff] at this
      omega
    rw [findPoints_none k mask cond d (Or.inr hno)] at h
    injection h with h
    subst h
    refine ⟨h1, Or.inl ⟨Or.inr ?_, fun j _ => Iff.rfl⟩⟩
    rintro ⟨j, x, hx, h2, -⟩
    have hj : j < X.length := by
      by_contra hc; rw [List.getElem?_eq_none (by omega)] at hx; simp at hx
    exact h2 (hall j hj)

theorem selects_congr {L : Learner α β E K} {e : E} {k : Nat} {X : List α} {old old' : Nat → Prop} {elig : α → Prop} {new : List Bool}
    (h : Selects L e k X old elig new) (ho : ∀ j, j < X.length → (old j ↔ old' j)) : Selects L e k X old' elig new := by
  have hlt : ∀ (j : Nat) (x : α), X[j]? = some x → j < X.length := by
    intro j x hx; by_contra hc; rw [List.getElem?_eq_none (by omega)] at hx; simp at hx
  have hfm : ∀ (f : α → K) i, FirstMin X (fun j x => ¬ old j ∧ elig x) f i → FirstMin X (fun j x => ¬ old' j ∧ elig x) f i := by
    rintro f i ⟨x, hx, ⟨a, b⟩, hb⟩
    refine ⟨x, hx, ⟨by rw [← ho i (hlt i x hx)]; exact a, b⟩, fun j z hz hp => hb j z hz ⟨?_, hp.2⟩⟩
    rw [ho j (hlt j z hz)]; exact hp.1
  refine ⟨h.1, ?_⟩
  rcases h.2 with ⟨a, b⟩ | ⟨hk, i0, i1, a, b, c⟩
  · refine Or.inl ⟨?_, fun j hj => (b j hj).trans (ho j hj)⟩
    rcases a with a | a
    · exact Or.inl a
    · right
      rintro ⟨j, x, hx, h2, h3⟩
      exact a ⟨j, x, hx, by rw [ho j (hlt j x hx)]; exact h2, h3⟩
  · exact Or.inr ⟨hk, i0, i1, hfm _ _ a, hfm _ _ b, fun j hj => (c j hj).trans (or_congr_left (ho j hj))⟩

/-- The rounds so far, and the masks the next estimator will be trained with. -/
theorem init_rounds {L : Learner α β E K} {k : Nat} {Xs : List α} {ys : List β} {Xt : List α} {s : St E}
    (h : dasvmInit L k Xs ys Xt = .ok s) : Rounds L k Xs ys Xt s.ests s.dels s.adds := by
  unfold dasvmInit at h
  simp only [bind_ok_iff] at h
  obtain ⟨e, he, ds, hds, dt, hdt, del', hdel, mg, hmg, add', hadd, hs⟩ := h
  rw [batch_ok_iff] at hds hdt
  injection hs with hs
  subst hs
  obtain ⟨-, rfl⟩ := hds
  obtain ⟨-, rfl⟩ := hdt
  intro i e' hi
  have hi0 : i = 0 := by
    by_contra hc; rw [List.getElem?_eq_none (by simp; omega)] at hi; simp at hi
  subst hi0
  simp at hi
  subst hi
  refine ⟨_, _, _, _, rfl, rfl, rfl, rfl, ?_, ?_, fun e' he' => by simp at he'⟩
  · refine selects_of_findPoints (fun _ => True) (fun v => -v) (fun v => v) (by simp) (by simp) (by simp) ?_ ?_ ?_ ?_ hdel
    · intro j x hx _; simp only [List.getElem?_map, hx, Option.map_some]
    · intro j x hx _ _; simp [hx]
    · intro x z _ _ hh; simpa using hh
    · intro x z _ _ hh; exact hh
  · simp only [inMargin, Except.ok.injEq] at hmg
    have hs : Selects L e k Xt (fun j => (Xt.map (fun _ => false))[j]? = some true) (InMargin L e) add' := by
      refine selects_of_findPoints (InMargin L e) (fun v => -|-v - 2 + 1|) (fun v => -|v - 2 + 1|) (by simp) (by simp)
        (by rw [← hmg]; simp) ?_ ?_ ?_ ?_ hadd
      · intro j x hx _
        rw [← hmg]
        simp only [List.getElem?_map, hx, Option.map_some, Option.some.injEq]
        exact inMargin_init _
      · intro j x hx _ _; simp [hx]
      · intro x z hx hz hh
        have h1 := abs_lt.1 hx.2
        have h2 := abs_lt.1 hz.2
        rw [abs_of_neg (by linarith : -L.decision e z - 2 + 1 < 0), abs_of_neg (by linarith : -L.decision e x - 2 + 1 < 0)] at hh
        linarith
      · intro x z hx hz hh
        have h1 := abs_lt.1 hx.2
        have h2 := abs_lt.1 hz.2
        rw [abs_of_neg (by linarith : L.decision e z - 2 + 1 < 0), abs_of_neg (by linarith : L.decision e x - 2 + 1 < 0)] at hh
        linarith
    refine selects_congr hs (fun j hj => ?_)
    simp

theorem step_rounds {L : Learner α β E K} {k : Nat} {Xs : List α} {ys : List β} {Xt : List α} {s s' : St E}
    (hi : HInv L Xs Xt s) (hr : Rounds L k Xs ys Xt s.ests s.dels s.adds) (h : dasvmStep L k Xs ys Xt s = .ok s') :
    Rounds L k Xs ys Xt s'.ests s'.dels s'.adds := by
  unfold dasvmStep at h
  simp only [bind_ok_iff] at h
  obtain ⟨semi, hsemi, e, he, ds, hds, dt, hdt, del', hdel, mg, hmg, add', hadd, hs⟩ := h
  injection hs with hs
  subst hs
  rw [batch_ok_iff] at hsemi
  obtain ⟨-, rfl⟩ := hsemi
  set add := List.zipWith (fun a x => a && decide (L.predict e x = L.predict s.est x)) s.add Xt with hadd0
  have hal : add.length = Xt.length := by rw [hadd0, List.length_zipWith, hi.add_len, min_self]
  have hne : 0 < s.ests.length := by
    have := hi.est_last
    rcases hes : s.ests with _ | ⟨c, l⟩
    · rw [hes] at this; simp at this
    · simp
  have hlast := hi.est_last
  have hdl := hi.del_last
  have had := hi.add_last
  have hlen1 := hi.len1
  have hlen2 := hi.len2
  rw [List.getLast?_eq_getElem?] at hlast hdl had
  have e1 : s.dels.length - 1 = s.ests.length := by omega
  have e2 : s.adds.length - 1 = s.ests.length := by omega
  rw [e1] at hdl
  rw [e2] at had
  intro i e' h1
  simp only at h1 ⊢
  by_cases hlt : i < s.ests.length
  · rw [List.getElem?_append_left hlt] at h1
    obtain ⟨dl, dl', ad, ad', a1, a2, a3, a4, a5, a6, a7⟩ := hr i e' h1
    refine ⟨dl, dl', ad, ad', ?_, ?_, ?_, ?_, a5, ?_, ?_⟩
    · rw [List.getElem?_append_left (by omega)]; exact a1
    · rw [List.getElem?_append_left (by omega)]; exact a2
    · rw [List.getElem?_append_left (by omega)]; exact a3
    · rw [List.getElem?_append_left (by omega)]; exact a4
    · refine selects_congr a6 (fun j hj => ?_)
      rw [List.getElem?_append_left (by omega)]
    · intro e2' h2
      by_cases hlt2 : i + 1 < s.ests.length
      · rw [List.getElem?_append_left hlt2] at h2
        exact a7 e2' h2
      · have hi1 : i + 1 = s.ests.length := by omega
        rw [hi1, List.getElem?_append_right (le_refl _)] at h2
        simp at h2
        subst h2
        rw [hi1, hdl] at a2
        rw [hi1, had] at a4
        injection a2 with a2
        injection a4 with a4
        subst a2; subst a4
        have : i = s.ests.length - 1 := by omega
        rw [this, hlast] at h1
        injection h1 with h1
        subst h1
        rw [← sel_unmarked, ← sel_unmarked, ← sel_marked]
        exact he
  · have hi2 : i = s.ests.length := by
      by_contra hc
      rw [List.getElem?_eq_none (by simp; omega)] at h1
      simp at h1
    subst hi2
    rw [List.getElem?_append_right (le_refl _)] at h1
    simp at h1
    subst h1
    refine ⟨s.del, del', s.add, add', ?_, ?_, ?_, ?_, ?_, ?_, ?_⟩
    · rw [List.getElem?_append_left (by omega)]; exact hdl
    · rw [List.getElem?_append_right (by omega), hlen1]; simp
    · rw [List.getElem?_append_left (by omega)]; exact had
    · rw [List.getElem?_append_right (by omega), hlen2]; simp
    · exact selects_loop (fun _ => True) hi.del_len hds (by simp) (fun j x hx _ => by simp only [List.getElem?_map, hx, Option.map_some]) hdel
    · have hmlen : mg.length = Xt.length ∧ ∀ (j : Nat) (x : α), Xt[j]? = some x → add[j]? = some false →
          (mg[j]? = some true ↔ InMargin L e x) := by
        by_cases hf : 0 < add.count false
        · rw [getDecision_two hal hf] at hdt
          injection hdt with hdt
          subst hdt
          simp only [inMargin, Except.ok.injEq] at hmg
          subst hmg
          refine ⟨by simp [hal], fun j x hx hj => ?_⟩
          simp only [List.getElem?_map, List.getElem?_zipWith, hj, hx, Option.map_some, Option.some.injEq]
          exact inMargin_loop _
        · exfalso
          rw [getDecision_one (by omega)] at hdt
          injection hdt with hdt
          subst hdt
          simp [inMargin] at hmg
      refine selects_congr (selects_loop (InMargin L e) hal hdt hmlen.1 hmlen.2 hadd) (fun j hj => ?_)
      rw [List.getElem?_append_left (by omega), hlast, hadd0, List.getElem?_zipWith,
        List.getElem?_eq_getElem (l := s.add) (i := j) (by rw [hi.add_len]; exact hj), List.getElem?_eq_getElem (l := Xt) hj]
      simp only [Option.some.injEq, Bool.and_eq_true, decide_eq_true_eq]
      apply and_congr_right
      intro _
      constructor
      · rintro hp e0 x _ rfl rfl; exact hp
      · intro hp; exact hp _ _ hne rfl rfl
    · intro e2' h2
      rw [List.getElem?_eq_none (by simp)] at h2
      simp at h2

theorem loop_rounds {L : Learner α β E K} {k : Nat} {Xs : List α} {ys : List β} {Xt : List α} (n : Nat) {s s' : St E}
    (hi : HInv L Xs Xt s) (hr : Rounds L k Xs ys Xt s.ests s.dels s.adds) (h : dasvmLoop L k Xs ys Xt n s = .ok s') :
    Rounds L k Xs ys Xt s'.ests s'.dels s'.adds := by
  induction n generalizing s with
  | zero => injection h with h; subst h; exact hr
  | succ n ih =>
    unfold dasvmLoop at h
    split at h
    · injection h with h; subst h; exact hr
    · split at h
      · exact absurd h (by simp)
      · rename_i s1 hs1
        exact ih (step_inv hi hs1).1 (step_rounds hi hr hs1) h

/-- C74 (rounds). Whenever DASVM training returns, every round is as specified: exactly the kept source row with the smallest and the one
with the largest decision value is dropped, exactly the unused target row inside the margin with the smallest and the one with the
largest decision value is added (target rows whose pseudo-label changed leave first), and the next estimator is trained on exactly
the kept source rows with their labels and the added target rows with the pseudo-labels of the current estimator. -/
theorem C74_rounds (L : Learner α β E K) (k maxIter : Nat) (X : List α) (y : List β) (sd : List Int) (f : Fitted E)
    (hX : X ≠ []) (hy : y.length = X.length) (hlen : sd.length = X.length)
    (h : dasvmFit L k maxIter X y (.vec sd) = .ok f) :
    Rounds L k (sourceRows sd X) (sourceRows sd y) (targetRows sd X) f.ests.dropLast f.dels.dropLast f.adds.dropLast := by
  have hsd : sd ≠ [] := sd_ne hX hlen
  unfold dasvmFit at h
  rw [check_ok hX hlen] at h
  simp only [ok_bind] at h
  rw [splitX_ok hsd hlen, splitX_ok hsd (by omega)] at h
  simp only [ok_bind, bind_ok_iff] at h
  obtain ⟨s0, h0, s, hs, yt, hyt, e, he, hf⟩ := h
  injection hf with hf
  subst hf
  simp only [List.dropLast_concat]
  exact loop_rounds _ (init_inv h0).1 (init_rounds h0) hs

/-- C74 (negation: probabilities). `predict_proba` answers with the estimator trained on the sources, `predict` with the final one.  Here
the state of an estimator is its training labels' first entry, the prediction of every row; the two methods report different models. -/
theorem C74_proba_counterexample :
    ∃ (L : Learner ℚ Bool (ℚ × Bool) ℚ) (X : List ℚ) (y : List Bool) (sd : List Int) (f : Fitted (ℚ × Bool)) (x : ℚ),
      dasvmFit L 3 100 X y (.vec sd) = .ok f ∧ dasvmPredict L f x = true ∧
        dasvmPredictProba (fun e x => if L.predict e x then (1 : ℚ) else 0) f x = 0 :=
  ⟨⟨fun X y => .ok (X.sum / X.length, (y.head?).getD false), fun e x => decide (e.1 ≤ x), fun e x => x - e.1⟩,
    [0, 10, 2, 4], [false, true, false, false], [1, 1, -2, -2], ⟨(3, false), (5, false), [(5, false), (3, false)],
      [[false, false], [true, true], [true, true]], [[false, false], [false, false], [true, true]]⟩, 4,
    by decide +kernel, by decide +kernel, by decide +kernel⟩

/-- C74 (negation: every target row used). Once every target row carries a pseudo-label that the next estimator confirms, the next round
fails with `AxisError`, whatever the data and the estimator are. -/
theorem C74_axis_error (L : Learner α β E K) (k : Nat) (Xs : List α) (ys : List β) (Xt : List α) (s : St E) (e : E)
    (hdel : s.del.length = Xs.length) (hadd : s.add = Xt.map (fun _ => true)) (hXt : Xt ≠ [])
    (hfit : L.fit (sel (s.del.map (!·)) Xs ++ Xt) (sel (s.del.map (!·)) ys ++ Xt.map (L.predict s.est)) = .ok e)
    (hagree : ∀ x ∈ Xt, L.predict e x = L.predict s.est x) :
    dasvmStep L k Xs ys Xt s = .error .axisError := by
  have hsel : sel s.add Xt = Xt := by
    rw [hadd, sel_map_self]; simp
  have hz : List.zipWith (fun a x => a && decide (L.predict e x = L.predict s.est x)) s.add Xt = Xt.map (fun _ => true) := by
    rw [hadd, List.zipWith_map_left, List.zipWith_self]
    apply List.map_congr_left
    intro x hx
    simp [hagree x hx]
  have hc : (Xt.map (fun _ => true)).count false = 0 := by
    rw [List.count_eq_zero]; simp
  unfold dasvmStep
  rw [hsel, batch_ok hXt]
  simp only [ok_bind, hfit, hz]
  rw [getDecision_one hc]
  have hsrc : ∃ d del', getDecision L e Xs s.del = .ok d ∧ findPoints k s.del d (Xs.map (fun _ => true)) = .ok del' := by
    by_cases hf : 0 < s.del.count false
    · refine ⟨.two ((List.zipWith (fun a x => if a then 1 else L.decision e x) s.del Xs).map (fun x => (-x + 1, x + 1))), ?_⟩
      rw [getDecision_two hdel hf]
      by_cases hk : 0 < k
      · have hne : ∃ i, Adm s.del (Xs.map (fun _ => true)) i := by
          rw [List.count_pos_iff] at hf
          obtain ⟨i, hi, he⟩ := List.getElem_of_mem hf
          exact ⟨i, by rw [List.getElem?_eq_getElem hi, he], by rw [List.getElem?_map, List.getElem?_eq_getElem (by omega)]; rfl⟩
        obtain ⟨-, -, m, hm, -⟩ := findPoints_spec k s.del (Xs.map (fun _ => true))
          ((List.zipWith (fun a x => if a then 1 else L.decision e x) s.del Xs).map (fun x => (-x + 1, x + 1))) hk
          (by simp [hdel]) (by simp [hdel]) hne
        exact ⟨m, rfl, hm⟩
      · exact ⟨s.del, rfl, findPoints_none k _ _ _ (Or.inl (by omega))⟩
    · refine ⟨_, s.del, getDecision_one (by omega), findPoints_none k _ _ _ (Or.inr ?_)⟩
      rintro ⟨i, hi, -⟩
      have := List.mem_of_getElem? hi
      rw [← List.count_pos_iff] at this
      omega
  obtain ⟨d, del', h1, h2⟩ := hsrc
  rw [h1]
  simp only [ok_bind, h2, inMargin, err_bind]

/-- C74 (negation, a full run). One target row inside the margin: fitting raises `AxisError`. -/
theorem C74_axis_counterexample :
    ∃ (L : Learner ℚ Bool ℚ ℚ) (X : List ℚ) (y : List Bool) (sd : List Int),
      dasvmFit L 3 1000 X y (.vec sd) = .error .axisError :=
  ⟨⟨fun X _ => .ok (X.sum / X.length), fun e x => decide (e ≤ x), fun e x => x - e⟩,
    [0, 10, 11 / 2], [false, true, false], [1, 1, -2], by decide +kernel⟩

/-- C74 (`k = 0`). With `k = 0`, a target row inside the margin and at least one round, fitting raises `ValueError` (the pseudo-labels of an
empty set are requested). -/
theorem C74_k_zero (L : Learner α β E K) (maxIter : Nat) (X : List α) (y : List β) (sd : List Int) (e : E) (x : α)
    (hX : X ≠ []) (hy : y.length = X.length) (hlen : sd.length = X.length) (hm : 1 < maxIter) (hs : 0 < nSource sd)
    (he : L.fit (sourceRows sd X) (sourceRows sd y) = .ok e) (hx : x ∈ targetRows sd X) (hin : InMargin L e x) :
    dasvmFit L 0 maxIter X y (.vec sd) = .error .valueError := by
  have hsd : sd ≠ [] := sd_ne hX hlen
  have hXt : targetRows sd X ≠ [] := List.ne_nil_of_mem hx
  have hXs : sourceRows sd X ≠ [] := sourceRows_ne hlen hs
  unfold dasvmFit
  rw [check_ok hX hlen]
  simp only [ok_bind]
  rw [splitX_ok hsd hlen, splitX_ok hsd (by omega)]
  simp only [ok_bind]
  have hinit : ∃ s, dasvmInit L 0 (sourceRows sd X) (sourceRows sd y) (targetRows sd X) = .ok s ∧
      s.add = (targetRows sd X).map (fun _ => false) ∧ s.margin.count true ≠ 0 := by
    unfold dasvmInit
    rw [he]
    simp only [ok_bind]
    rw [batch_ok hXs, batch_ok hXt]
    simp only [ok_bind, inMargin, findPoints_none 0 _ _ _ (Or.inl rfl)]
    refine ⟨_, rfl, rfl, ?_⟩
    simp only
    have : true ∈ (((targetRows sd X).map (L.decision e)).map (fun x => (-x, x))).map (fun p : K × K =>
        (decide (p.1 < 1) && decide (0 < p.1)) || (decide (p.2 < 1) && decide (0 < p.2))) := by
      rw [List.map_map, List.map_map, List.mem_map]
      exact ⟨x, hx, (inMargin_init _).2 hin⟩
    rw [← List.count_pos_iff] at this
    omega
  obtain ⟨s, h1, h2, h3⟩ := hinit
  rw [h1]
  simp only [ok_bind]
  obtain ⟨n, hn⟩ : ∃ n, maxIter - 1 = n + 1 := ⟨maxIter - 2, by omega⟩
  have hstep : dasvmStep L 0 (sourceRows sd X) (sourceRows sd y) (targetRows sd X) s = .error .valueError := by
    unfold dasvmStep
    have : sel s.add (targetRows sd X) = [] := by
      rw [h2, sel_map_self]; simp
    rw [this]
    rfl
  rw [hn, dasvmLoop, if_neg h3, hstep]
  rfl

/-- A run with two rounds: sources at 0 and 10, targets at 4, 20 and 9/2. -/
example : (dasvmFit (⟨fun X _ => .ok (X.sum / X.length), fun e x => decide (e ≤ x), fun e x => (x - e) / 4⟩ :
    Learner ℚ Bool ℚ ℚ) 1 1000 [0, 10, 4, 20, 9 / 2] [false, true, false, false, false] (.vec [1, 1, -2, -2, -2])).map (fun f => (f.ests, f.adds)) =
    .ok ([5, 17 / 4, 17 / 4, 19 / 2],
      [[false, false, false], [true, false, true], [true, false, true], [true, false, true], [true, true, true]]) := by
  decide +kernel

end Training

end Skada

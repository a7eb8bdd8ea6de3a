import Verif.Lemmas.Rng

namespace Skada.Rng

open Skada.Spec

variable {γ R A B : Type}

theorem mapM_ok_map {T U : Type} {f : T → Py U} : ∀ {l : List T} {r : List U}, l.mapM f = .ok r → l.map f = r.map .ok
  | [], r, h => by
    rw [List.mapM_nil] at h
    cases h
    rfl
  | t :: ts, r, h => by
    rw [List.mapM_cons] at h
    rcases ht : f t with e | u
    · rw [ht] at h; cases h
    · rw [ht] at h
      rcases hts : ts.mapM f with e | us
      · rw [hts] at h; cases h
      · rw [hts] at h
        cases h
        simp [ht, mapM_ok_map hts]

/-- The folds of a generator object with a generator of its own. -/
def outs (np : Numpy γ) (s : Int) : List (Stage γ) → γ → List (Py Fold)
  | [], _ => []
  | (again, m) :: rest, g =>
    (m (if again then np.seeded s else g)).1 :: outs np s rest (m (if again then np.seeded s else g)).2

theorem run_own {np : Numpy γ} {s : Int} (hs : 0 ≤ s ∧ s < 4294967296) (n : Nat) :
    ∀ (stages : List (Stage γ)) (g : γ) (w : World γ) (folds : List Fold), outs np s stages g = folds.map .ok →
      (run (R := R) np { w with its := Function.update w.its n (some (.running (.int s) stages (.own g))) }
        (List.replicate (folds.length + 1) (.next n))).1 = folds.map (fun f => .got (.fold f)) ++ [.got .stop] := by
  intro stages
  induction stages with
  | nil =>
    intro g w folds h
    cases folds with
    | cons f fs => simp [outs] at h
    | nil => simp [run, Op.exec, Iter.next, advance]
  | cons st rest ih =>
    intro g w folds h
    obtain ⟨again, m⟩ := st
    cases folds with
    | nil => simp [outs] at h
    | cons f fs =>
      simp only [outs, List.map_cons, List.cons.injEq] at h
      obtain ⟨h1, h2⟩ := h
      have hsrc : (if again then checkRandomState np (.int s) else .ok (.own g)) = .ok (Src.own (if again then np.seeded s else g)) := by
        cases again
        · rfl
        · simp [checkRandomState, hs]
      have hex : (Op.next (γ := γ) (R := R) n).exec np { w with its := Function.update w.its n (some (.running (.int s) ((again, m) :: rest) (.own g))) } =
          (.got (.fold f), { w with its := Function.update w.its n (some (.running (.int s) rest
            (.own (m (if again then np.seeded s else g)).2))) }) := by
        simp only [Op.exec, Function.update_self, Iter.next, advance, hsrc, Src.run, h1, Function.update_idem]
      rw [List.length_cons, List.replicate_succ]
      simp only [run]
      rw [hex]
      simp only [List.map_cons, List.cons_append]
      rw [ih _ w fs h2]

theorem run_split {np : Numpy γ} {s : Int} (hs : 0 ≤ s ∧ s < 4294967296) (n : Nat) (c : SplitCall) (hc : c.seed = .int s) (w : World γ)
    (stages : List (Stage γ)) (g : γ) (hst : ∀ w, start np c w = (.ok (stages, .own g), w)) (folds : List Fold) (h : outs np s stages g = folds.map .ok) :
    (run (R := R) np w (.split n c :: List.replicate (folds.length + 1) (.next n))).1 =
      .nothing :: folds.map (fun f => .got (.fold f)) ++ [.got .stop] := by
  have := run_own (R := R) hs n stages g w folds h
  rw [List.replicate_succ] at this ⊢
  simp only [run] at this ⊢
  rw [List.cons_append, ← this]
  have hex : (Op.next (γ := γ) (R := R) n).exec np (Op.exec (R := R) np (.split n c) w).2 =
      (Op.next n).exec np { w with its := Function.update w.its n (some (.running (.int s) stages (.own g))) } := by
    simp only [Op.exec, Function.update_self, Iter.next, hst, hc]
    cases stages with
    | nil => simp [advance]
    | cons st rest =>
      obtain ⟨again, m⟩ := st
      have hsrc : (if again then checkRandomState np (.int s) else .ok (.own g)) = .ok (Src.own (if again then np.seeded s else g)) := by
        cases again
        · rfl
        · simp [checkRandomState, hs]
      simp only [advance, hsrc, Src.run]
      rcases (m (if again then np.seeded s else g)).1 with e | f
      · simp only [Function.update_idem]
      · simp only [Function.update_idem]
  rw [hex]
  rfl

theorem outs_st (np : Numpy γ) (s : Int) (sd : List Int) (sizes : (Nat × Nat) × (Nat × Nat)) :
    ∀ (k : Nat) (g : γ), outs np s (List.replicate k (false, stBody np sd sizes)) g =
      (pairs np (sourceIdx sd).length (targetIdx sd).length k g).map (fun d => stFold sd sizes d.1 d.2)
  | 0, _ => rfl
  | k + 1, g => by
    rw [List.replicate_succ]
    simp only [outs, pairs, List.map_cons]
    exact congrArg₂ _ rfl (outs_st np s sd sizes k _)

theorem outs_again (np : Numpy γ) (s : Int) {T : Type} (f : T → Draw γ (Py Fold)) :
    ∀ (l : List T) (g : γ), outs np s (l.map (fun t => (true, f t))) g = l.map (fun t => (f t (np.seeded s)).1)
  | [], _ => rfl
  | t :: ts, g => by
    simp only [List.map_cons, outs, if_true]
    exact congrArg₂ _ rfl (outs_again np s f ts _)

theorem check_vec {α : Type} {X a : List α} {l b : List Int} (h : checkXDomain X (.vec l) {} = .ok (a, b)) : a = X ∧ b = l := by
  unfold checkXDomain at h
  by_cases hX : X = []
  · rw [if_pos hX] at h; cases h
  rw [if_neg hX] at h
  simp only at h
  rcases he : extractSourceIndices l with e | x
  · rw [he] at h; cases h
  rw [he] at h
  simp only at h
  by_cases hl : X.length ≠ l.length
  · rw [if_pos hl] at h; cases h
  rw [if_neg hl] at h
  simp only [Bool.false_eq_true, if_false] at h
  rcases hf : checkFlags {} l with e | x
  · rw [hf] at h; cases h
  · rw [hf] at h; cases h; exact ⟨rfl, rfl⟩

theorem take_getD {α : Type} (d : α) {a : List α} : ∀ {idx : List Nat} {r : List α}, Np.take a idx = .ok r → r = idx.map (fun i => a.getD i d)
  | [], r, h => by cases h; rfl
  | i :: idx, r, h => by
    unfold Np.take at h
    rcases hi : a[i]? with _ | x
    · rw [hi] at h; cases h
    rw [hi] at h
    simp only at h
    rcases ht : Np.take a idx with e | r'
    · rw [ht] at h; cases h
    rw [ht] at h
    cases h
    rw [List.map_cons, ← take_getD d ht, List.getD_eq_getElem?_getD, hi]
    rfl

theorem mapM_singleton_ok {T U : Type} {f : T → Py U} {t : T} {r : List U} (h : [t].mapM f = .ok r) : ∃ u, f t = .ok u ∧ r = [u] := by
  have := mapM_ok_map h
  rcases r with _ | ⟨u, us⟩
  · simp at this
  · simp only [List.map_cons, List.map_nil, List.cons.injEq] at this
    obtain ⟨h1, h2⟩ := this
    have : us = [] := by simpa using h2.symm
    exact ⟨u, h1, by rw [this]⟩

/-- The draws of `LeaveOneDomainOut` for one target domain, from a fresh generator. -/
theorem lodoBody_ok {np : Numpy γ} {X : List Unit} {sd : List Int} {test train : Size} {t : Int} {draw : List Nat × List Nat} {l : List Fold} {g : γ}
    (hd : ∀ sds, Np.take sd (lodoSplitIdx sd (lodoDomains sd) t) = .ok sds →
      draw = ((np.ask (.perm (sourceIdx sds).length) g).1, (np.ask (.perm (targetIdx sds).length) (np.ask (.perm (sourceIdx sds).length) g).2).1))
    (h : lodoFold X sd (lodoDomains sd) test train t draw = .ok l) :
    ∃ f, l = [f] ∧ (lodoBody np X sd test train t g).1 = .ok f := by
  have h0 := h
  unfold lodoFold at h
  simp only at h
  rcases hX : Np.take X (lodoSplitIdx sd (lodoDomains sd) t) with e | Xs
  · rw [hX] at h; cases h
  rw [hX] at h; simp only at h
  rcases hsd : Np.take sd (lodoSplitIdx sd (lodoDomains sd) t) with e | sds
  · rw [hsd] at h; cases h
  rw [hsd] at h; simp only at h
  rcases hst : stIterIndices Xs sds test train [draw] with e | folds
  · rw [hst] at h; cases h
  rw [hst] at h; simp only at h
  unfold stIterIndices at hst
  rcases hc : checkXDomain Xs (.vec sds) {} with e | ⟨a, b⟩
  · rw [hc] at hst; cases hst
  rw [hc] at hst; simp only at hst
  obtain ⟨rfl, rfl⟩ := check_vec hc
  rcases hb : bothSizes (sourceIdx b).length (targetIdx b).length test train with e | sizes
  · rw [hb] at hst; cases hst
  rw [hb] at hst; simp only at hst
  obtain ⟨u, _, rfl⟩ := mapM_singleton_ok hst
  obtain ⟨f, _, rfl⟩ := mapM_singleton_ok h
  refine ⟨f, rfl, ?_⟩
  have hg := take_getD 0 hsd
  unfold lodoBody
  rw [← hg, hb]
  rw [hd b hsd] at h0
  show Except.bind (lodoFold X sd (lodoDomains sd) test train t _) _ = _
  rw [h0]
  rfl

end Skada.Rng

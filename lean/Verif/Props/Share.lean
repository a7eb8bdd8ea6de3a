/-
C124: pipelines built from the same objects.
-/
import Verif.Model.Share
import Mathlib.Data.List.Nodup
import Mathlib.Data.List.Basic
import Mathlib.Data.List.Induction

set_option linter.unusedSectionVars false

namespace Skada

namespace Spec

/-- A step a pipeline has for itself: the number of its estimator, `mask_target_labels`, what it learned. -/
structure OwnStep (β : Type) where
  base : Nat
  mask : Bool
  learned : Option β
  deriving DecidableEq

/-- Pipelines that share nothing but estimators: the estimators, the selectors made by the user, and the steps of each pipeline. -/
structure OwnState (π β : Type) where
  ests : List π
  made : List (Nat × Bool)
  pipes : List (List (OwnStep β))

variable {π β σ : Type}

/-- Fitting the steps in order; a failing step leaves itself and the later ones as they were. -/
def fitOwn (E : Share.Env π β σ) (ests : List π) : List (OwnStep β) → σ → List (OwnStep β) × Py Unit
  | [], _ => ([], .ok ())
  | s :: ss, x =>
    match ests[s.base]? with
    | none => (s :: ss, .error .indexError)
    | some p =>
      match E.step p s.mask ss.isEmpty ss.isEmpty x with
      | .error e => (s :: ss, .error e)
      | .ok (b, x') => ({ s with learned := some b } :: (fitOwn E ests ss x').1, (fitOwn E ests ss x').2)

/-- The steps given by the arguments; masking ends with the first estimator that predicts target labels. -/
def ownSteps (E : Share.Env π β σ) (s : OwnState π β) : List Share.ArgRef → Bool → Option (List (OwnStep β))
  | [], _ => some []
  | .est e :: as, mask =>
    match s.ests[e]? with
    | none => none
    | some p => (ownSteps E s as (mask && !E.predicts p)).map (⟨e, mask && !E.predicts p, none⟩ :: ·)
  | .sel k :: as, mask =>
    match s.made[k]? with
    | none => none
    | some (e, m) => (ownSteps E s as mask).map (⟨e, m, none⟩ :: ·)
  | .pipe i :: as, mask =>
    match s.pipes[i]? with
    | none => none
    | some ps => (ownSteps E s as mask).map (ps ++ ·)

/-- One operation on separate pipelines, and whether it succeeds. -/
def OwnState.step (E : Share.Env π β σ) (s : OwnState π β) : Share.Op π σ → OwnState π β × Py Unit
  | .newEst p => ({ s with ests := s.ests ++ [p] }, .ok ())
  | .newSel e mask => if e < s.ests.length then ({ s with made := s.made ++ [(e, mask)] }, .ok ()) else (s, .error .indexError)
  | .build args mask =>
    if args = [] then (s, .error .typeError)
    else
      match ownSteps E s args mask with
      | none => (s, .error .indexError)
      | some ps => ({ s with pipes := s.pipes ++ [ps] }, .ok ())
  | .set i j p =>
    match s.pipes[i]?.bind (fun ps => ps[j]?) with
    | none => (s, .error .keyError)
    | some q => ({ s with ests := s.ests.set q.base p }, .ok ())
  | .fit i x =>
    match s.pipes[i]? with
    | none => (s, .error .indexError)
    | some ps => ({ s with pipes := s.pipes.set i (fitOwn E s.ests ps x).1 }, (fitOwn E s.ests ps x).2)

def OwnState.run (E : Share.Env π β σ) (ops : List (Share.Op π σ)) : OwnState π β :=
  ops.foldl (fun s o => (s.step E o).1) ⟨[], [], []⟩

/-- The steps as a pipeline sees them: exactly the last one is final. -/
def viewSteps (ests : List π) : List (OwnStep β) → List (Option (π × Bool × Bool × Option β))
  | [] => []
  | s :: ss => (ests[s.base]?.map (fun p => (p, s.mask, ss.isEmpty, s.learned))) :: viewSteps ests ss

def OwnState.view (s : OwnState π β) (i : Nat) : Option (List (Option (π × Bool × Bool × Option β))) := s.pipes[i]?.map (viewSteps s.ests)

/-- The arguments of all pipelines built. -/
def argsOf : Share.Op π σ → List Share.ArgRef
  | .build args _ => args
  | _ => []

/-- The user-made selector an argument refers to. -/
def selOf : Share.ArgRef → Option Nat
  | .sel k => some k
  | _ => none

/-- No pipeline is used to build another one, and no selector is used twice. -/
def Apart (ops : List (Share.Op π σ)) : Prop :=
  (∀ a ∈ ops.flatMap argsOf, ∀ i, a ≠ .pipe i) ∧ ((ops.flatMap argsOf).filterMap selOf).Nodup

end Spec

open Spec

namespace Share
variable {π β σ : Type}

/-- The selectors of a pipeline. -/
def markLast : List (OwnStep β) → List (Sel β)
  | [] => []
  | s :: ss => ⟨s.base, s.mask, ss.isEmpty, s.learned⟩ :: markLast ss

/-- A selector that is not the last. -/
def plain (s : OwnStep β) : Sel β := ⟨s.base, s.mask, false, s.learned⟩

theorem length_markLast (ps : List (OwnStep β)) : (markLast ps).length = ps.length := by
  induction ps with
  | nil => rfl
  | cons p ps ih => simp [markLast, ih]

theorem isEmpty_eq {α γ : Type} {l : List α} {m : List γ} (h : l.length = m.length) : l.isEmpty = m.isEmpty := by
  cases l <;> cases m <;> simp_all

theorem length_fitOwn (E : Env π β σ) (ests : List π) (ps : List (OwnStep β)) (x : σ) : (fitOwn E ests ps x).1.length = ps.length := by
  induction ps generalizing x with
  | nil => rfl
  | cons p ps ih =>
    unfold fitOwn
    split
    · rfl
    · split
      · rfl
      · simp [ih]

theorem fit_refines (E : Env π β σ) (ests : List π) (ids : List Nat) (ps : List (OwnStep β)) (x : σ) (ss : List (Sel β)) (hn : ids.Nodup)
    (h : ids.map (ss[·]?) = (markLast ps).map some) :
    (fitSteps E ests ids x ss).2 = (fitOwn E ests ps x).2 ∧
    ids.map ((fitSteps E ests ids x ss).1[·]?) = (markLast (fitOwn E ests ps x).1).map some ∧
    ∀ j, j ∉ ids → (fitSteps E ests ids x ss).1[j]? = ss[j]? := by
  induction ids generalizing ps x ss with
  | nil =>
    cases ps with
    | nil => exact ⟨rfl, rfl, fun _ _ => rfl⟩
    | cons p ps => simp [markLast] at h
  | cons i ids ih =>
    cases ps with
    | nil => simp [markLast] at h
    | cons p ps =>
      have hl : ids.length = ps.length := by simpa [markLast, length_markLast] using congrArg List.length h
      simp only [List.map_cons, markLast, List.cons.injEq] at h
      obtain ⟨h1, h2⟩ := h
      obtain ⟨hi, hn⟩ := List.nodup_cons.1 hn
      unfold fitSteps fitOwn
      rw [h1]
      simp only
      cases he : ests[p.base]? with
      | none => exact ⟨rfl, by simp [markLast, h1, h2], fun _ _ => rfl⟩
      | some q =>
        simp only
        rw [isEmpty_eq hl]
        cases hs : E.step q p.mask ps.isEmpty ps.isEmpty x with
        | error e => exact ⟨rfl, by simp [markLast, h1, h2], fun _ _ => rfl⟩
        | ok r =>
          obtain ⟨b, x'⟩ := r
          simp only
          have hlt : i < ss.length := (List.getElem?_eq_some_iff.1 h1).1
          have h2' : ids.map ((ss.set i ⟨p.base, p.mask, ps.isEmpty, some b⟩)[·]?) = (markLast ps).map some := by
            rw [← h2]
            refine List.map_congr_left fun j hj => ?_
            rw [List.getElem?_set_ne]
            rintro rfl
            exact hi hj
          obtain ⟨a1, a2, a3⟩ := ih ps x' (ss.set i ⟨p.base, p.mask, ps.isEmpty, some b⟩) hn h2'
          refine ⟨a1, ?_, fun j hj => ?_⟩
          · simp only [List.map_cons, markLast]
            rw [a2, a3 i hi, List.getElem?_set_self hlt, isEmpty_eq (length_fitOwn E ests ps x')]
          · rw [a3 j (fun h => hj (List.mem_cons_of_mem _ h)), List.getElem?_set_ne]
            rintro rfl
            exact hj (List.mem_cons_self ..)

theorem mark_refines (ids : List Nat) (ps : List (OwnStep β)) (ss : List (Sel β)) (i : Nat) (hn : ids.Nodup) (hi : ids.getLast? = some i)
    (h : ids.map (ss[·]?) = ps.map (fun p => some (plain p))) : ids.map ((mark ss i)[·]?) = (markLast ps).map some := by
  induction ids generalizing ps with
  | nil => simp at hi
  | cons j ids ih =>
    cases ps with
    | nil => simp at h
    | cons p ps =>
      have hl : ids.length = ps.length := by simpa using congrArg List.length h
      simp only [List.map_cons, List.cons.injEq] at h
      obtain ⟨hj, hn⟩ := List.nodup_cons.1 hn
      cases ids with
      | nil =>
        simp only [List.getLast?_singleton, Option.some.injEq] at hi
        subst hi
        have : ps = [] := List.length_eq_zero_iff.1 hl.symm
        subst this
        simp [mark, markLast, List.getElem?_modify, h.1, plain]
      | cons j' ids =>
        rw [List.getLast?_cons_cons] at hi
        have hne : i ≠ j := by
          rintro rfl
          exact hj (List.mem_of_getLast? hi)
        simp only [List.map_cons (l := j' :: ids), markLast]
        rw [ih ps hn hi h.2]
        cases ps with
        | nil => simp at hl
        | cons p' ps =>
          simp [mark, hne, h.1, plain]

/-- The pipelines of the heap and the separate pipelines agree; `used` are the user-made selectors that are in use. -/
structure Agree (h : Heap π β) (s : OwnState π β) (used : List Nat) : Prop where
  ests : h.ests = s.ests
  len : h.handles.length = s.made.length
  nodup : h.handles.Nodup
  lt : ∀ id ∈ h.handles, id < h.sels.length
  free : ∀ (k id : Nat), h.handles[k]? = some id → k ∉ used →
    (∃ e m, s.made[k]? = some (e, m) ∧ h.sels[id]? = some ⟨e, m, false, none⟩) ∧ ∀ ids ∈ h.pipes, id ∉ ids
  apart : h.pipes.flatten.Nodup
  pipes : List.Forall₂ (fun ids ps => ids.map (h.sels[·]?) = (markLast ps).map some) h.pipes s.pipes

theorem Agree.mem_lt {h : Heap π β} {s : OwnState π β} {used : List Nat} (A : Agree h s used) {ids : List Nat} (hm : ids ∈ h.pipes) {i : Nat}
    (hi : i ∈ ids) : i < h.sels.length := by
  obtain ⟨k, hk, e⟩ := List.getElem_of_mem hm
  have := A.pipes.get (i := k) hk (by rw [← A.pipes.length_eq]; exact hk)
  simp only [List.get_eq_getElem, e] at this
  have hh : h.sels[i]? ∈ ids.map (h.sels[·]?) := List.mem_map.2 ⟨i, hi, rfl⟩
  rw [this] at hh
  obtain ⟨v, -, hv⟩ := List.mem_map.1 hh
  exact (List.getElem?_eq_some_iff.1 hv.symm).1

theorem Agree.mono {h : Heap π β} {s : OwnState π β} {used used' : List Nat} (A : Agree h s used) (hu : ∀ k ∈ used, k ∈ used') : Agree h s used' :=
  { A with free := fun k id hk hf => A.free k id hk (fun h => hf (hu k h)) }

/-- Arguments without pipelines: what the first loop and the wrapping make of them. -/
theorem build_steps (E : Env π β σ) {h : Heap π β} {s : OwnState π β} {used : List Nat} (A : Agree h s used) (args : List ArgRef) :
    (∀ a ∈ args, ∀ i, a ≠ .pipe i) → (args.filterMap selOf).Nodup → (∀ k ∈ args.filterMap selOf, k ∉ used) →
    (∀ mask, ownSteps E s args mask = none) ∧ collect h args h.sels = (.error .indexError, h.sels) ∨
    ∃ l, collect h args h.sels = (.ok l, h.sels) ∧ ∀ mask extra, ∃ ps ids news, ownSteps E s args mask = some ps ∧
      wrap E h.ests l mask (h.sels ++ extra) = (ids, h.sels ++ extra ++ news) ∧
      ids.map ((h.sels ++ extra ++ news)[·]?) = ps.map (fun p => some (plain p)) ∧ ids.length = args.length ∧ ids.Nodup ∧
      ∀ id ∈ ids, (h.sels ++ extra).length ≤ id ∨ ∃ k ∈ args.filterMap selOf, h.handles[k]? = some id := by
  induction args with
  | nil =>
    intro _ _ _
    exact .inr ⟨[], rfl, fun mask extra => ⟨[], [], [], rfl, by simp [wrap], rfl, rfl, List.nodup_nil, by simp⟩⟩
  | cons a args ih =>
    intro hp hn hu
    have hp' : ∀ a ∈ args, ∀ i, a ≠ .pipe i := fun b hb => hp b (List.mem_cons_of_mem _ hb)
    cases a with
    | pipe i => exact absurd rfl (hp _ (List.mem_cons_self ..) i)
    | est e =>
      have hfm : (ArgRef.est e :: args).filterMap selOf = args.filterMap selOf := rfl
      rw [hfm] at hn hu
      rcases ih hp' hn hu with ⟨h1, h2⟩ | ⟨l, hl, hw⟩
      · refine .inl ⟨fun mask => ?_, ?_⟩
        · unfold ownSteps
          cases s.ests[e]? with
          | none => rfl
          | some p => simp only [h1, Option.map_none]
        · unfold collect
          split_ifs
          · simp only [h2]; rfl
          · rfl
      · by_cases he : e < h.ests.length
        · refine .inr ⟨.inr e :: l, ?_, fun mask extra => ?_⟩
          · unfold collect
            rw [if_pos he, hl]
            rfl
          · have hse : s.ests[e]? = some (h.ests[e]) := by rw [← A.ests, List.getElem?_eq_getElem he]
            have hmask : (if (h.ests[e]?.map E.predicts).getD false then false else mask) = (mask && !E.predicts h.ests[e]) := by
              rw [List.getElem?_eq_getElem he]
              simp only [Option.map_some, Option.getD_some]
              by_cases hb : E.predicts h.ests[e] = true <;> simp [hb]
            obtain ⟨ps, ids, news, a1, a2, a3, a4, a5, a6⟩ := hw (mask && !E.predicts h.ests[e])
              (extra ++ [⟨e, mask && !E.predicts h.ests[e], false, none⟩])
            refine ⟨⟨e, mask && !E.predicts h.ests[e], none⟩ :: ps, (h.sels ++ extra).length :: ids,
              ⟨e, mask && !E.predicts h.ests[e], false, none⟩ :: news, ?_, ?_, ?_, by simp [a4], ?_, ?_⟩
            · unfold ownSteps
              rw [hse]
              simp only [a1, Option.map_some]
            · unfold wrap
              simp only [hmask]
              rw [List.append_assoc h.sels, a2]
              simp
            · rw [List.map_cons, List.map_cons]
              congr 1
              · rw [List.getElem?_append_right (Nat.le_refl _)]
                simp [plain]
              · rw [← a3]
                simp
            · refine List.nodup_cons.2 ⟨fun hm => ?_, a5⟩
              rcases a6 _ hm with h' | ⟨k, -, hk⟩
              · simp only [List.length_append, List.length_singleton] at h'
                omega
              · have := A.lt _ (List.mem_of_getElem? hk)
                simp at this
                omega
            · intro id hid
              rw [hfm]
              rcases List.mem_cons.1 hid with rfl | hid
              · exact .inl (Nat.le_refl _)
              · rcases a6 id hid with h' | h'
                · refine .inl ?_
                  simp only [List.length_append] at h' ⊢
                  omega
                · exact .inr h'
        · refine .inl ⟨fun mask => ?_, ?_⟩
          · unfold ownSteps
            rw [← A.ests, List.getElem?_eq_none (by omega)]
          · unfold collect
            rw [if_neg he]
    | sel k =>
      have hfm : (ArgRef.sel k :: args).filterMap selOf = k :: args.filterMap selOf := rfl
      rw [hfm] at hn hu
      obtain ⟨hk, hn⟩ := List.nodup_cons.1 hn
      rcases ih hp' hn (fun j hj => hu j (List.mem_cons_of_mem _ hj)) with ⟨h1, h2⟩ | ⟨l, hl, hw⟩
      · refine .inl ⟨fun mask => ?_, ?_⟩
        · unfold ownSteps
          split
          · rfl
          · simp only [h1, Option.map_none]
        · unfold collect
          split
          · rfl
          · simp only [h2]; rfl
      · cases hh : h.handles[k]? with
        | none =>
          refine .inl ⟨fun mask => ?_, ?_⟩
          · unfold ownSteps
            have : s.made[k]? = none := by
              rw [List.getElem?_eq_none_iff, ← A.len]
              exact List.getElem?_eq_none_iff.1 hh
            rw [this]
          · unfold collect
            rw [hh]
        | some id =>
          obtain ⟨⟨e, m, hm, hs⟩, hfree⟩ := A.free k id hh (hu k (List.mem_cons_self ..))
          refine .inr ⟨.inl id :: l, ?_, fun mask extra => ?_⟩
          · unfold collect
            rw [hh]
            simp only [hl]
            rfl
          · obtain ⟨ps, ids, news, a1, a2, a3, a4, a5, a6⟩ := hw mask extra
            refine ⟨⟨e, m, none⟩ :: ps, id :: ids, news, ?_, ?_, ?_, by simp [a4], ?_, ?_⟩
            · unfold ownSteps
              rw [hm]
              simp only [a1, Option.map_some]
            · unfold wrap
              rw [a2]
            · rw [List.map_cons, List.map_cons, a3]
              congr 1
              have hlt := A.lt id (List.mem_of_getElem? hh)
              rw [List.append_assoc, List.getElem?_append_left hlt, hs]
              rfl
            · refine List.nodup_cons.2 ⟨fun hm => ?_, a5⟩
              rcases a6 _ hm with h' | ⟨k', hk', hh'⟩
              · have hlt := A.lt id (List.mem_of_getElem? hh)
                simp only [List.length_append] at h'
                omega
              · have : k = k' := (List.getElem?_inj (List.getElem?_eq_some_iff.1 hh).1 A.nodup).1 (by rw [hh, hh'])
                exact hk (this ▸ hk')
            · intro id' hid
              rw [hfm]
              rcases List.mem_cons.1 hid with rfl | hid
              · exact .inr ⟨k, List.mem_cons_self .., hh⟩
              · rcases a6 id' hid with h' | ⟨k', hk', hh'⟩
                · exact .inl h'
                · exact .inr ⟨k', List.mem_cons_of_mem _ hk', hh'⟩

theorem getElem?_mark_ne (ss : List (Sel β)) {i j : Nat} (h : i ≠ j) : (mark ss i)[j]? = ss[j]? := by
  simp [mark, h]

theorem length_mark (ss : List (Sel β)) (i : Nat) : (mark ss i).length = ss.length := by simp [mark]

theorem agree_build (E : Env π β σ) {h : Heap π β} {s : OwnState π β} {used : List Nat} (A : Agree h s used) (args : List ArgRef) (mask : Bool)
    (hp : ∀ a ∈ args, ∀ i, a ≠ .pipe i) (hn : (args.filterMap selOf).Nodup) (hu : ∀ k ∈ args.filterMap selOf, k ∉ used) :
    Agree (h.step E (.build args mask)).1 (s.step E (.build args mask)).1 (used ++ args.filterMap selOf) ∧
    (h.step E (.build args mask)).2 = (s.step E (.build args mask)).2 := by
  unfold Heap.step OwnState.step build
  by_cases he : args = []
  · simp only [he, if_true]
    exact ⟨A.mono (by simp), by trivial⟩
  · simp only [he, if_false]
    rcases build_steps E A args hp hn hu with ⟨h1, h2⟩ | ⟨l, hl, hw⟩
    · rw [h1, h2]
      exact ⟨A.mono (fun k hk => List.mem_append_left _ hk), rfl⟩
    · obtain ⟨ps, ids, news, a1, a2, a3, a4, a5, a6⟩ := hw mask []
      simp only [List.append_nil] at a2 a3 a6
      rw [hl, a1]
      simp only [a2]
      obtain ⟨i, hi⟩ : ∃ i, ids.getLast? = some i := by
        have : ids ≠ [] := by
          rintro rfl
          exact he (List.length_eq_zero_iff.1 a4.symm)
        exact ⟨_, List.getLast?_eq_some_getLast this⟩
      rw [hi]
      refine ⟨?_, rfl⟩
      have him := List.mem_of_getLast? hi
      -- the new pipeline's selectors are in no other pipeline
      have hnew : ∀ id ∈ ids, ∀ old ∈ h.pipes, id ∉ old := by
        intro id hid old hold hmem
        rcases a6 id hid with h' | ⟨k, hk, hh⟩
        · have := A.mem_lt hold hmem
          omega
        · exact (A.free k id hh (hu k hk)).2 old hold hmem
      have hkeep : ∀ j, j < h.sels.length → j ≠ i → (mark (h.sels ++ news) i)[j]? = h.sels[j]? := by
        intro j hj hne
        rw [getElem?_mark_ne _ (Ne.symm hne), List.getElem?_append_left hj]
      refine ⟨A.ests, A.len, A.nodup, ?_, ?_, ?_, ?_⟩
      · intro id hid
        have := A.lt id hid
        simp only [length_mark, List.length_append]
        omega
      · intro k id hk hf
        have hf1 : k ∉ used := fun h => hf (List.mem_append_left _ h)
        have hf2 : k ∉ args.filterMap selOf := fun h => hf (List.mem_append_right _ h)
        obtain ⟨⟨e, m, hm, hs⟩, hfree⟩ := A.free k id hk hf1
        have hlt := A.lt id (List.mem_of_getElem? hk)
        have hnot : id ∉ ids := by
          intro hid
          rcases a6 id hid with h' | ⟨k', hk', hh'⟩
          · omega
          · have : k = k' := (List.getElem?_inj (List.getElem?_eq_some_iff.1 hk).1 A.nodup).1 (by rw [hk, hh'])
            exact hf2 (this ▸ hk')
        refine ⟨⟨e, m, hm, ?_⟩, ?_⟩
        · rw [← hs]
          exact hkeep id hlt (fun e => hnot (e ▸ him))
        · intro old hold
          rcases List.mem_append.1 hold with h' | h'
          · exact hfree old h'
          · rw [List.mem_singleton.1 h']
            exact hnot
      · simp only [List.flatten_append, List.flatten_singleton]
        refine List.nodup_append.2 ⟨A.apart, a5, ?_⟩
        rintro a ha b hb rfl
        obtain ⟨old, hold, hm⟩ := List.mem_flatten.1 ha
        exact hnew a hb old hold hm
      · refine List.rel_append ?_ (.cons (mark_refines ids ps _ i a5 hi a3) .nil)
        refine List.Forall₂.imp (R := fun ids ps => ids ∈ h.pipes ∧ ids.map (h.sels[·]?) = (markLast ps).map some) ?_ ?_
        · rintro old ps' ⟨hold, e⟩
          rw [← e]
          refine List.map_congr_left fun j hj => ?_
          exact hkeep j (A.mem_lt hold hj) (by rintro rfl; exact hnew j him old hold hj)
        · rw [List.forall₂_iff_get]
          refine ⟨A.pipes.length_eq, fun j h1 h2 => ⟨?_, A.pipes.get h1 h2⟩⟩
          simp

theorem agree_set (E : Env π β σ) {h : Heap π β} {s : OwnState π β} {used : List Nat} (A : Agree h s used) (i j : Nat) (p : π) :
    Agree (h.step E (.set i j p)).1 (s.step E (.set i j p)).1 used ∧ (h.step E (.set i j p)).2 = (s.step E (.set i j p)).2 := by
  have key : h.pipes[i]?.bind (fun ids => ids[j]?.bind (fun id => h.sels[id]?)) =
      (s.pipes[i]?.bind (fun ps => (markLast ps)[j]?)) := by
    by_cases hi : i < h.pipes.length
    · have hi' : i < s.pipes.length := by rw [← A.pipes.length_eq]; exact hi
      have := A.pipes.get hi hi'
      simp only [List.get_eq_getElem] at this
      rw [List.getElem?_eq_getElem hi, List.getElem?_eq_getElem hi']
      simp only [Option.bind_some]
      have h2 := congrArg (fun l => l[j]?) this
      simp only [List.getElem?_map] at h2
      cases hj : h.pipes[i][j]? with
      | none =>
        rw [hj] at h2
        cases hm : (markLast s.pipes[i])[j]? with
        | none => rfl
        | some v => rw [hm] at h2; cases h2
      | some id =>
        rw [hj] at h2
        cases hm : (markLast s.pipes[i])[j]? with
        | none => rw [hm] at h2; cases h2
        | some v =>
          rw [hm] at h2
          simp only [Option.map_some, Option.some.injEq] at h2
          simp only [Option.bind_some, h2]
    · have hi' : ¬ i < s.pipes.length := by rw [← A.pipes.length_eq]; exact hi
      rw [List.getElem?_eq_none (by omega), List.getElem?_eq_none (by omega)]
      rfl
  have hb : ∀ (ps : List (OwnStep β)) (j : Nat), (markLast ps)[j]?.map (fun s : Sel β => s.base) = ps[j]?.map (fun s : OwnStep β => s.base) := by
    intro ps
    induction ps with
    | nil => intro j; rfl
    | cons q ps ih =>
      intro j
      cases j with
      | zero => rfl
      | succ j => simpa [markLast] using ih j
  unfold Heap.step OwnState.step
  simp only [key]
  cases hp : s.pipes[i]? with
  | none => exact ⟨A, rfl⟩
  | some ps =>
    simp only [Option.bind_some]
    have := hb ps j
    cases hm : (markLast ps)[j]? with
    | none =>
      rw [hm] at this
      cases hq : ps[j]? with
      | none => exact ⟨A, rfl⟩
      | some q => rw [hq] at this; cases this
    | some v =>
      rw [hm] at this
      cases hq : ps[j]? with
      | none => rw [hq] at this; cases this
      | some q =>
        rw [hq] at this
        simp only [Option.map_some, Option.some.injEq] at this
        simp only [this, A.ests]
        exact ⟨{ A with ests := rfl }, by trivial⟩

theorem nodup_of_mem_flatten {α : Type} {L : List (List α)} (h : L.flatten.Nodup) {l : List α} (hl : l ∈ L) : l.Nodup :=
  (List.nodup_flatten.1 h).1 l hl

theorem length_fitSteps (E : Env π β σ) (ests : List π) (ids : List Nat) (x : σ) (ss : List (Sel β)) :
    (fitSteps E ests ids x ss).1.length = ss.length := by
  induction ids generalizing ss x with
  | nil => rfl
  | cons j ids ih =>
    unfold fitSteps
    split
    · rfl
    · split
      · rfl
      · split
        · rfl
        · rw [ih, List.length_set]

theorem agree_fit (E : Env π β σ) {h : Heap π β} {s : OwnState π β} {used : List Nat} (A : Agree h s used) (i : Nat) (x : σ) :
    Agree (h.step E (.fit i x)).1 (s.step E (.fit i x)).1 used ∧ (h.step E (.fit i x)).2 = (s.step E (.fit i x)).2 := by
  unfold Heap.step OwnState.step
  by_cases hi : i < h.pipes.length
  · have hi' : i < s.pipes.length := by rw [← A.pipes.length_eq]; exact hi
    have hv := A.pipes.get hi hi'
    simp only [List.get_eq_getElem] at hv
    simp only [List.getElem?_eq_getElem hi, List.getElem?_eq_getElem hi']
    have hmem : h.pipes[i] ∈ h.pipes := List.getElem_mem hi
    obtain ⟨b1, b2, b3⟩ := fit_refines E h.ests h.pipes[i] s.pipes[i] x h.sels (nodup_of_mem_flatten A.apart hmem) hv
    rw [← A.ests]
    refine ⟨?_, b1⟩
    have hlen := length_fitSteps E h.ests h.pipes[i] x h.sels
    refine ⟨rfl, A.len, A.nodup, fun id hid => by rw [hlen]; exact A.lt id hid, fun k id hk hf => ?_, A.apart, ?_⟩
    · obtain ⟨⟨e, m, hm, hs⟩, hfree⟩ := A.free k id hk hf
      exact ⟨⟨e, m, hm, by rw [b3 id (hfree _ hmem)]; exact hs⟩, hfree⟩
    · rw [List.forall₂_iff_get]
      refine ⟨by simpa using A.pipes.length_eq, fun j h1 h2 => ?_⟩
      simp only [List.get_eq_getElem]
      by_cases hij : i = j
      · subst hij
        rw [List.getElem_set_self]
        exact b2
      · rw [List.getElem_set_ne hij]
        have := A.pipes.get (i := j) h1 (by simpa using h2)
        simp only [List.get_eq_getElem] at this
        rw [← this]
        refine List.map_congr_left fun id hid => b3 id fun hid' => ?_
        have hpw := (List.nodup_flatten.1 A.apart).2
        rcases Nat.lt_or_gt_of_ne hij with h' | h'
        · exact (List.pairwise_iff_getElem.1 hpw i j hi h1 h') hid' hid
        · exact (List.pairwise_iff_getElem.1 hpw j i h1 hi h') hid hid'
  · have hi' : ¬ i < s.pipes.length := by rw [← A.pipes.length_eq]; exact hi
    simp only [List.getElem?_eq_none (Nat.le_of_not_lt hi), List.getElem?_eq_none (Nat.le_of_not_lt hi')]
    exact ⟨A, by trivial⟩

theorem agree_new (E : Env π β σ) {h : Heap π β} {s : OwnState π β} {used : List Nat} (A : Agree h s used) :
    (∀ p, Agree (h.step E (.newEst p)).1 (s.step E (.newEst p)).1 used ∧ (h.step E (.newEst p)).2 = (s.step E (.newEst p)).2) ∧
    ∀ e m, Agree (h.step E (.newSel e m)).1 (s.step E (.newSel e m)).1 used ∧ (h.step E (.newSel e m)).2 = (s.step E (.newSel e m)).2 := by
  constructor
  · intro p
    unfold Heap.step OwnState.step
    exact ⟨{ A with ests := by rw [A.ests] }, rfl⟩
  · intro e m
    unfold Heap.step OwnState.step
    rw [A.ests]
    by_cases he : e < s.ests.length
    · simp only [he, if_true]
      refine ⟨⟨rfl, by simp [A.len], ?_, ?_, ?_, A.apart, ?_⟩, by trivial⟩
      · refine List.nodup_append.2 ⟨A.nodup, List.nodup_singleton _, ?_⟩
        rintro a ha b hb rfl
        have := A.lt a ha
        rw [List.mem_singleton.1 hb] at this
        omega
      · intro id hid
        rw [List.length_append]
        rcases List.mem_append.1 hid with h' | h'
        · have := A.lt id h'
          omega
        · rw [List.mem_singleton.1 h']
          simp
      · intro k id hk hf
        by_cases hk' : k < h.handles.length
        · rw [List.getElem?_append_left hk'] at hk
          obtain ⟨⟨e', m', hm, hs⟩, hfree⟩ := A.free k id hk hf
          refine ⟨⟨e', m', ?_, ?_⟩, hfree⟩
          · rw [List.getElem?_append_left (by rw [← A.len]; exact hk'), hm]
          · rw [List.getElem?_append_left (A.lt id (List.mem_of_getElem? hk)), hs]
        · rw [List.getElem?_append_right (by omega)] at hk
          have h0 : k - h.handles.length = 0 := by
            have := (List.getElem?_eq_some_iff.1 hk).1
            simp at this
            omega
          rw [h0] at hk
          simp only [List.getElem?_cons_zero, Option.some.injEq] at hk
          subst hk
          refine ⟨⟨e, m, ?_, by simp⟩, fun ids hids hmem => ?_⟩
          · rw [List.getElem?_append_right (by rw [← A.len]; omega), ← A.len, h0]
            rfl
          · exact absurd (A.mem_lt hids hmem) (by omega)
      · refine List.Forall₂.imp (R := fun ids ps => ids ∈ h.pipes ∧ ids.map (h.sels[·]?) = (markLast ps).map some) ?_ ?_
        · rintro old ps' ⟨hold, e'⟩
          rw [← e']
          refine List.map_congr_left fun j hj => ?_
          exact List.getElem?_append_left (A.mem_lt hold hj)
        · rw [List.forall₂_iff_get]
          refine ⟨A.pipes.length_eq, fun j h1 h2 => ⟨by simp, A.pipes.get h1 h2⟩⟩
    · simp only [he, if_false]
      exact ⟨A, by trivial⟩

theorem run_snoc (E : Env π β σ) (ops : List (Op π σ)) (o : Op π σ) :
    (Heap.run E (ops ++ [o]) : Heap π β) = ((Heap.run E ops).step E o).1 := by simp [Heap.run]

theorem ownRun_snoc (E : Env π β σ) (ops : List (Op π σ)) (o : Op π σ) :
    (OwnState.run E (ops ++ [o]) : OwnState π β) = ((OwnState.run E ops).step E o).1 := by simp [OwnState.run]

theorem agree_run (E : Env π β σ) (ops : List (Op π σ)) (h : Apart ops) :
    Agree (Heap.run E ops) (OwnState.run E ops) ((ops.flatMap argsOf).filterMap selOf) ∧
    ∀ o, Apart (ops ++ [o]) → ((Heap.run E ops).step E o).2 = ((OwnState.run E ops).step E o).2 := by
  have main : ∀ (h : Heap π β) (s : OwnState π β) used o, Agree h s used → (∀ a ∈ argsOf o, ∀ i, a ≠ .pipe i) → ((argsOf o).filterMap selOf).Nodup →
      (∀ k ∈ (argsOf o).filterMap selOf, k ∉ used) →
      Agree (h.step E o).1 (s.step E o).1 (used ++ (argsOf o).filterMap selOf) ∧ (h.step E o).2 = (s.step E o).2 := by
    intro h s used o A h1 h2 h3
    cases o with
    | newEst p => simpa [argsOf] using (agree_new E A).1 p
    | newSel e m => simpa [argsOf] using (agree_new E A).2 e m
    | build args mask => exact agree_build E A args mask h1 h2 h3
    | set i j p => simpa [argsOf] using agree_set E A i j p
    | fit i x => simpa [argsOf] using agree_fit E A i x
  have split : ∀ (ops : List (Op π σ)) o, Apart (ops ++ [o]) → Apart ops ∧ (∀ a ∈ argsOf o, ∀ i, a ≠ .pipe i) ∧ ((argsOf o).filterMap selOf).Nodup ∧
      ∀ k ∈ (argsOf o).filterMap selOf, k ∉ (ops.flatMap argsOf).filterMap selOf := by
    intro ops o h
    obtain ⟨h1, h2⟩ := h
    simp only [List.flatMap_append, List.flatMap_cons, List.flatMap_nil, List.append_nil, List.filterMap_append] at h1 h2
    obtain ⟨n1, n2, n3⟩ := List.nodup_append.1 h2
    exact ⟨⟨fun a ha => h1 a (List.mem_append_left _ ha), n1⟩, fun a ha => h1 a (List.mem_append_right _ ha), n2,
      fun k hk hk' => n3 k hk' k hk rfl⟩
  have A : Agree (Heap.run E ops) (OwnState.run E ops : OwnState π β) ((ops.flatMap argsOf).filterMap selOf) := by
    induction ops using List.reverseRecOn with
    | nil => exact ⟨rfl, rfl, List.nodup_nil, by simp [Heap.run, Heap.init], by simp [Heap.run, Heap.init], List.nodup_nil, .nil⟩
    | append_singleton ops o ih =>
      obtain ⟨c1, c2, c3, c4⟩ := split ops o h
      rw [run_snoc, ownRun_snoc]
      have := (main _ _ _ o (ih c1) c2 c3 c4).1
      simpa [List.flatMap_append, List.filterMap_append] using this
  refine ⟨A, fun o ho => ?_⟩
  obtain ⟨c1, c2, c3, c4⟩ := split ops o ho
  exact (main _ _ _ o A c2 c3 c4).2

theorem view_markLast (ests : List π) (ps : List (OwnStep β)) :
    (markLast ps).map (fun s => ests[s.base]?.map (fun p => (p, s.mask, s.final, s.learned))) = viewSteps ests ps := by
  induction ps with
  | nil => rfl
  | cons p ps ih => simp [markLast, viewSteps, ih]

theorem view_agree {h : Heap π β} {s : OwnState π β} {used : List Nat} (A : Agree h s used) (i : Nat) : h.view i = s.view i := by
  unfold Heap.view OwnState.view
  by_cases hi : i < h.pipes.length
  · have hi' : i < s.pipes.length := by rw [← A.pipes.length_eq]; exact hi
    have hv := A.pipes.get hi hi'
    simp only [List.get_eq_getElem] at hv
    rw [List.getElem?_eq_getElem hi, List.getElem?_eq_getElem hi', Option.map_some, Option.map_some, ← view_markLast, ← A.ests]
    have := congrArg (List.map (fun o : Option (Sel β) => o.bind (fun s => h.ests[s.base]?.map (fun p => (p, s.mask, s.final, s.learned))))) hv
    rw [List.map_map, List.map_map] at this
    exact congrArg some this
  · have hi' : ¬ i < s.pipes.length := by rw [← A.pipes.length_eq]; exact hi
    rw [List.getElem?_eq_none (by omega), List.getElem?_eq_none (by omega)]
    rfl

/-! ### Any history -/

/-- References of pipelines point to selectors. -/
structure Valid (h : Heap π β) : Prop where
  pipes : ∀ ids ∈ h.pipes, ∀ id ∈ ids, id < h.sels.length
  handles : ∀ id ∈ h.handles, id < h.sels.length

theorem length_unmarks (ids : List Nat) (ss : List (Sel β)) : (ids.foldl unmark ss).length = ss.length := by
  induction ids generalizing ss with
  | nil => rfl
  | cons i ids ih => rw [List.foldl_cons, ih]; simp [unmark]

theorem length_collect (h : Heap π β) (args : List ArgRef) (ss : List (Sel β)) : (collect h args ss).2.length = ss.length := by
  induction args generalizing ss with
  | nil => rfl
  | cons a args ih =>
    cases a <;> unfold collect
    · split_ifs
      · exact ih ss
      · rfl
    · split
      · rfl
      · exact ih ss
    · split
      · rfl
      · simp only [ih, length_unmarks]

theorem collect_lt {h : Heap π β} (hv : Valid h) (args : List ArgRef) (ss : List (Sel β)) (l : List (Nat ⊕ Nat)) (hl : (collect h args ss).1 = .ok l) :
    ∀ i, .inl i ∈ l → i < h.sels.length := by
  induction args generalizing ss l with
  | nil => cases hl; simp
  | cons a args ih =>
    cases a with
    | est e =>
      unfold collect at hl
      split_ifs at hl with he
      simp only at hl
      cases hc : (collect h args ss).1 with
      | error e => rw [hc] at hl; cases hl
      | ok l' =>
        rw [hc] at hl
        cases hl
        intro i hi
        rcases List.mem_cons.1 hi with h' | h'
        · cases h'
        · exact ih ss l' hc i h'
    | sel k =>
      unfold collect at hl
      split at hl
      · cases hl
      · rename_i id hk
        simp only at hl
        cases hc : (collect h args ss).1 with
        | error e => rw [hc] at hl; cases hl
        | ok l' =>
          rw [hc] at hl
          cases hl
          intro i hi
          rcases List.mem_cons.1 hi with h' | h'
          · cases h'
            exact hv.handles _ (List.mem_of_getElem? hk)
          · exact ih ss l' hc i h'
    | pipe p =>
      unfold collect at hl
      split at hl
      · cases hl
      · rename_i ids hk
        simp only at hl
        cases hc : (collect h args (ids.foldl unmark ss)).1 with
        | error e => rw [hc] at hl; cases hl
        | ok l' =>
          rw [hc] at hl
          cases hl
          intro i hi
          rcases List.mem_append.1 hi with h' | h'
          · obtain ⟨j, hj, e⟩ := List.mem_map.1 h'
            cases e
            exact hv.pipes _ (List.mem_of_getElem? hk) _ hj
          · exact ih _ l' hc i h'

theorem wrap_grows (E : Env π β σ) (ests : List π) (l : List (Nat ⊕ Nat)) (mask : Bool) (ss : List (Sel β)) :
    (∃ news, (wrap E ests l mask ss).2 = ss ++ news) ∧
    ((∀ i, .inl i ∈ l → i < ss.length) → ∀ id ∈ (wrap E ests l mask ss).1, id < (wrap E ests l mask ss).2.length) := by
  induction l generalizing mask ss with
  | nil => exact ⟨⟨[], by simp [wrap]⟩, by simp [wrap]⟩
  | cons a l ih =>
    cases a with
    | inl i =>
      obtain ⟨⟨news, h1⟩, h2⟩ := ih mask ss
      refine ⟨⟨news, by simp only [wrap, h1]⟩, fun h id hid => ?_⟩
      simp only [wrap] at hid ⊢
      rcases List.mem_cons.1 hid with rfl | hid
      · have := h id (by simp)
        rw [h1, List.length_append]
        omega
      · exact h2 (fun j hj => h j (List.mem_cons_of_mem _ hj)) id hid
    | inr e =>
      simp only [wrap]
      generalize (if (ests[e]?.map E.predicts).getD false then false else mask) = m
      obtain ⟨⟨news, h1⟩, h2⟩ := ih m (ss ++ [⟨e, m, false, none⟩])
      refine ⟨⟨⟨e, m, false, none⟩ :: news, by simp [h1]⟩, fun h id hid => ?_⟩
      rcases List.mem_cons.1 hid with rfl | hid
      · rw [h1]
        simp only [List.length_append, List.length_singleton]
        omega
      · refine h2 (fun j hj => ?_) id hid
        have := h j (List.mem_cons_of_mem _ hj)
        rw [List.length_append]
        omega

/-- Existing pipelines keep their selectors, references stay valid. -/
theorem step_keeps (E : Env π β σ) (h : Heap π β) (hv : Valid h) (o : Op π σ) :
    Valid (h.step E o).1 ∧ ∃ more, (h.step E o).1.pipes = h.pipes ++ more := by
  cases o with
  | newEst p => exact ⟨⟨hv.pipes, hv.handles⟩, [], by simp [Heap.step]⟩
  | newSel e m =>
    unfold Heap.step
    simp only
    split_ifs
    · refine ⟨⟨fun ids hi id hid => ?_, fun id hid => ?_⟩, [], by simp⟩
      · have := hv.pipes ids hi id hid
        simp only [List.length_append]
        omega
      · simp only [List.length_append, List.length_singleton]
        rcases List.mem_append.1 hid with h' | h'
        · have := hv.handles id h'
          omega
        · rw [List.mem_singleton.1 h']
          omega
    · exact ⟨hv, [], by simp⟩
  | set i j p =>
    unfold Heap.step
    simp only
    split
    · exact ⟨hv, [], by simp⟩
    · exact ⟨⟨hv.pipes, hv.handles⟩, [], by simp⟩
  | fit i x =>
    unfold Heap.step
    simp only
    split
    · exact ⟨hv, [], by simp⟩
    · refine ⟨⟨fun ids hi id hid => ?_, fun id hid => ?_⟩, [], by simp⟩
      · simp only [length_fitSteps]
        exact hv.pipes ids hi id hid
      · simp only [length_fitSteps]
        exact hv.handles id hid
  | build args mask =>
    unfold Heap.step build
    simp only
    split_ifs
    · exact ⟨hv, [], by simp⟩
    · have hlen := length_collect h args h.sels
      have hlt := collect_lt hv args h.sels
      generalize collect h args h.sels = c at hlen hlt
      obtain ⟨l, ss⟩ := c
      simp only at hlen hlt
      cases l with
      | error e =>
        refine ⟨⟨fun ids hi id hid => ?_, fun id hid => ?_⟩, [], by simp⟩
        · simp only [hlen]
          exact hv.pipes ids hi id hid
        · simp only [hlen]
          exact hv.handles id hid
      | ok l =>
        simp only
        obtain ⟨⟨news, h1⟩, h2⟩ := wrap_grows E h.ests l mask ss
        have h3 := h2 (fun i hi => by rw [hlen]; exact hlt l rfl i hi)
        split
        · refine ⟨⟨fun ids hi id hid => ?_, fun id hid => ?_⟩, [], by simp⟩
          · have := hv.pipes ids hi id hid
            simp only [h1, List.length_append]
            omega
          · have := hv.handles id hid
            simp only [h1, List.length_append]
            omega
        · refine ⟨⟨fun ids hi id hid => ?_, fun id hid => ?_⟩, _, rfl⟩
          · simp only [length_mark]
            rcases List.mem_append.1 hi with h' | h'
            · have := hv.pipes ids h' id hid
              rw [h1, List.length_append]
              omega
            · rw [List.mem_singleton.1 h'] at hid
              exact h3 id hid
          · have := hv.handles id hid
            simp only [length_mark, h1, List.length_append]
            omega

theorem runs_keep (E : Env π β σ) (h : Heap π β) (hv : Valid h) (ops : List (Op π σ)) :
    Valid (ops.foldl (fun h o => (h.step E o).1) h) ∧ ∃ more, (ops.foldl (fun h o => (h.step E o).1) h).pipes = h.pipes ++ more := by
  induction ops generalizing h with
  | nil => exact ⟨hv, [], by simp⟩
  | cons o ops ih =>
    obtain ⟨h1, m1, e1⟩ := step_keeps E h hv o
    obtain ⟨h2, m2, e2⟩ := ih _ h1
    exact ⟨h2, m1 ++ m2, by rw [List.foldl_cons, e2, e1, List.append_assoc]⟩

theorem run_valid (E : Env π β σ) (ops : List (Op π σ)) : Valid (Heap.run E ops : Heap π β) :=
  (runs_keep E Heap.init ⟨by simp [Heap.init], by simp [Heap.init]⟩ ops).1

theorem unmarks_final (ids : List Nat) (ss : List (Sel β)) : ∀ i ∈ ids, ∀ s, (ids.foldl unmark ss)[i]? = some s → s.final = false := by
  have keep : ∀ (ids : List Nat) (ss : List (Sel β)) (i : Nat), (∀ s, ss[i]? = some s → s.final = false) →
      ∀ s, (ids.foldl unmark ss)[i]? = some s → s.final = false := by
    intro ids
    induction ids with
    | nil => intro ss i h; exact h
    | cons j ids ih =>
      intro ss i h
      rw [List.foldl_cons]
      refine ih _ i fun s hs => ?_
      unfold unmark at hs
      rw [List.getElem?_modify] at hs
      obtain ⟨s', h1, h2⟩ := Option.map_eq_some_iff.1 hs
      split_ifs at h2
      · rw [← h2]
      · rw [← h2]; exact h s' h1
  induction ids generalizing ss with
  | nil => simp
  | cons j ids ih =>
    intro i hi
    rw [List.foldl_cons]
    rcases List.mem_cons.1 hi with rfl | hi
    · refine keep ids _ i fun s hs => ?_
      unfold unmark at hs
      rw [List.getElem?_modify] at hs
      obtain ⟨s', -, h2⟩ := Option.map_eq_some_iff.1 hs
      rw [← h2, if_pos rfl]
    · exact ih _ i hi

end Share

section
variable {π β σ : Type}
open Share

/-! ### C124 -/

/-- **C124** As long as no pipeline is used to build another and no selector object is used twice, pipelines share nothing but the
settings of their estimators: for every history of creating, building, setting parameters and fitting (also failing fits), each pipeline is
as if it had its own steps, its own fitted state, and its last step (only) marked as final; and every operation succeeds or fails as it would there. -/
theorem C124_apart (E : Env π β σ) (ops : List (Op π σ)) (h : Apart ops) :
    (∀ i, (Heap.run E ops : Heap π β).view i = (OwnState.run E ops).view i) ∧
    ∀ o, Apart (ops ++ [o]) → ((Heap.run E ops : Heap π β).step E o).2 = ((OwnState.run E ops).step E o).2 :=
  ⟨fun i => view_agree (agree_run E ops h).1 i, (agree_run E ops h).2⟩

theorem argsOf_fit (ops : List (Op π σ)) (j : Nat) (x : σ) (h : Apart ops) : Apart (ops ++ [.fit j x]) := by
  unfold Apart at *
  simpa [List.flatMap_append, argsOf] using h

/-- **C124 (fit)** Fitting one pipeline changes no other one, even if they were built from the same estimator objects. -/
theorem C124_fit_other (E : Env π β σ) (ops : List (Op π σ)) (h : Apart ops) (i j : Nat) (hij : i ≠ j) (x : σ) :
    (Heap.run E (ops ++ [.fit j x]) : Heap π β).view i = (Heap.run E ops).view i := by
  rw [(C124_apart E _ (argsOf_fit ops j x h)).1 i, (C124_apart E ops h).1 i, ownRun_snoc]
  unfold OwnState.step OwnState.view
  simp only
  split
  · rfl
  · simp only
    rw [List.getElem?_set_ne (Ne.symm hij)]

/-- **C124 (build)** Building a pipeline changes no earlier one. -/
theorem C124_build_other (E : Env π β σ) (ops : List (Op π σ)) (args : List ArgRef) (mask : Bool) (h : Apart (ops ++ [.build args mask]))
    (i : Nat) (hi : ((Heap.run E ops : Heap π β).view i).isSome) :
    (Heap.run E (ops ++ [.build args mask]) : Heap π β).view i = (Heap.run E ops).view i := by
  have h' : Apart ops := by
    obtain ⟨h1, h2⟩ := h
    simp only [List.flatMap_append, List.filterMap_append] at h1 h2
    exact ⟨fun a ha => h1 a (List.mem_append_left _ ha), (List.nodup_append.1 h2).1⟩
  rw [(C124_apart E ops h').1 i] at hi
  rw [(C124_apart E _ h).1 i, (C124_apart E ops h').1 i, ownRun_snoc]
  unfold OwnState.view at hi
  unfold OwnState.step OwnState.view
  simp only
  split_ifs
  · rfl
  · split
    · rfl
    · simp only
      rw [List.getElem?_append_left]
      cases hp : (OwnState.run E ops : OwnState π β).pipes[i]? with
      | none => rw [hp] at hi; cases hi
      | some ps => exact (List.getElem?_eq_some_iff.1 hp).1

/-- **C124 (final)** In every pipeline exactly the last step is marked as final. -/
theorem C124_final (E : Env π β σ) (ops : List (Op π σ)) (h : Apart ops) (i k : Nat) (v : List (Option (π × Bool × Bool × Option β)))
    (hv : (Heap.run E ops : Heap π β).view i = some v) (p : π) (mask final : Bool) (learned : Option β)
    (hk : v[k]? = some (some (p, mask, final, learned))) : final = decide (k + 1 = v.length) := by
  rw [(C124_apart E ops h).1 i] at hv
  unfold OwnState.view at hv
  obtain ⟨ps, -, rfl⟩ := Option.map_eq_some_iff.1 hv
  clear hv
  generalize (OwnState.run E ops : OwnState π β).ests = ests at hk
  induction ps generalizing k with
  | nil => simp [viewSteps] at hk
  | cons s ps ih =>
    have hlen : (viewSteps ests ps).length = ps.length := by
      clear ih hk
      induction ps with
      | nil => rfl
      | cons q ps ih => simp [viewSteps, ih]
    cases k with
    | zero =>
      simp only [viewSteps, List.getElem?_cons_zero, Option.some.injEq] at hk
      obtain ⟨q, -, e⟩ := Option.map_eq_some_iff.1 hk
      simp only [Prod.mk.injEq] at e
      rw [← e.2.2.1]
      simp only [viewSteps, List.length_cons, hlen]
      cases ps <;> simp
    | succ k =>
      simp only [viewSteps, List.getElem?_cons_succ] at hk
      rw [ih k hk]
      simp [viewSteps]

/-- **C124 (nested)** A pipeline built from another one is not separate from it: the inner pipeline loses its final mark, and whatever
happens later, its steps are the first steps of the outer one, so fitting either of them refits the other. -/
theorem C124_nested (E : Env π β σ) (ops : List (Op π σ)) (i e : Nat) (mask : Bool) (ids : List Nat)
    (hi : (Heap.run E ops : Heap π β).pipes[i]? = some ids) (he : e < (Heap.run E ops : Heap π β).ests.length) :
    let h : Heap π β := Heap.run E (ops ++ [.build [.pipe i, .est e] mask])
    let outer := (Heap.run E ops : Heap π β).pipes.length
    (∀ v, h.view i = some v → ∀ q ∈ v, ∀ p m f l, q = some (p, m, f, l) → f = false) ∧
    ∀ later : List (Op π σ), ∃ v w, (Heap.run E (ops ++ [.build [.pipe i, .est e] mask] ++ later) : Heap π β).view i = some v ∧
      (Heap.run E (ops ++ [.build [.pipe i, .est e] mask] ++ later) : Heap π β).view outer = some (v ++ [w]) ∧ v.length = ids.length := by
  intro h outer
  have hv := run_valid (β := β) E ops
  have hbuild : ∃ m, h = { (Heap.run E ops : Heap π β) with
      sels := mark ((ids.foldl unmark (Heap.run E ops).sels) ++ [⟨e, m, false, none⟩]) (Heap.run E ops : Heap π β).sels.length,
      pipes := (Heap.run E ops).pipes ++ [ids ++ [(Heap.run E ops : Heap π β).sels.length]] } := by
    refine ⟨if ((Heap.run E ops : Heap π β).ests[e]?.map E.predicts).getD false then false else mask, ?_⟩
    have hc : collect (Heap.run E ops : Heap π β) [.pipe i, .est e] (Heap.run E ops).sels =
        (.ok (ids.map .inl ++ [.inr e]), ids.foldl unmark (Heap.run E ops).sels) := by
      simp only [collect, hi, he, if_true]
      rfl
    have hw : ∀ (ids : List Nat) (ss : List (Sel β)), wrap E (Heap.run E ops : Heap π β).ests (ids.map .inl ++ [.inr e]) mask ss =
        (ids ++ [ss.length], ss ++ [⟨e, if ((Heap.run E ops : Heap π β).ests[e]?.map E.predicts).getD false then false else mask, false, none⟩]) := by
      intro ids ss
      induction ids with
      | nil => simp [wrap]
      | cons j ids ih => simp only [List.map_cons, List.cons_append, wrap, ih]
    show (Heap.run E (ops ++ [.build [.pipe i, .est e] mask]) : Heap π β) = _
    rw [run_snoc]
    unfold Heap.step build
    simp only [List.cons_ne_nil, if_false, hc, hw, length_unmarks, List.getLast?_concat]
  obtain ⟨m, hh⟩ := hbuild
  have hlen : ∀ id ∈ ids, id < (Heap.run E ops : Heap π β).sels.length := hv.pipes ids (List.mem_of_getElem? hi)
  have hpi : h.pipes[i]? = some ids := by
    rw [hh]
    simp only
    rw [List.getElem?_append_left (List.getElem?_eq_some_iff.1 hi).1, hi]
  have hpo : h.pipes[outer]? = some (ids ++ [(Heap.run E ops : Heap π β).sels.length]) := by
    rw [hh]
    simp [outer]
  constructor
  · intro v hview q hq p m' f l hqe
    unfold Heap.view at hview
    rw [hpi] at hview
    simp only [Option.map_some, Option.some.injEq] at hview
    rw [← hview] at hq
    obtain ⟨id, hid, e'⟩ := List.mem_map.1 hq
    rw [hqe] at e'
    obtain ⟨s, hs, e2⟩ := Option.bind_eq_some_iff.1 e'
    obtain ⟨p', -, e3⟩ := Option.map_eq_some_iff.1 e2
    simp only [Prod.mk.injEq] at e3
    rw [← e3.2.2.1]
    have hne : (Heap.run E ops : Heap π β).sels.length ≠ id := by
      have := hlen id hid
      omega
    rw [hh] at hs
    simp only at hs
    rw [getElem?_mark_ne _ hne, List.getElem?_append_left (by rw [length_unmarks]; exact hlen id hid)] at hs
    exact unmarks_final ids _ id hid s hs
  · intro later
    have hval : Valid h := run_valid E _
    obtain ⟨-, more, hmore⟩ := runs_keep E h hval later
    have hrun : (Heap.run E (ops ++ [.build [.pipe i, .est e] mask] ++ later) : Heap π β) = later.foldl (fun h o => (h.step E o).1) h := by
      simp only [h, Heap.run, List.foldl_append]
    rw [hrun]
    unfold Heap.view
    rw [hmore, List.getElem?_append_left (List.getElem?_eq_some_iff.1 hpi).1, List.getElem?_append_left (List.getElem?_eq_some_iff.1 hpo).1,
      hpi, hpo]
    exact ⟨_, _, rfl, by rw [Option.map_some, List.map_append, List.map_cons, List.map_nil], by rw [List.length_map]⟩

/-! ### Cases -/

/-- Settings, data and learned values are numbers; a setting 0 fails. -/
def shareToy : Env Nat Nat Nat :=
  { step := fun p _ _ _ x => if p = 0 then .error .valueError else .ok (p + x, x), predicts := fun p => decide (p = 7) }

/-- Two pipelines with the same two estimators and a selector of the first, fitted on 100 and 200. -/
example :
    let ops : List (Op Nat Nat) := [.newEst 1, .newEst 2, .newSel 0 true, .build [.est 0, .est 1] true, .build [.sel 0, .est 0, .est 1] true,
      .fit 0 100, .fit 1 200]
    Apart ops ∧ (Heap.run shareToy ops).view 0 = some [some (1, true, false, some 101), some (2, true, true, some 102)] ∧
    (Heap.run shareToy ops).view 1 =
      some [some (1, true, false, some 201), some (1, true, false, some 201), some (2, true, true, some 202)] := by
  refine ⟨⟨?_, ?_⟩, rfl, rfl⟩
  · intro a ha i
    simp [argsOf] at ha
    rcases ha with rfl | rfl | rfl | rfl | rfl <;> simp
  · decide

/-- **C124 is false for nested pipelines**: building and fitting the outer pipeline changes the learned values and the final mark of the inner one. -/
theorem C124_nested_counterexample :
    let ops : List (Op Nat Nat) := [.newEst 1, .newEst 2, .newEst 3, .build [.est 0, .est 1] true, .fit 0 100, .build [.pipe 0, .est 2] true, .fit 1 200]
    (Heap.run shareToy ops).view 0 = some [some (1, true, false, some 201), some (2, true, false, some 202)] ∧
    (OwnState.run shareToy ops).view 0 = some [some (1, true, false, some 101), some (2, true, true, some 102)] := by
  intro ops
  exact ⟨rfl, rfl⟩

/-- A final transformer refuses metadata it did not ask for, another one drops them (skada/base.py:320-348); data 13 carry such metadata. -/
def shareStrict : Env Nat Nat Nat :=
  { step := fun p _ final _ x => if final = true ∧ x = 13 then .error .valueError else .ok (p + x, x), predicts := fun _ => false }

/-- **C124 is false for nested pipelines, also for the outcome of `fit`**: the same call on the same inner pipeline is refused before the outer one is built and
succeeds afterwards, with nothing else done in between. -/
theorem C124_nested_fit_counterexample :
    let ops : List (Op Nat Nat) := [.newEst 1, .newEst 2, .newEst 3, .build [.est 0, .est 1] true]
    ((Heap.run shareStrict ops).step shareStrict (.fit 0 13)).2 = .error .valueError ∧
    ((Heap.run shareStrict (ops ++ [.build [.pipe 0, .est 2] true])).step shareStrict (.fit 0 13)).2 = .ok () ∧
    ((Heap.run shareStrict (ops ++ [.build [.pipe 0, .est 2] true])).step shareStrict (.fit 1 13)).2 = .error .valueError ∧
    ((OwnState.run shareStrict (ops ++ [.build [.pipe 0, .est 2] true])).step shareStrict (.fit 0 13)).2 = .error .valueError := by
  intro ops
  exact ⟨rfl, rfl, rfl, rfl⟩

/-- **C124 is false for a selector used twice**, also within one pipeline: both steps are the same object, the first is marked as final too, and
only the last thing learned is kept. -/
theorem C124_selector_counterexample :
    let ops : List (Op Nat Nat) := [.newEst 1, .newSel 0 true, .build [.sel 0, .sel 0] true, .newEst 2, .build [.sel 0, .est 1] true, .fit 1 100]
    (Heap.run shareToy ops).view 0 = some [some (1, true, true, some 101), some (1, true, true, some 101)] ∧
    (OwnState.run shareToy ops).view 0 = some [some (1, true, false, none), some (1, true, true, none)] := by
  intro ops
  exact ⟨rfl, rfl⟩

end

end Skada

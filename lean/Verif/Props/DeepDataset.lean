/-
Properties of `DeepDADataset` (C44, C78), of scoring (C76) and of the memory bank (C45).
-/
import Verif.Lemmas.DeepDataset
import Verif.Lemmas.Sampler
import Verif.Lemmas.Arg

namespace Skada
open Np Spec Deep

section Dataset
set_option linter.unusedSectionVars false
variable {K α Y : Type} [DecidableEq Y]

/-! ### C44: alignment over all histories -/

/-- A way to obtain a dataset: any nesting of construction, copying, merging, adding a domain, selecting and changing weights.  Every
constructor is one call of the public API. -/
inductive Hist (K α Y : Type) where
  | new (X : List α) (y : Option (List Y)) (sd : SD) (w : Option (List K))
  | copy (a : Hist K α Y)
  | merge (a b : Hist K α Y) (keep : Bool)
  | addDomain (a b : Hist K α Y)
  | select (a : Hist K α Y) (c : On K α Y) (retW : Bool)
  | source (a : Hist K α Y) (retW : Bool)
  | target (a : Hist K α Y) (retW : Bool)
  | domain (a : Hist K α Y) (d : Int) (retW : Bool)
  | labelled (a : Hist K α Y) (retW : Bool)
  | addWeights (a : Hist K α Y) (w : List K)
  | removeWeights (a : Hist K α Y)

/-- Running the calls; `add_domain` is `merge` with its default arguments, skada/deep/base.py:1182-1199. -/
def Hist.run (noLabel : Y) : Hist K α Y → Py (DS K α Y)
  | .new X y sd w => Deep.new noLabel X y sd w
  | .copy a => do Deep.copy (← a.run noLabel)
  | .merge a b keep => do mergeOut noLabel (← a.run noLabel) (← b.run noLabel) keep
  | .addDomain a b => do mergeOut noLabel (← a.run noLabel) (← b.run noLabel) false
  | .select a c r => do Deep.select noLabel (← a.run noLabel) c r
  | .source a r => do selectSource noLabel (← a.run noLabel) r
  | .target a r => do selectTarget noLabel (← a.run noLabel) r
  | .domain a d r => do selectDomain noLabel (← a.run noLabel) d r
  | .labelled a r => do selectLabelled noLabel (← a.run noLabel) r
  | .addWeights a w => do
    let s ← a.run noLabel
    match Deep.addWeights s w with
    | (s', .ok _) => .ok s'
    | (_, .error e) => .error e
  | .removeWeights a => do return Deep.removeWeights (← a.run noLabel)

namespace Spec

/-- The records with these columns; nothing unless the columns have the same length. -/
def records : List α → List Y → List Int → List (Option K) → Option (List (Rec K α Y))
  | [], [], [], [] => some []
  | x :: X, y :: ys, d :: ds, w :: ws => (records X ys ds ws).map (⟨x, y, d, w⟩ :: ·)
  | _, _, _, _ => none

/-- A column of which all rows are missing is filled with a default. -/
def fill {γ : Type} (n : Nat) (c : γ) : List γ → List γ
  | [] => List.replicate n c
  | l => l

/-- The records a constructor call asks for. -/
def made (noLabel : Y) (X : List α) (y : Option (List Y)) (sd : SD) (w : Option (List K)) : Option (List (Rec K α Y)) :=
  match sd with
  | .scalar _ => none
  | .none => records X (fill X.length noLabel (y.getD [])) (List.replicate X.length 0) (fill X.length none ((w.getD []).map some))
  | .vec d => records X (fill X.length noLabel (y.getD [])) (fill X.length 0 d) (fill X.length none ((w.getD []).map some))

/-- Keep or drop the weights. -/
def keepWeights (retW : Bool) (l : List (Rec K α Y)) : List (Rec K α Y) := if retW then l else l.map Rec.unweighted

/-- What the histories mean on records: `none` when the call fails. -/
def meaning (noLabel : Y) : Hist K α Y → Option (List (Rec K α Y))
  | .new X y sd w => made noLabel X y sd w
  | .copy a => meaning noLabel a
  | .merge a b keep => do
    let l := (← meaning noLabel a) ++ (← meaning noLabel b)
    if keep then
      if l.all (fun r => r.w.isSome) || l.all (fun r => r.w.isNone) then some l else none
    else some (l.map Rec.unweighted)
  | .addDomain a b => do return ((← meaning noLabel a) ++ (← meaning noLabel b)).map Rec.unweighted
  | .select a c r => do
    let l ← meaning noLabel a
    match c with
    | .X p => some (keepWeights r (l.filter (fun v => p v.x)))
    | .y p => some (keepWeights r (l.filter (fun v => decide (v.y ≠ noLabel) && p v.y)))
    | .sd p => some (keepWeights r (l.filter (fun v => p v.d)))
    | .w p => if l.isEmpty || l.any (fun v => v.w.isNone) then none else some (keepWeights r (l.filter (fun v => v.w.any p)))
    | .other => none
  | .source a r => do return keepWeights r ((← meaning noLabel a).filter (fun v => decide (0 ≤ v.d)))
  | .target a r => do return keepWeights r ((← meaning noLabel a).filter (fun v => decide (v.d < 0)))
  | .domain a d r => do return keepWeights r ((← meaning noLabel a).filter (fun v => decide (v.d = d)))
  | .labelled a r => do return keepWeights r ((← meaning noLabel a).filter (fun v => decide (v.y ≠ noLabel)))
  | .addWeights a w => do
    let l ← meaning noLabel a
    if w.isEmpty then some (l.map Rec.unweighted)
    else if w.length = l.length then some (List.zipWith (fun r v => { r with w := some v }) l w) else none
  | .removeWeights a => do return (← meaning noLabel a).map Rec.unweighted

end Spec

/-- The records exist exactly when the columns have the same length, and then they have these columns. -/
theorem records_iff (X : List α) (y : List Y) (d : List Int) (w : List (Option K)) :
    (∀ l, records X y d w = some l → X = l.map Rec.x ∧ y = l.map Rec.y ∧ d = l.map Rec.d ∧ w = l.map Rec.w) ∧
    (records X y d w = none → ¬ (X.length = y.length ∧ y.length = d.length ∧ X.length = w.length)) := by
  induction X generalizing y d w with
  | nil =>
    cases y <;> cases d <;> cases w <;> simp [records]
  | cons x X ih =>
    cases y with
    | nil => simp [records]
    | cons v y =>
      cases d with
      | nil => simp [records]
      | cons e d =>
        cases w with
        | nil => simp [records]
        | cons u w =>
          simp only [records, Option.map_eq_some_iff, Option.map_eq_none_iff]
          constructor
          · rintro l ⟨l', hl', rfl⟩
            obtain ⟨h1, h2, h3, h4⟩ := (ih y d w).1 l' hl'
            simp [h1, h2, h3, h4]
          · intro h hh
            exact (ih y d w).2 h (by simpa using hh)

theorem finish_error (s : DS K α Y) (h : ¬ (s.X.length = s.y.length ∧ s.y.length = s.sd.length ∧ (s.w ≠ [] → s.X.length = s.w.length))) :
    finish s = .error .assertionError := by
  unfold finish isCorrect
  simp only
  rw [if_neg]
  intro hc
  apply h
  simp only [Bool.and_eq_true, decide_eq_true_eq, Bool.or_eq_true, Bool.not_eq_true', decide_eq_false_iff_not] at hc
  obtain ⟨⟨h1, h2⟩, h3⟩ := hc
  refine ⟨h1, h2, fun hw => h3.resolve_right ?_⟩
  have := List.length_pos_iff.2 hw
  omega

/-- Columns after filling in the defaults. -/
theorem new_eq (noLabel : Y) (X : List α) (y : Option (List Y)) (sd : SD) (w : Option (List K)) (d : List Int)
    (hd : initSD X.length sd = .ok d) :
    Deep.new noLabel X y sd w = finish ⟨X, fill X.length noLabel (y.getD []), d, w.getD [],
      (fill X.length noLabel (y.getD [])).map (fun v => decide (v ≠ noLabel)), decide (0 < (w.getD []).length), []⟩ := by
  unfold Deep.new
  rw [hd]
  match y with
  | none => simp [ok_bind, fill]
  | some [] => simp [ok_bind, fill]
  | some (a :: l) => simp [ok_bind, fill]

theorem new_holds (noLabel : Y) (X : List α) (y : Option (List Y)) (sd : SD) (w : Option (List K)) :
    (∀ l, made noLabel X y sd w = some l → ∃ s, Deep.new noLabel X y sd w = .ok s ∧ Holds noLabel s l) ∧
    (made noLabel X y sd w = none → ∃ e, Deep.new noLabel X y sd w = .error e) := by
  have main : ∀ d, initSD X.length sd = .ok d →
      made noLabel X y sd w = records X (fill X.length noLabel (y.getD [])) d (fill X.length none ((w.getD []).map some)) →
      (∀ l, made noLabel X y sd w = some l → ∃ s, Deep.new noLabel X y sd w = .ok s ∧ Holds noLabel s l) ∧
      (made noLabel X y sd w = none → ∃ e, Deep.new noLabel X y sd w = .error e) := by
    intro d hd hm
    rw [new_eq noLabel X y sd w d hd, hm]
    constructor
    · intro l hl
      obtain ⟨h1, h2, h3, h4⟩ := (records_iff _ _ _ _).1 l hl
      have hw : HoldsW (w.getD []) (decide (0 < (w.getD []).length)) l := by
        cases hwd : w.getD [] with
        | nil =>
          rw [hwd] at h4
          refine .inl ⟨rfl, rfl, fun r hr => ?_⟩
          have : r.w ∈ l.map Rec.w := List.mem_map_of_mem hr
          rw [← h4] at this
          exact List.eq_of_mem_replicate this
        | cons v ws =>
          rw [hwd] at h4
          refine .inr ⟨?_, by simp, h4.symm⟩
          rintro rfl
          simp [fill] at h4
      have h : Holds noLabel (⟨X, fill X.length noLabel (y.getD []), d, w.getD [],
          (fill X.length noLabel (y.getD [])).map (fun v => decide (v ≠ noLabel)), decide (0 < (w.getD []).length),
          inferIdx d⟩ : DS K α Y) l :=
        ⟨h1, h2, h3, by simp only [h2, List.map_map, Function.comp_def], hw, inferIdx_eq _⟩
      have hc : isCorrect (⟨X, fill X.length noLabel (y.getD []), d, w.getD [],
          (fill X.length noLabel (y.getD [])).map (fun v => decide (v ≠ noLabel)), decide (0 < (w.getD []).length),
          []⟩ : DS K α Y) = true := h.correct
      unfold finish
      simp only [hc, if_true]
      exact ⟨_, rfl, h⟩
    · intro hn
      refine ⟨_, finish_error _ ?_⟩
      intro hc
      simp only at hc
      refine (records_iff _ _ _ _).2 hn ⟨hc.1, hc.2.1, ?_⟩
      cases hwd : w.getD [] with
      | nil => simp [fill]
      | cons v ws =>
        have := hc.2.2 (by rw [hwd]; simp)
        rw [hwd] at this
        simp only [fill, List.map_cons, List.length_cons, List.length_map]
        simpa using this
  cases sd with
  | none => exact main _ rfl rfl
  | scalar d => exact ⟨by simp [made], fun _ => ⟨.typeError, rfl⟩⟩
  | vec d =>
    cases d with
    | nil => exact main _ rfl rfl
    | cons e d => exact main _ rfl rfl

theorem holdsW_append {sw tw : List K} {sh th : Bool} {l m : List (Rec K α Y)} (hs : HoldsW sw sh l) (ht : HoldsW tw th m)
    (h : (∀ r ∈ l ++ m, r.w.isSome) ∨ (∀ r ∈ l ++ m, r.w = none)) :
    HoldsW (sw ++ tw) (decide (0 < (sw ++ tw).length)) (l ++ m) := by
  have e : ∀ {w : List K} {b : Bool} {l : List (Rec K α Y)}, HoldsW w b l → (∀ r ∈ l, r.w.isSome) → l.map Rec.w = w.map some := by
    intro w b l h hi
    rcases h with ⟨rfl, -, hn⟩ | ⟨-, -, h⟩
    · cases l with
      | nil => rfl
      | cons a l => have := hi a (by simp); rw [hn a (by simp)] at this; simp at this
    · exact h
  have e0 : ∀ {w : List K} {b : Bool} {l : List (Rec K α Y)}, HoldsW w b l → (∀ r ∈ l, r.w = none) → w = [] := by
    intro w b l h hi
    rcases h with ⟨rfl, -, hn⟩ | ⟨hne, -, h⟩
    · rfl
    · cases l with
      | nil => exact absurd rfl hne
      | cons a l =>
        rw [List.map_cons, hi a (by simp)] at h
        cases w <;> simp at h
  by_cases hall : ∀ r ∈ l ++ m, r.w = none
  · rw [e0 hs (fun r hr => hall r (by simp [hr])), e0 ht (fun r hr => hall r (by simp [hr]))]
    exact .inl ⟨rfl, rfl, hall⟩
  · have hso := h.resolve_right hall
    have h1 := e hs (fun r hr => hso r (by simp [hr]))
    have h2 := e ht (fun r hr => hso r (by simp [hr]))
    have hne : l ++ m ≠ [] := by intro h0; apply hall; rw [h0]; simp
    have hcol : (l ++ m).map Rec.w = (sw ++ tw).map some := by rw [List.map_append, List.map_append, h1, h2]
    refine .inr ⟨hne, ?_, hcol⟩
    have := congrArg List.length hcol
    simp only [List.length_map] at this
    have hp := List.length_pos_iff.2 hne
    simp only [decide_eq_true_eq]; omega

/-- Weight columns that do not fit: some rows have a weight, others not. -/
theorem append_mixed {sw tw : List K} {sh th : Bool} {l m : List (Rec K α Y)} (hs : HoldsW sw sh l) (ht : HoldsW tw th m)
    (h : ¬ ((∀ r ∈ l ++ m, r.w.isSome) ∨ (∀ r ∈ l ++ m, r.w = none))) :
    sw ++ tw ≠ [] ∧ (sw ++ tw).length ≠ (l ++ m).length := by
  push Not at h
  obtain ⟨⟨r, hr, hrn⟩, ⟨q, hq, hqs⟩⟩ := h
  have hwl : ∀ {w : List K} {b : Bool} {l : List (Rec K α Y)}, HoldsW w b l → w.length ≤ l.length ∧
      ((∃ r ∈ l, r.w.isSome = false) → w.length < l.length) ∧ ((∃ r ∈ l, r.w ≠ none) → w ≠ []) := by
    intro w b l h
    rcases h with ⟨rfl, -, hn⟩ | ⟨hne, -, h⟩
    · refine ⟨by simp, ?_, ?_⟩
      · rintro ⟨r, hr, -⟩; simpa using List.length_pos_of_mem hr
      · rintro ⟨r, hr, hh⟩; exact absurd (hn r hr) hh
    · have hl := congrArg List.length h
      simp only [List.length_map] at hl
      refine ⟨by omega, ?_, ?_⟩
      · rintro ⟨r, hr, hh⟩
        have : r.w ∈ l.map Rec.w := List.mem_map_of_mem hr
        rw [h, List.mem_map] at this
        obtain ⟨v, -, hv⟩ := this
        rw [← hv] at hh; simp at hh
      · rintro - rfl
        simp at hl
        exact hne hl
  obtain ⟨a1, a2, a3⟩ := hwl hs
  obtain ⟨b1, b2, b3⟩ := hwl ht
  have hrn' : r.w.isSome = false := by simpa using hrn
  constructor
  · rcases List.mem_append.1 hq with hq | hq
    · have := a3 ⟨q, hq, hqs⟩; simp [this]
    · have := b3 ⟨q, hq, hqs⟩; simp [this]
  · simp only [List.length_append]
    rcases List.mem_append.1 hr with hr | hr
    · have := a2 ⟨r, hr, hrn'⟩; omega
    · have := b2 ⟨r, hr, hrn'⟩; omega

theorem mergeOut_false {noLabel : Y} {s t : DS K α Y} {l m : List (Rec K α Y)} (hs : Holds noLabel s l) (ht : Holds noLabel t m) :
    ∃ u, mergeOut noLabel s t false = .ok u ∧ Holds noLabel u ((l ++ m).map Rec.unweighted) := by
  have := new_ok noLabel ((l ++ m).map Rec.unweighted) (some []) (holdsW_unweighted _)
  unfold mergeOut
  simp only [Bool.false_eq_true, if_false]
  rw [hs.X, ht.X, hs.y, ht.y, hs.sd, ht.sd, ← List.map_append, ← List.map_append, ← List.map_append]
  simpa only [List.map_map, Function.comp_def, Rec.unweighted] using this

/-- A computation does what is meant. -/
def Sim (noLabel : Y) (m : Option (List (Rec K α Y))) (r : Py (DS K α Y)) : Prop :=
  (∀ l, m = some l → ∃ s, r = .ok s ∧ Holds noLabel s l) ∧ (m = none → ∃ e, r = .error e)

theorem Sim.bind {noLabel : Y} {m : Option (List (Rec K α Y))} {r : Py (DS K α Y)} (h : Sim noLabel m r)
    {g : List (Rec K α Y) → Option (List (Rec K α Y))} {f : DS K α Y → Py (DS K α Y)}
    (hf : ∀ s l, Holds noLabel s l → Sim noLabel (g l) (f s)) : Sim noLabel (m >>= g) (r >>= f) := by
  cases hm : m with
  | none =>
    obtain ⟨e, he⟩ := h.2 hm
    rw [he]
    exact ⟨by simp, fun _ => ⟨e, rfl⟩⟩
  | some l =>
    obtain ⟨s, hs, hh⟩ := h.1 l hm
    rw [hs]
    exact hf s l hh

theorem Sim.ok {noLabel : Y} {l : List (Rec K α Y)} {r : Py (DS K α Y)} (h : ∃ s, r = .ok s ∧ Holds noLabel s l) :
    Sim noLabel (some l) r := ⟨by rintro _ ⟨⟩; exact h, by simp⟩

theorem Sim.err {noLabel : Y} {r : Py (DS K α Y)} (h : ∃ e, r = .error e) : Sim noLabel none r := ⟨by simp, fun _ => h⟩

theorem Sim.mask {noLabel : Y} {s : DS K α Y} {l : List (Rec K α Y)} (h : Holds noLabel s l) (p : Rec K α Y → Bool) (retW : Bool)
    (mask : List Bool) (hm : mask = l.map p) : Sim noLabel (some (keepWeights retW (l.filter p))) (selectMask noLabel s mask retW) := by
  subst hm
  exact Sim.ok (selectMask_ok h p retW)

theorem all_or_iff (l : List (Rec K α Y)) :
    (l.all (fun r => r.w.isSome) || l.all (fun r => r.w.isNone)) = true ↔ (∀ r ∈ l, r.w.isSome) ∨ (∀ r ∈ l, r.w = none) := by
  simp [List.all_eq_true]

theorem run_sim (noLabel : Y) (h : Hist K α Y) : Sim noLabel (meaning noLabel h) (h.run noLabel) := by
  induction h with
  | new X y sd w => exact new_holds noLabel X y sd w
  | copy a ih =>
    have e : meaning noLabel (.copy a) = meaning noLabel a >>= some := by simp [meaning]
    rw [e]
    refine ih.bind (fun s l hs => Sim.ok ?_)
    unfold Deep.copy mergeIn Deep.empty
    simp only [List.nil_append, if_true]
    have hw : HoldsW s.w (decide (0 < s.w.length)) l := by
      rcases hs.w with ⟨h0, h1, h2⟩ | ⟨h0, h1, h2⟩
      · rw [h0]; exact .inl ⟨rfl, rfl, h2⟩
      · have := congrArg List.length h2
        simp only [List.length_map] at this
        have hp := List.length_pos_iff.2 h0
        exact .inr ⟨h0, by simp; omega, h2⟩
    have hH : Holds noLabel (⟨s.X, s.y, s.sd, s.w, s.hasY, decide (0 < s.w.length), inferIdx s.sd⟩ : DS K α Y) l :=
      ⟨hs.X, hs.y, hs.sd, hs.hasY, hw, inferIdx_eq _⟩
    have hc : isCorrect (⟨s.X, s.y, s.sd, s.w, s.hasY, decide (0 < s.w.length), []⟩ : DS K α Y) = true := hH.correct
    rw [if_pos hc]
    simp only
    unfold finish
    simp only
    rw [if_pos hc]
    exact ⟨_, rfl, hH⟩
  | merge a b keep iha ihb =>
    refine iha.bind (fun s l hs => ihb.bind (fun t m ht => ?_))
    cases keep with
    | false => exact Sim.ok (mergeOut_false hs ht)
    | true =>
      simp only [if_true]
      by_cases hw : (∀ r ∈ l ++ m, r.w.isSome) ∨ (∀ r ∈ l ++ m, r.w = none)
      · rw [if_pos ((all_or_iff _).2 hw)]
        apply Sim.ok
        have := new_ok noLabel (l ++ m) (some (s.w ++ t.w)) (holdsW_append hs.w ht.w hw)
        unfold mergeOut
        simp only [if_true]
        rw [hs.X, ht.X, hs.y, ht.y, hs.sd, ht.sd, ← List.map_append, ← List.map_append, ← List.map_append]
        exact this
      · rw [if_neg (fun h => hw ((all_or_iff _).1 h))]
        apply Sim.err
        obtain ⟨h1, h2⟩ := append_mixed hs.w ht.w hw
        refine ⟨.assertionError, ?_⟩
        have hne : l ++ m ≠ [] := by
          intro h; apply hw; left; rw [h]; simp
        unfold mergeOut
        simp only [if_true]
        have hi : initSD (s.X ++ t.X).length (.vec (s.sd ++ t.sd)) = .ok (s.sd ++ t.sd) := by
          rw [hs.sd, ht.sd, ← List.map_append]
          cases hlm : l ++ m with
          | nil => exact absurd hlm hne
          | cons a l => rfl
        rw [new_eq _ _ _ _ _ _ hi]
        apply finish_error
        rintro ⟨-, -, h3⟩
        have := h3 h1
        simp only [hs.X, ht.X, Option.getD_some, List.length_append, List.length_map] at this h2
        omega
  | addDomain a b iha ihb => exact iha.bind (fun s l hs => ihb.bind (fun t m ht => Sim.ok (mergeOut_false hs ht)))
  | select a c r ih =>
    refine ih.bind (fun s l hs => ?_)
    cases c with
    | X p => exact Sim.mask hs _ r _ (by rw [hs.X, List.map_map]; rfl)
    | y p =>
      refine Sim.mask hs _ r _ ?_
      rw [hs.hasY, hs.y, List.map_map, List.zipWith_map_left, List.zipWith_map_right, List.zipWith_self]
      rfl
    | sd p => exact Sim.mask hs _ r _ (by rw [hs.sd, List.map_map]; rfl)
    | w p =>
      simp only [Deep.select]
      rcases hs.w with ⟨h0, h1, h2⟩ | ⟨h0, h1, h2⟩
      · rw [h1, if_pos]
        · exact Sim.err ⟨.unboundLocalError, rfl⟩
        · cases l with
          | nil => rfl
          | cons a l => simp [h2 a (by simp)]
      · rw [h1, if_neg]
        · refine Sim.mask hs _ r _ ?_
          have : l.map (fun v => v.w.any p) = (l.map Rec.w).map (fun o => o.any p) := by rw [List.map_map]; rfl
          rw [this, h2, List.map_map]
          rfl
        · simp only [Bool.or_eq_true, List.isEmpty_iff, List.any_eq_true, not_or, not_exists, not_and]
          refine ⟨h0, fun v hv hn => ?_⟩
          have : v.w ∈ l.map Rec.w := List.mem_map_of_mem hv
          rw [h2, List.mem_map] at this
          obtain ⟨u, -, hu⟩ := this
          rw [← hu] at hn; simp at hn
    | other => exact Sim.err ⟨.valueError, rfl⟩
  | source a r ih => exact ih.bind (fun s l hs => Sim.mask hs _ r _ (by rw [hs.sd, List.map_map]; rfl))
  | target a r ih => exact ih.bind (fun s l hs => Sim.mask hs _ r _ (by rw [hs.sd, List.map_map]; rfl))
  | domain a d r ih => exact ih.bind (fun s l hs => Sim.mask hs _ r _ (by rw [hs.sd, List.map_map]; rfl))
  | labelled a r ih => exact ih.bind (fun s l hs => Sim.mask hs _ r _ hs.hasY)
  | addWeights a w ih =>
    refine ih.bind (fun s l hs => ?_)
    unfold Deep.addWeights
    simp only
    cases w with
    | nil =>
      have hH : Holds noLabel ({ s with w := [], hasW := decide (0 < ([] : List K).length) } : DS K α Y) (l.map Rec.unweighted) :=
        ⟨by simp only [hs.X, List.map_map, Function.comp_def, Rec.unweighted], by simp only [hs.y, List.map_map, Function.comp_def, Rec.unweighted],
          by simp only [hs.sd, List.map_map, Function.comp_def, Rec.unweighted], by simp only [hs.hasY, List.map_map]; rfl,
          holdsW_unweighted l, hs.idx⟩
      rw [if_pos hH.correct]
      exact Sim.ok ⟨_, rfl, hH⟩
    | cons v w =>
      simp only [List.isEmpty_cons, Bool.false_eq_true, if_false]
      by_cases hl : (v :: w).length = l.length
      · rw [if_pos hl]
        have e : ∀ {γ : Type} (f : Rec K α Y → γ) (g : Rec K α Y → K → γ) (_ : ∀ r v, g r v = f r) (l : List (Rec K α Y)) (w : List K),
            w.length = l.length → List.zipWith g l w = l.map f := by
          intro γ f g hg l
          induction l with
          | nil => intro w _; rfl
          | cons a l ih =>
            intro w hw
            cases w with
            | nil => simp at hw
            | cons u w => simp [hg, ih w (by simpa using hw)]
        have ew : ∀ (l : List (Rec K α Y)) (w : List K), w.length = l.length →
            (List.zipWith (fun (r : Rec K α Y) (v : K) => ({ r with w := some v } : Rec K α Y)) l w).map Rec.w = w.map some := by
          intro l
          induction l with
          | nil => intro w hw; cases w <;> simp_all
          | cons a l ih =>
            intro w hw
            cases w with
            | nil => simp at hw
            | cons u w => simp [ih w (by simpa using hw)]
        have hH : Holds noLabel ({ s with w := v :: w, hasW := decide (0 < (v :: w).length) } : DS K α Y)
            (List.zipWith (fun r v => { r with w := some v }) l (v :: w)) := by
          refine ⟨?_, ?_, ?_, ?_, .inr ⟨?_, by simp, ew l _ hl⟩, hs.idx⟩
          · rw [List.map_zipWith, e Rec.x _ (fun _ _ => rfl) l _ hl]; exact hs.X
          · rw [List.map_zipWith, e Rec.y _ (fun _ _ => rfl) l _ hl]; exact hs.y
          · rw [List.map_zipWith, e Rec.d _ (fun _ _ => rfl) l _ hl]; exact hs.sd
          · rw [List.map_zipWith, e (fun r => decide (r.y ≠ noLabel)) _ (fun _ _ => rfl) l _ hl]; exact hs.hasY
          · intro h
            have := congrArg List.length h
            rw [List.length_zipWith, hl] at this
            simp only [min_self, List.length_nil] at this
            simp at hl; omega
        rw [if_pos hH.correct]
        exact Sim.ok ⟨_, rfl, hH⟩
      · rw [if_neg hl, if_neg]
        · exact Sim.err ⟨_, rfl⟩
        · intro hc
          unfold isCorrect at hc
          simp only [Bool.and_eq_true, decide_eq_true_eq, Bool.or_eq_true, Bool.not_eq_true', decide_eq_false_iff_not] at hc
          rcases hc.2 with h | h
          · rw [hs.X] at h; simp only [List.length_map] at h; exact hl h.symm
          · simp at h
  | removeWeights a ih =>
    refine ih.bind (fun s l hs => Sim.ok ⟨_, rfl, ?_⟩)
    exact ⟨by simp only [Deep.removeWeights, hs.X, List.map_map, Function.comp_def, Rec.unweighted],
      by simp only [Deep.removeWeights, hs.y, List.map_map, Function.comp_def, Rec.unweighted],
      by simp only [Deep.removeWeights, hs.sd, List.map_map, Function.comp_def, Rec.unweighted],
      by simp only [Deep.removeWeights, hs.hasY, List.map_map]; rfl,
      holdsW_unweighted l, hs.idx⟩

/-- C44: all histories that do not merge in place. The dataset holds, row by row, the samples the calls ask for (`meaning`): iterating gives
them in order, each with its own label, domain, weight and with the rank within its domain as sample index, and `len` is their number; a
history without a meaning raises. Missing for the full claim: in-place merging, for which it is false (below). -/
theorem C44_histories_partial (noLabel : Y) (h : Hist K α Y) :
    (∀ l, meaning noLabel h = some l → ∃ s, h.run noLabel = .ok s ∧ Deep.iter s = ranked l ∧ Deep.len s = .ok l.length ∧
      s.X.length = l.length ∧ s.y.length = l.length ∧ s.sd.length = l.length ∧ s.idx.length = l.length ∧
      (s.hasW = true → s.w.length = l.length)) ∧
    (meaning noLabel h = none → ∃ e, h.run noLabel = .error e) := by
  have H := run_sim noLabel h
  refine ⟨fun l hl => ?_, H.2⟩
  obtain ⟨s, h1, h2⟩ := H.1 l hl
  refine ⟨s, h1, h2.iter, h2.len, by rw [h2.X, List.length_map], by rw [h2.y, List.length_map], by rw [h2.sd, List.length_map],
    by rw [h2.idx, length_ranksFrom, h2.sd, List.length_map], fun hw => ?_⟩
  have := h2.w
  rw [hw] at this
  exact this.length

/-- The sample index of `ranked` is the rank within the domain. -/
theorem C44_rank (l : List (Rec K α Y)) (i : Nat) (r : Rec K α Y) (h : l[i]? = some r) :
    (ranked l)[i]? = some ⟨r.x, r.d, (l.take i).countP (fun q => decide (q.d = r.d)), r.w, r.y⟩ := by
  unfold ranked
  rw [getElem?_rankedFrom, h]
  simp only [Option.map_some, List.count, List.countP_map, List.countP_nil, Nat.zero_add]
  congr 2

/-- C44 (in-place merging, negation). For all datasets reached by a history and every one merged into it with `out=False`, the
merged dataset says it has all the rows, but iterating over it (which is how the samplers see it) stops after the old rows: the rows that
were merged in are never seen, and asking for one raises `IndexError`. -/
theorem C44_inplace_counterexample (noLabel : Y) (g h : Hist K α Y) (l m : List (Rec K α Y)) (s t : DS K α Y)
    (hl : meaning noLabel g = some l) (hm : meaning noLabel h = some m) (hs : g.run noLabel = .ok s) (ht : h.run noLabel = .ok t)
    (keep : Bool) (hok : (mergeIn s t keep).2 = .ok ()) :
    Deep.len (mergeIn s t keep).1 = .ok (l.length + m.length) ∧
    (Deep.iter (mergeIn s t keep).1).length = l.length ∧
    ∀ i, l.length ≤ i → i < l.length + m.length → Deep.getItem (mergeIn s t keep).1 i = .error .indexError := by
  obtain ⟨s', hs', Hs⟩ := (run_sim noLabel g).1 l hl
  obtain ⟨t', ht', Ht⟩ := (run_sim noLabel h).1 m hm
  rw [hs] at hs'; injection hs' with hs'; subst hs'
  rw [ht] at ht'; injection ht' with ht'; subst ht'
  have hc : isCorrect (mergeIn s t keep).1 = true := by
    unfold mergeIn at hok ⊢
    simp only at hok ⊢
    by_contra hh
    rw [if_neg hh] at hok
    simp at hok
  have hidx : (mergeIn s t keep).1.idx.length = l.length := by
    show s.idx.length = _
    rw [Hs.idx, length_ranksFrom, Hs.sd, List.length_map]
  have hX : (mergeIn s t keep).1.X.length = l.length + m.length := by
    show (s.X ++ t.X).length = _
    rw [Hs.X, Ht.X]; simp
  have hgetE : ∀ i, l.length ≤ i → Deep.getItem (mergeIn s t keep).1 i = .error .indexError := by
    intro i hi
    unfold Deep.getItem
    rw [List.getElem?_eq_none (by omega : (mergeIn s t keep).1.idx.length ≤ i)]
    split
    · simp_all
    · rfl
  have hgetO : ∀ i, i < l.length → ∃ a, Deep.getItem (mergeIn s t keep).1 i = .ok a := by
    intro i hi
    unfold isCorrect at hc
    simp only [Bool.and_eq_true, decide_eq_true_eq, Bool.or_eq_true, Bool.not_eq_true'] at hc
    unfold Deep.getItem
    rw [List.getElem?_eq_getElem (by omega : i < (mergeIn s t keep).1.X.length),
      List.getElem?_eq_getElem (by omega : i < (mergeIn s t keep).1.sd.length),
      List.getElem?_eq_getElem (by omega : i < (mergeIn s t keep).1.idx.length),
      List.getElem?_eq_getElem (by omega : i < (mergeIn s t keep).1.y.length)]
    simp only
    cases hw : (mergeIn s t keep).1.hasW with
    | false => exact ⟨_, rfl⟩
    | true =>
      have : (mergeIn s t keep).1.X.length = (mergeIn s t keep).1.w.length := by
        rcases hc.2 with h | h
        · exact h
        · rw [hw] at h; simp at h
      rw [List.getElem?_eq_getElem (by omega : i < (mergeIn s t keep).1.w.length)]
      exact ⟨_, rfl⟩
  refine ⟨by unfold Deep.len; rw [if_pos hc, hX], ?_, fun i h1 _ => hgetE i h1⟩
  have hiter : ∀ fuel n, n ≤ l.length → l.length ≤ n + fuel → (iterFrom (mergeIn s t keep).1 fuel n).length = l.length - n := by
    intro fuel
    induction fuel with
    | zero => intro n _ h2; simp only [iterFrom, List.length_nil]; omega
    | succ fuel ih =>
      intro n h1 h2
      unfold iterFrom
      by_cases hn : n < l.length
      · obtain ⟨a, ha⟩ := hgetO n hn
        rw [ha]
        simp only [List.length_cons]
        rw [ih (n + 1) (by omega) (by omega)]; omega
      · rw [hgetE n (by omega)]
        simp only [List.length_nil]; omega
  unfold Deep.iter
  rw [hiter _ 0 (by omega) (by omega)]
  omega

private def demoA : Hist ℚ ℚ Int := .new [10, 11, 12] (some [0, 1, -1]) (.vec [1, 2, 1]) none
private def demoB : Hist ℚ ℚ Int := .new [20, 21] none (.vec [-3, 1]) none

/-- Merging, selecting and weighting: the third row is the second of domain 1, the last one its third. -/
example : ((Hist.merge demoA demoB false).run (-1)).map Deep.iter =
    .ok [⟨10, 1, 0, none, 0⟩, ⟨11, 2, 0, none, 1⟩, ⟨12, 1, 1, none, -1⟩, ⟨20, -3, 0, none, -1⟩, ⟨21, 1, 2, none, -1⟩] := by
  decide +kernel
example : ((Hist.labelled (.addWeights (.merge demoA demoB false) [1, 2, 3, 4, 5]) true).run (-1)).map Deep.iter =
    .ok [⟨10, 1, 0, some 1, 0⟩, ⟨11, 2, 0, some 2, 1⟩] := by decide +kernel
example : (do
    let s ← demoA.run (-1)
    let t ← demoB.run (-1)
    return (mergeIn s t false).1.X.length == 5 && (Deep.iter (mergeIn s t false).1).length == 3) = .ok true := by decide +kernel
/-- A refused `add_weights` has already replaced the weights: the dataset is unusable afterwards. -/
example : (do
    let s ← demoA.run (-1)
    return Deep.len (Deep.addWeights s [1, 2]).1) = (.ok (.error .assertionError) : Py (Py Nat)) := by decide +kernel

/-! ### C78: restrictions to domains -/

theorem rankedFrom_filter (p : Int → Bool) (b b' : List Int) (l : List (Rec K α Y)) (hb : ∀ d, p d = true → b.count d = b'.count d) :
    rankedFrom b' (l.filter (fun r => p r.d)) = (rankedFrom b l).filter (fun a => p a.d) := by
  induction l generalizing b b' with
  | nil => rfl
  | cons r l ih =>
    simp only [List.filter_cons, rankedFrom]
    cases hp : p r.d with
    | true =>
      simp only [if_true, rankedFrom]
      rw [ih (b ++ [r.d]) (b' ++ [r.d]) (fun d hd => by rw [List.count_append, List.count_append, hb d hd]), hb _ hp]
    | false =>
      simp only [Bool.false_eq_true, if_false]
      refine ih (b ++ [r.d]) b' (fun d hd => ?_)
      have hne : r.d ≠ d := by rintro rfl; rw [hp] at hd; simp at hd
      rw [List.count_append, hb d hd]
      simp [hne]

theorem ranked_filter (p : Int → Bool) (l : List (Rec K α Y)) :
    ranked (l.filter (fun r => p r.d)) = (ranked l).filter (fun a => p a.d) := rankedFrom_filter p [] [] l (fun _ _ => rfl)

/-- C78 (sides and domains). For every dataset reached by a history, `select_source`, `select_target` and `select_domain` give exactly the
items of that side or domain, in order, with their label, weight **and sample index**; so source and target items together are the items of
the dataset. -/
theorem C78_restrict (noLabel : Y) (h : Hist K α Y) (s : DS K α Y) (hs : h.run noLabel = .ok s) (d : Int) :
    ∃ a b c, selectSource noLabel s true = .ok a ∧ selectTarget noLabel s true = .ok b ∧ selectDomain noLabel s d true = .ok c ∧
      Deep.iter a = (Deep.iter s).filter (fun i => decide (0 ≤ i.d)) ∧ Deep.iter b = (Deep.iter s).filter (fun i => decide (i.d < 0)) ∧
      Deep.iter c = (Deep.iter s).filter (fun i => decide (i.d = d)) ∧ (Deep.iter a ++ Deep.iter b).Perm (Deep.iter s) := by
  have H := run_sim noLabel h
  cases hm : meaning noLabel h with
  | none => obtain ⟨e, he⟩ := H.2 hm; rw [hs] at he; simp at he
  | some l =>
    obtain ⟨s', hs', Hs⟩ := H.1 l hm
    rw [hs] at hs'; injection hs' with hs'; subst hs'
    have key : ∀ p : Int → Bool, ∃ a, selectMask noLabel s (s.sd.map p) true = .ok a ∧
        Deep.iter a = (Deep.iter s).filter (fun i => p i.d) := by
      intro p
      obtain ⟨a, ha, Ha⟩ := selectMask_ok Hs (fun r => p r.d) true
      rw [Hs.sd, List.map_map]
      exact ⟨a, ha, by rw [Ha.iter, Hs.iter]; exact ranked_filter p l⟩
    obtain ⟨a, ha, ha'⟩ := key (fun v => decide (0 ≤ v))
    obtain ⟨b, hb, hb'⟩ := key (fun v => decide (v < 0))
    obtain ⟨c, hc, hc'⟩ := key (fun v => decide (v = d))
    refine ⟨a, b, c, ha, hb, hc, ha', hb', hc', ?_⟩
    rw [ha', hb']
    have : (Deep.iter s).filter (fun i => decide (i.d < 0)) = (Deep.iter s).filter (fun i => !decide (0 ≤ i.d)) := by
      congr 1; funext i; by_cases h : 0 ≤ i.d
      · simp [h]
      · simp [h]; omega
    rw [this]
    exact List.filter_append_perm _ _

/-- C78 (`per_domain_split`). The keys are the domains that occur, each once and in increasing order, and each part has exactly the items of
its domain, sample indices included. -/
theorem C78_per_domain (noLabel : Y) (h : Hist K α Y) (s : DS K α Y) (hs : h.run noLabel = .ok s) :
    ∃ parts, perDomain noLabel s true = .ok parts ∧ (parts.map Prod.fst).Pairwise (· < ·) ∧
      (∀ d, d ∈ parts.map Prod.fst ↔ ∃ i ∈ Deep.iter s, i.d = d) ∧
      (∀ q ∈ parts, Deep.iter q.2 = (Deep.iter s).filter (fun i => decide (i.d = q.1))) := by
  have hd := fun d => C78_restrict noLabel h s hs d
  choose a b c h1 h2 h3 h4 h5 h6 h7 using hd
  have H := run_sim noLabel h
  cases hm : meaning noLabel h with
  | none => obtain ⟨e, he⟩ := H.2 hm; rw [hs] at he; simp at he
  | some l =>
    obtain ⟨s', hs', Hs⟩ := H.1 l hm
    rw [hs] at hs'; injection hs' with hs'; subst hs'
    refine ⟨(unique s.sd).map (fun d => (d, c d)), ?_, ?_, ?_, ?_⟩
    · unfold perDomain
      apply mapM_ok
      intro d _
      rw [h3 d]; rfl
    · rw [List.map_map, show (Prod.fst ∘ fun d => (d, c d)) = id from rfl, List.map_id]
      exact pairwise_unique _
    · intro d
      rw [List.map_map, show (Prod.fst ∘ fun d => (d, c d)) = id from rfl, List.map_id, mem_unique, Hs.sd, Hs.iter]
      constructor
      · intro hmem
        obtain ⟨r, hr, rfl⟩ := List.mem_map.1 hmem
        obtain ⟨i, hi⟩ := List.mem_iff_getElem?.1 hr
        exact ⟨_, List.mem_of_getElem? (C44_rank l i r hi), rfl⟩
      · rintro ⟨a, ha, rfl⟩
        obtain ⟨i, hi⟩ := List.mem_iff_getElem?.1 ha
        unfold ranked at hi
        rw [getElem?_rankedFrom, Option.map_eq_some_iff] at hi
        obtain ⟨r, hr, rfl⟩ := hi
        exact List.mem_map_of_mem (List.mem_of_getElem? hr)
    · intro q hq
      obtain ⟨d, -, rfl⟩ := List.mem_map.1 hq
      exact h6 d

/-- C78 (negation: masked regression targets). skada masks regression targets with NaN, and only `-1` counts as "no label": all masked rows
survive `select_with_labels`. -/
theorem C78_nan_counterexample :
    ∃ s, Deep.new (.fin (-1)) [1, 2] (some [Num.fin 3, Num.nan]) (.vec [1, -2]) (none : Option (List ℚ)) = .ok s ∧
      (selectLabelled (.fin (-1)) s true).map (fun t => t.y) = .ok [Num.fin 3, Num.nan] :=
  ⟨⟨[1, 2], [Num.fin 3, Num.nan], [1, -2], [], [true, true], false, [0, 0]⟩, by decide +kernel, by decide +kernel⟩

example : (do
    let s ← (Hist.merge demoA demoB false).run (-1)
    let t ← selectDomain (-1) s 1 true
    return Deep.iter t) = .ok [⟨10, 1, 0, none, 0⟩, ⟨12, 1, 1, none, -1⟩, ⟨21, 1, 2, none, -1⟩] := by decide +kernel

end Dataset

/-! ### C76: prediction and scoring of a network -/

section Net
set_option linter.unusedSectionVars false
variable {K α : Type} [Field K] [LinearOrder K]

/-- The predicted class of a row of outputs: the first position of the largest output. -/
def Spec.IsClass (r : List K) (c : Nat) : Prop :=
  ∃ v, r[c]? = some v ∧ (∀ u ∈ r, u ≤ v) ∧ ∀ (j : Nat) (u : K), j < c → r[j]? = some u → u < v

theorem mapM_argmax (l : List (List K)) (h : ∀ r ∈ l, r ≠ []) :
    ∃ p : List Nat, l.mapM (fun r => argmax r) = .ok p ∧ List.Forall₂ IsClass l p := by
  induction l with
  | nil => exact ⟨[], rfl, .nil⟩
  | cons a l ih =>
    obtain ⟨p, hp, hl⟩ := ih (fun r hr => h r (by simp [hr]))
    obtain ⟨i, y, hi, h1, h2, h3⟩ := argmax_spec (h a (by simp))
    exact ⟨i :: p, by rw [List.mapM_cons, hi, hp]; rfl, .cons ⟨y, h1, h2, h3⟩ hl⟩

theorem new_vec (noLabel : Int) (X : List α) (y : List Int) (sd : List Int) (hy : X.length = y.length) (hd : X.length = sd.length) :
    ∃ s l, (Deep.new noLabel X (some y) (.vec sd) none : Py (DS K α Int)) = .ok s ∧ Holds noLabel s l ∧
      X = l.map Rec.x ∧ y = l.map Rec.y ∧ sd = l.map Rec.d := by
  have H := new_holds (K := K) noLabel X (some y) (.vec sd) none
  have e1 : fill X.length noLabel y = y := by cases y with
    | nil => simp at hy; simp [fill, hy]
    | cons a y => rfl
  have e2 : fill X.length 0 sd = sd := by cases sd with
    | nil => simp at hd; simp [fill, hd]
    | cons a y => rfl
  have e3 : made noLabel X (some y) (.vec sd) none = records X y sd (List.replicate X.length (none : Option K)) := by
    simp only [made, Option.getD_some, e1, e2]; rfl
  rw [e3] at H
  cases hr : records X y sd (List.replicate X.length (none : Option K)) with
  | none => exact absurd ⟨hy, hy ▸ hd, by simp⟩ ((records_iff _ _ _ _).2 hr)
  | some l =>
    obtain ⟨s, hs, Hs⟩ := H.1 l hr
    obtain ⟨h1, h2, h3, -⟩ := (records_iff _ _ _ _).1 l hr
    exact ⟨s, l, hs, Hs, h1, h2, h3⟩

/-- Prediction on a dataset holding records. -/
theorem predict_holds {noLabel : Int} {f : α → List K} {s : DS K α Int} {l : List (Rec K α Int)} (Hs : Holds noLabel s l)
    (hf : ∀ x, f x ≠ []) (allow : Bool) :
    (∀ r ∈ l, allow = false → 0 ≤ r.d) ∧ (allow = true → l = []) ∧ Deep.predict noLabel f s allow = .error .valueError ∨
    ∃ p, Deep.predict noLabel f s allow = .ok p ∧
      List.Forall₂ IsClass ((l.filter (fun r => allow || decide (r.d < 0))).map (fun r => f r.x)) p := by
  have key : ∀ (m : List (Rec K α Int)), m ≠ [] → ∃ p, (do
      let p ← (if m.map Rec.x = [] then .error .valueError else .ok ((m.map Rec.x).map f) : Py (List (List K)))
      p.mapM (fun r => argmax r)) = .ok p ∧ List.Forall₂ IsClass (m.map (fun r => f r.x)) p := by
    intro m hm
    rw [if_neg (by simpa using hm)]
    simp only [ok_bind, List.map_map]
    exact mapM_argmax _ (fun r hr => by obtain ⟨q, -, rfl⟩ := List.mem_map.1 hr; exact hf _)
  cases allow with
  | true =>
    by_cases hl : l = []
    · left
      refine ⟨by simp, fun _ => hl, ?_⟩
      simp only [Deep.predict, predictProba, if_true, ok_bind, Hs.X, hl]
      rfl
    · right
      obtain ⟨p, hp, hp'⟩ := key l hl
      refine ⟨p, ?_, by simpa using hp'⟩
      simp only [Deep.predict, predictProba, if_true, ok_bind, Hs.X]
      exact hp
  | false =>
    obtain ⟨t, ht, Ht⟩ := selectMask_ok Hs (fun r => decide (r.d < 0)) true
    have hsel : selectTarget noLabel s true = .ok t := by
      unfold selectTarget; rw [Hs.sd, List.map_map]; exact ht
    simp only [if_true] at Ht
    by_cases hl : l.filter (fun r => decide (r.d < 0)) = []
    · left
      refine ⟨fun r hr _ => ?_, by simp, ?_⟩
      · rw [List.filter_eq_nil_iff] at hl
        simpa using hl r hr
      · simp only [Deep.predict, predictProba, hsel, Bool.false_eq_true, if_false, ok_bind, Ht.X, hl]
        rfl
    · right
      obtain ⟨p, hp, hp'⟩ := key _ hl
      refine ⟨p, ?_, by simpa using hp'⟩
      simp only [Deep.predict, predictProba, hsel, Bool.false_eq_true, if_false, ok_bind, Ht.X]
      exact hp

/-- C76 (prediction). For every network and data: with `sample_domain` given, `predict` gives one class per target row, in order (one per row
with `allow_source=True`); it raises `ValueError` when there is no row to predict. -/
theorem C76_predict (noLabel : Int) (f : α → List K) (hf : ∀ x, f x ≠ []) (X : List α) (y sd : List Int) (hy : X.length = y.length)
    (hd : X.length = sd.length) (s : DS K α Int) (hs : Deep.new noLabel X (some y) (.vec sd) none = .ok s) :
    (targetRows sd X ≠ [] → ∃ p, Deep.predict noLabel f s false = .ok p ∧ List.Forall₂ IsClass ((targetRows sd X).map f) p) ∧
    (targetRows sd X = [] → Deep.predict noLabel f s false = .error .valueError) ∧
    (X ≠ [] → ∃ p, Deep.predict noLabel f s true = .ok p ∧ List.Forall₂ IsClass (X.map f) p) := by
  obtain ⟨s', l, hs', Hs, h1, h2, h3⟩ := new_vec (K := K) noLabel X y sd hy hd
  rw [hs] at hs'; injection hs' with hs'; subst hs'
  have ht : targetRows sd X = (l.filter (fun r => decide (r.d < 0))).map Rec.x := by
    rw [← sel_target, h1, h3, List.map_map]
    exact sel_map_map (fun r : Rec K α Int => decide (r.d < 0)) Rec.x l
  refine ⟨fun hne => ?_, fun he => ?_, fun hne => ?_⟩
  · rcases predict_holds Hs hf false with ⟨h, -, -⟩ | ⟨p, hp, hp'⟩
    · exfalso
      apply hne
      rw [ht, List.map_eq_nil_iff, List.filter_eq_nil_iff]
      intro r hr
      simpa using h r hr rfl
    · refine ⟨p, hp, ?_⟩
      rw [ht, List.map_map]
      simpa using hp'
  · have hfl : l.filter (fun r => decide (r.d < 0)) = [] := by rw [ht, List.map_eq_nil_iff] at he; exact he
    rcases predict_holds Hs hf false with ⟨-, -, h⟩ | ⟨p, hp, hp'⟩
    · exact h
    · obtain ⟨t, ht2, Ht⟩ := selectMask_ok Hs (fun r => decide (r.d < 0)) true
      have hsel : selectTarget noLabel s true = .ok t := by
        unfold selectTarget; rw [Hs.sd, List.map_map]; exact ht2
      simp only [if_true] at Ht
      simp only [Deep.predict, predictProba, hsel, Bool.false_eq_true, if_false, ok_bind, Ht.X, hfl]
      rfl
  · rcases predict_holds Hs hf true with ⟨-, h, -⟩ | ⟨p, hp, hp'⟩
    · exact absurd (by rw [h1, h rfl]; rfl) hne
    · exact ⟨p, hp, by rw [h1, List.map_map]; simpa using hp'⟩

/-- C76 (score, what holds). When no row is left out (all rows are target, or `allow_source=True`) the score is the fraction of rows whose
predicted class is the label. -/
theorem C76_score_partial (noLabel : Int) (f : α → List K) (hf : ∀ x, f x ≠ []) (X : List α) (y sd : List Int) (hy : X.length = y.length)
    (hd : X.length = sd.length) (hne : X ≠ []) (allow : Bool) (h : allow = true ∨ ∀ d ∈ sd, d < 0) :
    ∃ c, List.Forall₂ IsClass (X.map f) c ∧
      Deep.score noLabel f X y (.vec sd) allow =
        .ok (((y.zip c).countP (fun q => decide (q.1 = (q.2 : Int))) : K) / (X.length : K)) := by
  obtain ⟨s, l, hs, Hs, h1, h2, h3⟩ := new_vec (K := K) noLabel X y sd hy hd
  have hacc : ∀ (p : List Nat), p.length = y.length → (accuracy y p : Py K) =
      .ok (((y.zip p).countP (fun q => decide (q.1 = (q.2 : Int))) : K) / (X.length : K)) := by
    intro p hp
    unfold accuracy
    rw [if_pos ⟨hp.symm, by rintro rfl; simp at hy; exact hne hy⟩, hy]
    congr 2
    clear h1 h2 h3 hs Hs hne hd hy h
    induction y generalizing p with
    | nil => cases p <;> simp
    | cons a y ih =>
      cases p with
      | nil => simp at hp
      | cons b p =>
        simp only [List.zipWith_cons_cons, List.sum_cons, List.zip_cons_cons, List.countP_cons]
        rw [ih p (by simpa using hp)]
        by_cases hab : a = (b : Int)
        · simp [hab]; ring
        · simp [hab]
  have hall : ∃ t, (if allow then .ok s else selectTarget noLabel s true) = .ok t ∧ Holds noLabel t l := by
    cases allow with
    | true => exact ⟨s, rfl, Hs⟩
    | false =>
      obtain ⟨t, ht, Ht⟩ := selectMask_ok Hs (fun r => decide (r.d < 0)) true
      have hsel : selectTarget noLabel s true = .ok t := by
        unfold selectTarget; rw [Hs.sd, List.map_map]; exact ht
      have : l.filter (fun r => decide (r.d < 0)) = l := by
        rw [List.filter_eq_self]
        intro r hr
        have := (h.resolve_left (by simp)) r.d (by rw [h3]; exact List.mem_map_of_mem hr)
        simpa using this
      rw [this] at Ht
      exact ⟨t, hsel, Ht⟩
  obtain ⟨t, ht, Ht⟩ := hall
  rcases predict_holds Ht hf allow with ⟨g1, g2, -⟩ | ⟨p, hp, hp'⟩
  · exfalso
    have hl : l ≠ [] := by rintro rfl; rw [h1] at hne; exact hne rfl
    obtain ⟨r, hr⟩ := List.exists_mem_of_ne_nil l hl
    cases allow with
    | true => exact hl (g2 rfl)
    | false =>
      have := (h.resolve_left (by simp)) r.d (by rw [h3]; exact List.mem_map_of_mem hr)
      have := g1 r hr rfl
      omega
  · have hfil : l.filter (fun r => allow || decide (r.d < 0)) = l := by
      rw [List.filter_eq_self]
      intro r hr
      rcases h with rfl | h
      · rfl
      · simp [h r.d (by rw [h3]; exact List.mem_map_of_mem hr)]
    rw [hfil] at hp'
    have hXf : X.map f = l.map (fun r => f r.x) := by rw [h1, List.map_map]; rfl
    refine ⟨p, by rw [hXf]; exact hp', ?_⟩
    unfold Deep.score
    rw [hs]
    have hl := hacc p (by rw [← hp'.length_eq, List.length_map, h2, List.length_map])
    cases allow with
    | true =>
      simp only [if_true, Except.ok.injEq] at ht
      subst ht
      simp only [ok_bind, if_true, hp]
      exact hl
    | false =>
      simp only [Bool.false_eq_true, if_false] at ht
      simp only [ok_bind, Bool.false_eq_true, if_false, ht, hp]
      exact hl

/-- C76 (score, negation). With `allow_source=False` (the default) and at least one source row in the data, `score` always raises
`ValueError`: the rows are restricted to the target, the labels are not. The same holds when `sample_domain` is not given, for all data. -/
theorem C76_score_counterexample (noLabel : Int) (f : α → List K) (hf : ∀ x, f x ≠ []) (X : List α) (y sd : List Int)
    (hy : X.length = y.length) (hd : X.length = sd.length) (h : ∃ d ∈ sd, 0 ≤ d) :
    Deep.score noLabel f X y (.vec sd) false = .error .valueError ∧ Deep.score noLabel f X y .none false = .error .valueError := by
  have main : ∀ (sd : List Int), X.length = sd.length → (∃ d ∈ sd, 0 ≤ d) → Deep.score noLabel f X y (.vec sd) false = .error .valueError := by
    intro sd hd h
    obtain ⟨s, l, hs, Hs, h1, h2, h3⟩ := new_vec (K := K) noLabel X y sd hy hd
    obtain ⟨t, ht, Ht⟩ := selectMask_ok Hs (fun r => decide (r.d < 0)) true
    have hsel : selectTarget noLabel s true = .ok t := by
      unfold selectTarget; rw [Hs.sd, List.map_map]; exact ht
    simp only [if_true] at Ht
    unfold Deep.score
    rw [hs]
    simp only [ok_bind, Bool.false_eq_true, if_false]
    rw [hsel]
    simp only [ok_bind]
    rcases predict_holds Ht hf false with ⟨-, -, g⟩ | ⟨p, hp, hp'⟩
    · rw [g]; rfl
    · rw [hp]
      simp only [ok_bind]
      unfold accuracy
      rw [if_neg]
      rintro ⟨hl, -⟩
      have e := hp'.length_eq
      rw [List.length_map] at e
      obtain ⟨d, hdm, hd0⟩ := h
      rw [h3] at hdm
      obtain ⟨r, hr, rfl⟩ := List.mem_map.1 hdm
      have hlt : (l.filter (fun r => decide (r.d < 0))).length < l.length := by
        rw [List.length_filter_lt_length_iff_exists]
        exact ⟨r, hr, by simpa using hd0⟩
      have hle := List.length_filter_le (fun r => false || decide (r.d < 0)) (l.filter (fun r => decide (r.d < 0)))
      rw [h2, List.length_map] at hl
      omega
  refine ⟨main sd hd h, ?_⟩
  have e : Deep.score noLabel f X y .none false = Deep.score noLabel f X y (.vec (List.replicate X.length 0)) false := by
    unfold Deep.score Deep.new
    cases X <;> rfl
  rw [e]
  apply main
  · simp
  · refine ⟨0, ?_, le_refl _⟩
    obtain ⟨d, hdm, -⟩ := h
    have : 0 < sd.length := List.length_pos_of_mem hdm
    rw [List.mem_replicate]
    exact ⟨by omega, rfl⟩

private def demoNet : ℚ → List ℚ := fun x => [1 - x, x]

example : Deep.score (-1) demoNet [0, 1, 1] [0, 1, 0] (.vec [-1, -1, -2]) false = .ok (2 / 3) := by decide +kernel
example : Deep.score (-1) demoNet [0, 1, 1] [0, 1, 0] (.vec [1, -1, -2]) true = .ok (2 / 3) := by decide +kernel
example : Deep.score (-1) demoNet [0, 1, 1] [0, 1, 0] (.vec [1, -1, -2]) false = .error .valueError := by decide +kernel

end Net

/-! ### C45: memory bank -/

section Memory
set_option linter.unusedSectionVars false
variable {K : Type} [Field K] {n : Nat}

/-- The sample indices of the target rows of a batch. -/
abbrev Spec.visited (b : List Int × List Nat × List (Fin n → K)) : List Nat := targetRows b.1 b.2.1

theorem putAll_map {β : Type} (f : β → β) (mem : List β) (bi : List Nat) (old : List β) (ho : Np.take mem bi = .ok old) (i : Nat) :
    (putAll mem (bi.zip (old.map f)))[i]? = if i ∈ bi then mem[i]?.map f else mem[i]? := by
  rw [take_ok_iff] at ho
  have gen : ∀ (bi : List Nat) (old : List β) (out : List β), List.Forall₂ (fun i x => mem[i]? = some x) bi old →
      out.length = mem.length →
      (putAll out (bi.zip (old.map f)))[i]? = if i ∈ bi then mem[i]?.map f else out[i]? := by
    intro bi
    induction bi with
    | nil => intro old out h hl; simp [putAll]
    | cons j bi ih =>
      intro old out h hl
      cases h with
      | cons hx ht =>
        rename_i x old
        simp only [List.map_cons, List.zip_cons_cons, putAll]
        rw [ih old _ ht (by simpa using hl)]
        by_cases h1 : i ∈ bi
        · simp [h1]
        · by_cases h2 : i = j
          · subst h2
            have hlt : i < out.length := by
              rw [hl]; rw [List.getElem?_eq_some_iff] at hx; exact hx.1
            simp [h1, hx, hlt]
          · simp only [h1, if_false, List.mem_cons, h2, or_self]
            rw [List.getElem?_set_ne (fun e => h2 e.symm)]
  exact gen bi old mem ho rfl

theorem bankStep_ok (mo : K) (mem : List (Fin n → K)) (b : List Int × List Nat × List (Fin n → K))
    (hl : b.2.1.length = b.1.length) (hi : ∀ i ∈ visited b, i < mem.length) :
    ∃ mem', bankStep mo mem b.1 b.2.1 b.2.2 = .ok mem' ∧ mem'.length = mem.length ∧
      ∀ i, mem'[i]? = if i ∈ visited b then mem[i]?.map (fun v c => (1 - mo) * v c) else mem[i]? := by
  unfold bankStep
  rw [boolIndex_ok (by simpa using hl), sel_target]
  simp only [ok_bind]
  obtain ⟨old, ho⟩ := take_ok_of_lt hi
  have ho' := ho
  rw [ho]
  simp only [ok_bind]
  have hlen : old.length = (targetRows b.1 b.2.1).length := by
    rw [take_ok_iff] at ho; exact ho.length_eq.symm
  rw [idxAssign_ok hi (by rw [List.length_map, hlen])]
  exact ⟨_, rfl, length_putAll _ _, fun i => putAll_map _ mem _ old ho' i⟩

/-- C45 (what the memory becomes, for all histories). After any sequence of batches the entry of a sample is its initial value times
`(1 - momentum)` to the number of batches that contained it. In particular entries of samples that were not visited are unchanged. -/
theorem C45_history_partial (mo : K) (bs : List (List Int × List Nat × List (Fin n → K))) (mem : List (Fin n → K))
    (hl : ∀ b ∈ bs, b.2.1.length = b.1.length) (hi : ∀ b ∈ bs, ∀ i ∈ visited b, i < mem.length) :
    ∃ mem', bankRun mo mem bs = .ok mem' ∧ mem'.length = mem.length ∧
      ∀ i, mem'[i]? = mem[i]?.map (fun v c => (1 - mo) ^ (bs.countP (fun b => decide (i ∈ visited b))) * v c) := by
  induction bs generalizing mem with
  | nil => exact ⟨mem, rfl, rfl, fun i => by simp⟩
  | cons b bs ih =>
    obtain ⟨m1, h1, h2, h3⟩ := bankStep_ok mo mem b (hl b (by simp)) (hi b (by simp))
    obtain ⟨m2, g1, g2, g3⟩ := ih m1 (fun b hb => hl b (by simp [hb])) (fun b hb i h => by rw [h2]; exact hi b (by simp [hb]) i h)
    obtain ⟨sd, idx, new⟩ := b
    refine ⟨m2, ?_, by omega, fun i => ?_⟩
    · unfold bankRun
      simp only at h1
      rw [h1]
      simp only [ok_bind]
      exact g1
    · rw [g3, h3]
      by_cases hv : i ∈ visited (sd, idx, new)
      · rw [if_pos hv, List.countP_cons_of_pos (by simpa using hv), Option.map_map]
        congr 1
        funext v c
        simp only [Function.comp_apply]
        ring
      · rw [if_neg hv, List.countP_cons_of_neg (by simpa using hv)]

/-- C45 (negation). The features of the batches never enter the memory: two histories with the same domains and sample indices but different
features leave the same memory. -/
theorem C45_features_counterexample (mo : K) (bs cs : List (List Int × List Nat × List (Fin n → K))) (mem : List (Fin n → K))
    (h : bs.map (fun b => (b.1, b.2.1)) = cs.map (fun b => (b.1, b.2.1))) : bankRun mo mem bs = bankRun mo mem cs := by
  induction bs generalizing cs mem with
  | nil =>
    cases cs with
    | nil => rfl
    | cons c cs => simp at h
  | cons b bs ih =>
    cases cs with
    | nil => simp at h
    | cons c cs =>
      obtain ⟨sd, idx, new⟩ := b
      obtain ⟨sd', idx', new'⟩ := c
      simp only [List.map_cons, List.cons.injEq, Prod.mk.injEq] at h
      obtain ⟨⟨rfl, rfl⟩, h⟩ := h
      unfold bankRun
      show (bankStep mo mem sd idx new >>= fun m => bankRun mo m bs) = (bankStep mo mem sd idx new >>= fun m => bankRun mo m cs)
      congr 1
      funext m
      exact ih cs m h

/-- C45 (the documented update fails). One visited sample, momentum 1/2: the documented value is `1/2 * 4 + 1/2 * 2 = 3`, the code gives 2. -/
theorem C45_update_counterexample :
    (bankRun (1 / 2 : ℚ) [fun _ : Fin 1 => 4] [([-1], [0], [fun _ => 2])]).map (List.map (fun v => v 0)) = .ok [2] := by
  decide +kernel

theorem idxOf_le_of_get {β : Type} [DecidableEq β] (l : List β) (x : β) (j : Nat) (h : l[j]? = some x) : l.idxOf x ≤ j := by
  induction l generalizing j with
  | nil => simp at h
  | cons a l ih =>
    rw [List.idxOf_cons]
    by_cases ha : a = x
    · simp [ha]
    · cases j with
      | zero => simp at h; exact absurd h ha
      | succ j => have := ih j (by simpa using h); rw [beq_false_of_ne ha]; simpa using this

/-- C45 (slots are shared between target domains). With two target domains in the data, two different rows have the same sample index and so
share one slot of the memory. -/
theorem C45_collision_counterexample {α Y : Type} (l : List (Rec K α Y)) (d e : Int) (hde : d ≠ e) (hd : d ∈ l.map Rec.d)
    (he : e ∈ l.map Rec.d) :
    ∃ (i j : Nat) (a b : Deep.Item K α Y), i ≠ j ∧ (ranked l)[i]? = some a ∧ (ranked l)[j]? = some b ∧ a.d = d ∧ b.d = e ∧ a.i = b.i := by
  have first : ∀ d ∈ l.map Rec.d, ∃ (i : Nat) (a : Deep.Item K α Y), (ranked l)[i]? = some a ∧ a.d = d ∧ a.i = 0 := by
    intro d hd
    have hi : (l.map Rec.d).idxOf d < (l.map Rec.d).length := List.idxOf_lt_length_iff.2 hd
    set i := (l.map Rec.d).idxOf d with hidx
    have hil : i < l.length := by simpa using hi
    have hrd : (l[i]).d = d := by
      have : (l.map Rec.d)[i] = d := List.getElem_idxOf hi
      simpa using this
    refine ⟨i, ⟨l[i].x, l[i].d, 0, l[i].w, l[i].y⟩, ?_, hrd, rfl⟩
    unfold ranked
    rw [getElem?_rankedFrom, List.getElem?_eq_getElem hil]
    simp only [Option.map_some, List.count_nil, Nat.zero_add]
    have hz : ((l.take i).map Rec.d).count (l[i]).d = 0 := by
      rw [hrd, List.count_eq_zero, List.map_take]
      intro hmem
      rw [List.mem_take_iff_getElem] at hmem
      obtain ⟨j, hj, hje⟩ := hmem
      have := idxOf_le_of_get (l.map Rec.d) d j (by rw [List.getElem?_eq_getElem (by omega), hje])
      omega
    rw [hz]
  obtain ⟨i, a, h1, h2, h3⟩ := first d hd
  obtain ⟨j, b, g1, g2, g3⟩ := first e he
  refine ⟨i, j, a, b, ?_, h1, g1, h2, g2, by omega⟩
  rintro rfl
  rw [h1] at g1
  injection g1 with g1
  subst g1
  exact hde (by omega)

example : (bankRun (1 / 2 : ℚ) [fun _ : Fin 1 => 4, fun _ => 8] [([-1, 1, -1], [0, 0, 1], []), ([-1], [1], [])]).map
    (List.map (fun v => v 0)) = .ok [2, 2] := by decide +kernel

end Memory

end Skada

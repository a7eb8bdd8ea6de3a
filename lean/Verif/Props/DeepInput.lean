/-
Properties of the forms of input of the deep nets (C106).
-/
import Verif.Model.DeepInput
import Verif.Lemmas.DeepDataset

namespace Skada
open Np Spec Deep

section
set_option linter.unusedSectionVars false
variable {K α Y : Type} [DecidableEq Y]

namespace Spec

/-- The column of weights: missing when no record has one. -/
def weightCol (l : List (Rec K α Y)) : Option (List K) :=
  match l.filterMap Rec.w with
  | [] => none
  | w => some w

/-- The records as the items of a torch `Dataset`. -/
def sampleOf (r : Rec K α Y) : Sample K α Y := ⟨some r.x, some r.d, r.w, r.y⟩

/-- Either every record has a weight or none has one. -/
def UniformW (l : List (Rec K α Y)) : Prop := (∀ r ∈ l, r.w = none) ∨ ∀ r ∈ l, r.w.isSome

end Spec

/-- The tensors are determined by the records. -/
theorem Holds.unique {noLabel : Y} {s t : DS K α Y} {l : List (Rec K α Y)} (hs : Holds noLabel s l) (ht : Holds noLabel t l) : s = t := by
  have hw : s.w = t.w ∧ s.hasW = t.hasW := by
    rcases hs.w with ⟨a1, a2, a3⟩ | ⟨a1, a2, a3⟩ <;> rcases ht.w with ⟨b1, b2, b3⟩ | ⟨b1, b2, b3⟩
    · exact ⟨by rw [a1, b1], by rw [a2, b2]⟩
    · exfalso
      obtain ⟨r, l', rfl⟩ := List.exists_cons_of_ne_nil b1
      have h := a3 r (by simp)
      cases hw : t.w with
      | nil => simp [hw] at b3
      | cons v w => simp [hw, h] at b3
    · exfalso
      obtain ⟨r, l', rfl⟩ := List.exists_cons_of_ne_nil a1
      have h := b3 r (by simp)
      cases hw : s.w with
      | nil => simp [hw] at a3
      | cons v w => simp [hw, h] at a3
    · refine ⟨?_, by rw [a2, b2]⟩
      rw [a3] at b3
      exact (List.map_injective_iff.2 (Option.some_injective K)) b3
  have h1 := hs.X.trans ht.X.symm
  have h2 := hs.y.trans ht.y.symm
  have h3 := hs.sd.trans ht.sd.symm
  have h4 := hs.hasY.trans ht.hasY.symm
  have h5 : s.idx = t.idx := by rw [hs.idx, ht.idx, h3]
  cases s; cases t
  simp_all

theorem filterMap_of_map_some (l : List (Rec K α Y)) (w : List K) (h : l.map Rec.w = w.map some) : l.filterMap Rec.w = w := by
  have : l.filterMap Rec.w = (l.map Rec.w).filterMap id := by simp [List.filterMap_map]
  rw [this, h]
  simp

theorem holdsW_weightCol (l : List (Rec K α Y)) (hw : UniformW l) :
    HoldsW ((weightCol l).getD []) (decide (0 < ((weightCol l).getD []).length)) l := by
  have hcol : (weightCol l).getD [] = l.filterMap Rec.w := by
    unfold weightCol; cases h : l.filterMap Rec.w <;> simp
  rw [hcol]
  rcases hw with h | h
  · have : l.filterMap Rec.w = [] := by
      rw [List.filterMap_eq_nil_iff]; exact h
    rw [this]
    exact .inl ⟨rfl, rfl, h⟩
  · obtain ⟨w, hw⟩ := map_some_of_isSome l h
    rw [filterMap_of_map_some l w hw]
    rcases eq_or_ne l [] with rfl | hne
    · have : w = [] := by simpa using hw.symm
      subst this
      exact .inl ⟨rfl, rfl, by simp⟩
    · have hlen := congrArg List.length hw
      simp only [List.length_map] at hlen
      have : 0 < l.length := List.length_pos_iff.2 hne
      exact .inr ⟨hne, by simp; omega, hw⟩

theorem collect_sampleOf (l : List (Rec K α Y)) :
    collect (l.map sampleOf) = .ok (l.map Rec.x, l.map Rec.y, l.map Rec.d, l.filterMap Rec.w) := by
  induction l with
  | nil => rfl
  | cons r l ih =>
    simp only [List.map_cons, collect, sampleOf] at ih ⊢
    rw [ih]
    simp only [ok_bind, pure_ok, List.filterMap_cons]
    cases r.w <;> rfl

theorem prepare_torch (noLabel : Y) (l : List (Rec K α Y)) (y : Option (List Y)) (sd : SD) (w : Option (List K)) :
    prepareInput noLabel (.torch (l.map sampleOf)) y sd w =
      new noLabel (l.map Rec.x) (some (l.map Rec.y)) (.vec (l.map Rec.d)) (if l.filterMap Rec.w = [] then w else some (l.filterMap Rec.w)) := by
  unfold prepareInput processDataset
  dsimp only
  rw [collect_sampleOf]
  simp only [ok_bind, pure_ok]
  unfold ofDict
  rw [if_neg (by simp [Dict.len])]
  unfold ifGivenDict
  simp only [Option.getD_none, Option.getD_some]
  split_ifs <;> rfl

/-- C106 (forms).  For every list of samples of which all or none have a weight: the arrays, the dict, the DataFrame, the torch `Dataset` and the
`DeepDADataset` give one and the same data set, and it delivers these samples in order, each numbered within its domain. -/
theorem C106_forms (noLabel : Y) (l : List (Rec K α Y)) (hw : UniformW l) :
    ∃ s, Deep.iter s = ranked l ∧ Deep.len s = .ok l.length ∧
      prepareInput noLabel (.arrays (l.map Rec.x)) (some (l.map Rec.y)) (.vec (l.map Rec.d)) (weightCol l) = .ok s ∧
      (∀ y sd n, prepareInput noLabel (.dict ⟨some (l.map Rec.x), some (some (l.map Rec.y)), some (.vec (l.map Rec.d)), (weightCol l).map some, n, none⟩) y sd none = .ok s) ∧
      (∀ y sd n, prepareInput noLabel (.dict ⟨some (l.map Rec.x), some (some (l.map Rec.y)), some (.vec (l.map Rec.d)), (weightCol l).map some, n, some l.length⟩) y sd none = .ok s) ∧
      (∀ y sd, prepareInput noLabel (.torch (l.map sampleOf)) y sd none = .ok s) ∧
      (∀ y sd w, prepareInput noLabel (.deep s) y sd w = .ok s) := by
  obtain ⟨s, hs, H⟩ := new_ok noLabel l (weightCol l) (holdsW_weightCol l hw)
  have hd : ∀ (y : Option (List Y)) (sd : SD) (n : Nat) (o : Option Nat), ifGivenDict noLabel ⟨some (l.map Rec.x), some (some (l.map Rec.y)), some (.vec (l.map Rec.d)), (weightCol l).map some, n, o⟩ y sd none = .ok s := by
    intro y sd n o
    unfold ifGivenDict
    dsimp only
    rw [← hs]
    simp only [Option.getD_some]
    cases weightCol l <;> rfl
  refine ⟨s, H.iter, H.len, hs, fun y sd n => ?_, fun y sd n => ?_, fun y sd => ?_, fun y sd w => rfl⟩
  · unfold prepareInput ofDict
    dsimp only
    rw [if_neg (by simp [Dict.len])]
    exact hd y sd n none
  · unfold prepareInput ofDict
    dsimp only
    by_cases h : l.length = 0
    · rw [if_pos (by simpa [Dict.len] using h)]
      obtain rfl := List.length_eq_zero_iff.1 h
      rw [← hs]
      rfl
    · rw [if_neg (by simpa [Dict.len] using h)]
      exact hd y sd n _
  · rw [prepare_torch, ← hs]
    congr 1
    unfold weightCol
    cases l.filterMap Rec.w <;> simp

/-- Three samples of two domains, with weights. -/
def inputRecs : List (Rec ℚ Nat Int) := [⟨10, 0, 1, some 2⟩, ⟨20, -1, -2, some 3⟩, ⟨30, 1, 1, some 5⟩]

example : ∃ s : DS ℚ Nat Int, Deep.iter s = [⟨10, 1, 0, some 2, 0⟩, ⟨20, -2, 0, some 3, -1⟩, ⟨30, 1, 1, some 5, 1⟩] ∧
    prepareInput (-1) (.torch [⟨some 10, some 1, some 2, 0⟩, ⟨some 20, some (-2), some 3, -1⟩, ⟨some 30, some 1, some 5, 1⟩]) none .none none = .ok s := by
  obtain ⟨s, h1, -, -, -, -, h2, -⟩ := C106_forms (-1) inputRecs (Or.inr (by decide))
  exact ⟨s, h1, h2 none .none⟩

example : UniformW inputRecs ∧ UniformW (inputRecs.map Rec.unweighted) := ⟨Or.inr (by decide), Or.inl (by decide)⟩

/-- C106 (round trip).  For every data set: its dict representation (with or without the sample indices) and its arrays give it back; the arrays
without weights give the same samples without weights.  Further `y` and `sample_domain` arguments beside the dict change nothing. -/
theorem C106_roundtrip (noLabel : Y) (s : DS K α Y) (l : List (Rec K α Y)) (H : Holds noLabel s l) :
    (∀ b y sd, prepareInput noLabel (.dict (asDict s b)) y sd none = .ok s) ∧
    (∀ a : List α × List Y × List Int × Option (List K), a = asArrays s true →
      prepareInput noLabel (.arrays a.1) (some a.2.1) (.vec a.2.2.1) a.2.2.2 = .ok s) ∧
    (∀ a : List α × List Y × List Int × Option (List K), a = asArrays s false →
      ∃ t, prepareInput noLabel (.arrays a.1) (some a.2.1) (.vec a.2.2.1) a.2.2.2 = .ok t ∧ Deep.iter t = ranked (l.map Rec.unweighted)) := by
  have key : new noLabel s.X (some s.y) (.vec s.sd) (if s.hasW then some s.w else none) = .ok s := by
    have hc : HoldsW ((if s.hasW then some s.w else none : Option (List K)).getD [])
        (decide (0 < ((if s.hasW then some s.w else none : Option (List K)).getD []).length)) l := by
      rcases H.w with ⟨h1, h2, h3⟩ | ⟨h1, h2, h3⟩
      · rw [h2]; exact .inl ⟨rfl, rfl, h3⟩
      · have hlen := congrArg List.length h3
        simp only [List.length_map] at hlen
        have : 0 < l.length := List.length_pos_iff.2 h1
        rw [h2]
        exact .inr ⟨h1, by simp; omega, h3⟩
    obtain ⟨t, ht, Ht⟩ := new_ok noLabel l _ hc
    rw [H.X, H.y, H.sd, ht, Holds.unique Ht H]
  refine ⟨fun b y sd => ?_, ?_, ?_⟩
  · unfold prepareInput ofDict
    dsimp only
    rw [if_neg (by simp [Dict.len, asDict])]
    unfold ifGivenDict asDict
    simp only [Option.getD_some]
    rw [← key]
    cases s.hasW <;> rfl
  · rintro a rfl
    simp only [asArrays, prepareInput, Bool.and_true]
    exact key
  · rintro a rfl
    simp only [asArrays, prepareInput, Bool.and_false, Bool.false_eq_true, if_false]
    obtain ⟨t, ht, Ht⟩ := new_ok noLabel (l.map Rec.unweighted) none (holdsW_unweighted l)
    refine ⟨t, ?_, Ht.iter⟩
    rw [H.X, H.y, H.sd]
    simpa only [List.map_map, Function.comp_def, Rec.unweighted] using ht

example : ∃ s : DS ℚ Nat Int, Holds (-1) s inputRecs ∧ prepareInput (-1) (.dict (asDict s true)) (some [7]) (.vec [4]) none = .ok s := by
  obtain ⟨s, -, H⟩ := new_ok (-1) inputRecs (weightCol inputRecs) (holdsW_weightCol inputRecs (Or.inr (by decide)))
  exact ⟨s, H, (C106_roundtrip (-1) s inputRecs H).1 true _ _⟩

/-- C106 (arguments beside a dict).  An entry of the dict wins over the argument of the same name, also when it is `None`; an entry that is missing is
taken from the argument.  So a dict with all four keys makes the arguments irrelevant, and a dict with `X` only is the same as the array. -/
theorem C106_arguments (noLabel : Y) (X : List α) (y y' : Option (List Y)) (sd sd' : SD) (w w' : Option (List K)) (n : Nat) :
    prepareInput noLabel (.dict ⟨some X, some y, some sd, some w, n, none⟩) y' sd' w' = prepareInput noLabel (.arrays X) y sd w ∧
    prepareInput noLabel (.dict ⟨some X, none, some sd, some w, n, none⟩) y sd' w' = prepareInput noLabel (.arrays X) y sd w ∧
    prepareInput noLabel (.dict ⟨some X, some y, none, some w, n, none⟩) y' sd w' = prepareInput noLabel (.arrays X) y sd w ∧
    prepareInput noLabel (.dict ⟨some X, some y, some sd, none, n, none⟩) y' sd' w = prepareInput noLabel (.arrays X) y sd w ∧
    prepareInput noLabel (.dict ⟨some X, none, none, none, n, none⟩) y sd w = prepareInput noLabel (.arrays X) y sd w := by
  unfold prepareInput ofDict
  dsimp only
  refine ⟨?_, ?_, ?_, ?_, ?_⟩ <;> rw [if_neg (by simp [Dict.len])] <;> rfl

example : prepareInput (-1 : Int) (.dict ⟨some [10, 20], some none, none, none, 0, none⟩) (some [0, 1]) (.vec [1, -2]) (none : Option (List ℚ)) =
    .ok ⟨[10, 20], [-1, -1], [1, -2], [], [false, false], false, [0, 0]⟩ := by decide +kernel

/-- C106, counterexample: arguments are not always used or checked.  For a `DeepDADataset` every further argument is dropped; for a torch `Dataset` the
arguments `y` and `sample_domain` are dropped, and `sample_weight` too as soon as one item has a weight (otherwise it is used); for an empty dict
everything is dropped and the data set is empty. -/
theorem C106_ignored_counterexample (noLabel : Y) (y y' : Option (List Y)) (sd sd' : SD) (w w' : Option (List K)) :
    (∀ s : DS K α Y, prepareInput noLabel (.deep s) y sd w = .ok s) ∧
    (∀ l : List (Sample K α Y), prepareInput noLabel (.torch l) y sd w = prepareInput noLabel (.torch l) y' sd' w) ∧
    (∀ l : List (Rec K α Y), (∃ r ∈ l, r.w.isSome) →
      prepareInput noLabel (.torch (l.map sampleOf)) y sd w = prepareInput noLabel (.torch (l.map sampleOf)) y' sd' w') ∧
    (∀ l : List (Rec K α Y), (∀ r ∈ l, r.w = none) →
      prepareInput noLabel (.torch (l.map sampleOf)) y sd w = prepareInput noLabel (.arrays (l.map Rec.x)) (some (l.map Rec.y)) (.vec (l.map Rec.d)) w) ∧
    ∃ s : DS K α Y, prepareInput noLabel (.dict ⟨none, none, none, none, 0, none⟩) y sd w = .ok s ∧ Deep.len s = .ok 0 := by
  refine ⟨fun s => rfl, fun l => ?_, fun l h => ?_, fun l h => ?_, ⟨empty, rfl, rfl⟩⟩
  · unfold prepareInput processDataset
    dsimp only
    cases collect l with
    | error e => rfl
    | ok v =>
      simp only [ok_bind, pure_ok]
      unfold ofDict
      split_ifs <;> rfl
  · obtain ⟨r, hr, hw⟩ := h
    have : l.filterMap Rec.w ≠ [] := by
      rw [Ne, List.filterMap_eq_nil_iff]
      intro h
      rw [h r hr] at hw
      simp at hw
    rw [prepare_torch, prepare_torch, if_neg this, if_neg this]
  · rw [prepare_torch, if_pos (by rw [List.filterMap_eq_nil_iff]; exact h)]
    rfl

/-- Two items; the arguments name other domains and have the wrong length. -/
example : prepareInput (-1 : Int) (.torch [⟨some 10, some 1, none, 0⟩, ⟨some 20, some (-2), none, 1⟩]) (some [5]) (.vec [7, 8, 9]) (none : Option (List ℚ)) =
    .ok ⟨[10, 20], [0, 1], [1, -2], [], [true, true], false, [0, 0]⟩ := by decide +kernel

/-- C106 (errors).  A non-empty dict without `X` is a `ValueError`; so is a torch `Dataset` with an item that lacks `X` or `sample_domain`, wherever it
stands; when some but not all items have a weight it is an `AssertionError`. -/
theorem C106_errors (noLabel : Y) (y : Option (List Y)) (sd : SD) (w : Option (List K)) :
    (∀ d : Dict K α Y, d.X = none → d.len ≠ 0 → prepareInput noLabel (.dict d) y sd w = .error .valueError) ∧
    (∀ l : List (Sample K α Y), (∃ a ∈ l, a.x = none ∨ a.d = none) → prepareInput noLabel (.torch l) y sd w = .error .valueError) ∧
    (∀ l : List (Rec K α Y), (∃ r ∈ l, r.w.isSome) → (∃ r ∈ l, r.w = none) → prepareInput noLabel (.torch (l.map sampleOf)) y sd w = .error .assertionError) := by
  refine ⟨fun d hX hl => ?_, fun l h => ?_, fun l h1 h2 => ?_⟩
  · unfold prepareInput ofDict ifGivenDict
    dsimp only
    rw [if_neg hl, hX]
  · have hc : collect l = .error .valueError := by
      induction l with
      | nil => obtain ⟨a, ha, -⟩ := h; simp at ha
      | cons b l ih =>
        obtain ⟨a, ha, h⟩ := h
        unfold collect
        cases hx : b.x with
        | none => rfl
        | some x =>
          cases hd : b.d with
          | none => rfl
          | some d =>
            rcases List.mem_cons.1 ha with rfl | ha
            · simp [hx, hd] at h
            · simp only
              rw [ih ⟨a, ha, h⟩]
              rfl
    unfold prepareInput processDataset
    dsimp only
    rw [hc]
    rfl
  · obtain ⟨r, hr, hrw⟩ := h1
    obtain ⟨r', hr', hrw'⟩ := h2
    have hne : l.filterMap Rec.w ≠ [] := by
      rw [Ne, List.filterMap_eq_nil_iff]
      intro h
      rw [h r hr] at hrw
      simp at hrw
    have hlt : (l.filterMap Rec.w).length < l.length := by
      clear hr hne
      induction l with
      | nil => simp at hr'
      | cons a l ih =>
        have hle := List.length_filterMap_le Rec.w l
        rcases List.mem_cons.1 hr' with rfl | hr'
        · rw [List.filterMap_cons, hrw']; simp; omega
        · have := ih hr'
          rw [List.filterMap_cons]
          cases a.w with
          | none => simp only [List.length_cons]; omega
          | some v => simp only [List.length_cons]; omega
    rw [prepare_torch, if_neg hne]
    obtain ⟨a, l', rfl⟩ := List.exists_cons_of_ne_nil (List.ne_nil_of_mem hr)
    generalize (a :: l').filterMap Rec.w = ws at *
    unfold new finish
    simp only [initSD, List.map_cons, ok_bind, Option.getD_some]
    rw [if_neg]
    have : 0 < ws.length := List.length_pos_iff.2 hne
    simp only [List.length_cons] at hlt
    simp [isCorrect, hne]
    omega

example : prepareInput (-1 : Int) (.torch [⟨some 10, some 1, some (2 : ℚ), 0⟩, ⟨some 20, some (-2), none, 1⟩]) none .none none = .error .assertionError := by
  decide +kernel

/-- C106, counterexample: without a `sample_domain` every row is a source, so prediction with the default arguments has nothing to predict: `ValueError` for
every network and every array (also in a dict without that key), although `predict_proba(X, sample_domain)` documents the argument as optional. -/
theorem C106_no_domain_counterexample {K : Type} [LinearOrder K] (f : α → List K) (X : List α) :
    (∃ s : DS K α Int, prepareInput (-1) (.arrays X) none .none none = .ok s ∧ Deep.predict (-1) f s false = .error .valueError) ∧
    (∃ s : DS K α Int, prepareInput (-1) (.dict ⟨some X, none, none, none, 0, none⟩) none .none none = .ok s ∧ Deep.predict (-1) f s false = .error .valueError) := by
  let l : List (Rec K α Int) := X.map (fun x => ⟨x, -1, 0, none⟩)
  have hn : new (-1) X none SD.none (none : Option (List K)) = .ok ⟨X, List.replicate X.length (-1), List.replicate X.length 0, [], List.replicate X.length false, false,
      inferIdx (List.replicate X.length 0)⟩ := by
    unfold new finish
    simp only [initSD, ok_bind, Option.getD_none]
    rw [if_pos (by simp [isCorrect])]
    rfl
  have hp : Deep.predict (-1) f (⟨X, List.replicate X.length (-1), List.replicate X.length 0, [], List.replicate X.length false, false,
      inferIdx (List.replicate X.length 0)⟩ : DS K α Int) false = .error .valueError := by
    have H : Holds (-1) (⟨X, List.replicate X.length (-1), List.replicate X.length 0, [], List.replicate X.length false, false,
      inferIdx (List.replicate X.length 0)⟩ : DS K α Int) l := by
      refine ⟨by simp [l, Function.comp_def], by simp [l, Function.comp_def], by simp [l, Function.comp_def], by simp [l, Function.comp_def], .inl ⟨rfl, rfl, by simp [l]⟩, inferIdx_eq _⟩
    obtain ⟨t, ht, Ht⟩ := selectMask_ok H (fun r => decide (r.d < 0)) true
    have hm : l.map (fun r => decide (r.d < 0)) = (List.replicate X.length (0 : Int)).map (fun d => decide (d < 0)) := by
      simp [l, Function.comp_def]
    have hf : l.filter (fun r => decide (r.d < 0)) = [] := by
      rw [List.filter_eq_nil_iff]; simp [l]
    rw [hm] at ht
    rw [if_pos rfl, hf] at Ht
    unfold Deep.predict predictProba selectTarget
    simp only [Bool.false_eq_true, if_false]
    rw [ht]
    simp [ok_bind, Ht.X]
    rfl
  exact ⟨⟨_, hn, hp⟩, ⟨_, hn, hp⟩⟩

example : (do let s ← prepareInput (-1) (.arrays [1, 2]) none (.vec [-2, -2]) none; Deep.predict (-1) (fun x : Nat => [(x : ℚ), 2]) s false) = .ok [1, 0] := by
  decide +kernel

/-- C106 (domains).  `domains()` lists the domains of the samples: each one once, in increasing order, and no others. -/
theorem C106_domains (noLabel : Y) (s : DS K α Y) (l : List (Rec K α Y)) (H : Holds noLabel s l) :
    (Deep.domains s).Pairwise (· < ·) ∧ ∀ d, d ∈ Deep.domains s ↔ ∃ r ∈ l, r.d = d := by
  refine ⟨pairwise_unique _, fun d => ?_⟩
  unfold Deep.domains
  rw [mem_unique, H.sd, List.mem_map]

example : Deep.domains (⟨[10, 20, 30], [0, 1, 1], [1, -2, 1], [], [true, true, true], false, [0, 0, 1]⟩ : DS ℚ Nat Int) = [-2, 1] := by decide +kernel

end
end Skada

/-
C129: scorers for unsupervised model selection do not use target labels.
-/
import Verif.Props.Scorers2
import Verif.Props.Circular
import Verif.Model.Dev
import Verif.Props.Dev

namespace Skada
open Np Spec

section ScorerLabels
set_option linter.unusedSectionVars false
variable {α β : Type}
variable {K : Type} [Field K] [LinearOrder K] [IsStrictOrderedRing K]

/-- Two label vectors of the same length that agree on the rows of the source domains. -/
def Spec.SameSourceLabels (sd : List Int) (y y' : List Num) : Prop :=
  y.length = sd.length ∧ y'.length = sd.length ∧ ∀ (i : Nat) (v : Int), (sd[i]? = some v ∧ 0 ≤ v) → y[i]? = y'[i]?

theorem sourceRows_congr {sd : List Int} {y y' : List Num} (h : SameSourceLabels sd y y') : sourceRows sd y = sourceRows sd y' := by
  obtain ⟨h1, h2, h3⟩ := h
  unfold sourceRows
  induction sd generalizing y y' with
  | nil => simp
  | cons d sd ih =>
    match y, y', h1, h2 with
    | a :: y, a' :: y', h1, h2 =>
      have e := ih (y := y) (y' := y') (by simpa using h1) (by simpa using h2) (fun i v hi => by simpa using h3 (i + 1) v (by simpa using hi))
      simp only [List.zip_cons_cons, List.filter_cons]
      by_cases hd : 0 ≤ d
      · have := h3 0 d (by simpa using hd)
        simp only [List.getElem?_cons_zero, Option.some.injEq] at this
        simp only [hd, decide_true, if_true, List.map_cons, e, this]
      · simp only [hd, decide_false, Bool.false_eq_true, if_false, e]

/-- C129 (importance weighting and deep embedded validation). Labels that agree on the source rows give the same score, or the same exception. -/
theorem C129_source_scorers {L ρ : Type} (gib : Bool) (X : List α) (y y' : List Num) (sd : List Int) (hs : sd.length = X.length)
    (h : SameSourceLabels sd y y') :
    (∀ (accepts : Bool) (fit : List α → Py (α → L)) (ratio : L → L → K) (scorer : List α → List Num → List Int → List K → Py K),
      Score.importanceWeighted gib accepts fit ratio scorer X y (.vec sd) = Score.importanceWeighted gib accepts fit ratio scorer X y' (.vec sd)) ∧
    (∀ (est : Score.DevEst α ρ) (fitDC : List α → List Nat → Py (α → K × K)) (loss : List Num → List ρ → Py (Score.Losses K))
        (nTest : Nat → Nat) (perm : Nat → List Nat),
      Score.dev gib est fitDC loss nTest perm X y (.vec sd) = Score.dev gib est fitDC loss nTest perm X y' (.vec sd)) := by
  have hy := h.1.trans hs
  have hy' := h.2.1.trans hs
  have hr := sourceRows_congr h
  constructor
  · intro accepts fit ratio scorer
    by_cases hX : X = []
    · subst hX
      rw [List.length_nil, List.length_eq_zero_iff] at hy hy'
      rw [hy, hy']
    · unfold Score.importanceWeighted
      rw [checkXy_vec hX hy hs, checkXy_vec hX hy' hs]
      simp only [ok_bind]
      rw [extractSourceIndices_ok (sd_ne_nil hX hs)]
      simp only [ok_bind]
      rw [boolIndex_source h.1, boolIndex_source h.2.1, hr]
  · intro est fitDC loss nTest perm
    exact C128_target_labels gib est fitDC loss nTest perm X y y' sd hy hy' hs hr

/-- C129 (prediction entropy and neighbourhood density). These scores do not depend on the labels at all. -/
theorem C129_label_free (gib : Bool) (X : List α) (y y' : List Num) (sd : List Int) (hs : sd.length = X.length)
    (hy : y.length = X.length) (hy' : y'.length = X.length) :
    (∀ (red : Score.Reduction) (proba : Option (List α → List Int → Py (List (List K))))
        (logProba : Option (List α → List Int → Py (List (List (Option K))))) (lg : K → Option K),
      Score.predictionEntropy gib red proba logProba lg X y (.vec sd) = Score.predictionEntropy gib red proba logProba lg X y' (.vec sd)) ∧
    (∀ (T : K) (proba : Option (List α → List Int → Py (List (List K)))) (sqrt ex lg : K → K),
      Score.softNeighborhood gib T proba sqrt ex lg X y (.vec sd) = Score.softNeighborhood gib T proba sqrt ex lg X y' (.vec sd)) := by
  by_cases hX : X = []
  · subst hX
    rw [List.length_nil, List.length_eq_zero_iff] at hy hy'
    rw [hy, hy']
    exact ⟨fun _ _ _ _ => rfl, fun _ _ _ _ _ => rfl⟩
  · constructor
    · intro red proba logProba lg
      unfold Score.predictionEntropy
      rw [checkXy_vec hX hy hs, checkXy_vec hX hy' hs]
      rfl
    · intro T proba sqrt ex lg
      unfold Score.softNeighborhood
      rw [checkXy_vec hX hy hs, checkXy_vec hX hy' hs]
      rfl

/-- C129 (MixVal and MaNo). The labels only decide between classification and regression: label vectors of the same type give the same score. -/
theorem C129_type_only [DecidableEq β] (gib : Bool) (y y' : List Num) (sd : List Int) (hy : y.length = sd.length) (hy' : y'.length = sd.length)
    (ht : findYType y = findYType y') :
    (∀ (alpha : K) (kind : Score.Ice) (scorer : List (List K) → List β → List Int → Py K) (predict : List (List K) → List Int → Py (List β))
        (perm : List Nat) (X : List (List K)), sd.length = X.length →
      Score.mixVal gib alpha kind scorer predict perm X y (.vec sd) = Score.mixVal gib alpha kind scorer predict perm X y' (.vec sd)) ∧
    (∀ (p threshold : K) (pw : K → K → K) (ex lg : K → K) (est : Score.Predictor α K) (X : List α), sd.length = X.length →
      Score.mano gib p threshold pw ex lg est X y (.vec sd) = Score.mano gib p threshold pw ex lg est X y' (.vec sd)) := by
  constructor
  · intro alpha kind scorer predict perm X hs
    by_cases hX : X = []
    · subst hX
      rw [List.length_nil] at hs
      rw [hs, List.length_eq_zero_iff] at hy hy'
      rw [hy, hy']
    · unfold Score.mixVal
      rw [checkXy_vec hX (hy.trans hs) hs, checkXy_vec hX (hy'.trans hs) hs, ht]
      rfl
  · intro p threshold pw ex lg est X hs
    by_cases hX : X = []
    · subst hX
      rw [List.length_nil] at hs
      rw [hs, List.length_eq_zero_iff] at hy hy'
      rw [hy, hy']
    · unfold Score.mano
      rw [checkXy_vec hX (hy.trans hs) hs, checkXy_vec hX (hy'.trans hs) hs]
      simp only [ok_bind, ht]

/-- C129 (circular validation). If both label vectors are accepted as masked, the score is the same as soon as they agree on the source rows. -/
theorem C129_circular (gib : Bool) (scorer : List Num → List ℚ → Py K)
    (predict : List α → List Int → Py (List ℚ)) (refit : List α → List Num → List Int → List α → List Int → Py (List ℚ)) (X : List α)
    (y y' : List Num) (sd : List Int) (hs : sd.length = X.length) (h : SameSourceLabels sd y y') (t t' : YType)
    (hm : checkYMasking y = .ok t) (hm' : checkYMasking y' = .ok t') :
    Score.circular gib scorer predict refit X y (.vec sd) = Score.circular gib scorer predict refit X y' (.vec sd) := by
  have hy := h.1.trans hs
  have hy' := h.2.1.trans hs
  have hr := sourceRows_congr h
  have hz : y.map (fun _ => Num.fin 0) = y'.map (fun _ => Num.fin 0) := by
    rw [List.map_const', List.map_const', h.1, h.2.1]
  by_cases hX : X = []
  · subst hX
    rw [List.length_nil, List.length_eq_zero_iff] at hy hy'
    rw [hy, hy']
  · unfold Score.circular
    rw [checkXy_vec hX hy hs, checkXy_vec hX hy' hs]
    simp only [ok_bind, hm, hm']
    rw [extractSourceIndices_ok (sd_ne_nil hX hs)]
    simp only [ok_bind]
    rw [boolIndex_source h.1, boolIndex_source h.2.1, hr, hz]

/-- C129 (negation for MixVal and MaNo). One target label can make these scorers fail: as soon as some label, of whatever row, is not an integer or is
NaN, the score is a `ValueError`; so target rows masked with NaN, or with true labels that are not integers, are refused although their labels are
not needed. -/
theorem C129_type_counterexample [DecidableEq β] (gib : Bool) (y : List Num) (sd : List Int) (hy : y.length = sd.length) (hne : y ≠ [])
    (ht : .nan ∈ y) :
    (∀ (alpha : K) (kind : Score.Ice) (scorer : List (List K) → List β → List Int → Py K) (predict : List (List K) → List Int → Py (List β))
        (perm : List Nat) (X : List (List K)), sd.length = X.length →
      Score.mixVal gib alpha kind scorer predict perm X y (.vec sd) = .error .valueError) ∧
    (∀ (p threshold : K) (pw : K → K → K) (ex lg : K → K) (proba : List α → List Int → Py (List (List K))) (X : List α), sd.length = X.length →
      Score.mano gib p threshold pw ex lg (.pipeline proba) X y (.vec sd) = .error .valueError) := by
  have hf : findYType y = .ok .continuous := by
    unfold findYType
    rw [if_pos (List.any_eq_true.2 ⟨.nan, ht, rfl⟩)]
  constructor
  · intro alpha kind scorer predict perm X hs
    have hX : X ≠ [] := by
      rintro rfl
      rw [hs] at hy
      exact hne (List.length_eq_zero_iff.1 hy)
    unfold Score.mixVal
    rw [checkXy_vec hX (hy.trans hs) hs]
    simp only [ok_bind]
    rw [extractSourceIndices_ok (sd_ne_nil hX hs)]
    simp only [ok_bind]
    rw [boolIndex_target hs.symm, hf]
    rfl
  · intro p threshold pw ex lg proba X hs
    have hX : X ≠ [] := by
      rintro rfl
      rw [hs] at hy
      exact hne (List.length_eq_zero_iff.1 hy)
    unfold Score.mano
    rw [checkXy_vec hX (hy.trans hs) hs]
    simp only [ok_bind]
    rw [extractSourceIndices_ok (sd_ne_nil hX hs)]
    simp only [ok_bind]
    rw [boolIndex_target hs.symm, boolIndex_target rfl, hf]
    rfl

/-- Masked and true target labels agree on the source rows. -/
example : SameSourceLabels [1, -2, 1, -2] [.fin 0, .fin (-1), .fin 1, .fin (-1)] [.fin 0, .fin 1, .fin 1, .fin 0] := by
  refine ⟨rfl, rfl, ?_⟩
  intro i v h
  match i, h with
  | 0, _ => rfl
  | 1, h => obtain ⟨h1, h2⟩ := h; cases h1; omega
  | 2, _ => rfl
  | 3, h => obtain ⟨h1, h2⟩ := h; cases h1; omega
  | i + 4, _ => rfl

example : findYType [.fin 0, .fin (-1), .fin 1, .fin (-1)] = findYType [.fin 0, .fin 1, .fin 1, .fin 0] := by decide +kernel

example : checkYMasking [.fin 0, .fin (-1), .fin 1, .fin (-1)] = .ok .discrete ∧ checkYMasking [.fin 0, .fin 2, .fin 1, .fin (-1)] = .ok .discrete := by
  constructor <;> decide +kernel

end ScorerLabels
end Skada

/-
Property C134 continued: scorers and splitters, and the methods for which the names of the domains do matter there.
-/
import Verif.Lemmas.Sides
import Verif.Lemmas.Np
import Verif.Model.Dev
import Verif.Model.Splitters

namespace Skada
open Np Spec

variable {α β : Type}

namespace Sides

theorem boolIndex_bind {γ : Type} {sd sd' : List Int} (h : SameSides sd sd') (m : List Bool) {k k' : List Int → Py γ}
    (hk : ∀ s s', SameSides s s' → k s = k' s') : (boolIndex sd m >>= k) = (boolIndex sd' m >>= k') := by
  unfold boolIndex
  rw [length h]
  split_ifs
  · exact hk _ _ (sel h)
  · rfl

theorem get_rel {sd sd' : List Int} (h : SameSides sd sd') (i : Nat) :
    (sd[i]? = none ∧ sd'[i]? = none) ∨ ∃ a b, sd[i]? = some a ∧ sd'[i]? = some b ∧ (0 ≤ a ↔ 0 ≤ b) := by
  induction h generalizing i with
  | nil => exact Or.inl ⟨rfl, rfl⟩
  | @cons a b l l' hab _ ih =>
    cases i with
    | zero => exact Or.inr ⟨a, b, rfl, rfl, hab⟩
    | succ i => simpa using ih i

theorem take_rel {sd sd' : List Int} (h : SameSides sd sd') (idx : List Nat) : RelPy SameSides (take sd idx) (take sd' idx) := by
  induction idx with
  | nil => exact List.Forall₂.nil
  | cons i idx ih =>
    unfold take
    rcases get_rel h i with ⟨h1, h2⟩ | ⟨a, b, h1, h2, hab⟩
    · rw [h1, h2]; rfl
    · rw [h1, h2]
      rcases py_cases ih with ⟨e, h3, h4⟩ | ⟨l, l', h3, h4, hl⟩
      · simp only [h3, h4]; rfl
      · simp only [h3, h4]; exact List.Forall₂.cons hab hl

theorem take_bind {γ : Type} {sd sd' : List Int} (h : SameSides sd sd') (idx : List Nat) {k k' : List Int → Py γ}
    (hk : ∀ s s', SameSides s s' → k s = k' s') : (take sd idx >>= k) = (take sd' idx >>= k') := by
  rcases py_cases (take_rel h idx) with ⟨e, h1, h2⟩ | ⟨a, b, h1, h2, hab⟩
  · rw [h1, h2]; rfl
  · rw [h1, h2]; exact hk a b hab

end Sides

/-- A function of rows and domain labels that sees only the sides of the labels. -/
def Spec.SeesSidesOf {δ γ : Type} (g : δ → List Int → γ) : Prop := ∀ x sd sd', SameSides sd sd' → g x sd = g x sd'

section
variable {K : Type} [Field K] [LinearOrder K]

/-- C134 (scorers). `SupervisedScorer`, `ImportanceWeightedScorer`, `PredictionEntropyScorer`, `SoftNeighborhoodDensity`,
`DeepEmbeddedValidation`, `MixValScorer` and `MaNoScorer`, for a fitted estimator (and a wrapped scorer) that sees only the sides:
the same score or the same exception. -/
theorem C134_scorers (X : List α) (y : List Num) (sd sd' : List Int) (h : SameSides sd sd') (gib : Bool) :
    (∀ (scoring : List α → List β → List Int → Py K) (tl : Option (List β)), (∀ X, SeesSidesOf (scoring X)) →
      Score.supervised gib scoring X y (.vec sd) tl = Score.supervised gib scoring X y (.vec sd') tl) ∧
    (∀ (L : Type) (accepts : Bool) (fit : List α → Py (α → L)) (ratio : L → L → K) (scorer : List α → List Num → List Int → List K → Py K),
      (∀ X, SeesSidesOf (scorer X)) →
      Score.importanceWeighted gib accepts fit ratio scorer X y (.vec sd) = Score.importanceWeighted gib accepts fit ratio scorer X y (.vec sd')) ∧
    (∀ (red : Score.Reduction) (proba : Option (List α → List Int → Py (List (List K))))
      (logProba : Option (List α → List Int → Py (List (List (Option K))))) (lg : K → Option K),
      (∀ f, proba = some f → SeesSidesOf f) → (∀ f, logProba = some f → SeesSidesOf f) →
      Score.predictionEntropy gib red proba logProba lg X y (.vec sd) = Score.predictionEntropy gib red proba logProba lg X y (.vec sd')) ∧
    (∀ (T : K) (proba : Option (List α → List Int → Py (List (List K)))) (sqrt ex lg : K → K), (∀ f, proba = some f → SeesSidesOf f) →
      Score.softNeighborhood gib T proba sqrt ex lg X y (.vec sd) = Score.softNeighborhood gib T proba sqrt ex lg X y (.vec sd')) ∧
    (∀ (ρ : Type) (est : Score.DevEst α ρ) (fitDC : List α → List Nat → Py (α → K × K)) (loss : List Num → List ρ → Py (Score.Losses K))
      (nTest : Nat → Nat) (perm : Nat → List Nat), (∀ p, est.parts = .ok p → SeesSidesOf p.2) →
      Score.dev gib est fitDC loss nTest perm X y (.vec sd) = Score.dev gib est fitDC loss nTest perm X y (.vec sd')) ∧
    (∀ (p threshold : K) (pw : K → K → K) (ex lg : K → K) (est : Score.Predictor α K), (∀ f, est = .pipeline f → SeesSidesOf f) →
      Score.mano gib p threshold pw ex lg est X y (.vec sd) = Score.mano gib p threshold pw ex lg est X y (.vec sd')) := by
  refine ⟨?_, ?_, ?_, ?_, ?_, ?_⟩
  · intro scoring tl hg
    refine Sides.checkXy_bind ⟨rfl, rfl, rfl⟩ h _ _ ?_
    simp only [Sides.extract h]
    refine bind_congr (fun src => bind_congr (fun Xt => ?_))
    cases tl with
    | none => rfl
    | some t =>
      refine bind_congr (fun yt => ?_)
      exact Sides.boolIndex_bind h _ (fun s s' hs => by rw [hg Xt yt s s' hs])
  · intro L accepts fit ratio scorer hg
    unfold Score.importanceWeighted
    cases accepts with
    | false => rfl
    | true =>
    refine Sides.checkXy_bind ⟨rfl, rfl, rfl⟩ h _ _ ?_
    simp only [Sides.extract h]
    refine bind_congr (fun src => bind_congr (fun Xs => bind_congr (fun Xt => bind_congr (fun ys => bind_congr (fun fs =>
      bind_congr (fun ft => ?_))))))
    exact Sides.boolIndex_bind h _ (fun s s' hs => by rw [hg Xs ys s s' hs])
  · intro red proba logProba lg hp hl
    cases proba with
    | none => rfl
    | some f =>
      refine Sides.checkXy_bind ⟨rfl, rfl, rfl⟩ h _ _ ?_
      simp only [Sides.extract h]
      refine bind_congr (fun src => bind_congr (fun Xt => ?_))
      refine Sides.boolIndex_bind h _ (fun s s' hs => ?_)
      rw [hp f rfl Xt s s' hs]
      refine bind_congr (fun p => ?_)
      cases logProba with
      | none => rfl
      | some g => simp only [Score.logProbaOf, hl g rfl Xt s s' hs]
  · intro T proba sqrt ex lg hp
    cases proba with
    | none => rfl
    | some f =>
      refine Sides.checkXy_bind ⟨rfl, rfl, rfl⟩ h _ _ ?_
      simp only [Sides.extract h]
      refine bind_congr (fun src => bind_congr (fun Xt => ?_))
      exact Sides.boolIndex_bind h _ (fun s s' hs => by rw [hp f rfl Xt s s' hs])
  · intro ρ est fitDC loss nTest perm hp
    unfold Score.dev
    cases hq : est.parts with
    | error e => rfl
    | ok q =>
      have hg := hp q hq
      refine Sides.checkXy_bind ⟨rfl, rfl, rfl⟩ h _ _ ?_
      simp only [Sides.extract h]
      refine bind_congr (fun src => bind_congr (fun Xs => bind_congr (fun ys => ?_)))
      refine Sides.boolIndex_bind h _ (fun s s' hs => ?_)
      refine bind_congr (fun tv => bind_congr (fun Xtr => bind_congr (fun Xv => bind_congr (fun yv => ?_))))
      refine Sides.take_bind hs _ (fun t t' ht => ?_)
      simp only [hg Xv t t' ht]
  · intro p threshold pw ex lg est hp
    cases est with
    | noProba => rfl
    | pipeline f =>
      refine Sides.checkXy_bind ⟨rfl, rfl, rfl⟩ h _ _ ?_
      simp only [Sides.extract h]
      refine bind_congr (fun src => bind_congr (fun Xt => ?_))
      refine Sides.boolIndex_bind h _ (fun s s' hs => ?_)
      simp only [hp f rfl Xt s s' hs]
    | network l f =>
      refine Sides.checkXy_bind ⟨rfl, rfl, rfl⟩ h _ _ ?_
      simp only [Sides.extract h]
      refine bind_congr (fun src => bind_congr (fun Xt => ?_))
      exact Sides.boolIndex_bind h _ (fun s s' hs => rfl)

/-- C134 (`MixValScorer`). -/
theorem C134_mixVal [DecidableEq β] (X : List (List K)) (y : List Num) (sd sd' : List Int) (h : SameSides sd sd') (gib : Bool) (alpha : K)
    (kind : Score.Ice) (scorer : List (List K) → List β → List Int → Py K) (predict : List (List K) → List Int → Py (List β))
    (perm : List Nat) (hp : SeesSidesOf predict) :
    Score.mixVal gib alpha kind scorer predict perm X y (.vec sd) = Score.mixVal gib alpha kind scorer predict perm X y (.vec sd') := by
  refine Sides.checkXy_bind ⟨rfl, rfl, rfl⟩ h _ _ ?_
  simp only [Sides.extract h]
  refine bind_congr (fun src => bind_congr (fun Xt => bind_congr (fun ty => ?_)))
  cases ty with
  | continuous => rfl
  | discrete => exact Sides.boolIndex_bind h _ (fun s s' hs => by rw [hp Xt s s' hs])

omit [LinearOrder K] in
/-- C134 (`CircularValidation`). The signs of the labels are flipped for the way back, so this holds only when no source has the
label 0. -/
theorem C134_circular_partial (X : List α) (y : List Num) (sd sd' : List Int) (h : SameSides sd sd') (h0 : 0 ∉ sd) (h0' : 0 ∉ sd') (gib : Bool)
    (scorer : List Num → List ℚ → Py K) (predict : List α → List Int → Py (List ℚ))
    (refit : List α → List Num → List Int → List α → List Int → Py (List ℚ)) (hp : SeesSidesOf predict)
    (hr : ∀ X y s s' X' e e', SameSides s s' → SameSides e e' → refit X y s X' e = refit X y s' X' e') :
    Score.circular gib scorer predict refit X y (.vec sd) = Score.circular gib scorer predict refit X y (.vec sd') := by
  have hneg : SameSides (sd.map (fun d => -d)) (sd'.map (fun d => -d)) := by
    clear hr hp
    induction h with
    | nil => exact List.Forall₂.nil
    | @cons a b l l' hab hl ih =>
      simp only [List.mem_cons, not_or] at h0 h0'
      refine List.Forall₂.cons ?_ (ih h0.2 h0'.2)
      have h1 := h0.1
      have h2 := h0'.1
      dsimp only
      omega
  refine Sides.checkXy_bind ⟨rfl, rfl, rfl⟩ h _ _ ?_
  simp only [Sides.extract h]
  refine bind_congr (fun _ => bind_congr (fun src => bind_congr (fun Xt => ?_)))
  refine Sides.boolIndex_bind h _ (fun s s' hs => ?_)
  rw [hp Xt s s' hs]
  refine bind_congr (fun pt => bind_congr (fun ys => ?_))
  have back : ∀ (ty : YType) (classes : List ℚ),
      (do
        let enc := if ty = YType.discrete then Score.encode pt else pt
        let by1 ← boolAssign (y.map (fun _ => Num.fin 0)) (src.map (!·)) (enc.map Num.fin)
        let by2 ← boolFill by1 src (if ty = YType.discrete then .fin (-1) else .nan)
        let Xs ← boolIndex X src
        let bsds ← boolIndex (sd.map (fun d => -d)) src
        let ps ← refit X by2 (sd.map (fun d => -d)) Xs bsds
        let ps ← if ty = YType.discrete then Score.decode classes ps else .ok ps
        let s ← scorer ys ps
        (.ok (Score.signed gib s) : Py K)) =
      (do
        let enc := if ty = YType.discrete then Score.encode pt else pt
        let by1 ← boolAssign (y.map (fun _ => Num.fin 0)) (src.map (!·)) (enc.map Num.fin)
        let by2 ← boolFill by1 src (if ty = YType.discrete then .fin (-1) else .nan)
        let Xs ← boolIndex X src
        let bsds ← boolIndex (sd'.map (fun d => -d)) src
        let ps ← refit X by2 (sd'.map (fun d => -d)) Xs bsds
        let ps ← if ty = YType.discrete then Score.decode classes ps else .ok ps
        let s ← scorer ys ps
        (.ok (Score.signed gib s) : Py K)) := by
    intro ty classes
    dsimp only
    refine bind_congr (fun by1 => bind_congr (fun by2 => bind_congr (fun Xs => ?_)))
    exact Sides.boolIndex_bind hneg _ (fun e e' he => by rw [hr X by2 _ _ Xs e e' hneg he])
  rcases hu : unique pt with _ | ⟨c, _ | ⟨c2, cs⟩⟩
  · exact bind_congr (fun ty => back ty _)
  · rfl
  · exact bind_congr (fun ty => back ty _)

/-- C134 (`CircularValidation`, negation). A source domain with the label 0 is a source on the way back as well: with the label 1 the
copy of the estimator is fitted on the target rows with their predicted labels; with the label 0 nothing changes sides, the copy
sees the rows of the source as sources without labels. -/
theorem C134_circular_counterexample :
    ∃ (scorer : List Num → List ℚ → Py ℚ) (predict : List Nat → List Int → Py (List ℚ))
      (refit : List Nat → List Num → List Int → List Nat → List Int → Py (List ℚ)), SeesSidesOf predict ∧
      (∀ X y s s' X' e e', SameSides s s' → SameSides e e' → refit X y s X' e = refit X y s' X' e') ∧ SameSides [1, 1, -2, -2] [0, 0, -2, -2] ∧
      Score.circular true scorer predict refit [0, 1, 0, 1] [.fin 0, .fin 1, .fin (-1), .fin (-1)] (.vec [1, 1, -2, -2]) = .ok 1 ∧
      Score.circular true scorer predict refit [0, 1, 0, 1] [.fin 0, .fin 1, .fin (-1), .fin (-1)] (.vec [0, 0, -2, -2]) = .ok 0 := by
  refine ⟨fun ys ps => .ok (if ys = ps.map Num.fin then 1 else 0), fun X _ => .ok (X.map (fun x => (x : ℚ))),
    fun _ _ s X' e => .ok (X'.map (fun x => if e.any (fun d => decide (0 ≤ d)) then 0 else (x : ℚ))), fun _ _ _ _ => rfl, ?_,
    by simp [SameSides], by decide +kernel, by decide +kernel⟩
  intro X y s s' X' e e' _ he
  have ha : e.any (fun d => decide (0 ≤ d)) = e'.any (fun d => decide (0 ≤ d)) := by
    have := congrArg (fun l => l.any id) (Sides.mask he)
    simpa [List.any_map, Function.comp_def] using this
  simp only [ha]

end

/-- C134 (splitters). `SourceTargetShuffleSplit` gives the same folds for the same draws. -/
theorem C134_splitter (X : List α) (sd sd' : List Int) (h : SameSides sd sd') (test train : Size) (draws : List (List Nat × List Nat)) :
    sourceTargetShuffleSplit X (.vec sd) test train draws = sourceTargetShuffleSplit X (.vec sd') test train draws := by
  have h1 : sourceIdx sd = sourceIdx sd' := by unfold sourceIdx; rw [Sides.mask h]
  have h2 : targetIdx sd = targetIdx sd' := by unfold targetIdx; rw [Sides.mask h]
  unfold sourceTargetShuffleSplit stIterIndices stFold
  rcases Sides.checkX (f := {}) ⟨rfl, rfl, rfl⟩ h X with ⟨e, e1, e2⟩ | ⟨e1, e2⟩
  · rw [e1, e2]
  · simp only [e1, e2, h1, h2]

/-- A score with one or with two target domains, and folds with one or with two source domains. -/
example : Score.supervised (K := ℚ) true (fun X y _ => .ok (if X = y then 1 else 0)) [5, 6, 7] [.fin 0, .fin (-1), .fin (-1)] (.vec [1, -2, -3])
      (some [0, 6, 7]) = .ok 1 ∧
    Score.supervised (K := ℚ) true (fun X y _ => .ok (if X = y then 1 else 0)) [5, 6, 7] [.fin 0, .fin (-1), .fin (-1)] (.vec [4, -1, -1])
      (some [0, 6, 7]) = .ok 1 := by decide +kernel

example : sourceTargetShuffleSplit ["a", "b", "c", "d"] (.vec [1, -2, 3, -4]) (.int 1) .none [([1, 0], [0, 1])] = .ok [([0, 3], [2, 1])] ∧
    sourceTargetShuffleSplit ["a", "b", "c", "d"] (.vec [1, -2, 1, -2]) (.int 1) .none [([1, 0], [0, 1])] = .ok [([0, 3], [2, 1])] := by
  decide +kernel

end Skada

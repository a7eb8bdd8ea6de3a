/-
Property C140: of the sample weights given to label propagation and JDOT only the proportions within each side matter, and equal weights are
the same as no weights.
-/
import Verif.Props.Geometry
import Verif.Props.Jdot
import Verif.Model.Deep
import Verif.Model.DeepLosses

namespace Skada
open Np Spec

namespace Weights
open RW OT

variable {K : Type} [Field K] {α γ E : Type}

/-- The weights of source samples multiplied by `a`, those of target samples by `b`. -/
def scaled (a b : K) (sd : List Int) (w : List K) : List K := List.zipWith (fun s v => (if 0 ≤ s then a else b) * v) sd w

theorem sel_scaled (a b : K) (sd : List Int) (w : List K) :
    Np.sel (sd.map (fun s => decide (0 ≤ s))) (scaled a b sd w) = (Np.sel (sd.map (fun s => decide (0 ≤ s))) w).map (a * ·) ∧
    Np.sel ((sd.map (fun s => decide (0 ≤ s))).map (!·)) (scaled a b sd w) =
      (Np.sel ((sd.map (fun s => decide (0 ≤ s))).map (!·)) w).map (b * ·) := by
  induction sd generalizing w with
  | nil => cases w <;> exact ⟨rfl, rfl⟩
  | cons s sd ih =>
    cases w with
    | nil => by_cases h : 0 ≤ s <;> simp [scaled, Np.sel, h]
    | cons x w =>
      have := ih w
      simp only [scaled] at this ⊢
      by_cases h : 0 ≤ s
      · simp [Np.sel, h]
        simpa using this
      · simp [Np.sel, h]
        simpa using this

theorem splitX_scaled (a b : K) {sd : List Int} {w : List K} (h : w.length = sd.length) :
    splitX (scaled a b sd w) sd = (splitX w sd).map (fun r => (r.1.map (a * ·), r.2.map (b * ·))) := by
  have hl : (scaled a b sd w).length = w.length := by simp [scaled, h]
  unfold splitX sourceTargetSplit
  simp only [List.cons_ne_nil, if_false]
  cases hm : extractSourceIndices sd with
  | error e => rfl
  | ok m =>
    have hm' : m = sd.map (fun s => decide (0 ≤ s)) := by
      unfold extractSourceIndices at hm
      split at hm
      · cases hm
      · cases hm; rfl
    have hs := sel_scaled a b sd w
    simp only [List.mapM_cons, List.mapM_nil, Np.boolIndex, hl, hm']
    rw [hs.1, hs.2]
    have h1 : (sd.map (fun s => decide (0 ≤ s))).length = w.length := by simp [h]
    simp only [h1, if_true, List.length_map]
    simp [Except.map, bind, Except.bind, pure, Except.pure]

theorem splitY_scaled (a b : K) {sd : List Int} {w : List K} (h : w.length = sd.length) :
    Map.splitY (some (scaled a b sd w)) sd =
      (Map.splitY (some w) sd).map (fun r => (r.1.map (List.map (a * ·)), r.2.map (List.map (b * ·)))) := by
  simp only [Map.splitY, splitX_scaled a b h]
  rcases splitX w sd with e | ⟨x, y⟩ <;> rfl

theorem splitY_ones (X : List α) (sd : List Int) {s t : List α} (hX : splitX X sd = .ok (s, t)) :
    Map.splitY (some (List.replicate X.length (1 : K))) sd = .ok (some (List.replicate s.length 1), some (List.replicate t.length 1)) := by
  have : splitX (List.replicate X.length (1 : K)) sd = .ok (List.replicate s.length 1, List.replicate t.length 1) := by
    rw [← List.map_const', splitX_map, hX]
    simp [Except.map]
  simp only [Map.splitY, this]

theorem propWeights_scaled {c : K} (hc : c ≠ 0) (n : Nat) (w : Option (List K)) : propWeights n (w.map (List.map (c * ·))) = propWeights n w := by
  cases w with
  | none => rfl
  | some w =>
    simp only [propWeights, Option.map_some, List.map_map, Function.comp_def]
    apply List.map_congr_left
    intro v _
    rw [List.sum_map_mul_left, List.map_id' , mul_div_mul_left _ _ hc]

theorem propWeights_ones (n : Nat) : propWeights n (some (List.replicate n (1 : K))) = propWeights n none := by
  simp [propWeights, List.map_replicate]

theorem entries_scaled {n : Nat} (c : K) (w : List K) : (entries (w.map (c * ·)) : Fin n → K) = fun i => c * entries w i := by
  funext i
  simp only [OT.entries, List.getD_eq_getElem?_getD, List.getElem?_map]
  cases w[(i : Nat)]? <;> simp

theorem marginal_scaled {n : Nat} {c : K} (hc : c ≠ 0) (w : Option (Fin n → K)) : marginal (w.map (fun v i => c * v i)) = marginal w := by
  cases w with
  | none => rfl
  | some w =>
    funext i
    simp only [marginal, Option.map_some, ← Finset.mul_sum]
    exact mul_div_mul_left _ _ hc

theorem proper_scaled {ns nt : Nat} {a b : K} (ha : a ≠ 0) (hb : b ≠ 0) (M : Fin ns → Fin nt → K) (ws : Option (Fin ns → K)) (wt : Option (Fin nt → K)) :
    Proper M (ws.map (fun v i => a * v i)) (wt.map (fun v i => b * v i)) ↔ Proper M ws wt := by
  unfold Proper
  cases ws <;> cases wt <;> simp [← Finset.mul_sum, ha, hb]

theorem entries_ones [CharZero K] (n : Nat) : (entries (List.replicate n (1 : K)) : Fin n → K) = fun _ => 1 := by
  funext i
  simp [OT.entries, List.getD_eq_getElem?_getD]

theorem marginal_ones (n : Nat) : marginal (some (fun _ : Fin n => (1 : K))) = marginal none := by
  funext i
  simp [marginal]

theorem proper_ones [CharZero K] {ns nt : Nat} (M : Fin ns → Fin nt → K) :
    Proper M (some (fun _ => 1)) (some (fun _ => 1)) ↔ Proper M none none := by
  unfold Proper
  constructor
  · rintro ⟨h1, h2, h3, -, -⟩
    exact ⟨h1, h2, h3, by simp, by simp⟩
  · rintro ⟨h1, h2, h3, -, -⟩
    refine ⟨h1, h2, h3, ?_, ?_⟩
    · rintro w h; cases h; simp; omega
    · rintro w h; cases h; simp; omega

end Weights

section Propagation
variable {K : Type} [Field K] [LinearOrder K] {α γ E : Type}
open RW OT

omit [Field K] [LinearOrder K] in
theorem Weights.checkXy_same {X X' : List α} {y y' : List Num} {sd : SDArg} {sd' : List Int} {fl : Flags} (h : checkXyDomain X y sd fl = .ok (X', y', sd')) :
    X' = X ∧ ∀ l, sd = .vec l → sd' = l := by
  unfold checkXyDomain at h
  by_cases h1 : X = []
  · rw [if_pos h1] at h; cases h
  rw [if_neg h1] at h
  by_cases h2 : y = []
  · rw [if_pos h2] at h; cases h
  rw [if_neg h2] at h
  rw [if_neg (by simp)] at h
  by_cases h4 : X.length ≠ y.length
  · rw [if_pos h4] at h; cases h
  rw [if_neg h4] at h
  simp only at h
  split at h
  · cases h
  · rename_i l hl
    split at h
    · cases h
    · split at h
      · cases h
      · cases h
        refine ⟨rfl, ?_⟩
        rintro m rfl
        cases hl
        rfl

omit [Field K] [LinearOrder K] in
theorem Weights.checkX_vec {X X' : List α} {sd sd' : List Int} {fl : Flags} (h : checkXDomain X (.vec sd) fl = .ok (X', sd')) : sd' = sd := by
  unfold checkXDomain at h
  by_cases h1 : X = []
  · rw [if_pos h1] at h; cases h
  rw [if_neg h1] at h
  simp only at h
  split at h
  · cases h
  · by_cases h2 : X.length ≠ sd.length
    · rw [if_pos h2] at h; cases h
    rw [if_neg h2] at h
    rcases hf : checkFlags fl sd with e | u <;> rw [hf] at h <;> cases h
    rfl

/-- C140 (label propagation, proportions). `OTLabelPropAdapter` with the weights of the source samples multiplied by `a` and those of the
target samples by `b`: the same labels are proposed, classes or numbers, or the same exception is raised. -/
theorem C140_otLabelProp (plan : List α → List α → List K → List K → List (List K)) {a b : K} (ha : a ≠ 0) (hb : b ≠ 0) (X : List α) (sd : List Int)
    (w : List K) (hw : w.length = sd.length) :
    (∀ y : List Int, otLabelProp plan X y (.vec sd) (some (Weights.scaled a b sd w)) = otLabelProp plan X y (.vec sd) (some w)) ∧
    ∀ y : List K, otLabelPropReg plan X y (.vec sd) (some (Weights.scaled a b sd w)) = otLabelPropReg plan X y (.vec sd) (some w) := by
  constructor
  · intro y
    unfold otLabelProp
    rcases h : checkXyDomain X (y.map (fun v : Int => Num.fin (v : ℚ))) (.vec sd) {} with e | ⟨X1, y1, sd1⟩
    · rfl
    · obtain ⟨rfl, h2⟩ := Weights.checkXy_same h
      cases h2 _ rfl
      simp only [bind, Except.bind, Weights.splitY_scaled a b hw]
      rcases splitX X1 sd with e | ⟨A, B⟩
      · rfl
      · simp only
        rcases splitX y sd with e | ⟨ys, yt⟩
        · rfl
        · simp only
          rcases Map.splitY (some w) sd with e | ⟨ws, wt⟩
          · rfl
          · simp only [Except.map, Weights.propWeights_scaled ha, Weights.propWeights_scaled hb]
  · intro y
    unfold otLabelPropReg
    rcases h : checkXDomain X (.vec sd) {} with e | ⟨X1, sd1⟩
    · rfl
    · cases check_same h
      cases Weights.checkX_vec h
      simp only [bind, Except.bind, Weights.splitY_scaled a b hw]
      rcases splitX X sd with e | ⟨A, B⟩
      · rfl
      · simp only
        rcases splitX y sd with e | ⟨ys, yt⟩
        · rfl
        · simp only
          rcases Map.splitY (some w) sd with e | ⟨ws, wt⟩
          · rfl
          · simp only [Except.map, Weights.propWeights_scaled ha, Weights.propWeights_scaled hb]

/-- C140 (label propagation, equal weights). Giving every sample the weight one is the same as giving no weights. -/
theorem C140_otLabelProp_ones (plan : List α → List α → List K → List K → List (List K)) (X : List α) (sd : SDArg) :
    (∀ y : List Int, otLabelProp plan X y sd (some (List.replicate X.length 1)) = otLabelProp plan X y sd none) ∧
    ∀ y : List K, otLabelPropReg plan X y sd (some (List.replicate X.length 1)) = otLabelPropReg plan X y sd none := by
  constructor
  · intro y
    unfold otLabelProp
    rcases h : checkXyDomain X (y.map (fun v : Int => Num.fin (v : ℚ))) sd {} with e | ⟨X1, y1, sd1⟩
    · rfl
    · obtain ⟨rfl, -⟩ := Weights.checkXy_same h
      simp only [bind, Except.bind]
      rcases hX : splitX X1 sd1 with e | ⟨A, B⟩
      · rfl
      · simp only
        rcases splitX y sd1 with e | ⟨ys, yt⟩
        · rfl
        · simp only [Weights.splitY_ones X1 sd1 hX, Weights.propWeights_ones]
          rfl
  · intro y
    unfold otLabelPropReg
    rcases h : checkXDomain X sd {} with e | ⟨X1, sd1⟩
    · rfl
    · cases check_same h
      simp only [bind, Except.bind]
      rcases hX : splitX X sd1 with e | ⟨A, B⟩
      · rfl
      · simp only
        rcases splitX y sd1 with e | ⟨ys, yt⟩
        · rfl
        · simp only [Weights.splitY_ones X sd1 hX, Weights.propWeights_ones]
          rfl

end Propagation

section Jdot
variable {K : Type} [Field K] [LinearOrder K] {α γ E : Type}
open RW (splitX)
open OT

/-- C140 (JDOT, proportions). Multiply the source weights by `a` and the target weights by `b`. `JDOTClassifier.fit` ends with the same
estimator, losses and plan; so does `JDOTRegressor.fit` if the base regressor itself does not react to a common factor of its weights. -/
theorem C140_jdot (solve : ∀ ns nt, (Fin ns → Fin nt → K) → (Fin ns → K) → (Fin nt → K) → Sol K ns nt) (dist : α → α → K) {a b : K} (ha : a ≠ 0)
    (hb : b ≠ 0) (alpha : K) (nIterMax : Nat) (tol : K) (undef : Py (JdotOut E K)) (X : List α) (y : Option (List γ)) (sd : List Int) (w : List K)
    (hw : w.length = sd.length) :
    (∀ (R : Regressor α E K) (_ : ∀ X y v, R.fit X y (some (v.map (b * ·))) = R.fit X y (some v)) (num : γ → K),
      jdotRegressorFit solve dist R num alpha nIterMax tol undef X y (some (Weights.scaled a b sd w)) sd =
        jdotRegressorFit solve dist R num alpha nIterMax tol undef X y (some w) sd) ∧
    ∀ [LinearOrder γ] (C : Classifier α γ E K) (metric : String) (thr : K),
      jdotClassifierFit solve dist C metric alpha thr nIterMax tol undef X y (some (Weights.scaled a b sd w)) sd =
        jdotClassifierFit solve dist C metric alpha thr nIterMax tol undef X y (some w) sd := by
  have hent : ∀ {n : Nat} (c : K) (o : Option (List K)), (o.map (List.map (c * ·))).map (entries : List K → Fin n → K) =
      (o.map entries).map (fun v i => c * v i) := by
    intro n c o
    cases o with
    | none => rfl
    | some o => simp [Weights.entries_scaled]
  constructor
  · intro R hR num
    unfold jdotRegressorFit
    simp only [bind, Except.bind, Weights.splitY_scaled a b hw]
    rcases splitX X sd with e | ⟨A, B⟩
    · rfl
    · simp only
      rcases Map.splitY y sd with e | ⟨ys, yt⟩
      · rfl
      · simp only
        rcases Map.splitY (some w) sd with e | ⟨ws, wt⟩
        · rfl
        · simp only [Except.map]
          cases ys with
          | none => cases ws <;> rfl
          | some ys =>
            have hbody : ∀ (Mf : Fin A.length → Fin B.length → K) yv p q,
                regBodyE (solve _ _) R alpha Mf (fun t : Fin B.length => B[t]) yv ((wt.map entries).map (fun v i => b * v i)) p q =
                regBodyE (solve _ _) R alpha Mf (fun t : Fin B.length => B[t]) yv (wt.map entries) p q := by
              intro Mf yv p q
              funext i Ml
              unfold regBodyE
              have : ((wt.map (entries : List K → Fin B.length → K)).map (fun v i => b * v i)).map List.ofFn =
                  ((wt.map (entries : List K → Fin B.length → K)).map List.ofFn).map (List.map (b * ·)) := by
                cases wt with
                | none => rfl
                | some wt => simp [List.map_ofFn, Function.comp_def]
              rw [this]
              cases wt with
              | none => rfl
              | some wt => simp only [Option.map_some, hR]
            simp only [hent, Weights.proper_scaled ha hb, Weights.marginal_scaled ha, Weights.marginal_scaled hb, hbody]
  · intro _ C metric thr
    unfold jdotClassifierFit
    simp only [bind, Except.bind, Weights.splitY_scaled a b hw]
    rcases splitX X sd with e | ⟨A, B⟩
    · rfl
    · simp only
      rcases Map.splitY y sd with e | ⟨ys, yt⟩
      · rfl
      · simp only
        rcases Map.splitY (some w) sd with e | ⟨ws, wt⟩
        · rfl
        · simp only [Except.map]
          cases ys with
          | none => cases ws <;> rfl
          | some ys =>
            simp only [hent, Weights.proper_scaled ha hb, Weights.marginal_scaled ha, Weights.marginal_scaled hb]

/-- C140 (JDOT, equal weights). With labels given, weight one for every sample is the same as no weights; for the regressor again if the
base regressor sees no difference between the two. -/
theorem C140_jdot_ones [CharZero K] (solve : ∀ ns nt, (Fin ns → Fin nt → K) → (Fin ns → K) → (Fin nt → K) → Sol K ns nt) (dist : α → α → K) (alpha : K)
    (nIterMax : Nat) (tol : K) (undef : Py (JdotOut E K)) (X : List α) (y : List γ) (sd : List Int) :
    (∀ (R : Regressor α E K) (_ : ∀ X y n, R.fit X y (some (List.replicate n 1)) = R.fit X y none) (num : γ → K),
      jdotRegressorFit solve dist R num alpha nIterMax tol undef X (some y) (some (List.replicate X.length 1)) sd =
        jdotRegressorFit solve dist R num alpha nIterMax tol undef X (some y) none sd) ∧
    ∀ [LinearOrder γ] (C : Classifier α γ E K) (metric : String) (thr : K),
      jdotClassifierFit solve dist C metric alpha thr nIterMax tol undef X (some y) (some (List.replicate X.length 1)) sd =
        jdotClassifierFit solve dist C metric alpha thr nIterMax tol undef X (some y) none sd := by
  have hy : ∀ {a b}, Map.splitY (some y) sd = .ok (a, b) → ∃ ys, a = some ys := by
    intro a b h
    simp only [Map.splitY] at h
    rcases hs : splitX y sd with e | ⟨u, v⟩ <;> rw [hs] at h <;> cases h
    exact ⟨_, rfl⟩
  constructor
  · intro R hR num
    unfold jdotRegressorFit
    simp only [bind, Except.bind]
    rcases hX : splitX X sd with e | ⟨A, B⟩
    · rfl
    · simp only
      rcases hs : Map.splitY (some y) sd with e | ⟨ys, yt⟩
      · rfl
      · obtain ⟨ys, rfl⟩ := hy hs
        simp only [Weights.splitY_ones X sd hX]
        simp only [Map.splitY, Option.map_some, Option.map_none, Weights.entries_ones, Weights.marginal_ones, Weights.proper_ones]
        have hbody : ∀ (Mf : Fin A.length → Fin B.length → K) yv p q,
            regBodyE (solve _ _) R alpha Mf (fun t : Fin B.length => B[t]) yv (some (fun _ => 1)) p q =
            regBodyE (solve _ _) R alpha Mf (fun t : Fin B.length => B[t]) yv none p q := by
          intro Mf yv p q
          funext i Ml
          unfold regBodyE
          simp only [Option.map_some, List.ofFn_const, hR, Option.map_none]
        simp only [hbody]
  · intro _ C metric thr
    unfold jdotClassifierFit
    simp only [bind, Except.bind]
    rcases hX : splitX X sd with e | ⟨A, B⟩
    · rfl
    · simp only
      rcases hs : Map.splitY (some y) sd with e | ⟨ys, yt⟩
      · rfl
      · obtain ⟨ys, rfl⟩ := hy hs
        simp only [Weights.splitY_ones X sd hX]
        simp only [Map.splitY, Option.map_some, Option.map_none, Weights.entries_ones, Weights.marginal_ones, Weights.proper_ones]

end Jdot

section DeepNet
variable {K : Type} [Field K]

theorem Weights.mean_scale (c : K) (l : List K) : Deep.Loss.mean (.vec (l.map (c * ·))) = (Deep.Loss.mean (.vec l)).map (c * ·) := by
  cases l with
  | nil => rfl
  | cons v l =>
    simp only [Deep.Loss.mean, List.map_cons, List.sum_cons, List.length_cons, List.length_map, Option.map_some, Option.some.injEq]
    rw [List.sum_map_mul_left, List.map_id', ← mul_add, mul_div_assoc]

theorem Weights.weighted_scale (c : K) (w : List K) (loss : Deep.Loss K) :
    (∃ e, Deep.weighted (w.map (c * ·)) loss = .error e ∧ Deep.weighted w loss = .error e) ∨
    ∃ l, Deep.weighted (w.map (c * ·)) loss = .ok (.vec (l.map (c * ·))) ∧ Deep.weighted w loss = .ok (.vec l) := by
  cases loss with
  | scalar v => exact .inr ⟨w.map (· * v), by simp [Deep.weighted, Function.comp_def, mul_assoc], rfl⟩
  | vec l =>
    unfold Deep.weighted
    by_cases h : w.length = l.length
    · refine .inr ⟨List.zipWith (· * ·) w l, ?_, by simp [h]⟩
      simp only [List.length_map, h, if_true, List.zipWith_map_left, List.map_zipWith, mul_assoc]
    · simp only [List.length_map, h, if_false]
      rcases w with - | ⟨a, - | ⟨a', w⟩⟩
      · rcases l with - | ⟨v, - | ⟨v', l⟩⟩
        · exact absurd rfl h
        · exact .inr ⟨[], rfl, rfl⟩
        · exact .inl ⟨_, rfl, rfl⟩
      · exact .inr ⟨l.map (a * ·), by simp [Function.comp_def, mul_assoc], rfl⟩
      · rcases l with - | ⟨v, - | ⟨v', l⟩⟩
        · exact .inl ⟨_, rfl, rfl⟩
        · exact .inr ⟨(a :: a' :: w).map (· * v), by simp [Function.comp_def, mul_assoc], rfl⟩
        · exact .inl ⟨_, rfl, rfl⟩

/-- C140 (deep networks, what happens instead). The training loss of a batch is proportional to the weights: a common factor of the weights
is a factor of the loss (so of every gradient). -/
theorem C140_getLoss_scale (loss : Deep.Loss K) (c : K) (w : List K) (sd : List Int) :
    Deep.getLoss loss (some (w.map (c * ·))) sd = (Deep.getLoss loss (some w) sd).map (Option.map (c * ·)) := by
  unfold Deep.getLoss
  simp only [RW.boolIndex_map]
  rcases Np.boolIndex w _ with e | ws
  · rfl
  · simp only [Except.map, bind, Except.bind, List.length_map]
    have key := Weights.weighted_scale c ws loss
    cases loss with
    | scalar v =>
      simp only
      split_ifs
      · rfl
      · rcases key with ⟨e, h1, h2⟩ | ⟨l, h1, h2⟩ <;> simp only [h1, h2]
        exact congrArg Except.ok (Weights.mean_scale c l)
    | vec v =>
      simp only
      rcases key with ⟨e, h1, h2⟩ | ⟨l, h1, h2⟩ <;> simp only [h1, h2]
      exact congrArg Except.ok (Weights.mean_scale c l)

theorem Weights.sel_ones (sd : List Int) : Np.sel (sd.map (fun d => decide (0 < d))) (List.replicate sd.length (1 : K)) =
    List.replicate (sd.filter (fun d => decide (0 < d))).length 1 := by
  induction sd with
  | nil => rfl
  | cons s sd ih => by_cases h : 0 < s <;> simp [Np.sel, h, List.replicate_succ, ih]

/-- C140 (deep networks, equal weights). With one loss value per sample of a positive domain, weight one for every sample is the same as
no weights. -/
theorem C140_getLoss_ones (l : List K) (sd : List Int) (h : (sd.filter (fun d => decide (0 < d))).length = l.length) :
    Deep.getLoss (.vec l) (some (List.replicate sd.length 1)) sd = Deep.getLoss (.vec l) none sd := by
  have hz : List.zipWith (· * ·) (List.replicate l.length (1 : K)) l = l := by
    clear h
    induction l with
    | nil => rfl
    | cons v l ih => simp [List.replicate_succ, ih]
  simp only [Deep.getLoss, Np.boolIndex, List.length_map, List.length_replicate, if_true, Weights.sel_ones, h, bind, Except.bind, Deep.weighted,
    hz]
  rfl

/-- Three samples of two source domains and two target samples; the weights are doubled and the loss doubles. -/
example : Deep.getLoss (.vec [1, 2, 6]) (some [1, 3, 1, 5, 5]) [1, 2, 1, -1, -1] = .ok (some (13 / 3 : ℚ)) ∧
    Deep.getLoss (.vec [1, 2, 6]) (some [2, 6, 2, 10, 10]) [1, 2, 1, -1, -1] = .ok (some (26 / 3 : ℚ)) ∧
    Deep.getLoss (.vec [1, 2, 6]) (some [1, 1, 1, 1, 1]) [1, 2, 1, -1, -1] = .ok (some (3 : ℚ)) ∧
    Deep.getLoss (.vec [1, 2, 6]) none [1, 2, 1, -1, -1] = .ok (some (3 : ℚ)) := by decide +kernel

/-- C140 for a deep network is false: doubling all weights changes the loss; and where a source domain has the label zero, weights of one are
not even accepted. -/
theorem C140_getLoss_counterexample :
    Deep.getLoss (.vec [2]) (some [2, 2]) [1, -1] ≠ Deep.getLoss (.vec [(2 : ℚ)]) (some [1, 1]) [1, -1] ∧
    Deep.getLoss (.vec [2, 2, (2 : ℚ)]) (some [1, 1, 1, 1]) [0, 1, 1, -1] = .error .runtimeError ∧
    Deep.getLoss (.vec [2, 2, 2]) none [0, 1, 1, -1] = .ok (some (2 : ℚ)) := by decide +kernel

variable {c d : Nat} {Y : Type}

/-- C140 (`deepjdot_loss`, what happens instead). Exact transport of `r` times the mass costs `r` times as much (`hemd`); then a common
factor of both weight vectors is a factor of the loss. -/
theorem C140_deepjdot_scale (sqrt : K → K) (ce : (Fin c → K) → Y → K) (emd2 : List K → List K → List (List K) → Py K)
    (hemd : ∀ r a b M, emd2 (a.map (r * ·)) (b.map (r * ·)) M = (emd2 a b M).map (r * ·)) (regDist regCl r : K) (ys : List Y)
    (Yt : List (Fin c → K)) (Xs Xt : List (Fin d → K)) (ws wt : List K) :
    DL.deepjdot sqrt ce emd2 regDist regCl ys Yt Xs Xt (some (ws.map (r * ·))) (some (wt.map (r * ·))) =
      (DL.deepjdot sqrt ce emd2 regDist regCl ys Yt Xs Xt (some ws) (some wt)).map (r * ·) := by
  unfold DL.deepjdot
  rcases DL.jdotCost sqrt ce regDist regCl ys Yt Xs Xt with e | M
  · rfl
  · exact hemd r ws wt M

/-- C140 (`deepjdot_loss`, equal weights). In a batch of `n` source and `n` target samples weights of `1 / n` are the same as none, and
weights of one make the loss `n` times larger. -/
theorem C140_deepjdot_ones [CharZero K] (sqrt : K → K) (ce : (Fin c → K) → Y → K) (emd2 : List K → List K → List (List K) → Py K)
    (hemd : ∀ r a b M, emd2 (a.map (r * ·)) (b.map (r * ·)) M = (emd2 a b M).map (r * ·)) (regDist regCl : K) (ys : List Y)
    (Yt : List (Fin c → K)) (Xs Xt : List (Fin d → K)) (n : Nat) (hn : 0 < n) (hs : Xs.length = n) (ht : Xt.length = n) :
    DL.deepjdot sqrt ce emd2 regDist regCl ys Yt Xs Xt (some (List.replicate n (1 / (n : K)))) (some (List.replicate n (1 / (n : K)))) =
      DL.deepjdot sqrt ce emd2 regDist regCl ys Yt Xs Xt none none ∧
    DL.deepjdot sqrt ce emd2 regDist regCl ys Yt Xs Xt (some (List.replicate n 1)) (some (List.replicate n 1)) =
      (DL.deepjdot sqrt ce emd2 regDist regCl ys Yt Xs Xt none none).map ((n : K) * ·) := by
  have h1 : DL.deepjdot sqrt ce emd2 regDist regCl ys Yt Xs Xt (some (List.replicate n (1 / (n : K)))) (some (List.replicate n (1 / (n : K)))) =
      DL.deepjdot sqrt ce emd2 regDist regCl ys Yt Xs Xt none none := by
    have hXs : Xs ≠ [] := by rintro rfl; simp at hs; omega
    have hXt : Xt ≠ [] := by rintro rfl; simp at ht; omega
    simp only [DL.deepjdot, DL.jdotWeights, hXs, hXt, if_false, hs, ht]
  refine ⟨h1, ?_⟩
  have hr : List.replicate n (1 : K) = (List.replicate n (1 / (n : K))).map ((n : K) * ·) := by
    have : (n : K) ≠ 0 := by exact_mod_cast hn.ne'
    simp [this]
  rw [hr, C140_deepjdot_scale sqrt ce emd2 hemd, h1]

/-- A transport cost with this behaviour, one sample on each side with the cost `M` (mass of the source side times the only entry). -/
example : ∃ emd2 : List ℚ → List ℚ → List (List ℚ) → Py ℚ,
    (∀ r a b M, emd2 (a.map (r * ·)) (b.map (r * ·)) M = (emd2 a b M).map (r * ·)) ∧
    DL.deepjdot (d := 1) (c := 2) (fun v => v) (fun p (y : Fin 2) => 1 - p y) emd2 0 3 [1] [![1, 0]] [![5]] [![6]] none none = .ok 3 ∧
    DL.deepjdot (d := 1) (c := 2) (fun v => v) (fun p (y : Fin 2) => 1 - p y) emd2 0 3 [1] [![1, 0]] [![5]] [![6]] (some [2]) (some [2]) = .ok 6 := by
  refine ⟨fun a _ M => .ok (a.sum * (M.getD 0 []).getD 0 0), ?_, by decide +kernel, by decide +kernel⟩
  intro r a b M
  have : (a.map (r * ·)).sum = r * a.sum := by rw [List.sum_map_mul_left, List.map_id']
  simp only [Except.map, this, mul_assoc]

end DeepNet

section Demo
open OT

/-- Source weights 1 and 3, target weight 9: tripling the source weights and halving the target weight changes nothing. -/
example : Weights.scaled 3 (1 / 2) [1, -2, 1] [1, 9, 3] = [3, 9 / 2, (9 : ℚ)] ∧
    otLabelProp (fun Xs _ ws _ => Xs.zipWith (fun _ v => [v]) ws) ["a", "b", "c"] [5, -1, 7] (.vec [1, -2, 1]) (some [(3 : ℚ), 9 / 2, 9]) =
      .ok (["a", "b", "c"], [-1, 7, -1]) ∧
    otLabelProp (fun Xs _ ws _ => Xs.zipWith (fun _ v => [v]) ws) ["a", "b", "c"] [5, -1, 7] (.vec [1, -2, 1]) (some [(1 : ℚ), 9, 3]) =
      .ok (["a", "b", "c"], [-1, 7, -1]) := by decide +kernel

/-- The continuous labels 10 and 50 with source weights in the proportion one to three. -/
example : otLabelPropReg (fun Xs _ ws _ => Xs.zipWith (fun _ v => [v]) ws) ["a", "b", "c"] [10, 0, 50] (.vec [1, -2, 1]) (some [(3 : ℚ), 9 / 2, 9]) =
      .ok (["a", "b", "c"], [none, some 40, none]) ∧
    otLabelPropReg (fun Xs _ ws _ => Xs.zipWith (fun _ v => [v]) ws) ["a", "b", "c"] [10, 0, 50] (.vec [1, -2, 1]) (some [(1 : ℚ), 9, 3]) =
      .ok (["a", "b", "c"], [none, some 40, none]) ∧
    otLabelPropReg (fun Xs _ ws _ => Xs.zipWith (fun _ v => [v]) ws) ["a", "b", "c"] [10, 0, 50] (.vec [1, -2, 1]) (some [(1 : ℚ), 1, 1]) =
      otLabelPropReg (fun Xs _ ws _ => Xs.zipWith (fun _ v => [v]) ws) ["a", "b", "c"] [10, 0, 50] (.vec [1, -2, 1]) none := by
  decide +kernel

/-- `JDOTRegressor` with the mean of the labels as base regressor (which ignores weights) and `JDOTClassifier` with a weighted vote. -/
example : (∀ X y v, demoMean.fit X y (some (v.map ((1 / 2 : ℚ) * ·))) = demoMean.fit X y (some v)) ∧
    (∀ X y n, demoMean.fit X y (some (List.replicate n 1)) = demoMean.fit X y none) ∧
    (jdotRegressorFit demoSolve (fun x x' => |x - x'|) demoMean (fun v : ℚ => v) (1 / 2) 10 (1 / 100) (.error .runtimeError)
      [0, 7, 2] (some [1, 77, 5]) (some [3, 9 / 2, 9]) [1, -2, 1]).map (fun f => (f.est, f.plan, f.lossOt))
      = .ok (4, [[1 / 4], [3 / 4]], [239 / 24, 47 / 24]) ∧
    (jdotClassifierFit demoSolve (fun x x' => |x - x'|) demoVote "hinge" (1 / 2) 0 10 (1 / 100) (.error .runtimeError)
      [0, 7, 2] (some [3, -1, 8]) (some [3, 9 / 2, 9]) [1, -2, 1]).map (fun f => (f.est, f.plan, f.lossOt))
      = .ok (true, [[1 / 4], [3 / 4]], [131 / 24, 23 / 24]) :=
  ⟨fun _ _ _ => rfl, fun _ _ _ => rfl, by decide +kernel, by decide +kernel⟩

/-- Ridge regression by a constant: `∑ w y / (∑ w + 1)`. -/
def Weights.ridge : Regressor ℚ ℚ ℚ :=
  ⟨fun _ y w => match w with
    | none => .ok (y.sum / (y.length + 1))
    | some w => .ok ((List.zipWith (· * ·) w y).sum / (w.sum + 1)), fun e _ => e⟩

/-- C140 without the assumption on the base regressor is false: `JDOTRegressor` hands the target weights on as they are, so with ridge
regression a common factor of the target weights changes the fitted estimator, although nobody changed a proportion. -/
theorem C140_jdot_ridge_counterexample :
    (jdotRegressorFit demoSolve (fun x x' => |x - x'|) Weights.ridge (fun v : ℚ => v) (1 / 2) 1 (1 / 100) (.error .runtimeError)
      [0, 7, 2] (some [1, 77, 5]) (some [1, 1, 3]) [1, -2, 1]).map (fun f => f.est) = .ok 2 ∧
    (jdotRegressorFit demoSolve (fun x x' => |x - x'|) Weights.ridge (fun v : ℚ => v) (1 / 2) 1 (1 / 100) (.error .runtimeError)
      [0, 7, 2] (some [1, 77, 5]) (some [1, 3, 3]) [1, -2, 1]).map (fun f => f.est) = .ok 3 := by decide +kernel

end Demo
end Skada

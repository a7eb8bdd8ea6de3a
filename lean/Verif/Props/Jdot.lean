/-
Property C112: the JDOT estimators end to end — what `fit` trains on, what prediction answers, in and out of a pipeline.
-/
import Verif.Model.Jdot
import Verif.Props.OT
import Verif.Props.PipelineRun

namespace Skada
open Np Spec RW Map OT

section Loop
set_option linter.unusedSectionVars false
variable {K : Type} [Field K] [LinearOrder K] [IsStrictOrderedRing K] {ns nt : Nat} {E : Type}

/-- Consecutive successful iterations, starting with number `i` and label cost `Ml`. -/
def Spec.Iterations (body : Nat → (Fin ns → Fin nt → K) → Py (Iter E K ns nt)) : Nat → (Fin ns → Fin nt → K) →
    List (Iter E K ns nt) → Prop
  | _, _, [] => True
  | i, Ml, r :: rs => body i Ml = .ok r ∧ Iterations body (i + 1) r.Ml rs

theorem loopE_pure (body : Nat → (Fin ns → Fin nt → K) → Iter E K ns nt) (tol : K) (n i : Nat) (Ml : Fin ns → Fin nt → K)
    (prev : Option (Iter E K ns nt)) (los lts : List K) :
    jdotLoopE (fun i Ml => .ok (body i Ml)) tol n i Ml prev los lts = jdotLoop body tol n i Ml prev los lts := by
  induction n generalizing i Ml prev los lts with
  | zero => cases prev <;> rfl
  | succ n ih => cases prev <;> simp only [jdotLoopE, jdotLoop, ih]

theorem loopE_spec (body : Nat → (Fin ns → Fin nt → K) → Py (Iter E K ns nt)) (tol : K) (n i : Nat) (Ml : Fin ns → Fin nt → K)
    (prev : Option (Iter E K ns nt)) (los lts : List K) (e : E) (los' lts' : List K) (sol : Sol K ns nt)
    (h : jdotLoopE body tol n i Ml prev los lts = .ok (e, los', lts', sol)) :
    ∃ rs r, Iterations body i Ml rs ∧ rs.length ≤ n ∧ los' = los ++ rs.map Iter.lossOt ∧ lts' = lts ++ rs.map Iter.lossTgt ∧
      (prev.toList ++ rs).getLast? = some r ∧ e = r.est ∧ sol = r.sol ∧
      (∀ j a b, j + 2 < (prev.toList ++ rs).length → (prev.toList ++ rs)[j]? = some a → (prev.toList ++ rs)[j + 1]? = some b →
        tol ≤ |b.lossOt - a.lossOt| ∧ tol ≤ |b.lossTgt - a.lossTgt|) := by
  induction n generalizing i Ml prev los lts with
  | zero =>
    cases prev with
    | none => simp [jdotLoopE] at h
    | some r =>
      simp only [jdotLoopE, Except.ok.injEq, Prod.mk.injEq] at h
      obtain ⟨rfl, rfl, rfl, rfl⟩ := h
      exact ⟨[], r, trivial, by simp, by simp, by simp, by simp, rfl, rfl, fun j a b hj => by simp at hj⟩
  | succ n ih =>
    simp only [jdotLoopE] at h
    cases hb : body i Ml with
    | error err => simp [hb] at h
    | ok r =>
      simp only [hb] at h
      cases prev with
      | none =>
        simp only at h
        obtain ⟨rs, r', h1, h2, h3, h4, h5, h6, h7, h8⟩ := ih _ _ _ _ _ h
        refine ⟨r :: rs, r', ⟨hb, h1⟩, by simp; omega, by simp [h3], by simp [h4], by simpa using h5, h6, h7, ?_⟩
        simpa using h8
      | some q =>
        simp only at h
        split at h
        · simp only [Except.ok.injEq, Prod.mk.injEq] at h
          obtain ⟨rfl, rfl, rfl, rfl⟩ := h
          exact ⟨[r], r, ⟨hb, trivial⟩, by simp, by simp, by simp, by simp, rfl, rfl, fun j a b hj => by simp at hj⟩
        · rename_i hn1
          split at h
          · simp only [Except.ok.injEq, Prod.mk.injEq] at h
            obtain ⟨rfl, rfl, rfl, rfl⟩ := h
            exact ⟨[r], r, ⟨hb, trivial⟩, by simp, by simp, by simp, by simp, rfl, rfl, fun j a b hj => by simp at hj⟩
          · rename_i hn2
            obtain ⟨rs, r', h1, h2, h3, h4, h5, h6, h7, h8⟩ := ih _ _ _ _ _ h
            refine ⟨r :: rs, r', ⟨hb, h1⟩, by simp; omega, by simp [h3], by simp [h4], by simpa using h5, h6, h7, ?_⟩
            intro j a b hj ha hb'
            cases j with
            | zero =>
              simp at ha hb'
              subst ha; subst hb'
              exact ⟨not_lt.1 hn1, not_lt.1 hn2⟩
            | succ j =>
              simp only [Option.toList_some, List.singleton_append, List.length_cons, List.getElem?_cons_succ] at hj ha hb' h8
              exact h8 j a b (by omega) (by simpa using ha) (by simpa using hb')

theorem rounds_last {body : Nat → (Fin ns → Fin nt → K) → Py (Iter E K ns nt)} {i : Nat} {Ml : Fin ns → Fin nt → K}
    {rs : List (Iter E K ns nt)} (h : Iterations body i Ml rs) {r : Iter E K ns nt} (hr : rs.getLast? = some r) :
    (rs.length = 1 ∧ body i Ml = .ok r) ∨
      (1 < rs.length ∧ ∃ j q M, body j M = .ok q ∧ body (i + rs.length - 1) q.Ml = .ok r) := by
  induction rs generalizing i Ml with
  | nil => simp at hr
  | cons q rs ih =>
    obtain ⟨h1, h2⟩ := h
    cases rs with
    | nil => simp at hr; subst hr; exact Or.inl ⟨rfl, h1⟩
    | cons q' rs =>
      refine Or.inr ⟨by simp, ?_⟩
      rcases ih h2 (by simpa using hr) with ⟨hl, hb⟩ | ⟨hl, j, q2, M, hb1, hb2⟩
      · refine ⟨i, q, Ml, h1, ?_⟩
        rw [List.length_cons, hl]
        exact hb
      · refine ⟨j, q2, M, hb1, ?_⟩
        rw [List.length_cons, show i + ((q' :: rs).length + 1) - 1 = i + 1 + (q' :: rs).length - 1 by omega]
        exact hb2

theorem JdotOut_of_ok {r : Py (E × List K × List K × Sol K ns nt)} {f : JdotOut E K} (h : JdotOut.of r = .ok f) :
    ∃ sol, r = .ok (f.est, f.lossOt, f.lossTgt, sol) ∧ f.plan = List.ofFn (fun s => List.ofFn (sol.plan s)) ∧
      f.value = sol.value := by
  unfold JdotOut.of at h
  split at h
  · cases h
  · simp only [Except.ok.injEq] at h
    subst h
    exact ⟨_, rfl, rfl, rfl⟩

end Loop

/-! ### What `fit` does -/

section Fit
set_option linter.unusedSectionVars false
variable {K : Type} [Field K] [LinearOrder K] [IsStrictOrderedRing K] {α β E : Type}

/-- Entry `i` of the weights of one side; `none` if no weights are given. -/
def Spec.weightFn {n : Nat} (w : Option (List K)) : Option (Fin n → K) := w.map (fun l i => l.getD i 0)

/-- Pairwise distances divided by their mean. -/
def Spec.featureCost (dist : α → α → K) (Xs Xt : List α) : Fin Xs.length → Fin Xt.length → K :=
  fun s t => dist Xs[s] Xt[t] / ((∑ i : Fin Xs.length, ∑ j : Fin Xt.length, dist Xs[i] Xt[j]) / (Xs.length * Xt.length))

/-- The cost `M` given to the OT solver in the last of `k` iterations, for the feature cost `D`: the first iteration knows no
label cost, every other one adds the label cost of an estimator fitted before. -/
def Spec.CostUsed {ns nt : Nat} (alpha : K) (D : Fin ns → Fin nt → K) (k : Nat) (labelCost : (Fin ns → Fin nt → K) → Prop)
    (M : Fin ns → Fin nt → K) : Prop :=
  (k = 1 ∧ ∀ s t, M s t = (1 - alpha) * D s t) ∨
  (1 < k ∧ ∃ L, labelCost L ∧ ∀ s t, M s t = (1 - alpha) * D s t + alpha * L s t)

theorem splitY_rows {γ : Type} {y : Option (List γ)} {sd : List Int} (hsd : sd ≠ []) (hy : ∀ v, y = some v → v.length = sd.length) :
    Map.splitY y sd = .ok (y.map (sourceRows sd), y.map (targetRows sd)) := by
  cases y with
  | none => rfl
  | some v => simp [Map.splitY, RW.splitX_ok hsd (hy v rfl).symm]

theorem regressor_unfold (solve : ∀ ns nt, (Fin ns → Fin nt → K) → (Fin ns → K) → (Fin nt → K) → Sol K ns nt)
    (dist : α → α → K) (R : Regressor α E K) (num : β → K) (alpha : K) (n : Nat) (tol : K) (undef : Py (JdotOut E K))
    (X : List α) (y : List β) (sw : Option (List K)) (sd : List Int) (hsd : sd ≠ []) (hX : X.length = sd.length)
    (hy : y.length = sd.length) (hw : ∀ v, sw = some v → v.length = sd.length) :
    let Xs := sourceRows sd X
    let Xt := targetRows sd X
    let yv : Fin Xs.length → K := fun s => ((sourceRows sd y).map num).getD s 0
    let ws : Option (Fin Xs.length → K) := weightFn (sw.map (sourceRows sd))
    let wt : Option (Fin Xt.length → K) := weightFn (sw.map (targetRows sd))
    jdotRegressorFit solve dist R num alpha n tol undef X (some y) sw sd =
      if Proper (crossDist dist Xs Xt) ws wt ∧ ∀ t, marginal wt t ≠ 0 then
        JdotOut.of (jdotLoopE (regBodyE (solve _ _) R alpha (normalised (crossDist dist Xs Xt)) (fun t => Xt[t]) yv wt
          (marginal ws) (marginal wt)) tol n 0 (sqDist yv (fun _ => 0)) none [] [])
      else undef := by
  intro Xs Xt yv ws wt
  unfold jdotRegressorFit
  rw [RW.splitX_ok hsd hX.symm, splitY_rows hsd (y := some y) (by rintro _ ⟨⟩; exact hy), splitY_rows hsd hw]
  cases sw <;> rfl

/-- C112 (regression). Whenever `JDOTRegressor.fit` succeeds on proper data, the estimator used for prediction is the base
estimator fitted on exactly the target rows, in order, with the target part of the weights; the label of target row `t` is
`Σ_s ys_s T_st / b_t`, where `T` is the plan stored in `sol_`, an output of the OT solver for the normalised weights of the two
sides; there is one pair of losses per iteration, at least one and at most `n_iter_max`; the last target loss is the mean
squared error of the fitted estimator on these labels. -/
theorem C112_regressor_fit (solve : ∀ ns nt, (Fin ns → Fin nt → K) → (Fin ns → K) → (Fin nt → K) → Sol K ns nt)
    (dist : α → α → K) (R : Regressor α E K) (num : β → K) (alpha : K) (n : Nat) (tol : K) (undef : Py (JdotOut E K))
    (X : List α) (y : List β) (sw : Option (List K)) (sd : List Int) (hsd : sd ≠ []) (hX : X.length = sd.length)
    (hy : y.length = sd.length) (hw : ∀ v, sw = some v → v.length = sd.length) (f : JdotOut E K)
    (h : jdotRegressorFit solve dist R num alpha n tol undef X (some y) sw sd = .ok f) :
    let Xs := sourceRows sd X
    let Xt := targetRows sd X
    let ys : Fin Xs.length → K := fun s => ((sourceRows sd y).map num).getD s 0
    let a : Fin Xs.length → K := marginal (weightFn (sw.map (sourceRows sd)))
    let b : Fin Xt.length → K := marginal (weightFn (sw.map (targetRows sd)))
    Proper (crossDist dist Xs Xt) (weightFn (sw.map (sourceRows sd))) (weightFn (sw.map (targetRows sd))) →
    (∀ t, b t ≠ 0) →
    ∃ M T, CostUsed alpha (featureCost dist Xs Xt) f.lossOt.length (fun L => ∃ e l, R.fit Xt l (sw.map (targetRows sd)) = .ok e ∧
        ∀ s (t : Fin Xt.length), L s t = (ys s - R.predict e Xt[t]) ^ 2) M ∧
      T = (solve Xs.length Xt.length M a b).plan ∧ f.plan = List.ofFn (fun s => List.ofFn (T s)) ∧
      R.fit Xt (List.ofFn (fun t => (∑ s, ys s * T s t) / b t)) (sw.map (targetRows sd)) = .ok f.est ∧
      0 < f.lossOt.length ∧ f.lossOt.length ≤ n ∧ f.lossTgt.length = f.lossOt.length ∧
      f.lossTgt.getLast? = some ((∑ t, ((∑ s, ys s * T s t) / b t - R.predict f.est Xt[t]) ^ 2) / Xt.length) := by
  intro Xs Xt ys a b hp hb
  rw [regressor_unfold solve dist R num alpha n tol undef X y sw sd hsd hX hy hw, if_pos ⟨hp, hb⟩] at h
  obtain ⟨sol, hr, hplan, -⟩ := JdotOut_of_ok h
  obtain ⟨rs, r, h1, h2, h3, h4, h5, h6, h7, -⟩ := loopE_spec _ _ _ _ _ _ _ _ _ _ _ _ hr
  simp only [Option.toList_none, List.nil_append] at h5 h3 h4
  have hlen : f.lossOt.length = rs.length := by rw [h3, List.length_map]
  have hX' : List.ofFn (fun t : Fin Xt.length => Xt[t]) = Xt := List.ofFn_getElem (xs := Xt)
  have hw' : (weightFn (sw.map (targetRows sd)) : Option (Fin Xt.length → K)).map List.ofFn = sw.map (targetRows sd) := by
    cases sw with
    | none => rfl
    | some v =>
      simp only [weightFn, Option.map_some, Option.some.injEq]
      apply List.ext_getElem
      · simp [Xt, length_targetRows, hX, hw v rfl]
      · intro i hi1 hi2
        simp [List.getD_eq_getElem?_getD, hi2]
  have hbody : ∀ i M r, regBodyE (solve Xs.length Xt.length) R alpha (normalised (crossDist dist Xs Xt)) (fun t => Xt[t]) ys
        (weightFn (sw.map (targetRows sd))) a b i M = .ok r →
      r.sol = solve Xs.length Xt.length (jdotCost alpha (normalised (crossDist dist Xs Xt)) M i) a b ∧
      R.fit Xt (List.ofFn (fun t => (∑ s, ys s * r.sol.plan s t) / b t)) (sw.map (targetRows sd)) = .ok r.est ∧
      (∀ s (t : Fin Xt.length), r.Ml s t = (ys s - R.predict r.est Xt[t]) ^ 2) ∧
      r.lossTgt = (∑ t : Fin Xt.length, ((∑ s, ys s * r.sol.plan s t) / b t - R.predict r.est Xt[t]) ^ 2) / Xt.length := by
    intro i M r hb
    unfold regBodyE at hb
    simp only [hX', hw'] at hb
    split at hb
    · cases hb
    · rename_i est hfit
      simp only [Except.ok.injEq] at hb
      subst hb
      exact ⟨rfl, hfit, fun s t => rfl, rfl⟩
  subst h7
  rcases rounds_last h1 h5 with ⟨hl, hb1⟩ | ⟨hl, j, q, M, hb1, hb2⟩
  · obtain ⟨e1, e2, -, e5⟩ := hbody _ _ _ hb1
    refine ⟨_, _, Or.inl ⟨by omega, fun s t => ?_⟩, rfl, by rw [hplan, e1], by rw [h6, ← e1]; exact e2, by omega, by omega,
      by rw [h3, h4]; simp,
      by rw [h4, List.getLast?_map, h5, Option.map_some, e5, h6, ← e1]⟩
    simp [jdotCost, featureCost, normalised, crossDist]
  · obtain ⟨e1, e2, -, e5⟩ := hbody _ _ _ hb2
    obtain ⟨-, e3, e4, -⟩ := hbody _ _ _ hb1
    refine ⟨_, _, Or.inr ⟨by omega, q.Ml, ⟨_, _, e3, e4⟩, fun s t => ?_⟩, rfl, by rw [hplan, e1], by rw [h6, ← e1]; exact e2,
      by omega, by omega, by rw [h3, h4]; simp,
      by rw [h4, List.getLast?_map, h5, Option.map_some, e5, h6, ← e1]⟩
    rw [jdotCost, if_pos (by omega)]
    rfl

theorem maxEntry_ok {l : List K} {m : K} (h : maxEntry l = .ok m) : m ∈ l ∧ ∀ v ∈ l, v ≤ m := by
  cases l with
  | nil => simp [maxEntry] at h
  | cons v l =>
    simp only [maxEntry, Except.ok.injEq] at h
    subst h
    have key : ∀ (l : List K) (v : K), (l.foldl max v = v ∨ l.foldl max v ∈ l) ∧ v ≤ l.foldl max v ∧ ∀ u ∈ l, u ≤ l.foldl max v := by
      intro l
      induction l with
      | nil => intro v; simp
      | cons u l ih =>
        intro v
        obtain ⟨h1, h2, h3⟩ := ih (max v u)
        simp only [List.foldl_cons, List.mem_cons]
        refine ⟨?_, le_trans (le_max_left _ _) h2, ?_⟩
        · rcases h1 with h1 | h1
          · rw [h1]
            rcases max_choice v u with h | h
            · exact Or.inl h
            · exact Or.inr (Or.inl h)
          · exact Or.inr (Or.inr h1)
        · rintro w (rfl | hw)
          · exact le_trans (le_max_right _ _) h2
          · exact h3 w hw
    obtain ⟨h1, h2, h3⟩ := key l v
    refine ⟨by simpa using h1, ?_⟩
    intro u hu
    rcases List.mem_cons.1 hu with rfl | hu
    · exact h2
    · exact h3 u hu

theorem labelMass_eq {ns nt : Nat} [DecidableEq β] (T : Fin ns → Fin nt → K) (ys : Fin ns → β) (labels : List β) :
    labelMass T ys labels = transportedLabels T ys labels := by
  unfold labelMass transportedLabels
  congr 1
  funext t
  congr 1
  funext c
  rw [mul_comm]
  congr 1
  exact Finset.sum_congr rfl fun s _ => by split <;> simp

theorem length_transportedLabels {ns nt : Nat} [DecidableEq β] (T : Fin ns → Fin nt → K) (ys : Fin ns → β) (labels : List β)
    (Xt : Fin nt → α) : (transportedLabels T ys labels).length = (List.ofFn Xt).length ∧
      ∀ r ∈ transportedLabels T ys labels, r.length = labels.length := by
  refine ⟨by simp [transportedLabels], ?_⟩
  intro r hr
  simp only [transportedLabels, List.mem_ofFn] at hr
  obtain ⟨t, rfl⟩ := hr
  simp

/-- The weighted training set of JDOT classification for the plan `T`: every target row with every class, weighted by `nt` times
the mass sent to the row by the source rows of the class. -/
def Spec.weightedRows {ns nt : Nat} [DecidableEq β] (Xt : Fin nt → α) (T : Fin ns → Fin nt → K) (ys : Fin ns → β)
    (classes : List β) : List (α × β × K) :=
  (List.ofFn (fun t => classes.map (fun c => (Xt t, c, (nt : K) * ∑ s, if ys s = c then T s t else 0)))).flatten

/-- The part of a weighted data set above the fraction `thr` of the largest weight. -/
def Spec.AboveThreshold (thr : K) (rows kept : List (α × β × K)) : Prop :=
  ∃ m, (∃ r ∈ rows, r.2.2 = m) ∧ (∀ r ∈ rows, r.2.2 ≤ m) ∧ kept = rows.filter (fun r => decide (thr * m < r.2.2))

theorem flatten_weights {ns nt : Nat} [DecidableEq β] (Xt : Fin nt → α) (T : Fin ns → Fin nt → K) (ys : Fin ns → β)
    (classes : List β) : (transportedLabels T ys classes).flatten = (weightedRows Xt T ys classes).map (fun r => r.2.2) := by
  unfold transportedLabels weightedRows
  rw [List.map_flatten, List.map_ofFn]
  congr 2
  funext t
  simp [Function.comp_def]

theorem data_above {ns nt : Nat} [DecidableEq β] (Xt : Fin nt → α) (T : Fin ns → Fin nt → K) (ys : Fin ns → β)
    (classes : List β) (thr m : K) (hm : maxEntry (labelMass T ys classes).flatten = .ok m) :
    AboveThreshold thr (weightedRows Xt T ys classes) (dataJdot (List.ofFn Xt) (labelMass T ys classes) classes thr m) := by
  rw [labelMass_eq] at hm ⊢
  obtain ⟨h1, h2⟩ := length_transportedLabels T ys classes Xt
  obtain ⟨h3, h4⟩ := maxEntry_ok hm
  rw [flatten_weights Xt] at h3 h4
  refine ⟨m, ?_, ?_, ?_⟩
  · simpa using h3
  · intro r hr
    exact h4 _ (List.mem_map_of_mem (f := fun r => r.2.2) hr)
  · rw [C73_data _ _ _ _ _ h1 h2]
    unfold transportedLabels
    rw [allPairs_ofFn]
    rfl

theorem classifier_unfold [LinearOrder β] (solve : ∀ ns nt, (Fin ns → Fin nt → K) → (Fin ns → K) → (Fin nt → K) → Sol K ns nt)
    (dist : α → α → K) (C : Classifier α β E K) (metric : String) (alpha thr : K) (n : Nat) (tol : K) (undef : Py (JdotOut E K))
    (X : List α) (y : List β) (sw : Option (List K)) (sd : List Int) (hsd : sd ≠ []) (hX : X.length = sd.length)
    (hy : y.length = sd.length) (hw : ∀ v, sw = some v → v.length = sd.length)
    (hl : (sourceRows sd y).length = (sourceRows sd X).length) :
    let Xs := sourceRows sd X
    let Xt := targetRows sd X
    let yv : Fin Xs.length → β := fun s => (sourceRows sd y)[s]
    let ws : Option (Fin Xs.length → K) := weightFn (sw.map (sourceRows sd))
    let wt : Option (Fin Xt.length → K) := weightFn (sw.map (targetRows sd))
    jdotClassifierFit solve dist C metric alpha thr n tol undef X (some y) sw sd =
      if Proper (crossDist dist Xs Xt) ws wt then
        JdotOut.of (jdotLoopE (clsBodyE (solve _ _) C metric alpha thr (normalised (crossDist dist Xs Xt)) (fun t => Xt[t]) yv
          (unique (sourceRows sd y)) (marginal ws) (marginal wt)) tol n 0 (fun _ _ => 10) none [] [])
      else undef := by
  intro Xs Xt yv ws wt
  unfold jdotClassifierFit
  rw [RW.splitX_ok hsd hX.symm, splitY_rows hsd (y := some y) (by rintro _ ⟨⟩; exact hy), splitY_rows hsd hw]
  by_cases hp : Proper (crossDist dist Xs Xt) ws wt
  · rw [if_pos hp]
    cases sw <;> exact dif_pos ⟨hp, hl⟩
  · rw [if_neg hp]
    cases sw <;> exact dif_neg (fun h => hp h.1)

/-- C112 (classification). Whenever `JDOTClassifier.fit` succeeds on proper data, the estimator used for prediction is the base
estimator fitted on the target rows only: every target row occurs with every source class, weighted by the number of target rows
times the mass that the stored plan sends to the row from the source rows of the class, keeping the entries above
`thr_weights` times the largest. -/
theorem C112_classifier_fit [LinearOrder β] (solve : ∀ ns nt, (Fin ns → Fin nt → K) → (Fin ns → K) → (Fin nt → K) → Sol K ns nt)
    (dist : α → α → K) (C : Classifier α β E K) (metric : String) (alpha thr : K) (n : Nat) (tol : K) (undef : Py (JdotOut E K))
    (X : List α) (y : List β) (sw : Option (List K)) (sd : List Int) (hsd : sd ≠ []) (hX : X.length = sd.length)
    (hy : y.length = sd.length) (hw : ∀ v, sw = some v → v.length = sd.length) (f : JdotOut E K)
    (h : jdotClassifierFit solve dist C metric alpha thr n tol undef X (some y) sw sd = .ok f)
    (hl : (sourceRows sd y).length = (sourceRows sd X).length) :
    let Xs := sourceRows sd X
    let Xt := targetRows sd X
    let ys : Fin Xs.length → β := fun s => (sourceRows sd y)[s]
    let a : Fin Xs.length → K := marginal (weightFn (sw.map (sourceRows sd)))
    let b : Fin Xt.length → K := marginal (weightFn (sw.map (targetRows sd)))
    Proper (crossDist dist Xs Xt) (weightFn (sw.map (sourceRows sd))) (weightFn (sw.map (targetRows sd))) →
    ∃ M T kept, CostUsed alpha (featureCost dist Xs Xt) f.lossOt.length (fun L => ∃ e data, C.fit data = .ok e ∧
        ∀ s (t : Fin Xt.length), clsCost metric (C.view e) (oneHot (unique (sourceRows sd y)) (ys s)) Xt[t] = .ok (L s t)) M ∧
      T = (solve Xs.length Xt.length M a b).plan ∧ f.plan = List.ofFn (fun s => List.ofFn (T s)) ∧
      AboveThreshold thr (weightedRows (fun t : Fin Xt.length => Xt[t]) T ys (unique (sourceRows sd y))) kept ∧
      C.fit kept = .ok f.est ∧
      0 < f.lossOt.length ∧ f.lossOt.length ≤ n ∧ f.lossTgt.length = f.lossOt.length := by
  intro Xs Xt ys a b hp
  rw [classifier_unfold solve dist C metric alpha thr n tol undef X y sw sd hsd hX hy hw hl, if_pos hp] at h
  obtain ⟨sol, hr, hplan, -⟩ := JdotOut_of_ok h
  obtain ⟨rs, r, h1, h2, h3, h4, h5, h6, h7, -⟩ := loopE_spec _ _ _ _ _ _ _ _ _ _ _ _ hr
  simp only [Option.toList_none, List.nil_append] at h5 h3 h4
  have hlen : f.lossOt.length = rs.length := by rw [h3, List.length_map]
  have hbody : ∀ i M r, clsBodyE (solve Xs.length Xt.length) C metric alpha thr (normalised (crossDist dist Xs Xt)) (fun t => Xt[t]) ys
        (unique (sourceRows sd y)) a b i M = .ok r →
      r.sol = solve Xs.length Xt.length (jdotCost alpha (normalised (crossDist dist Xs Xt)) M i) a b ∧
      (∃ kept, AboveThreshold thr (weightedRows (fun t : Fin Xt.length => Xt[t]) r.sol.plan ys (unique (sourceRows sd y))) kept ∧
        C.fit kept = .ok r.est) ∧
      ∀ s (t : Fin Xt.length), clsCost metric (C.view r.est) (oneHot (unique (sourceRows sd y)) (ys s)) Xt[t] = .ok (r.Ml s t) := by
    intro i M r hb
    unfold clsBodyE at hb
    simp only at hb
    split at hb
    · cases hb
    · rename_i m hm
      split at hb
      · cases hb
      · rename_i est hfit
        split at hb
        · cases hb
        · rename_i M' hM
          split at hb
          · cases hb
          · simp only [Except.ok.injEq] at hb
            subst hb
            refine ⟨rfl, ⟨_, data_above _ _ _ _ _ _ hm, hfit⟩, fun s t => ?_⟩
            have k1 := mapM_eq_ok_iff.1 hM
            have l1 : s.val < M'.length := by rw [← k1.length_eq]; simp
            have k2 := mapM_eq_ok_iff.1 (k1.get (i := s) (by simp) l1)
            have l2 : t.val < (M'.get ⟨s, l1⟩).length := by rw [← k2.length_eq]; simp
            have k3 := k2.get (i := t) (by simp) l2
            simp only [List.get_eq_getElem, List.getElem_ofFn, Fin.eta] at k3 l2
            simp only [List.getD_eq_getElem?_getD, List.getElem?_eq_getElem l1, Option.getD_some, List.getElem?_eq_getElem l2]
            exact k3
  subst h7
  rcases rounds_last h1 h5 with ⟨hl, hb1⟩ | ⟨hl, j, q, M, hb1, hb2⟩
  · obtain ⟨e1, ⟨kept, e2, e3⟩, -⟩ := hbody _ _ _ hb1
    refine ⟨_, _, kept, Or.inl ⟨by omega, fun s t => ?_⟩, rfl, by rw [hplan, e1], by rw [← e1]; exact e2, by rw [h6]; exact e3, by omega, by omega,
      by rw [h3, h4]; simp⟩
    simp [jdotCost, featureCost, normalised, crossDist]
  · obtain ⟨e1, ⟨kept, e2, e3⟩, -⟩ := hbody _ _ _ hb2
    obtain ⟨-, ⟨kept', -, e4⟩, e5⟩ := hbody _ _ _ hb1
    refine ⟨_, _, kept, Or.inr ⟨by omega, q.Ml, ⟨_, _, e4, e5⟩, fun s t => ?_⟩, rfl, by rw [hplan, e1], by rw [← e1]; exact e2, by rw [h6]; exact e3,
      by omega, by omega, by rw [h3, h4]; simp⟩
    rw [jdotCost, if_pos (by omega)]
    rfl

/-- C112 (target labels). The labels of the target rows have no influence on `fit`, of either class: any two label vectors that
agree on the source rows give the same result, error or not. -/
theorem C112_target_labels_unused [LinearOrder β]
    (solve : ∀ ns nt, (Fin ns → Fin nt → K) → (Fin ns → K) → (Fin nt → K) → Sol K ns nt)
    (dist : α → α → K) (R : Regressor α E K) (num : β → K) (C : Classifier α β E K) (metric : String) (alpha thr : K) (n : Nat)
    (tol : K) (undef : Py (JdotOut E K)) (X : List α) (y y' : List β) (sw : Option (List K)) (sd : List Int)
    (hy : y.length = sd.length) (hy' : y'.length = sd.length) (h : sourceRows sd y = sourceRows sd y') :
    jdotRegressorFit solve dist R num alpha n tol undef X (some y) sw sd
      = jdotRegressorFit solve dist R num alpha n tol undef X (some y') sw sd ∧
    jdotClassifierFit solve dist C metric alpha thr n tol undef X (some y) sw sd
      = jdotClassifierFit solve dist C metric alpha thr n tol undef X (some y') sw sd := by
  by_cases hsd : sd = []
  · subst hsd
    have hy0 : y = [] := List.length_eq_zero_iff.1 hy
    have hy0' : y' = [] := List.length_eq_zero_iff.1 hy'
    subst hy0; subst hy0'
    exact ⟨rfl, rfl⟩
  · unfold jdotRegressorFit jdotClassifierFit
    rw [splitY_rows hsd (y := some y) (by rintro _ ⟨⟩; exact hy), splitY_rows hsd (y := some y') (by rintro _ ⟨⟩; exact hy')]
    simp only [Option.map_some, ok_bind, h]
    exact ⟨trivial, trivial⟩

/-- C112 (range of the labels). With an exact transport plan between probability vectors, every label that JDOT regression trains
on lies between the smallest and the largest source label. -/
theorem C112_label_range {ns nt : Nat} (a : Fin ns → K) (b : Fin nt → K) (T : Fin ns → Fin nt → K) (hT : Coupling a b T)
    (ys : Fin ns → K) (lo hi : K) (h : ∀ s, lo ≤ ys s ∧ ys s ≤ hi) (t : Fin nt) (hb : 0 < b t) :
    lo ≤ (∑ s, ys s * T s t) / b t ∧ (∑ s, ys s * T s t) / b t ≤ hi := by
  rw [le_div_iff₀ hb, div_le_iff₀ hb, ← hT.col t, Finset.mul_sum, Finset.mul_sum]
  exact ⟨Finset.sum_le_sum fun s _ => mul_le_mul_of_nonneg_right (h s).1 (hT.nonneg s t),
    Finset.sum_le_sum fun s _ => mul_le_mul_of_nonneg_right (h s).2 (hT.nonneg s t)⟩

theorem mem_weightedRows {ns nt : Nat} [DecidableEq β] {Xt : Fin nt → α} {T : Fin ns → Fin nt → K} {ys : Fin ns → β}
    {classes : List β} {r : α × β × K} : r ∈ weightedRows Xt T ys classes ↔
      ∃ t, ∃ c ∈ classes, r = (Xt t, c, (nt : K) * ∑ s, if ys s = c then T s t else 0) := by
  unfold weightedRows
  simp only [List.mem_flatten, List.mem_ofFn, exists_exists_eq_and, List.mem_map]
  constructor
  · rintro ⟨t, c, hc, rfl⟩; exact ⟨t, c, hc, rfl⟩
  · rintro ⟨t, c, hc, rfl⟩; exact ⟨t, c, hc, rfl⟩

theorem mass_le {ns nt : Nat} [DecidableEq β] {a : Fin ns → K} {b : Fin nt → K} {T : Fin ns → Fin nt → K} (hT : Coupling a b T)
    (ys : Fin ns → β) (c : β) (t : Fin nt) : (∑ s, if ys s = c then T s t else 0) ≤ b t := by
  rw [← hT.col t]
  exact Finset.sum_le_sum fun s _ => by split; exacts [le_refl _, hT.nonneg s t]

/-- C112 (no class is lost). If `thr_weights` times the largest possible weight `B` is below the weight of one source row of a
class, the weighted training set of every iteration contains that class. Without sample weights `B = 1`, so
`thr_weights < 1 / n_source` is enough. -/
theorem C112_classes_kept {ns nt : Nat} [DecidableEq β] (a : Fin ns → K) (b : Fin nt → K) (T : Fin ns → Fin nt → K)
    (hT : Coupling a b T) (Xt : Fin nt → α) (ys : Fin ns → β) (classes : List β) (thr B : K) (kept : List (α × β × K))
    (hk : AboveThreshold thr (weightedRows Xt T ys classes) kept) (hthr : 0 ≤ thr) (hB : ∀ t, (nt : K) * b t ≤ B) (s0 : Fin ns)
    (hc : ys s0 ∈ classes) (hs : thr * B < a s0) (hnt : 0 < nt) : ∃ t w, (Xt t, ys s0, w) ∈ kept := by
  obtain ⟨m, ⟨r, hr, hrm⟩, -, rfl⟩ := hk
  have hpos : (0 : K) < nt := by exact_mod_cast hnt
  have hm : m ≤ B := by
    obtain ⟨t, c, -, rfl⟩ := mem_weightedRows.1 hr
    rw [← hrm]
    exact le_trans (mul_le_mul_of_nonneg_left (mass_le hT ys c t) hpos.le) (hB t)
  by_contra hno
  push Not at hno
  have h1 : ∀ t, (nt : K) * (∑ s, if ys s = ys s0 then T s t else 0) ≤ thr * B := by
    intro t
    refine le_trans ?_ (mul_le_mul_of_nonneg_left hm hthr)
    by_contra hlt
    refine hno t _ (List.mem_filter.2 ⟨mem_weightedRows.2 ⟨t, ys s0, hc, rfl⟩, ?_⟩)
    simpa using hlt
  have h2 : (nt : K) * ∑ t, (∑ s, if ys s = ys s0 then T s t else 0) ≤ (nt : K) * (thr * B) := by
    rw [Finset.mul_sum]
    refine le_trans (Finset.sum_le_sum fun t _ => h1 t) ?_
    simp
  have h3 := le_of_mul_le_mul_left h2 hpos
  rw [Finset.sum_comm] at h3
  have h4 : a s0 ≤ ∑ s, ∑ t, (if ys s = ys s0 then T s t else 0) := by
    rw [← hT.row s0]
    have : ∑ t, T s0 t = ∑ t, (if ys s0 = ys s0 then T s0 t else 0) := by simp
    rw [this]
    refine Finset.single_le_sum (f := fun s => ∑ t, (if ys s = ys s0 then T s t else 0)) (fun s _ => ?_) (Finset.mem_univ s0)
    exact Finset.sum_nonneg fun t _ => by split; exacts [hT.nonneg s t, le_refl _]
  exact absurd (lt_of_lt_of_le hs (le_trans h4 h3)) (lt_irrefl _)

end Fit

/-! ### JDOT classification descends -/

section Descent
set_option linter.unusedSectionVars false
variable {K : Type} [Field K] [LinearOrder K] [IsStrictOrderedRing K] {α β E : Type} {ns nt : Nat}

/-- The class cost `cost e c x` of every fitted estimator is defined (the estimator has the method that the metric needs, with
one column per class). -/
def Spec.CostOf (C : Classifier α β E K) (metric : String) [DecidableEq β] (classes : List β) (cost : E → β → α → K) : Prop :=
  ∀ e c x, clsCost metric (C.view e) (oneHot classes c) x = .ok (cost e c x)

/-- `fit` minimises the weighted cost among the fitted estimators. -/
def Spec.Minimises (C : Classifier α β E K) (cost : E → β → α → K) : Prop :=
  ∀ data est, C.fit data = .ok est → ∀ e, (data.map (fun r => cost est r.2.1 r.1 * r.2.2)).sum
    ≤ (data.map (fun r => cost e r.2.1 r.1 * r.2.2)).sum

theorem clsBody_ok [DecidableEq β] {solve : (Fin ns → Fin nt → K) → (Fin ns → K) → (Fin nt → K) → Sol K ns nt}
    {C : Classifier α β E K} {metric : String} {alpha thr : K} {Mf : Fin ns → Fin nt → K} {x : Fin nt → α} {ys : Fin ns → β}
    {labels : List β} {a : Fin ns → K} {b : Fin nt → K} {i : Nat} {Ml : Fin ns → Fin nt → K} {r : Iter E K ns nt}
    {cost : E → β → α → K} (hc : CostOf C metric labels cost)
    (h : clsBodyE solve C metric alpha thr Mf x ys labels a b i Ml = .ok r) :
    r.sol = solve (jdotCost alpha Mf Ml i) a b ∧
    r.lossOt = (if i = 0 then r.sol.value + alpha * inner Ml r.sol.plan else r.sol.value) ∧
    (r.Ml = fun s t => cost r.est (ys s) (x t)) ∧
    ∃ m, maxEntry (labelMass r.sol.plan ys labels).flatten = .ok m ∧
      C.fit (dataJdot (List.ofFn x) (transportedLabels r.sol.plan ys labels) labels thr m) = .ok r.est ∧
      r.lossTgt = tgtLoss (cost r.est) (dataJdot (List.ofFn x) (transportedLabels r.sol.plan ys labels) labels thr m) / (nt : K) := by
  unfold clsBodyE at h
  simp only at h
  split at h
  · cases h
  · rename_i m hm
    split at h
    · cases h
    · rename_i est hfit
      split at h
      · cases h
      · rename_i M hM
        split at h
        · cases h
        · rename_i costs hcosts
          simp only [Except.ok.injEq] at h
          subst h
          refine ⟨rfl, rfl, ?_, m, hm, ?_, ?_⟩
          · have e1 : (List.ofFn ys).mapM (fun c => (List.ofFn x).mapM (fun u => clsCost metric (C.view est) (oneHot labels c) u))
                = .ok ((List.ofFn ys).map (fun c => (List.ofFn x).map (fun u => cost est c u))) :=
              mapM_ok (fun c _ => mapM_ok (fun u _ => hc est c u))
            rw [e1] at hM
            simp only [Except.ok.injEq] at hM
            subst hM
            funext s t
            simp [List.getD_eq_getElem?_getD]
          · rw [← labelMass_eq]; exact hfit
          · rw [mapM_ok (fun r _ => hc est r.2.1 r.1)] at hcosts
            simp only [Except.ok.injEq] at hcosts
            subst hcosts
            simp only [labelMass_eq, tgtLoss, List.zipWith_map_left, List.zipWith_self]

/-- One iteration after the other: the OT loss can rise by at most `alpha · B · S`. -/
theorem cls_step [DecidableEq β] {solve : (Fin ns → Fin nt → K) → (Fin ns → K) → (Fin nt → K) → Sol K ns nt}
    {C : Classifier α β E K} {metric : String} {alpha thr : K} {Mf : Fin ns → Fin nt → K} {x : Fin nt → α} {ys : Fin ns → β}
    {labels : List β} {a : Fin ns → K} {b : Fin nt → K} {cost : E → β → α → K} (hs : Solves solve a b)
    (hc : CostOf C metric labels cost) (hmin : Minimises C cost) (hn : labels.Nodup) (hy : ∀ s, ys s ∈ labels) (ht : 0 < nt)
    (hnn : ∀ e c t, 0 ≤ cost e c (x t)) (ha : 0 ≤ alpha) (hthr : 0 ≤ thr) {B S : K} (hB : ∀ t, (nt : K) * b t ≤ B)
    (hS : ∀ e t, thr * (labels.map (fun c => cost e c (x t))).sum ≤ S) (hS0 : 0 ≤ S) {i : Nat} {Ml : Fin ns → Fin nt → K}
    (hMl : ∃ e, ∀ s t, cost e (ys s) (x t) ≤ Ml s t) {r r' : Iter E K ns nt}
    (h : clsBodyE solve C metric alpha thr Mf x ys labels a b i Ml = .ok r)
    (h' : clsBodyE solve C metric alpha thr Mf x ys labels a b (i + 1) r.Ml = .ok r') :
    r'.lossOt ≤ r.lossOt + alpha * (B * S) := by
  obtain ⟨hsol, hlo, hMl', m, hm, hfit, -⟩ := clsBody_ok hc h
  obtain ⟨hsol', hlo', -, -⟩ := clsBody_ok hc h'
  have hT : Coupling a b r.sol.plan := by rw [hsol]; exact (hs _).1
  have hpos : (0 : K) < nt := by exact_mod_cast ht
  -- the current loss in terms of the plan
  have e1 : r.lossOt = (1 - alpha) * inner Mf r.sol.plan + alpha * inner Ml r.sol.plan := by
    rw [hlo]
    have hv : r.sol.value = inner (jdotCost alpha Mf Ml i) r.sol.plan := by rw [hsol]; exact (hs _).2.1
    cases i with
    | zero =>
      rw [if_pos rfl, hv]
      congr 1
      unfold inner jdotCost
      rw [Finset.mul_sum]
      refine Finset.sum_congr rfl fun s _ => ?_
      rw [Finset.mul_sum]
      exact Finset.sum_congr rfl fun t _ => by simp [mul_assoc]
    | succ i =>
      rw [if_neg (by omega), hv, ← inner_cost]
      rfl
  -- the next plan is at least as good as the current one
  have e2 : r'.lossOt ≤ (1 - alpha) * inner Mf r.sol.plan + alpha * inner r.Ml r.sol.plan := by
    rw [hlo', if_neg (by omega), hsol', ← inner_cost]
    exact (hs _).2.2 _ hT
  -- the new estimator is at least as good as the one behind the current label cost, up to the dropped entries
  obtain ⟨e, he⟩ := hMl
  obtain ⟨hmem, hmax⟩ := maxEntry_ok hm
  have hmB : m ≤ B ∧ 0 ≤ m := by
    rw [labelMass_eq, flatten_weights x] at hmem
    obtain ⟨q, hq, rfl⟩ := List.mem_map.1 hmem
    obtain ⟨t, c, -, rfl⟩ := mem_weightedRows.1 hq
    exact ⟨le_trans (mul_le_mul_of_nonneg_left (mass_le hT ys c t) hpos.le) (hB t),
      mul_nonneg hpos.le (Finset.sum_nonneg fun s _ => by split; exacts [hT.nonneg s t, le_refl _])⟩
  have b1 := C73_loss_bounds x r.sol.plan ys labels hn hy (cost r.est) thr m ht (fun c t => hnn r.est c t) hT.nonneg
    (mul_nonneg hthr hmB.2)
  have b2 := C73_loss_bounds x r.sol.plan ys labels hn hy (cost e) thr m ht (fun c t => hnn e c t) hT.nonneg
    (mul_nonneg hthr hmB.2)
  simp only at b1 b2
  have b3 := hmin _ _ hfit e
  have b4 : tgtLoss (cost r.est) (dataJdot (List.ofFn x) (transportedLabels r.sol.plan ys labels) labels thr m) / (nt : K)
      ≤ tgtLoss (cost e) (dataJdot (List.ofFn x) (transportedLabels r.sol.plan ys labels) labels thr m) / (nt : K) :=
    div_le_div_of_nonneg_right b3 hpos.le
  have b5 : inner (fun s t => cost e (ys s) (x t)) r.sol.plan ≤ inner Ml r.sol.plan :=
    Finset.sum_le_sum fun s _ => Finset.sum_le_sum fun t _ => mul_le_mul_of_nonneg_right (he s t) (hT.nonneg s t)
  have b6 : thr * m * ((∑ t, (labels.map (fun c => cost r.est c (x t))).sum) / (nt : K)) ≤ B * S := by
    have : thr * ((∑ t, (labels.map (fun c => cost r.est c (x t))).sum) / (nt : K)) ≤ S := by
      rw [← mul_div_assoc, div_le_iff₀ hpos, Finset.mul_sum]
      refine le_trans (Finset.sum_le_sum fun t _ => hS r.est t) ?_
      simp [mul_comm]
    have h1 := mul_le_mul_of_nonneg_left this hmB.2
    have h2 := mul_le_mul_of_nonneg_right hmB.1 hS0
    calc thr * m * ((∑ t, (labels.map (fun c => cost r.est c (x t))).sum) / (nt : K))
        = m * (thr * ((∑ t, (labels.map (fun c => cost r.est c (x t))).sum) / (nt : K))) := by ring
      _ ≤ m * S := h1
      _ ≤ B * S := h2
  have b7 : inner r.Ml r.sol.plan ≤ inner Ml r.sol.plan + B * S := by
    rw [hMl']
    linarith [b1.2, b2.1]
  have b8 := mul_le_mul_of_nonneg_left b7 ha
  rw [e1]
  linarith

theorem cls_rounds [DecidableEq β] {solve : (Fin ns → Fin nt → K) → (Fin ns → K) → (Fin nt → K) → Sol K ns nt}
    {C : Classifier α β E K} {metric : String} {alpha thr : K} {Mf : Fin ns → Fin nt → K} {x : Fin nt → α} {ys : Fin ns → β}
    {labels : List β} {a : Fin ns → K} {b : Fin nt → K} {cost : E → β → α → K} (hs : Solves solve a b)
    (hc : CostOf C metric labels cost) (hmin : Minimises C cost) (hn : labels.Nodup) (hy : ∀ s, ys s ∈ labels) (ht : 0 < nt)
    (hnn : ∀ e c t, 0 ≤ cost e c (x t)) (ha : 0 ≤ alpha) (hthr : 0 ≤ thr) {B S : K} (hB : ∀ t, (nt : K) * b t ≤ B)
    (hS : ∀ e t, thr * (labels.map (fun c => cost e c (x t))).sum ≤ S) (hS0 : 0 ≤ S) {i : Nat} {Ml : Fin ns → Fin nt → K}
    (hMl : ∃ e, ∀ s t, cost e (ys s) (x t) ≤ Ml s t) {rs : List (Iter E K ns nt)}
    (h : Iterations (clsBodyE solve C metric alpha thr Mf x ys labels a b) i Ml rs) (j : Nat) (p q : Iter E K ns nt)
    (hp : rs[j]? = some p) (hq : rs[j + 1]? = some q) : q.lossOt ≤ p.lossOt + alpha * (B * S) := by
  induction rs generalizing i Ml j with
  | nil => simp at hp
  | cons r rs ih =>
    obtain ⟨h1, h2⟩ := h
    cases j with
    | zero =>
      simp only [List.getElem?_cons_zero, Option.some.injEq] at hp
      subst hp
      cases rs with
      | nil => simp at hq
      | cons r' rs =>
        simp only [List.getElem?_cons_succ, List.getElem?_cons_zero, Option.some.injEq] at hq
        subst hq
        exact cls_step hs hc hmin hn hy ht hnn ha hthr hB hS hS0 hMl h1 h2.1
    | succ j =>
      have hM : ∃ e, ∀ s t, cost e (ys s) (x t) ≤ r.Ml s t := by
        obtain ⟨-, -, h3, -⟩ := clsBody_ok hc h1
        exact ⟨r.est, fun s t => by rw [h3]⟩
      exact ih hM h2 j (by simpa using hp) (by simpa using hq)

/-- Every loss is non-negative. -/
theorem cls_nonneg [DecidableEq β] {solve : (Fin ns → Fin nt → K) → (Fin ns → K) → (Fin nt → K) → Sol K ns nt}
    {C : Classifier α β E K} {metric : String} {alpha thr : K} {Mf : Fin ns → Fin nt → K} {x : Fin nt → α} {ys : Fin ns → β}
    {labels : List β} {a : Fin ns → K} {b : Fin nt → K} {cost : E → β → α → K} (hs : Solves solve a b)
    (hc : CostOf C metric labels cost) (hnn : ∀ e c t, 0 ≤ cost e c (x t)) (ha : 0 ≤ alpha) (ha1 : alpha ≤ 1)
    (hM : ∀ s t, 0 ≤ Mf s t) {i : Nat} {Ml : Fin ns → Fin nt → K} (hMl : ∀ s t, 0 ≤ Ml s t) {rs : List (Iter E K ns nt)}
    (h : Iterations (clsBodyE solve C metric alpha thr Mf x ys labels a b) i Ml rs) : ∀ r ∈ rs, 0 ≤ r.lossOt := by
  induction rs generalizing i Ml with
  | nil => simp
  | cons r rs ih =>
    obtain ⟨h1, h2⟩ := h
    obtain ⟨hsol, hlo, hMl', -⟩ := clsBody_ok hc h1
    have hT : Coupling a b r.sol.plan := by rw [hsol]; exact (hs _).1
    have hin : ∀ N : Fin ns → Fin nt → K, (∀ s t, 0 ≤ N s t) → 0 ≤ inner N r.sol.plan := fun N hN =>
      Finset.sum_nonneg fun s _ => Finset.sum_nonneg fun t _ => mul_nonneg (hN s t) (hT.nonneg s t)
    intro q hq
    rcases List.mem_cons.1 hq with rfl | hq
    · have hv : 0 ≤ q.sol.value := by
        have : q.sol.value = inner (jdotCost alpha Mf Ml i) q.sol.plan := by rw [hsol]; exact (hs _).2.1
        rw [this]
        refine hin _ fun s t => ?_
        unfold jdotCost
        have := mul_nonneg (sub_nonneg.2 ha1) (hM s t)
        have := mul_nonneg ha (hMl s t)
        split <;> linarith
      rw [hlo]
      split
      · have := mul_nonneg ha (hin Ml hMl); linarith
      · exact hv
    · exact ih (fun s t => by rw [hMl']; exact hnn _ _ _) h2 q hq

/-- A sequence that falls by at least `tol` at every step but the last, and stays non-negative, is short. -/
theorem steps_bounded {l : List K} {tol : K} (h0 : ∀ v ∈ l, 0 ≤ v)
    (h1 : ∀ j v w, l[j]? = some v → l[j + 1]? = some w → w ≤ v)
    (h2 : ∀ j v w, j + 2 < l.length → l[j]? = some v → l[j + 1]? = some w → tol ≤ |w - v|) (l0 : K) (hl : l.head? = some l0) :
    ((l.length - 2 : Nat) : K) * tol ≤ l0 := by
  obtain ⟨v0, rest, rfl⟩ : ∃ v r, l = v :: r := by cases l with | nil => simp at hl | cons v r => exact ⟨v, r, rfl⟩
  simp only [List.head?_cons, Option.some.injEq] at hl
  subst hl
  have key : ∀ j v, j + 2 ≤ (v0 :: rest).length → (v0 :: rest)[j]? = some v → (j : K) * tol + v ≤ v0 := by
    intro j
    induction j with
    | zero => intro v _ hv; simp at hv; subst hv; simp
    | succ j ih =>
      intro v hj hv
      have hjl : j < (v0 :: rest).length := by omega
      have hu := List.getElem?_eq_getElem hjl
      have a1 := ih _ (by omega) hu
      have a2 := h2 j _ _ (by omega) hu hv
      have a3 := h1 j _ _ hu hv
      rw [abs_of_nonpos (by linarith)] at a2
      push_cast
      linarith
  rcases Nat.lt_or_ge (v0 :: rest).length 2 with hlt | hge
  · have : (v0 :: rest).length - 2 = 0 := by omega
    rw [this]
    simpa using h0 v0 (by simp)
  · have hjl : (v0 :: rest).length - 2 < (v0 :: rest).length := by omega
    have hu := List.getElem?_eq_getElem hjl
    have a1 := key _ _ (by omega) hu
    have a2 := h0 _ (List.mem_of_getElem? hu)
    linarith

/-- C112 (the objective). Let the OT solver be exact, the base classifier an exact minimiser of the weighted class cost over a
set of classifiers one of which has cost at most 10 everywhere, costs and distances non-negative, `0 ≤ alpha ≤ 1` and
`thr_weights ≥ 0`. Then the reported OT losses of `JDOTClassifier.fit` rise by at most `alpha · B · S` per iteration, where `B`
bounds `n_target` times the target weights and `S` bounds `thr_weights` times the summed class costs of a row. With
`thr_weights = 0` they never rise, and the number of iterations after the second times `tol` is at most the first loss,
whatever `n_iter_max` is. -/
theorem C112_classifier_descent [LinearOrder β]
    (solve : ∀ ns nt, (Fin ns → Fin nt → K) → (Fin ns → K) → (Fin nt → K) → Sol K ns nt)
    (dist : α → α → K) (C : Classifier α β E K) (metric : String) (alpha thr : K) (n : Nat) (tol : K) (undef : Py (JdotOut E K))
    (X : List α) (y : List β) (sw : Option (List K)) (sd : List Int) (hsd : sd ≠ []) (hX : X.length = sd.length)
    (hy : y.length = sd.length) (hw : ∀ v, sw = some v → v.length = sd.length) (f : JdotOut E K)
    (h : jdotClassifierFit solve dist C metric alpha thr n tol undef X (some y) sw sd = .ok f)
    (cost : E → β → α → K) (B S : K)
    (hp : Proper (crossDist dist (sourceRows sd X) (targetRows sd X)) (weightFn (sw.map (sourceRows sd)))
      (weightFn (sw.map (targetRows sd))))
    (hs : Solves (solve (sourceRows sd X).length (targetRows sd X).length)
      (marginal (weightFn (sw.map (sourceRows sd)))) (marginal (weightFn (sw.map (targetRows sd)))))
    (hc : CostOf C metric (unique (sourceRows sd y)) cost) (hmin : Minimises C cost) (h10 : ∃ e, ∀ c x, cost e c x ≤ 10)
    (hnn : ∀ e c x, 0 ≤ cost e c x) (hd : ∀ x x', 0 ≤ dist x x') (ha : 0 ≤ alpha) (ha1 : alpha ≤ 1) (hthr : 0 ≤ thr)
    (hB : ∀ t : Fin (targetRows sd X).length,
      ((targetRows sd X).length : K) * marginal (weightFn (sw.map (targetRows sd))) t ≤ B)
    (hS : ∀ e x, thr * ((unique (sourceRows sd y)).map (fun c => cost e c x)).sum ≤ S) (hS0 : 0 ≤ S) :
    (∀ j v w, f.lossOt[j]? = some v → f.lossOt[j + 1]? = some w → w ≤ v + alpha * (B * S)) ∧
    (thr = 0 → (∀ j v w, f.lossOt[j]? = some v → f.lossOt[j + 1]? = some w → w ≤ v) ∧
      ∀ l0, f.lossOt.head? = some l0 → ((f.lossOt.length - 2 : Nat) : K) * tol ≤ l0) := by
  have hl : (sourceRows sd y).length = (sourceRows sd X).length := by
    rw [length_sourceRows hy.symm, length_sourceRows hX.symm]
  rw [classifier_unfold solve dist C metric alpha thr n tol undef X y sw sd hsd hX hy hw hl, if_pos hp] at h
  obtain ⟨sol, hr, -, -⟩ := JdotOut_of_ok h
  obtain ⟨rs, r, h1, h2, h3, h4, h5, h6, h7, h8⟩ := loopE_spec _ _ _ _ _ _ _ _ _ _ _ _ hr
  simp only [Option.toList_none, List.nil_append] at h5 h3 h4 h8
  have hyc : ∀ s : Fin (sourceRows sd X).length, (sourceRows sd y)[s] ∈ unique (sourceRows sd y) := fun s =>
    mem_unique.2 (List.getElem_mem _)
  obtain ⟨e10, he10⟩ := h10
  have step : ∀ S', 0 ≤ S' → (∀ e x, thr * ((unique (sourceRows sd y)).map (fun c => cost e c x)).sum ≤ S') →
      ∀ j v w, f.lossOt[j]? = some v → f.lossOt[j + 1]? = some w → w ≤ v + alpha * (B * S') := by
    intro S' hS0' hS' j v w hv hw'
    rw [h3, List.getElem?_map, Option.map_eq_some_iff] at hv hw'
    obtain ⟨p, hp1, rfl⟩ := hv
    obtain ⟨q, hq1, rfl⟩ := hw'
    exact cls_rounds hs hc hmin (nodup_unique _) hyc hp.2.1 (fun e c t => hnn e c _) ha hthr hB (fun e t => hS' e _) hS0'
      ⟨e10, fun s t => he10 _ _⟩ h1 j p q hp1 hq1
  refine ⟨step S hS0 hS, fun ht => ?_⟩
  have hmono : ∀ j v w, f.lossOt[j]? = some v → f.lossOt[j + 1]? = some w → w ≤ v := by
    intro j v w hv hw'
    have := step 0 le_rfl (fun e x => by rw [ht, zero_mul]) j v w hv hw'
    simpa using this
  refine ⟨hmono, fun l0 hl0 => steps_bounded ?_ hmono ?_ l0 hl0⟩
  · intro v hv
    rw [h3] at hv
    obtain ⟨q, hq, rfl⟩ := List.mem_map.1 hv
    refine cls_nonneg hs hc (fun e c t => hnn e c _) ha ha1 (fun s t => ?_) (fun s t => by norm_num) h1 q hq
    exact div_nonneg (hd _ _) (div_nonneg (Finset.sum_nonneg fun s _ => Finset.sum_nonneg fun t _ => hd _ _) (by positivity))
  · intro j v w hj hv hw'
    rw [h3, List.getElem?_map, Option.map_eq_some_iff] at hv hw'
    obtain ⟨p, hp1, rfl⟩ := hv
    obtain ⟨q, hq1, rfl⟩ := hw'
    exact (h8 j p q (by rw [h3] at hj; simpa using hj) hp1 hq1).1

/-- `fit` on the rows `x` minimises the `b`-weighted squared error among the fitted estimators. -/
def Spec.LeastSquaresOn (R : Regressor α E K) (x : Fin nt → α) (w : Option (List K)) (b : Fin nt → K) : Prop :=
  ∀ (l : Fin nt → K) est, R.fit (List.ofFn x) (List.ofFn l) w = .ok est →
    ∀ e, ∑ t, b t * (l t - R.predict est (x t)) ^ 2 ≤ ∑ t, b t * (l t - R.predict e (x t)) ^ 2

theorem regBody_ok {solve : (Fin ns → Fin nt → K) → (Fin ns → K) → (Fin nt → K) → Sol K ns nt}
    {R : Regressor α E K} {alpha : K} {Mf : Fin ns → Fin nt → K} {x : Fin nt → α} {ys : Fin ns → K} {wt : Option (Fin nt → K)}
    {a : Fin ns → K} {b : Fin nt → K} {i : Nat} {Ml : Fin ns → Fin nt → K} {r : Iter E K ns nt}
    (h : regBodyE solve R alpha Mf x ys wt a b i Ml = .ok r) :
    r.sol = solve (jdotCost alpha Mf Ml i) a b ∧
    r.lossOt = (if i = 0 then r.sol.value + alpha * inner Ml r.sol.plan else r.sol.value) ∧
    r.Ml = sqDist ys (fun t => R.predict r.est (x t)) ∧
    R.fit (List.ofFn x) (List.ofFn (transported ys r.sol.plan b)) (wt.map List.ofFn) = .ok r.est := by
  unfold regBodyE at h
  simp only at h
  split at h
  · cases h
  · rename_i est hfit
    simp only [Except.ok.injEq] at h
    subst h
    exact ⟨rfl, rfl, rfl, hfit⟩

theorem reg_step {solve : (Fin ns → Fin nt → K) → (Fin ns → K) → (Fin nt → K) → Sol K ns nt}
    {R : Regressor α E K} {alpha : K} {Mf : Fin ns → Fin nt → K} {x : Fin nt → α} {ys : Fin ns → K} {wt : Option (Fin nt → K)}
    {a : Fin ns → K} {b : Fin nt → K} (hs : Solves solve a b) (hf : LeastSquaresOn R x (wt.map List.ofFn) b) (ha : 0 ≤ alpha)
    (hb : ∀ t, b t ≠ 0) {i : Nat} {Ml : Fin ns → Fin nt → K} (hMl : ∃ e, Ml = sqDist ys (fun t => R.predict e (x t)))
    {r r' : Iter E K ns nt} (h : regBodyE solve R alpha Mf x ys wt a b i Ml = .ok r)
    (h' : regBodyE solve R alpha Mf x ys wt a b (i + 1) r.Ml = .ok r') : r'.lossOt ≤ r.lossOt := by
  obtain ⟨hsol, hlo, hMl', hfit⟩ := regBody_ok h
  obtain ⟨hsol', hlo', -, -⟩ := regBody_ok h'
  have hT : Coupling a b r.sol.plan := by rw [hsol]; exact (hs _).1
  have e1 : r.lossOt = (1 - alpha) * inner Mf r.sol.plan + alpha * inner Ml r.sol.plan := by
    rw [hlo]
    have hv : r.sol.value = inner (jdotCost alpha Mf Ml i) r.sol.plan := by rw [hsol]; exact (hs _).2.1
    cases i with
    | zero =>
      rw [if_pos rfl, hv]
      congr 1
      unfold inner jdotCost
      rw [Finset.mul_sum]
      refine Finset.sum_congr rfl fun s _ => ?_
      rw [Finset.mul_sum]
      exact Finset.sum_congr rfl fun t _ => by simp [mul_assoc]
    | succ i =>
      rw [if_neg (by omega), hv, ← inner_cost]
      rfl
  have e2 : r'.lossOt ≤ (1 - alpha) * inner Mf r.sol.plan + alpha * inner r.Ml r.sol.plan := by
    rw [hlo', if_neg (by omega), hsol', ← inner_cost]
    exact (hs _).2.2 _ hT
  obtain ⟨e, rfl⟩ := hMl
  have e3 : inner r.Ml r.sol.plan ≤ inner (sqDist ys (fun t => R.predict e (x t))) r.sol.plan := by
    rw [hMl', inner_sqDist ys _ a b hT hb, inner_sqDist ys _ a b hT hb]
    have := hf _ _ hfit e
    linarith
  have := mul_le_mul_of_nonneg_left e3 ha
  linarith

theorem reg_rounds {solve : (Fin ns → Fin nt → K) → (Fin ns → K) → (Fin nt → K) → Sol K ns nt}
    {R : Regressor α E K} {alpha : K} {Mf : Fin ns → Fin nt → K} {x : Fin nt → α} {ys : Fin ns → K} {wt : Option (Fin nt → K)}
    {a : Fin ns → K} {b : Fin nt → K} (hs : Solves solve a b) (hf : LeastSquaresOn R x (wt.map List.ofFn) b) (ha : 0 ≤ alpha)
    (hb : ∀ t, b t ≠ 0) {i : Nat} {Ml : Fin ns → Fin nt → K} (hMl : ∃ e, Ml = sqDist ys (fun t => R.predict e (x t)))
    {rs : List (Iter E K ns nt)} (h : Iterations (regBodyE solve R alpha Mf x ys wt a b) i Ml rs) (j : Nat) (p q : Iter E K ns nt)
    (hp : rs[j]? = some p) (hq : rs[j + 1]? = some q) : q.lossOt ≤ p.lossOt := by
  induction rs generalizing i Ml j with
  | nil => simp at hp
  | cons r rs ih =>
    obtain ⟨h1, h2⟩ := h
    cases j with
    | zero =>
      simp only [List.getElem?_cons_zero, Option.some.injEq] at hp
      subst hp
      cases rs with
      | nil => simp at hq
      | cons r' rs =>
        simp only [List.getElem?_cons_succ, List.getElem?_cons_zero, Option.some.injEq] at hq
        subst hq
        exact reg_step hs hf ha hb hMl h1 h2.1
    | succ j =>
      obtain ⟨-, -, h3, -⟩ := regBody_ok h1
      exact ih ⟨r.est, h3⟩ h2 j (by simpa using hp) (by simpa using hq)

theorem reg_nonneg {solve : (Fin ns → Fin nt → K) → (Fin ns → K) → (Fin nt → K) → Sol K ns nt}
    {R : Regressor α E K} {alpha : K} {Mf : Fin ns → Fin nt → K} {x : Fin nt → α} {ys : Fin ns → K} {wt : Option (Fin nt → K)}
    {a : Fin ns → K} {b : Fin nt → K} (hs : Solves solve a b) (ha : 0 ≤ alpha) (ha1 : alpha ≤ 1) (hM : ∀ s t, 0 ≤ Mf s t)
    {i : Nat} {Ml : Fin ns → Fin nt → K} (hMl : ∀ s t, 0 ≤ Ml s t)
    {rs : List (Iter E K ns nt)} (h : Iterations (regBodyE solve R alpha Mf x ys wt a b) i Ml rs) : ∀ r ∈ rs, 0 ≤ r.lossOt := by
  induction rs generalizing i Ml with
  | nil => simp
  | cons r rs ih =>
    obtain ⟨h1, h2⟩ := h
    obtain ⟨hsol, hlo, hMl', -⟩ := regBody_ok h1
    have hT : Coupling a b r.sol.plan := by rw [hsol]; exact (hs _).1
    have hin : ∀ N : Fin ns → Fin nt → K, (∀ s t, 0 ≤ N s t) → 0 ≤ inner N r.sol.plan := fun N hN =>
      Finset.sum_nonneg fun s _ => Finset.sum_nonneg fun t _ => mul_nonneg (hN s t) (hT.nonneg s t)
    intro q hq
    rcases List.mem_cons.1 hq with rfl | hq
    · have hv : 0 ≤ q.sol.value := by
        have : q.sol.value = inner (jdotCost alpha Mf Ml i) q.sol.plan := by rw [hsol]; exact (hs _).2.1
        rw [this]
        refine hin _ fun s t => ?_
        unfold jdotCost
        have := mul_nonneg (sub_nonneg.2 ha1) (hM s t)
        have := mul_nonneg ha (hMl s t)
        split <;> linarith
      rw [hlo]
      split
      · have := mul_nonneg ha (hin Ml hMl); linarith
      · exact hv
    · exact ih (fun s t => by rw [hMl']; exact sq_nonneg _) h2 q hq

/-- C112 (the objective of regression). Let the OT solver be exact and the base regressor an exact least-squares fit, for the
normalised target weights, over a set of predictors that contains zero; distances non-negative, `0 ≤ alpha ≤ 1`. Then the
reported OT losses of `JDOTRegressor.fit` never rise, and the number of iterations after the second times `tol` is at most the
first loss, whatever `n_iter_max` is. -/
theorem C112_regressor_descent (solve : ∀ ns nt, (Fin ns → Fin nt → K) → (Fin ns → K) → (Fin nt → K) → Sol K ns nt)
    (dist : α → α → K) (R : Regressor α E K) (num : β → K) (alpha : K) (n : Nat) (tol : K) (undef : Py (JdotOut E K))
    (X : List α) (y : List β) (sw : Option (List K)) (sd : List Int) (hsd : sd ≠ []) (hX : X.length = sd.length)
    (hy : y.length = sd.length) (hw : ∀ v, sw = some v → v.length = sd.length) (f : JdotOut E K)
    (h : jdotRegressorFit solve dist R num alpha n tol undef X (some y) sw sd = .ok f)
    (hp : Proper (crossDist dist (sourceRows sd X) (targetRows sd X)) (weightFn (sw.map (sourceRows sd)))
      (weightFn (sw.map (targetRows sd))))
    (b : Fin (targetRows sd X).length → K) (hbd : b = marginal (weightFn (sw.map (targetRows sd)))) (hb : ∀ t, b t ≠ 0)
    (hs : Solves (solve (sourceRows sd X).length (targetRows sd X).length) (marginal (weightFn (sw.map (sourceRows sd)))) b)
    (hf : LeastSquaresOn R (fun t : Fin (targetRows sd X).length => (targetRows sd X)[t]) (sw.map (targetRows sd)) b)
    (h0 : ∃ e, ∀ x, R.predict e x = 0) (hd : ∀ x x', 0 ≤ dist x x') (ha : 0 ≤ alpha) (ha1 : alpha ≤ 1) :
    (∀ j v w, f.lossOt[j]? = some v → f.lossOt[j + 1]? = some w → w ≤ v) ∧
      ∀ l0, f.lossOt.head? = some l0 → ((f.lossOt.length - 2 : Nat) : K) * tol ≤ l0 := by
  subst hbd
  rw [regressor_unfold solve dist R num alpha n tol undef X y sw sd hsd hX hy hw, if_pos ⟨hp, hb⟩] at h
  obtain ⟨sol, hr, -, -⟩ := JdotOut_of_ok h
  obtain ⟨rs, r, h1, h2, h3, h4, h5, h6, h7, h8⟩ := loopE_spec _ _ _ _ _ _ _ _ _ _ _ _ hr
  simp only [Option.toList_none, List.nil_append] at h5 h3 h4 h8
  have hf' : LeastSquaresOn R (fun t : Fin (targetRows sd X).length => (targetRows sd X)[t])
      ((weightFn (sw.map (targetRows sd)) : Option (Fin (targetRows sd X).length → K)).map List.ofFn)
      (marginal (weightFn (sw.map (targetRows sd)))) := by
    have hw' : (weightFn (sw.map (targetRows sd)) : Option (Fin (targetRows sd X).length → K)).map List.ofFn
        = sw.map (targetRows sd) := by
      cases sw with
      | none => rfl
      | some v =>
        simp only [weightFn, Option.map_some, Option.some.injEq]
        apply List.ext_getElem
        · simp [length_targetRows, hX, hw v rfl]
        · intro i hi1 hi2
          simp [List.getD_eq_getElem?_getD, hi2]
    rw [hw']; exact hf
  obtain ⟨e0, he0⟩ := h0
  have hmono : ∀ j v w, f.lossOt[j]? = some v → f.lossOt[j + 1]? = some w → w ≤ v := by
    intro j v w hv hw'
    rw [h3, List.getElem?_map, Option.map_eq_some_iff] at hv hw'
    obtain ⟨p, hp1, rfl⟩ := hv
    obtain ⟨q, hq1, rfl⟩ := hw'
    exact reg_rounds hs hf' ha hb ⟨e0, by simp only [he0]⟩ h1 j p q hp1 hq1
  refine ⟨hmono, fun l0 hl0 => steps_bounded ?_ hmono ?_ l0 hl0⟩
  · intro v hv
    rw [h3] at hv
    obtain ⟨q, hq, rfl⟩ := List.mem_map.1 hv
    refine reg_nonneg hs ha ha1 (fun s t => ?_) (fun s t => sq_nonneg _) h1 q hq
    exact div_nonneg (hd _ _) (div_nonneg (Finset.sum_nonneg fun s _ => Finset.sum_nonneg fun t _ => hd _ _) (by positivity))
  · intro j v w hj hv hw'
    rw [h3, List.getElem?_map, Option.map_eq_some_iff] at hv hw'
    obtain ⟨p, hp1, rfl⟩ := hv
    obtain ⟨q, hq1, rfl⟩ := hw'
    exact (h8 j p q (by rw [h3] at hj; simpa using hj) hp1 hq1).1

/-- C112 (class costs). With one score per class, the cost of giving a row the class number `k` is minus the log-probability of
the class ("multinomial"), or the sum of the hinge losses of all scores, with sign plus for class `k` and minus for the others
("hinge"). Other metrics, and estimators without the needed method, raise `ValueError`; so does a number of scores that is
neither 1 nor the number of classes. -/
theorem C112_class_cost [DecidableEq β] (labels : List β) (hn : labels.Nodup) (k : Fin labels.length) (e : ClassEst α K) (x : α) :
    (∀ f, e.logProba = some f ∨ (e.logProba = none ∧ e.proba = some f) → ∀ hl : (f x).length = labels.length,
      clsCost "multinomial" e (oneHot labels labels[k]) x = .ok (-(f x)[k])) ∧
    (∀ f s, e.decision = some f → f x = .multi s → ∀ hl : s.length = labels.length,
      clsCost "hinge" e (oneHot labels labels[k]) x
        = .ok (∑ j : Fin labels.length, max 0 (1 - if j = k then s[j] else - s[j]))) ∧
    (e.logProba = none → e.proba = none → clsCost "multinomial" e (oneHot labels labels[k]) x = .error .valueError) ∧
    (e.decision = none → clsCost "hinge" e (oneHot labels labels[k]) x = .error .valueError) ∧
    (∀ metric, metric ≠ "multinomial" → metric ≠ "hinge" → clsCost metric e (oneHot labels labels[k]) x = .error .valueError) ∧
    (∀ f s, e.decision = some f → f x = .multi s → s.length ≠ labels.length → s.length ≠ 1 → labels.length ≠ 1 →
      clsCost "hinge" e (oneHot labels labels[k]) x = .error .valueError) := by
  have hlen : (oneHot labels labels[k] : List K).length = labels.length := by simp [oneHot, RW.indicator]
  have hlen' : (oneHot labels labels[k.val] : List K).length = labels.length := hlen
  have hone : (oneHot labels labels[k] : List K) = List.ofFn (fun j : Fin labels.length => if j = k then 1 else 0) := by
    apply List.ext_getElem
    · simp [oneHot, RW.indicator]
    · intro i h1 h2
      simp only [oneHot, RW.indicator, List.getElem_map, List.getElem_ofFn]
      have hi : i < labels.length := by simpa [oneHot, RW.indicator] using h1
      have : labels[k] = labels[i] ↔ (⟨i, hi⟩ : Fin labels.length) = k := by
        rw [Fin.ext_iff, eq_comm]
        exact hn.getElem_inj_iff
      by_cases hk : (⟨i, hi⟩ : Fin labels.length) = k
      · rw [if_pos (this.2 hk), if_pos hk]
      · rw [if_neg (fun h => hk (this.1 h)), if_neg hk]
  have hz : ∀ (g : K → K → K) (v : List K) (hl : v.length = labels.length),
      (List.zipWith g (oneHot labels labels[k]) v).sum = ∑ j : Fin labels.length, g (if j = k then 1 else 0) v[j] := by
    intro g v hl
    rw [hone, ← List.sum_ofFn]
    congr 1
    apply List.ext_getElem
    · simp [hl]
    · intro i h1 h2
      simp
  refine ⟨?_, ?_, ?_, ?_, ?_, ?_⟩
  · intro f hf hl
    have : clsCost "multinomial" e (oneHot labels labels[k]) x = .ok (logCost (oneHot labels labels[k]) (f x)) := by
      rcases hf with hf | ⟨hf, hf'⟩
      · simp [clsCost, hf, broadcastRow, hl, hlen']
      · simp [clsCost, hf, hf', broadcastRow, hl, hlen']
    rw [this, logCost, hz _ _ hl]
    simp
  · intro f s hf hs hl
    have : clsCost "hinge" e (oneHot labels labels[k]) x = .ok (hingeCost (oneHot labels labels[k]) (.multi s)) := by
      simp [clsCost, hf, hs, broadcastRow, hl, hlen', Scores.expand]
    rw [this, hingeCost]
    simp only [Scores.expand]
    rw [hz _ _ hl]
    congr 1
    refine Finset.sum_congr rfl fun j _ => ?_
    unfold hinge
    split <;> congr 2 <;> ring
  · intro h1 h2
    simp [clsCost, h1, h2]
  · intro h1
    simp [clsCost, h1]
  · intro m h1 h2
    simp [clsCost, h1, h2]
  · intro f s hf hs h1 h2 h3
    simp [clsCost, hf, hs, Scores.expand, broadcastRow, hlen', h1, h2, h3]

end Descent

/-! ### Prediction -/

section Predict
set_option linter.unusedSectionVars false
variable {K : Type} [Field K] [LinearOrder K] {α β E γ : Type}

/-- C112 (prediction). After `fit`, `predict` and `score` are those of the fitted base estimator, whatever domain labels are
given: source rows are not refused, they only cause a warning, and that exactly when a label is non-negative. An unfitted object
raises; `predict_proba` exists exactly when the base estimator has it. -/
theorem C112_predict (answer : E → List α → Py γ) (f : JdotOut E K) (X : List α) (sd : Option (List Int)) (v : γ)
    (hv : answer f.est X = .ok v) (warns : Bool) (hwarn : warns = true ↔ ∃ l, sd = some l ∧ ∃ d ∈ l, 0 ≤ d) :
    jdotPredict answer (some f) X sd = .ok (warns, v) ∧
    jdotPredictProba true answer (some f) X sd = .ok (warns, v) ∧
    jdotPredictProba false answer (some f) X sd = .error .attributeError ∧
    jdotPredict answer (none : Option (JdotOut E K)) X sd = .error .valueError ∧
    (∀ (score : E → List α → List β → Option (List K) → Py γ) (y : List β) (sw : Option (List K)) (u : γ),
      score f.est X y sw = .ok u → jdotScore score (some f) X y sd sw = .ok (warns, u)) := by
  have h0 : sd = none → warns = false := by
    rintro rfl
    cases warns with
    | false => rfl
    | true => obtain ⟨l, hl, -⟩ := hwarn.1 rfl; cases hl
  have h1 : ∀ l, sd = some l → l.any (fun d => decide (0 ≤ d)) = warns := by
    rintro l rfl
    rw [Bool.eq_iff_iff, hwarn]
    simp
  refine ⟨?_, ?_, rfl, rfl, fun score y sw u hu => ?_⟩
  · cases sd with
    | none => simp only [jdotPredict, hv, h0 rfl]
    | some l => simp only [jdotPredict, hv, h1 l rfl]
  · cases sd with
    | none => simp only [jdotPredictProba, if_true, jdotPredict, hv, h0 rfl]
    | some l => simp only [jdotPredictProba, if_true, jdotPredict, hv, h1 l rfl]
  · cases sd with
    | none => simp only [jdotScore, hu, h0 rfl]
    | some l => simp only [jdotScore, hu, h1 l rfl]

/-- C112 (`fit` returns nothing). The usual chained call `est.fit(…).predict(X)` fails for every data set: where `fit` succeeds, it
returns `None`, and the call raises `AttributeError`. -/
theorem C112_fit_returns_none_counterexample (fit : Py (JdotOut E K)) (answer : E → List α → Py γ) (X : List α)
    (sd : Option (List Int)) : (∀ v, jdotChained fit answer X sd ≠ .ok v) ∧
      ∀ f, fit = .ok f → jdotChained fit answer X sd = .error .attributeError := by
  cases fit with
  | error e => exact ⟨fun v => by simp [jdotChained, jdotFitCall], fun f hf => by cases hf⟩
  | ok f => exact ⟨fun v => by simp [jdotChained, jdotFitCall], fun f hf => rfl⟩

/-- C112 (construction). A given base estimator is used exactly when it has both `fit` and `predict`, otherwise the constructor
raises `ValueError`. -/
theorem C112_base_estimator {B : Type} (default b c : B) (hasFit hasPredict : Bool) :
    jdotInit default none = .ok default ∧
    (jdotInit default (some (b, hasFit, hasPredict)) = .ok c ↔ hasFit = true ∧ hasPredict = true ∧ c = b) ∧
    (jdotInit default (some (b, hasFit, hasPredict)) = .error .valueError ↔ ¬ (hasFit = true ∧ hasPredict = true)) := by
  refine ⟨rfl, ?_, ?_⟩ <;> cases hasFit <;> cases hasPredict <;> simp [jdotInit, eq_comm]

end Predict

/-! ### In a pipeline -/

section Pipeline
variable {α σ E γ : Type}

/-- C112 (pipeline, fitting). Behind any adapters and transformers that make no weights, a JDOT estimator is fitted once, on all
transformed rows with their domain labels, and the fitted pipeline holds exactly what JDOT gives on these rows with the labels
of the user: masking the target labels changes nothing. -/
theorem C112_pipeline_fit [Cell α] (keep : String → Bool) (es : List (Est α σ)) (wrap : JdotOut E ℚ → σ)
    (fit : List α → Option (List Num) → Option (List ℚ) → List Int → Py (JdotOut E ℚ)) (X X' : List α) (y : List Num)
    (sd : List Int) (calls : List (Call α)) (fs : List σ) (hk : keep "sample_domain" = true) (hsd : sd ≠ [])
    (hy : y.length = sd.length) (hinf : Num.pinf ∉ y ∧ Num.ninf ∉ y)
    (h : Adapts sd (maskedLabels sd y) es ⟨X, none, none⟩ ⟨X', none, none⟩ calls fs)
    (hfit : ∀ l l' : List Num, l.length = sd.length → l'.length = sd.length → sourceRows sd l = sourceRows sd l' →
      fit X' (some l) none sd = fit X' (some l') none sd) :
    pipelineFit (daPipeline keep es (jdotEst wrap fit) true) X (some y) [("sample_domain", domParam sd)] =
      (calls ++ [⟨X', some (maskedLabels sd y), [("sample_domain", domParam sd)]⟩],
        match fit X' (some y) none sd with
        | .error e => .error e
        | .ok f => .ok (fs.map .one ++ [.one (wrap f)], some (maskedLabels sd y))) := by
  have hr : routeParams jdotFitReq [("sample_domain", domParam sd)] = .ok [("sample_domain", domParam sd)] := by
    simp [routeParams, jdotFitReq, List.lookup, domParam, Dict.has]
  have hmeta : (⟨X', none, none⟩ : Flow α).cont.metadata = [] := rfl
  have hg : Dict.get [("sample_domain", domParam sd)] "sample_domain" = domParam sd := get_eq_of_lookup List.lookup_cons_self
  have hg2 : Dict.get [("sample_domain", domParam sd)] "sample_weight" = .none := rfl
  have hlast : (jdotEst wrap fit).fit ⟨X', some (maskedLabels sd y), [("sample_domain", domParam sd)]⟩
      = match fit X' (some y) none sd with
        | .error e => .error e
        | .ok f => .ok (wrap f) := by
    simp only [jdotEst, hg, hg2, domainsOf_domParam, weightsArg]
    rw [hfit _ y (length_maskedLabels hy) hy (sourceRows_masked hy)]
    rfl
  rw [daPipeline_fit hk h (fun e g l hl => ownMask_true hsd hy hinf hl), keep_sd hk]
  have hreq : (jdotEst wrap fit).fitReq = jdotFitReq := rfl
  have htr : (jdotEst wrap fit).hasTransform = false := rfl
  simp only [Step.fit, Sel.sharedFit, ownMask_true hsd hy hinf (Or.inr rfl), cont_params, hmeta, Sel.routedCall, Est.request,
    hreq, prepareRouting, Bool.true_or, if_true, hr, Sel.removeMasked, htr, Dict.has, List.lookup_cons_self, Option.isSome_some,
    Bool.or_true, Est.invoke, hlast]
  cases fit X' (some y) none sd <;> rfl

theorem route_jdot {X : List α} {p : Dict} (hp : TargetParams X p) : routeParams jdotPredictReq p = .ok p := by
  rcases hp with rfl | ⟨sd, -, -, rfl⟩
  · rfl
  · simp [routeParams, jdotPredictReq, List.lookup, domParam, Dict.has]

/-- C112 (pipeline, prediction). On target data, with or without domain labels, the fitted pipeline answers with the base
estimator that JDOT trained, on the rows that the adapters make of the data, without a warning. -/
theorem C112_pipeline_predict (keep : String → Bool) (mask : Bool) (es : List (Est α σ)) (fs : List σ) (fin : Est α σ) (f : σ)
    (unwrap : σ → JdotOut E ℚ) (args : List String) (answer : E → List α → Py γ) (X Z : List α) (p : Dict) (v : γ)
    (hk : keep "sample_domain" = true) (hargs : args = regressorArgs ∨ args = classifierArgs) (hp : TargetParams X p)
    (h : Passes p es fs X Z) (hv : answer (unwrap f).est Z = .ok v) :
    pipelineRoute (fittedSteps keep mask es fs) (keep, ⟨fin, mask, true⟩, f) jdotPredictReq (jdotQuery unwrap args answer) X none p
      = .ok (false, v) := by
  have hc : ∀ r, AsksDomain r → consumeParams r p = p := fun r hr => consume_target hr hp
  have hkp := keep_target hk hp
  have hr := route_jdot hp
  have hq : ∀ Z', answer (unwrap f).est Z' = .ok v → jdotQuery unwrap args answer f ⟨Z', none, p⟩ = .ok (false, v) := by
    intro Z' hZ
    unfold jdotQuery
    rcases hp with rfl | ⟨sd, -, hneg, rfl⟩
    · simp [Dict.get, jdotPredict, hZ]
    · have h1 : Dict.get [("sample_domain", domParam sd)] "sample_domain" = domParam sd := get_eq_of_lookup List.lookup_cons_self
      have h2 : sd.any (fun d => decide (0 ≤ d)) = false := by
        rw [List.any_eq_false]
        intro d hd
        have := hneg d hd
        simp; omega
      have h3 : "sample_domain" ∈ args := by rcases hargs with rfl | rfl <;> decide
      simp only [List.all_cons, List.all_nil, Bool.and_true, h3, decide_true, if_true, h1]
      have h4 := domainsOf_domParam sd
      unfold domParam at h4 ⊢
      simp only [h4]
      simp only [jdotPredict, hZ, h2]
  clear hp hargs
  induction h with
  | nil X =>
    simp only [fittedSteps, List.zipWith_nil_left, pipelineRoute, Sel.sharedRoute, prepareRouting, Bool.true_or, if_true,
      hkp, hr, Sel.removeMasked]
    exact hq X hv
  | step e es f' fs X X' Z h1 h2 h3 h4 ih =>
    have ih := ih hv
    simp only [fittedSteps, List.zipWith_cons_cons, pipelineRoute, Sel.sharedTransform, prepareRouting, h1, Bool.not_true,
      Bool.or_false, Bool.false_eq_true, if_false, hkp, hc _ h2, h3] at ih ⊢
    exact ih

/-- C112 (`allow_source`). Prediction for source data through a pipeline with `allow_source=True` works with `JDOTClassifier` (with
a warning), but raises `TypeError` with `JDOTRegressor`: its `predict` requests the argument and does not accept it. -/
theorem C112_allow_source_counterexample (keep : String → Bool) (mask : Bool) (fin : Est α σ) (f : σ)
    (unwrap : σ → JdotOut E ℚ) (answer : E → List α → Py γ) (X : List α) (sd : List Int) (v : γ)
    (hk : keep "sample_domain" = true) (hk' : keep "allow_source" = true) (hs : ∃ d ∈ sd, 0 ≤ d)
    (hv : answer (unwrap f).est X = .ok v) :
    pipelineRoute [] (keep, ⟨fin, mask, true⟩, f) jdotPredictReq (jdotQuery unwrap classifierArgs answer) X none
        [("sample_domain", domParam sd), ("allow_source", .scalar (.fin 1))] = .ok (true, v) ∧
    pipelineRoute [] (keep, ⟨fin, mask, true⟩, f) jdotPredictReq (jdotQuery unwrap regressorArgs answer) X none
        [("sample_domain", domParam sd), ("allow_source", .scalar (.fin 1))] = .error .typeError := by
  have hkeep : List.filter (fun kv : String × Param Num => keep kv.1)
      [("sample_domain", domParam sd), ("allow_source", .scalar (.fin 1))]
      = [("sample_domain", domParam sd), ("allow_source", .scalar (.fin 1))] := by simp [hk, hk']
  have hr : routeParams jdotPredictReq [("sample_domain", domParam sd), ("allow_source", .scalar (.fin 1))]
      = .ok [("allow_source", .scalar (.fin 1)), ("sample_domain", domParam sd)] := by
    simp [routeParams, jdotPredictReq, List.lookup, domParam, Dict.has]
  have hg : Dict.get [("allow_source", .scalar (.fin 1)), ("sample_domain", domParam sd)] "sample_domain" = domParam sd := rfl
  have ha : sd.any (fun d => decide (0 ≤ d)) = true := by
    obtain ⟨d, hd, h0⟩ := hs
    exact List.any_eq_true.2 ⟨d, hd, by simpa using h0⟩
  constructor
  · simp only [pipelineRoute, Sel.sharedRoute, prepareRouting, Bool.true_or, if_true, hkeep, hr, Sel.removeMasked, jdotQuery]
    rw [if_pos (by simp [classifierArgs]), hg]
    show (match domainsOf (domParam sd) with | .error e => _ | .ok sd => _) = _
    rw [domainsOf_domParam]
    simp only [jdotPredict, hv, ha]
  · simp only [pipelineRoute, Sel.sharedRoute, prepareRouting, Bool.true_or, if_true, hkeep, hr, Sel.removeMasked, jdotQuery]
    rw [if_neg]
    simp [regressorArgs]

end Pipeline

/-! ### Concrete cases -/

section Demo

/-- An OT solver that is exact for a single target row: all mass goes there. -/
def demoSolve (ns nt : Nat) (M : Fin ns → Fin nt → ℚ) (a : Fin ns → ℚ) (_ : Fin nt → ℚ) : Sol ℚ ns nt :=
  ⟨fun s _ => a s, inner M (fun s _ => a s)⟩

/-- Regression by a constant: the mean of the labels. -/
def demoMean : Regressor ℚ ℚ ℚ := ⟨fun _ y _ => if y = [] then .error .valueError else .ok (y.sum / y.length), fun e _ => e⟩

/-- Two source rows with labels 1 and 5, weights 1 and 3, and one target row of unknown label: the target row gets label 4. -/
example : (jdotRegressorFit demoSolve (fun x x' => |x - x'|) demoMean (fun v : ℚ => v) (1 / 2) 10 (1 / 100) (.error .runtimeError)
    [0, 7, 2] (some [1, 77, 5]) (some [1, 9, 3]) [1, -2, 1]).map (fun f => (f.est, f.plan, f.lossOt))
      = .ok (4, [[1 / 4], [3 / 4]], [239 / 24, 47 / 24]) := by decide +kernel

/-- The label of the target row does not matter; without labels `fit` raises. -/
example : (jdotRegressorFit demoSolve (fun x x' => |x - x'|) demoMean (fun v : ℚ => v) (1 / 2) 10 (1 / 100) (.error .runtimeError)
    [0, 7, 2] (some [1, -1, 5]) (some [1, 9, 3]) [1, -2, 1]).map (fun f => f.est) = .ok 4 ∧
    (jdotRegressorFit demoSolve (fun x x' => |x - x'|) demoMean (fun v : ℚ => v) (1 / 2) 10 (1 / 100) (.error .runtimeError)
    [0, 7, 2] none none [1, -2, 1]).map (fun f => f.est) = .error .typeError := by decide +kernel

/-- A classifier that always answers one of the classes 3 (`false`) and 8 (`true`): the one with the larger weight. Its decision
values are `±1`. -/
def demoVote : Classifier ℚ Int Bool ℚ where
  fit data := .ok (decide (((data.filter (fun r => r.2.1 = 3)).map (fun r => r.2.2)).sum
    < ((data.filter (fun r => r.2.1 = 8)).map (fun r => r.2.2)).sum))
  view e := ⟨none, none, some (fun _ => .multi (if e then [-1, 1] else [1, -1]))⟩

/-- Source labels 3 and 8 with weights 1 and 3: class 8 wins; with all weight on one class the other is dropped. -/
example : (jdotClassifierFit demoSolve (fun x x' => |x - x'|) demoVote "hinge" (1 / 2) 0 10 (1 / 100) (.error .runtimeError)
    [0, 7, 2] (some [3, -1, 8]) (some [1, 9, 3]) [1, -2, 1]).map (fun f => (f.est, f.plan, f.lossOt))
      = .ok (true, [[1 / 4], [3 / 4]], [131 / 24, 23 / 24]) := by decide +kernel

/-- The hinge cost of the two answers. -/
def demoCost (e : Bool) (c : Int) (_ : ℚ) : ℚ := if c = 3 then (if e then 4 else 0) else if c = 8 then (if e then 0 else 4) else 2

theorem demo_costOf : CostOf demoVote "hinge" [3, 8] demoCost := by
  intro e c x
  have h3 : (oneHot [3, 8] c : List ℚ) = [if c = 3 then 1 else 0, if c = 8 then 1 else 0] := by simp [oneHot, RW.indicator]
  have key : clsCost "hinge" (demoVote.view e) [if c = 3 then (1 : ℚ) else 0, if c = 8 then 1 else 0] x =
      .ok (hingeCost [if c = 3 then (1 : ℚ) else 0, if c = 8 then 1 else 0] (.multi (if e then [-1, 1] else [1, -1]))) := by
    cases e <;> rfl
  rw [h3, key]
  by_cases hc : c = 3
  · subst hc
    cases e <;> simp [demoCost, hingeCost, hinge, Scores.expand] <;> norm_num
  · by_cases hc' : c = 8
    · subst hc'
      cases e <;> simp [demoCost, hingeCost, hinge, Scores.expand] <;> norm_num
    · cases e <;> simp [demoCost, hingeCost, hinge, Scores.expand, hc, hc'] <;> norm_num

theorem demo_minimises : Minimises demoVote demoCost := by
  intro data est h e
  have key : ∀ data : List (ℚ × Int × ℚ), (data.map (fun r => demoCost true r.2.1 r.1 * r.2.2)).sum
      - (data.map (fun r => demoCost false r.2.1 r.1 * r.2.2)).sum
      = 4 * (((data.filter (fun r => r.2.1 = 3)).map (fun r => r.2.2)).sum
        - ((data.filter (fun r => r.2.1 = 8)).map (fun r => r.2.2)).sum) := by
    intro data
    induction data with
    | nil => simp
    | cons r l ih =>
      simp only [List.map_cons, List.sum_cons, List.filter_cons, demoCost] at ih ⊢
      by_cases hc : r.2.1 = 3
      · have : r.2.1 ≠ 8 := by omega
        simp [hc] at ih ⊢
        linarith
      · by_cases hc' : r.2.1 = 8
        · simp [hc'] at ih ⊢
          linarith
        · simp [hc, hc'] at ih ⊢
          linarith
  have k := key data
  simp only [demoVote, Except.ok.injEq] at h
  subst h
  by_cases hlt : ((data.filter (fun r => r.2.1 = 3)).map (fun r => r.2.2)).sum
    < ((data.filter (fun r => r.2.1 = 8)).map (fun r => r.2.2)).sum
  · rw [decide_eq_true hlt]
    cases e with
    | true => exact le_refl _
    | false => linarith
  · rw [decide_eq_false hlt]
    cases e with
    | true => linarith
    | false => exact le_refl _

theorem demo_solves (ns : Nat) (a : Fin ns → ℚ) (b : Fin 1 → ℚ) (ha : ∀ s, 0 ≤ a s) (hb : ∑ s, a s = b 0) :
    Solves (demoSolve ns 1) a b := by
  intro M
  refine ⟨⟨fun s _ => ha s, fun s => by simp [demoSolve], fun t => ?_⟩, rfl, fun T hT => ?_⟩
  · rw [Subsingleton.elim t 0]; exact hb
  · refine le_of_eq ?_
    simp only [demoSolve, inner, Finset.univ_unique, Finset.sum_singleton]
    refine Finset.sum_congr rfl fun s _ => ?_
    have := hT.row s
    simp only [Finset.univ_unique, Finset.sum_singleton] at this
    rw [this]

/-- The hypotheses of C112_classifier_descent are met: exact plan, exact minimiser of the hinge cost, threshold 0. -/
example (f : JdotOut Bool ℚ) (h : jdotClassifierFit demoSolve (fun x x' => |x - x'|) demoVote "hinge" (1 / 2) 0 10 (1 / 100)
    (.error .runtimeError) [0, 7, 2] (some [3, -1, 8]) none [1, -2, 1] = .ok f) :=
  C112_classifier_descent demoSolve (fun x x' => |x - x'|) demoVote "hinge" (1 / 2) 0 10 (1 / 100) (.error .runtimeError)
    [0, 7, 2] [3, -1, 8] none [1, -2, 1] (by simp) rfl rfl (by simp) f h demoCost 1 0 (by decide +kernel)
    (demo_solves _ _ _ (by decide +kernel) (by decide +kernel)) demo_costOf demo_minimises
    ⟨true, fun c x => by unfold demoCost; split_ifs <;> norm_num⟩ (fun e c x => by unfold demoCost; split_ifs <;> norm_num)
    (fun _ _ => abs_nonneg _) (by norm_num) (by norm_num) le_rfl (by decide +kernel) (fun e x => by simp) le_rfl

/-- ... and such a run exists. -/
example : ((jdotClassifierFit demoSolve (fun x x' => |x - x'|) demoVote "hinge" (1 / 2) 0 10 (1 / 100)
    (.error .runtimeError) [0, 7, 2] (some [3, -1, 8]) none [1, -2, 1]).map (fun f => (f.est, f.lossOt)))
      = .ok (false, [11 / 2, 3 / 2]) := by decide +kernel

/-- Three source rows of weight 1/3: with the default threshold below 1/3 no class is lost. -/
example (kept : List (ℚ × Int × ℚ)) (T : Fin 3 → Fin 2 → ℚ) (hT : Coupling (fun _ => 1 / 3) (fun _ => 1 / 2) T)
    (hk : AboveThreshold (1 / 10 ^ 7) (weightedRows (fun t : Fin 2 => (t : ℚ)) T ![3, 8, 3] [3, 8]) kept) :
    ∃ t w, (((t : Fin 2) : ℚ), (8 : Int), w) ∈ kept :=
  C112_classes_kept _ _ T hT (fun t : Fin 2 => (t : ℚ)) ![3, 8, 3] [3, 8] (1 / 10 ^ 7) 1 kept hk (by norm_num)
    (fun _ => by norm_num) 1 (by decide) (by norm_num) (by norm_num)

/-- Such a plan exists. -/
example : Coupling (K := ℚ) (fun _ : Fin 3 => 1 / 3) (fun _ : Fin 2 => 1 / 2) (fun _ _ => 1 / 6) := by
  constructor <;> intros <;> norm_num

/-- The hypotheses of C112_pipeline_fit are met behind a scaler. -/
example : ((pipelineFit (daPipeline (fun _ => true) [demoScaler] (jdotEst (fun _ : JdotOut ℚ ℚ => 0)
      (jdotRegressorFit demoSolve (fun _ _ => 1) ⟨fun _ y _ => .ok y.sum, fun e _ => e⟩
        (fun v => match v with | .fin q => q | _ => 0) (1 / 2) 10 (1 / 100) (.error .runtimeError))) true)
    [.fin 5, .fin 6, .fin 7] (some [.fin 0, .fin 1, .fin 1]) [("sample_domain", domParam [1, -2, 1])]).1.map
      (fun c => (c.X, c.y, c.params))).getLast? =
    some ([.fin 10, .fin 12, .fin 14], some [.fin 0, .fin (-1), .fin 1], [("sample_domain", domParam [1, -2, 1])]) := by
  decide +kernel

theorem demo_leastSquares (x : Fin 1 → ℚ) (w : Option (List ℚ)) (b : Fin 1 → ℚ) (hb : 0 ≤ b 0) :
    LeastSquaresOn demoMean x w b := by
  intro l est h e
  simp only [demoMean, List.ofFn_succ, List.ofFn_zero] at h
  simp at h
  subst h
  simp only [Finset.univ_unique, Finset.sum_singleton, demoMean, Fin.default_eq_zero, sub_self]
  have := mul_nonneg hb (sq_nonneg (l 0 - e))
  simpa using this

/-- The hypotheses of C112_regressor_descent are met. -/
example (f : JdotOut ℚ ℚ) (h : jdotRegressorFit demoSolve (fun x x' => |x - x'|) demoMean (fun v : ℚ => v) (1 / 2) 10 (1 / 100)
    (.error .runtimeError) [0, 7, 2] (some [1, 77, 5]) (some [1, 9, 3]) [1, -2, 1] = .ok f) :=
  C112_regressor_descent demoSolve (fun x x' => |x - x'|) demoMean (fun v : ℚ => v) (1 / 2) 10 (1 / 100) (.error .runtimeError)
    [0, 7, 2] [1, 77, 5] (some [1, 9, 3]) [1, -2, 1] (by simp) rfl rfl (by simp) f h (by decide +kernel) _ rfl (by decide +kernel)
    (demo_solves _ _ _ (by decide +kernel) (by decide +kernel)) (demo_leastSquares _ _ _ (by decide +kernel)) ⟨0, fun _ => rfl⟩
    (fun _ _ => abs_nonneg _) (by norm_num) (by norm_num)

/-- Three classes, the second one right: one hinge loss with plus, two with minus. -/
example : clsCost "hinge" (⟨none, none, some (fun _ : ℚ => .multi [1 / 2, 3 / 4, -2])⟩ : ClassEst ℚ ℚ) (oneHot [3, 8, 9] (8 : Int)) 0
    = .ok (3 / 2 + 1 / 4 + 0) := by decide +kernel

end Demo

end Skada

/-
C47, C48, C49, C79: supervised, importance-weighted, entropy and neighbourhood scorers.
-/
import Verif.Lemmas.Scorers
import Verif.Lemmas.Entropy

namespace Skada
open Np Spec

section Scorers
set_option linter.unusedSectionVars false
variable {α β : Type}

/-! ### C47: supervised scorer -/

/-- C47. The wrapped scorer receives exactly the target rows, the matching entries of `target_labels` and the domains of those rows; its
value is returned with the sign of `greater_is_better`, its error is passed on. -/
theorem C47_supervised {K : Type} [Field K] [LinearOrder K] [IsStrictOrderedRing K] (gib : Bool)
    (scoring : List α → List β → List Int → Py K) (X : List α) (y : List Num) (sd : List Int) (tl : List β) (hX : X ≠ [])
    (hy : y.length = X.length) (hs : sd.length = X.length) (ht : tl.length = X.length) :
    Score.supervised gib scoring X y (.vec sd) (some tl)
      = (scoring (targetRows sd X) (targetRows sd tl) (sd.filter (fun d => decide (d < 0)))).map
          (fun s => if gib then s else -s) := by
  have hf : targetRows sd sd = sd.filter (fun d => decide (d < 0)) := by rw [← sel_target, sel_map_self]
  unfold Score.supervised
  rw [checkXy_vec hX hy hs]
  simp only [ok_bind]
  rw [extractSourceIndices_ok (sd_ne_nil hX hs)]
  simp only [ok_bind]
  rw [boolIndex_target hs.symm, boolIndex_target (ht.trans hs.symm), boolIndex_target rfl, hf]
  simp only [ok_bind]
  cases scoring (targetRows sd X) (targetRows sd tl) (sd.filter (fun d => decide (d < 0))) with
  | error e => rfl
  | ok s => cases gib <;> simp [ok_bind, Score.signed, Except.map]

/-- C47 (bad labels). Without `target_labels` the scorer raises `TypeError`; labels of another length than the data raise `IndexError`. -/
theorem C47_labels {K : Type} [Field K] [LinearOrder K] [IsStrictOrderedRing K] (gib : Bool)
    (scoring : List α → List β → List Int → Py K) (X : List α) (y : List Num) (sd : List Int) (hX : X ≠ [])
    (hy : y.length = X.length) (hs : sd.length = X.length) :
    Score.supervised gib scoring X y (.vec sd) none = .error .typeError ∧
    ∀ tl : List β, tl.length ≠ X.length → Score.supervised gib scoring X y (.vec sd) (some tl) = .error .indexError := by
  constructor
  · unfold Score.supervised
    rw [checkXy_vec hX hy hs]
    simp only [ok_bind]
    rw [extractSourceIndices_ok (sd_ne_nil hX hs)]
    simp only [ok_bind]
    rw [boolIndex_target hs.symm]
    rfl
  · intro tl ht
    unfold Score.supervised
    rw [checkXy_vec hX hy hs]
    simp only [ok_bind]
    rw [extractSourceIndices_ok (sd_ne_nil hX hs)]
    simp only [ok_bind]
    rw [boolIndex_target hs.symm, boolIndex_target_error (by rw [hs]; exact ht)]
    rfl

/-- C47 (the visible labels and the source rows play no role). Two data sets with the same target rows, domains and true target labels get the same
score, whatever `y` and the source rows are. -/
theorem C47_independent {K : Type} [Field K] [LinearOrder K] [IsStrictOrderedRing K] (gib : Bool)
    (scoring : List α → List β → List Int → Py K) (X X' : List α) (y y' : List Num) (sd : List Int) (tl tl' : List β) (hX : X ≠ [])
    (hy : y.length = X.length) (hs : sd.length = X.length) (ht : tl.length = X.length) (hX' : X'.length = X.length)
    (hy' : y'.length = X.length) (ht' : tl'.length = X.length) (hr : targetRows sd X = targetRows sd X')
    (hl : targetRows sd tl = targetRows sd tl') :
    Score.supervised gib scoring X y (.vec sd) (some tl) = Score.supervised gib scoring X' y' (.vec sd) (some tl') := by
  have hXn : X' ≠ [] := by rintro rfl; exact hX (List.length_eq_zero_iff.1 hX'.symm)
  rw [C47_supervised gib scoring X y sd tl hX hy hs ht,
    C47_supervised gib scoring X' y' sd tl' hXn (hy'.trans hX'.symm) (hs.trans hX'.symm) (ht'.trans hX'.symm), hr, hl]

/-- C47 (negation for the default scoring). With `scoring=None` the estimator is scored without the domains of the rows: changing the target rows'
domain labels can never change the score, even for an estimator that treats domains differently. -/
theorem C47_default_counterexample {K : Type} [Field K] [LinearOrder K] [IsStrictOrderedRing K] (gib : Bool)
    (score : List α → List β → SDArg → Py K) (X : List α) (y : List Num) (sd sd' : List Int) (tl : List β) (hX : X ≠ [])
    (hy : y.length = X.length) (hs : sd.length = X.length) (hs' : sd'.length = X.length) (ht : tl.length = X.length)
    (hm : sd.map (fun d => decide (d < 0)) = sd'.map (fun d => decide (d < 0))) :
    Score.supervised gib (Score.estimatorScore score) X y (.vec sd) (some tl)
        = Score.supervised gib (Score.estimatorScore score) X y (.vec sd') (some tl) ∧
    Score.supervised gib (Score.estimatorScore score) X y (.vec sd) (some tl)
        = (score (targetRows sd X) (targetRows sd tl) .none).map (fun s => if gib then s else -s) := by
  have h1 := C47_supervised gib (Score.estimatorScore score) X y sd tl hX hy hs ht
  have h2 := C47_supervised gib (Score.estimatorScore score) X y sd' tl hX hy hs' ht
  have e1 : targetRows sd X = targetRows sd' X := by rw [← sel_target, ← sel_target, hm]
  have e2 : targetRows sd tl = targetRows sd' tl := by rw [← sel_target, ← sel_target, hm]
  exact ⟨by rw [h1, h2, e1, e2]; rfl, h1⟩

example : Score.supervised false (fun X y sd => .ok ((X.sum + 10 * y.sum + 100 * (sd.length : ℚ)) : ℚ)) [1, 2, 3] [.fin 0, .fin (-1), .fin (-1)]
    (.vec [1, -2, -3]) (some [7, 4, 5]) = .ok (-295) := by decide +kernel
example : (Score.supervised true (fun X _ _ => .ok ((X.sum : ℚ))) [1, 2, 3] [.fin 0, .fin (-1), .fin (-1)]
    (.vec [1, -2, -3]) (some [7, 4, 5]) : Py ℚ) = .ok 5 := by decide +kernel

/-! ### C48: importance weights -/

namespace Spec

/-- What a weighting by density ratios has to satisfy: non-negative, total one, proportional to the ratios. -/
structure Normalised {K : Type} [Field K] [LinearOrder K] (ratios w : List K) : Prop where
  len : w.length = ratios.length
  nonneg : ∀ x ∈ w, 0 ≤ x
  total : w.sum = 1
  proportional : ∀ (i j : Nat) (wi wj ri rj : K), w[i]? = some wi → w[j]? = some wj → ratios[i]? = some ri → ratios[j]? = some rj →
    wi * rj = wj * ri

end Spec

theorem iwWeights_ok {K L : Type} [Field K] [LinearOrder K] [IsStrictOrderedRing K] (ratio : L → L → K) (h0 : ∀ t s, 0 ≤ ratio t s)
    (wt ws : List L) :
    ((List.zipWith ratio wt ws).sum ≠ 0 → Normalised (List.zipWith ratio wt ws) (Score.iwWeights ratio wt ws)) ∧
    ((List.zipWith ratio wt ws).sum = 0 → Score.iwWeights ratio wt ws
      = List.replicate (List.zipWith ratio wt ws).length (1 / ((List.zipWith ratio wt ws).length : K))) := by
  have hz : ∀ x ∈ List.zipWith ratio wt ws, 0 ≤ x := by
    intro x hx
    obtain ⟨i, hi, rfl⟩ := List.mem_iff_getElem.1 hx
    simp only [List.getElem_zipWith]
    exact h0 _ _
  unfold Score.iwWeights
  simp only
  generalize List.zipWith ratio wt ws = w at hz
  constructor
  · intro hne
    rw [if_pos hne]
    have hpos : 0 < w.sum := lt_of_le_of_ne (List.sum_nonneg hz) (Ne.symm hne)
    refine ⟨by simp, ?_, ?_, ?_⟩
    · intro x hx
      obtain ⟨v, hv, rfl⟩ := List.mem_map.1 hx
      exact div_nonneg (hz v hv) hpos.le
    · have : ∀ (l : List K) (c : K), (l.map (fun x => x / c)).sum = l.sum / c := by
        intro l c
        induction l with
        | nil => simp
        | cons a l ih => rw [List.map_cons, List.sum_cons, List.sum_cons, ih]; ring
      rw [this, div_self hne]
    · intro i j wi wj ri rj h1 h2 h3 h4
      rw [List.getElem?_map, h3] at h1
      rw [List.getElem?_map, h4] at h2
      simp only [Option.map_some, Option.some.injEq] at h1 h2
      rw [← h1, ← h2]
      ring
  · intro h
    rw [if_neg (by simpa using h), List.map_const']

/-- C48. For all data with an estimator that accepts weights, the wrapped scorer receives exactly the source rows, their labels and domains, and one
weight per source row: non-negative, summing to one, proportional to the target/source density ratio of that row; if all ratios are zero
(their sum is zero) the weights are uniform and sum to one, too. The two densities are fitted on the source rows and on the target rows. -/
theorem C48_weights {K L : Type} [Field K] [LinearOrder K] [IsStrictOrderedRing K] (gib : Bool) (fit : List α → Py (α → L))
    (ratio : L → L → K) (h0 : ∀ t s, 0 ≤ ratio t s) (scorer : List α → List Num → List Int → List K → Py K) (X : List α) (y : List Num)
    (sd : List Int) (hX : X ≠ []) (hy : y.length = X.length) (hs : sd.length = X.length) (fs ft : α → L)
    (hfs : fit (sourceRows sd X) = .ok fs) (hft : fit (targetRows sd X) = .ok ft) (hsrc : sourceRows sd X ≠ []) :
    ∃ w : List K,
      Score.importanceWeighted gib true fit ratio scorer X y (.vec sd)
        = (scorer (sourceRows sd X) (sourceRows sd y) (sd.filter (fun d => decide (0 ≤ d))) w).map (fun s => if gib then s else -s) ∧
      (∀ x ∈ w, 0 ≤ x) ∧ w.sum = 1 ∧ w.length = (sourceRows sd X).length ∧
      (((sourceRows sd X).map (fun x => ratio (ft x) (fs x))).sum ≠ 0 →
        Normalised ((sourceRows sd X).map (fun x => ratio (ft x) (fs x))) w) ∧
      (((sourceRows sd X).map (fun x => ratio (ft x) (fs x))).sum = 0 → ∀ x ∈ w, x = 1 / ((sourceRows sd X).length : K)) := by
  have hf : sourceRows sd sd = sd.filter (fun d => decide (0 ≤ d)) := by rw [← sel_source, sel_map_self]
  have hr : List.zipWith ratio ((sourceRows sd X).map ft) ((sourceRows sd X).map fs)
      = (sourceRows sd X).map (fun x => ratio (ft x) (fs x)) := by
    generalize sourceRows sd X = l
    induction l with
    | nil => rfl
    | cons a l ih => simp [ih]
  obtain ⟨w1, w2⟩ := iwWeights_ok ratio h0 ((sourceRows sd X).map ft) ((sourceRows sd X).map fs)
  rw [hr] at w1 w2
  refine ⟨Score.iwWeights ratio ((sourceRows sd X).map ft) ((sourceRows sd X).map fs), ?_, ?_⟩
  · unfold Score.importanceWeighted
    rw [checkXy_vec hX hy hs]
    simp only [ok_bind, Bool.not_true, Bool.false_eq_true, if_false]
    rw [extractSourceIndices_ok (sd_ne_nil hX hs)]
    simp only [ok_bind]
    rw [boolIndex_target hs.symm, boolIndex_source hs.symm, boolIndex_source (hy.trans hs.symm), boolIndex_source rfl, hf]
    simp only [ok_bind, hfs, hft]
    cases scorer (sourceRows sd X) (sourceRows sd y) (sd.filter (fun d => decide (0 ≤ d)))
      (Score.iwWeights ratio ((sourceRows sd X).map ft) ((sourceRows sd X).map fs)) with
    | error e => rfl
    | ok s => cases gib <;> simp [ok_bind, Score.signed, Except.map]
  · by_cases hz : ((sourceRows sd X).map (fun x => ratio (ft x) (fs x))).sum = 0
    · have hw := w2 hz
      have hn : (((sourceRows sd X).length : Nat) : K) ≠ 0 := by
        exact_mod_cast (List.length_pos_iff.2 hsrc).ne'
      rw [List.length_map] at hw
      rw [hw]
      refine ⟨?_, ?_, by simp, fun h => absurd hz h, fun _ x hx => List.eq_of_mem_replicate hx⟩
      · intro x hx
        rw [List.eq_of_mem_replicate hx]
        positivity
      · rw [List.sum_replicate, nsmul_eq_mul]
        field_simp
    · have hw := w1 hz
      refine ⟨hw.nonneg, hw.total, by rw [hw.len, List.length_map], fun _ => hw, fun h => absurd h hz⟩

/-- C48 (estimators without weights). If the estimator's `score` does not take `sample_weight`, `ValueError` for all inputs. -/
theorem C48_requires_weights {K L : Type} [Field K] [LinearOrder K] [IsStrictOrderedRing K] (gib : Bool) (fit : List α → Py (α → L))
    (ratio : L → L → K) (scorer : List α → List Num → List Int → List K → Py K) (X : List α) (y : List Num) (sd : SDArg) :
    Score.importanceWeighted gib false fit ratio scorer X y sd = .error .valueError := by
  unfold Score.importanceWeighted
  rfl

example : Score.importanceWeighted true true (fun l => .ok (fun x : ℚ => x + l.length)) (fun t s => max 0 (t - s + 3))
    (fun X y sd w => .ok (((List.zipWith (· * ·) X w).sum : ℚ) + 10 * (y.length : ℚ) + 100 * (sd.sum : ℚ))) [10, 20, 30]
    [.fin 0, .fin (-1), .fin 1] (.vec [1, -2, 4]) = .ok (540 : ℚ) := by decide +kernel

/-! ### C49: prediction entropy -/

namespace Spec

/-- `n` rows of `C` class probabilities. -/
def ProbMatrix (n C : Nat) (p : List (List ℝ)) : Prop :=
  p.length = n ∧ ∀ r ∈ p, r.length = C ∧ (∀ x ∈ r, 0 ≤ x) ∧ r.sum = 1

/-- Natural logarithm with `-∞` at 0. -/
noncomputable def npLog (x : ℝ) : Option ℝ := if x = 0 then none else some (Real.log x)

end Spec

theorem entropyEntries_log (p : List (List ℝ)) :
    Score.entropyEntries p (p.map (fun r => r.map npLog)) = p.map (fun r => r.map Real.negMulLog) := by
  unfold Score.entropyEntries
  have hr : ∀ r : List ℝ, List.zipWith Score.entropyEntry r (r.map npLog) = r.map Real.negMulLog := by
    intro r
    induction r with
    | nil => rfl
    | cons x r ih =>
      rw [List.map_cons, List.zipWith_cons_cons, ih, List.map_cons]
      congr 1
      unfold npLog Real.negMulLog Score.entropyEntry
      split_ifs with hx
      · rw [hx]; simp
      · rfl
  induction p with
  | nil => rfl
  | cons r p ih => rw [List.map_cons, List.zipWith_cons_cons, ih, hr, List.map_cons]

theorem sum_bounds {l : List ℝ} {lo hi : ℝ} (h : ∀ x ∈ l, lo ≤ x ∧ x ≤ hi) : l.length * lo ≤ l.sum ∧ l.sum ≤ l.length * hi := by
  induction l with
  | nil => simp
  | cons a l ih =>
    have h1 := h a List.mem_cons_self
    have h2 := ih (fun x hx => h x (List.mem_cons_of_mem _ hx))
    simp only [List.sum_cons, List.length_cons]
    push_cast
    constructor <;> nlinarith [h1.1, h1.2, h2.1, h2.2]

theorem flatten_sum (m : List (List ℝ)) : m.flatten.sum = (m.map List.sum).sum := List.sum_flatten ..

theorem flatten_length {m : List (List ℝ)} {C : Nat} (h : ∀ r ∈ m, r.length = C) : m.flatten.length = m.length * C := by
  induction m with
  | nil => simp
  | cons r m ih =>
    rw [List.flatten_cons, List.length_append, ih (fun r hr => h r (List.mem_cons_of_mem _ hr)), h r List.mem_cons_self, List.length_cons]
    ring

/-- Running the scorer on checked data. -/
theorem predictionEntropy_run {K : Type} [Field K] [LinearOrder K] [IsStrictOrderedRing K] (gib : Bool) (red : Score.Reduction)
    (proba : List α → List Int → Py (List (List K))) (logProba : Option (List α → List Int → Py (List (List (Option K)))))
    (lg : K → Option K) (X : List α) (y : List Num) (sd : List Int) (hX : X ≠ []) (hy : y.length = X.length) (hs : sd.length = X.length)
    (p : List (List K)) (lp : List (List (Option K)))
    (hp : proba (targetRows sd X) (sd.filter (fun d => decide (d < 0))) = .ok p)
    (hlp : Score.logProbaOf logProba lg p (targetRows sd X) (sd.filter (fun d => decide (d < 0))) = .ok lp) :
    Score.predictionEntropy gib red (some proba) logProba lg X y (.vec sd) = .ok (Score.reduce gib red (Score.entropyEntries p lp)) := by
  have hf : targetRows sd sd = sd.filter (fun d => decide (d < 0)) := by rw [← sel_target, sel_map_self]
  unfold Score.predictionEntropy
  simp only
  rw [checkXy_vec hX hy hs]
  simp only [ok_bind]
  rw [extractSourceIndices_ok (sd_ne_nil hX hs)]
  simp only [ok_bind]
  rw [boolIndex_target hs.symm, boolIndex_target rfl, hf]
  simp only [ok_bind, hp, hlp]

/-- C49. For every valid probability matrix (one row of `C` probabilities per target row) of an estimator with a consistent `predict_log_proba`:
`reduction='none'` gives per row non-negative entries whose sum is at most `log C`, zero probabilities contribute 0; `'sum'` lies between 0 and
`n log C`; `'mean'` between 0 and `log C / C`. Scores carry the sign of `greater_is_better`. -/
theorem C49_range_partial (gib : Bool) (proba : List α → List Int → Py (List (List ℝ)))
    (logProba : List α → List Int → Py (List (List (Option ℝ)))) (lg : ℝ → Option ℝ) (X : List α) (y : List Num) (sd : List Int)
    (hX : X ≠ []) (hy : y.length = X.length) (hs : sd.length = X.length) (p : List (List ℝ)) (C : Nat)
    (hp : proba (targetRows sd X) (sd.filter (fun d => decide (d < 0))) = .ok p)
    (hlp : logProba (targetRows sd X) (sd.filter (fun d => decide (d < 0))) = .ok (p.map (fun r => r.map npLog)))
    (hv : ProbMatrix (nTarget sd) C p) (hn : 0 < nTarget sd) :
    ∃ (H : List (List ℝ)) (s m : ℝ),
      Score.predictionEntropy gib .none (some proba) (some logProba) lg X y (.vec sd)
        = .ok (.matrix (H.map (fun r => r.map (fun x => if gib then x else -x)))) ∧
      Score.predictionEntropy gib .sum (some proba) (some logProba) lg X y (.vec sd) = .ok (.scalar (if gib then s else -s)) ∧
      Score.predictionEntropy gib .mean (some proba) (some logProba) lg X y (.vec sd) = .ok (.scalar (if gib then m else -m)) ∧
      H.length = nTarget sd ∧ (∀ h ∈ H, h.length = C ∧ (∀ x ∈ h, 0 ≤ x) ∧ h.sum ≤ Real.log C) ∧
      (∀ (i j : Nat) (r h : List ℝ), p[i]? = some r → H[i]? = some h → r[j]? = some 0 → h[j]? = some 0) ∧
      0 ≤ s ∧ s ≤ nTarget sd * Real.log C ∧ 0 ≤ m ∧ m ≤ Real.log C / C := by
  set H := p.map (fun r => r.map Real.negMulLog) with hH
  have hrun : ∀ red, Score.predictionEntropy gib red (some proba) (some logProba) lg X y (.vec sd) = .ok (Score.reduce gib red H) := by
    intro red
    rw [predictionEntropy_run gib red proba (some logProba) lg X y sd hX hy hs p _ hp hlp, entropyEntries_log]
  have hsg : ∀ x : ℝ, Score.signed gib x = if gib then x else -x := by
    intro x; cases gib <;> simp [Score.signed]
  have hrow : ∀ h ∈ H, h.length = C ∧ (∀ x ∈ h, 0 ≤ x) ∧ 0 ≤ h.sum ∧ h.sum ≤ Real.log C := by
    intro h hh
    obtain ⟨r, hr, rfl⟩ := List.mem_map.1 hh
    obtain ⟨h1, h2, h3⟩ := hv.2 r hr
    refine ⟨by simpa using h1, ?_, entropy_nonneg h2 h3, h1 ▸ entropy_le_log h2 h3⟩
    intro x hx
    obtain ⟨v, hv', rfl⟩ := List.mem_map.1 hx
    exact Real.negMulLog_nonneg (h2 v hv') (h3 ▸ le_sum_of_mem h2 hv')
  have hlen : H.length = nTarget sd := by rw [hH, List.length_map]; exact hv.1
  have hsum : 0 ≤ H.flatten.sum ∧ H.flatten.sum ≤ nTarget sd * Real.log C := by
    rw [flatten_sum]
    have := sum_bounds (l := H.map List.sum) (lo := 0) (hi := Real.log C) (by
      intro x hx
      obtain ⟨h, hh, rfl⟩ := List.mem_map.1 hx
      exact (hrow h hh).2.2)
    rw [List.length_map, hlen] at this
    simpa using this
  have hC : 0 < C := by
    obtain ⟨r, hr⟩ := List.exists_mem_of_length_pos (l := p) (by rw [hv.1]; exact hn)
    obtain ⟨h1, -, h3⟩ := hv.2 r hr
    rw [← h1]
    apply List.length_pos_iff.2
    rintro rfl
    simp at h3
  have hmean : Score.mean H.flatten = H.flatten.sum / (nTarget sd * C) := by
    unfold Score.mean
    rw [flatten_length (C := C) (fun r hr => (hrow r hr).1), hlen]
    push_cast
    rfl
  refine ⟨H, H.flatten.sum, Score.mean H.flatten, ?_, ?_, ?_, hlen, fun h hh => ⟨(hrow h hh).1, (hrow h hh).2.1, (hrow h hh).2.2.2⟩, ?_, hsum.1,
    hsum.2, ?_, ?_⟩
  · rw [hrun]; simp only [Score.reduce]; congr 3; funext r; congr 1; funext x; exact hsg x
  · rw [hrun]; simp only [Score.reduce, hsg]
  · rw [hrun]; simp only [Score.reduce, hsg]
  · intro i j r h h1 h2 h3
    rw [hH, List.getElem?_map, h1] at h2
    simp only [Option.map_some, Option.some.injEq] at h2
    rw [← h2, List.getElem?_map, h3]
    simp
  · rw [hmean]; exact div_nonneg hsum.1 (by positivity)
  · have hn' : (0 : ℝ) < nTarget sd := by exact_mod_cast hn
    have hC' : (0 : ℝ) < C := by exact_mod_cast hC
    rw [hmean, div_le_div_iff₀ (by positivity) hC']
    nlinarith [hsum.2]

/-- C49 (negation: 'sum' is not `n` times 'mean'). The mean runs over all `n * C` entries: `'sum' = n * C * 'mean'` for all valid
probability matrices, so with two or more classes and a non-zero sum it is not `n * 'mean'`. -/
theorem C49_mean_counterexample {K : Type} [Field K] [LinearOrder K] [IsStrictOrderedRing K] (gib : Bool) (H : List (List K)) (C : Nat)
    (hC : 2 ≤ C) (hH : ∀ h ∈ H, h.length = C) (hne : H ≠ []) :
    ∃ s m : K, Score.reduce gib .sum H = .scalar s ∧ Score.reduce gib .mean H = .scalar m ∧ s = H.length * C * m ∧
      (s ≠ 0 → s ≠ H.length * m) := by
  have hlen : H.flatten.length = H.length * C := by
    clear hne
    induction H with
    | nil => simp
    | cons r m ih =>
      rw [List.flatten_cons, List.length_append, ih (fun r hr => hH r (List.mem_cons_of_mem _ hr)), hH r List.mem_cons_self, List.length_cons]
      ring
  have hn : (0 : K) < H.length := by exact_mod_cast List.length_pos_iff.2 hne
  have hC' : (2 : K) ≤ C := by exact_mod_cast hC
  have e : Score.signed gib H.flatten.sum = H.length * C * Score.signed gib (Score.mean H.flatten) := by
    unfold Score.signed Score.mean
    rw [hlen]
    push_cast
    have : (C : K) ≠ 0 := by linarith
    field_simp
  refine ⟨_, _, rfl, rfl, e, ?_⟩
  intro h0 h1
  rw [e] at h1 h0
  have h2 : (H.length : K) * Score.signed gib (Score.mean H.flatten) ≠ 0 := by
    intro h; apply h0; rw [mul_assoc, mul_left_comm, h, mul_zero]
  have h3 : (C : K) = 1 := by
    have : (H.length : K) * Score.signed gib (Score.mean H.flatten) * (C - 1) = 0 := by linear_combination h1
    rcases mul_eq_zero.1 this with h | h
    · exact absurd h h2
    · linarith
  linarith

/-- C49 (negation: negative entropies without `predict_log_proba`). For an estimator without `predict_log_proba` that is certain of its only target
row, the entropy is `-log(1 + 1e-7)`, below zero. -/
theorem C49_fallback_counterexample (X : List α) (y : List Num) (sd : List Int) (hX : X ≠ []) (hy : y.length = X.length)
    (hs : sd.length = X.length) (proba : List α → List Int → Py (List (List ℝ)))
    (hp : proba (targetRows sd X) (sd.filter (fun d => decide (d < 0))) = .ok [[1, 0]]) :
    ∃ s, Score.predictionEntropy true .sum (some proba) none npLog X y (.vec sd) = .ok (.scalar s) ∧ s < 0 := by
  refine ⟨_, predictionEntropy_run true .sum proba none npLog X y sd hX hy hs _ _ hp rfl, ?_⟩
  have h1 : npLog (1 + 1 / 10000000) = some (Real.log (1 + 1 / 10000000)) := by
    unfold npLog; rw [if_neg (by norm_num)]
  have h2 : npLog (0 + 1 / 10000000) = some (Real.log (0 + 1 / 10000000)) := by
    unfold npLog; rw [if_neg (by norm_num)]
  simp only [List.map_cons, List.map_nil, h1, h2, Score.entropyEntries, Score.entropyEntry, List.zipWith_cons_cons, List.zipWith_nil_right,
    List.flatten_cons, List.flatten_nil, List.sum_cons, List.sum_nil, List.append_nil, Score.signed, if_true]
  have : 0 < Real.log (1 + 1 / 10000000) := Real.log_pos (by norm_num)
  linarith

/-- C49 (arguments). An estimator without `predict_proba` gives `AttributeError`; a reduction other than none, sum, mean gives `ValueError` when the
scorer is built. -/
theorem C49_errors {K : Type} [Field K] [LinearOrder K] [IsStrictOrderedRing K] (gib : Bool) (red : Score.Reduction)
    (logProba : Option (List α → List Int → Py (List (List (Option K))))) (lg : K → Option K) (X : List α) (y : List Num) (sd : SDArg) :
    Score.predictionEntropy gib red none logProba lg X y sd = .error .attributeError ∧
    ∀ s : String, s ≠ "none" → s ≠ "mean" → s ≠ "sum" → Score.reductionOf s = .error .valueError := by
  refine ⟨rfl, fun s h1 h2 h3 => ?_⟩
  unfold Score.reductionOf
  rw [if_neg h1, if_neg h2, if_neg h3]

example : ProbMatrix 2 2 [[1 / 2, 1 / 2], [1, 0]] := by
  refine ⟨rfl, ?_⟩
  intro r hr
  rcases List.mem_cons.1 hr with rfl | hr
  · norm_num
  · rcases List.mem_cons.1 hr with rfl | hr
    · norm_num
    · simp at hr
example : (Score.predictionEntropy false .mean (some (fun X _ => .ok (X.map (fun _ => [1, 0])))) (some (fun X _ => .ok (X.map (fun _ => [some (-3), none]))))
    (fun x => some x) [7, 8] [.fin 0, .fin (-1)] (.vec [1, -2]) : Py (Score.Out ℚ)) = .ok (.scalar (-3 / 2)) := by decide +kernel

end Scorers
end Skada

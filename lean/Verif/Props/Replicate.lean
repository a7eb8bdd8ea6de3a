/-
Property C142: listing every sample equally often changes nothing, and where it does.
-/
import Verif.Lemmas.Replicate
import Verif.Props.NoShift
import Verif.Props.Scorers2

set_option linter.unusedSectionVars false

namespace Skada
open Np Spec

section Reweighting
open RW
variable {K : Type} [Field K] [LinearOrder K] [IsStrictOrderedRing K] {α : Type}

/-- C142 (density ratios). `DensityReweight` with a density estimator that only looks at proportions gives every copy of a sample the weight
of the sample. -/
theorem C142_density (kde : List α → α → K) (hk : CopyBlind kde) (exp : K → K) (hexp : ∀ v, 0 < exp v) (X : List α) (sd : List Int) (hX : X ≠ [])
    (hlen : sd.length = X.length) (hs : 0 < nSource sd) (ht : 0 < nTarget sd) (k : Nat) (hk0 : 0 < k) :
    ∃ w, fitTransform (densityFit kde) (densityWeights exp) X (.vec sd) = .ok (X, w) ∧
      fitTransform (densityFit kde) (densityWeights exp) (copies k X) (.vec (copies k sd)) = .ok (copies k X, copies k w) := by
  have run : ∀ (X : List α) (sd : List Int), X ≠ [] → sd.length = X.length → 0 < nSource sd → 0 < nTarget sd →
      fitTransform (densityFit kde) (densityWeights exp) X (.vec sd) = .ok (X, List.zipWith (fun d x => if 0 ≤ d then
        some (exp (kde (targetRows sd X) x - kde (sourceRows sd X) x) /
          RW.mean ((sourceRows sd X).map (fun x => exp (kde (targetRows sd X) x - kde (sourceRows sd X) x)))) else some 0) sd X) := by
    intro X sd hX hlen hs ht
    have hfit : densityFit kde X (.vec sd) = .ok (kde (sourceRows sd X), kde (targetRows sd X)) := by
      simp [densityFit, check_ok hX hlen, bind, Except.bind, splitX_ok (sd_ne hX hlen) hlen, sourceRows_ne hlen hs, targetRows_ne hlen ht, pure, Except.pure]
    have hm : RW.mean ((sourceRows sd X).map (fun x => exp (kde (targetRows sd X) x - kde (sourceRows sd X) x))) ≠ 0 := by
      have hne := sourceRows_ne hlen hs
      refine (div_pos (List.sum_pos _ (fun v hv => ?_) (by simpa using hne)) (by simpa using List.length_pos_iff.2 hne)).ne'
      obtain ⟨x, -, rfl⟩ := List.mem_map.1 hv
      exact hexp _
    have hw := densityWeights_eq exp (kde (sourceRows sd X)) (kde (targetRows sd X)) hX hlen hs
    simp only [hm, ne_eq, not_false_eq_true, if_true] at hw
    simp only [fitTransform, hfit, bind, Except.bind, hw]
    rfl
  refine ⟨_, run X sd hX hlen hs ht, ?_⟩
  rw [run _ _ (Copies.ne_nil hk0 hX) (by simp [Copies.length, hlen]) (by rw [Copies.nSource]; positivity) (by rw [Copies.nTarget]; positivity),
    Copies.source k hlen, Copies.target k hlen, hk k _ hk0, hk k _ hk0, Copies.map, Copies.mean hk0, Copies.zipWith _ k hlen]

/-- A density estimator that averages over its samples only looks at proportions. -/
theorem copyBlind_average (kern : α → α → K) (lg : K → K) : CopyBlind (fun (A : List α) (x : α) => lg (RW.mean (A.map (kern x)))) := by
  intro k A hk
  funext x
  beta_reduce
  rw [Copies.map, Copies.mean hk]

example : CopyBlind (fun (A : List ℚ) (x : ℚ) => RW.mean (A.map (fun a => x * a))) ∧
    fitTransform (densityFit (fun A x => RW.mean (A.map (fun a => x * a)))) (densityWeights (fun v : ℚ => |v| + 1)) [1, 2, 5] (.vec [1, 4, -1]) =
      .ok ([1, 2, 5], [some (18 / 25), some (32 / 25), some 0]) ∧
    fitTransform (densityFit (fun A x => RW.mean (A.map (fun a => x * a)))) (densityWeights (fun v : ℚ => |v| + 1)) [1, 2, 5, 1, 2, 5]
      (.vec [1, 4, -1, 1, 4, -1]) = .ok ([1, 2, 5, 1, 2, 5], [some (18 / 25), some (32 / 25), some 0, some (18 / 25), some (32 / 25), some 0]) :=
  ⟨copyBlind_average (fun x a => x * a) id, by decide +kernel, by decide +kernel⟩

/-- C142 (Gaussian density ratios). The same for `GaussianReweight`. -/
theorem C142_gaussian (pdf : List α → α → K) (hk : CopyBlind pdf) (X : List α) (sd : List Int) (hX : X ≠ []) (hlen : sd.length = X.length)
    (k : Nat) (hk0 : 0 < k) :
    ∃ w, gaussianFitWeights pdf X (.vec sd) X (.vec sd) = .ok w ∧
      gaussianFitWeights pdf (copies k X) (.vec (copies k sd)) (copies k X) (.vec (copies k sd)) = .ok (copies k w) := by
  have run : ∀ (X : List α) (sd : List Int), X ≠ [] → sd.length = X.length →
      gaussianFitWeights pdf X (.vec sd) X (.vec sd) = .ok (List.zipWith (fun d x => if 0 ≤ d then
        fdiv (pdf (targetRows sd X) x) (pdf (sourceRows sd X) x) else some 0) sd X) := by
    intro X sd hX hlen
    have hsd := sd_ne hX hlen
    unfold gaussianFitWeights
    simp only [check_ok hX hlen, bind, Except.bind, splitX_ok hsd hlen, sourceIdx_ok hsd, take_sourceIdx hlen]
    exact scatter_ok _ hlen
  refine ⟨_, run X sd hX hlen, ?_⟩
  rw [run _ _ (Copies.ne_nil hk0 hX) (by simp [Copies.length, hlen]), Copies.source k hlen, Copies.target k hlen, hk k _ hk0, hk k _ hk0,
    Copies.zipWith _ k hlen]

example : gaussianFitWeights (fun A x => RW.mean A + x) ([1, 2, 5] : List ℚ) (.vec [1, 4, -1]) [1, 2, 5] (.vec [1, 4, -1]) =
      .ok [some (12 / 5), some 2, some 0] ∧
    gaussianFitWeights (fun A x => RW.mean A + x) ([1, 2, 5, 1, 2, 5] : List ℚ) (.vec [1, 4, -1, 1, 4, -1]) [1, 2, 5, 1, 2, 5] (.vec [1, 4, -1, 1, 4, -1]) =
      .ok [some (12 / 5), some 2, some 0, some (12 / 5), some 2, some 0] := by
  constructor <;> decide +kernel

/-- C142 (domain classifier). The same for `DiscriminatorReweight` with a domain classifier that learns the same from the copies. -/
theorem C142_discriminator (clf : List α → List Int → α → K) (eps : K) (he : 0 < eps) (X : List α) (sd : List Int) (hX : X ≠ [])
    (hlen : sd.length = X.length) (hs : 0 < nSource sd) (k : Nat) (hk0 : 0 < k)
    (hclf : ∀ y, clf (copies k X) (copies k y) = clf X y) (hp : ∃ x ∈ sourceRows sd X, clf X (sd.map (fun d => if 0 ≤ d then 0 else 1)) x < 1) (he1 : eps < 1) :
    ∃ w, fitTransform (discriminatorFit clf) (discriminatorWeights eps) X (.vec sd) = .ok (X, w) ∧
      fitTransform (discriminatorFit clf) (discriminatorWeights eps) (copies k X) (.vec (copies k sd)) = .ok (copies k X, copies k w) := by
  have hlen' : (copies k sd).length = (copies k X).length := by simp [Copies.length, hlen]
  have hfit := C31_discriminator_labels clf X sd hX hlen
  have hfit' := C31_discriminator_labels clf (copies k X) (copies k sd) (Copies.ne_nil hk0 hX) hlen'
  rw [Copies.map, hclf] at hfit'
  set q := clf X (sd.map (fun d => if 0 ≤ d then 0 else 1)) with hq
  have hc : ∀ p : K, 0 < clip eps p ∧ clip eps p ≤ 1 := fun p => by
    unfold clip; exact ⟨lt_min (lt_max_of_lt_right he) one_pos, min_le_right _ _⟩
  have hm : RW.mean ((sourceRows sd X).map (fun x => (1 - clip eps (q x)) / clip eps (q x))) ≠ 0 := by
    obtain ⟨x, hx, hx1⟩ := hp
    have h1 : 0 < (1 - clip eps (q x)) / clip eps (q x) :=
      div_pos (sub_pos.2 (by unfold clip; exact min_lt_of_left_lt (max_lt hx1 he1))) (hc _).1
    have h2 : (1 - clip eps (q x)) / clip eps (q x) ≤ ((sourceRows sd X).map (fun x => (1 - clip eps (q x)) / clip eps (q x))).sum :=
      List.single_le_sum (fun v hv => by
        obtain ⟨z, -, rfl⟩ := List.mem_map.1 hv
        exact div_nonneg (sub_nonneg.2 (hc _).2) (hc _).1.le) _ (List.mem_map_of_mem hx)
    refine (div_pos (h1.trans_le h2) ?_).ne'
    have := List.length_pos_iff.2 (List.ne_nil_of_mem hx)
    simpa using this
  refine ⟨_, by simp only [fitTransform, hfit, bind, Except.bind, discriminatorWeights_eq eps q hX hlen hs hm]; rfl, ?_⟩
  have hw := discriminatorWeights_eq eps q (Copies.ne_nil hk0 hX) hlen' (by rw [Copies.nSource]; positivity)
    (by rw [Copies.source k hlen, Copies.map, Copies.mean hk0]; exact hm)
  rw [Copies.source k hlen, Copies.map, Copies.mean hk0, Copies.zipWith _ k hlen] at hw
  simp only [fitTransform, hfit', bind, Except.bind, hw]
  rfl

example : fitTransform (discriminatorFit (fun A y x => (if RW.mean A < x then 1 / 2 else if y.length = 0 then 1 else 1 / 4 : ℚ))) (discriminatorWeights (1 / 1000))
      ([1, 3, 2] : List ℚ) (.vec [1, 4, -1]) = .ok ([1, 3, 2], [some (3 / 2), some (1 / 2), some 0]) ∧
    fitTransform (discriminatorFit (fun A y x => (if RW.mean A < x then 1 / 2 else if y.length = 0 then 1 else 1 / 4 : ℚ))) (discriminatorWeights (1 / 1000))
      ([1, 3, 2, 1, 3, 2] : List ℚ) (.vec [1, 4, -1, 1, 4, -1]) =
      .ok ([1, 3, 2, 1, 3, 2], [some (3 / 2), some (1 / 2), some 0, some (3 / 2), some (1 / 2), some 0]) := by
  constructor <;> decide +kernel

end Reweighting

section Coral
open Map Matrix
variable {K : Type} [Field K] [LinearOrder K] [IsStrictOrderedRing K] {d : Nat}

theorem Copies.colMean : CopyBlind (colMean (K := K) (d := d)) := by
  intro k A hk
  funext j
  simp only [Map.colMean, Copies.map, Copies.sum, Copies.length, Copies.ratio hk]

theorem Copies.empCov (ac : Bool) : CopyBlind (empCov (K := K) (d := d) ac) := by
  intro k A hk
  unfold Map.empCov
  rw [Copies.colMean k A hk]
  ext i j
  simp only [Matrix.of_apply, Copies.map, Copies.sum, Copies.length, Copies.ratio hk]

theorem Copies.estimateCov (auto : List (Fin d → K) → Matrix (Fin d) (Fin d) K) (reg : Option K) (ac : Bool) :
    CopyBlind (estimateCov auto (reg.map some) ac) := by
  intro k A hk
  unfold Map.estimateCov
  rcases reg with - | s
  · exact Copies.empCov ac k A hk
  · simp only [Option.map_some, Copies.empCov ac k A hk]

/-- C142 (CORAL). With no or a numeric regularisation, CORAL maps every copy of a sample to the image of the sample. -/
theorem C142_coral (sqrtM invsqrtM : Matrix (Fin d) (Fin d) K → Matrix (Fin d) (Fin d) K) (auto : List (Fin d → K) → Matrix (Fin d) (Fin d) K)
    (reg : Option K) (ac : Bool) (X : NArr (Fin d → K)) (sd : List Int) (hlen : sd.length = X.rows.length) (hs : 0 < nSource sd) (ht : 0 < nTarget sd)
    (k : Nat) (hk0 : 0 < k) :
    ∃ out out', coralFitTransform (estimateCov auto (reg.map some) ac) sqrtM invsqrtM ac X (.vec sd) = .ok out ∧
      coralFitTransform (estimateCov auto (reg.map some) ac) sqrtM invsqrtM ac { X with rows := copies k X.rows } (.vec (copies k sd)) = .ok out' ∧
      out'.rows = copies k out.rows := by
  have run : ∀ (X : NArr (Fin d → K)) (sd : List Int), sd.length = X.rows.length → 0 < nSource sd → 0 < nTarget sd →
      ∃ out, coralFitTransform (estimateCov auto (reg.map some) ac) sqrtM invsqrtM ac X (.vec sd) = .ok out ∧
        out.rows = List.zipWith (fun l x => if 0 ≤ l then
            ((x - if ac then 0 else colMean (sourceRows sd X.rows)) ᵥ* invsqrtM (estimateCov auto (reg.map some) ac (sourceRows sd X.rows)))
              ᵥ* sqrtM (estimateCov auto (reg.map some) ac (targetRows sd X.rows))
          else x - if ac then 0 else colMean (targetRows sd X.rows)) sd X.rows := by
    intro X sd hlen hs ht
    obtain ⟨out, h1, h2, h3⟩ := C64_rows (estimateCov auto (reg.map some) ac) sqrtM invsqrtM ac X sd hlen hs ht
    refine ⟨out, h1, List.ext_getElem? fun i => ?_⟩
    rcases lt_or_ge i X.rows.length with hi | hi
    · have hx : X.rows[i]? = some X.rows[i] := List.getElem?_eq_getElem hi
      have hd : sd[i]? = some sd[i] := List.getElem?_eq_getElem (hlen ▸ hi)
      rw [h3 i _ _ hd hx, List.getElem?_zipWith, hd, hx]
    · rw [List.getElem?_eq_none (by omega), List.getElem?_eq_none (by simp; omega)]
  obtain ⟨out, h1, h2⟩ := run X sd hlen hs ht
  obtain ⟨out', h1', h2'⟩ := run { X with rows := copies k X.rows } (copies k sd) (by simp [Copies.length, hlen])
    (by rw [Copies.nSource]; positivity) (by rw [Copies.nTarget]; positivity)
  refine ⟨out, out', h1, h1', ?_⟩
  rw [h2', h2]
  simp only [Copies.source k hlen, Copies.target k hlen, Copies.colMean k _ hk0, Copies.estimateCov auto reg ac k _ hk0]
  exact Copies.zipWith _ k hlen

/-- Sources 0, 2, targets 1, 7, the square root of the covariance replaced by the covariance: both data sets give the same images. -/
example : (coralFitTransform (estimateCov (fun _ => 1) none false) (fun C => C) (fun C => Matrix.of fun i j => 1 / C i j) false
      ⟨.float, [1], [![(0 : ℚ)], ![2], ![1], ![7]]⟩ (.vec [1, 1, -2, -2])).map (fun o => o.rows.map (fun x => x 0)) = .ok [-9, 9, -3, 3] ∧
    (coralFitTransform (estimateCov (fun _ => 1) none false) (fun C => C) (fun C => Matrix.of fun i j => 1 / C i j) false
      ⟨.float, [1], copies 2 [![(0 : ℚ)], ![2], ![1], ![7]]⟩ (.vec (copies 2 [1, 1, -2, -2]))).map (fun o => o.rows.map (fun x => x 0)) =
        .ok [-9, 9, -3, 3, -9, 9, -3, 3] := by
  constructor <;> decide +kernel

end Coral

section Scorers
open Score
variable {K : Type} [Field K] [LinearOrder K] [IsStrictOrderedRing K] {α : Type}

theorem Copies.score_mean {k : Nat} (hk : 0 < k) (l : List K) : Score.mean (copies k l) = Score.mean l := by
  rw [Score.mean, Score.mean, Copies.sum, Copies.length, Copies.ratio hk]

theorem Copies.entropy_reduce (gib : Bool) (p : List (List K)) (lp : List (List (Option K))) (h : p.length = lp.length) (k : Nat) (hk0 : 0 < k) :
    reduce gib .mean (entropyEntries (copies k p) (copies k lp)) = reduce gib .mean (entropyEntries p lp) ∧
    (∃ s, reduce gib .sum (entropyEntries p lp) = .scalar s ∧ reduce gib .sum (entropyEntries (copies k p) (copies k lp)) = .scalar ((k : K) * s)) ∧
    ∃ m, reduce gib .none (entropyEntries p lp) = .matrix m ∧ reduce gib .none (entropyEntries (copies k p) (copies k lp)) = .matrix (copies k m) := by
  have hz : entropyEntries (copies k p) (copies k lp) = copies k (entropyEntries p lp) := Copies.zipWith _ k h
  rw [hz]
  refine ⟨?_, ⟨_, rfl, ?_⟩, ⟨_, rfl, ?_⟩⟩
  · simp only [reduce, Copies.flatten, Copies.score_mean hk0]
  · simp only [reduce, Copies.flatten, Copies.sum, signed]
    congr 1; ring
  · simp only [reduce, Copies.map]

/-- C142 (prediction entropy). For a predictor that treats the copies of a sample alike, the mean prediction entropy does not change, the sum is
multiplied by the number of copies, and the entries are repeated. -/
theorem C142_entropy (gib : Bool) (proba : List α → List Int → Py (List (List K))) (logProba : Option (List α → List Int → Py (List (List (Option K)))))
    (lg : K → Option K) (X : List α) (y : List Num) (sd : List Int) (hX : X ≠ []) (hy : y.length = X.length) (hs : sd.length = X.length) (k : Nat) (hk : 0 < k)
    (hpr : ∀ A s, proba (copies k A) (copies k s) = (proba A s).map (copies k))
    (hlpr : ∀ f, logProba = some f → ∀ A s, f (copies k A) (copies k s) = (f A s).map (copies k)) (p : List (List K)) (lp : List (List (Option K)))
    (hp : proba (targetRows sd X) (sd.filter (fun d => decide (d < 0))) = .ok p)
    (hlp : ∀ f, logProba = some f → f (targetRows sd X) (sd.filter (fun d => decide (d < 0))) = .ok lp ∧ lp.length = p.length) :
    (∃ m, predictionEntropy gib .mean (some proba) logProba lg X y (.vec sd) = .ok (.scalar m) ∧
      predictionEntropy gib .mean (some proba) logProba lg (copies k X) (copies k y) (.vec (copies k sd)) = .ok (.scalar m)) ∧
    (∃ s, predictionEntropy gib .sum (some proba) logProba lg X y (.vec sd) = .ok (.scalar s) ∧
      predictionEntropy gib .sum (some proba) logProba lg (copies k X) (copies k y) (.vec (copies k sd)) = .ok (.scalar ((k : K) * s))) ∧
    ∃ H, predictionEntropy gib .none (some proba) logProba lg X y (.vec sd) = .ok (.matrix H) ∧
      predictionEntropy gib .none (some proba) logProba lg (copies k X) (copies k y) (.vec (copies k sd)) = .ok (.matrix (copies k H)) := by
  have hp' : proba (targetRows (copies k sd) (copies k X)) ((copies k sd).filter (fun d => decide (d < 0))) = .ok (copies k p) := by
    rw [Copies.target k hs, Copies.filter, hpr, hp]; rfl
  obtain ⟨l, h1, h2, h3⟩ : ∃ l, logProbaOf logProba lg p (targetRows sd X) (sd.filter (fun d => decide (d < 0))) = .ok l ∧ p.length = l.length ∧
      logProbaOf logProba lg (copies k p) (targetRows (copies k sd) (copies k X)) ((copies k sd).filter (fun d => decide (d < 0))) = .ok (copies k l) := by
    cases logProba with
    | none => exact ⟨_, rfl, by simp, by simp only [logProbaOf, Copies.map]⟩
    | some f =>
      obtain ⟨a, b⟩ := hlp f rfl
      exact ⟨lp, a, b.symm, by simp only [logProbaOf]; rw [Copies.target k hs, Copies.filter, hlpr f rfl, a]; rfl⟩
  have run := fun red => predictionEntropy_run gib red proba logProba lg X y sd hX hy hs p l hp h1
  have run' := fun red => predictionEntropy_run gib red proba logProba lg (copies k X) (copies k y) (copies k sd) (Copies.ne_nil hk hX)
    (by simp [Copies.length, hy]) (by simp [Copies.length, hs]) (copies k p) (copies k l) hp' h3
  obtain ⟨e1, ⟨s, e2, e3⟩, ⟨m, e4, e5⟩⟩ := Copies.entropy_reduce gib p l h2 k hk
  refine ⟨⟨signed gib (Score.mean (entropyEntries p l).flatten), by rw [run]; rfl, by rw [run', e1]; rfl⟩, ⟨s, by rw [run, e2], by rw [run', e3]⟩,
    ⟨m, by rw [run, e4], by rw [run', e5]⟩⟩

example : reduce true .mean (entropyEntries [[1 / 2, (1 / 2 : ℚ)]] [[some (-1), some (-3)]]) = .scalar 1 ∧
    reduce true .mean (entropyEntries [[1 / 2, (1 / 2 : ℚ)], [1 / 2, 1 / 2]] [[some (-1), some (-3)], [some (-1), some (-3)]]) = .scalar 1 ∧
    reduce true .sum (entropyEntries [[1 / 2, (1 / 2 : ℚ)], [1 / 2, 1 / 2]] [[some (-1), some (-3)], [some (-1), some (-3)]]) = .scalar 4 := by
  refine ⟨?_, ?_, ?_⟩ <;> decide +kernel

theorem Copies.mapM {β : Type} (f : α → Option β) {k : Nat} (hk : 0 < k) {l : List α} : (copies k l).mapM f = (l.mapM f).map (copies k) := by
  induction k with
  | zero => simp at hk
  | succ k ih =>
    rw [Copies.succ, List.mapM_append]
    rcases Nat.eq_zero_or_pos k with rfl | hk'
    · cases h : l.mapM f <;> simp [Copies.zero, Copies.succ]
    · rw [ih hk']
      cases h : l.mapM f <;> simp [Copies.succ]

theorem Copies.mano_score (ex lg : K → K) (pw : K → K → K) (p threshold : K) (logits : List (List K)) (k : Nat) (hk0 : 0 < k) :
    (criterion ex lg (copies k logits)).1 = (criterion ex lg logits).1 ∧
    (softrun ex (criterion ex lg (copies k logits)).2 (criterion ex lg (copies k logits)).1 threshold).map (manoAggregate pw p) =
      (softrun ex (criterion ex lg logits).2 (criterion ex lg logits).1 threshold).map (manoAggregate pw p) := by
  have h1 : (criterion ex lg (copies k logits)).1 = (criterion ex lg logits).1 := by
    simp only [criterion, Copies.map, Copies.flatten, Copies.score_mean hk0]
  have hagg : ∀ P : List (List K), manoAggregate pw p (copies k P) = manoAggregate pw p P := by
    intro P
    simp only [manoAggregate, Copies.map, Copies.flatten, Copies.score_mean hk0]
  have hmapM := fun l : List (List K) => Copies.mapM (taylorRow (K := K)) (l := l) hk0
  refine ⟨h1, ?_⟩
  rw [h1]
  unfold softrun
  split_ifs
  · simp only [criterion, Copies.map, Option.map_some, hagg]
  · simp only [criterion, Copies.map, hmapM, Option.map_map]
    congr 1
    funext P
    exact hagg P

theorem Copies.findYType {k : Nat} (hk : 0 < k) (y : List Num) : Skada.findYType (copies k y) = Skada.findYType y := by
  have : ∀ p : Num → Bool, (copies k y).any p = y.any p := by
    intro p
    rw [Bool.eq_iff_iff]
    simp only [List.any_eq_true, Copies.mem hk]
  unfold Skada.findYType
  simp only [this]

/-- C142 (MaNo). For an estimator that treats the copies of a sample alike the MaNo score does not change; errors do not change either. -/
theorem C142_mano (gib : Bool) (p threshold : K) (pw : K → K → K) (ex lg : K → K) (est : Predictor α K) (X : List α) (y : List Num) (sd : List Int)
    (hX : X ≠ []) (hy : y.length = X.length) (hs : sd.length = X.length) (k : Nat) (hk : 0 < k)
    (h1 : ∀ f, est = .pipeline f → ∀ A s, f (copies k A) (copies k s) = (f A s).map (copies k))
    (h2 : ∀ b f, est = .network b f → ∀ A, f (copies k A) = (f A).map (copies k)) :
    mano gib p threshold pw ex lg est (copies k X) (copies k y) (.vec (copies k sd)) = mano gib p threshold pw ex lg est X y (.vec sd) := by
  have hf : ∀ sd : List Int, targetRows sd sd = sd.filter (fun d => decide (d < 0)) := fun sd => by rw [← sel_target, sel_map_self]
  have hagg : ∀ P : List (List K), manoAggregate pw p (copies k P) = manoAggregate pw p P := by
    intro P
    simp only [manoAggregate, Copies.map, Copies.flatten, Copies.score_mean hk]
  have hX' := Copies.ne_nil hk hX
  have hy' : (copies k y).length = (copies k X).length := by simp [Copies.length, hy]
  have hs' : (copies k sd).length = (copies k X).length := by simp [Copies.length, hs]
  unfold mano
  cases est with
  | noProba => rfl
  | pipeline f =>
    dsimp only
    rw [checkXy_vec hX hy hs, checkXy_vec hX' hy' hs']
    simp only [ok_bind]
    rw [extractSourceIndices_ok (sd_ne_nil hX hs), extractSourceIndices_ok (sd_ne_nil hX' hs')]
    simp only [ok_bind]
    rw [boolIndex_target hs.symm, boolIndex_target rfl, boolIndex_target hs'.symm, boolIndex_target rfl, hf, hf, Copies.target k hs, Copies.filter]
    simp only [ok_bind, Copies.findYType hk, h1 f rfl]
    rcases Skada.findYType y with e | (- | -) <;> try rfl
    rcases f (targetRows sd X) (sd.filter (fun d => decide (d < 0))) with e | q <;> try rfl
    simp only [Except.map, bind, Except.bind, Option.map_some, hagg]
  | network b f =>
    dsimp only
    rw [checkXy_vec hX hy hs, checkXy_vec hX' hy' hs']
    simp only [ok_bind]
    rw [extractSourceIndices_ok (sd_ne_nil hX hs), extractSourceIndices_ok (sd_ne_nil hX' hs')]
    simp only [ok_bind]
    rw [boolIndex_target hs.symm, boolIndex_target rfl, boolIndex_target hs'.symm, boolIndex_target rfl, hf, hf, Copies.target k hs, Copies.filter]
    simp only [ok_bind, Copies.findYType hk, h2 b f rfl]
    rcases Skada.findYType y with e | (- | -) <;> try rfl
    cases b
    · rfl
    rcases f (targetRows sd X) with e | q
    · rfl
    have := (Copies.mano_score ex lg pw p threshold q k hk).2
    have h := congrArg (Option.map (signed gib)) this
    simp only [Option.map_map] at h
    simp only [Except.map, bind, Except.bind, Bool.not_true, Bool.false_eq_true, if_false]
    exact congrArg Except.ok h

example : manoAggregate (fun x p : ℚ => if p = 2 then x ^ 2 else x) 2 [[1 / 2, 1 / 2]] = 1 / 4 ∧
    manoAggregate (fun x p : ℚ => if p = 2 then x ^ 2 else x) 2 (copies 3 [[1 / 2, 1 / 2]]) = 1 / 4 := by
  constructor <;> decide +kernel

theorem Copies.cov {k : Nat} (hk : 0 < k) {a b : List K} (h : a.length = b.length) :
    Score.cov (copies k a) (copies k b) =
      (k : K) * (List.zipWith (fun x y => (x - Score.mean a) * (y - Score.mean b)) a b).sum / ((k : K) * (a.length : K) - 1) := by
  rw [Score.cov, Copies.score_mean hk, Copies.score_mean hk, Copies.zipWith _ k h, Copies.sum, Copies.length]
  push_cast
  rfl

theorem Copies.eta {k : Nat} (hk : 0 < k) {a b w : List K} (ha : a.length = w.length) (hb : b.length = w.length) (hw : 2 ≤ w.length) :
    (if Score.cov (copies k w) (copies k w) = 0 then 0 else -Score.cov (copies k a) (copies k b) / Score.cov (copies k w) (copies k w)) =
      if Score.cov w w = 0 then 0 else -Score.cov a b / Score.cov w w := by
  have hk1 : (1 : K) ≤ (k : K) := by exact_mod_cast hk
  have hn : (2 : K) ≤ (w.length : K) := by exact_mod_cast hw
  have h1 : (k : K) * (w.length : K) - 1 ≠ 0 := by nlinarith
  have h2 : (w.length : K) - 1 ≠ 0 := by linarith
  have hk0 : (k : K) ≠ 0 := by linarith
  rw [Copies.cov hk rfl, Copies.cov hk (ha.trans hb.symm)]
  unfold Score.cov
  rw [ha]
  generalize (List.zipWith (fun x y => (x - Score.mean w) * (y - Score.mean w)) w w).sum = u
  generalize (List.zipWith (fun x y => (x - Score.mean a) * (y - Score.mean b)) a b).sum = v
  by_cases hu : u = 0
  · simp [hu]
  · rw [if_neg (by simp [hu, hk0, h1]), if_neg (by simp [hu, h2])]
    field_simp

/-- C142 (deep embedded validation). The score does not change. -/
theorem C142_dev (gib : Bool) (w e : List K) (he : w.length = e.length) (h2 : 2 ≤ w.length) (k : Nat) (hk0 : 0 < k) :
    devScore gib (copies k w) (.column (copies k e)) = devScore gib w (.column e) ∧
    devScore gib (copies k w) (.flat (copies k e)) = devScore gib w (.flat e) := by
  have hl : ¬ (copies k w).length < 2 := by rw [Copies.length]; nlinarith
  have hl' : ¬ w.length < 2 := by omega
  constructor
  · simp only [devScore, Losses.len, weightedColumns, Copies.length, he, ne_eq, not_true_eq_false, if_false, List.cons_append, List.nil_append,
      List.flatten_cons, List.flatten_nil, List.append_nil]
    rw [← he, if_neg (by rw [← Copies.length]; exact hl), if_neg hl', Copies.zipWith _ k he, Copies.score_mean hk0, Copies.score_mean hk0,
      Copies.eta hk0 (by simp [he]) rfl h2]
  · obtain ⟨e0, e1, e, rfl⟩ : ∃ e0 e1 e', e = e0 :: e1 :: e' := by
      rcases e with - | ⟨e0, - | ⟨e1, e⟩⟩
      · rw [he] at h2; simp at h2
      · rw [he] at h2; simp at h2
      · exact ⟨_, _, _, rfl⟩
    have hcols : weightedColumns (copies k w) (.flat (copies k (e0 :: e1 :: e))) = copies k ((weightedColumns w (.flat (e0 :: e1 :: e))).map (copies k)) := by
      simp only [weightedColumns, Copies.map, List.map_map, Function.comp_def]
    have hmean : Score.mean (weightedColumns (copies k w) (.flat (copies k (e0 :: e1 :: e)))).flatten =
        Score.mean (weightedColumns w (.flat (e0 :: e1 :: e))).flatten := by
      rw [hcols, Copies.flatten, Copies.score_mean hk0]
      generalize weightedColumns w (.flat (e0 :: e1 :: e)) = C
      unfold Score.mean
      have s1 : (C.map (copies k)).flatten.sum = (k : K) * C.flatten.sum := by
        induction C with
        | nil => simp
        | cons c C ih => simp only [List.map_cons, List.flatten_cons, List.sum_append, ih, Copies.sum, mul_add]
      have s2 : (C.map (copies k)).flatten.length = k * C.flatten.length := by
        clear s1
        induction C with
        | nil => simp
        | cons c C ih => simp only [List.map_cons, List.flatten_cons, List.length_append, ih, Copies.length, mul_add]
      rw [s1, s2, Copies.ratio hk0]
    obtain ⟨k', rfl⟩ : ∃ k', k = k' + 1 := ⟨k - 1, by omega⟩
    have hcat : weightedColumns (copies (k' + 1) w) (.flat (copies (k' + 1) (e0 :: e1 :: e))) ++ [copies (k' + 1) w] =
        copies (k' + 1) (w.map (fun wi => wi * e0)) :: copies (k' + 1) (w.map (fun wi => wi * e1)) ::
          ((e ++ copies k' (e0 :: e1 :: e)).map (fun ej => (copies (k' + 1) w).map (fun wi => wi * ej)) ++ [copies (k' + 1) w]) := by
      simp only [weightedColumns, ← Copies.map, Copies.succ k' (e0 :: e1 :: e), List.cons_append, List.map_cons]
    have hcat' : weightedColumns w (.flat (e0 :: e1 :: e)) ++ [w] = w.map (fun wi => wi * e0) :: w.map (fun wi => wi * e1) ::
        (e.map (fun ej => w.map (fun wi => wi * ej)) ++ [w]) := rfl
    unfold devScore
    dsimp only
    rw [if_neg (by simp only [Losses.len, Copies.length, he, not_not]), if_neg (by simp only [Losses.len, he, not_not]), hcat, hcat']
    dsimp only
    rw [if_neg hl, if_neg hl', hmean, Copies.score_mean hk0, Copies.eta hk0 (by simp) (by simp) h2]

example : devScore true [1, 3] (.column [(2 : ℚ), 5]) = .ok (some 2) ∧ devScore true (copies 3 [1, 3]) (.column (copies 3 [(2 : ℚ), 5])) = .ok (some 2) := by
  constructor <;> decide +kernel

theorem Copies.iwWeights {L : Type} (ratio : L → L → K) {wt ws : List L} (h : wt.length = ws.length) {k : Nat} (hk : 0 < k) :
    Score.iwWeights ratio (copies k wt) (copies k ws) = copies k ((Score.iwWeights ratio wt ws).map (fun v => v / (k : K))) := by
  have hk0 : (k : K) ≠ 0 := by exact_mod_cast hk.ne'
  unfold Score.iwWeights
  simp only [Copies.zipWith _ k h, Copies.sum, Copies.length]
  by_cases hz : (List.zipWith ratio wt ws).sum = 0
  · simp only [hz, mul_zero, ne_eq, not_true_eq_false, if_false, Copies.map, List.map_map, Function.comp_def]
    push_cast
    simp only [div_div, mul_comm]
  · simp only [ne_eq, mul_eq_zero, hk0, hz, or_self, not_false_eq_true, if_true, Copies.map, List.map_map, Function.comp_def, div_div, mul_comm]

/-- C142 (importance weighted validation). Each copy of a source sample gets the `k`-th part of the weight of the sample; so the score does not
change for a scorer that treats `k` copies with the `k`-th part of the weight like one sample. -/
theorem C142_importance_weighted {L : Type} (gib : Bool) (fit : List α → Py (α → L)) (hfit : CopyBlind fit) (ratio : L → L → K)
    (scorer : List α → List Num → List Int → List K → Py K) (X : List α) (y : List Num) (sd : List Int) (hX : X ≠ []) (hy : y.length = X.length)
    (hs : sd.length = X.length) (k : Nat) (hk : 0 < k)
    (hsc : ∀ A z s w, scorer (copies k A) (copies k z) (copies k s) (copies k (w.map (fun v => v / (k : K)))) = scorer A z s w) :
    Score.importanceWeighted gib true fit ratio scorer (copies k X) (copies k y) (.vec (copies k sd)) =
      Score.importanceWeighted gib true fit ratio scorer X y (.vec sd) := by
  have hf : ∀ sd : List Int, sourceRows sd sd = sd.filter (fun d => decide (0 ≤ d)) := fun sd => by rw [← sel_source, sel_map_self]
  have run : ∀ (X : List α) (y : List Num) (sd : List Int), X ≠ [] → y.length = X.length → sd.length = X.length →
      Score.importanceWeighted gib true fit ratio scorer X y (.vec sd) = (do
        let fs ← fit (sourceRows sd X)
        let ft ← fit (targetRows sd X)
        let s ← scorer (sourceRows sd X) (sourceRows sd y) (sd.filter (fun d => decide (0 ≤ d)))
          (Score.iwWeights ratio ((sourceRows sd X).map ft) ((sourceRows sd X).map fs))
        .ok (signed gib s)) := by
    intro X y sd hX hy hs
    unfold Score.importanceWeighted
    rw [checkXy_vec hX hy hs]
    simp only [ok_bind, Bool.not_true, Bool.false_eq_true, if_false]
    rw [extractSourceIndices_ok (sd_ne_nil hX hs)]
    simp only [ok_bind]
    rw [boolIndex_target hs.symm, boolIndex_source hs.symm, boolIndex_source (hy.trans hs.symm), boolIndex_source rfl, hf]
    simp only [ok_bind]
  rw [run X y sd hX hy hs, run _ _ _ (Copies.ne_nil hk hX) (by simp [Copies.length, hy]) (by simp [Copies.length, hs]),
    Copies.source k hs, Copies.target k hs, Copies.source k (hs.trans hy.symm), hfit k _ hk, hfit k _ hk, Copies.filter]
  simp only [Copies.map]
  congr 1
  funext fs
  congr 1
  funext ft
  rw [Copies.iwWeights ratio (by simp) hk, hsc]

/-- A weighted mean of a quantity of the samples is such a scorer. -/
theorem copies_weighted_mean (q : α → Num → K) (A : List α) (z : List Num) (w : List K) (h1 : A.length = z.length) (h2 : A.length = w.length)
    (k : Nat) (hk : 0 < k) :
    (List.zipWith (· * ·) (List.zipWith q (copies k A) (copies k z)) (copies k (w.map (fun v => v / (k : K))))).sum =
      (List.zipWith (· * ·) (List.zipWith q A z) w).sum := by
  have hk0 : (k : K) ≠ 0 := by exact_mod_cast hk.ne'
  rw [Copies.zipWith _ k h1, Copies.zipWith _ k (by simp [← h1, h2]), Copies.sum, List.zipWith_map_right]
  have : ∀ (l w : List K), (k : K) * (List.zipWith (fun a b => a * (b / (k : K))) l w).sum = (List.zipWith (· * ·) l w).sum := by
    intro l
    induction l with
    | nil => simp
    | cons a l ih =>
      intro w
      cases w with
      | nil => simp
      | cons b w =>
        simp only [List.zipWith_cons_cons, List.sum_cons, mul_add, ih]
        field_simp
  exact this _ w

example : Score.iwWeights (fun t s : ℚ => t / s) [1, 3] [2, 2] = [1 / 4, 3 / 4] ∧
    Score.iwWeights (fun t s : ℚ => t / s) [1, 3, 1, 3] [2, 2, 2, 2] = [1 / 8, 3 / 8, 1 / 8, 3 / 8] := by
  constructor <;> decide +kernel

/-- C142 (soft neighbourhood density). The score changes: it is 0 for a single target sample, and positive if that sample is listed twice, for
any temperature. -/
theorem C142_soft_neighbourhood_counterexample (T : ℝ) :
    Score.softNeighborhood (K := ℝ) true T (some (fun X _ => .ok (X.map (fun _ => [1])))) Real.sqrt Real.exp Real.log [0, (0 : ℚ)] [.fin 0, .fin 0] (.vec [1, -1]) =
      .ok (some 0) ∧
    ∃ v, 0 < v ∧ Score.softNeighborhood (K := ℝ) true T (some (fun X _ => .ok (X.map (fun _ => [1])))) Real.sqrt Real.exp Real.log
      (copies 2 [0, (0 : ℚ)]) (copies 2 [.fin 0, .fin 0]) (.vec (copies 2 [1, -1])) = .ok (some v) := by
  have hl2 : Score.l2row Real.sqrt [1] = [1] := by simp [Score.l2row, Score.dot]
  constructor
  · rw [softNeighborhood_run true T (fun X _ => .ok (X.map (fun _ => [1]))) Real.sqrt Real.exp Real.log [0, (0 : ℚ)] [.fin 0, .fin 0] [1, -1] (by simp) rfl rfl
      [[1]] (by simp [targetRows])]
    simp [hl2, Score.similarity, Score.softmaxRow, Score.maxOf, Score.rowEntropy, Score.signed, Score.mean, Score.dot]
  · rw [softNeighborhood_run true T (fun X _ => .ok (X.map (fun _ => [1]))) Real.sqrt Real.exp Real.log (copies 2 [0, (0 : ℚ)]) (copies 2 [.fin 0, .fin 0])
      (copies 2 [1, -1]) (by simp [copies]) rfl rfl [[1], [1]] (by simp [targetRows, copies])]
    have hrow : ∀ a b : ℝ, ∃ u v : ℝ, 0 < u ∧ 0 < v ∧ u + v = 1 ∧ Score.softmaxRow Real.exp [a, b] = [u, v] := by
      intro a b
      have h1 := Real.exp_pos (a - max a b)
      have h2 := Real.exp_pos (b - max a b)
      refine ⟨_, _, ?_, ?_, ?_, rfl⟩
      · simp [Score.maxOf]; positivity
      · simp [Score.maxOf]; positivity
      · simp [Score.maxOf]; field_simp
    have hent : ∀ u v : ℝ, 0 < u → 0 < v → u + v = 1 → ∃ e, 0 < e ∧ Score.rowEntropy Real.log [u, v] = some e := by
      intro u v hu hv h
      refine ⟨-u * Real.log u + -v * Real.log v, ?_, ?_⟩
      · have h1 := Real.log_neg hu (by linarith)
        have h2 := Real.log_neg hv (by linarith)
        nlinarith [mul_pos hu (neg_pos.2 h1), mul_pos hv (neg_pos.2 h2)]
      · rw [Score.rowEntropy, if_neg (by simp [hu.ne, hv.ne])]
        simp
    obtain ⟨u1, v1, a1, a2, a3, a4⟩ := hrow (-(1 / T)) (1 / T)
    obtain ⟨u2, v2, b1, b2, b3, b4⟩ := hrow (1 / T) (-(1 / T))
    obtain ⟨e1, p1, q1⟩ := hent u1 v1 a1 a2 a3
    obtain ⟨e2, p2, q2⟩ := hent u2 v2 b1 b2 b3
    have hsim : Score.similarity T ([[1], [1]].map (Score.l2row Real.sqrt)) = [[-(1 / T), 1 / T], [1 / T, -(1 / T)]] := by
      simp [hl2, Score.similarity, Score.dot]
    refine ⟨(e1 + e2) / 2, by positivity, ?_⟩
    rw [hsim]
    simp only [List.map_cons, List.map_nil, a4, b4]
    simp [q1, q2, Score.signed, Score.mean]

end Scorers

section Deep
open DL
variable {K : Type} [Field K] [LinearOrder K] [IsStrictOrderedRing K] {d c : Nat}

omit [Field K] [IsStrictOrderedRing K] in
theorem sorted_counts {s : List K} (h : s.Pairwise (· ≤ ·)) {i : Nat} (hi : i < s.length) :
    s.countP (fun v => decide (v < s[i])) ≤ i ∧ i < s.countP (fun v => decide (v ≤ s[i])) := by
  rw [List.pairwise_iff_getElem] at h
  constructor
  · have hs : s.countP (fun v => decide (v < s[i])) = (s.take i).countP (fun v => decide (v < s[i])) + (s.drop i).countP (fun v => decide (v < s[i])) := by
      generalize s[i] = u
      rw [← List.countP_append, List.take_append_drop]
    rw [hs]
    have h1 : (s.drop i).countP (fun v => decide (v < s[i])) = 0 := by
      rw [List.countP_eq_zero]
      intro v hv
      obtain ⟨j, hj, rfl⟩ := List.mem_iff_getElem.1 hv
      rw [List.getElem_drop]
      simp only [decide_eq_true_eq, not_lt]
      rcases Nat.eq_zero_or_pos j with rfl | hj0
      · simp
      · exact h i (i + j) hi (by simp at hj; omega) (by omega)
    have h2 := List.countP_le_length (p := fun v => decide (v < s[i])) (l := s.take i)
    simp only [List.length_take] at h2
    omega
  · have h1 : (s.take (i + 1)).countP (fun v => decide (v ≤ s[i])) = (s.take (i + 1)).length := by
      rw [List.countP_eq_length]
      intro v hv
      obtain ⟨j, hj, rfl⟩ := List.mem_iff_getElem.1 hv
      simp only [List.length_take] at hj
      rw [List.getElem_take]
      simp only [decide_eq_true_eq]
      rcases Nat.lt_or_ge j i with hji | hji
      · exact h j i (by omega) hi hji
      · have : j = i := by omega
        subst this; exact le_rfl
    have h2 := (List.take_sublist (i + 1) s).countP_le (p := fun v => decide (v ≤ s[i]))
    rw [h1, List.length_take] at h2
    omega

omit [IsStrictOrderedRing K] in
theorem medianLow_counts {l : List K} (hl : l ≠ []) :
    l.countP (fun v => decide (v < medianLow l)) ≤ (l.length - 1) / 2 ∧ (l.length - 1) / 2 < l.countP (fun v => decide (v ≤ medianLow l)) := by
  have hp := List.perm_insertionSort (· ≤ ·) l
  have hn := List.length_pos_iff.2 hl
  have hi : (l.length - 1) / 2 < (l.insertionSort (· ≤ ·)).length := by rw [hp.length_eq]; omega
  have := sorted_counts (List.pairwise_insertionSort (· ≤ ·) l) hi
  have hm : medianLow l = (l.insertionSort (· ≤ ·))[(l.length - 1) / 2] := by
    unfold medianLow
    rw [List.getD_eq_getElem?_getD, List.getElem?_eq_getElem hi, Option.getD_some]
  rw [hm, ← hp.countP_eq, ← hp.countP_eq]
  exact this

omit [IsStrictOrderedRing K] in
/-- The lower median only looks at proportions. -/
theorem medianLow_scaled {l m : List K} (hl : l ≠ []) {q : Nat} (hq : 0 < q) (hlen : m.length = q * l.length)
    (hc : ∀ p : K → Bool, m.countP p = q * l.countP p) : medianLow m = medianLow l := by
  have hn := List.length_pos_iff.2 hl
  have hm : m ≠ [] := by rw [← List.length_pos_iff, hlen]; positivity
  obtain ⟨a1, a2⟩ := medianLow_counts hl
  obtain ⟨b1, b2⟩ := medianLow_counts hm
  rw [hc, hlen] at b1 b2
  have mono : ∀ u v : K, u < v → l.countP (fun x => decide (x ≤ u)) ≤ l.countP (fun x => decide (x < v)) := fun u v huv =>
    List.countP_mono_left fun x _ hx => by simp only [decide_eq_true_eq] at hx ⊢; exact hx.trans_lt huv
  rcases lt_trichotomy (medianLow m) (medianLow l) with h | h | h
  · have h1 := mono _ _ h
    have h2 : (q * l.length - 1) / 2 < q * ((l.length - 1) / 2) := b2.trans_le (Nat.mul_le_mul_left q (h1.trans a1))
    have h3 : 2 * ((l.length - 1) / 2) ≤ l.length - 1 := Nat.mul_div_le _ _
    have h4 : q * (2 * ((l.length - 1) / 2)) ≤ q * (l.length - 1) := Nat.mul_le_mul_left q h3
    have h5 : q * (l.length - 1) = q * l.length - q := by rw [Nat.mul_sub, mul_one]
    have h6 : q * (2 * ((l.length - 1) / 2)) = 2 * (q * ((l.length - 1) / 2)) := by ring
    omega
  · exact h
  · have h1 := mono _ _ h
    have h2 : q * ((l.length - 1) / 2 + 1) ≤ (q * l.length - 1) / 2 := (Nat.mul_le_mul_left q (Nat.succ_le_of_lt (a2.trans_le h1))).trans b1
    have h3 : l.length ≤ 2 * ((l.length - 1) / 2 + 1) := by omega
    have h4 : q * l.length ≤ q * (2 * ((l.length - 1) / 2 + 1)) := Nat.mul_le_mul_left q h3
    have h5 : q * (2 * ((l.length - 1) / 2 + 1)) = 2 * (q * ((l.length - 1) / 2 + 1)) := by ring
    have h6 : 0 < q * l.length := by positivity
    omega

theorem Copies.meanKernel (f : (Fin d → K) → (Fin d → K) → K) {k m : Nat} (hk : 0 < k) (hm : 0 < m) (X Y : List (Fin d → K)) :
    DL.meanKernel f (copies k X) (copies m Y) = DL.meanKernel f X Y := by
  have h1 : (k : K) ≠ 0 := by exact_mod_cast hk.ne'
  have h2 : (m : K) ≠ 0 := by exact_mod_cast hm.ne'
  unfold DL.meanKernel
  simp only [Copies.map, Copies.sum, Copies.length, List.sum_map_mul_left]
  push_cast
  rw [show (k : K) * ((m : K) * (X.map (fun x => (Y.map (fun y => f x y)).sum)).sum) =
    (k * m : K) * (X.map (fun x => (Y.map (fun y => f x y)).sum)).sum by ring,
    show (k : K) * (X.length : K) * ((m : K) * (Y.length : K)) = (k * m : K) * ((X.length : K) * (Y.length : K)) by ring,
    mul_div_mul_left _ _ (mul_ne_zero h1 h2)]

theorem Copies.defaultSigmas (sqrt : K → K) (pow2 : Nat → K) (eps : K) {k : Nat} (hk : 0 < k) {X : List (Fin d → K)} (hX : X ≠ []) :
    DL.defaultSigmas sqrt pow2 eps (copies k X) = DL.defaultSigmas sqrt pow2 eps X := by
  have hcount : ∀ p : K → Bool, (pairDists sqrt (copies k X)).countP p = k * k * (pairDists sqrt X).countP p := by
    intro p
    simp only [pairDists, List.countP_flatMap, Function.comp_def, Copies.map, Copies.countP, Copies.sum, List.sum_map_mul_left, Nat.cast_id]
    ring
  have hlen : (pairDists sqrt (copies k X)).length = k * k * (pairDists sqrt X).length := by
    simpa using hcount (fun _ => true)
  have hne : pairDists sqrt X ≠ [] := by
    obtain ⟨x, l, rfl⟩ := List.exists_cons_of_ne_nil hX
    simp [pairDists]
  unfold DL.defaultSigmas
  rw [medianLow_scaled hne (Nat.mul_pos hk hk) hlen hcount]

/-- C142 (DAN). The MMD loss does not change, with given or default bandwidths, also when the two batches are listed a different number of times. -/
theorem C142_dan (sqrt ex : K → K) (pow2 : Nat → K) (eps : K) (sigmas : Option (List K)) (Xs Xt : List (Fin d → K)) (k m : Nat) (hk : 0 < k) (hm : 0 < m) :
    dan sqrt ex pow2 eps sigmas (copies k Xs) (copies m Xt) = dan sqrt ex pow2 eps sigmas Xs Xt := by
  have hs : sigmas.getD (DL.defaultSigmas sqrt pow2 eps (copies k Xs)) = sigmas.getD (DL.defaultSigmas sqrt pow2 eps Xs) := by
    by_cases hX : Xs = []
    · subst hX; simp [copies]
    · rw [Copies.defaultSigmas sqrt pow2 eps hk hX]
  have hn : ∀ {q : Nat}, 0 < q → ∀ l : List (Fin d → K), copies q l = [] ↔ l = [] := fun hq l =>
    ⟨fun h => by by_contra hl; exact Copies.ne_nil hq hl h, fun h => by subst h; simp [copies]⟩
  unfold dan mmd
  simp only [hs, hn hk, hn hm, Copies.meanKernel _ hk hk, Copies.meanKernel _ hm hm, Copies.meanKernel _ hk hm]

example : DL.medianLow [1, 2, (4 : ℚ), 9] = 2 ∧ DL.medianLow (copies 2 [1, 2, (4 : ℚ), 9]) = 2 := by
  constructor <;> decide +kernel

example : dan (d := 1) id (fun v => v + 1) (fun _ => 1) 0 (some [2]) [![0], ![(1 : ℚ)]] [![3]] = some (25 / 4) ∧
    dan (d := 1) id (fun v => v + 1) (fun _ => 1) 0 (some [2]) (copies 2 [![0], ![(1 : ℚ)]]) (copies 3 [![3]]) = some (25 / 4) := by
  constructor <;> decide +kernel

/-- C142 (MCC). The class confusion loss does not change. -/
theorem C142_mcc (ex lg : K → K) (T eps : K) (Y : List (Fin c → K)) (k : Nat) (hk : 0 < k) : mcc ex lg T eps (copies k Y) = mcc ex lg T eps Y := by
  have hn : copies k Y = [] ↔ Y = [] := ⟨fun h => by by_contra hl; exact Copies.ne_nil hk hl h, fun h => by subst h; simp [copies]⟩
  have hk0 : (k : K) ≠ 0 := by exact_mod_cast hk.ne'
  have hmean : ∀ l : List K, DL.mean (copies k l) = DL.mean l := fun l => by rw [DL.mean, DL.mean, Copies.sum, Copies.length, Copies.ratio hk]
  have hC : ∀ P : List (Fin c → K), correlation (copies k P) (mccWeights ex lg eps (copies k P)) =
      fun i j => (k : K) * correlation P (mccWeights ex lg eps P) i j := by
    intro P
    funext i j
    simp only [correlation, mccWeights, Copies.map, hmean]
    rw [Copies.zipWith _ k (by simp), Copies.sum]
  unfold mcc
  simp only [hn, Copies.map, hC, ← Finset.mul_sum, mul_div_mul_left _ _ hk0]

example : mcc (c := 2) (fun v => v + 2) id 1 0 [![0, (1 : ℚ)], ![1, 0]] = mcc (c := 2) (fun v => v + 2) id 1 0 (copies 2 [![0, 1], ![1, 0]]) ∧
    mcc (c := 2) (fun v => v + 2) id 1 0 [![0, (1 : ℚ)], ![1, 0]] ≠ mcc (c := 2) (fun v => v + 2) id 1 0 [![0, 1]] := by
  constructor <;> decide +kernel

/-- C142 (deep CORAL). The covariances are divided by `n - 1`: with `n` rows in both batches, listing them `k` times multiplies the loss by
`(k (n - 1) / (k n - 1))²`, which is not one for `k ≥ 2`. -/
theorem C142_deepcoral_partial (ac : Bool) (hd : 0 < d) (Xs Xt : List (Fin d → K)) (h : Xt.length = Xs.length) (h2 : 2 ≤ Xs.length) (k : Nat) (hk : 0 < k) :
    ∃ v, deepcoral ac Xs Xt = .ok (some v) ∧ deepcoral ac (copies k Xs) (copies k Xt) =
      .ok (some (((k : K) * ((Xs.length : K) - 1) / ((k : K) * (Xs.length : K) - 1)) ^ 2 * v)) := by
  have hk1 : (1 : K) ≤ (k : K) := by exact_mod_cast hk
  have hn : (2 : K) ≤ (Xs.length : K) := by exact_mod_cast h2
  have e1 : (k : K) * (Xs.length : K) - 1 ≠ 0 := by nlinarith
  have e2 : (Xs.length : K) - 1 ≠ 0 := by linarith
  have hmean : ∀ X : List (Fin d → K), DL.colMean (copies k X) = DL.colMean X := fun X => by
    funext j; simp only [DL.colMean, DL.mean, Copies.map, Copies.sum, Copies.length, Copies.ratio hk]
  have hcen : ∀ X : List (Fin d → K), center (copies k X) = copies k (center X) := fun X => by simp only [center, hmean, Copies.map]
  have hcov : ∀ X : List (Fin d → K), X.length = Xs.length → ∃ C : Fin d → Fin d → K, torchCov X = some C ∧
      torchCov (copies k X) = some (fun i j => (k : K) * ((Xs.length : K) - 1) / ((k : K) * (Xs.length : K) - 1) * C i j) := by
    intro X hX
    have h3 : ¬ X.length ≤ 1 := by omega
    have h4 : ¬ (copies k X).length ≤ 1 := by rw [Copies.length, hX]; nlinarith
    refine ⟨_, by rw [torchCov, if_neg h3], ?_⟩
    rw [torchCov, if_neg h4, hcen]
    congr 1
    funext i j
    have h5 : 1 ≤ k * Xs.length := by nlinarith
    simp only [Copies.map, Copies.sum, Copies.length, hX]
    rw [Nat.cast_sub h5, Nat.cast_sub (by omega)]
    push_cast
    field_simp
  have hlen : ∀ X : List (Fin d → K), (center X).length = X.length := fun X => by simp [center]
  obtain ⟨C, c1, c2⟩ := hcov (if ac then Xs else center Xs) (by cases ac <;> simp [hlen])
  obtain ⟨D, d1, d2⟩ := hcov (if ac then Xt else center Xt) (by cases ac <;> simp [hlen, h])
  have hif : ∀ X : List (Fin d → K), (if ac = true then copies k X else center (copies k X)) = copies k (if ac = true then X else center X) := by
    intro X; cases ac <;> simp [hcen]
  refine ⟨1 / (4 * (d : K) ^ 2) * ∑ i, ∑ j, (C i j - D i j) ^ 2, by unfold deepcoral; simp only [hd.ne', if_false, c1, d1], ?_⟩
  unfold deepcoral
  simp only [hd.ne', if_false, hif, c2, d2, ← mul_sub, mul_pow, ← Finset.mul_sum]
  congr 2
  ring

/-- Listing two batches twice multiplies the deep CORAL loss by 4/9. -/
theorem C142_deepcoral_counterexample : ∃ Xs Xt : List (Fin 1 → ℚ), deepcoral false Xs Xt = .ok (some 1) ∧
    deepcoral false (copies 2 Xs) (copies 2 Xt) = .ok (some (4 / 9)) :=
  ⟨[![0], ![2]], [![1], ![1]], by decide +kernel, by decide +kernel⟩

end Deep

end Skada

/-
Property C149: another unit of measurement gives the same answers in another unit.
-/
import Verif.Spec.Units
import Verif.Props.Rotation
import Mathlib.Analysis.Matrix.Spectrum

namespace Skada
open Np Spec Map Matrix

section Basics
variable {K : Type} [Field K] {d : Nat}

theorem Units.unit_eq (c : K) : (inUnit c : (Fin d → K) → Fin d → K) = turn (c • (1 : Matrix (Fin d) (Fin d) K)) := by
  funext x j
  simp [inUnit, turn, Matrix.vecMul_smul]

theorem Units.unit_zero (c : K) : inUnit c (fun _ => 0 : Fin d → K) = fun _ => 0 := by funext j; simp [inUnit]

theorem Units.unit_sub (c : K) (x y : Fin d → K) : inUnit c (x - y) = inUnit c x - inUnit c y := by
  funext j; simp [inUnit, mul_sub]

theorem Units.unit_vecMul {p : Nat} (c : K) (x : Fin d → K) (M : Matrix (Fin d) (Fin p) K) : inUnit c x ᵥ* M = inUnit c (x ᵥ* M) := by
  have e : ∀ (n : Nat) (x : Fin n → K), inUnit c x = c • x := fun _ _ => rfl
  rw [e, e, Matrix.smul_vecMul]

theorem Units.sandwich (c : K) (C : Matrix (Fin d) (Fin d) K) :
    (c • (1 : Matrix (Fin d) (Fin d) K)).transpose * C * (c • (1 : Matrix (Fin d) (Fin d) K)) = (c * c) • C := by
  rw [Matrix.transpose_smul, Matrix.transpose_one, Matrix.smul_mul, Matrix.one_mul, Matrix.mul_smul, Matrix.mul_one, smul_smul]

theorem Units.colMean_unit (c : K) (X : List (Fin d → K)) : Map.colMean (X.map (inUnit c)) = inUnit c (Map.colMean X) := by
  rw [unit_eq]; exact Rotation.colMean_turn _ X

theorem Units.empCov_unit (c : K) (ac : Bool) (X : List (Fin d → K)) : empCov ac (X.map (inUnit c)) = (c * c) • empCov ac X := by
  rw [unit_eq, Rotation.empCov_turn, sandwich]

theorem Units.estimateCov_unit (c : K) (auto : List (Fin d → K) → Matrix (Fin d) (Fin d) K)
    (hauto : ∀ X, auto (X.map (inUnit c)) = (c * c) • auto X) (shrinkage : Option (Option K)) (ac : Bool) (X : List (Fin d → K)) :
    estimateCov auto shrinkage ac (X.map (inUnit c)) = (c * c) • estimateCov auto shrinkage ac X := by
  match shrinkage with
  | none => exact empCov_unit c ac X
  | some none => exact hauto X
  | some (some s) =>
    ext i j
    simp only [estimateCov, empCov_unit, Matrix.of_apply, Matrix.smul_apply, smul_eq_mul, ← Finset.mul_sum]
    split <;> ring

theorem Units.unit_injective {c : K} (hc : c ≠ 0) : Function.Injective (inUnit c : (Fin d → K) → Fin d → K) := by
  intro x y e
  funext j
  exact mul_left_cancel₀ hc (congrFun e j)

/-- C149 (distances). In another unit the squared distances are multiplied by the square of the factor; so everything C139 says about maps that
multiply all distances by one number holds for a change of units, and a Gaussian kernel keeps its values when its `gamma` is divided by the square
of the factor: kernel mean matching, target shift, kernel embeddings and the other methods of C139 that see the samples through a kernel. -/
theorem C149_distances (exp : K → K) {c : K} (hc : c ≠ 0) (gamma : K) :
    (∀ x y : Fin d → K, sqDistance (inUnit c x) (inUnit c y) = c * c * sqDistance x y) ∧
      KeepsKernel (inUnit c) (RW.rbf (d := d) exp gamma) (RW.rbf exp (gamma / (c * c))) := by
  have hs : ∀ x y : Fin d → K, sqDistance (inUnit c x) (inUnit c y) = c * c * sqDistance x y := by
    intro x y
    simp only [sqDistance, inUnit, Finset.mul_sum]
    exact Finset.sum_congr rfl fun i _ => by ring
  refine ⟨hs, fun x y => ?_⟩
  have := hs x y
  simp only [sqDistance] at this
  simp only [RW.rbf, this]
  congr 1
  field_simp

end Basics

section Coral
variable {K : Type} [Field K] {d : Nat}

/-- C149 (square roots). The root of a covariance matrix in another unit is the root in the new unit, and the inverse root is the inverse root in the
new unit, whichever eigenvectors the eigenvalue routine returns. -/
theorem C149_roots {c : K} (sqrt : K → K) (hq : RootOfUnit sqrt c) (eigh : Matrix (Fin d) (Fin d) K → (Fin d → K) × Matrix (Fin d) (Fin d) K)
    (C : Matrix (Fin d) (Fin d) K) (h1 : Diagonalises eigh C) (h2 : Diagonalises eigh ((c * c) • C)) :
    sqrtm sqrt eigh ((c * c) • C) = c • sqrtm sqrt eigh C ∧ invsqrtm sqrt eigh ((c * c) • C) = (1 / c) • invsqrtm sqrt eigh C := by
  have e1 : ∀ C, sqrtm sqrt eigh C = (eigh C).2 * Matrix.diagonal (fun i => sqrt ((eigh C).1 i)) * (eigh C).2.transpose := by
    intro C
    refine congrArg (· * _) ?_
    ext i j; simp [Matrix.mul_diagonal]
  have e2 : ∀ C, invsqrtm sqrt eigh C = (eigh C).2 * Matrix.diagonal (fun i => 1 / sqrt ((eigh C).1 i)) * (eigh C).2.transpose := by
    intro C
    refine congrArg (· * _) ?_
    ext i j; simp [Matrix.mul_diagonal, div_eq_mul_inv]
  obtain ⟨a1, a2⟩ := h1
  obtain ⟨b1, b2⟩ := h2
  have hd : ∀ (a : K) (l : Fin d → K) (V : Matrix (Fin d) (Fin d) K), V * Matrix.diagonal (fun i => a * l i) * V.transpose =
      a • (V * Matrix.diagonal l * V.transpose) := by
    intro a l V
    rw [show (Matrix.diagonal fun i => a * l i) = a • Matrix.diagonal l from by ext i j; simp [Matrix.diagonal_apply]]
    rw [Matrix.mul_smul, Matrix.smul_mul]
  have key := Rotation.spectral_unique (A := (eigh ((c * c) • C)).2) (B := (eigh C).2) (l := (eigh ((c * c) • C)).1)
    (m := fun i => c * c * (eigh C).1 i) b1 a1 (by rw [← b2, hd, ← a2])
  constructor
  · rw [e1, e1, key sqrt, ← hd]
    simp only [hq _]
  · rw [e2, e2, key (fun a => 1 / sqrt a), ← hd]
    simp only [hq _, one_div, mul_inv]

theorem Units.coralTransform_unit {c : K} (hc : c ≠ 0) (F : Coral K d) (ac : Bool) (Z : NArr (Fin d → K)) (sd : SDArg) (allow : Bool) :
    coralTransform ⟨inUnit c F.meanSource, inUnit c F.meanTarget, (1 / c) • F.covSourceInvSqrt, c • F.covTargetSqrt⟩ ac
        (mapArr (inUnit c) Z) sd allow =
      (coralTransform F ac Z sd allow).map (mapArr (inUnit c)) := by
  have hv : ∀ (M N : Matrix (Fin d) (Fin d) K) (x : Fin d → K), inUnit c x ᵥ* ((1 / c) • M) ᵥ* (c • N) = inUnit c (x ᵥ* M ᵥ* N) := by
    intro M N x
    rw [unit_vecMul, unit_vecMul, Matrix.vecMul_smul, Matrix.vecMul_smul, Matrix.smul_vecMul, smul_smul, mul_one_div_cancel hc, one_smul]
  unfold coralTransform
  rw [show checkXDomain (mapArr (inUnit c) Z).rows sd { allowSource := allow } =
      (checkXDomain Z.rows sd { allowSource := allow }).map (fun r => (r.1.map (inUnit c), r.2)) from RW.check_map _ _ _ _]
  rcases checkXDomain Z.rows sd { allowSource := allow } with e | ⟨R, sd1⟩
  · rfl
  · simp only [Except.map, bind, Except.bind]
    rw [show splitN ({ mapArr (inUnit c) Z with rows := R.map (inUnit c) }) sd1 =
        (splitN { Z with rows := R } sd1).map (fun r => (mapArr (inUnit c) r.1, mapArr (inUnit c) r.2)) from
      Rotation.splitN_turn (inUnit c) { Z with rows := R } sd1]
    rcases splitN { Z with rows := R } sd1 with e | ⟨S, T⟩
    · rfl
    · simp only [Except.map]
      refine Eq.trans ?_ (Rotation.mergeN_turn (inUnit c) (unit_zero c) _ _ sd1)
      have hl : ∀ a : NArr (Fin d → K), (mapArr (inUnit c) a).rows.length = a.rows.length := fun a => by simp [mapArr]
      rw [hl, hl]
      congr 1
      · split
        · cases ac <;> simp only [mapArr, List.map_map, Function.comp_def, ← unit_sub, hv, if_true, Bool.false_eq_true, if_false]
        · rfl
      · split
        · simp [mapArr, Function.comp_def, ← unit_sub]
        · rfl

/-- C149 (CORAL). `CORALAdapter` fitted to samples in another unit has the means in the new unit, and transforms samples in the new unit, those of
the fit and any others, to the result in the new unit, or raises the same exception. -/
theorem C149_coral {c : K} (hc : c ≠ 0) (sqrt : K → K) (hq : RootOfUnit sqrt c)
    (eigh : Matrix (Fin d) (Fin d) K → (Fin d → K) × Matrix (Fin d) (Fin d) K)
    (auto : List (Fin d → K) → Matrix (Fin d) (Fin d) K) (hauto : ∀ X, auto (X.map (inUnit c)) = (c * c) • auto X)
    (shrinkage : Option (Option K)) (ac : Bool) (X : NArr (Fin d → K)) (sd : List Int)
    (hs : Diagonalises eigh (estimateCov auto shrinkage ac (sourceRows sd X.rows)))
    (hs' : Diagonalises eigh ((c * c) • estimateCov auto shrinkage ac (sourceRows sd X.rows)))
    (ht : Diagonalises eigh (estimateCov auto shrinkage ac (targetRows sd X.rows)))
    (ht' : Diagonalises eigh ((c * c) • estimateCov auto shrinkage ac (targetRows sd X.rows))) :
    RelPy (fun F F' => F'.meanSource = inUnit c F.meanSource ∧ F'.meanTarget = inUnit c F.meanTarget ∧
          ∀ ac Z sdz allow, coralTransform F' ac (mapArr (inUnit c) Z) sdz allow = (coralTransform F ac Z sdz allow).map (mapArr (inUnit c)))
        (coralFit (estimateCov auto shrinkage ac) (sqrtm sqrt eigh) (invsqrtm sqrt eigh) X (.vec sd))
        (coralFit (estimateCov auto shrinkage ac) (sqrtm sqrt eigh) (invsqrtm sqrt eigh) (mapArr (inUnit c) X) (.vec sd)) ∧
      coralFitTransform (estimateCov auto shrinkage ac) (sqrtm sqrt eigh) (invsqrtm sqrt eigh) ac (mapArr (inUnit c) X) (.vec sd) =
        (coralFitTransform (estimateCov auto shrinkage ac) (sqrtm sqrt eigh) (invsqrtm sqrt eigh) ac X (.vec sd)).map (mapArr (inUnit c)) := by
  have hfit : RelPy (fun F F' => F' = (⟨inUnit c F.meanSource, inUnit c F.meanTarget, (1 / c) • F.covSourceInvSqrt, c • F.covTargetSqrt⟩ : Coral K d))
      (coralFit (estimateCov auto shrinkage ac) (sqrtm sqrt eigh) (invsqrtm sqrt eigh) X (.vec sd))
      (coralFit (estimateCov auto shrinkage ac) (sqrtm sqrt eigh) (invsqrtm sqrt eigh) (mapArr (inUnit c) X) (.vec sd)) := by
    unfold coralFit
    rw [show checkXDomain (mapArr (inUnit c) X).rows (.vec sd) {} =
        (checkXDomain X.rows (.vec sd) {}).map (fun r => (r.1.map (inUnit c), r.2)) from RW.check_map _ _ _ _]
    rcases hk : checkXDomain X.rows (.vec sd) {} with e | ⟨R, sd1⟩
    · exact rfl
    · obtain rfl := RW.check_same hk
      obtain rfl := Weights.checkX_vec hk
      simp only [Except.map, bind, Except.bind]
      rw [show splitN ({ mapArr (inUnit c) X with rows := X.rows.map (inUnit c) }) sd1 =
          (splitN X sd1).map (fun r => (mapArr (inUnit c) r.1, mapArr (inUnit c) r.2)) from Rotation.splitN_turn (inUnit c) X sd1]
      have hX : X.rows ≠ [] := by
        intro e; rw [e] at hk; cases hk
      have hlen : sd1.length = X.rows.length := by
        by_contra hne
        have : checkXDomain X.rows (.vec sd1) {} = .error .valueError := by
          unfold checkXDomain
          rw [if_neg hX]
          simp only
          rcases he : extractSourceIndices sd1 with e | m
          · simp only [extractSourceIndices] at he
            split at he <;> cases he
            rfl
          · simp only
            rw [if_pos (Ne.symm hne)]
        rw [this] at hk; cases hk
      have hs1 : splitN X sd1 = _ := splitN_ok (RW.sd_ne hX hlen) hlen
      rw [show splitN { X with rows := X.rows } sd1 = splitN X sd1 from rfl, hs1]
      simp only [Except.map, mapArr, List.length_map]
      split
      · exact rfl
      · simp only [pure, Except.pure]
        show _ = _
        simp only [Units.colMean_unit, Units.estimateCov_unit c auto hauto]
        rw [(C149_roots sqrt hq eigh _ hs hs').2, (C149_roots sqrt hq eigh _ ht ht').1]
  constructor
  · rcases Sides.py_cases hfit with ⟨e, h1, h2⟩ | ⟨F, F', h1, h2, rfl⟩
    · rw [h1, h2]; exact rfl
    · rw [h1, h2]
      exact ⟨rfl, rfl, fun ac Z sdz allow => Units.coralTransform_unit hc F ac Z sdz allow⟩
  · unfold coralFitTransform
    rcases Sides.py_cases hfit with ⟨e, h1, h2⟩ | ⟨F, F', h1, h2, rfl⟩
    · rw [h1, h2]; rfl
    · rw [h1, h2]; exact Units.coralTransform_unit hc F ac X (.vec sd) true

end Coral

section Transport
variable {K : Type} [Field K] {d : Nat} {β : Type}

/-- C149 (optimal transport mapping). When the cost is multiplied by a number in the new unit, and the plan does not change when all costs are
multiplied by that number, the transport adapters move the source samples to their images in the new unit, or raise the same exception. -/
theorem C149_transport {c a : K} (solve : ∀ n m : Nat, (Fin n → Fin m → K) → Fin n → Fin m → K) (cost : (Fin d → K) → (Fin d → K) → K)
    (hcost : ∀ x y, cost (inUnit c x) (inUnit c y) = a * cost x y) (hsolve : ∀ n m C, solve n m (fun i j => a * C i j) = solve n m C)
    (ot : NArr (Fin d → K) → Option (List β) → NArr (Fin d → K) → Option (List β) → Py (NArr (Fin d → K) → Py (NArr (Fin d → K))))
    (hot : ExactTransport (fun S T => solve S.length T.length (fun i j => cost S[i] T[j])) ot)
    (X : NArr (Fin d → K)) (y : Option (List β)) (sd : List Int) :
    otFitTransform ot (mapArr (inUnit c) X) y (.vec sd) = (otFitTransform ot X y (.vec sd)).map (mapArr (inUnit c)) := by
  have hb : ∀ S T : List (Fin d → K),
      barycentric (S.map (inUnit c)) (T.map (inUnit c)) (solve (S.map (inUnit c)).length (T.map (inUnit c)).length
        (fun i j => cost (S.map (inUnit c))[i] (T.map (inUnit c))[j])) =
      (barycentric S T (solve S.length T.length (fun i j => cost S[i] T[j]))).map (inUnit c) := by
    intro S T
    rw [← hsolve S.length T.length]
    have := Rotation.bary_turn (c • (1 : Matrix (Fin d) (Fin d) K)) solve (List.length_map (as := S) (inUnit c))
      (List.length_map (as := T) (inUnit c)) (fun i j => a * cost S[i] T[j])
      (fun i j => cost (S.map (inUnit c))[i] (T.map (inUnit c))[j]) (fun i j => by simpa using hcost _ _) (fun j => T[j])
      (fun j => (T.map (inUnit c))[j]) (fun j => by rw [← Units.unit_eq]; simp)
    rw [← Units.unit_eq] at this
    exact this
  unfold otFitTransform otFit
  have hch : ∀ fl, checkXDomain (mapArr (inUnit c) X).rows (.vec sd) fl =
      (checkXDomain X.rows (.vec sd) fl).map (fun r => (r.1.map (inUnit c), r.2)) := fun fl => RW.check_map _ _ _ _
  rw [hch]
  rcases hk : checkXDomain X.rows (.vec sd) {} with e | ⟨R, sd1⟩
  · rfl
  · obtain rfl := RW.check_same hk
    obtain rfl := Weights.checkX_vec hk
    simp only [Except.map, bind, Except.bind]
    have hsp : splitN ({ mapArr (inUnit c) X with rows := X.rows.map (inUnit c) }) sd1 =
        (splitN X sd1).map (fun r => (mapArr (inUnit c) r.1, mapArr (inUnit c) r.2)) := Rotation.splitN_turn (inUnit c) X sd1
    rw [hsp]
    rcases hsplit : splitN X sd1 with e | ⟨S, T⟩
    · rfl
    · simp only [Except.map]
      rcases splitY y sd1 with e | ⟨ys, yt⟩
      · rfl
      · simp only
        obtain ⟨F, hF, hFS⟩ := hot S ys T yt
        obtain ⟨F', hF', hFS'⟩ := hot (mapArr (inUnit c) S) ys (mapArr (inUnit c) T) yt
        simp only [hF, hF']
        unfold otTransform
        rw [hch]
        rcases hk2 : checkXDomain X.rows (.vec sd1) { allowSource := true } with e | ⟨R, sd2⟩
        · rfl
        · obtain rfl := RW.check_same hk2
          obtain rfl := Weights.checkX_vec hk2
          simp only [Except.map, bind, Except.bind]
          rw [show splitN ({ mapArr (inUnit c) X with rows := X.rows.map (inUnit c) }) sd2 =
            (splitN X sd2).map (fun r => (mapArr (inUnit c) r.1, mapArr (inUnit c) r.2)) from Rotation.splitN_turn (inUnit c) X sd2, hsplit]
          simp only [Except.map]
          have hl : ∀ a : NArr (Fin d → K), (mapArr (inUnit c) a).rows.length = a.rows.length := fun a => by simp [mapArr]
          rw [hl]
          split
          · rw [hFS, hFS']
            simp only
            refine Eq.trans ?_ (Rotation.mergeN_turn (inUnit c) (Units.unit_zero c) _ _ sd2)
            congr 1
            exact congrArg (fun r => (⟨.float, S.tail, r⟩ : NArr (Fin d → K))) (hb S.rows T.rows)
          · simp only [pure, Except.pure]
            exact Rotation.mergeN_turn (inUnit c) (Units.unit_zero c) _ _ sd2

/-- A plan, among those allowed, with the smallest total cost. -/
def Spec.CheapestPlan [LinearOrder K] {n m : Nat} (allowed : (Fin n → Fin m → K) → Prop) (C P : Fin n → Fin m → K) : Prop :=
  allowed P ∧ ∀ P', allowed P' → ∑ i, ∑ j, C i j * P i j ≤ ∑ i, ∑ j, C i j * P' i j

/-- C149 (plans). Multiplying all costs by a positive number does not change which plans are cheapest, so an exact solver with a single answer returns
the same plan: the assumption of `C149_transport` about the solver. -/
theorem C149_plans [LinearOrder K] [IsStrictOrderedRing K] {n m : Nat} (allowed : (Fin n → Fin m → K) → Prop) (C : Fin n → Fin m → K) {a : K}
    (ha : 0 < a) :
    (∀ P, CheapestPlan allowed (fun i j => a * C i j) P ↔ CheapestPlan allowed C P) ∧
      ∀ solve : (Fin n → Fin m → K) → Fin n → Fin m → K, CheapestPlan allowed C (solve C) →
        CheapestPlan allowed (fun i j => a * C i j) (solve fun i j => a * C i j) →
        (∀ P, CheapestPlan allowed C P → P = solve C) → (solve fun i j => a * C i j) = solve C := by
  have hs : ∀ P : Fin n → Fin m → K, ∑ i, ∑ j, a * C i j * P i j = a * ∑ i, ∑ j, C i j * P i j := by
    intro P
    simp only [Finset.mul_sum, mul_assoc]
  have h : ∀ P, CheapestPlan allowed (fun i j => a * C i j) P ↔ CheapestPlan allowed C P := by
    intro P
    simp only [CheapestPlan, hs, mul_le_mul_iff_right₀ ha]
  exact ⟨h, fun solve _ h2 h3 => h3 _ ((h _).1 h2)⟩

end Transport

/-- Changing the unit from metres to centimetres in the example of C148. -/
example : otFitTransform rotOt (mapArr (inUnit 100) rotX) none (.vec rotSd) = (otFitTransform rotOt rotX none (.vec rotSd)).map (mapArr (inUnit 100)) :=
  C149_transport (a := 100 * 100) rotSolve sqDistance (C149_distances id (by norm_num) 0).1
    (fun n m C => by
      funext i j
      simp only [rotSolve]
      congr 1
      exact propext (forall_congr' fun l => mul_le_mul_iff_right₀ (by norm_num)))
    rotOt (fun _ _ _ _ => ⟨_, rfl, rfl⟩) rotX none rotSd

/-- Two plans are allowed; the cheaper one costs 1, in both units. -/
example : CheapestPlan (fun P : Fin 2 → Fin 2 → ℚ => P = ![![1, 0], ![0, 1]] ∨ P = ![![0, 1], ![1, 0]]) ![![0, 3], ![2, 1]] ![![1, 0], ![0, 1]] := by
  refine ⟨.inl rfl, ?_⟩
  rintro P' (rfl | rfl) <;> decide +kernel

section Subspace
variable {K : Type} [Field K] {d p : Nat}

theorem Units.torchCov_unit (c reg : K) (X : List (Fin d → K)) : Subsp.torchCov reg (X.map (inUnit c)) = (c * c) • Subsp.torchCov reg X := by
  have e : ∀ X : List (Fin d → K), (Matrix.of fun i j => (X.map (fun x => (x i - Map.colMean X i) * (x j - Map.colMean X j))).sum / (X.length : K)) =
      empCov false X := fun X => rfl
  simp only [Subsp.torchCov, e, empCov_unit, Matrix.trace_smul, smul_add, smul_smul, smul_eq_mul]
  congr 2 <;> ring

/-- C149 (subspace alignment). The adapter hands the samples in the new unit to the two PCAs; the components of the samples are components of the
samples in the new unit, with the mean in the new unit and the variances multiplied by the square of the factor; and with them the samples are sent
to the same points in the new unit, or the same exception is raised. -/
theorem C149_alignment (c : K) (n : Option Nat) (X : NArr (Fin d → K)) (sd : SDArg) :
    Subsp.saFitArgs n (X.rows.map (inUnit c)) sd =
        (Subsp.saFitArgs n X.rows sd).map (fun r => (r.1.map (inUnit c), r.2.1.map (inUnit c), r.2.2)) ∧
      (∀ (S : List (Fin d → K)) (P : Subsp.Pca K d p) l, PcaOf S P l → PcaOf (S.map (inUnit c)) ⟨inUnit c P.mean, P.comps⟩ (fun i => c * c * l i)) ∧
      ∀ (Ps Pt : Subsp.Pca K d p) allow,
        Subsp.saTransform ⟨inUnit c Ps.mean, Ps.comps⟩ ⟨inUnit c Pt.mean, Pt.comps⟩ (mapArr (inUnit c) X) sd allow =
          (Subsp.saTransform Ps Pt X sd allow).map (mapArr (inUnit c)) := by
  refine ⟨?_, ?_, ?_⟩
  · unfold Subsp.saFitArgs
    rw [RW.check_map]
    rcases checkXDomain X.rows sd {} with e | ⟨R, sd1⟩
    · rfl
    · simp only [Except.map, bind, Except.bind, RW.splitX_map, List.length_map]
      rcases RW.splitX R sd1 with e | ⟨S, T⟩
      · rfl
      · simp only [List.length_map]
        rcases Subsp.pcaCheck S.length d (Subsp.nComponents R.length d n) with e | _
        · rfl
        · simp only
          rcases Subsp.pcaCheck T.length d (Subsp.nComponents R.length d n) with e | _ <;> rfl
  · rintro S P l ⟨h1, h2, h3⟩
    refine ⟨?_, h2, ?_⟩
    · rw [Units.colMean_unit, ← h1]
    · rw [Units.empCov_unit, Matrix.smul_mul, h3, ← Matrix.mul_smul]
      congr 1
      ext i j; simp [Matrix.diagonal_apply]
  · intro Ps Pt allow
    have ha : ∀ (P : Subsp.Pca K d p) x, (⟨inUnit c P.mean, P.comps⟩ : Subsp.Pca K d p).apply (inUnit c x) = inUnit c (P.apply x) := by
      intro P x
      simp only [Subsp.Pca.apply, ← Units.unit_sub, Units.unit_vecMul]
    unfold Subsp.saTransform
    rw [show checkXDomain (mapArr (inUnit c) X).rows sd { allowSource := allow } =
      (checkXDomain X.rows sd { allowSource := allow }).map (fun r => (r.1.map (inUnit c), r.2)) from RW.check_map _ _ _ _]
    rcases checkXDomain X.rows sd { allowSource := allow } with e | ⟨R, sd1⟩
    · rfl
    · simp only [Except.map, bind, Except.bind, RW.splitX_map]
      rcases RW.splitX R sd1 with e | ⟨S, T⟩
      · rfl
      · simp only [List.map_map, Function.comp_def, ha, Units.unit_vecMul]
        refine Eq.trans ?_ (Rotation.mergeN_turn (inUnit c) (Units.unit_zero c) _ _ sd1)
        simp only [mapArr, List.map_map, Function.comp_def]

/-- C149 (transfer subspace learning). In another unit, the objective of a projection is multiplied by the square of the factor with the base methods
`pca` and `lpp` (with a kernel adapted to the unit), and is the same with `flda`; so the order of the projections is the same. A projection sends the
samples to the same points in the new unit. -/
theorem C149_tsl {β : Type} [LinearOrder β] {c : K} (hc : c ≠ 0) (W : Matrix (Fin d) (Fin p) K) :
    (∀ reg X, Subsp.tslPca reg W (X.map (inUnit c)) = c * c * Subsp.tslPca reg W X) ∧
      (∀ sqrt reg X (y : List β), Subsp.tslFlda sqrt reg W (X.map (inUnit c)) y = Subsp.tslFlda sqrt reg W X y) ∧
      (∀ (n : Nat) (ker ker' : (Fin d → K) → (Fin d → K) → K) (X : Matrix (Fin n) (Fin d) K) (y : Fin n → β), KeepsKernel (inUnit c) ker ker' →
        Subsp.tslLpp ker' W (c • X) y = c * c * Subsp.tslLpp ker W X y) ∧
      ∀ X sd allow, Subsp.tslTransform W (mapArr (inUnit c) X) sd allow = (Subsp.tslTransform W X sd allow).map (mapArr (inUnit c)) := by
  have ht : ∀ C : Matrix (Fin d) (Fin d) K, (W.transpose * ((c * c) • C) * W).trace = c * c * (W.transpose * C * W).trace := by
    intro C
    rw [Matrix.mul_smul, Matrix.smul_mul, Matrix.trace_smul, smul_eq_mul]
  refine ⟨?_, ?_, ?_, ?_⟩
  · intro reg X
    simp only [Subsp.tslPca, Units.torchCov_unit, ht, mul_neg]
  · intro sqrt reg X y
    have hm : Subsp.fldaMeans sqrt (X.map (inUnit c)) y = (Subsp.fldaMeans sqrt X y).map (inUnit c) := by
      simp only [Subsp.fldaMeans, List.map_map, Function.comp_def, Rotation.classRows_turn, Units.colMean_unit]
      refine List.map_congr_left fun k _ => ?_
      funext j
      simp only [inUnit]; ring
    simp only [Subsp.tslFlda, hm, Units.torchCov_unit, ht]
    exact mul_div_mul_left _ _ (mul_ne_zero hc hc)
  · intro n ker ker' X y hk
    have hr : ∀ i, (c • X) i = inUnit c (X i) := fun i => rfl
    simp only [Subsp.tslLpp, hr, hk _ _]
    rw [Matrix.transpose_smul, Matrix.mul_smul, Matrix.smul_mul, Matrix.mul_smul, Matrix.smul_mul, Matrix.smul_mul, Matrix.smul_mul,
      Matrix.trace_smul, Matrix.trace_smul, smul_eq_mul, smul_eq_mul]
    ring
  · intro X sd allow
    unfold Subsp.tslTransform
    rw [show checkXDomain (mapArr (inUnit c) X).rows sd { allowSource := allow } =
      (checkXDomain X.rows sd { allowSource := allow }).map (fun r => (r.1.map (inUnit c), r.2)) from RW.check_map _ _ _ _]
    rcases checkXDomain X.rows sd { allowSource := allow } with e | ⟨R, sd1⟩
    · rfl
    · simp only [Except.map, bind, Except.bind, RW.splitX_map]
      rcases RW.splitX R sd1 with e | ⟨S, T⟩
      · rfl
      · simp only [List.map_map, Function.comp_def, Units.unit_vecMul]
        refine Eq.trans ?_ (Rotation.mergeN_turn (inUnit c) (Units.unit_zero c) _ _ sd1)
        simp only [mapArr, List.map_map, Function.comp_def]

end Subspace

section LocationScale
variable {K : Type} [Field K] [LinearOrder K] [IsStrictOrderedRing K] {d : Nat} {β : Type}

theorem Units.argmin_scale {a : K} (ha : 0 < a) (l : List K) : Np.argmin (l.map (fun v => a * v)) = Np.argmin l := by
  have h : ∀ (l : List K) k, Np.argminFrom k (l.map (fun v => a * v)) = (Np.argminFrom k l).map (fun r => (r.1, a * r.2)) := by
    intro l
    induction l with
    | nil => intro k; rfl
    | cons x l ih =>
      intro k
      simp only [List.map_cons, Np.argminFrom, ih]
      rcases Np.argminFrom (k + 1) l with _ | ⟨j, y⟩
      · rfl
      · simp only [Option.map_some, mul_le_mul_iff_right₀ ha]
        split <;> rfl
  unfold Np.argmin
  rw [h]
  rcases Np.argminFrom 0 l with _ | ⟨i, v⟩ <;> rfl

/-- C149 (location-scale mapping). When the optimiser finds the same scales, and the offsets in the new unit, so does `MMDLSConSMappingAdapter`;
transforming samples in the new unit, those of the fit, new ones with labels, and new ones without labels (nearest training sample), gives the
result in the new unit, or the same exception. -/
theorem C149_mmdls [LinearOrder β] {c a : K} (hc : c ≠ 0) (ha : 0 < a) (dist : (Fin d → K) → (Fin d → K) → K)
    (hd : ∀ x y, dist (inUnit c x) (inUnit c y) = a * dist x y)
    (opt : List (Fin d → K) → List (Fin d → K) → List β → List (Fin d → K) × List (Fin d → K))
    (hopt : ∀ S T y, opt (S.map (inUnit c)) (T.map (inUnit c)) y = ((opt S T y).1, (opt S T y).2.map (inUnit c)))
    (X : List (Fin d → K)) (y : List β) (sd : SDArg) :
    mmdlsFit opt (X.map (inUnit c)) y sd = (mmdlsFit opt X y sd).map (unitLs c) ∧
      ∀ (F : MmdLs K d β) Z yz sdz allow, mmdlsTransform dist (unitLs c F) (mapArr (inUnit c) Z) yz sdz allow =
        (mmdlsTransform dist F Z yz sdz allow).map (mapArr (inUnit c)) := by
  have hinj := Units.unit_injective (d := d) hc
  have hdot : ∀ u v : List K, RW.listDot u (v.map (fun t => c * t)) = c * RW.listDot u v := by
    intro u v
    unfold RW.listDot
    induction u generalizing v with
    | nil => simp
    | cons t u ih =>
      cases v with
      | nil => simp
      | cons s v => simp only [List.map_cons, List.zipWith_cons_cons, List.sum_cons, ih]; ring
  have hcp : ∀ (cl : List β) (G : List (Fin d → K)) k, classParam cl (G.map (inUnit c)) k = inUnit c (classParam cl G k) := by
    intro cl G k
    funext j
    simp only [classParam, inUnit, ← hdot, List.map_map, Function.comp_def]
  have hcpl : ∀ (cl : List β) (G : List (Fin d → K)) (l : List β), l.map (classParam cl (G.map (inUnit c))) =
      (l.map (classParam cl G)).map (inUnit c) := by
    intro cl G l
    simp [hcp]
  have hss : ∀ W B X : List (Fin d → K), scaleShift W (B.map (inUnit c)) (X.map (inUnit c)) = (scaleShift W B X).map (inUnit c) := by
    intro W B X
    simp only [scaleShift, List.zip_map_right, List.zipWith_map, List.map_zipWith]
    congr 1
    funext wb x j
    simp only [inUnit, Prod.map, id]
    ring
  constructor
  · unfold mmdlsFit
    rw [RW.check_map]
    rcases checkXDomain X sd {} with e | ⟨R, sd1⟩
    · rfl
    · simp only [Except.map, bind, Except.bind, RW.splitX_map]
      rcases RW.splitX R sd1 with e | ⟨S, T⟩
      · rfl
      · simp only
        rcases RW.splitX y sd1 with e | ⟨ys, yt⟩
        · rfl
        · simp only [hopt, hcpl]; rfl
  · intro F Z yz sdz allow
    unfold mmdlsTransform
    rw [show checkXDomain (mapArr (inUnit c) Z).rows sdz { allowSource := allow } =
      (checkXDomain Z.rows sdz { allowSource := allow }).map (fun r => (r.1.map (inUnit c), r.2)) from RW.check_map _ _ _ _]
    rcases checkXDomain Z.rows sdz { allowSource := allow } with e | ⟨R, sd1⟩
    · rfl
    · simp only [Except.map, bind, Except.bind]
      rcases extractSourceIndices sd1 with e | m
      · rfl
      · simp only [RW.boolIndex_map]
        rcases Np.boolIndex R m with e | S
        · rfl
        · simp only [Except.map]
          rcases Np.boolIndex R (m.map (!·)) with e | T
          · rfl
          · simp only [List.length_map]
            have hz : (inUnit c (fun _ => 0) : Fin d → K) = fun _ => 0 := Units.unit_zero c
            split
            · exact Rotation.mergeN_turn (inUnit c) hz ⟨Z.dtype, Z.tail, S⟩ ⟨Z.dtype, Z.tail, T⟩ sd1
            · have hm : ∀ W B : List (Fin d → K),
                  mergeN ⟨.float, (mapArr (inUnit c) Z).tail, scaleShift W (B.map (inUnit c)) (S.map (inUnit c))⟩
                    { mapArr (inUnit c) Z with rows := T.map (inUnit c) } sd1 =
                  (mergeN ⟨.float, Z.tail, scaleShift W B S⟩ { Z with rows := T } sd1).map (mapArr (inUnit c)) := by
                intro W B
                rw [hss]
                exact Rotation.mergeN_turn (inUnit c) hz ⟨.float, Z.tail, scaleShift W B S⟩ ⟨Z.dtype, Z.tail, T⟩ sd1
              simp only [unitLs, (List.map_injective_iff.2 hinj).eq_iff]
              by_cases hFS : F.Xs = S
              · simp only [if_pos hFS, pure, Except.pure]
                exact hm F.W F.B
              · simp only [if_neg hFS]
                cases yz with
                | some yz =>
                  simp only
                  rcases Np.boolIndex yz m with e | ys
                  · rfl
                  · simp only [pure, Except.pure, hcpl]
                    exact hm _ _
                | none =>
                  have hnn : ∀ x, nearest dist (F.Xs.map (inUnit c)) (inUnit c x) = nearest dist F.Xs x := by
                    intro x
                    rw [nearest, nearest, ← Units.argmin_scale ha (F.Xs.map (dist x))]
                    simp only [List.map_map, Function.comp_def, hd]
                  simp only [List.mapM_map, Function.comp_def, hnn, RW.take_map]
                  rcases List.mapM (fun x => nearest dist F.Xs x) S with e | idx
                  · rfl
                  · simp only
                    rcases Np.take F.W idx with e | W
                    · rfl
                    · simp only [Except.map]
                      rcases Np.take F.B idx with e | B
                      · rfl
                      · simp only [pure, Except.pure]
                        exact hm W B

end LocationScale

section Deep
variable {K : Type} [Field K] [LinearOrder K] [IsStrictOrderedRing K] {d c : Nat}

omit [LinearOrder K] [IsStrictOrderedRing K] in
/-- C149 (deep CORAL). The loss of features in another unit is the loss times the fourth power of the factor, or the same NaN or exception. -/
theorem C149_deepcoral (u : K) (ac : Bool) (Xs Xt : List (Fin d → K)) :
    DL.deepcoral ac (Xs.map (inUnit u)) (Xt.map (inUnit u)) = (DL.deepcoral ac Xs Xt).map (Option.map (fun v => u ^ 4 * v)) := by
  have hcen : ∀ X : List (Fin d → K), DL.center (X.map (inUnit u)) = (DL.center X).map (inUnit u) := by
    intro X; rw [Units.unit_eq]; exact Rotation.dlCenter_turn _ X
  have hif : ∀ X : List (Fin d → K), (if ac then X.map (inUnit u) else DL.center (X.map (inUnit u))) = (if ac then X else DL.center X).map (inUnit u) := by
    intro X; cases ac <;> simp [hcen]
  have hcov : ∀ X : List (Fin d → K), DL.torchCov (X.map (inUnit u)) = (DL.torchCov X).map (fun C j k => u * u * C j k) := by
    intro X
    rw [Units.unit_eq, Rotation.dlCov_turn]
    rcases DL.torchCov X with _ | C
    · rfl
    · simp only [Option.map_some, Units.sandwich]
      rfl
  unfold DL.deepcoral
  simp only [hif, hcov]
  split
  · rfl
  · rcases DL.torchCov (if ac = true then Xs else DL.center Xs) with _ | C
    · rfl
    · rcases DL.torchCov (if ac = true then Xt else DL.center Xt) with _ | D
      · rfl
      · simp only [Option.map_some, Except.map]
        congr 2
        rw [mul_left_comm]
        congr 1
        rw [Finset.mul_sum]
        refine Finset.sum_congr rfl fun j _ => ?_
        rw [Finset.mul_sum]
        exact Finset.sum_congr rfl fun k _ => by ring

omit [LinearOrder K] [IsStrictOrderedRing K] in
theorem Units.dist_unit {u : K} {sqrt : K → K} (hq : RootOfUnit sqrt u) (x y : Fin d → K) :
    DL.dist sqrt (inUnit u x) (inUnit u y) = u * DL.dist sqrt x y := by
  rw [DL.dist, DL.dist, ← hq]
  congr 1
  rw [Finset.mul_sum]
  exact Finset.sum_congr rfl fun i _ => by simp only [inUnit]; ring

theorem Units.median_unit {u : K} (hu : 0 < u) (l : List K) : DL.medianLow (l.map (fun v => u * v)) = u * DL.medianLow l := by
  unfold DL.medianLow
  rw [← List.map_insertionSort (r := (· ≤ ·)) (s := (· ≤ ·)) (fun v => u * v) l (fun a _ b _ => (mul_le_mul_iff_right₀ hu).symm)]
  rw [List.length_map, List.getD_eq_getElem?_getD, List.getD_eq_getElem?_getD, List.getElem?_map]
  rcases (l.insertionSort (· ≤ ·))[(l.length - 1) / 2]? with _ | v
  · simp
  · rfl

theorem Units.sigmas_unit {u : K} (hu : 0 < u) {sqrt : K → K} (hq : RootOfUnit sqrt u) (pow2 : Nat → K) (eps : K) (X : List (Fin d → K)) :
    DL.defaultSigmas sqrt pow2 (u * eps) (X.map (inUnit u)) = (DL.defaultSigmas sqrt pow2 eps X).map (fun v => u * v) := by
  have h : DL.pairDists sqrt (X.map (inUnit u)) = (DL.pairDists sqrt X).map (fun v => u * v) := by
    simp [DL.pairDists, List.flatMap_map, List.map_flatMap, Function.comp_def, dist_unit hq]
  simp only [DL.defaultSigmas, h, median_unit hu, List.map_map, Function.comp_def]
  refine List.map_congr_left fun i _ => ?_
  ring

/-- C149 (losses of distances). For features in another unit: the loss of DAN is the same when the bandwidths are given in the new unit, and with
default bandwidths when the number added to the median is given in the new unit; the loss of DeepJDOT is the same when `reg_dist` is divided by the
square of the factor; the clusters that CAN gives the target samples are the same when the lower bound of the norms is given in the new unit. -/
theorem C149_deep_losses {u : K} (hu : 0 < u) (sqrt ex : K → K) (hq : RootOfUnit sqrt u) :
    (∀ pow2 eps sigmas (Xs Xt : List (Fin d → K)),
      DL.dan sqrt ex pow2 (u * eps) (sigmas.map (List.map (fun v => u * v))) (Xs.map (inUnit u)) (Xt.map (inUnit u)) =
        DL.dan sqrt ex pow2 eps sigmas Xs Xt) ∧
    (∀ (Y : Type) (ce : (Fin c → K) → Y → K) emd2 regDist regCl (ys : List Y) Yt (Xs Xt : List (Fin d → K)) ws wt,
      DL.deepjdot sqrt ce emd2 (regDist / (u * u)) regCl ys Yt (Xs.map (inUnit u)) (Xt.map (inUnit u)) ws wt =
        DL.deepjdot sqrt ce emd2 regDist regCl ys Yt Xs Xt ws wt) ∧
    ∀ e (centers X : List (Fin d → K)), DL.kmPredict sqrt (u * e) (centers.map (inUnit u)) (X.map (inUnit u)) = DL.kmPredict sqrt e centers X := by
  have hd := Units.dist_unit (d := d) hq
  have hu0 : u ≠ 0 := hu.ne'
  refine ⟨?_, ?_, ?_⟩
  · intro pow2 eps sigmas Xs Xt
    have hk : ∀ sg (x y : Fin d → K), DL.kernel sqrt ex (sg.map (fun v => u * v)) (inUnit u x) (inUnit u y) = DL.kernel sqrt ex sg x y := by
      intro sg x y
      simp only [DL.kernel, hd, List.map_map, Function.comp_def]
      congr 1
      refine List.map_congr_left fun s _ => ?_
      congr 2
      rw [one_div, one_div, mul_inv]
      field_simp
    have hs : (sigmas.map (List.map (fun v => u * v))).getD (DL.defaultSigmas sqrt pow2 (u * eps) (Xs.map (inUnit u))) =
        (sigmas.getD (DL.defaultSigmas sqrt pow2 eps Xs)).map (fun v => u * v) := by
      cases sigmas with
      | none => exact Units.sigmas_unit hu hq pow2 eps Xs
      | some s => rfl
    have h0 : ∀ l : List K, (0 : K) ∈ l.map (fun v => u * v) ↔ (0 : K) ∈ l := by
      intro l; simp [hu0]
    simp only [DL.dan, hs, h0, DL.mmd, DL.meanKernel, List.map_eq_nil_iff, List.map_map, Function.comp_def, hk, List.length_map]
  · intro Y ce emd2 regDist regCl ys Yt Xs Xt ws wt
    have hM : DL.jdotCost sqrt ce (regDist / (u * u)) regCl ys Yt (Xs.map (inUnit u)) (Xt.map (inUnit u)) =
        DL.jdotCost sqrt ce regDist regCl ys Yt Xs Xt := by
      have e : ∀ x y : Fin d → K, regDist / (u * u) * (u * DL.dist sqrt x y) ^ 2 = regDist * DL.dist sqrt x y ^ 2 := by
        intro x y; field_simp
      simp only [DL.jdotCost, List.length_map, List.zipWith_map_left, hd, e]
    have hw : ∀ w (X : List (Fin d → K)), DL.jdotWeights w (X.map (inUnit u)) = DL.jdotWeights w X := by
      intro w X; simp only [DL.jdotWeights, List.map_eq_nil_iff, List.length_map]
    simp only [DL.deepjdot, hM, hw]
  · intro e centers X
    have hn : ∀ x : Fin d → K, sqrt (∑ j, inUnit u x j ^ 2) = u * sqrt (∑ j, x j ^ 2) := by
      intro x
      rw [← hq]
      congr 1
      rw [Finset.mul_sum]
      exact Finset.sum_congr rfl fun i _ => by simp only [inUnit]; ring
    have hcos : ∀ x y : Fin d → K, DL.cosine sqrt (u * e) (inUnit u x) (inUnit u y) = DL.cosine sqrt e x y := by
      intro x y
      simp only [DL.cosine, hn, ← mul_max_of_nonneg _ _ hu.le]
      rw [show (∑ j, inUnit u x j * inUnit u y j) = u * u * ∑ j, x j * y j from by
        rw [Finset.mul_sum]; exact Finset.sum_congr rfl fun i _ => by simp only [inUnit]; ring]
      rw [show ∀ a b : K, u * a * (u * b) = u * u * (a * b) from fun a b => by ring]
      exact mul_div_mul_left _ _ (mul_ne_zero hu0 hu0)
    have hc : ∀ x, DL.dissimRow sqrt (u * e) (centers.map (inUnit u)) (inUnit u x) = DL.dissimRow sqrt e centers x := by
      intro x; simp only [DL.dissimRow, List.map_map, Function.comp_def, hcos]
    simp only [DL.kmPredict, List.mapM_map, Function.comp_def, hc]

end Deep

section Kliep
variable {K : Type} [Field K] [LinearOrder K] {d : Nat}
open RW

/-- C149 (KLIEP). `KLIEPReweightAdapter` with a number or a list of numbers as `gamma`: samples in another unit, with every number divided by the
square of the factor, give the corresponding choice of `gamma`, the same coefficients at the corresponding centers and the same weights of all samples,
or the same exception. (With `gamma='scale'` the numbers follow the unit by themselves: `C123_units`.) -/
theorem C149_kliep (E : KliepEnv K) (folds : Nat → Py (List (List Nat × List Nat))) {c : K} (hc : c ≠ 0) (X : List (Fin d → K)) (sd : SDArg)
    (gamma gamma' : GammaParam K)
    (hg : (∃ v, gamma = .one (.num v) ∧ gamma' = .one (.num (v / (c * c)))) ∨
      ∃ vs : List K, gamma = .many (vs.map .num) ∧ gamma' = .many (vs.map (fun v => .num (v / (c * c))))) :
    RelPy (fun F F' => (∃ v, F.gamma = .num v ∧ F'.gamma = .num (v / (c * c))) ∧ F'.alpha = F.alpha ∧ F'.centers = F.centers.map (inUnit c) ∧
        ∀ Z sdz, weightsObj E F' (Z.map (inUnit c)) sdz = weightsObj E F Z sdz)
      (fitObj E folds gamma X sd).2 (fitObj E folds gamma' (X.map (inUnit c)) sd).2 := by
  have hk : ∀ v, KeepsKernel (inUnit c) (rbf (d := d) E.exp v) (rbf E.exp (v / (c * c))) := fun v => (C149_distances E.exp hc v).2
  have hw : ∀ v (al : Option (List K)) (ce : List (Fin d → K)) Z sdz,
      weightsObj E { gamma := .num (v / (c * c)), alpha := al, centers := ce.map (inUnit c) } (Z.map (inUnit c)) sdz =
        weightsObj E { gamma := .num v, alpha := al, centers := ce } Z sdz := by
    intro v al ce Z sdz
    exact kliepWeights_map (hk v) al ce Z sdz
  have hfold : ∀ place v (Xs Xt : List (Fin d → K)) fold, foldLik E place (.num (v / (c * c))) (Xs.map (inUnit c)) (Xt.map (inUnit c)) fold =
      foldLik E place (.num v) Xs Xt fold := by
    intro place v Xs Xt fold
    unfold foldLik
    simp only [RW.take_map]
    rcases Np.take Xt fold.1 with e | tr
    · rfl
    · simp only [Except.map, bind, Except.bind, weightsOpt_map E _ (hk v)]
      rcases weightsOpt E (some place) (.num v) Xs tr with e | ⟨a, ce⟩
      · rfl
      · simp only
        rcases Np.take Xt fold.2 with e | te
        · rfl
        · simp only [gammaNum, List.map_eq_nil_iff, List.map_map, Function.comp_def, rowDot_map (hk v)]
  have hlik : ∀ (vs : List K) (Xs Xt : List (Fin d → K)),
      logLiks E folds (vs.map (fun v => .num (v / (c * c)))) (Xs.map (inUnit c)) (Xt.map (inUnit c)) = logLiks E folds (vs.map .num) Xs Xt := by
    intro vs Xs Xt
    simp only [logLiks, List.zipIdx_map, List.mapM_map, List.length_map, Function.comp_def, Prod.map, id, hfold]
  have hcv : ∀ (vs : List K) (Xs Xt : List (Fin d → K)),
      RelPy (fun g g' => ∃ v, g = .num v ∧ g' = .num (v / (c * c))) (likelihoodCV E folds (vs.map .num) Xs Xt)
        (likelihoodCV E folds (vs.map (fun v => .num (v / (c * c)))) (Xs.map (inUnit c)) (Xt.map (inUnit c))) := by
    intro vs Xs Xt
    unfold likelihoodCV
    rw [hlik]
    rcases logLiks E folds (vs.map .num) Xs Xt with e | ls
    · exact rfl
    · simp only [bind, Except.bind]
      rcases argmaxNan ls with e | i
      · exact rfl
      · simp only [List.getElem?_map]
        rcases vs[i]? with _ | v
        · exact rfl
        · exact ⟨v, rfl, rfl⟩
  unfold fitObj
  rw [check_map]
  rcases checkXDomain X sd { allowMultiSource := true, allowMultiTarget := true } with e | ⟨X1, sd1⟩
  · exact rfl
  · simp only [Except.map, splitX_map]
    rcases splitX X1 sd1 with e | ⟨Xs, Xt⟩
    · exact rfl
    · rcases hg with ⟨v, rfl, rfl⟩ | ⟨vs, rfl, rfl⟩
      · simp only [autoScale, weightsOpt_map E none (hk v), bind, Except.bind]
        rcases weightsOpt E none (.num v) Xs Xt with e | ⟨a, ce⟩
        · exact rfl
        · exact ⟨⟨v, rfl, rfl⟩, rfl, rfl, hw v a ce⟩
      · simp only [List.map_map, Function.comp_def, autoScale]
        rcases Sides.py_cases (hcv vs Xs Xt) with ⟨e, h1, h2⟩ | ⟨g, g', h1, h2, v, rfl, rfl⟩
        · simp only [bind, Except.bind]
          rw [show (List.map (fun x => Gamma.num x) vs) = vs.map .num from rfl, h1, h2]; exact rfl
        · simp only [bind, Except.bind]
          rw [show (List.map (fun x => Gamma.num x) vs) = vs.map .num from rfl, h1, h2]
          simp only [weightsOpt_map E none (hk v)]
          rcases weightsOpt E none (.num v) Xs Xt with e | ⟨a, ce⟩
          · exact rfl
          · exact ⟨⟨v, rfl, rfl⟩, rfl, rfl, hw v a ce⟩

end Kliep

/-- A stand-in for the exponential on negative numbers, with rational values. -/
def unitExp (x : ℚ) : ℚ := 1 / (1 - x)

/-- Settings of KLIEP for the examples: the first target samples are the centers. -/
def unitKliep : RW.KliepEnv ℚ := { exp := unitExp, log := fun x => x - 1, eps := 1 / 1000, tol := 1 / 1000, maxIter := 2, draw := fun _ n => List.range n }

/-- C149, negative part (KLIEP). With `gamma='auto'` (one over the number of features) or a fixed number, measuring the samples in another unit
changes the weights. -/
theorem C149_kliep_counterexample :
    ∃ (E : RW.KliepEnv ℚ) (X : List (Fin 1 → ℚ)) (sd : List Int) (c : ℚ), 0 < c ∧
      ((RW.fitObj E (RW.kfold 2) (.one .auto) X (.vec sd)).2.bind (fun F => RW.weightsObj E F X (.vec sd))) ≠
        ((RW.fitObj E (RW.kfold 2) (.one .auto) (X.map (inUnit c)) (.vec sd)).2.bind
          (fun F => RW.weightsObj E F (X.map (inUnit c)) (.vec sd))) := by
  refine ⟨unitKliep, [![0], ![2], ![1], ![0]], [1, 1, -2, -2], 2, by norm_num, ?_⟩
  decide +kernel

/-- C149, negative part (DAN). The default bandwidths are the median distance plus `1e-7`, a number without a unit, so the default loss depends on the
unit: here two samples per side, in the original unit and in a unit ten million times larger. -/
theorem C149_dan_counterexample :
    ∃ (Xs Xt : List (Fin 1 → ℚ)) (u : ℚ), 0 < u ∧
      DL.dan rotRoot unitExp (fun _ => 1) (1 / 10 ^ 7) none (Xs.map (inUnit u)) (Xt.map (inUnit u)) ≠
        DL.dan rotRoot unitExp (fun _ => 1) (1 / 10 ^ 7) none Xs Xt := by
  refine ⟨[![0], ![2]], [![1], ![4]], 1 / 10 ^ 7, by norm_num, ?_⟩
  decide +kernel

/-- C149, negative part (one feature). When only one feature is measured in another unit, the transport adapters move source samples to other target
samples. -/
theorem C149_one_feature_counterexample :
    ∃ (D : Fin 2 → ℚ) (X : NArr (Fin 2 → ℚ)) (sd : List Int), (∀ j, 0 < D j) ∧
      (otFitTransform rotOt (mapArr (turn (Matrix.diagonal D)) X) none (.vec sd)).map (fun a => a.rows.map (fun r => (r 0, r 1))) ≠
        (otFitTransform rotOt X none (.vec sd)).map (fun a => (a.rows.map (turn (Matrix.diagonal D))).map (fun r => (r 0, r 1))) := by
  refine ⟨![1, 10], ⟨.float, [2], [![0, 0], ![3, 0], ![0, 1]]⟩, [1, -2, -2], by decide +kernel, ?_⟩
  decide +kernel

/-- For real numbers, the square root and a positive factor are as `RootOfUnit` says. -/
theorem Units.real_root {c : ℝ} (hc : 0 ≤ c) : RootOfUnit Real.sqrt c := by
  intro a
  rw [Real.sqrt_mul (mul_self_nonneg c), Real.sqrt_mul_self hc]

/-- There is an eigenvalue routine for real symmetric matrices that does what is assumed of `eigh`. -/
theorem Units.real_eigh (d : Nat) : ∃ eigh : Matrix (Fin d) (Fin d) ℝ → (Fin d → ℝ) × Matrix (Fin d) (Fin d) ℝ,
    ∀ C : Matrix (Fin d) (Fin d) ℝ, C.transpose = C → Diagonalises eigh C := by
  classical
  have h : ∀ C : Matrix (Fin d) (Fin d) ℝ, ∃ lV : (Fin d → ℝ) × Matrix (Fin d) (Fin d) ℝ,
      C.transpose = C → lV.2 * lV.2.transpose = 1 ∧ C = lV.2 * Matrix.diagonal lV.1 * lV.2.transpose := by
    intro C
    by_cases hC : C.transpose = C
    · have hh : C.IsHermitian := by rw [Matrix.IsHermitian, Matrix.conjTranspose_eq_transpose_of_trivial]; exact hC
      have hs : star (hh.eigenvectorUnitary : Matrix (Fin d) (Fin d) ℝ) = (hh.eigenvectorUnitary : Matrix (Fin d) (Fin d) ℝ).transpose := by
        rw [Matrix.star_eq_conjTranspose, Matrix.conjTranspose_eq_transpose_of_trivial]
      refine ⟨(hh.eigenvalues, hh.eigenvectorUnitary), fun _ => ⟨?_, ?_⟩⟩
      · have : (hh.eigenvectorUnitary : Matrix (Fin d) (Fin d) ℝ) * star (hh.eigenvectorUnitary : Matrix (Fin d) (Fin d) ℝ) = 1 :=
          Unitary.coe_mul_star_self hh.eigenvectorUnitary
        rw [hs] at this; exact this
      · have := hh.spectral_theorem
        rw [Unitary.conjStarAlgAut_apply, hs] at this
        exact this
    · exact ⟨(0, 0), fun h => absurd h hC⟩
  choose f hf using h
  exact ⟨f, fun C hC => hf C hC⟩

theorem Units.empCov_symm {K : Type} [Field K] {d : Nat} (ac : Bool) (X : List (Fin d → K)) : (empCov ac X).transpose = empCov ac X := by
  ext i j
  simp only [Matrix.transpose_apply, empCov, Matrix.of_apply]
  congr 2
  exact List.map_congr_left fun x _ => mul_comm _ _

/-- C149 (CORAL, real numbers). With real numbers, the square root and a correct eigenvalue routine, all that `C149_coral` and `C148_coral` assume holds
for every data set, without shrinkage: for every positive factor and every change of orthonormal coordinates. -/
theorem C149_coral_real {d : Nat} (eigh : Matrix (Fin d) (Fin d) ℝ → (Fin d → ℝ) × Matrix (Fin d) (Fin d) ℝ)
    (heigh : ∀ C : Matrix (Fin d) (Fin d) ℝ, C.transpose = C → Diagonalises eigh C) (ac : Bool) (X : NArr (Fin d → ℝ)) (sd : List Int) :
    (∀ c : ℝ, 0 < c → coralFitTransform (estimateCov (empCov ac) none ac) (sqrtm Real.sqrt eigh) (invsqrtm Real.sqrt eigh) ac (mapArr (inUnit c) X)
        (.vec sd) =
      (coralFitTransform (estimateCov (empCov ac) none ac) (sqrtm Real.sqrt eigh) (invsqrtm Real.sqrt eigh) ac X (.vec sd)).map (mapArr (inUnit c))) ∧
    ∀ Q : Matrix (Fin d) (Fin d) ℝ, IsTurn Q →
      coralFitTransform (estimateCov (empCov ac) none ac) (sqrtm Real.sqrt eigh) (invsqrtm Real.sqrt eigh) ac (mapArr (turn Q) X) (.vec sd) =
      (coralFitTransform (estimateCov (empCov ac) none ac) (sqrtm Real.sqrt eigh) (invsqrtm Real.sqrt eigh) ac X (.vec sd)).map (mapArr (turn Q)) := by
  have hs : ∀ (c : ℝ) (S : List (Fin d → ℝ)), ((c * c) • estimateCov (empCov ac) none ac S).transpose = (c * c) • estimateCov (empCov ac) none ac S := by
    intro c S
    rw [Matrix.transpose_smul]
    exact congrArg _ (Units.empCov_symm ac S)
  have hq : ∀ (Q : Matrix (Fin d) (Fin d) ℝ) (S : List (Fin d → ℝ)), (Q.transpose * estimateCov (empCov ac) none ac S * Q).transpose =
      Q.transpose * estimateCov (empCov ac) none ac S * Q := by
    intro Q S
    rw [Matrix.transpose_mul, Matrix.transpose_mul, Matrix.transpose_transpose,
      show (estimateCov (empCov ac) none ac S).transpose = estimateCov (empCov ac) none ac S from Units.empCov_symm ac S, Matrix.mul_assoc]
  exact ⟨fun c hc => (C149_coral hc.ne' Real.sqrt (Units.real_root hc.le) eigh (empCov ac) (fun X => Units.empCov_unit c ac X) none ac X sd
      (heigh _ (Units.empCov_symm ac _)) (heigh _ (hs c _)) (heigh _ (Units.empCov_symm ac _)) (heigh _ (hs c _))).2,
    fun Q h => (C148_coral h Real.sqrt eigh (empCov ac) (fun X => Rotation.empCov_turn Q ac X) none ac X sd
      (heigh _ (Units.empCov_symm ac _)) (heigh _ (hq Q _)) (heigh _ (Units.empCov_symm ac _)) (heigh _ (hq Q _))).2⟩

/-- There are such routines, so the theorem is about something. -/
example (X : NArr (Fin 2 → ℝ)) (sd : List Int) : ∃ eigh : Matrix (Fin 2) (Fin 2) ℝ → (Fin 2 → ℝ) × Matrix (Fin 2) (Fin 2) ℝ,
    coralFitTransform (estimateCov (empCov false) none false) (sqrtm Real.sqrt eigh) (invsqrtm Real.sqrt eigh) false (mapArr (inUnit 100) X) (.vec sd) =
      (coralFitTransform (estimateCov (empCov false) none false) (sqrtm Real.sqrt eigh) (invsqrtm Real.sqrt eigh) false X (.vec sd)).map
        (mapArr (inUnit 100)) := by
  obtain ⟨eigh, h⟩ := Units.real_eigh 2
  exact ⟨eigh, (C149_coral_real eigh h false X sd).1 100 (by norm_num)⟩

/-- The example of C148 in another unit: the variances 4 and 9 become 16 and 36, the objective -4 becomes -16, the point 3 of the subspace the point 6,
and the loss of deep CORAL is multiplied by 16. -/
example : PcaOf ((sourceRows rotSd rotX.rows).map (inUnit 2)) (⟨![0, 0], !![0, 1]⟩ : Subsp.Pca ℚ 2 1) ![16] ∧
    Subsp.tslPca (0 : ℚ) !![0; 1] ((sourceRows rotSd rotX.rows).map (inUnit 2)) = -16 ∧
    (Subsp.saTransform (⟨![0, 0], !![0, 1]⟩ : Subsp.Pca ℚ 2 1) ⟨![0, 0], !![1, 0]⟩ (mapArr (inUnit 2) rotX) (.vec rotSd) true).map
      (fun a => (a.rows.take 2).map (fun r => r 0)) = .ok [0, 6] ∧
    DL.deepcoral false ((sourceRows rotSd rotX.rows).map (inUnit 2)) ((targetRows rotSd rotX.rows).map (inUnit 2)) = .ok (some (16 * (73 / 9 : ℚ))) := by
  unfold PcaOf; decide +kernel

/-- The hypotheses of `C149_mmdls`, with an optimiser that keeps the scales of the features and shifts by the first target sample. -/
example (F : MmdLs ℚ 2 Int) (Z : NArr (Fin 2 → ℚ)) (yz : Option (List Int)) (sdz : SDArg) (allow : Bool) :
    mmdlsTransform sqDistance (unitLs 100 F) (mapArr (inUnit 100) Z) yz sdz allow =
      (mmdlsTransform sqDistance F Z yz sdz allow).map (mapArr (inUnit 100)) :=
  (C149_mmdls (by norm_num) (by norm_num) sqDistance (C149_distances id (by norm_num) 0).1 (fun S T _ => ([fun _ => 1], T.take 1))
    (fun S T y => by simp) [] [] .none).2 F Z yz sdz allow

/-- `C149_deep_losses` for real numbers: the square root is a root as assumed. -/
example (ex : ℝ → ℝ) (pow2 : Nat → ℝ) (Xs Xt : List (Fin 2 → ℝ)) :
    DL.dan Real.sqrt ex pow2 (100 * (1 / 10 ^ 7)) none (Xs.map (inUnit 100)) (Xt.map (inUnit 100)) = DL.dan Real.sqrt ex pow2 (1 / 10 ^ 7) none Xs Xt :=
  (C149_deep_losses (c := 1) (by norm_num) Real.sqrt ex (Units.real_root (by norm_num))).1 pow2 _ none Xs Xt

/-- The hypotheses of `C149_kliep`: two candidates, and the same candidates in another unit. -/
example (X : List (Fin 2 → ℚ)) (sd : SDArg) :=
  C149_kliep unitKliep (RW.kfold 2) (c := 100) (by norm_num) X sd (.many ([1, 4].map .num)) _ (.inr ⟨[1, 4], rfl, rfl⟩)

end Skada

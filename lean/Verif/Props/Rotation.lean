/-
Property C148: other coordinates give the same answers in other coordinates.
-/
import Verif.Lemmas.Rotation
import Verif.Model.Subspace
import Verif.Props.Weights
import Verif.Props.DeepCdd

namespace Skada
open Np Spec Map Matrix

section Coral
variable {K : Type} [Field K] {d : Nat} {Q : Matrix (Fin d) (Fin d) K}

/-- C148 (square roots). The square root and the inverse square root of a covariance matrix, in other coordinates, are the roots of the original
one in these coordinates, whichever eigenvectors the eigenvalue routine returns, in whichever order and with whichever signs, also for repeated
eigenvalues. -/
theorem C148_roots (h : IsTurn Q) (sqrt : K → K) (eigh : Matrix (Fin d) (Fin d) K → (Fin d → K) × Matrix (Fin d) (Fin d) K)
    (C : Matrix (Fin d) (Fin d) K) (h1 : Diagonalises eigh C) (h2 : Diagonalises eigh (Q.transpose * C * Q)) :
    sqrtm sqrt eigh (Q.transpose * C * Q) = Q.transpose * sqrtm sqrt eigh C * Q ∧
      invsqrtm sqrt eigh (Q.transpose * C * Q) = Q.transpose * invsqrtm sqrt eigh C * Q := by
  have e1 : ∀ C, sqrtm sqrt eigh C = (eigh C).2 * Matrix.diagonal (fun i => sqrt ((eigh C).1 i)) * (eigh C).2.transpose := by
    intro C
    refine congrArg (· * _) ?_
    ext i j; simp [Matrix.mul_diagonal]
  have e2 : ∀ C, invsqrtm sqrt eigh C = (eigh C).2 * Matrix.diagonal (fun i => 1 / sqrt ((eigh C).1 i)) * (eigh C).2.transpose := by
    intro C
    refine congrArg (· * _) ?_
    ext i j; simp [Matrix.mul_diagonal, div_eq_mul_inv]
  constructor
  · rw [e1, e1]; exact Rotation.spectral_turn h h1 h2 sqrt
  · rw [e2, e2]; exact Rotation.spectral_turn h h1 h2 (fun a => 1 / sqrt a)

theorem Rotation.coralTransform_turn (h : IsTurn Q) (F : Coral K d) (ac : Bool) (Z : NArr (Fin d → K)) (sd : SDArg) (allow : Bool) :
    coralTransform ⟨turn Q F.meanSource, turn Q F.meanTarget, Q.transpose * F.covSourceInvSqrt * Q, Q.transpose * F.covTargetSqrt * Q⟩ ac
        (mapArr (turn Q) Z) sd allow =
      (coralTransform F ac Z sd allow).map (mapArr (turn Q)) := by
  have hv : ∀ (M : Matrix (Fin d) (Fin d) K) (x : Fin d → K), turn Q x ᵥ* (Q.transpose * M * Q) = turn Q (x ᵥ* M) := by
    intro M x
    have h' : Q * Q.transpose = 1 := h
    simp only [turn, Matrix.vecMul_vecMul]
    rw [← Matrix.mul_assoc, ← Matrix.mul_assoc, h', Matrix.one_mul]
  unfold coralTransform
  have hch : checkXDomain (mapArr (turn Q) Z).rows sd { allowSource := allow } =
      (checkXDomain Z.rows sd { allowSource := allow }).map (fun r => (r.1.map (turn Q), r.2)) := RW.check_map _ _ _ _
  rw [hch]
  rcases checkXDomain Z.rows sd { allowSource := allow } with e | ⟨R, sd1⟩
  · rfl
  · simp only [Except.map, bind, Except.bind]
    have hsp : splitN ({ mapArr (turn Q) Z with rows := R.map (turn Q) }) sd1 =
        (splitN { Z with rows := R } sd1).map (fun r => (mapArr (turn Q) r.1, mapArr (turn Q) r.2)) :=
      Rotation.splitN_turn (turn Q) { Z with rows := R } sd1
    rw [hsp]
    rcases splitN { Z with rows := R } sd1 with e | ⟨S, T⟩
    · rfl
    · simp only [Except.map]
      refine Eq.trans ?_ (Rotation.mergeN_turn (turn Q) (Rotation.turn_zero Q) _ _ sd1)
      have hl : ∀ a : NArr (Fin d → K), (mapArr (turn Q) a).rows.length = a.rows.length := fun a => by simp [mapArr]
      rw [hl, hl]
      congr 1
      · split
        · cases ac <;> simp [mapArr, Function.comp_def, ← Rotation.turn_sub, hv]
        · rfl
      · split
        · simp [mapArr, Function.comp_def, ← Rotation.turn_sub]
        · rfl

/-- C148 (CORAL). In other coordinates, `CORALAdapter` is the same adapter in other coordinates. With the empirical covariance or a shrunk one (or
another estimator that turns with the samples), fitting gives the turned means and the turned matrices, transforming turned samples gives the
turned result, for the samples of the fit and for any others, or the same exception. Nothing is assumed about which eigenvectors `eigh` returns. -/
theorem C148_coral (h : IsTurn Q) (sqrt : K → K) (eigh : Matrix (Fin d) (Fin d) K → (Fin d → K) × Matrix (Fin d) (Fin d) K)
    (auto : List (Fin d → K) → Matrix (Fin d) (Fin d) K) (hauto : ∀ X, auto (X.map (turn Q)) = Q.transpose * auto X * Q)
    (shrinkage : Option (Option K)) (ac : Bool) (X : NArr (Fin d → K)) (sd : List Int)
    (hs : Diagonalises eigh (estimateCov auto shrinkage ac (sourceRows sd X.rows)))
    (hs' : Diagonalises eigh (Q.transpose * estimateCov auto shrinkage ac (sourceRows sd X.rows) * Q))
    (ht : Diagonalises eigh (estimateCov auto shrinkage ac (targetRows sd X.rows)))
    (ht' : Diagonalises eigh (Q.transpose * estimateCov auto shrinkage ac (targetRows sd X.rows) * Q)) :
    RelPy (fun F F' => F'.meanSource = turn Q F.meanSource ∧ F'.meanTarget = turn Q F.meanTarget ∧
          F'.covSourceInvSqrt = Q.transpose * F.covSourceInvSqrt * Q ∧ F'.covTargetSqrt = Q.transpose * F.covTargetSqrt * Q ∧
          ∀ ac Z sdz allow, coralTransform F' ac (mapArr (turn Q) Z) sdz allow = (coralTransform F ac Z sdz allow).map (mapArr (turn Q)))
        (coralFit (estimateCov auto shrinkage ac) (sqrtm sqrt eigh) (invsqrtm sqrt eigh) X (.vec sd))
        (coralFit (estimateCov auto shrinkage ac) (sqrtm sqrt eigh) (invsqrtm sqrt eigh) (mapArr (turn Q) X) (.vec sd)) ∧
      coralFitTransform (estimateCov auto shrinkage ac) (sqrtm sqrt eigh) (invsqrtm sqrt eigh) ac (mapArr (turn Q) X) (.vec sd) =
        (coralFitTransform (estimateCov auto shrinkage ac) (sqrtm sqrt eigh) (invsqrtm sqrt eigh) ac X (.vec sd)).map (mapArr (turn Q)) := by
  have hfit : RelPy (fun F F' => F' = (⟨turn Q F.meanSource, turn Q F.meanTarget, Q.transpose * F.covSourceInvSqrt * Q,
        Q.transpose * F.covTargetSqrt * Q⟩ : Coral K d))
      (coralFit (estimateCov auto shrinkage ac) (sqrtm sqrt eigh) (invsqrtm sqrt eigh) X (.vec sd))
      (coralFit (estimateCov auto shrinkage ac) (sqrtm sqrt eigh) (invsqrtm sqrt eigh) (mapArr (turn Q) X) (.vec sd)) := by
    unfold coralFit
    have hch : checkXDomain (mapArr (turn Q) X).rows (.vec sd) {} =
        (checkXDomain X.rows (.vec sd) {}).map (fun r => (r.1.map (turn Q), r.2)) := RW.check_map _ _ _ _
    rw [hch]
    rcases hc : checkXDomain X.rows (.vec sd) {} with e | ⟨R, sd1⟩
    · exact rfl
    · obtain rfl := RW.check_same hc
      obtain rfl := Weights.checkX_vec hc
      simp only [Except.map, bind, Except.bind]
      have hsp : splitN ({ mapArr (turn Q) X with rows := X.rows.map (turn Q) }) sd1 =
          (splitN X sd1).map (fun r => (mapArr (turn Q) r.1, mapArr (turn Q) r.2)) := Rotation.splitN_turn (turn Q) X sd1
      rw [hsp]
      have hX : X.rows ≠ [] := by
        intro e; rw [e] at hc; cases hc
      have hlen : sd1.length = X.rows.length := by
        by_contra hne
        have : checkXDomain X.rows (.vec sd1) {} = .error .valueError := by
          unfold checkXDomain
          rw [if_neg hX]
          simp only
          rcases he : extractSourceIndices sd1 with e | m
          · simp only [extractSourceIndices] at he
            split at he <;> cases he
            rfl
          · simp only
            rw [if_pos (Ne.symm hne)]
        rw [this] at hc; cases hc
      have hs1 : splitN X sd1 = _ := splitN_ok (RW.sd_ne hX hlen) hlen
      rw [show splitN { X with rows := X.rows } sd1 = splitN X sd1 from rfl, hs1]
      simp only [Except.map, mapArr, List.length_map]
      split
      · exact rfl
      · simp only [pure, Except.pure]
        show _ = _
        simp only [Rotation.colMean_turn, Rotation.estimateCov_turn h auto hauto]
        rw [(C148_roots h sqrt eigh _ hs hs').2, (C148_roots h sqrt eigh _ ht ht').1]
  constructor
  · rcases Sides.py_cases hfit with ⟨e, h1, h2⟩ | ⟨F, F', h1, h2, rfl⟩
    · rw [h1, h2]; exact rfl
    · rw [h1, h2]
      exact ⟨rfl, rfl, rfl, rfl, fun ac Z sdz allow => Rotation.coralTransform_turn h F ac Z sdz allow⟩
  · unfold coralFitTransform
    rcases Sides.py_cases hfit with ⟨e, h1, h2⟩ | ⟨F, F', h1, h2, rfl⟩
    · rw [h1, h2]; rfl
    · rw [h1, h2]; exact Rotation.coralTransform_turn h F ac X (.vec sd) true

end Coral

/-- A rotation with rational entries. -/
def rotQ : Matrix (Fin 2) (Fin 2) ℚ := !![3/5, 4/5; -4/5, 3/5]

theorem rotQ_ok : IsTurn rotQ := by unfold IsTurn; decide +kernel

/-- An eigenvalue routine for the matrices of the example. -/
def rotEigh (M : Matrix (Fin 2) (Fin 2) ℚ) : (Fin 2 → ℚ) × Matrix (Fin 2) (Fin 2) ℚ :=
  if M 0 1 = 0 then (fun i => M i i, 1) else (fun i => (rotQ * M * rotQ.transpose) i i, rotQ.transpose)

/-- Square roots of the numbers of the example. -/
def rotSqrt (a : ℚ) : ℚ := if a = 4 then 2 else if a = 9 then 3 else a

/-- Four source samples and four target samples around the origin, with different spreads. -/
def rotX : NArr (Fin 2 → ℚ) :=
  ⟨.float, [2], [![1, 2], ![3, 1], ![-1, -2], ![-3, -1], ![1, -2], ![3, -1], ![-1, 2], ![-3, 1]]⟩

def rotSd : List Int := [1, -2, 1, -2, 1, -2, 1, -2]

/-- The hypotheses of `C148_coral` hold for the rotation and the samples of the example, and the adapter does something: it changes the spreads. -/
example :
    coralFitTransform (estimateCov (empCov true) none false) (sqrtm rotSqrt rotEigh) (invsqrtm rotSqrt rotEigh) false
        (mapArr (turn rotQ) rotX) (.vec rotSd) =
      (coralFitTransform (estimateCov (empCov true) none false) (sqrtm rotSqrt rotEigh) (invsqrtm rotSqrt rotEigh) false rotX (.vec rotSd)).map
        (mapArr (turn rotQ)) :=
  (C148_coral rotQ_ok rotSqrt rotEigh (empCov true) (fun X => Rotation.empCov_turn rotQ true X) none false rotX rotSd
    (by unfold Diagonalises; decide +kernel) (by unfold Diagonalises; decide +kernel) (by unfold Diagonalises; decide +kernel)
    (by unfold Diagonalises; decide +kernel)).2

example : (coralFitTransform (estimateCov (empCov true) none false) (sqrtm rotSqrt rotEigh) (invsqrtm rotSqrt rotEigh) false rotX (.vec rotSd)).map
    (fun a => (a.rows.take 2).map (fun r => (r 0, r 1))) = .ok [(3, 1), (3, 1)] := by decide +kernel

section Transport
variable {K : Type} [Field K] {d : Nat} {β : Type} {Q : Matrix (Fin d) (Fin d) K}

theorem Rotation.bary_turn (Q : Matrix (Fin d) (Fin d) K) (solve : ∀ n m : Nat, (Fin n → Fin m → K) → Fin n → Fin m → K) {n m n' m' : Nat}
    (hn : n' = n) (hm : m' = m) (C : Fin n → Fin m → K) (C' : Fin n' → Fin m' → K) (hC : ∀ i j, C' i j = C (i.cast hn) (j.cast hm))
    (t : Fin m → Fin d → K) (t' : Fin m' → Fin d → K) (ht : ∀ j, t' j = turn Q (t (j.cast hm))) :
    List.ofFn (fun i k => (∑ j, solve n' m' C' i j * t' j k) / ∑ j, solve n' m' C' i j) =
      (List.ofFn (fun i k => (∑ j, solve n m C i j * t j k) / ∑ j, solve n m C i j)).map (turn Q) := by
  subst hn hm
  have hC' : C' = C := by funext i j; exact hC i j
  have ht' : t' = fun j => turn Q (t j) := by funext j; exact ht j
  subst hC' ht'
  rw [List.map_ofFn]
  congr 1
  funext i k
  simp only [Function.comp_apply, turn, Matrix.vecMul, dotProduct, Finset.mul_sum, div_mul_eq_mul_div, Finset.sum_mul, Finset.sum_div]
  rw [Finset.sum_comm]
  refine Finset.sum_congr rfl fun l _ => Finset.sum_congr rfl fun j _ => ?_
  ring

/-- C148 (optimal transport mapping). When the plan is computed from the costs between source and target samples, and the cost keeps its values in
the new coordinates (any distance), the transport adapters move the turned source samples to the turned images, or raise the same exception. -/
theorem C148_transport (solve : ∀ n m : Nat, (Fin n → Fin m → K) → Fin n → Fin m → K) (c : (Fin d → K) → (Fin d → K) → K)
    (hc : KeepsKernel (turn Q) c c)
    (ot : NArr (Fin d → K) → Option (List β) → NArr (Fin d → K) → Option (List β) → Py (NArr (Fin d → K) → Py (NArr (Fin d → K))))
    (hot : ExactTransport (fun S T => solve S.length T.length (fun i j => c S[i] T[j])) ot)
    (X : NArr (Fin d → K)) (y : Option (List β)) (sd : List Int) :
    otFitTransform ot (mapArr (turn Q) X) y (.vec sd) = (otFitTransform ot X y (.vec sd)).map (mapArr (turn Q)) := by
  have hb : ∀ S T : List (Fin d → K),
      barycentric (S.map (turn Q)) (T.map (turn Q)) (solve (S.map (turn Q)).length (T.map (turn Q)).length
        (fun i j => c (S.map (turn Q))[i] (T.map (turn Q))[j])) =
      (barycentric S T (solve S.length T.length (fun i j => c S[i] T[j]))).map (turn Q) := by
    intro S T
    refine Rotation.bary_turn Q solve (List.length_map _) (List.length_map _) _ _ (fun i j => ?_) (fun j => T[j]) (fun j => (T.map (turn Q))[j])
      (fun j => ?_)
    · simpa using hc _ _
    · simp
  unfold otFitTransform otFit
  have hch : ∀ fl, checkXDomain (mapArr (turn Q) X).rows (.vec sd) fl =
      (checkXDomain X.rows (.vec sd) fl).map (fun r => (r.1.map (turn Q), r.2)) := fun fl => RW.check_map _ _ _ _
  rw [hch]
  rcases hk : checkXDomain X.rows (.vec sd) {} with e | ⟨R, sd1⟩
  · rfl
  · obtain rfl := RW.check_same hk
    obtain rfl := Weights.checkX_vec hk
    simp only [Except.map, bind, Except.bind]
    have hsp : splitN ({ mapArr (turn Q) X with rows := X.rows.map (turn Q) }) sd1 =
        (splitN X sd1).map (fun r => (mapArr (turn Q) r.1, mapArr (turn Q) r.2)) := Rotation.splitN_turn (turn Q) X sd1
    rw [hsp]
    rcases hsplit : splitN X sd1 with e | ⟨S, T⟩
    · rfl
    · simp only [Except.map]
      rcases splitY y sd1 with e | ⟨ys, yt⟩
      · rfl
      · simp only
        obtain ⟨F, hF, hFS⟩ := hot S ys T yt
        obtain ⟨F', hF', hFS'⟩ := hot (mapArr (turn Q) S) ys (mapArr (turn Q) T) yt
        simp only [hF, hF']
        unfold otTransform
        rw [hch]
        rcases hk2 : checkXDomain X.rows (.vec sd1) { allowSource := true } with e | ⟨R, sd2⟩
        · rfl
        · obtain rfl := RW.check_same hk2
          obtain rfl := Weights.checkX_vec hk2
          simp only [Except.map, bind, Except.bind]
          rw [show splitN ({ mapArr (turn Q) X with rows := X.rows.map (turn Q) }) sd2 =
            (splitN X sd2).map (fun r => (mapArr (turn Q) r.1, mapArr (turn Q) r.2)) from Rotation.splitN_turn (turn Q) X sd2, hsplit]
          simp only [Except.map]
          have hl : ∀ a : NArr (Fin d → K), (mapArr (turn Q) a).rows.length = a.rows.length := fun a => by simp [mapArr]
          rw [hl]
          split
          · rw [hFS, hFS']
            simp only
            refine Eq.trans ?_ (Rotation.mergeN_turn (turn Q) (Rotation.turn_zero Q) _ _ sd2)
            congr 1
            exact congrArg (fun r => (⟨.float, S.tail, r⟩ : NArr (Fin d → K))) (hb S.rows T.rows)
          · simp only [pure, Except.pure]
            exact Rotation.mergeN_turn (turn Q) (Rotation.turn_zero Q) _ _ sd2

/-- C148 (distances). Squared distances, the default cost of the transport adapters, keep their values: turning the samples is one of the changes
of coordinates of C139. -/
theorem C148_distances (h : IsTurn Q) : KeepsDistances (turn Q) := by
  intro x y
  have := Rotation.dot_turn h (x - y) (x - y)
  rw [Rotation.turn_sub] at this
  simpa [sqDistance, dotProduct, pow_two] using this

end Transport

/-- A transport that sends every source sample to its nearest target samples. -/
def rotSolve (n m : Nat) (C : Fin n → Fin m → ℚ) (i : Fin n) (j : Fin m) : ℚ := if ∀ l, C i j ≤ C i l then 1 else 0

def rotOt (S : NArr (Fin 2 → ℚ)) (_ : Option (List Int)) (T : NArr (Fin 2 → ℚ)) (_ : Option (List Int)) : Py (NArr (Fin 2 → ℚ) → Py (NArr (Fin 2 → ℚ))) :=
  .ok (fun Z => .ok ⟨.float, Z.tail, barycentric S.rows T.rows (rotSolve S.rows.length T.rows.length (fun i j => sqDistance S.rows[i] T.rows[j]))⟩)

example : otFitTransform rotOt (mapArr (turn rotQ) rotX) none (.vec rotSd) =
    (otFitTransform rotOt rotX none (.vec rotSd)).map (mapArr (turn rotQ)) :=
  C148_transport rotSolve sqDistance (C148_distances rotQ_ok) rotOt (fun _ _ _ _ => ⟨_, rfl, rfl⟩) rotX none rotSd

example : (otFitTransform rotOt rotX none (.vec rotSd)).map (fun a => (a.rows.take 2).map (fun r => (r 0, r 1))) = .ok [(3, 1), (3, 1)] := by
  decide +kernel

section Monge
variable {K : Type} [Field K] {d : Nat} {Q : Matrix (Fin d) (Fin d) K}

/-- Second moments and mean in other coordinates. -/
def Spec.turnStat (Q : Matrix (Fin d) (Fin d) K) (s : Matrix (Fin d) (Fin d) K × (Fin d → K)) : Matrix (Fin d) (Fin d) K × (Fin d → K) :=
  (Q.transpose * s.1 * Q, turn Q s.2)

/-- C148 (weighted moments). The weighted mean and the weighted second moments of turned samples are the turned ones, centred or not. -/
theorem C148_moments (Q : Matrix (Fin d) (Fin d) K) (X : List (Fin d → K)) (w : Option (List K)) (bias : Bool) :
    getCovMean (X.map (turn Q)) w bias = turnStat Q (getCovMean X w bias) := by
  have hw : ∀ (w : List K) (X : List (Fin d → K)), wmean w (X.map (turn Q)) = turn Q (wmean w X) := by
    intro w X
    have e : ∀ j, (List.zipWith (fun a x => a * x j) w (X.map (turn Q))).sum = ∑ k, (List.zipWith (fun a x => a * x k) w X).sum * Q k j := by
      intro j
      induction w generalizing X with
      | nil => simp
      | cons a w ih =>
        cases X with
        | nil => simp
        | cons x X =>
          simp only [List.map_cons, List.zipWith_cons_cons, List.sum_cons, ih, add_mul, Finset.sum_add_distrib]
          congr 1
          simp only [turn, Matrix.vecMul, dotProduct, Finset.mul_sum, mul_assoc]
    funext j
    simp only [wmean, e, turn, Matrix.vecMul, dotProduct, Finset.sum_div]
    exact Finset.sum_congr rfl fun k _ => by ring
  have hs : ∀ (w : List K) (X : List (Fin d → K)), (Matrix.of fun i j => (List.zipWith (fun a x => a * x i * x j) w (X.map (turn Q))).sum) =
      Q.transpose * (Matrix.of fun i j => (List.zipWith (fun a x => a * x i * x j) w X).sum) * Q := by
    intro w
    induction w with
    | nil => intro X; ext i j; simp [Matrix.mul_apply]
    | cons a w ih =>
      intro X
      cases X with
      | nil => ext i j; simp [Matrix.mul_apply]
      | cons x X =>
        have hc : ∀ (x : Fin d → K) X, (Matrix.of fun i j => (List.zipWith (fun a x => a * x i * x j) (a :: w) (x :: X)).sum) =
            a • Matrix.vecMulVec x x + Matrix.of fun i j => (List.zipWith (fun a x => a * x i * x j) w X).sum := by
          intro x X; ext i j; simp [Matrix.vecMulVec_apply, mul_assoc]
        rw [List.map_cons, hc, hc, ih, Matrix.mul_add, Matrix.add_mul, Matrix.mul_smul, Matrix.smul_mul]
        congr 2
        rw [Matrix.mul_vecMulVec, Matrix.vecMulVec_mul, Matrix.mulVec_transpose]
        rfl
  unfold getCovMean covMeanW
  simp only [List.length_map]
  generalize w.getD (List.replicate X.length 1) = v
  have hm : (if bias then wmean v (X.map (turn Q)) else fun _ => 0) = turn Q (if bias then wmean v X else fun _ => 0) := by
    cases bias with
    | true => exact hw v X
    | false => exact (Rotation.turn_zero Q).symm
  rw [hm, Rotation.center_turn]
  refine Prod.ext ?_ rfl
  have hdiv : ∀ Y : List (Fin d → K), (Matrix.of fun i j => (List.zipWith (fun a x => a * x i * x j) v Y).sum / v.sum) =
      (1 / v.sum) • (Matrix.of fun i j => (List.zipWith (fun a x => a * x i * x j) v Y).sum) := by
    intro Y; ext i j; simp [div_eq_inv_mul]
  simp only [turnStat, hdiv, hs, Matrix.mul_smul, Matrix.smul_mul]

theorem Rotation.putAll_turn {α β : Type} (g : α → β) (out : List α) (l : List (Nat × α)) :
    Np.putAll (out.map g) (l.map (fun p => (p.1, g p.2))) = (Np.putAll out l).map g := by
  induction l generalizing out with
  | nil => rfl
  | cons p l ih => simp only [List.map_cons, Np.putAll, ← List.map_set, ih]

theorem Rotation.idxAssign_turn {α β : Type} (g : α → β) (out : List α) (idx : List Nat) (vals : List α) :
    Np.idxAssign (out.map g) idx (vals.map g) = (Np.idxAssign out idx vals).map (List.map g) := by
  have hz : ∀ (idx : List Nat) (vals : List α), idx.zip (vals.map g) = (idx.zip vals).map (fun p => (p.1, g p.2)) := by
    intro idx vals; rw [List.zip_map_right]; rfl
  unfold Np.idxAssign
  simp only [List.length_map]
  by_cases h : idx.any (fun i => decide (out.length ≤ i)) = true
  · simp only [h, if_true]; rfl
  · rw [if_neg h, if_neg h]
    by_cases h2 : vals.length = idx.length
    · simp only [if_pos h2, hz, putAll_turn]; rfl
    · simp only [if_neg h2]
      match vals with
      | [] => rfl
      | [v] =>
        have := putAll_turn g out (idx.map (fun i => (i, v)))
        rw [List.map_map] at this
        exact congrArg Except.ok this
      | _ :: _ :: _ => rfl

theorem Rotation.lookup_turn {α β : Type} (R : α → β → Prop) {M : List (Int × α)} {M' : List (Int × β)}
    (h : List.Forall₂ (fun a b => b.1 = a.1 ∧ R a.2 b.2) M M') (k : Int) : RelPy R (lookup M k) (lookup M' k) := by
  induction h with
  | nil => exact rfl
  | @cons a b M M' hab _ ih =>
    simp only [lookup, List.find?_cons, hab.1] at ih ⊢
    by_cases hk : a.1 = k
    · simp only [hk, decide_true]; exact hab.2
    · simp only [hk, decide_false]; exact ih

/-- C148 (linear Monge alignment). When the barycenter and the linear maps (POT) turn with the moments, `MultiLinearMongeAlignmentAdapter` fitted to
turned samples has the same domains and the turned maps, and transforms turned samples, of the fit and new ones, to the turned result, or raises the
same exception. -/
theorem C148_monge (bias : Bool) {B : Type} (turnB : B → B) (bary : List (Matrix (Fin d) (Fin d) K × (Fin d → K)) → B)
    (mapping : Matrix (Fin d) (Fin d) K × (Fin d → K) → B → (Fin d → K) → Fin d → K)
    (hbary : ∀ l, bary (l.map (turnStat Q)) = turnB (bary l))
    (hmap : ∀ s b x, mapping (turnStat Q s) (turnB b) (turn Q x) = turn Q (mapping s b x)) (X : List (Fin d → K)) (sd : SDArg) :
    RelPy (fun M M' => List.Forall₂ (fun a b => b.1 = a.1 ∧ ∀ x, b.2 (turn Q x) = turn Q (a.2 x)) M M' ∧
        ∀ Z sdz, mongeTransform M' (mapArr (turn Q) Z) sdz = (mongeTransform M Z sdz).map (mapArr (turn Q)))
      (mongeFit (fun X => getCovMean X none bias) bary mapping X sd)
      (mongeFit (fun X => getCovMean X none bias) bary mapping (X.map (turn Q)) sd) := by
  have hloop : ∀ (M M' : List (Int × ((Fin d → K) → Fin d → K))),
      List.Forall₂ (fun a b => b.1 = a.1 ∧ ∀ x, b.2 (turn Q x) = turn Q (a.2 x)) M M' →
      ∀ (Z : NArr (Fin d → K)) l out, mongeLoop M' (mapArr (turn Q) Z) l (out.map (turn Q)) = (mongeLoop M Z l out).map (List.map (turn Q)) := by
    intro M M' hM Z l
    induction l with
    | nil => intro out; rfl
    | cons p l ih =>
      intro out
      obtain ⟨dom, idx⟩ := p
      simp only [mongeLoop, bind, Except.bind]
      rcases Sides.py_cases (Rotation.lookup_turn (fun (f f' : (Fin d → K) → Fin d → K) => ∀ x, f' (turn Q x) = turn Q (f x)) hM dom) with ⟨e, h1, h2⟩ | ⟨f, f', h1, h2, hf⟩
      · rw [h1, h2]; rfl
      · rw [h1, h2]
        simp only [mapArr, RW.take_map]
        rcases Np.take Z.rows idx with e | xs
        · rfl
        · simp only [Except.map]
          rw [show (xs.map (turn Q)).map (fun x => Cell.cast Z.dtype (f' x)) = (xs.map (fun x => Cell.cast Z.dtype (f x))).map (turn Q) from by
            simp only [List.map_map]; exact List.map_congr_left fun x _ => hf x]
          rw [Rotation.idxAssign_turn]
          rcases Np.idxAssign out idx _ with e | o
          · rfl
          · exact ih o
  have htr : ∀ (M M' : List (Int × ((Fin d → K) → Fin d → K))),
      List.Forall₂ (fun a b => b.1 = a.1 ∧ ∀ x, b.2 (turn Q x) = turn Q (a.2 x)) M M' →
      ∀ Z sdz, mongeTransform M' (mapArr (turn Q) Z) sdz = (mongeTransform M Z sdz).map (mapArr (turn Q)) := by
    intro M M' hM Z sdz
    unfold mongeTransform
    rw [show checkXDomain (mapArr (turn Q) Z).rows sdz {} = (checkXDomain Z.rows sdz {}).map (fun r => (r.1.map (turn Q), r.2)) from
      RW.check_map _ _ _ _]
    rcases checkXDomain Z.rows sdz {} with e | ⟨R, sd1⟩
    · rfl
    · simp only [Except.map, bind, Except.bind]
      rcases extractDomainsIndices sd1 with e | idx
      · rfl
      · simp only
        rw [show ({ mapArr (turn Q) Z with rows := R.map (turn Q) } : NArr (Fin d → K)) = mapArr (turn Q) { Z with rows := R } from rfl,
          hloop M M' hM]
        rcases mongeLoop M { Z with rows := R } idx R with e | o <;> rfl
  unfold mongeFit
  rw [RW.check_map]
  rcases checkXDomain X sd {} with e | ⟨R, sd1⟩
  · exact rfl
  · simp only [Except.map, bind, Except.bind, Geometry.perDomainSplit_geo]
    rcases perDomainSplit [some R] sd1 with e | ⟨A, C⟩
    · exact rfl
    · simp only [List.map_eq_nil_iff]
      split
      · exact rfl
      · simp only [pure, Except.pure]
        refine (fun hF => ⟨hF, htr _ _ hF⟩) ?_
        simp only [← List.map_append, List.map_map]
        rw [List.forall₂_map_left_iff, List.forall₂_map_right_iff, List.forall₂_same]
        rintro ⟨k, v⟩ -
        refine ⟨rfl, fun x => ?_⟩
        refine Eq.trans (congrArg₂ (fun s b => mapping s b (turn Q x)) (?_ : _ = turnStat Q _) (?_ : _ = turnB _)) (hmap _ _ x)
        · match v with
          | [] => exact C148_moments Q [] none bias
          | [none] => exact C148_moments Q [] none bias
          | [some X] => exact C148_moments Q X none bias
          | none :: _ :: _ => exact C148_moments Q [] none bias
          | some _ :: _ :: _ => exact C148_moments Q [] none bias
        · refine Eq.trans (congrArg bary ?_) (hbary _)
          rw [List.map_map]
          refine List.map_congr_left ?_
          rintro ⟨k, v⟩ -
          match v with
          | [] => exact C148_moments Q [] none bias
          | [none] => exact C148_moments Q [] none bias
          | [some X] => exact C148_moments Q X none bias
          | none :: _ :: _ => exact C148_moments Q [] none bias
          | some _ :: _ :: _ => exact C148_moments Q [] none bias

end Monge

/-- The hypotheses of `C148_monge`, with a barycenter that adds the means of the sources and maps that shift each domain to it. -/
example : RelPy (fun M M' => List.Forall₂ (fun a b => b.1 = a.1 ∧ ∀ x, b.2 (turn rotQ x) = turn rotQ (a.2 x)) M M' ∧
      ∀ Z sdz, mongeTransform M' (mapArr (turn rotQ) Z) sdz = (mongeTransform M Z sdz).map (mapArr (turn rotQ)))
    (mongeFit (fun X => getCovMean X none true) (fun l => (l.map Prod.snd).sum) (fun s b x => x - s.2 + b) rotX.rows (.vec rotSd))
    (mongeFit (fun X => getCovMean X none true) (fun l => (l.map Prod.snd).sum) (fun s b x => x - s.2 + b) (rotX.rows.map (turn rotQ)) (.vec rotSd)) :=
  C148_monge true (turn rotQ) _ _
    (fun l => by
      induction l with
      | nil => exact (Rotation.turn_zero rotQ).symm
      | cons s l ih =>
        simp only [List.map_cons, List.sum_cons]
        refine Eq.trans (congrArg₂ (· + ·) rfl ih) (Matrix.add_vecMul rotQ _ _).symm)
    (fun s b x => by
      show turn rotQ x - turn rotQ s.2 + turn rotQ b = turn rotQ (x - s.2 + b)
      rw [← Rotation.turn_sub]
      exact (Matrix.add_vecMul rotQ _ _).symm) _ _

example : (mongeFit (fun X => getCovMean X none true) (fun l => (l.map Prod.snd).sum) (fun s b x => x - s.2 + b)
    [![1, 2], ![3, 4], ![7, 7]] (.vec [1, 1, -2])).map (List.map (fun kv => (kv.1, kv.2 ![0, 0] 0, kv.2 ![0, 0] 1))) =
    .ok [(1, (0 : ℚ), 0), (-2, -5, -4)] := by decide +kernel

section Subspace
variable {K : Type} [Field K] {d p : Nat} {Q : Matrix (Fin d) (Fin d) K}

/-- The principal components of samples: their mean, orthonormal directions that diagonalise the covariance, and the variances along them. -/
def Spec.PcaOf (S : List (Fin d → K)) (P : Subsp.Pca K d p) (l : Fin p → K) : Prop :=
  P.mean = Map.colMean S ∧ P.comps * P.comps.transpose = 1 ∧ empCov false S * P.comps.transpose = P.comps.transpose * Matrix.diagonal l

/-- The same components in other coordinates. -/
def Spec.turnPca (Q : Matrix (Fin d) (Fin d) K) (P : Subsp.Pca K d p) : Subsp.Pca K d p := ⟨turn Q P.mean, P.comps * Q⟩

/-- C148 (subspace alignment). The adapter hands the turned samples to the two PCAs, with the same numbers of components or the same exception;
the turned components of the samples are components of the turned samples, with the same variances; and with turned components the turned samples
are sent to the very same points of the subspace. -/
theorem C148_alignment (h : IsTurn Q) (n : Option Nat) (X : NArr (Fin d → K)) (sd : SDArg) :
    Subsp.saFitArgs n (X.rows.map (turn Q)) sd =
        (Subsp.saFitArgs n X.rows sd).map (fun r => (r.1.map (turn Q), r.2.1.map (turn Q), r.2.2)) ∧
      (∀ (S : List (Fin d → K)) (P : Subsp.Pca K d p) l, PcaOf S P l → PcaOf (S.map (turn Q)) (turnPca Q P) l) ∧
      ∀ (Ps Pt : Subsp.Pca K d p) allow,
        Subsp.saTransform (turnPca Q Ps) (turnPca Q Pt) (mapArr (turn Q) X) sd allow = Subsp.saTransform Ps Pt X sd allow := by
  have h' : Q * Q.transpose = 1 := h
  refine ⟨?_, ?_, ?_⟩
  · unfold Subsp.saFitArgs
    rw [RW.check_map]
    rcases checkXDomain X.rows sd {} with e | ⟨R, sd1⟩
    · rfl
    · simp only [Except.map, bind, Except.bind, RW.splitX_map, List.length_map]
      rcases RW.splitX R sd1 with e | ⟨S, T⟩
      · rfl
      · simp only [List.length_map]
        rcases Subsp.pcaCheck S.length d (Subsp.nComponents R.length d n) with e | _
        · rfl
        · simp only
          rcases Subsp.pcaCheck T.length d (Subsp.nComponents R.length d n) with e | _ <;> rfl
  · rintro S P l ⟨h1, h2, h3⟩
    refine ⟨?_, ?_, ?_⟩
    · rw [Rotation.colMean_turn, ← h1]; rfl
    · simp only [turnPca, Matrix.transpose_mul]
      rw [Matrix.mul_assoc, ← Matrix.mul_assoc Q, h', Matrix.one_mul, h2]
    · simp only [turnPca, Matrix.transpose_mul, Rotation.empCov_turn]
      rw [Matrix.mul_assoc, ← Matrix.mul_assoc Q, h', Matrix.one_mul, Matrix.mul_assoc, h3, Matrix.mul_assoc]
  · intro Ps Pt allow
    have ha : ∀ (P : Subsp.Pca K d p) x, (turnPca Q P).apply (turn Q x) = P.apply x := by
      intro P x
      simp only [turnPca, Subsp.Pca.apply, Matrix.transpose_mul, ← Rotation.turn_sub]
      simp only [turn, Matrix.vecMul_vecMul]
      rw [← Matrix.mul_assoc, h', Matrix.one_mul]
    have hm : (turnPca Q Ps).comps * (turnPca Q Pt).comps.transpose = Ps.comps * Pt.comps.transpose := by
      simp only [turnPca, Matrix.transpose_mul]
      rw [Matrix.mul_assoc, ← Matrix.mul_assoc Q, h', Matrix.one_mul]
    unfold Subsp.saTransform
    rw [show checkXDomain (mapArr (turn Q) X).rows sd { allowSource := allow } =
      (checkXDomain X.rows sd { allowSource := allow }).map (fun r => (r.1.map (turn Q), r.2)) from RW.check_map _ _ _ _]
    rcases checkXDomain X.rows sd { allowSource := allow } with e | ⟨R, sd1⟩
    · rfl
    · simp only [Except.map, bind, Except.bind, RW.splitX_map]
      rcases RW.splitX R sd1 with e | ⟨S, T⟩
      · rfl
      · simp only [List.map_map, Function.comp_def, ha, hm]

omit [Field K] in
theorem Rotation.classRows_turn {β : Type} [DecidableEq β] (g : (Fin d → K) → Fin d → K) (X : List (Fin d → K)) (y : List β) (c : β) :
    Subsp.classRows (X.map g) y c = (Subsp.classRows X y c).map g := by
  unfold Subsp.classRows
  generalize y.map (fun b => decide (b = c)) = m
  induction m generalizing X with
  | nil => cases X <;> rfl
  | cons b m ih =>
    cases X with
    | nil => cases b <;> rfl
    | cons x X => cases b <;> simp [Np.sel, ih]

/-- C148 (transfer subspace learning). A projection `W` of the samples and the projection `Qᵀ W` of the turned samples are equally good and do the
same: both are orthonormal or none is, the three base objectives have the same value, and they send the samples to the same points. -/
theorem C148_tsl {β : Type} [LinearOrder β] (h : IsTurn Q) (W : Matrix (Fin d) (Fin p) K) :
    ((Q.transpose * W).transpose * (Q.transpose * W) = 1 ↔ W.transpose * W = 1) ∧
      (∀ reg X, Subsp.tslPca reg (Q.transpose * W) (X.map (turn Q)) = Subsp.tslPca reg W X) ∧
      (∀ sqrt reg X (y : List β), Subsp.tslFlda sqrt reg (Q.transpose * W) (X.map (turn Q)) y = Subsp.tslFlda sqrt reg W X y) ∧
      (∀ (n : Nat) (ker : (Fin d → K) → (Fin d → K) → K) (X : Matrix (Fin n) (Fin d) K) (y : Fin n → β), KeepsKernel (turn Q) ker ker →
        Subsp.tslLpp ker (Q.transpose * W) (X * Q) y = Subsp.tslLpp ker W X y) ∧
      ∀ X sd allow, Subsp.tslTransform (Q.transpose * W) (mapArr (turn Q) X) sd allow = Subsp.tslTransform W X sd allow := by
  have h' : Q * Q.transpose = 1 := h
  have hcov : ∀ reg (X : List (Fin d → K)), Subsp.torchCov reg (X.map (turn Q)) = Q.transpose * Subsp.torchCov reg X * Q := by
    intro reg X
    have e : ∀ X : List (Fin d → K), (Matrix.of fun i j => (X.map (fun x => (x i - Map.colMean X i) * (x j - Map.colMean X j))).sum / (X.length : K)) =
        empCov false X := fun X => rfl
    simp only [Subsp.torchCov, e, Rotation.empCov_turn, Rotation.trace_turn h, Matrix.mul_add, Matrix.add_mul, Matrix.mul_smul, Matrix.smul_mul,
      Matrix.mul_one, Rotation.transpose_mul h]
  have hq : ∀ C : Matrix (Fin d) (Fin d) K, (Q.transpose * W).transpose * (Q.transpose * C * Q) * (Q.transpose * W) = W.transpose * C * W := by
    intro C
    rw [Matrix.transpose_mul, Matrix.transpose_transpose]
    calc W.transpose * Q * (Q.transpose * C * Q) * (Q.transpose * W)
        = W.transpose * (Q * Q.transpose) * C * ((Q * Q.transpose) * W) := by simp only [Matrix.mul_assoc]
      _ = _ := by rw [h', Matrix.mul_one, Matrix.one_mul]
  have hmeans : ∀ (sqrt : Nat → K) X (y : List β), Subsp.fldaMeans sqrt (X.map (turn Q)) y = (Subsp.fldaMeans sqrt X y).map (turn Q) := by
    intro sqrt X y
    simp only [Subsp.fldaMeans, List.map_map, Function.comp_def, Rotation.classRows_turn, Rotation.colMean_turn]
    refine List.map_congr_left fun c _ => ?_
    funext j
    simp only [turn, Matrix.vecMul, dotProduct, Finset.sum_mul]
    exact Finset.sum_congr rfl fun k _ => by ring
  refine ⟨?_, ?_, ?_, ?_, ?_⟩
  · rw [Matrix.transpose_mul, Matrix.transpose_transpose, Matrix.mul_assoc, ← Matrix.mul_assoc Q, h', Matrix.one_mul]
  · intro reg X
    simp only [Subsp.tslPca, hcov, hq]
  · intro sqrt reg X y
    simp only [Subsp.tslFlda, hmeans, hcov, hq]
  · intro n ker X y hk
    have hr : ∀ i, (X * Q) i = turn Q (X i) := fun i => rfl
    simp only [Subsp.tslLpp, hr, hk _ _]
    rw [Matrix.transpose_mul, Matrix.transpose_mul, Matrix.transpose_transpose]
    congr 2
    have e : ∀ M : Matrix (Fin n) (Fin n) K, W.transpose * Q * (Q.transpose * X.transpose) * M * (X * Q) * (Q.transpose * W) =
        W.transpose * X.transpose * M * X * W := by
      intro M
      calc W.transpose * Q * (Q.transpose * X.transpose) * M * (X * Q) * (Q.transpose * W)
          = W.transpose * (Q * Q.transpose) * X.transpose * M * X * ((Q * Q.transpose) * W) := by simp only [Matrix.mul_assoc]
        _ = _ := by rw [h', Matrix.mul_one, Matrix.one_mul]
    exact e _
  · intro X sd allow
    have ha : ∀ x : Fin d → K, turn Q x ᵥ* (Q.transpose * W) = x ᵥ* W := by
      intro x
      simp only [turn, Matrix.vecMul_vecMul]
      rw [← Matrix.mul_assoc, h', Matrix.one_mul]
    unfold Subsp.tslTransform
    rw [show checkXDomain (mapArr (turn Q) X).rows sd { allowSource := allow } =
      (checkXDomain X.rows sd { allowSource := allow }).map (fun r => (r.1.map (turn Q), r.2)) from RW.check_map _ _ _ _]
    rcases checkXDomain X.rows sd { allowSource := allow } with e | ⟨R, sd1⟩
    · rfl
    · simp only [Except.map, bind, Except.bind, RW.splitX_map]
      rcases RW.splitX R sd1 with e | ⟨S, T⟩
      · rfl
      · simp only [List.map_map, Function.comp_def, ha]

end Subspace

/-- The source samples of the example have the second feature as first principal component, with variance 4; the targets the first, with variance 9. -/
example : PcaOf (sourceRows rotSd rotX.rows) (⟨![0, 0], !![0, 1]⟩ : Subsp.Pca ℚ 2 1) ![4] ∧
    PcaOf (targetRows rotSd rotX.rows) (⟨![0, 0], !![1, 0]⟩ : Subsp.Pca ℚ 2 1) ![9] := by
  unfold PcaOf; decide +kernel

example : (Subsp.saTransform (⟨![0, 0], !![0, 1]⟩ : Subsp.Pca ℚ 2 1) ⟨![0, 0], !![1, 0]⟩ rotX (.vec rotSd) true).map
    (fun a => (a.rows.take 2).map (fun r => r 0)) = .ok [0, 3] := by decide +kernel

example : Subsp.tslPca (0 : ℚ) !![0; 1] (sourceRows rotSd rotX.rows) = -4 ∧
    Subsp.tslPca (0 : ℚ) (rotQ.transpose * (!![0; 1] : Matrix (Fin 2) (Fin 1) ℚ)) ((sourceRows rotSd rotX.rows).map (turn rotQ)) = -4 := by decide +kernel

section Deep
variable {K : Type} [Field K] [LinearOrder K] {d c : Nat} {Q : Matrix (Fin d) (Fin d) K}

omit [LinearOrder K] in
theorem Rotation.dist_turn (h : IsTurn Q) (sqrt : K → K) (x y : Fin d → K) : DL.dist sqrt (turn Q x) (turn Q y) = DL.dist sqrt x y :=
  congrArg sqrt (C148_distances h x y)

omit [LinearOrder K] in
theorem Rotation.norm_turn (h : IsTurn Q) (x : Fin d → K) : ∑ j, turn Q x j ^ 2 = ∑ j, x j ^ 2 := by
  simpa [dotProduct, pow_two] using Rotation.dot_turn h x x

omit [LinearOrder K] in
theorem Rotation.frob_turn (h : IsTurn Q) (M : Matrix (Fin d) (Fin d) K) : ∑ j, ∑ k, (Q.transpose * M * Q) j k ^ 2 = ∑ j, ∑ k, M j k ^ 2 := by
  have e : ∀ M : Matrix (Fin d) (Fin d) K, ∑ j, ∑ k, M j k ^ 2 = (M * M.transpose).trace := by
    intro M; simp [Matrix.trace, Matrix.mul_apply, pow_two]
  have h' : Q * Q.transpose = 1 := h
  rw [e, e]
  have : Q.transpose * M * Q * (Q.transpose * M * Q).transpose = Q.transpose * (M * M.transpose) * Q := by
    simp only [Matrix.transpose_mul, Matrix.transpose_transpose]
    calc Q.transpose * M * Q * (Q.transpose * (M.transpose * Q)) = Q.transpose * M * (Q * Q.transpose) * (M.transpose * Q) := by
          simp only [Matrix.mul_assoc]
      _ = _ := by rw [h', Matrix.mul_one]; simp only [Matrix.mul_assoc]
  rw [this, Rotation.trace_turn h]

omit [LinearOrder K] in
theorem Rotation.dlCenter_turn (Q : Matrix (Fin d) (Fin d) K) (X : List (Fin d → K)) : DL.center (X.map (turn Q)) = (DL.center X).map (turn Q) := by
  have e : ∀ X : List (Fin d → K), DL.colMean X = Map.colMean X := fun X => by
    funext j; simp [DL.colMean, DL.mean, Map.colMean]
  simp only [DL.center, e, Rotation.colMean_turn, Rotation.center_turn]

omit [LinearOrder K] in
theorem Rotation.dlCov_turn (Q : Matrix (Fin d) (Fin d) K) (X : List (Fin d → K)) :
    DL.torchCov (X.map (turn Q)) = (DL.torchCov X).map (fun C => Q.transpose * Matrix.of C * Q) := by
  unfold DL.torchCov
  rw [List.length_map]
  split
  · rfl
  · simp only [Option.map_some, Rotation.dlCenter_turn]
    refine congrArg some ?_
    have e : ∀ Y : List (Fin d → K), (Matrix.of fun j k => (Y.map (fun x => x j * x k)).sum / ((X.length - 1 : Nat) : K)) =
        (1 / ((X.length - 1 : Nat) : K)) • Rotation.scatter Y := by
      intro Y; ext i j; simp [Rotation.scatter, div_eq_inv_mul]
    have := e ((DL.center X).map (turn Q))
    rw [Rotation.scatter_turn] at this
    rw [e (DL.center X), Matrix.mul_smul, Matrix.smul_mul, ← this]
    rfl

omit [LinearOrder K] in
/-- C148 (deep CORAL). The loss of features in other coordinates is the same loss, NaN or exception. -/
theorem C148_deepcoral (h : IsTurn Q) (ac : Bool) (Xs Xt : List (Fin d → K)) :
    DL.deepcoral ac (Xs.map (turn Q)) (Xt.map (turn Q)) = DL.deepcoral ac Xs Xt := by
  have hif : ∀ X : List (Fin d → K), (if ac then X.map (turn Q) else DL.center (X.map (turn Q))) = (if ac then X else DL.center X).map (turn Q) := by
    intro X; cases ac <;> simp [Rotation.dlCenter_turn]
  unfold DL.deepcoral
  simp only [hif, Rotation.dlCov_turn]
  split
  · rfl
  · rcases DL.torchCov (if ac = true then Xs else DL.center Xs) with _ | C
    · rfl
    · rcases DL.torchCov (if ac = true then Xt else DL.center Xt) with _ | D
      · rfl
      · simp only [Option.map_some]
        have := Rotation.frob_turn h (Matrix.of C - Matrix.of D)
        rw [Matrix.mul_sub, Matrix.sub_mul] at this
        simp only [Matrix.sub_apply, Matrix.of_apply] at this
        rw [← this]

theorem Rotation.sigmas_turn (h : IsTurn Q) (sqrt : K → K) (pow2 : Nat → K) (eps : K) (X : List (Fin d → K)) :
    DL.defaultSigmas sqrt pow2 eps (X.map (turn Q)) = DL.defaultSigmas sqrt pow2 eps X := by
  have : DL.pairDists sqrt (X.map (turn Q)) = DL.pairDists sqrt X := by
    simp [DL.pairDists, List.flatMap_map, Function.comp_def, Rotation.dist_turn h]
  simp only [DL.defaultSigmas, this]

/-- C148 (distance losses). The losses of DAN, DeepJDOT and SPA (graph alignment and neighbour-aware pseudo-labels), and the clusters that CAN gives
the target samples, are the same for features in other coordinates, with given and with default bandwidths, or the same exception. -/
theorem C148_deep_losses (h : IsTurn Q) (sqrt ex : K → K) :
    (∀ pow2 eps sigmas (Xs Xt : List (Fin d → K)),
      DL.dan sqrt ex pow2 eps sigmas (Xs.map (turn Q)) (Xt.map (turn Q)) = DL.dan sqrt ex pow2 eps sigmas Xs Xt) ∧
    (∀ (Y : Type) (ce : (Fin c → K) → Y → K) emd2 regDist regCl (ys : List Y) Yt (Xs Xt : List (Fin d → K)) ws wt,
      DL.deepjdot sqrt ce emd2 regDist regCl ys Yt (Xs.map (turn Q)) (Xt.map (turn Q)) ws wt =
        DL.deepjdot sqrt ce emd2 regDist regCl ys Yt Xs Xt ws wt) ∧
    (∀ (n m : Nat) svals e eps metric kind (S : Fin n → Fin d → K) (T : Fin m → Fin d → K),
      DL.gda sqrt ex svals e eps metric kind (fun i => turn Q (S i)) (fun i => turn Q (T i)) = DL.gda sqrt ex svals e eps metric kind S T) ∧
    (∀ (ce : (Fin c → K) → Nat → K) topk tiny (Xt : List (Fin d → K)) Yt memory outputs idx kk,
      DL.nap sqrt ce topk tiny (Xt.map (turn Q)) Yt (memory.map (turn Q)) outputs idx kk = DL.nap sqrt ce topk tiny Xt Yt memory outputs idx kk) ∧
    ∀ e (centers X : List (Fin d → K)), DL.kmPredict sqrt e (centers.map (turn Q)) (X.map (turn Q)) = DL.kmPredict sqrt e centers X := by
  have hd := Rotation.dist_turn h sqrt
  have hn := Rotation.norm_turn h
  have hdot : ∀ x y : Fin d → K, ∑ j, turn Q x j * turn Q y j = ∑ j, x j * y j := fun x y => Rotation.dot_turn h x y
  refine ⟨?_, ?_, ?_, ?_, ?_⟩
  · intro pow2 eps sigmas Xs Xt
    have hk : ∀ sg x y, DL.kernel sqrt ex sg (turn Q x) (turn Q y) = DL.kernel sqrt ex sg x y := by
      intro sg x y; simp only [DL.kernel, hd]
    simp only [DL.dan, Rotation.sigmas_turn h, DL.mmd, DL.meanKernel, List.map_eq_nil_iff, List.map_map, Function.comp_def, hk, List.length_map]
  · intro Y ce emd2 regDist regCl ys Yt Xs Xt ws wt
    have hM : DL.jdotCost sqrt ce regDist regCl ys Yt (Xs.map (turn Q)) (Xt.map (turn Q)) = DL.jdotCost sqrt ce regDist regCl ys Yt Xs Xt := by
      simp only [DL.jdotCost, List.length_map, List.zipWith_map_left, hd]
    have hw : ∀ w (X : List (Fin d → K)), DL.jdotWeights w (X.map (turn Q)) = DL.jdotWeights w X := by
      intro w X; simp only [DL.jdotWeights, List.map_eq_nil_iff, List.length_map]
    simp only [DL.deepjdot, hM, hw]
  · intro n m svals e eps metric kind S T
    have ha : ∀ (n : Nat) (X : Fin n → Fin d → K), DL.adj sqrt ex e metric (fun i => turn Q (X i)) = DL.adj sqrt ex e metric X := by
      intro n X
      have hc : ∀ i j, (∑ f, turn Q (X i) f / max (sqrt (∑ l, X i l ^ 2)) e * (turn Q (X j) f / max (sqrt (∑ l, X j l ^ 2)) e)) =
          ∑ f, X i f / max (sqrt (∑ l, X i l ^ 2)) e * (X j f / max (sqrt (∑ l, X j l ^ 2)) e) := by
        intro i j
        simp only [div_mul_div_comm, ← Finset.sum_div, hdot]
      simp only [DL.adj, hn, hd, hc]
    simp only [DL.gda, ha]
  · intro ce topk tiny Xt Yt memory outputs idx kk
    have hm : ∀ x, DL.memDist sqrt (memory.map (turn Q)) idx (turn Q x) = DL.memDist sqrt memory idx x := by
      intro x
      simp only [DL.memDist, List.mapIdx_eq_zipIdx_map, List.zipIdx_map, List.map_map, Function.comp_def, Prod.map, hd, id]
    simp only [DL.nap, List.length_map, List.map_map, Function.comp_def, hm]
  · intro e centers X
    have hc : ∀ x, DL.dissimRow sqrt e (centers.map (turn Q)) (turn Q x) = DL.dissimRow sqrt e centers x := by
      intro x; simp only [DL.dissimRow, DL.cosine, List.map_map, Function.comp_def, hn, hdot]
    simp only [DL.kmPredict, List.mapM_map, Function.comp_def, hc]

end Deep

example : DL.deepcoral false (sourceRows rotSd rotX.rows) (targetRows rotSd rotX.rows) = .ok (some (73 / 9 : ℚ)) ∧
    DL.deepcoral false ((sourceRows rotSd rotX.rows).map (turn rotQ)) ((targetRows rotSd rotX.rows).map (turn rotQ)) = .ok (some (73 / 9 : ℚ)) := by
  decide +kernel

/-- Square roots of squares. -/
def rotRoot (a : ℚ) : ℚ := (Nat.sqrt a.num.toNat : ℚ) / (Nat.sqrt a.den : ℚ)

/-- C148, negative part (CAN). `cdd_loss` compares target samples and centres along the wrong axis (skada/deep/losses.py:256-258) when it discards
uncertain samples, so a rotation of the features, under which every angle and every distance stays, changes which samples count and the loss. -/
theorem C148_cdd_counterexample :
    ∃ (Q : Matrix (Fin 2) (Fin 2) ℚ) (Xs Xt centers : List (Fin 2 → ℚ)) (ys : List Int), IsTurn Q ∧
      DL.cdd rotRoot (fun x => 1 / (1 - x)) (fun _ => 1) (1 / 10 ^ 8) 0 (1 / 4) 0 (some [1]) (some (centers.map (turn Q))) ys
          (Xs.map (turn Q)) (Xt.map (turn Q)) ≠
        DL.cdd rotRoot (fun x => 1 / (1 - x)) (fun _ => 1) (1 / 10 ^ 8) 0 (1 / 4) 0 (some [1]) (some centers) ys Xs Xt := by
  refine ⟨rotQ, [![0, 0], ![3, 0]], [![2, 0]], [![0, 1]], [0, 1], rotQ_ok, ?_⟩
  have h1 : DL.cdd rotRoot (fun x => 1 / (1 - x)) (fun _ => 1) (1 / 10 ^ 8) 0 (1 / 4) 0 (some [1]) (some [![0, 1]]) [0, 1] [![0, 0], ![3, 0]]
      [![2, 0]] = .ok (5 / 8) := by decide +kernel
  have h2 : DL.cdd rotRoot (fun x => 1 / (1 - x)) (fun _ => 1) (1 / 10 ^ 8) 0 (1 / 4) 0 (some [1]) (some ([![0, 1]].map (turn rotQ))) [0, 1]
      ([![0, 0], ![3, 0]].map (turn rotQ)) ([![2, 0]].map (turn rotQ)) = .ok (19 / 24) := by decide +kernel
  rw [h1, h2]
  intro e
  have := Except.ok.inj e
  norm_num at this

section LocationScale
variable {K : Type} [Field K] [LinearOrder K] {d : Nat} {β : Type}

/-- A sample with its features in another order. -/
def Spec.reorder (σ : Equiv.Perm (Fin d)) (x : Fin d → K) : Fin d → K := fun j => x (σ j)

/-- The fitted location-scale adapter with its features in another order. -/
def Spec.reorderLs (σ : Equiv.Perm (Fin d)) (F : MmdLs K d β) : MmdLs K d β :=
  { F with Xs := F.Xs.map (reorder σ), W := F.W.map (reorder σ), B := F.B.map (reorder σ), G := F.G.map (reorder σ), H := F.H.map (reorder σ) }

omit [LinearOrder K] in
/-- C148 (order of the features). Another order of the features is a change of coordinates. -/
theorem C148_order_is_turn (σ : Equiv.Perm (Fin d)) :
    ∃ Q : Matrix (Fin d) (Fin d) K, IsTurn Q ∧ ∀ x, turn Q x = reorder σ x := by
  refine ⟨Matrix.of fun i j => if i = σ j then 1 else 0, ?_, ?_⟩
  · unfold IsTurn
    ext i j
    rw [Matrix.mul_apply]
    simp only [Matrix.of_apply, Matrix.transpose_apply, Matrix.one_apply, mul_ite, mul_one, mul_zero]
    rw [Equiv.sum_comp σ (fun k => if j = k then if i = k then (1 : K) else 0 else 0)]
    simp
  · intro x
    funext j
    simp [turn, reorder, Matrix.vecMul, dotProduct]

/-- C148 (location-scale mapping, order of the features). When the optimiser and the distance do not look at the order of the features, neither
does `MMDLSConSMappingAdapter`: fitting gives the reordered parameters, transforming reordered samples gives the reordered result, or the same
exception, with labels, without labels, and for samples of the fit and new ones. -/
theorem C148_mmdls_order [LinearOrder β] (σ : Equiv.Perm (Fin d)) (dist : (Fin d → K) → (Fin d → K) → K)
    (hd : KeepsKernel (reorder σ) dist dist)
    (opt : List (Fin d → K) → List (Fin d → K) → List β → List (Fin d → K) × List (Fin d → K))
    (hopt : ∀ S T y, opt (S.map (reorder σ)) (T.map (reorder σ)) y = ((opt S T y).1.map (reorder σ), (opt S T y).2.map (reorder σ)))
    (X : List (Fin d → K)) (y : List β) (sd : SDArg) :
    mmdlsFit opt (X.map (reorder σ)) y sd = (mmdlsFit opt X y sd).map (reorderLs σ) ∧
      ∀ (F : MmdLs K d β) Z yz sdz allow, mmdlsTransform dist (reorderLs σ F) (mapArr (reorder σ) Z) yz sdz allow =
        (mmdlsTransform dist F Z yz sdz allow).map (mapArr (reorder σ)) := by
  have hinj : Function.Injective (reorder σ : (Fin d → K) → Fin d → K) := by
    intro x x' e
    funext j
    have := congrFun e (σ.symm j)
    simpa [reorder] using this
  have hcp : ∀ (cl : List β) (G : List (Fin d → K)) c, classParam cl (G.map (reorder σ)) c = reorder σ (classParam cl G c) := by
    intro cl G c
    funext j
    simp [classParam, reorder, Function.comp_def]
  have hcpl : ∀ (cl : List β) (G : List (Fin d → K)) (l : List β), l.map (classParam cl (G.map (reorder σ))) =
      (l.map (classParam cl G)).map (reorder σ) := by
    intro cl G l
    simp [hcp]
  have hss : ∀ W B X : List (Fin d → K), scaleShift (W.map (reorder σ)) (B.map (reorder σ)) (X.map (reorder σ)) =
      (scaleShift W B X).map (reorder σ) := by
    intro W B X
    simp only [scaleShift, List.zip_map, List.zipWith_map, List.map_zipWith]
    rfl
  constructor
  · unfold mmdlsFit
    rw [RW.check_map]
    rcases checkXDomain X sd {} with e | ⟨R, sd1⟩
    · rfl
    · simp only [Except.map, bind, Except.bind, RW.splitX_map]
      rcases RW.splitX R sd1 with e | ⟨S, T⟩
      · rfl
      · simp only
        rcases RW.splitX y sd1 with e | ⟨ys, yt⟩
        · rfl
        · simp only [hopt, hcpl]; rfl
  · intro F Z yz sdz allow
    unfold mmdlsTransform
    rw [show checkXDomain (mapArr (reorder σ) Z).rows sdz { allowSource := allow } =
      (checkXDomain Z.rows sdz { allowSource := allow }).map (fun r => (r.1.map (reorder σ), r.2)) from RW.check_map _ _ _ _]
    rcases checkXDomain Z.rows sdz { allowSource := allow } with e | ⟨R, sd1⟩
    · rfl
    · simp only [Except.map, bind, Except.bind]
      rcases extractSourceIndices sd1 with e | m
      · rfl
      · simp only [RW.boolIndex_map]
        rcases Np.boolIndex R m with e | S
        · rfl
        · simp only [Except.map]
          rcases Np.boolIndex R (m.map (!·)) with e | T
          · rfl
          · simp only [List.length_map]
            have hz : (reorder σ (fun _ => 0) : Fin d → K) = fun _ => 0 := rfl
            split
            · exact Rotation.mergeN_turn (reorder σ) hz ⟨Z.dtype, Z.tail, S⟩ ⟨Z.dtype, Z.tail, T⟩ sd1
            · have hm : ∀ W B : List (Fin d → K),
                  mergeN ⟨.float, (mapArr (reorder σ) Z).tail, scaleShift (W.map (reorder σ)) (B.map (reorder σ)) (S.map (reorder σ))⟩
                    { mapArr (reorder σ) Z with rows := T.map (reorder σ) } sd1 =
                  (mergeN ⟨.float, Z.tail, scaleShift W B S⟩ { Z with rows := T } sd1).map (mapArr (reorder σ)) := by
                intro W B
                rw [hss]
                exact Rotation.mergeN_turn (reorder σ) hz ⟨.float, Z.tail, scaleShift W B S⟩ ⟨Z.dtype, Z.tail, T⟩ sd1
              simp only [reorderLs, (List.map_injective_iff.2 hinj).eq_iff]
              by_cases hFS : F.Xs = S
              · simp only [if_pos hFS, pure, Except.pure]
                exact hm F.W F.B
              · simp only [if_neg hFS]
                cases yz with
                | some yz =>
                  simp only
                  rcases Np.boolIndex yz m with e | ys
                  · rfl
                  · simp only [pure, Except.pure, hcpl]
                    exact hm _ _
                | none =>
                  have hnn : ∀ x, nearest dist (F.Xs.map (reorder σ)) (reorder σ x) = nearest dist F.Xs x := by
                    intro x; simp only [nearest, List.map_map, Function.comp_def, hd _ _]
                  simp only [List.mapM_map, Function.comp_def, hnn, RW.take_map]
                  rcases List.mapM (fun x => nearest dist F.Xs x) S with e | idx
                  · rfl
                  · simp only
                    rcases Np.take F.W idx with e | W
                    · rfl
                    · simp only [Except.map]
                      rcases Np.take F.B idx with e | B
                      · rfl
                      · simp only [pure, Except.pure]
                        exact hm W B

end LocationScale

/-- The hypotheses of `C148_mmdls_order`: exchanging two features, with an optimiser that takes the first sample of each side as scale and offset. -/
example (F : MmdLs ℚ 2 Int) (Z : NArr (Fin 2 → ℚ)) (yz : Option (List Int)) (sdz : SDArg) (allow : Bool) :
    mmdlsTransform sqDistance (reorderLs (Equiv.swap 0 1) F) (mapArr (reorder (Equiv.swap 0 1)) Z) yz sdz allow =
      (mmdlsTransform sqDistance F Z yz sdz allow).map (mapArr (reorder (Equiv.swap 0 1))) :=
  (C148_mmdls_order (Equiv.swap 0 1) sqDistance
    (fun x y => Equiv.sum_comp (Equiv.swap 0 1) (fun i => (x i - y i) ^ 2)) (fun S T _ => (S.take 1, T.take 1))
    (fun S T y => by simp) [] [] .none).2 F Z yz sdz allow

/-- C148, negative part (location-scale mapping). The maps of `MMDLSConSMappingAdapter` scale every feature by itself, so in rotated coordinates the
adapter is another one: here, whatever the optimiser finds for the rotated samples, the result is not the rotated result. -/
theorem C148_mmdls_counterexample :
    ∃ (Q : Matrix (Fin 2) (Fin 2) ℚ) (X : NArr (Fin 2 → ℚ)) (y sd : List Int)
      (opt : List (Fin 2 → ℚ) → List (Fin 2 → ℚ) → List Int → List (Fin 2 → ℚ) × List (Fin 2 → ℚ)), IsTurn Q ∧
      ∃ F out, mmdlsFit opt X.rows y (.vec sd) = .ok F ∧ mmdlsTransform sqDistance F X (some y) (.vec sd) true = .ok out ∧
        ∀ opt' : List (Fin 2 → ℚ) → List (Fin 2 → ℚ) → List Int → List (Fin 2 → ℚ) × List (Fin 2 → ℚ),
          (∃ g h, opt' (sourceRows sd (X.rows.map (turn Q))) (targetRows sd (X.rows.map (turn Q))) (sourceRows sd y) = ([g], [h])) →
          ∃ F' out', mmdlsFit opt' (X.rows.map (turn Q)) y (.vec sd) = .ok F' ∧
            mmdlsTransform sqDistance F' (mapArr (turn Q) X) (some y) (.vec sd) true = .ok out' ∧ out' ≠ mapArr (turn Q) out := by
  obtain ⟨F, out, h1, h2, -, -, h3⟩ := C66_fit_transform (β := Int) (d := 2) (K := ℚ) sqDistance (fun _ _ _ => ([![2, 1]], [![0, 0]]))
    ⟨.float, [2], [![0, 0], ![1, 0], ![0, 1], ![5, 5]]⟩ [0, 0, 0, -1] [1, 1, 1, -2] (by decide) rfl rfl _ _ (some [0, 0, 0, -1]) rfl (by decide)
  refine ⟨rotQ, ⟨.float, [2], [![0, 0], ![1, 0], ![0, 1], ![5, 5]]⟩, [0, 0, 0, -1], [1, 1, 1, -2], _, rotQ_ok, F, out, h1, h2, ?_⟩
  rintro opt' ⟨g, h, hopt⟩
  obtain ⟨F', out', k1, k2, -, -, k3⟩ := C66_fit_transform (β := Int) (d := 2) (K := ℚ) sqDistance opt'
    (mapArr (turn rotQ) ⟨.float, [2], [![0, 0], ![1, 0], ![0, 1], ![5, 5]]⟩) [0, 0, 0, -1] [1, 1, 1, -2] (by decide) rfl rfl _ _
    (some [0, 0, 0, -1]) hopt (by decide)
  refine ⟨F', out', k1, k2, ?_⟩
  rintro rfl
  have hu : (unique (sourceRows ([1, 1, 1, -2] : List Int) ([0, 0, 0, -1] : List Int)))[0]? = some 0 := by decide +kernel
  have e0 := k3 0 0 1 _ g h 0 rfl (by decide) rfl rfl hu rfl rfl
  have e1 := k3 1 0 1 _ g h 0 rfl (by decide) rfl rfl hu rfl rfl
  have e2 := k3 2 0 1 _ g h 0 rfl (by decide) rfl rfl hu rfl rfl
  have f0 := h3 0 0 1 _ _ _ 0 rfl (by decide) rfl rfl hu rfl rfl
  have f1 := h3 1 0 1 _ _ _ 0 rfl (by decide) rfl rfl hu rfl rfl
  have f2 := h3 2 0 1 _ _ _ 0 rfl (by decide) rfl rfl hu rfl rfl
  simp only [mapArr, List.getElem?_map, f0, f1, f2, Option.map_some, Option.some.injEq] at e0 e1 e2
  have a0 := congrFun e0 0
  have a1 := congrFun e1 0
  have a2 := congrFun e2 0
  simp [turn, rotQ, Matrix.vecMul, dotProduct, Fin.sum_univ_two] at a0 a1 a2
  linarith

end Skada

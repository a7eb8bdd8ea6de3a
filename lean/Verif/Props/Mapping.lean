/-
Properties of the mapping adapters: C34 (optimal transport), C64 (CORAL), C65 (multi-domain linear Monge),
C66 (MMD location-scale).
-/
import Verif.Lemmas.Mapping
import Verif.Props.Reweight
import Mathlib.LinearAlgebra.Matrix.Symmetric
import Mathlib.Tactic.FieldSimp
import Mathlib.Tactic.Ring
import Mathlib.Tactic.Linarith
import Mathlib.Tactic.NormNum
import Mathlib.Tactic.FinCases

namespace Skada
open Np Spec Map Matrix

/-! ### C34: optimal-transport mapping -/

theorem cast_float_rows (l : List (List Num)) : l.map (Cell.cast DType.float) = l := by
  have : (Cell.cast DType.float : List Num → List Num) = id := by
    funext r
    show r.map (Num.cast DType.float) = r
    have : (Num.cast DType.float) = id := by funext v; cases v <;> rfl
    rw [this, List.map_id]
  rw [this, List.map_id]

/-- C34. `fit_transform` trains the transport on exactly the source rows with their labels and the target rows with
theirs, and the result has, at every position `i`: the unchanged row `i` of `X` if the sample is a target sample, and
the `k`-th mapped row if it is the `k`-th source sample.  (`T` is the fitted transport, required to return one float row
of the right width per source row.) -/
theorem C34_ot_mapping {β : Type}
    (ot : NArr (List Num) → Option (List β) → NArr (List Num) → Option (List β) → Py (NArr (List Num) → Py (NArr (List Num))))
    (X : NArr (List Num)) (y : Option (List β)) (sd : List Int)
    (hX : X.rows ≠ []) (hlen : sd.length = X.rows.length) (hy : ∀ l, y = some l → l.length = sd.length)
    (hwf : ∀ r ∈ X.rows, Cell.cast X.dtype r = r)
    (T : NArr (List Num) → Py (NArr (List Num)))
    (hot : ot ⟨X.dtype, X.tail, sourceRows sd X.rows⟩ (y.map (sourceRows sd))
      ⟨X.dtype, X.tail, targetRows sd X.rows⟩ (y.map (targetRows sd)) = .ok T)
    (S : List (List Num)) (hS : S.length = nSource sd)
    (hT : 0 < nSource sd → T ⟨X.dtype, X.tail, sourceRows sd X.rows⟩ = .ok ⟨.float, X.tail, S⟩) :
    ∃ out, otFitTransform ot X y (.vec sd) = .ok out ∧ out.rows.length = X.rows.length ∧
      sourceRows sd out.rows = S ∧
      ∀ (i : Nat) (d : Int), sd[i]? = some d →
        (d < 0 → out.rows[i]? = X.rows[i]?) ∧
        (0 ≤ d → out.rows[i]? = S[nSource (sd.take i)]?) := by
  have hsd := RW.sd_ne hX hlen
  have hspl : splitN X sd = _ := splitN_ok hsd hlen
  have hsy : splitY y sd = .ok (y.map (sourceRows sd), y.map (targetRows sd)) := by
    cases y with
    | none => rfl
    | some l => simp [splitY, RW.splitX_ok hsd (hy l rfl).symm]
  have hfit : otFit ot X y (.vec sd) = .ok T := by
    simp [otFit, ok_bind, RW.check_ok hX hlen, hspl, hsy, hot]
  have hsl := length_sourceRows (a := X.rows) hlen
  have htl := length_targetRows (a := X.rows) hlen
  have hcast : ∀ l : List (List Num), l.Sublist X.rows → l.map (Cell.cast X.dtype) = l := by
    intro l hl
    have := List.map_congr_left (f := Cell.cast X.dtype) (g := id) (fun r hr => hwf r (hl.subset hr))
    simpa using this
  obtain ⟨sub1, sub2, -⟩ := C05_split_partition sd X.rows X.rows hlen.symm hlen.symm
  have fin : ∀ out : NArr (List Num), out.rows.length = sd.length → sourceRows sd out.rows = S →
      targetRows sd out.rows = targetRows sd X.rows → out.rows.length = X.rows.length ∧ sourceRows sd out.rows = S ∧
      ∀ (i : Nat) (d : Int), sd[i]? = some d →
        (d < 0 → out.rows[i]? = X.rows[i]?) ∧ (0 ≤ d → out.rows[i]? = S[nSource (sd.take i)]?) := by
    intro out hol hos hot'
    refine ⟨hol.trans hlen, hos, fun i d hd => ⟨fun h0 => ?_, fun h0 => ?_⟩⟩
    · rw [at_target hol.symm hd h0, at_target hlen hd h0, hot']
    · rw [at_source hol.symm hd h0, hos]
  by_cases hs : 0 < nSource sd
  · obtain ⟨out, ho, hol, -, -, hos, hot'⟩ := mergeN_ok (s := ⟨.float, X.tail, S⟩)
      (t := ⟨X.dtype, X.tail, targetRows sd X.rows⟩) hsd hS htl (fun _ _ => rfl)
    have hSne : S ≠ [] := by intro e; rw [e] at hS; simp at hS; omega
    have hdt : mergedDtype (⟨.float, X.tail, S⟩ : NArr (List Num)) ⟨X.dtype, X.tail, targetRows sd X.rows⟩ = .float := by
      simp [mergedDtype, hSne]
    rw [hdt, cast_float_rows] at hos hot'
    refine ⟨out, ?_, fin out hol hos hot'⟩
    simp [otFitTransform, ok_bind, pure_ok, hfit, otTransform, RW.check_ok hX hlen, hspl, hsl, hs, hT hs, ho]
  · have hs0 : nSource sd = 0 := by omega
    have hSn : S = [] := List.length_eq_zero_iff.1 (hS.trans hs0)
    have hsn : sourceRows sd X.rows = [] := List.length_eq_zero_iff.1 (hsl.trans hs0)
    obtain ⟨out, ho, hol, -, -, hos, hot'⟩ := mergeN_ok (s := ⟨X.dtype, X.tail, sourceRows sd X.rows⟩)
      (t := ⟨X.dtype, X.tail, targetRows sd X.rows⟩) hsd hsl htl (fun _ _ => rfl)
    have hdt : mergedDtype (⟨X.dtype, X.tail, sourceRows sd X.rows⟩ : NArr (List Num))
        ⟨X.dtype, X.tail, targetRows sd X.rows⟩ = X.dtype := by
      simp [mergedDtype]
    rw [hdt] at hos hot'
    rw [hcast _ sub2] at hot'
    simp only [hsn, List.map_nil] at hos
    refine ⟨out, ?_, fin out hol (hos.trans hSn.symm) hot'⟩
    simp [otFitTransform, ok_bind, pure_ok, hfit, otTransform, RW.check_ok hX hlen, hspl, hsn] at ho ⊢
    rw [ho]

/-- C34 (prediction time). On target samples only, `transform` (whose default refuses source samples) returns the data
unchanged, whatever transport was fitted; with any source sample it raises `ValueError`. -/
theorem C34_transform_targets (T : NArr (List Num) → Py (NArr (List Num))) (X : NArr (List Num)) (sd : List Int)
    (hX : X.rows ≠ []) (hlen : sd.length = X.rows.length) (hwf : ∀ r ∈ X.rows, Cell.cast X.dtype r = r) :
    (nSource sd = 0 → otTransform T X (.vec sd) false = .ok X) ∧
    (0 < nSource sd → otTransform T X (.vec sd) false = .error .valueError) := by
  have hsd := RW.sd_ne hX hlen
  constructor
  · intro h0
    have hsl := length_sourceRows (a := X.rows) hlen
    have htl := length_targetRows (a := X.rows) hlen
    have hsn : sourceRows sd X.rows = [] := List.length_eq_zero_iff.1 (hsl.trans h0)
    have htX : targetRows sd X.rows = X.rows := by
      obtain ⟨-, sub2, -, hl, -⟩ := C05_split_partition sd X.rows X.rows hlen.symm hlen.symm
      rw [hsn] at hl
      exact sub2.eq_of_length (by simpa using hl)
    obtain ⟨out, ho, hol, hd, ht, hos, hot'⟩ := mergeN_ok (s := ⟨X.dtype, X.tail, sourceRows sd X.rows⟩)
      (t := ⟨X.dtype, X.tail, targetRows sd X.rows⟩) hsd hsl htl (fun _ _ => rfl)
    have hdt : mergedDtype (⟨X.dtype, X.tail, sourceRows sd X.rows⟩ : NArr (List Num))
        ⟨X.dtype, X.tail, targetRows sd X.rows⟩ = X.dtype := by
      simp [mergedDtype]
    have htt : mergedTail (⟨X.dtype, X.tail, sourceRows sd X.rows⟩ : NArr (List Num))
        ⟨X.dtype, X.tail, targetRows sd X.rows⟩ = X.tail := by
      simp [mergedTail]
    have hX' : out = X := by
      have hr : out.rows = X.rows := by
        apply ext_of_rows hol.symm hlen
        · rw [hos, hsn]; rfl
        · rw [hot', hdt]
          have := List.map_congr_left (f := Cell.cast X.dtype) (g := id)
            (fun r (hr : r ∈ targetRows sd X.rows) => hwf r (htX ▸ hr))
          simpa using this
      cases out; cases X; simp_all
    rw [hX'] at ho
    simp [otTransform, ok_bind, pure_ok, check_noSource hX hlen h0, splitN_ok hsd hlen, hsn] at ho ⊢
    exact ho
  · intro h
    simp [otTransform, ok_bind, err_bind, pure_ok, check_source_refused hX hlen h]

/-- A concrete interleaved instance: the "transport" sends every source row to 10. -/
example : otFitTransform (α := List Num) (β := Nat)
    (fun _ _ _ _ => .ok fun X => .ok ⟨.float, X.tail, X.rows.map (fun r => r ++ [.fin 10] |>.reverse.take 1)⟩)
    ⟨.float, [1], [[.fin 1], [.fin 2], [.fin 3]]⟩ none (.vec [-1, 5, 0])
    = .ok ⟨.float, [1], [[.fin 1], [.fin 10], [.fin 10]]⟩ := by decide +kernel

/-! ### C64: CORAL -/

section Coral
set_option linter.unusedSectionVars false
variable {K : Type} [Field K] [LinearOrder K] [IsStrictOrderedRing K] {d : Nat}

/-- The CORAL map of a source row. -/
def coralSource (cov : List (Fin d → K) → Matrix (Fin d) (Fin d) K)
    (sqrtM invsqrtM : Matrix (Fin d) (Fin d) K → Matrix (Fin d) (Fin d) K) (ac : Bool)
    (Xs Xt : List (Fin d → K)) (x : Fin d → K) : Fin d → K :=
  ((x - if ac then 0 else colMean Xs) ᵥ* invsqrtM (cov Xs)) ᵥ* sqrtM (cov Xt)

theorem coral_out (cov : List (Fin d → K) → Matrix (Fin d) (Fin d) K)
    (sqrtM invsqrtM : Matrix (Fin d) (Fin d) K → Matrix (Fin d) (Fin d) K) (ac : Bool)
    (X : NArr (Fin d → K)) (sd : List Int) (hlen : sd.length = X.rows.length)
    (hs : 0 < nSource sd) (ht : 0 < nTarget sd) :
    ∃ out, coralFitTransform cov sqrtM invsqrtM ac X (.vec sd) = .ok out ∧ out.rows.length = X.rows.length ∧
      sourceRows sd out.rows = (sourceRows sd X.rows).map
        (coralSource cov sqrtM invsqrtM ac (sourceRows sd X.rows) (targetRows sd X.rows)) ∧
      targetRows sd out.rows = (targetRows sd X.rows).map
        (fun x => x - if ac then 0 else colMean (targetRows sd X.rows)) := by
  have hX : X.rows ≠ [] := by
    intro e; rw [e] at hlen
    have := nSource_add_nTarget sd
    simp at hlen; rw [hlen] at hs; simp [nSource] at hs
  have hsd := RW.sd_ne hX hlen
  have hsl := length_sourceRows (a := X.rows) hlen
  have htl := length_targetRows (a := X.rows) hlen
  have hsn := RW.sourceRows_ne hlen hs
  have htn := RW.targetRows_ne hlen ht
  have hfit : coralFit cov sqrtM invsqrtM X (.vec sd) = .ok
      { meanSource := colMean (sourceRows sd X.rows), meanTarget := colMean (targetRows sd X.rows)
        covSourceInvSqrt := invsqrtM (cov (sourceRows sd X.rows))
        covTargetSqrt := sqrtM (cov (targetRows sd X.rows)) } := by
    simp [coralFit, ok_bind, pure_ok, RW.check_ok hX hlen, splitN_ok hsd hlen, hsn, htn]
  let fs : (Fin d → K) → (Fin d → K) := fun x =>
    ((x - if ac then 0 else colMean (sourceRows sd X.rows)) ᵥ* invsqrtM (cov (sourceRows sd X.rows)))
      ᵥ* sqrtM (cov (targetRows sd X.rows))
  let ft : (Fin d → K) → (Fin d → K) := fun x => x - if ac then 0 else colMean (targetRows sd X.rows)
  let dt : DType := if ac then X.dtype else .float
  obtain ⟨out, ho, hol, -, -, hos, hot⟩ := mergeN_ok (s := ⟨.float, X.tail, (sourceRows sd X.rows).map fs⟩)
    (t := ⟨dt, X.tail, (targetRows sd X.rows).map ft⟩) hsd (by simp [hsl]) (by simp [htl]) (fun _ _ => rfl)
  have hid : ∀ (t : DType) (l : List (Fin d → K)), l.map (Cell.cast t) = l := by
    intro t l
    have : (Cell.cast t : (Fin d → K) → (Fin d → K)) = id := rfl
    rw [this, List.map_id]
  rw [hid] at hos hot
  refine ⟨out, ?_, hol.trans hlen, hos, hot⟩
  · rw [coralFitTransform, hfit, ok_bind, ← ho]
    simp only [coralTransform, RW.check_ok hX hlen, ok_bind, splitN_ok hsd hlen, hsl, htl, hs, ht, true_and, if_true]
    congr 1
    · congr 1
      cases ac <;> simp [fs, Function.comp_def]
    · cases ac <;> simp [ft, dt]

/-- C64 (rows). For every covariance estimator and matrix square roots: `fit_transform` sends the source sample at
position `i` to `(xᵢ − mean of the source rows) · cov_s^{-1/2} · cov_t^{1/2}` and the target sample at position `i` to
`xᵢ − mean of the target rows` (no centring when `assume_centered`). -/
theorem C64_rows (cov : List (Fin d → K) → Matrix (Fin d) (Fin d) K)
    (sqrtM invsqrtM : Matrix (Fin d) (Fin d) K → Matrix (Fin d) (Fin d) K) (ac : Bool)
    (X : NArr (Fin d → K)) (sd : List Int) (hlen : sd.length = X.rows.length)
    (hs : 0 < nSource sd) (ht : 0 < nTarget sd) :
    ∃ out, coralFitTransform cov sqrtM invsqrtM ac X (.vec sd) = .ok out ∧ out.rows.length = X.rows.length ∧
      (∀ (i : Nat) (l : Int) (x : Fin d → K), sd[i]? = some l → X.rows[i]? = some x →
        out.rows[i]? = some (if 0 ≤ l then
            ((x - if ac then 0 else colMean (sourceRows sd X.rows)) ᵥ* invsqrtM (cov (sourceRows sd X.rows)))
              ᵥ* sqrtM (cov (targetRows sd X.rows))
          else x - if ac then 0 else colMean (targetRows sd X.rows))) := by
  obtain ⟨out, ho, hol, hos, hot⟩ := coral_out cov sqrtM invsqrtM ac X sd hlen hs ht
  have hol' : sd.length = out.rows.length := hlen.trans hol.symm
  refine ⟨out, ho, hol, fun i l x hl hx => ?_⟩
  by_cases h0 : 0 ≤ l
  · rw [at_source hol' hl h0, hos, List.getElem?_map, ← at_source hlen hl h0, hx, if_pos h0]
    rfl
  · rw [at_target hol' hl (by omega), hot, List.getElem?_map, ← at_target hlen hl (by omega), hx, if_neg h0]
    rfl

/-- C64 (missing side). Fitting without source rows or without target rows is a `ValueError`. -/
theorem C64_missing_side (cov : List (Fin d → K) → Matrix (Fin d) (Fin d) K)
    (sqrtM invsqrtM : Matrix (Fin d) (Fin d) K → Matrix (Fin d) (Fin d) K)
    (X : NArr (Fin d → K)) (sd : List Int) (hX : X.rows ≠ []) (hlen : sd.length = X.rows.length)
    (h : nSource sd = 0 ∨ nTarget sd = 0) :
    coralFit cov sqrtM invsqrtM X (.vec sd) = .error .valueError := by
  have hsl := length_sourceRows (a := X.rows) hlen
  have htl := length_targetRows (a := X.rows) hlen
  simp only [coralFit, RW.check_ok hX hlen, ok_bind, splitN_ok (RW.sd_ne hX hlen) hlen, hsl, htl, h, if_true, throw_err,
    err_bind]

example : ∃ sd : List Int, sd = [1, 2] ∧ nTarget sd = 0 := ⟨_, rfl, rfl⟩


/-! Second moments. -/

theorem sum_map_lin (Y : List (Fin d → K)) (c : Fin d → K) :
    (Y.map (fun y => ∑ k, y k * c k)).sum = ∑ k, (Y.map (fun y => y k)).sum * c k := by
  induction Y with
  | nil => simp
  | cons y Y ih => simp [ih, add_mul, Finset.sum_add_distrib]

theorem colMean_vecMul (Y : List (Fin d → K)) (A : Matrix (Fin d) (Fin d) K) :
    colMean (Y.map (fun y => y ᵥ* A)) = colMean Y ᵥ* A := by
  funext j
  simp only [colMean, List.map_map, Function.comp_def, List.length_map, vecMul, dotProduct]
  rw [sum_map_lin Y (fun k => A k j), Finset.sum_div]
  exact Finset.sum_congr rfl fun k _ => by ring

theorem colMean_sub (X : List (Fin d → K)) (c : Fin d → K) (hX : X ≠ []) :
    colMean (X.map (fun x => x - c)) = colMean X - c := by
  have hn : (X.length : K) ≠ 0 := by
    have := List.length_pos_iff.2 hX
    exact_mod_cast this.ne'
  funext j
  have : (X.map (fun x => x j - c j)).sum = (X.map (fun x => x j)).sum - (X.length : K) * c j := by
    clear hn hX
    induction X with
    | nil => simp
    | cons x X ih => simp only [List.map_cons, List.sum_cons, ih, List.length_cons]; push_cast; ring
  simp only [colMean, List.map_map, Function.comp_def, List.length_map, Pi.sub_apply, this]
  field_simp

/-- The second moment about zero. -/
def moment (Y : List (Fin d → K)) : Matrix (Fin d) (Fin d) K :=
  Matrix.of fun i j => (Y.map (fun y => y i * y j)).sum / (Y.length : K)

theorem moment_vecMul (Y : List (Fin d → K)) (A : Matrix (Fin d) (Fin d) K) :
    moment (Y.map (fun y => y ᵥ* A)) = A.transpose * moment Y * A := by
  ext i j
  have key : (Y.map (fun y => (y ᵥ* A) i * (y ᵥ* A) j)).sum
      = ∑ k, ∑ l, (Y.map (fun y => y l * y k)).sum * (A l i * A k j) := by
    induction Y with
    | nil => simp
    | cons y Y ih =>
      simp only [List.map_cons, List.sum_cons, ih, add_mul, Finset.sum_add_distrib]
      congr 1
      simp only [vecMul, dotProduct, Finset.sum_mul_sum]
      rw [Finset.sum_comm]
      exact Finset.sum_congr rfl fun k _ => Finset.sum_congr rfl fun l _ => by ring
  simp only [moment, Matrix.of_apply, List.map_map, Function.comp_def, List.length_map, key, Matrix.mul_apply,
    Matrix.transpose_apply, Finset.sum_mul, Finset.sum_div]
  exact Finset.sum_congr rfl fun k _ => Finset.sum_congr rfl fun l _ => by ring

theorem empCov_eq_moment (ac : Bool) (X : List (Fin d → K)) :
    empCov ac X = moment (X.map (fun x => x - if ac then 0 else colMean X)) := by
  ext i j
  cases ac <;> simp [empCov, moment, Function.comp_def]

theorem empCov_of_centred (ac : Bool) {Y : List (Fin d → K)} (h : ac = false → colMean Y = 0) :
    empCov ac Y = moment Y := by
  rw [empCov_eq_moment]
  congr 1
  cases ac with
  | true => simp
  | false => simp [h rfl]

/-- What `numpy.linalg.eigh` and `numpy.sqrt` guarantee for a covariance matrix `C`: orthonormal eigenvectors (columns
of `V`), positive (`strict`) or non-negative eigenvalues, and square roots of these eigenvalues. -/
def Spec.EighOf (strict : Bool) (sqrt : K → K) (eigh : Matrix (Fin d) (Fin d) K → (Fin d → K) × Matrix (Fin d) (Fin d) K)
    (C : Matrix (Fin d) (Fin d) K) : Prop :=
  (eigh C).2 * (eigh C).2.transpose = 1 ∧ (eigh C).2.transpose * (eigh C).2 = 1 ∧
  C = (eigh C).2 * Matrix.diagonal (eigh C).1 * (eigh C).2.transpose ∧
  (∀ i, if strict then 0 < (eigh C).1 i else 0 ≤ (eigh C).1 i) ∧
  ∀ i, sqrt ((eigh C).1 i) * sqrt ((eigh C).1 i) = (eigh C).1 i

theorem of_scale (V : Matrix (Fin d) (Fin d) K) (f : Fin d → K) :
    (Matrix.of fun i j => V i j * f j) = V * Matrix.diagonal f := by
  ext i j; simp [Matrix.mul_diagonal]

theorem sqrtm_eq (sqrt : K → K) (eigh : Matrix (Fin d) (Fin d) K → (Fin d → K) × Matrix (Fin d) (Fin d) K)
    (C : Matrix (Fin d) (Fin d) K) :
    sqrtm sqrt eigh C = (eigh C).2 * Matrix.diagonal (fun i => sqrt ((eigh C).1 i)) * (eigh C).2.transpose := by
  unfold sqrtm
  rw [← of_scale]

theorem invsqrtm_eq (sqrt : K → K) (eigh : Matrix (Fin d) (Fin d) K → (Fin d → K) × Matrix (Fin d) (Fin d) K)
    (C : Matrix (Fin d) (Fin d) K) :
    invsqrtm sqrt eigh C = (eigh C).2 * Matrix.diagonal (fun i => 1 / sqrt ((eigh C).1 i)) * (eigh C).2.transpose := by
  unfold invsqrtm
  rw [← of_scale]
  simp [div_eq_mul_inv]

theorem mul_conj (V : Matrix (Fin d) (Fin d) K) (h : V.transpose * V = 1) (a b : Fin d → K) :
    (V * Matrix.diagonal a * V.transpose) * (V * Matrix.diagonal b * V.transpose)
      = V * Matrix.diagonal (fun i => a i * b i) * V.transpose := by
  calc _ = V * Matrix.diagonal a * (V.transpose * V) * Matrix.diagonal b * V.transpose := by
        simp only [Matrix.mul_assoc]
    _ = _ := by rw [h, Matrix.mul_one, Matrix.mul_assoc V, Matrix.diagonal_mul_diagonal]

theorem conj_symm (V : Matrix (Fin d) (Fin d) K) (a : Fin d → K) :
    (V * Matrix.diagonal a * V.transpose).transpose = V * Matrix.diagonal a * V.transpose := by
  simp [Matrix.transpose_mul, Matrix.mul_assoc]

/-- C64 (square roots). `_sqrtm` of a positive semi-definite matrix is symmetric and squares to it; `_invsqrtm` of a
positive definite matrix is symmetric and whitens it. -/
theorem C64_sqrtm (sqrt : K → K)
    (eigh : Matrix (Fin d) (Fin d) K → (Fin d → K) × Matrix (Fin d) (Fin d) K) (C : Matrix (Fin d) (Fin d) K) :
    (Spec.EighOf false sqrt eigh C →
      (sqrtm sqrt eigh C).transpose = sqrtm sqrt eigh C ∧ sqrtm sqrt eigh C * sqrtm sqrt eigh C = C) ∧
    (Spec.EighOf true sqrt eigh C →
      (invsqrtm sqrt eigh C).transpose = invsqrtm sqrt eigh C ∧
      invsqrtm sqrt eigh C * C * invsqrtm sqrt eigh C = 1) := by
  constructor
  · rintro ⟨-, h2, h3, -, hsqrt⟩
    rw [sqrtm_eq]
    refine ⟨conj_symm _ _, ?_⟩
    rw [mul_conj _ h2]
    have : (fun i => sqrt ((eigh C).1 i) * sqrt ((eigh C).1 i)) = (eigh C).1 :=
      funext fun i => hsqrt i
    rw [this, ← h3]
  · rintro ⟨h1, h2, h3, h4, hsqrt⟩
    rw [invsqrtm_eq]
    refine ⟨conj_symm _ _, ?_⟩
    generalize hV : (eigh C).2 = V at *
    generalize hl : (eigh C).1 = l at *
    rw [h3, mul_conj _ h2, mul_conj _ h2]
    have : (fun i => 1 / sqrt (l i) * l i * (1 / sqrt (l i))) = fun _ => (1 : K) := by
      funext i
      have hp : 0 < l i := by simpa using h4 i
      have hs := hsqrt i
      have hne : sqrt (l i) ≠ 0 := by
        intro e; rw [e] at hs; simp at hs; exact hp.ne hs
      field_simp
      rw [pow_two, hs]
    rw [this, Matrix.diagonal_one, Matrix.mul_one, h1]

/-- C64. With `reg=None` (empirical covariances) and a positive definite source covariance, the adapted source rows have
exactly the covariance of the target rows, the adapted target rows keep it, and both are centred (`assume_centered=True`
claims the same for second moments about zero, without centring). -/
theorem C64_coral_aligns (sqrt : K → K)
    (eigh : Matrix (Fin d) (Fin d) K → (Fin d → K) × Matrix (Fin d) (Fin d) K)
    (auto : List (Fin d → K) → Matrix (Fin d) (Fin d) K) (ac : Bool)
    (X : NArr (Fin d → K)) (sd : List Int) (hlen : sd.length = X.rows.length)
    (hs : 0 < nSource sd) (ht : 0 < nTarget sd)
    (hes : Spec.EighOf true sqrt eigh (empCov ac (sourceRows sd X.rows)))
    (het : Spec.EighOf false sqrt eigh (empCov ac (targetRows sd X.rows))) :
    ∃ out, coralFitTransform (estimateCov auto none ac) (sqrtm sqrt eigh) (invsqrtm sqrt eigh) ac X (.vec sd) = .ok out ∧
      empCov ac (sourceRows sd out.rows) = empCov ac (targetRows sd X.rows) ∧
      empCov ac (targetRows sd out.rows) = empCov ac (targetRows sd X.rows) ∧
      (ac = false → colMean (sourceRows sd out.rows) = 0 ∧ colMean (targetRows sd out.rows) = 0) := by
  obtain ⟨out, ho, -, hos, hot⟩ := coral_out (estimateCov auto none ac) (sqrtm sqrt eigh) (invsqrtm sqrt eigh) ac X sd
    hlen hs ht
  have hsn := RW.sourceRows_ne hlen hs
  have htn := RW.targetRows_ne hlen ht
  refine ⟨out, ho, ?_⟩
  obtain ⟨hPs, hP⟩ := (C64_sqrtm sqrt eigh _).2 hes
  obtain ⟨hQs, hQ⟩ := (C64_sqrtm sqrt eigh _).1 het
  set Xs := sourceRows sd X.rows
  set Xt := targetRows sd X.rows
  set P := invsqrtm sqrt eigh (empCov ac Xs)
  set Q := sqrtm sqrt eigh (empCov ac Xt)
  have hos' : sourceRows sd out.rows
      = ((Xs.map (fun x => x - if ac then 0 else colMean Xs)).map (fun y => y ᵥ* P)).map (fun y => y ᵥ* Q) := by
    rw [hos, List.map_map, List.map_map]; rfl
  have hms : ac = false → colMean (sourceRows sd out.rows) = 0 := by
    intro h
    rw [hos', colMean_vecMul, colMean_vecMul, colMean_sub _ _ hsn]
    simp [h]
  have hmt : ac = false → colMean (targetRows sd out.rows) = 0 := by
    intro h
    rw [hot, colMean_sub _ _ htn]
    simp [h]
  refine ⟨?_, ?_, fun h => ⟨hms h, hmt h⟩⟩
  · rw [empCov_of_centred ac hms, hos', moment_vecMul, moment_vecMul, ← empCov_eq_moment, hPs, hQs, hP,
      Matrix.mul_one, hQ]
  · rw [empCov_of_centred ac hmt, hot, ← empCov_eq_moment]

/-- The hypotheses of C64 for one feature, source rows `0, 2` (variance 1) and target rows `0, 4` (variance 4). -/
example : Spec.EighOf (K := ℚ) (d := 1) true (fun r => if r = 4 then 2 else r) (fun C => (fun _ => C 0 0, 1))
      (empCov false [fun _ => 0, fun _ => 2]) ∧
    Spec.EighOf (K := ℚ) (d := 1) false (fun r => if r = 4 then 2 else r) (fun C => (fun _ => C 0 0, 1))
      (empCov false [fun _ => 0, fun _ => 4]) := by
  refine ⟨⟨by simp, by simp, ?_, ?_, ?_⟩, ⟨by simp, by simp, ?_, ?_, ?_⟩⟩
  · ext i j; fin_cases i; fin_cases j; simp
  · intro i; simp [empCov, colMean]; norm_num
  · intro i; simp [empCov, colMean]; norm_num
  · ext i j; fin_cases i; fin_cases j; simp
  · intro i; simp [empCov, colMean]; norm_num
  · intro i; simp [empCov, colMean]; norm_num

/-- Non-vacuity of C64: one feature, source rows `0, 2` (variance 1), target rows `0, 4` (variance 4), where `eigh` of
a 1×1 matrix is its entry and `sqrt` is a function with `sqrt 1 = 1`, `sqrt 4 = 2`. -/
example : (coralFitTransform (K := ℚ) (d := 1) (estimateCov (fun _ => 0) none false)
      (sqrtm (fun r => if r = 4 then 2 else r) (fun C => (fun _ => C 0 0, 1)))
      (invsqrtm (fun r => if r = 4 then 2 else r) (fun C => (fun _ => C 0 0, 1))) false
      ⟨.float, [1], [fun _ => 0, fun _ => 0, fun _ => 4, fun _ => 2]⟩ (.vec [1, -1, -1, 3])).map
        (fun out => out.rows.map (fun r => r 0)) = .ok [-2, -2, 2, 2] := by
  decide +kernel

/-- The covariance estimate is the sum of the squared deviations along a direction. -/
theorem empCov_quad (ac : Bool) (X : List (Fin d → K)) (v : Fin d → K) :
    v ⬝ᵥ (empCov ac X *ᵥ v) = (X.map (fun x => ((x - if ac then 0 else colMean X) ⬝ᵥ v) ^ 2)).sum / (X.length : K) := by
  have h : ∀ m : Fin d → K, (X.map (fun x => ((x - m) ⬝ᵥ v) ^ 2)).sum =
      ∑ i, v i * ∑ j, (X.map (fun x => (x i - m i) * (x j - m j))).sum * v j := by
    intro m
    induction X with
    | nil => simp
    | cons x X ih =>
      simp only [List.map_cons, List.sum_cons, ih, add_mul, Finset.sum_add_distrib, mul_add]
      congr 1
      rw [pow_two]
      simp only [dotProduct, Pi.sub_apply]
      rw [Finset.sum_mul]
      refine Finset.sum_congr rfl (fun i _ => ?_)
      simp only [Finset.mul_sum]
      exact Finset.sum_congr rfl (fun j _ => by ring)
  rw [h, Finset.sum_div]
  simp only [dotProduct, Matrix.mulVec, empCov, Matrix.of_apply]
  refine Finset.sum_congr rfl (fun i _ => ?_)
  rw [Finset.mul_sum, Finset.mul_sum, Finset.sum_div]
  refine Finset.sum_congr rfl (fun j _ => ?_)
  cases ac <;> simp <;> ring

/-- C64 (shrinkage). A numeric `reg` between 0 and 1 leaves the total variance as it is, scales the covariances of
different features by `1 - reg`, and bounds the variance along every direction `v` from below by `reg` times the mean
variance: with `reg > 0` the estimate is invertible as soon as some feature varies. -/
theorem C64_shrinkage (auto : List (Fin d → K) → Matrix (Fin d) (Fin d) K) (s : K) (ac : Bool) (X : List (Fin d → K))
    (hd : 0 < d) :
    (∑ k, estimateCov auto (some (some s)) ac X k k = ∑ k, empCov ac X k k) ∧
    (∀ i j, i ≠ j → estimateCov auto (some (some s)) ac X i j = (1 - s) * empCov ac X i j) ∧
    (s ≤ 1 → ∀ v : Fin d → K, s * ((∑ k, empCov ac X k k) / (d : K)) * (v ⬝ᵥ v) ≤
      v ⬝ᵥ (estimateCov auto (some (some s)) ac X *ᵥ v)) := by
  have hd' : (d : K) ≠ 0 := by exact_mod_cast hd.ne'
  refine ⟨?_, ?_, ?_⟩
  · simp only [estimateCov, Matrix.of_apply, if_true, Finset.sum_add_distrib, ← Finset.mul_sum, Finset.sum_const,
      Finset.card_univ, Fintype.card_fin, nsmul_eq_mul]
    field_simp
    ring
  · intro i j h
    simp [estimateCov, h]
  · intro h1 v
    have hq : v ⬝ᵥ (estimateCov auto (some (some s)) ac X *ᵥ v) =
        (1 - s) * (v ⬝ᵥ (empCov ac X *ᵥ v)) + s * ((∑ k, empCov ac X k k) / (d : K)) * (v ⬝ᵥ v) := by
      have : estimateCov auto (some (some s)) ac X =
          (1 - s) • empCov ac X + (s * ((∑ k, empCov ac X k k) / (d : K))) • (1 : Matrix (Fin d) (Fin d) K) := by
        ext i j
        by_cases h : i = j
        · subst h; simp [estimateCov]
        · simp [estimateCov, h]
      rw [this, Matrix.add_mulVec, Matrix.smul_mulVec, Matrix.smul_mulVec, Matrix.one_mulVec, dotProduct_add,
        dotProduct_smul, dotProduct_smul, smul_eq_mul, smul_eq_mul]
    rw [hq, le_add_iff_nonneg_left, empCov_quad]
    refine mul_nonneg (by linarith) (div_nonneg (List.sum_nonneg ?_) (by positivity))
    intro a ha
    obtain ⟨x, -, rfl⟩ := List.mem_map.1 ha
    positivity

/-- Two features, the second constant: the empirical estimate is singular, the one with `reg = 1/2` is not. -/
example : (fun i j => estimateCov (K := ℚ) (d := 2) (fun _ => 0) (some (some (1 / 2))) false [![0, 1], ![2, 1]] i j)
    = fun i j => (![![3 / 4, 0], ![0, 1 / 4]] : Fin 2 → Fin 2 → ℚ) i j := by
  funext i j; fin_cases i <;> fin_cases j <;> decide +kernel

end Coral

/-! ### C65: multi-domain linear Monge alignment -/

theorem lookup_cases {β : Type} (dict : List (Int × β)) (k : Int) :
    (∃ g, lookup dict k = .ok g) ∨ lookup dict k = .error .keyError := by
  unfold lookup
  cases dict.find? (fun kv => decide (kv.1 = k)) with
  | none => exact .inr rfl
  | some kv => exact .inl ⟨_, rfl⟩

/-- C65 (rows, what holds). Every row is mapped by the map of its own domain, at its own position, whenever the mapped
values can be stored in the dtype of `X` (always true for float data).
Missing from the full claim: integer input, where the mapped values are truncated (`C65_counterexample`). -/
theorem C65_rows_partial {α : Type} [Cell α] (maps : List (Int × (α → α))) (f : Int → α → α) (X : NArr α) (sd : List Int)
    (hX : X.rows ≠ []) (hlen : sd.length = X.rows.length)
    (hmaps : ∀ d ∈ sd, lookup maps d = .ok (f d))
    (hrep : ∀ d x, Cell.cast X.dtype (f d x) = f d x) :
    ∃ out, mongeTransform maps X (.vec sd) = .ok out ∧ out.rows.length = X.rows.length ∧
      ∀ (i : Nat) (d : Int) (x : α), sd[i]? = some d → X.rows[i]? = some x → out.rows[i]? = some (f d x) := by
  have hsd := RW.sd_ne hX hlen
  obtain ⟨out, ho, hl, hv⟩ := mongeLoop_ok maps f X sd hlen (unique sd) (fun d hd => hmaps d (mem_unique.1 hd)) X.rows rfl
  refine ⟨{ X with rows := out }, ?_, hl, ?_⟩
  · simp [mongeTransform, RW.check_ok hX hlen, ok_bind, pure_ok, extractDomainsIndices, hsd, ho]
  · intro i d x hd hx
    rw [hv i d x hd hx, if_pos (mem_unique.2 (List.mem_of_getElem? hd)), hrep]

/-- C65 fails for integer data: the mapped value `1 + 1/2` is stored as `1`. -/
theorem C65_counterexample :
    ∃ (f : List Num → List Num) (X out : NArr (List Num)),
      (∀ r ∈ X.rows, Cell.cast X.dtype r = r) ∧
      mongeTransform [(-1, f)] X (.vec [-1]) = .ok out ∧ out.rows ≠ X.rows.map f := by
  refine ⟨fun _ => [.fin (3/2)], ⟨.int, [1], [[.fin 1]]⟩, ⟨.int, [1], [[.fin 1]]⟩, ?_, ?_, ?_⟩ <;> decide +kernel

/-- C65 (new domains). A sample of a domain that was not present during `fit` makes `transform` raise `KeyError`. -/
theorem C65_unknown_domain {α : Type} [Cell α] (maps : List (Int × (α → α))) (X : NArr α) (sd : List Int)
    (hX : X.rows ≠ []) (hlen : sd.length = X.rows.length) (h : ∃ d ∈ sd, d ∉ maps.map Prod.fst) :
    mongeTransform maps X (.vec sd) = .error .keyError := by
  have hsd := RW.sd_ne hX hlen
  have hk : ∃ d ∈ unique sd, lookup maps d = .error .keyError := by
    obtain ⟨d, hd, hn⟩ := h
    refine ⟨d, mem_unique.2 hd, ?_⟩
    have : maps.find? (fun kv => decide (kv.1 = d)) = none := by
      rw [List.find?_eq_none]
      intro kv hkv he
      exact hn (List.mem_map.2 ⟨kv, hkv, by simpa using he⟩)
    simp [lookup, this]
  have := mongeLoop_key maps X sd hlen (unique sd) hk (fun d _ => lookup_cases maps d) X.rows rfl
  simp [mongeTransform, RW.check_ok hX hlen, ok_bind, pure_ok, err_bind, extractDomainsIndices, hsd, this]

/-- C65 (fit). The map stored for a domain `d` is built from the statistics of the rows of domain `d` alone and from the
barycenter of the statistics of the source domains (in increasing order of label), for every domain present. Without
source samples `fit` raises `ValueError`. -/
theorem C65_fit {α γ β : Type} (covMean : List α → γ) (bary : List γ → β) (mapping : γ → β → α → α)
    (X : List α) (sd : List Int) (hX : X ≠ []) (hlen : sd.length = X.length) :
    (0 < nSource sd → ∃ (maps : List (Int × (α → α))) (ks : List Int),
      mongeFit covMean bary mapping X (.vec sd) = .ok maps ∧
      ks.Pairwise (· < ·) ∧ (∀ k, k ∈ ks ↔ k ∈ sd ∧ 0 ≤ k) ∧
      (∀ k, k ∈ maps.map Prod.fst ↔ k ∈ sd) ∧
      ∀ d ∈ sd, lookup maps d =
        .ok (mapping (covMean (domainRows d sd X)) (bary (ks.map (fun k => covMean (domainRows k sd X)))))) ∧
    (nSource sd = 0 → mongeFit covMean bary mapping X (.vec sd) = .error .valueError) := by
  have hsd := RW.sd_ne hX hlen
  obtain ⟨ks, hp, hk, hv⟩ := C06_per_domain_value [some X] sd (by simp) hsd (by simp [hlen])
  constructor
  · intro hs
    have hne : ks.filter (fun d => decide (0 ≤ d)) ≠ [] := by
      obtain ⟨d, hd, h0⟩ := List.countP_pos_iff.1 hs
      exact List.ne_nil_of_mem (List.mem_filter.2 ⟨(hk d).2 hd, h0⟩)
    refine ⟨(ks.filter (fun d => decide (0 ≤ d)) ++ ks.filter (fun d => decide (d < 0))).map
        (fun k => (k, mapping (covMean (domainRows k sd X))
          (bary ((ks.filter (fun d => decide (0 ≤ d))).map (fun k => covMean (domainRows k sd X)))))),
      ks.filter (fun d => decide (0 ≤ d)), ?_, hp.sublist List.filter_sublist, ?_, ?_, ?_⟩
    · simp only [mongeFit, RW.check_ok hX hlen, ok_bind, hv]
      rw [if_neg (by simpa using hne)]
      simp [pure_ok, Function.comp_def]
    · intro k; simp [hk]
    · intro k
      simp only [List.map_map, Function.comp_def, List.map_id', List.mem_append, List.mem_filter,
        decide_eq_true_eq, hk]
      constructor
      · rintro (h | h) <;> exact h.1
      · intro h
        rcases le_or_gt 0 k with h0 | h0
        · exact .inl ⟨h, h0⟩
        · exact .inr ⟨h, h0⟩
    · intro d hd
      have key : ∀ (l : List Int) (g : Int → α → α), d ∈ l →
          lookup (l.map (fun k => (k, g k))) d = .ok (g d) := by
        intro l g hm
        induction l with
        | nil => simp at hm
        | cons k l ih =>
          unfold lookup
          by_cases hkd : k = d
          · simp [hkd]
          · have hm' : d ∈ l := by
              rcases List.mem_cons.1 hm with h | h
              · exact absurd h.symm hkd
              · exact h
            have := ih hm'
            unfold lookup at this
            simpa [hkd] using this
      refine key _ (fun k => mapping (covMean (domainRows k sd X))
          (bary ((ks.filter (fun d => decide (0 ≤ d))).map (fun k => covMean (domainRows k sd X))))) ?_
      rw [List.mem_append, List.mem_filter, List.mem_filter]
      rcases le_or_gt 0 d with h0 | h0
      · exact .inl ⟨(hk d).2 hd, by simpa using h0⟩
      · exact .inr ⟨(hk d).2 hd, by simpa using h0⟩
  · intro h0
    have he : ks.filter (fun d => decide (0 ≤ d)) = [] := by
      rw [List.filter_eq_nil_iff]
      intro d hd h
      unfold nSource at h0
      rw [List.countP_eq_zero] at h0
      exact h0 d ((hk d).1 hd) h
    simp [mongeFit, RW.check_ok hX hlen, ok_bind, hv, he, throw_err]

example : (mongeFit (fun l : List Nat => l.sum) (fun l => l.sum) (fun c b x => x + 100 * c + 1000 * b)
    [1, 2, 3, 4] (.vec [5, -1, 0, -1])).map (fun m => m.map (fun kv => (kv.1, kv.2 0)))
    = .ok [(0, 4300), (5, 4100), (-1, 4600)] := by decide +kernel

section Cov
set_option linter.unusedSectionVars false
variable {K : Type} [Field K] [LinearOrder K] [IsStrictOrderedRing K] {d : Nat}

theorem zipWith_ones {β : Type} (f : K → β → K) (X : List β) :
    List.zipWith f (List.replicate X.length 1) X = X.map (f 1) := by
  induction X with
  | nil => rfl
  | cons x X ih => simp [List.replicate_succ, ih]

/-- C65 (statistics). Without weights the statistics of a domain are its population covariance and mean; with
`bias=False` they are the second moment about zero and the zero vector. -/
theorem C65_statistics (X : List (Fin d → K)) :
    getCovMean X none true = (empCov false X, colMean X) ∧
    getCovMean X none false = (empCov true X, 0) := by
  have hm : wmean (List.replicate X.length 1) X = colMean X := by
    funext j
    simp [wmean, colMean, zipWith_ones (fun a (x : Fin d → K) => a * x j) X]
  constructor
  · simp only [getCovMean, covMeanW, Option.getD_none, if_true, hm, empCov]
    refine Prod.ext ?_ rfl
    ext i j
    have := zipWith_ones (fun a (x : Fin d → K) => a * x i * x j) (X.map (fun x => x - colMean X))
    rw [List.length_map] at this
    simp [this, Function.comp_def]
  · simp only [getCovMean, covMeanW, Option.getD_none, empCov]
    refine Prod.ext ?_ rfl
    ext i j
    have := zipWith_ones (fun a (x : Fin d → K) => a * x i * x j) (X.map (fun x => x - fun _ => 0))
    rw [List.length_map] at this
    simp [this, Function.comp_def]

/-- C65 (weighted statistics). With weights of non-zero total the mean is the point about which the weighted residuals
cancel, and multiplying all weights by a constant changes neither mean nor covariance. -/
theorem C65_weighted_mean (X : List (Fin d → K)) (w : List K) (hl : w.length = X.length) (hw : w.sum ≠ 0) (j : Fin d) :
    (List.zipWith (fun a (x : Fin d → K) => a * (x j - (getCovMean X (some w) true).2 j)) w X).sum = 0 ∧
    ∀ (c : K) (bias : Bool), c ≠ 0 → getCovMean X (some (w.map (c * ·))) bias = getCovMean X (some w) bias := by
  constructor
  · have key : ∀ (w : List K) (X : List (Fin d → K)) (m : K), w.length = X.length →
        (List.zipWith (fun a (x : Fin d → K) => a * (x j - m)) w X).sum
          = (List.zipWith (fun a (x : Fin d → K) => a * x j) w X).sum - w.sum * m := by
      intro w
      induction w with
      | nil => intro X m _; simp
      | cons a w ih =>
        intro X m h
        cases X with
        | nil => cases h
        | cons x X =>
          simp only [List.zipWith_cons_cons, List.sum_cons, ih X m (by simpa using h)]
          ring
    rw [key w X _ hl]
    simp only [getCovMean, covMeanW, Option.getD_some, if_true, wmean]
    rw [mul_div_cancel₀ _ hw, sub_self]
  · intro c bias hc
    have hs : (w.map (c * ·)).sum = c * w.sum := by simpa using List.sum_map_mul_left w id c
    have hz : ∀ (f : (Fin d → K) → K) (Y : List (Fin d → K)),
        (List.zipWith (fun a x => a * f x) (w.map (c * ·)) Y).sum = c * (List.zipWith (fun a x => a * f x) w Y).sum := by
      intro f Y
      clear hl hw hs
      induction w generalizing Y with
      | nil => simp
      | cons a w ih =>
        cases Y with
        | nil => simp
        | cons y Y => simp only [List.map_cons, List.zipWith_cons_cons, List.sum_cons, ih]; ring
    have hm : wmean (w.map (c * ·)) X = wmean w X := by
      funext k
      simp only [wmean]
      rw [hs, hz (fun x => x k), mul_div_mul_left _ _ hc]
    simp only [getCovMean, covMeanW, Option.getD_some, hm]
    refine Prod.ext ?_ rfl
    ext i k
    simp only [Matrix.of_apply, mul_assoc]
    rw [hs, hz (fun x => x i * x k), mul_div_mul_left _ _ hc]

theorem quad_form (w : List K) (Y : List (Fin d → K)) (v : Fin d → K) :
    ∑ i, ∑ j, v i * (List.zipWith (fun a (x : Fin d → K) => a * x i * x j) w Y).sum * v j
      = (List.zipWith (fun a (x : Fin d → K) => a * (∑ i, v i * x i) ^ 2) w Y).sum := by
  induction w generalizing Y with
  | nil => simp
  | cons a w ih =>
    cases Y with
    | nil => simp
    | cons y Y =>
      simp only [List.zipWith_cons_cons, List.sum_cons, mul_add, add_mul, Finset.sum_add_distrib, ih Y]
      congr 1
      rw [pow_two, Finset.sum_mul_sum, Finset.mul_sum]
      refine Finset.sum_congr rfl fun i _ => ?_
      rw [Finset.mul_sum]
      exact Finset.sum_congr rfl fun j _ => by ring

/-- C65 (covariances). For non-negative weights the covariance handed to the barycenter is symmetric and positive
semi-definite, so it is a legal input. -/
theorem C65_cov_psd (X : List (Fin d → K)) (w : Option (List K)) (bias : Bool) (hw : ∀ l, w = some l → ∀ a ∈ l, 0 ≤ a) :
    (getCovMean X w bias).1.transpose = (getCovMean X w bias).1 ∧
    ∀ v : Fin d → K, 0 ≤ ∑ i, ∑ j, v i * (getCovMean X w bias).1 i j * v j := by
  have hw' : ∀ a ∈ w.getD (List.replicate X.length 1), (0 : K) ≤ a := by
    cases w with
    | none => intro a ha; rw [Option.getD_none] at ha; rw [List.eq_of_mem_replicate ha]; exact zero_le_one
    | some l => exact hw l rfl
  unfold getCovMean
  generalize w.getD (List.replicate X.length 1) = u at hw'
  constructor
  · ext i j
    simp only [covMeanW, Matrix.transpose_apply, Matrix.of_apply]
    congr 3
    funext a x; ring
  · intro v
    have : ∑ i, ∑ j, v i * (covMeanW u X bias).1 i j * v j
        = (∑ i, ∑ j, v i * (List.zipWith (fun a (x : Fin d → K) => a * x i * x j) u
            (X.map (fun x => x - (covMeanW u X bias).2))).sum * v j) / u.sum := by
      rw [Finset.sum_div]
      refine Finset.sum_congr rfl fun i _ => ?_
      rw [Finset.sum_div]
      refine Finset.sum_congr rfl fun j _ => ?_
      simp only [covMeanW, Matrix.of_apply]
      ring
    rw [this, quad_form]
    refine div_nonneg (RW.sum_nonneg' ?_) (RW.sum_nonneg' hw')
    intro z hz
    obtain ⟨k, hk, rfl⟩ := List.getElem_of_mem hz
    rw [List.getElem_zipWith]
    exact mul_nonneg (hw' _ (List.getElem_mem _)) (sq_nonneg _)

example : getCovMean (K := ℚ) (d := 1) [fun _ => 1, fun _ => 3] none true = (fun _ _ => 1, fun _ => 2) := by
  refine Prod.ext ?_ ?_
  · ext i j; fin_cases i; fin_cases j; simp [getCovMean, covMeanW, wmean]; norm_num
  · funext i; simp [getCovMean, covMeanW, wmean]; norm_num

end Cov

/-! ### C66: MMD location-scale mapping -/

section MMDLS
set_option linter.unusedSectionVars false
variable {K : Type} [Field K] [LinearOrder K] [IsStrictOrderedRing K] {d : Nat} {β : Type} [LinearOrder β]

theorem classParam_eq {classes : List β} (hn : classes.Nodup) {G : List (Fin d → K)} {k : Nat} {c : β} {g : Fin d → K}
    (hc : classes[k]? = some c) (hg : G[k]? = some g) : classParam classes G c = g := by
  funext j
  exact listDot_indicator (i := k) hn hc (by simp [hg])

theorem classParam_not_mem {classes : List β} {G : List (Fin d → K)} {c : β} (hc : c ∉ classes) :
    classParam classes G c = fun _ => 0 := by
  funext j
  exact listDot_indicator_not_mem hc

theorem scaleShift_at {W B X : List (Fin d → K)} {k : Nat} {w b x : Fin d → K}
    (hw : W[k]? = some w) (hb : B[k]? = some b) (hx : X[k]? = some x) :
    (scaleShift W B X)[k]? = some (fun j => w j * x j + b j) := by
  unfold scaleShift
  rw [List.getElem?_zipWith, (List.getElem?_zip_eq_some (z := (w, b))).2 ⟨hw, hb⟩, hx]

theorem length_scaleShift {W B X : List (Fin d → K)} (h1 : W.length = X.length) (h2 : B.length = X.length) :
    (scaleShift W B X).length = X.length := by
  simp [scaleShift, h1, h2]

/-- What `transform` computes once the per-row parameters are known. -/
theorem mmdls_out (X : NArr (Fin d → K)) (sd : List Int) (hX : X.rows ≠ []) (hlen : sd.length = X.rows.length)
    (W B : List (Fin d → K)) (hW : W.length = nSource sd) (hB : B.length = nSource sd) :
    ∃ out, mergeN ⟨.float, X.tail, scaleShift W B (sourceRows sd X.rows)⟩ { X with rows := targetRows sd X.rows } sd = .ok out ∧
      out.rows.length = X.rows.length ∧
      (∀ (i : Nat) (l : Int), sd[i]? = some l → l < 0 → out.rows[i]? = X.rows[i]?) ∧
      (∀ (i : Nat) (l : Int) (x w b : Fin d → K), sd[i]? = some l → 0 ≤ l → X.rows[i]? = some x →
        W[nSource (sd.take i)]? = some w → B[nSource (sd.take i)]? = some b →
        out.rows[i]? = some (fun j => w j * x j + b j)) := by
  have hsd := RW.sd_ne hX hlen
  have hsl := length_sourceRows (a := X.rows) hlen
  have htl := length_targetRows (a := X.rows) hlen
  obtain ⟨out, ho, hol, -, -, hos, hot⟩ := mergeN_ok (s := ⟨.float, X.tail, scaleShift W B (sourceRows sd X.rows)⟩)
    (t := { X with rows := targetRows sd X.rows }) hsd
    (by rw [← hsl]; exact length_scaleShift (hW.trans hsl.symm) (hB.trans hsl.symm)) htl (fun _ _ => rfl)
  have hid : ∀ (t : DType) (l : List (Fin d → K)), l.map (Cell.cast t) = l := by
    intro t l
    have : (Cell.cast t : (Fin d → K) → (Fin d → K)) = id := rfl
    rw [this, List.map_id]
  rw [hid] at hos hot
  refine ⟨out, ho, hol.trans hlen, ?_, ?_⟩
  · intro i l hl h0
    rw [at_target hol.symm hl h0, hot, ← at_target hlen hl h0]
  · intro i l x w b hl h0 hx hw hb
    rw [at_source hol.symm hl h0, hos]
    exact scaleShift_at hw hb (by rw [← at_source hlen hl h0, hx])

theorem mmdlsFit_ok (opt : List (Fin d → K) → List (Fin d → K) → List β → List (Fin d → K) × List (Fin d → K))
    (X : List (Fin d → K)) (y : List β) (sd : List Int) (hX : X ≠ []) (hlen : sd.length = X.length)
    (hy : sd.length = y.length) (G H : List (Fin d → K))
    (hopt : opt (sourceRows sd X) (targetRows sd X) (sourceRows sd y) = (G, H)) :
    mmdlsFit opt X y (.vec sd) = .ok
      { Xs := sourceRows sd X, W := (sourceRows sd y).map (classParam (unique (sourceRows sd y)) G)
        B := (sourceRows sd y).map (classParam (unique (sourceRows sd y)) H)
        classes := unique (sourceRows sd y), G := G, H := H } := by
  have hsd := RW.sd_ne hX hlen
  simp [mmdlsFit, RW.check_ok hX hlen, ok_bind, pure_ok, RW.splitX_ok hsd hlen, RW.splitX_ok hsd hy, hopt]

/-- C66 (training data). After `fit`, transforming the training data leaves target rows unchanged and sends a source row
`x` of class `c` to `g ∘ x + h`, where `g`, `h` are the scale and offset optimised for class `c` (the position of `c`
among the sorted source classes), at its own position; whether or not labels are passed. -/
theorem C66_fit_transform (dist : (Fin d → K) → (Fin d → K) → K)
    (opt : List (Fin d → K) → List (Fin d → K) → List β → List (Fin d → K) × List (Fin d → K))
    (X : NArr (Fin d → K)) (y : List β) (sd : List Int) (hX : X.rows ≠ []) (hlen : sd.length = X.rows.length)
    (hy : sd.length = y.length) (G H : List (Fin d → K)) (ypass : Option (List β))
    (hopt : opt (sourceRows sd X.rows) (targetRows sd X.rows) (sourceRows sd y) = (G, H)) (hs : 0 < nSource sd) :
    ∃ F out, mmdlsFit opt X.rows y (.vec sd) = .ok F ∧ mmdlsTransform dist F X ypass (.vec sd) true = .ok out ∧
      out.rows.length = X.rows.length ∧
      (∀ (i : Nat) (l : Int), sd[i]? = some l → l < 0 → out.rows[i]? = X.rows[i]?) ∧
      (∀ (i k : Nat) (l : Int) (x g h : Fin d → K) (c : β), sd[i]? = some l → 0 ≤ l → X.rows[i]? = some x →
        y[i]? = some c → (unique (sourceRows sd y))[k]? = some c → G[k]? = some g → H[k]? = some h →
        out.rows[i]? = some (fun j => g j * x j + h j)) := by
  have hsd := RW.sd_ne hX hlen
  have hsl := length_sourceRows (a := X.rows) hlen
  have hyl := length_sourceRows (a := y) hy
  have hsn := RW.sourceRows_ne hlen hs
  obtain ⟨out, ho, hol, h1, h2⟩ := mmdls_out X sd hX hlen
    ((sourceRows sd y).map (classParam (unique (sourceRows sd y)) G))
    ((sourceRows sd y).map (classParam (unique (sourceRows sd y)) H)) (by simp [hyl]) (by simp [hyl])
  refine ⟨_, out, mmdlsFit_ok opt X.rows y sd hX hlen hy G H hopt, ?_, hol, h1, ?_⟩
  · have hm := extractSourceIndices_ok hsd
    have e1 : boolIndex X.rows (sd.map (fun d => decide (0 ≤ d))) = .ok (sourceRows sd X.rows) := by
      rw [boolIndex_ok (by simp [hlen]), sel_source]
    have e2 : boolIndex X.rows ((sd.map (fun d => decide (0 ≤ d))).map (!·)) = .ok (targetRows sd X.rows) := by
      rw [← tgtMask_eq, boolIndex_ok (by simp [hlen]), sel_target]
    simp only [mmdlsTransform, RW.check_ok hX hlen, ok_bind, hm, e1, e2]
    rw [if_neg (by omega)]
    simp only [if_true, pure_ok, ok_bind]
    exact ho
  · intro i k l x g h c hl h0 hx hc hk hg hh
    have hr : (sourceRows sd y)[nSource (sd.take i)]? = some c := by rw [← at_source hy hl h0, hc]
    refine h2 i l x g h hl h0 hx ?_ ?_
    · rw [List.getElem?_map, hr, Option.map_some, classParam_eq (nodup_unique _) hk hg]
    · rw [List.getElem?_map, hr, Option.map_some, classParam_eq (nodup_unique _) hk hh]

/-- C66 (new labelled data). For other source data passed with labels, the same class map is applied; a label that did
not occur during `fit` sends its row to the zero vector. -/
theorem C66_new_labelled (dist : (Fin d → K) → (Fin d → K) → K) (F : MmdLs K d β) (hn : F.classes.Nodup)
    (X : NArr (Fin d → K)) (y : List β) (sd : List Int) (hX : X.rows ≠ []) (hlen : sd.length = X.rows.length)
    (hy : sd.length = y.length) (hs : 0 < nSource sd) (hnew : F.Xs ≠ sourceRows sd X.rows) :
    ∃ out, mmdlsTransform dist F X (some y) (.vec sd) true = .ok out ∧ out.rows.length = X.rows.length ∧
      (∀ (i : Nat) (l : Int), sd[i]? = some l → l < 0 → out.rows[i]? = X.rows[i]?) ∧
      (∀ (i k : Nat) (l : Int) (x g h : Fin d → K) (c : β), sd[i]? = some l → 0 ≤ l → X.rows[i]? = some x →
        y[i]? = some c → F.classes[k]? = some c → F.G[k]? = some g → F.H[k]? = some h →
        out.rows[i]? = some (fun j => g j * x j + h j)) ∧
      (∀ (i : Nat) (l : Int) (x : Fin d → K) (c : β), sd[i]? = some l → 0 ≤ l → X.rows[i]? = some x →
        y[i]? = some c → c ∉ F.classes → out.rows[i]? = some (fun _ => 0)) := by
  have hsd := RW.sd_ne hX hlen
  have hsl := length_sourceRows (a := X.rows) hlen
  have hyl := length_sourceRows (a := y) hy
  obtain ⟨out, ho, hol, h1, h2⟩ := mmdls_out X sd hX hlen
    ((sourceRows sd y).map (classParam F.classes F.G))
    ((sourceRows sd y).map (classParam F.classes F.H)) (by simp [hyl]) (by simp [hyl])
  refine ⟨out, ?_, hol, h1, ?_, ?_⟩
  · have hm := extractSourceIndices_ok hsd
    have e1 : boolIndex X.rows (sd.map (fun d => decide (0 ≤ d))) = .ok (sourceRows sd X.rows) := by
      rw [boolIndex_ok (by simp [hlen]), sel_source]
    have e2 : boolIndex X.rows ((sd.map (fun d => decide (0 ≤ d))).map (!·)) = .ok (targetRows sd X.rows) := by
      rw [← tgtMask_eq, boolIndex_ok (by simp [hlen]), sel_target]
    have e3 : boolIndex y (sd.map (fun d => decide (0 ≤ d))) = .ok (sourceRows sd y) := by
      rw [boolIndex_ok (by simp [hy]), sel_source]
    simp only [mmdlsTransform, RW.check_ok hX hlen, ok_bind, hm, e1, e2]
    rw [if_neg (by omega)]
    simp only [if_neg hnew, e3, pure_ok, ok_bind]
    exact ho
  · intro i k l x g h c hl h0 hx hc hk hg hh
    have hr : (sourceRows sd y)[nSource (sd.take i)]? = some c := by rw [← at_source hy hl h0, hc]
    refine h2 i l x g h hl h0 hx ?_ ?_
    · rw [List.getElem?_map, hr, Option.map_some, classParam_eq hn hk hg]
    · rw [List.getElem?_map, hr, Option.map_some, classParam_eq hn hk hh]
  · intro i l x c hl h0 hx hc hk
    have hr : (sourceRows sd y)[nSource (sd.take i)]? = some c := by rw [← at_source hy hl h0, hc]
    have := h2 i l x (fun _ => 0) (fun _ => 0) hl h0 hx
      (by rw [List.getElem?_map, hr, Option.map_some, classParam_not_mem hk])
      (by rw [List.getElem?_map, hr, Option.map_some, classParam_not_mem hk])
    rw [this]
    simp

/-- C66 (new unlabelled data). Without labels, a new source row uses the scale and offset of a nearest training source
row. -/
theorem C66_new_unlabelled (dist : (Fin d → K) → (Fin d → K) → K) (F : MmdLs K d β)
    (X : NArr (Fin d → K)) (sd : List Int) (hX : X.rows ≠ []) (hlen : sd.length = X.rows.length)
    (hs : 0 < nSource sd) (hnew : F.Xs ≠ sourceRows sd X.rows)
    (hF : F.Xs ≠ []) (hW : F.W.length = F.Xs.length) (hB : F.B.length = F.Xs.length) :
    ∃ out, mmdlsTransform dist F X none (.vec sd) true = .ok out ∧ out.rows.length = X.rows.length ∧
      (∀ (i : Nat) (l : Int), sd[i]? = some l → l < 0 → out.rows[i]? = X.rows[i]?) ∧
      (∀ (i : Nat) (l : Int) (x : Fin d → K), sd[i]? = some l → 0 ≤ l → X.rows[i]? = some x →
        ∃ (k : Nat) (z w b : Fin d → K), F.Xs[k]? = some z ∧ (∀ z' ∈ F.Xs, dist x z ≤ dist x z') ∧
          F.W[k]? = some w ∧ F.B[k]? = some b ∧ out.rows[i]? = some (fun j => w j * x j + b j)) := by
  have hsd := RW.sd_ne hX hlen
  have hsl := length_sourceRows (a := X.rows) hlen
  -- the nearest training row
  let nn : (Fin d → K) → Nat := fun x => match nearest dist F.Xs x with | .ok k => k | .error _ => 0
  have hnn : ∀ x, nearest dist F.Xs x = .ok (nn x) ∧ ∃ z, F.Xs[nn x]? = some z ∧ ∀ z' ∈ F.Xs, dist x z ≤ dist x z' := by
    intro x
    obtain ⟨k, v, hk, hv, hmin, -⟩ := argmin_spec (l := F.Xs.map (dist x)) (by simpa using hF)
    have e : nearest dist F.Xs x = .ok k := hk
    have e' : nn x = k := by simp only [nn, e]
    rw [List.getElem?_map] at hv
    cases hz : F.Xs[k]? with
    | none => rw [hz] at hv; cases hv
    | some z =>
      rw [hz] at hv
      simp only [Option.map_some, Option.some.injEq] at hv
      refine ⟨by rw [e, e'], z, by rw [e', hz], fun z' hz' => ?_⟩
      rw [hv]
      exact hmin _ (List.mem_map.2 ⟨z', hz', rfl⟩)
  have hmap : (sourceRows sd X.rows).mapM (nearest dist F.Xs) = .ok ((sourceRows sd X.rows).map nn) :=
    mapM_ok fun x _ => (hnn x).1
  have hlt : ∀ k ∈ (sourceRows sd X.rows).map nn, k < F.Xs.length := by
    intro k hk
    obtain ⟨x, -, rfl⟩ := List.mem_map.1 hk
    obtain ⟨-, z, hz, -⟩ := hnn x
    exact (List.getElem?_eq_some_iff.1 hz).1
  obtain ⟨W, hWt⟩ := take_ok_of_lt (a := F.W) (fun k hk => by rw [hW]; exact hlt k hk)
  obtain ⟨B, hBt⟩ := take_ok_of_lt (a := F.B) (fun k hk => by rw [hB]; exact hlt k hk)
  have fW := take_ok_iff.1 hWt
  have fB := take_ok_iff.1 hBt
  obtain ⟨out, ho, hol, h1, h2⟩ := mmdls_out X sd hX hlen W B
    (by rw [← fW.length_eq]; simp [hsl]) (by rw [← fB.length_eq]; simp [hsl])
  refine ⟨out, ?_, hol, h1, ?_⟩
  · have hm := extractSourceIndices_ok hsd
    have e1 : boolIndex X.rows (sd.map (fun d => decide (0 ≤ d))) = .ok (sourceRows sd X.rows) := by
      rw [boolIndex_ok (by simp [hlen]), sel_source]
    have e2 : boolIndex X.rows ((sd.map (fun d => decide (0 ≤ d))).map (!·)) = .ok (targetRows sd X.rows) := by
      rw [← tgtMask_eq, boolIndex_ok (by simp [hlen]), sel_target]
    simp only [mmdlsTransform, RW.check_ok hX hlen, ok_bind, hm, e1, e2]
    rw [if_neg (by omega)]
    simp only [if_neg hnew, hmap, hWt, hBt, pure_ok, ok_bind]
    exact ho
  · intro i l x hl h0 hx
    have hr : (sourceRows sd X.rows)[nSource (sd.take i)]? = some x := by rw [← at_source hlen hl h0, hx]
    have hrn : ((sourceRows sd X.rows).map nn)[nSource (sd.take i)]? = some (nn x) := by
      rw [List.getElem?_map, hr]; rfl
    obtain ⟨-, z, hz, hmin⟩ := hnn x
    have get : ∀ {A R : List (Fin d → K)}, List.Forall₂ (fun k v => A[k]? = some v) ((sourceRows sd X.rows).map nn) R →
        ∃ v, R[nSource (sd.take i)]? = some v ∧ A[nn x]? = some v := by
      intro A R h
      have hi := (List.getElem?_eq_some_iff.1 hrn).1
      have hiR : nSource (sd.take i) < R.length := by rw [← h.length_eq]; exact hi
      refine ⟨R[nSource (sd.take i)], List.getElem?_eq_getElem hiR, ?_⟩
      have := List.forall₂_iff_get.1 h |>.2 (nSource (sd.take i)) hi hiR
      simp only [List.get_eq_getElem] at this
      rw [← this]
      congr 1
      exact (Option.some.inj ((List.getElem?_eq_getElem hi).symm.trans hrn)).symm
    obtain ⟨w, hw, hwF⟩ := get fW
    obtain ⟨b, hb, hbF⟩ := get fB
    exact ⟨nn x, z, w, b, hz, hmin, hwF, hbF, h2 i l x w b hl h0 hx hw hb⟩

/-- Concrete instances: class 0 is doubled, class 7 shifted by 1; target row untouched; unseen class collapses to 0. -/
example : ((mmdlsTransform (K := ℚ) (d := 1) (β := ℤ) (fun _ _ => 0)
      ⟨[fun _ => 1, fun _ => 2], [fun _ => 2, fun _ => 1], [fun _ => 0, fun _ => 1], [0, 7],
        [fun _ => 2, fun _ => 1], [fun _ => 0, fun _ => 1]⟩
      ⟨.float, [1], [fun _ => 5, fun _ => 3, fun _ => 4, fun _ => 9]⟩ (some [7, 0, -1, 3]) (.vec [1, 1, -2, 1]) true).map
        (fun out => out.rows.map (fun r => r 0))) = .ok [6, 6, 4, 0] := by
  decide +kernel

end MMDLS

end Skada

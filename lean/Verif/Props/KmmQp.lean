import Verif.Props.QpScipy

/-!
# C126: kernel mean matching minimises the kernel discrepancy it promises to minimise
-/

set_option linter.unusedSectionVars false

namespace Skada
open FW RW Spec

variable {K : Type} [Field K] [LinearOrder K] [IsStrictOrderedRing K] {α : Type}

namespace Spec

/-- `∑ w v k(x, y)` over two weighted samples. -/
def pairSum (k : α → α → K) (l m : List (K × α)) : K := (l.map (fun p => (m.map (fun q => p.1 * q.1 * k p.2 q.2)).sum)).sum

/-- The squared kernel distance between the weighted mean of a sample of `n` points (weights divided by `n`) and the mean of `ts`. -/
def mmdSq (k : α → α → K) (l : List (K × α)) (ts : List α) : K :=
  pairSum k l l / (l.length : K) ^ 2 - 2 * pairSum k l (ts.map (fun t => (1, t))) / ((l.length : K) * (ts.length : K))
    + pairSum k (ts.map (fun t => (1, t))) (ts.map (fun t => (1, t))) / (ts.length : K) ^ 2

end Spec

namespace QP

theorem zip_ofFn (Xs : List α) (x : Fin Xs.length → K) : (List.ofFn x).zip Xs = List.ofFn (fun i => (x i, Xs[i])) := by
  apply List.ext_getElem
  · simp
  · intro i h1 h2
    simp

theorem pairSum_ofFn (k : α → α → K) {n : Nat} (f : Fin n → K × α) :
    pairSum k (List.ofFn f) (List.ofFn f) = ∑ i, ∑ j, (f i).1 * (f j).1 * k (f i).2 (f j).2 := by
  simp [pairSum, List.map_ofFn, List.sum_ofFn, Function.comp_def]

theorem pairSum_ofFn_left (k : α → α → K) {n : Nat} (f : Fin n → K × α) (ts : List α) :
    pairSum k (List.ofFn f) (ts.map (fun t => (1, t))) = ∑ i, (f i).1 * (ts.map (fun t => k (f i).2 t)).sum := by
  simp only [pairSum, List.map_ofFn, List.sum_ofFn, Function.comp_def, List.map_map, mul_one]
  refine Finset.sum_congr rfl fun i _ => ?_
  rw [List.sum_map_mul_left]

/-- The discrepancy is the objective of the program, scaled and shifted. -/
theorem mmdSq_eq (k : α → α → K) (Xs Xt : List α) (hs : Xs ≠ []) (ht : Xt ≠ []) (x : Fin Xs.length → K) :
    mmdSq k ((List.ofFn x).zip Xs) Xt =
      2 / (Xs.length : K) ^ 2 * qpObjective (fun i j => k Xs[i] Xs[j])
        (some (fun i => -((Xs.length : K) * RW.mean (Xt.map (fun t => k Xs[i] t))))) x
      + pairSum k (Xt.map (fun t => (1, t))) (Xt.map (fun t => (1, t))) / (Xt.length : K) ^ 2 := by
  have hn : (Xs.length : K) ≠ 0 := by
    have : 0 < Xs.length := List.length_pos_iff.2 hs
    exact_mod_cast this.ne'
  have hm : (Xt.length : K) ≠ 0 := by
    have : 0 < Xt.length := List.length_pos_iff.2 ht
    exact_mod_cast this.ne'
  unfold mmdSq
  rw [zip_ofFn, pairSum_ofFn, pairSum_ofFn_left]
  simp only [List.length_ofFn]
  congr 1
  have hq : ∑ i, ∑ j, x i * x j * k Xs[i] Xs[j] = ∑ i, ∑ j, x i * k Xs[i] Xs[j] * x j :=
    Finset.sum_congr rfl fun i _ => Finset.sum_congr rfl fun j _ => by ring
  have hc : ∑ i, x i * (-((Xs.length : K) * RW.mean (Xt.map (fun t => k Xs[i] t))))
      = -((Xs.length : K) / (Xt.length : K)) * ∑ i, x i * (Xt.map (fun t => k Xs[i] t)).sum := by
    rw [Finset.mul_sum]
    refine Finset.sum_congr rfl fun i _ => ?_
    simp only [RW.mean, List.length_map]
    field_simp
  simp only [qpObjective, Option.elim]
  rw [hc, hq]
  field_simp
  ring

theorem list_ofFn_self {n : Nat} (z : List K) (h : z.length = n) : ∃ f : Fin n → K, z = List.ofFn f := by
  subst h
  exact ⟨fun i => z[i], by simp⟩

/-- The weights and the warnings of `fit_transform` are those of the optimisation on the source rows. -/
theorem kmm_assemble [DecidableEq α] (minimize : ∀ n, Call K n → Py (Result K n)) (k : α → α → K) (sqrt : K → K)
    (eps : Option K) (B tol : K) (solver : String) (maxIter : Nat) (X : List α) (sd : List Int)
    (hlen : sd.length = X.length) (hs : 0 < nSource sd) :
    match kmmOptimizeAll minimize k sqrt eps B tol solver maxIter (sourceRows sd X) (targetRows sd X) with
    | .error e => kmmFitTransform minimize k sqrt eps B tol solver maxIter false X (.vec sd) = .error e
    | .ok (v, warns) => v.length = nSource sd →
      ∃ w, kmmFitTransform minimize k sqrt eps B tol solver maxIter false X (.vec sd) = .ok (w, warns) ∧ w.length = X.length ∧
        sourceRows sd w = v.map some ∧ targetRows sd w = List.replicate (nTarget sd) (some 0) := by
  have hX : X ≠ [] := by
    rintro rfl
    have : sd = [] := by simpa using hlen
    subst this
    simp [nSource] at hs
  have hsd := sd_ne hX hlen
  cases ho : kmmOptimizeAll minimize k sqrt eps B tol solver maxIter (sourceRows sd X) (targetRows sd X) with
  | error e =>
    simp only [kmmFitTransform, kmmFitAll, check_ok hX hlen, bind, Except.bind, splitX_ok hsd hlen, ho]
  | ok vw =>
    obtain ⟨v, warns⟩ := vw
    intro hv
    obtain ⟨w, hw, hwl, hws, hwt⟩ := idxAssign_source (some (0 : K)) (sd := sd) (vals := v.map some) (by simp [hv])
    have hb : Np.boolIndex X (sd.map (fun d => decide (0 ≤ d))) = .ok (sourceRows sd X) := by
      rw [Np.boolIndex_ok (by simp [hlen]), sel_source]
    refine ⟨w, ?_, by omega, hws, hwt⟩
    simp only [kmmFitTransform, kmmFitAll, check_ok hX hlen, bind, Except.bind, splitX_ok hsd hlen, ho, kmmWeights,
      extractSourceIndices_ok hsd, hb, and_self, if_true, pure, Except.pure, scatterZeros, ← hlen, hw]

theorem kmmOptimizeAll_eq (minimize : ∀ n, Call K n → Py (Result K n)) (k : α → α → K) (sqrt : K → K)
    (eps : Option K) (B tol : K) (solver : String) (maxIter : Nat) (Xs Xt : List α) (hs : Xs ≠ []) (ht : Xt ≠ []) :
    kmmOptimizeAll minimize k sqrt eps B tol solver maxIter Xs Xt =
      (qpSolveAll (minimize Xs.length) solver (fun i j => k Xs[i] Xs[j])
        (some (fun i => -((Xs.length : K) * RW.mean (Xt.map (fun t => k Xs[i] t)))))
        (some [fun _ => 1, fun _ => -1]) (some [(Xs.length : K) * (1 + kmmEps sqrt eps Xs.length),
          -((Xs.length : K) * (1 - kmmEps sqrt eps Xs.length))]) none none
        (some (List.replicate Xs.length 0)) (some (List.replicate Xs.length B)) none tol maxIter false false).map
        (fun out => (List.ofFn out.x, out.warnings)) := by
  have h : ¬ (Xs = [] ∨ Xt = []) := by simp [hs, ht]
  unfold kmmOptimizeAll
  rw [if_neg h]
  simp only [bind, Except.bind, pure, Except.pure]
  generalize qpSolveAll (minimize Xs.length) solver (fun i j => k Xs[i] Xs[j])
        (some (fun i => -((Xs.length : K) * RW.mean (Xt.map (fun t => k Xs[i] t)))))
        (some [fun _ => 1, fun _ => -1]) (some [(Xs.length : K) * (1 + kmmEps sqrt eps Xs.length),
          -((Xs.length : K) * (1 - kmmEps sqrt eps Xs.length))]) none none
        (some (List.replicate Xs.length 0)) (some (List.replicate Xs.length B)) none tol maxIter false false = o
  cases o <;> rfl

theorem kmm_feasible_iff {n : Nat} (δ lo hi B : K) (x : Fin n → K) :
    QPFeasible δ (some [fun _ => 1, fun _ => -1]) (some [hi, -lo]) none none (some (List.replicate n 0))
      (some (List.replicate n B)) x ↔
      (∀ i, 0 ≤ x i + δ ∧ x i ≤ B + δ) ∧ lo ≤ ∑ i, x i + δ ∧ ∑ i, x i ≤ hi + δ := by
  have e1 : ∑ i, (1 : K) * x i = ∑ i, x i := by simp
  have e2 : ∑ i, (-1 : K) * x i = - ∑ i, x i := by simp [Finset.sum_neg_distrib]
  constructor
  · intro h
    have h1 := h.ineq _ _ rfl rfl 0 _ _ rfl rfl
    have h2 := h.ineq _ _ rfl rfl 1 _ _ rfl rfl
    rw [e1] at h1
    rw [e2] at h2
    refine ⟨fun i => ⟨h.lower _ rfl i 0 (by simp), h.upper _ rfl i B (by simp)⟩, by linarith, by linarith⟩
  · rintro ⟨h1, h2, h3⟩
    refine ⟨?_, by simp, ?_, ?_⟩
    · intro rows v hr hv k row r hk hrk
      cases hr; cases hv
      match k with
      | 0 => cases hk; cases hrk; rw [e1]; linarith
      | 1 => cases hk; cases hrk; rw [e2]; linarith
      | k + 2 => simp at hk
    · intro l hl i v hv
      cases hl
      rw [List.getElem?_replicate, if_pos i.isLt] at hv
      cases hv
      exact (h1 i).1
    · intro l hl i v hv
      cases hl
      rw [List.getElem?_replicate, if_pos i.isLt] at hv
      cases hv
      exact (h1 i).2

theorem kmm_psd (k : α → α → K) (hpsd : ∀ l : List (K × α), 0 ≤ pairSum k l l) (Xs : List α) (d : Fin Xs.length → K) :
    (0 : K) ≤ ∑ i, ∑ j, k Xs[i] Xs[j] * d i * d j := by
  have := hpsd (List.ofFn fun i => (d i, Xs[i]))
  rw [pairSum_ofFn] at this
  refine this.trans_eq (Finset.sum_congr rfl fun i _ => Finset.sum_congr rfl fun j _ => ?_)
  simp only []
  ring

end QP

section
open QP

/-! ### C126 -/

/-- **C126 (scipy)** `KMMReweightAdapter(solver="scipy").fit_transform` with a symmetric positive semidefinite kernel: if no
warning was issued, the weights are zero on target rows and, on the `n` source rows, lie in `[0, B]`, have a sum
between `n (1 - eps)` and `n (1 + eps)` (all up to the solver's `δ`), and no admissible weights bring the weighted source mean
closer to the target mean in the kernel space, up to the solver's `ε`. -/
theorem C126_scipy [DecidableEq α] (ε δ : K) (minimize : ∀ n, Call K n → Py (Result K n)) (hm : ∀ n, SolverOk ε δ (minimize n))
    (k : α → α → K) (hsym : ∀ x y, k x y = k y x) (hpsd : ∀ l : List (K × α), 0 ≤ pairSum k l l)
    (sqrt : K → K) (eps : Option K) (B tol : K) (maxIter : Nat) (X : List α) (sd : List Int)
    (hlen : sd.length = X.length) (hs : 0 < nSource sd) (ht : 0 < nTarget sd)
    (e : K) (he : e = eps.elim ((sqrt (nSource sd) - 1) / sqrt (nSource sd)) id)
    (w : List (Option K)) (hw : kmmFitTransform minimize k sqrt eps B tol "scipy" maxIter false X (.vec sd) = .ok (w, [])) :
    ∃ v : List K, w.length = X.length ∧ targetRows sd w = List.replicate (nTarget sd) (some 0) ∧ sourceRows sd w = v.map some ∧
      v.length = nSource sd ∧
      (∀ a ∈ v, 0 ≤ a + δ ∧ a ≤ B + δ) ∧ (nSource sd : K) * (1 - e) ≤ v.sum + δ ∧ v.sum ≤ (nSource sd : K) * (1 + e) + δ ∧
      ∀ z : List K, z.length = nSource sd → (∀ a ∈ z, 0 ≤ a ∧ a ≤ B) →
        (nSource sd : K) * (1 - e) ≤ z.sum → z.sum ≤ (nSource sd : K) * (1 + e) →
        mmdSq k (v.zip (sourceRows sd X)) (targetRows sd X) ≤
          mmdSq k (z.zip (sourceRows sd X)) (targetRows sd X) + 2 * ε / (nSource sd : K) ^ 2 := by
  have hne := sourceRows_ne hlen hs
  have htne := targetRows_ne hlen ht
  have hlXs : (sourceRows sd X).length = nSource sd := length_sourceRows hlen
  have hasm := kmm_assemble minimize k sqrt eps B tol "scipy" maxIter X sd hlen hs
  rw [kmmOptimizeAll_eq _ _ _ _ _ _ _ _ _ _ hne htne] at hasm
  generalize sourceRows sd X = Xs at *
  generalize targetRows sd X = Xt at *
  rw [← hlXs] at he
  have he' : kmmEps sqrt eps Xs.length = e := by
    rw [he]; cases eps <;> rfl
  rw [he'] at hasm
  cases ho : qpSolveAll (minimize Xs.length) "scipy" (fun i j => k Xs[i] Xs[j])
        (some (fun i => -((Xs.length : K) * RW.mean (Xt.map (fun t => k Xs[i] t)))))
        (some [fun _ => 1, fun _ => -1]) (some [(Xs.length : K) * (1 + e), -((Xs.length : K) * (1 - e))]) none none
        (some (List.replicate Xs.length 0)) (some (List.replicate Xs.length B)) none tol maxIter false false with
  | error err =>
    rw [ho] at hasm
    simp only [Except.map] at hasm
    rw [hasm] at hw; cases hw
  | ok out =>
    rw [ho] at hasm
    simp only [Except.map] at hasm
    obtain ⟨w', hw', hl, h1, h2⟩ := hasm (by simp [hlXs])
    rw [hw'] at hw
    simp only [Except.ok.injEq, Prod.mk.injEq] at hw
    obtain ⟨rfl, hwarn⟩ := hw
    obtain ⟨hfe, -, hopt⟩ := C125_optimal ε δ (minimize Xs.length) (hm _) (fun i j => k Xs[i] Xs[j]) _ _ _ none none _ _ none tol maxIter false false
      (by simp) (by simp) (by simp) (by simp) (fun i j => hsym _ _) (kmm_psd k hpsd Xs) out ho hwarn
    rw [kmm_feasible_iff] at hfe
    rw [← hlXs]
    have hn : (0 : K) < (Xs.length : K) := by
      have : 0 < Xs.length := List.length_pos_iff.2 hne
      exact_mod_cast this
    refine ⟨List.ofFn out.x, hl, h2, h1, by simp, ?_, ?_, ?_, ?_⟩
    · intro a ha
      obtain ⟨i, rfl⟩ := List.mem_ofFn.1 ha
      exact hfe.1 i
    · rw [List.sum_ofFn]; exact hfe.2.1
    · rw [List.sum_ofFn]; exact hfe.2.2
    · intro z hz hza hz1 hz2
      obtain ⟨f, rfl⟩ := list_ofFn_self z hz
      rw [List.sum_ofFn] at hz1 hz2
      have := hopt f ((kmm_feasible_iff 0 _ _ _ _).2 ⟨fun i => by
        have := hza (f i) (List.mem_ofFn.2 ⟨i, rfl⟩)
        simpa using this, by simpa using hz1, by simpa using hz2⟩)
      rw [mmdSq_eq k Xs Xt hne htne, mmdSq_eq k Xs Xt hne htne]
      have h3 : (0 : K) < 2 / (Xs.length : K) ^ 2 := by positivity
      have h4 := mul_le_mul_of_nonneg_left this h3.le
      have h5 : 2 * ε / (Xs.length : K) ^ 2 = 2 / (Xs.length : K) ^ 2 * ε := by ring
      rw [h5]
      linarith

theorem linear_psd (l : List (ℚ × ℚ)) : 0 ≤ pairSum (fun x y : ℚ => x * y) l l := by
  have : pairSum (fun x y : ℚ => x * y) l l = (l.map (fun p => p.1 * p.2)).sum * (l.map (fun p => p.1 * p.2)).sum := by
    unfold pairSum
    rw [← List.sum_map_mul_right]
    congr 1
    refine List.map_congr_left fun p _ => ?_
    rw [← List.sum_map_mul_left]
    congr 1
    refine List.map_congr_left fun q _ => ?_
    ring
  rw [this]
  exact mul_self_nonneg _

/-- A solver meeting the contract and data on which it succeeds: source rows 1, 2, target row 2, linear kernel, `B = 1`. -/
example : (∀ n, SolverOk 0 0 (oracle (fun _ : Fin n => (1 : ℚ)))) ∧
    kmmFitTransform (fun n => oracle (fun _ : Fin n => (1 : ℚ))) (fun x y : ℚ => x * y) id (some (1 / 2)) 1 (1 / 1000000) "scipy" 1000 false
      [1, 2, 2] (.vec [1, 2, -1]) = .ok ([some 1, some 1, some 0], []) := by
  refine ⟨fun n => oracle_ok _, ?_⟩
  have hopt : kmmOptimizeAll (fun n => oracle (fun _ : Fin n => (1 : ℚ))) (fun x y : ℚ => x * y) id (some (1 / 2)) 1 (1 / 1000000) "scipy" 1000
      [1, 2] [2] = .ok ([1, 1], []) := by
    have hkap : (fun i : Fin 2 => -(((2 : Nat) : ℚ) * RW.mean (([2] : List ℚ).map (fun t => ([1, 2] : List ℚ)[i] * t)))) = ![-4, -8] := by
      funext i
      fin_cases i <;> norm_num [RW.mean]
    have hker : (fun i j : Fin 2 => ([1, 2] : List ℚ)[i] * ([1, 2] : List ℚ)[j]) = ![![1, 2], ![2, 4]] := by
      funext i j
      fin_cases i <;> fin_cases j <;> norm_num
    have hf := fun x => feasible_iff (0 : ℚ) ![![1, 2], ![2, 4]] (some ![-4, -8]) (some [fun _ : Fin 2 => 1, fun _ => -1])
      (some [((2 : Nat) : ℚ) * (1 + 1 / 2), -(((2 : Nat) : ℚ) * (1 - 1 / 2))]) none none (some (List.replicate 2 0)) (some (List.replicate 2 1)) none
      (1 / 1000000) 1000 false (by simp) (by simp) (by simp) (by simp) x
    have hor : oracle (fun _ : Fin 2 => (1 : ℚ)) (theCall ![![1, 2], ![2, 4]] (some ![-4, -8]) (some [fun _ : Fin 2 => 1, fun _ => -1])
      (some [((2 : Nat) : ℚ) * (1 + 1 / 2), -(((2 : Nat) : ℚ) * (1 - 1 / 2))]) none none (some (List.replicate 2 0)) (some (List.replicate 2 1)) none
      (1 / 1000000) 1000 false) = .ok ⟨fun _ => 1, qpFunc ![![1, 2], ![2, 4]] (some ![-4, -8]) (fun _ => 1), true, ""⟩ := by
      unfold oracle
      rw [if_pos]
      · rfl
      · refine ⟨(hf _).2 ((kmm_feasible_iff _ _ _ _ _).2 ⟨by norm_num, by norm_num, by norm_num⟩), fun z hz => ?_⟩
        have := ((kmm_feasible_iff _ _ _ _ _).1 ((hf z).1 hz)).1
        have h0 := this 0
        have h1 := this 1
        simp [theCall, qpJac, matVec, Fin.sum_univ_two] at h0 h1 ⊢
        linarith
    rw [kmmOptimizeAll_eq _ _ _ _ _ _ _ _ _ _ (by simp) (by simp)]
    change (qpSolveAll (oracle (fun _ : Fin 2 => (1 : ℚ))) "scipy" (fun i j : Fin 2 => ([1, 2] : List ℚ)[i] * ([1, 2] : List ℚ)[j])
      (some (fun i : Fin 2 => -(((2 : Nat) : ℚ) * RW.mean (([2] : List ℚ).map (fun t => ([1, 2] : List ℚ)[i] * t)))))
      (some [fun _ : Fin 2 => 1, fun _ => -1])
      (some [((2 : Nat) : ℚ) * (1 + 1 / 2), -(((2 : Nat) : ℚ) * (1 - 1 / 2))]) none none (some (List.replicate 2 0)) (some (List.replicate 2 1)) none
      (1 / 1000000) 1000 false false).map _ = _
    rw [hkap, hker]
    unfold qpSolveAll qpScipy
    rw [if_pos rfl]
    change (oracle (fun _ : Fin 2 => (1 : ℚ)) (theCall ![![1, 2], ![2, 4]] (some ![-4, -8]) (some [fun _ : Fin 2 => 1, fun _ => -1])
      (some [((2 : Nat) : ℚ) * (1 + 1 / 2), -(((2 : Nat) : ℚ) * (1 - 1 / 2))]) none none (some (List.replicate 2 0)) (some (List.replicate 2 1)) none
      (1 / 1000000) 1000 false) >>= _).map _ = _
    rw [hor]; rfl
  have hchk : checkXDomain ([1, 2, 2] : List ℚ) (.vec [1, 2, -1]) { allowMultiSource := true, allowMultiTarget := true }
      = .ok ([1, 2, 2], [1, 2, -1]) := by decide +kernel
  have hsplit : splitX ([1, 2, 2] : List ℚ) [1, 2, -1] = .ok ([1, 2], [2]) := by decide +kernel
  simp only [kmmFitTransform, kmmFitAll, hchk, bind, Except.bind, hsplit, hopt]
  decide +kernel

/-- **C126 (frank-wolfe)** With the default solver, a symmetric positive semidefinite kernel, `0 ≤ eps ≤ 1` and `T > 0` iterations,
`fit_transform` always succeeds without a warning; the weights are non-negative with a sum between `n (1 - eps)` and
`n (1 + eps)`, and no such weights bring the weighted source mean closer to the target mean, up to
`4 (1 + eps)² ∑ |k(xᵢ, xⱼ)| / (T + 1)`. (The bound `B` plays no role: C62.) -/
theorem C126_frank_wolfe [DecidableEq α] (minimize : ∀ n, Call K n → Py (Result K n))
    (k : α → α → K) (hsym : ∀ x y, k x y = k y x) (hpsd : ∀ l : List (K × α), 0 ≤ pairSum k l l)
    (sqrt : K → K) (eps : Option K) (B tol : K) (T : Nat) (hT : 0 < T) (X : List α) (sd : List Int)
    (hlen : sd.length = X.length) (hs : 0 < nSource sd) (ht : 0 < nTarget sd)
    (e : K) (he : e = eps.elim ((sqrt (nSource sd) - 1) / sqrt (nSource sd)) id) (he0 : 0 ≤ e) (he1 : e ≤ 1) :
    ∃ (w : List (Option K)) (v : List K), kmmFitTransform minimize k sqrt eps B tol "frank-wolfe" T false X (.vec sd) = .ok (w, []) ∧
      w.length = X.length ∧ targetRows sd w = List.replicate (nTarget sd) (some 0) ∧ sourceRows sd w = v.map some ∧
      v.length = nSource sd ∧
      (∀ a ∈ v, 0 ≤ a) ∧ (nSource sd : K) * (1 - e) ≤ v.sum ∧ v.sum ≤ (nSource sd : K) * (1 + e) ∧
      ∀ z : List K, z.length = nSource sd → (∀ a ∈ z, 0 ≤ a) →
        (nSource sd : K) * (1 - e) ≤ z.sum → z.sum ≤ (nSource sd : K) * (1 + e) →
        mmdSq k (v.zip (sourceRows sd X)) (targetRows sd X) ≤ mmdSq k (z.zip (sourceRows sd X)) (targetRows sd X) +
          4 * (1 + e) ^ 2 * ((sourceRows sd X).map (fun x => ((sourceRows sd X).map (fun y => |k x y|)).sum)).sum / ((T : K) + 1) := by
  have hne := sourceRows_ne hlen hs
  have htne := targetRows_ne hlen ht
  have hlXs : (sourceRows sd X).length = nSource sd := length_sourceRows hlen
  have hasm := kmm_assemble minimize k sqrt eps B tol "frank-wolfe" T X sd hlen hs
  rw [kmmOptimizeAll_eq _ _ _ _ _ _ _ _ _ _ hne htne] at hasm
  generalize sourceRows sd X = Xs at *
  generalize targetRows sd X = Xt at *
  rw [← hlXs] at he
  have he' : kmmEps sqrt eps Xs.length = e := by
    rw [he]; cases eps <;> rfl
  rw [he'] at hasm
  have hpos : 0 < Xs.length := List.length_pos_iff.2 hne
  have hn : (0 : K) < (Xs.length : K) := by exact_mod_cast hpos
  obtain ⟨x, hx, h0, h1, h2, hopt⟩ := C30_two_rows_partial (.error .valueError) (fun i j : Fin Xs.length => k Xs[i] Xs[j])
    (some (fun i => -((Xs.length : K) * RW.mean (Xt.map (fun t => k Xs[i] t))))) (fun _ => 1)
    ((Xs.length : K) * (1 - e)) ((Xs.length : K) * (1 + e)) none none T hpos (by simp) (mul_nonneg hn.le (by linarith))
    (mul_le_mul_of_nonneg_left (by linarith) hn.le) (fun i j => hsym _ _) (kmm_psd k hpsd Xs) hT
  have hq : qpSolveAll (minimize Xs.length) "frank-wolfe" (fun i j => k Xs[i] Xs[j])
        (some (fun i => -((Xs.length : K) * RW.mean (Xt.map (fun t => k Xs[i] t)))))
        (some [fun _ => 1, fun _ => -1]) (some [(Xs.length : K) * (1 + e), -((Xs.length : K) * (1 - e))]) none none
        (some (List.replicate Xs.length 0)) (some (List.replicate Xs.length B)) none tol T false false
      = .ok ⟨x, qpObjective (fun i j => k Xs[i] Xs[j])
        (some (fun i => -((Xs.length : K) * RW.mean (Xt.map (fun t => k Xs[i] t))))) x, none, []⟩ := by
    unfold qpSolve at hx
    rw [if_neg (by decide), if_pos rfl] at hx
    unfold qpSolveAll
    rw [if_neg (by decide), if_pos rfl, hx]
    rfl
  rw [hq] at hasm
  simp only [Except.map] at hasm
  obtain ⟨w, hw, hl, hws, hwt⟩ := hasm (by simp [hlXs])
  have e1 : ∀ x : Fin Xs.length → K, ∑ i, (1 : K) * x i = ∑ i, x i := fun x => by simp
  have e2 : ∀ x : Fin Xs.length → K, ∑ i, (-1 : K) * x i = - ∑ i, x i := fun x => by simp [Finset.sum_neg_distrib]
  rw [e1] at h1
  rw [e2] at h2
  rw [← hlXs]
  refine ⟨w, List.ofFn x, hw, hl, hwt, hws, by simp, ?_, ?_, ?_, ?_⟩
  · intro a ha
    obtain ⟨i, rfl⟩ := List.mem_ofFn.1 ha
    exact h0 i
  · rw [List.sum_ofFn]; linarith
  · rw [List.sum_ofFn]; linarith
  · intro z hz hza hz1 hz2
    obtain ⟨f, rfl⟩ := list_ofFn_self z hz
    rw [List.sum_ofFn] at hz1 hz2
    have := hopt f (fun i => hza (f i) (List.mem_ofFn.2 ⟨i, rfl⟩)) (by rw [e1]; linarith) (by rw [e2]; linarith)
    rw [mmdSq_eq k Xs Xt hne htne, mmdSq_eq k Xs Xt hne htne]
    have h3 : (0 : K) < 2 / (Xs.length : K) ^ 2 := by positivity
    have h4 := mul_le_mul_of_nonneg_left this h3.le
    have hgap : 2 / (Xs.length : K) ^ 2 * qpGap (fun i j : Fin Xs.length => k Xs[i] Xs[j]) (fun _ => 1) ((Xs.length : K) * (1 + e)) none T
        = 4 * (1 + e) ^ 2 * (Xs.map (fun x => (Xs.map (fun y => |k x y|)).sum)).sum / ((T : K) + 1) := by
      have hsum : (Xs.map (fun x => (Xs.map (fun y => |k x y|)).sum)).sum = ∑ i : Fin Xs.length, ∑ j : Fin Xs.length, |k Xs[i] Xs[j]| := by
        have hX : ∀ g : α → K, (Xs.map g).sum = ∑ i : Fin Xs.length, g Xs[i] := by
          intro g
          have hg : Xs.map g = List.ofFn (fun i : Fin Xs.length => g Xs[i]) := by
            apply List.ext_getElem <;> simp
          rw [hg, List.sum_ofFn]
        rw [hX]
        exact Finset.sum_congr rfl fun i _ => hX _
      rw [hsum]
      simp only [qpGap, div_one, Option.elim, add_zero]
      have hin : ∑ i : Fin Xs.length, ∑ j : Fin Xs.length, |k Xs[i] Xs[j]| * ((Xs.length : K) * (1 + e)) * ((Xs.length : K) * (1 + e))
          = ((Xs.length : K) * (1 + e)) ^ 2 * ∑ i : Fin Xs.length, ∑ j : Fin Xs.length, |k Xs[i] Xs[j]| := by
        simp only [Finset.mul_sum]
        exact Finset.sum_congr rfl fun i _ => Finset.sum_congr rfl fun j _ => by ring
      rw [hin]
      have hT' : (T : K) + 1 ≠ 0 := by positivity
      field_simp
      ring
    rw [← hgap]
    linarith

/-- Three iterations on the same data; `B = 1` is not respected. -/
example : kmmFitTransform (fun _ _ => .error .valueError) (fun x y : ℚ => x * y) id (some (1 / 2)) 1 (1 / 1000000) "frank-wolfe" 3 false
      [1, 2, 2] (.vec [1, 2, -1]) = .ok ([some (1 / 3), some 2, some 0], []) := by decide +kernel

end
end Skada

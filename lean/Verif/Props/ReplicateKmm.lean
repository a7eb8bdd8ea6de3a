/-
C142, continued: kernel mean matching and nearest-neighbour reweighting on data in which every sample is listed `c` times.
-/
import Verif.Props.Replicate
import Verif.Props.KmmQp

set_option linter.unusedSectionVars false

namespace Skada
open Np Spec RW QP FW

variable {K : Type} [Field K] [LinearOrder K] [IsStrictOrderedRing K] {α : Type}

namespace Spec

/-- The sum of the first `n` entries, the next `n` entries, …, position by position: the total weight of the copies of each of `n` samples. -/
def sumBlocks (n : Nat) : Nat → List K → List K
  | 0, _ => List.replicate n 0
  | c + 1, v => List.zipWith (· + ·) (v.take n) (sumBlocks n c (v.drop n))

/-- The mean weight of the `c` copies of each of `n` samples. -/
def copyMeans (n c : Nat) (v : List K) : List K := (sumBlocks n c v).map (fun a => a / (c : K))

end Spec

namespace Copies

/-- `∑ w f(x)` over a weighted sample. -/
def wsum (f : α → K) (l : List (K × α)) : K := (l.map (fun p => p.1 * f p.2)).sum

theorem pairSum_wsum (k : α → α → K) (l m : List (K × α)) : pairSum k l m = wsum (fun x => wsum (fun y => k x y) m) l := by
  simp only [pairSum, wsum, mul_assoc, List.sum_map_mul_left]

theorem length_sumBlocks (n : Nat) : ∀ (c : Nat) (v : List K), v.length = c * n → (sumBlocks n c v).length = n
  | 0, _, _ => by simp [sumBlocks]
  | c + 1, v, h => by
    have : (v.drop n).length = c * n := by rw [List.length_drop, h, Nat.succ_mul, Nat.add_sub_cancel]
    have h2 : n ≤ v.length := by rw [h, Nat.succ_mul]; omega
    simp [sumBlocks, length_sumBlocks n c _ this, h2]

theorem wsum_add (f : α → K) : ∀ (a b : List K) (X : List α), a.length = X.length → b.length = X.length →
    wsum f ((List.zipWith (· + ·) a b).zip X) = wsum f (a.zip X) + wsum f (b.zip X)
  | [], _, [], _, _ => by simp [wsum]
  | _ :: _, _, [], ha, _ => by simp at ha
  | [], _, _ :: _, ha, _ => by simp at ha
  | _ :: _, [], _ :: _, _, hb => by simp at hb
  | a :: as, b :: bs, x :: X, ha, hb => by
    have := wsum_add f as bs X (by simpa using ha) (by simpa using hb)
    simp only [wsum] at this
    simp only [wsum, List.zipWith_cons_cons, List.zip_cons_cons, List.map_cons, List.sum_cons, this]
    ring

theorem wsum_zero (f : α → K) (n : Nat) (X : List α) : wsum f ((List.replicate n (0 : K)).zip X) = 0 := by
  refine List.sum_eq_zero fun a ha => ?_
  obtain ⟨p, hp, rfl⟩ := List.mem_map.1 ha
  rw [List.eq_of_mem_replicate (List.of_mem_zip hp).1, zero_mul]

theorem wsum_blocks (f : α → K) (X : List α) : ∀ (c : Nat) (v : List K), v.length = c * X.length →
    wsum f (v.zip (copies c X)) = wsum f ((sumBlocks X.length c v).zip X)
  | 0, v, _ => by rw [sumBlocks, wsum_zero]; simp [Copies.zero, wsum]
  | c + 1, v, h => by
    have h1 : (v.drop X.length).length = c * X.length := by rw [List.length_drop, h, Nat.succ_mul, Nat.add_sub_cancel]
    have h2 : (v.take X.length).length = X.length := by rw [List.length_take, h, Nat.succ_mul]; omega
    rw [sumBlocks, wsum_add f _ _ X h2 (length_sumBlocks _ c _ h1), ← wsum_blocks f X c _ h1, Copies.succ]
    conv_lhs => rw [← List.take_append_drop X.length v]
    rw [List.zip_append h2]
    simp [wsum]

theorem wsum_div (f : α → K) (c : K) : ∀ (a : List K) (X : List α), wsum f ((a.map (fun v => v / c)).zip X) = wsum f (a.zip X) / c
  | [], _ => by simp [wsum]
  | _ :: _, [] => by simp [wsum]
  | a :: as, x :: X => by
    have := wsum_div f c as X
    simp only [wsum] at this
    simp only [wsum, List.map_cons, List.zip_cons_cons, List.sum_cons, this]
    ring

theorem wsum_copies (f : α → K) (c : Nat) (l : List (K × α)) : wsum f (copies c l) = (c : K) * wsum f l := by
  rw [wsum, Copies.map, Copies.sum]; rfl

theorem wsum_scale (f : α → K) (a : K) (l : List (K × α)) : wsum (fun x => a * f x) l = a * wsum f l := by
  simp only [wsum, ← List.sum_map_mul_left]
  congr 1
  refine List.map_congr_left fun p _ => by ring

theorem wsum_congr {f g : α → K} (h : ∀ x, f x = g x) (l : List (K × α)) : wsum f l = wsum g l := by rw [funext h]

theorem length_copyMeans (n c : Nat) (v : List K) (h : v.length = c * n) : (copyMeans n c v).length = n := by
  rw [copyMeans, List.length_map, length_sumBlocks n c v h]

/-- The discrepancy of weights on the copies is the discrepancy of their means on the data. -/
theorem mmdSq_means (k : α → α → K) (X T : List α) (hX : X ≠ []) (hT : T ≠ []) (c : Nat) (hc : 0 < c) (v : List K) (hv : v.length = c * X.length) :
    mmdSq k (v.zip (copies c X)) (copies c T) = mmdSq k ((copyMeans X.length c v).zip X) T := by
  have hc' : (c : K) ≠ 0 := by exact_mod_cast hc.ne'
  have hx : (X.length : K) ≠ 0 := by exact_mod_cast (List.length_pos_iff.2 hX).ne'
  have ht : (T.length : K) ≠ 0 := by exact_mod_cast (List.length_pos_iff.2 hT).ne'
  have e1 : ∀ f : α → K, wsum f (v.zip (copies c X)) = (c : K) * wsum f ((copyMeans X.length c v).zip X) := by
    intro f
    rw [wsum_blocks f X c v hv, copyMeans, wsum_div]
    field_simp
  have l1 : (v.zip (copies c X)).length = c * X.length := by rw [List.length_zip, Copies.length, hv, Nat.min_self]
  have l2 : ((copyMeans X.length c v).zip X).length = X.length := by rw [List.length_zip, length_copyMeans _ _ _ hv, Nat.min_self]
  simp only [mmdSq, pairSum_wsum, l1, l2, Copies.map, Copies.length, wsum_copies, e1, wsum_scale]
  push_cast
  field_simp

theorem mmdSq_copies (k : α → α → K) (l : List (K × α)) (T : List α) (hl : l ≠ []) (hT : T ≠ []) (c : Nat) (hc : 0 < c) :
    mmdSq k (copies c l) (copies c T) = mmdSq k l T := by
  have hc' : (c : K) ≠ 0 := by exact_mod_cast hc.ne'
  have hx : (l.length : K) ≠ 0 := by exact_mod_cast (List.length_pos_iff.2 hl).ne'
  have ht : (T.length : K) ≠ 0 := by exact_mod_cast (List.length_pos_iff.2 hT).ne'
  simp only [mmdSq, pairSum_wsum, Copies.map, Copies.length, wsum_copies, wsum_scale]
  push_cast
  field_simp

theorem sum_zipWith_add : ∀ (a b : List K), a.length = b.length → (List.zipWith (· + ·) a b).sum = a.sum + b.sum
  | [], [], _ => by simp
  | a :: as, b :: bs, h => by
    simp only [List.zipWith_cons_cons, List.sum_cons, sum_zipWith_add as bs (by simpa using h)]
    ring

theorem sum_sumBlocks (n : Nat) : ∀ (c : Nat) (v : List K), v.length = c * n → (sumBlocks n c v).sum = v.sum
  | 0, v, h => by
    have : v = [] := List.length_eq_zero_iff.1 (by simpa using h)
    simp [sumBlocks, this]
  | c + 1, v, h => by
    have h1 : (v.drop n).length = c * n := by rw [List.length_drop, h, Nat.succ_mul, Nat.add_sub_cancel]
    have h2 : (v.take n).length = n := by rw [List.length_take, h, Nat.succ_mul]; omega
    rw [sumBlocks, sum_zipWith_add _ _ (by rw [h2, length_sumBlocks n c _ h1]), sum_sumBlocks n c _ h1, ← List.sum_append, List.take_append_drop]

theorem sum_copyMeans (n c : Nat) (v : List K) (h : v.length = c * n) : (copyMeans n c v).sum = v.sum / (c : K) := by
  rw [copyMeans, ← sum_sumBlocks n c v h]
  simp only [div_eq_mul_inv, List.sum_map_mul_right, List.map_id']

theorem mem_zipWith_add {a b : List K} {x : K} (h : x ∈ List.zipWith (· + ·) a b) : ∃ y ∈ a, ∃ z ∈ b, x = y + z := by
  induction a generalizing b with
  | nil => simp at h
  | cons a as ih =>
    cases b with
    | nil => simp at h
    | cons b bs =>
      rw [List.zipWith_cons_cons, List.mem_cons] at h
      rcases h with rfl | h
      · exact ⟨a, List.mem_cons_self, b, List.mem_cons_self, rfl⟩
      · obtain ⟨y, hy, z, hz, e⟩ := ih h
        exact ⟨y, List.mem_cons_of_mem _ hy, z, List.mem_cons_of_mem _ hz, e⟩

/-- The totals lie between `c` times the bounds. -/
theorem sumBlocks_bounds (lo hi : K) (n : Nat) : ∀ (c : Nat) (v : List K), (∀ a ∈ v, lo ≤ a ∧ a ≤ hi) →
    ∀ a ∈ sumBlocks n c v, (c : K) * lo ≤ a ∧ a ≤ (c : K) * hi
  | 0, v, _, a, ha => by
    rw [List.eq_of_mem_replicate ha]; simp
  | c + 1, v, h, a, ha => by
    obtain ⟨y, hy, z, hz, rfl⟩ := mem_zipWith_add ha
    have h1 := h y (List.mem_of_mem_take hy)
    have h2 := sumBlocks_bounds lo hi n c _ (fun a ha => h a (List.mem_of_mem_drop ha)) z hz
    push_cast
    constructor <;> nlinarith [h1.1, h1.2, h2.1, h2.2]

theorem copyMeans_bounds (lo hi : K) (n c : Nat) (hc : 0 < c) (v : List K) (h : ∀ a ∈ v, lo ≤ a ∧ a ≤ hi) : ∀ a ∈ copyMeans n c v, lo ≤ a ∧ a ≤ hi := by
  intro a ha
  obtain ⟨b, hb, rfl⟩ := List.mem_map.1 ha
  have hc' : (0 : K) < (c : K) := by exact_mod_cast hc
  obtain ⟨h1, h2⟩ := sumBlocks_bounds lo hi n c v h b hb
  exact ⟨by rw [le_div_iff₀ hc']; linarith, by rw [div_le_iff₀ hc']; linarith⟩

theorem copyMeans_lower (lo : K) (n c : Nat) (hc : 0 < c) (v : List K) (h : ∀ a ∈ v, lo ≤ a) : ∀ a ∈ copyMeans n c v, lo ≤ a := by
  intro a ha
  by_cases hv : v = []
  · have := copyMeans_bounds lo lo n c hc v (by simp [hv]) a ha
    exact this.1
  · exact (copyMeans_bounds lo (v.max?.getD 0) n c hc v (fun b hb => ⟨h b hb, by
      obtain ⟨m, hm⟩ := Option.isSome_iff_exists.1 (List.isSome_max?_of_mem hb)
      rw [hm]
      exact (List.max?_eq_some_iff.1 hm).2 b hb⟩) a ha).1

end Copies

/-- **C142, kernel mean matching (scipy).**  With `eps` given, fit `KMMReweightAdapter(solver="scipy")` on data in which every sample is listed `c` times: if
no warning was issued, the mean weights of the copies of each source sample are an answer for the data listed once: they have the weighted mean of the copies,
lie in `[0, B]`, sum to between `n (1 - eps)` and `n (1 + eps)` (up to the solver's `δ`), and no admissible weights are better (up to its `ε`). -/
theorem C142_kmm_scipy [DecidableEq α] (ε δ : K) (minimize : ∀ n, Call K n → Py (Result K n)) (hm : ∀ n, SolverOk ε δ (minimize n))
    (k : α → α → K) (hsym : ∀ x y, k x y = k y x) (hpsd : ∀ l : List (K × α), 0 ≤ pairSum k l l)
    (sqrt : K → K) (eps B tol : K) (maxIter : Nat) (X : List α) (sd : List Int)
    (hlen : sd.length = X.length) (hs : 0 < nSource sd) (ht : 0 < nTarget sd) (c : Nat) (hc : 0 < c)
    (w : List (Option K)) (hw : kmmFitTransform minimize k sqrt (some eps) B tol "scipy" maxIter false (copies c X) (.vec (copies c sd)) = .ok (w, [])) :
    ∃ v u : List K, sourceRows (copies c sd) w = v.map some ∧ u = copyMeans (nSource sd) c v ∧ u.length = nSource sd ∧
      (∀ a ∈ u, 0 ≤ a + δ ∧ a ≤ B + δ) ∧
      (nSource sd : K) * (1 - eps) ≤ u.sum + δ / c ∧ u.sum ≤ (nSource sd : K) * (1 + eps) + δ / c ∧
      mmdSq k (u.zip (sourceRows sd X)) (targetRows sd X) = mmdSq k (v.zip (copies c (sourceRows sd X))) (copies c (targetRows sd X)) ∧
      ∀ z : List K, z.length = nSource sd → (∀ a ∈ z, 0 ≤ a ∧ a ≤ B) →
        (nSource sd : K) * (1 - eps) ≤ z.sum → z.sum ≤ (nSource sd : K) * (1 + eps) →
        mmdSq k (u.zip (sourceRows sd X)) (targetRows sd X) ≤
          mmdSq k (z.zip (sourceRows sd X)) (targetRows sd X) + 2 * ε / ((c : K) * (nSource sd : K)) ^ 2 := by
  have hc' : (0 : K) < (c : K) := by exact_mod_cast hc
  have hS := sourceRows_ne hlen hs
  have hT := targetRows_ne hlen ht
  have hlS : (sourceRows sd X).length = nSource sd := length_sourceRows hlen
  obtain ⟨v, -, -, h3, h4, h5, h6, h7, h8⟩ := C126_scipy ε δ minimize hm k hsym hpsd sqrt (some eps) B tol maxIter (copies c X) (copies c sd)
    (by simp [Copies.length, hlen]) (by rw [Copies.nSource]; positivity) (by rw [Copies.nTarget]; positivity) eps rfl w hw
  rw [Copies.nSource] at h4 h6 h7 h8
  rw [Copies.source c hlen, Copies.target c hlen] at h8
  push_cast at h6 h7 h8
  have hv : v.length = c * (sourceRows sd X).length := by rw [h4, hlS]
  have hmm := Copies.mmdSq_means k _ _ hS hT c hc v hv
  rw [hlS] at hmm
  refine ⟨v, copyMeans (nSource sd) c v, h3, rfl, Copies.length_copyMeans _ _ _ h4, ?_, ?_, ?_, hmm.symm, ?_⟩
  · intro a ha
    have := Copies.copyMeans_bounds (-δ) (B + δ) (nSource sd) c hc v (fun a ha => ⟨by linarith [(h5 a ha).1], (h5 a ha).2⟩) a ha
    exact ⟨by linarith [this.1], this.2⟩
  · rw [Copies.sum_copyMeans _ _ _ h4, ← add_div, le_div_iff₀ hc']
    linarith
  · rw [Copies.sum_copyMeans _ _ _ h4, div_le_iff₀ hc', add_mul, div_mul_cancel₀ _ hc'.ne']
    linarith
  · intro z hz hz1 hz2 hz3
    have hzl : z.length = (sourceRows sd X).length := by rw [hz, hlS]
    have hne : z.zip (sourceRows sd X) ≠ [] := by
      rw [← List.length_pos_iff, List.length_zip, hzl, Nat.min_self]
      exact List.length_pos_iff.2 hS
    have hzc : (copies c z).zip (copies c (sourceRows sd X)) = copies c (z.zip (sourceRows sd X)) := Copies.zipWith Prod.mk c hzl
    have := h8 (copies c z) (by rw [Copies.length, hz]) (fun a ha => hz1 a ((Copies.mem hc).1 ha)) (by rw [Copies.sum]; nlinarith)
      (by rw [Copies.sum]; nlinarith)
    rw [hzc, Copies.mmdSq_copies k _ _ hne hT c hc, hmm] at this
    exact this

/-- A solver meeting the contract and data on which it succeeds: a source row 1 and a target row 2, each
listed twice, linear kernel, `B = 1`. -/
example : (∀ n, SolverOk 0 0 (oracle (fun _ : Fin n => (1 : ℚ)))) ∧
    kmmFitTransform (fun n => oracle (fun _ : Fin n => (1 : ℚ))) (fun x y : ℚ => x * y) id (some (1 / 2)) 1 (1 / 1000000) "scipy" 1000 false
      (copies 2 [1, 2]) (.vec (copies 2 [1, -1])) = .ok ([some 1, some 0, some 1, some 0], []) := by
  refine ⟨fun n => oracle_ok _, ?_⟩
  have hopt : kmmOptimizeAll (fun n => oracle (fun _ : Fin n => (1 : ℚ))) (fun x y : ℚ => x * y) id (some (1 / 2)) 1 (1 / 1000000) "scipy" 1000
      [1, 1] [2, 2] = .ok ([1, 1], []) := by
    have hkap : (fun i : Fin 2 => -(((2 : Nat) : ℚ) * RW.mean (([2, 2] : List ℚ).map (fun t => ([1, 1] : List ℚ)[i] * t)))) = ![-4, -4] := by
      funext i
      fin_cases i <;> norm_num [RW.mean]
    have hker : (fun i j : Fin 2 => ([1, 1] : List ℚ)[i] * ([1, 1] : List ℚ)[j]) = ![![1, 1], ![1, 1]] := by
      funext i j
      fin_cases i <;> fin_cases j <;> norm_num
    have hf := fun x => feasible_iff (0 : ℚ) ![![1, 1], ![1, 1]] (some ![-4, -4]) (some [fun _ : Fin 2 => 1, fun _ => -1])
      (some [((2 : Nat) : ℚ) * (1 + 1 / 2), -(((2 : Nat) : ℚ) * (1 - 1 / 2))]) none none (some (List.replicate 2 0)) (some (List.replicate 2 1)) none
      (1 / 1000000) 1000 false (by simp) (by simp) (by simp) (by simp) x
    have hor : oracle (fun _ : Fin 2 => (1 : ℚ)) (theCall ![![1, 1], ![1, 1]] (some ![-4, -4]) (some [fun _ : Fin 2 => 1, fun _ => -1])
      (some [((2 : Nat) : ℚ) * (1 + 1 / 2), -(((2 : Nat) : ℚ) * (1 - 1 / 2))]) none none (some (List.replicate 2 0)) (some (List.replicate 2 1)) none
      (1 / 1000000) 1000 false) = .ok ⟨fun _ => 1, qpFunc ![![1, 1], ![1, 1]] (some ![-4, -4]) (fun _ => 1), true, ""⟩ := by
      unfold oracle
      rw [if_pos]
      · rfl
      · refine ⟨(hf _).2 ((kmm_feasible_iff _ _ _ _ _).2 ⟨by norm_num, by norm_num, by norm_num⟩), fun z hz => ?_⟩
        have := ((kmm_feasible_iff _ _ _ _ _).1 ((hf z).1 hz)).1
        have h0 := this 0
        have h1 := this 1
        simp [theCall, qpJac, matVec, Fin.sum_univ_two] at h0 h1 ⊢
        linarith
    rw [kmmOptimizeAll_eq _ _ _ _ _ _ _ _ _ _ (by simp) (by simp)]
    change (qpSolveAll (oracle (fun _ : Fin 2 => (1 : ℚ))) "scipy" (fun i j : Fin 2 => ([1, 1] : List ℚ)[i] * ([1, 1] : List ℚ)[j])
      (some (fun i : Fin 2 => -(((2 : Nat) : ℚ) * RW.mean (([2, 2] : List ℚ).map (fun t => ([1, 1] : List ℚ)[i] * t)))))
      (some [fun _ : Fin 2 => 1, fun _ => -1])
      (some [((2 : Nat) : ℚ) * (1 + 1 / 2), -(((2 : Nat) : ℚ) * (1 - 1 / 2))]) none none (some (List.replicate 2 0)) (some (List.replicate 2 1)) none
      (1 / 1000000) 1000 false false).map _ = _
    rw [hkap, hker]
    unfold qpSolveAll qpScipy
    rw [if_pos rfl]
    change (oracle (fun _ : Fin 2 => (1 : ℚ)) (theCall ![![1, 1], ![1, 1]] (some ![-4, -4]) (some [fun _ : Fin 2 => 1, fun _ => -1])
      (some [((2 : Nat) : ℚ) * (1 + 1 / 2), -(((2 : Nat) : ℚ) * (1 - 1 / 2))]) none none (some (List.replicate 2 0)) (some (List.replicate 2 1)) none
      (1 / 1000000) 1000 false) >>= _).map _ = _
    rw [hor]; rfl
  have hchk : checkXDomain (copies 2 [1, 2] : List ℚ) (.vec (copies 2 [1, -1])) { allowMultiSource := true, allowMultiTarget := true }
      = .ok ([1, 2, 1, 2], [1, -1, 1, -1]) := by decide +kernel
  have hsplit : splitX ([1, 2, 1, 2] : List ℚ) [1, -1, 1, -1] = .ok ([1, 1], [2, 2]) := by decide +kernel
  simp only [kmmFitTransform, kmmFitAll, hchk, bind, Except.bind, hsplit, hopt]
  decide +kernel

/-- **C142, kernel mean matching (frank-wolfe).**  The same for the default solver, which always succeeds. -/
theorem C142_kmm_frank_wolfe [DecidableEq α] (minimize : ∀ n, Call K n → Py (Result K n))
    (k : α → α → K) (hsym : ∀ x y, k x y = k y x) (hpsd : ∀ l : List (K × α), 0 ≤ pairSum k l l)
    (sqrt : K → K) (eps B tol : K) (he0 : 0 ≤ eps) (he1 : eps ≤ 1) (T : Nat) (hT0 : 0 < T) (X : List α) (sd : List Int)
    (hlen : sd.length = X.length) (hs : 0 < nSource sd) (ht : 0 < nTarget sd) (c : Nat) (hc : 0 < c) :
    ∃ (w : List (Option K)) (v u : List K),
      kmmFitTransform minimize k sqrt (some eps) B tol "frank-wolfe" T false (copies c X) (.vec (copies c sd)) = .ok (w, []) ∧
      sourceRows (copies c sd) w = v.map some ∧ u = copyMeans (nSource sd) c v ∧ u.length = nSource sd ∧ (∀ a ∈ u, 0 ≤ a) ∧
      (nSource sd : K) * (1 - eps) ≤ u.sum ∧ u.sum ≤ (nSource sd : K) * (1 + eps) ∧
      mmdSq k (u.zip (sourceRows sd X)) (targetRows sd X) = mmdSq k (v.zip (copies c (sourceRows sd X))) (copies c (targetRows sd X)) ∧
      ∀ z : List K, z.length = nSource sd → (∀ a ∈ z, 0 ≤ a) →
        (nSource sd : K) * (1 - eps) ≤ z.sum → z.sum ≤ (nSource sd : K) * (1 + eps) →
        mmdSq k (u.zip (sourceRows sd X)) (targetRows sd X) ≤ mmdSq k (z.zip (sourceRows sd X)) (targetRows sd X) +
          4 * (1 + eps) ^ 2 * ((c : K) ^ 2 * ((sourceRows sd X).map (fun x => ((sourceRows sd X).map (fun y => |k x y|)).sum)).sum) / ((T : K) + 1) := by
  have hc' : (0 : K) < (c : K) := by exact_mod_cast hc
  have hS := sourceRows_ne hlen hs
  have hT := targetRows_ne hlen ht
  have hlS : (sourceRows sd X).length = nSource sd := length_sourceRows hlen
  obtain ⟨w, v, hw, -, -, h3, h4, h5, h6, h7, h8⟩ := C126_frank_wolfe minimize k hsym hpsd sqrt (some eps) B tol T hT0 (copies c X) (copies c sd)
    (by simp [Copies.length, hlen]) (by rw [Copies.nSource]; positivity) (by rw [Copies.nTarget]; positivity) eps rfl he0 he1
  rw [Copies.nSource] at h4 h6 h7 h8
  rw [Copies.source c hlen, Copies.target c hlen] at h8
  simp only [Copies.map, Copies.sum, List.sum_map_mul_left] at h8
  push_cast at h6 h7 h8
  have hv : v.length = c * (sourceRows sd X).length := by rw [h4, hlS]
  have hmm := Copies.mmdSq_means k _ _ hS hT c hc v hv
  rw [hlS] at hmm
  refine ⟨w, v, copyMeans (nSource sd) c v, hw, h3, rfl, Copies.length_copyMeans _ _ _ h4, ?_, ?_, ?_, hmm.symm, ?_⟩
  · exact Copies.copyMeans_lower 0 _ c hc v h5
  · rw [Copies.sum_copyMeans _ _ _ h4, le_div_iff₀ hc']
    linarith
  · rw [Copies.sum_copyMeans _ _ _ h4, div_le_iff₀ hc']
    linarith
  · intro z hz hz1 hz2 hz3
    have hzl : z.length = (sourceRows sd X).length := by rw [hz, hlS]
    have hne : z.zip (sourceRows sd X) ≠ [] := by
      rw [← List.length_pos_iff, List.length_zip, hzl, Nat.min_self]
      exact List.length_pos_iff.2 hS
    have hzc : (copies c z).zip (copies c (sourceRows sd X)) = copies c (z.zip (sourceRows sd X)) := Copies.zipWith Prod.mk c hzl
    have := h8 (copies c z) (by rw [Copies.length, hz]) (fun a ha => hz1 a ((Copies.mem hc).1 ha)) (by rw [Copies.sum]; nlinarith)
      (by rw [Copies.sum]; nlinarith)
    rw [hzc, Copies.mmdSq_copies k _ _ hne hT c hc, hmm] at this
    refine this.trans (le_of_eq ?_)
    ring

/-- Three iterations on two source rows and a target row, listed once and twice. -/
example : kmmFitTransform (fun _ _ => .error .valueError) (fun x y : ℚ => x * y) id (some (1 / 2)) 1 (1 / 1000000) "frank-wolfe" 3 false
      [1, 2, 2] (.vec [1, 2, -1]) = .ok ([some (1 / 3), some 2, some 0], []) ∧
    kmmFitTransform (fun _ _ => .error .valueError) (fun x y : ℚ => x * y) id (some (1 / 2)) 1 (1 / 1000000) "frank-wolfe" 3 false
      (copies 2 [1, 2, 2]) (.vec (copies 2 [1, 2, -1])) = .ok ([some (2 / 3), some 4, some 0, some 0, some 0, some 0], []) ∧
    copyMeans 2 2 [2 / 3, 4, 0, (0 : ℚ)] = [1 / 3, 2] := by decide +kernel

example : ∃ (w : List (Option ℚ)) (v : List ℚ), kmmFitTransform (fun _ _ => .error .valueError) (fun x y : ℚ => x * y) id (some (1 / 2)) 1
      (1 / 1000000) "frank-wolfe" 3 false (copies 2 [1, 2, 2]) (.vec (copies 2 [1, 2, -1])) = .ok (w, []) ∧
      sourceRows (copies 2 [1, 2, -1]) w = v.map some ∧ (copyMeans 2 2 v).length = 2 := by
  obtain ⟨w, v, u, h1, h2, h3, h4, -⟩ := C142_kmm_frank_wolfe (fun _ _ => .error .valueError) (fun x y : ℚ => x * y) (fun x y => mul_comm x y)
    linear_psd id (1 / 2) 1 (1 / 1000000) (by norm_num) (by norm_num) 3 (by norm_num) [1, 2, 2] [1, 2, -1] rfl (by decide) (by decide) 2 (by norm_num)
  exact ⟨w, v, h1, h2, h3 ▸ h4⟩

/-- **C142 (`eps=None`).**  The default tolerance `(√n - 1) / √n` depends on the number of rows: one source sample has weight 1; listed four times (with the
target sample) the copies may be weighted by 3/2 on average and are. -/
theorem C142_kmm_counterexample (minimize : ∀ n, Call ℚ n → Py (Result ℚ n)) :
    ∃ (sqrt : ℚ → ℚ) (X : List ℚ) (sd : List Int) (v : List ℚ), (∀ n : ℚ, n = 1 ∨ n = 4 → sqrt n * sqrt n = n ∧ 0 ≤ sqrt n) ∧
      kmmFitTransform minimize (fun x y => x * y) sqrt none 1000 0 "frank-wolfe" 1 false X (.vec sd) = .ok ([some 1, some 0], []) ∧
      (kmmFitTransform minimize (fun x y => x * y) sqrt none 1000 0 "frank-wolfe" 1 false (copies 4 X) (.vec (copies 4 sd))).map
        (fun r => sourceRows (copies 4 sd) r.1) = .ok (v.map some) ∧ copyMeans 1 4 v = [3 / 2] := by
  refine ⟨fun n => if n = 4 then 2 else n, [1, 2], [1, -2], [6, 0, 0, 0], ?_, ?_, ?_, by decide +kernel⟩
  · rintro n (rfl | rfl) <;> norm_num
  · exact (by decide +kernel : kmmFitTransform (fun _ _ => .error .valueError) (fun x y : ℚ => x * y) (fun n => if n = 4 then 2 else n) none 1000 0
      "frank-wolfe" 1 false [1, 2] (.vec [1, -2]) = .ok ([some 1, some 0], []))
  · exact (by decide +kernel : (kmmFitTransform (fun _ _ => .error .valueError) (fun x y : ℚ => x * y) (fun n => if n = 4 then 2 else n) none 1000 0
      "frank-wolfe" 1 false (copies 4 [1, 2]) (.vec (copies 4 [1, -2]))).map (fun r => sourceRows (copies 4 [1, -2]) r.1) = .ok (List.map some [6, 0, 0, 0]))

/-- **C142 (nearest neighbours).**  Whatever the search answers for ties: one source and one target sample have weight 1; listed twice, one of the two copies
of the source sample has weight 2 and the other none. -/
theorem C142_nn_counterexample (knn : List α → α → Nat) (hk : ∀ A x, A ≠ [] → knn A x < A.length) (s t : α) :
    nnWeights (K := ℚ) knn false [s, t] (.vec [1, -2]) = .ok [1, 1] ∧
      (nnWeights (K := ℚ) knn false (copies 2 [s, t]) (.vec (copies 2 [1, -2])) = .ok [2, 1, 0, 1] ∨
        nnWeights (K := ℚ) knn false (copies 2 [s, t]) (.vec (copies 2 [1, -2])) = .ok [0, 1, 2, 1]) := by
  have one : ∀ i, knn [s] t = i → nnWeights (K := ℚ) knn false [s, t] (.vec [1, -2]) =
      (addCounts [0] [i]).bind (fun sw => Np.idxAssign [1, 1] [0] sw) := by
    rintro i rfl; rfl
  have two : ∀ i, knn [s, s] t = i → nnWeights (K := ℚ) knn false (copies 2 [s, t]) (.vec (copies 2 [1, -2])) =
      (addCounts [0, 0] [i, i]).bind (fun sw => Np.idxAssign [1, 1, 1, 1] [0, 2] sw) := by
    rintro i rfl; rfl
  have h1 : knn [s] t = 0 := by have := hk [s] t (by simp); simpa using this
  have h2 : knn [s, s] t = 0 ∨ knn [s, s] t = 1 := by
    have := hk [s, s] t (by simp)
    simp only [List.length_cons, List.length_nil] at this
    omega
  refine ⟨(one 0 h1).trans (by decide +kernel), ?_⟩
  rcases h2 with h2 | h2
  · exact .inl ((two 0 h2).trans (by decide +kernel))
  · exact .inr ((two 1 h2).trans (by decide +kernel))

example : nnWeights (K := ℚ) (fun A (x : ℚ) => A.findIdx (fun a => decide (|a - x| = 1))) false (copies 2 [0, 10, 1, 9]) (.vec (copies 2 [1, 1, -2, -2])) =
    .ok [2, 2, 1, 1, 0, 0, 1, 1] := by decide +kernel

/-! ### KLIEP -/

namespace Copies

theorem any (p : α → Bool) {c : Nat} (hc : 0 < c) (l : List α) : (copies c l).any p = l.any p := by
  rw [Bool.eq_iff_iff, List.any_eq_true, List.any_eq_true]
  constructor
  · rintro ⟨x, hx, h⟩; exact ⟨x, (Copies.mem hc).1 hx, h⟩
  · rintro ⟨x, hx, h⟩; exact ⟨x, (Copies.mem hc).2 hx, h⟩

theorem kliep_step {m : Nat} (k : α → α → K) (Xs Xt : List α) (ctr : Fin m → α) {c : Nat} (hc : 0 < c) (eps : K) (alpha : Fin m → K) :
    (⟨k, copies c Xs, copies c Xt, ctr⟩ : Kliep α K m).step eps alpha = (⟨k, Xs, Xt, ctr⟩ : Kliep α K m).step ((c : K) * eps) alpha := by
  have hb : ∀ j, (⟨k, copies c Xs, copies c Xt, ctr⟩ : Kliep α K m).b j = (⟨k, Xs, Xt, ctr⟩ : Kliep α K m).b j := by
    intro j
    simp only [Kliep.b, Copies.map, Copies.mean hc]
  have hk : ∀ a x, (⟨k, copies c Xs, copies c Xt, ctr⟩ : Kliep α K m).kernelAt a x = (⟨k, Xs, Xt, ctr⟩ : Kliep α K m).kernelAt a x := fun _ _ => rfl
  have hs : ∀ j, eps * ((copies c Xt).map (fun x => k x (ctr j) * (1 / (⟨k, Xs, Xt, ctr⟩ : Kliep α K m).kernelAt alpha x))).sum =
      (c : K) * eps * (Xt.map (fun x => k x (ctr j) * (1 / (⟨k, Xs, Xt, ctr⟩ : Kliep α K m).kernelAt alpha x))).sum := by
    intro j
    rw [Copies.map, Copies.sum]
    ring
  unfold Kliep.step
  simp only [hb, hk, hs, Copies.any _ hc]

theorem kliep_loop {m : Nat} (k : α → α → K) (Xs Xt : List α) (ctr : Fin m → α) {c : Nat} (hc : 0 < c) (eps tol : K) (obj obj' : (Fin m → K) → K)
    (hobj : ∀ a, obj' a = (c : K) * obj a) : ∀ (n : Nat) (old : K) (alpha : Fin m → K),
    (⟨k, copies c Xs, copies c Xt, ctr⟩ : Kliep α K m).loop eps tol obj' n ((c : K) * old) alpha =
      (⟨k, Xs, Xt, ctr⟩ : Kliep α K m).loop ((c : K) * eps) (tol / (c : K)) obj n old alpha
  | 0, _, _ => rfl
  | n + 1, old, alpha => by
    have hc' : (0 : K) < (c : K) := by exact_mod_cast hc
    have ht : ∀ a : Fin m → K, (|(c : K) * obj a - (c : K) * old| < tol) = (|obj a - old| < tol / (c : K)) := by
      intro a
      rw [← mul_sub, abs_mul, abs_of_pos hc', lt_div_iff₀ hc', mul_comm]
    simp only [Kliep.loop, kliep_step k Xs Xt ctr hc, hobj, ht, kliep_loop k Xs Xt ctr hc eps tol obj obj' hobj n]

end Copies

/-- **C142, KLIEP.**  If every sample is listed `c` times (and the same centres are drawn), KLIEP takes steps that are `c` times as long and stops at a
tolerance that is `c` times as sharp: every copy has the weight the sample has for the data listed once with the step size `c · EPS` and `tol / c`. The
hypothesis about `obj` holds for a sum over the target rows. -/
theorem C142_kliep (k : α → α → K) (eps tol : K) (obj : List α → List α → List K → K) (obj0 : K) (maxIter : Nat) (draw : List Nat) (X : List α)
    (sd : List Int) (hlen : sd.length = X.length) (hs : 0 < nSource sd) (hd : draw ≠ []) (hdr : ∀ i ∈ draw, i < nTarget sd) (c : Nat) (hc : 0 < c)
    (hobj : ∀ T C a, obj (copies c T) C a = (c : K) * obj T C a) :
    ∃ w, fitTransform (kliepFit k ((c : K) * eps) (tol / (c : K)) obj obj0 maxIter draw) (kliepWeights k) X (.vec sd) = .ok (X, w) ∧
      fitTransform (kliepFit k eps tol obj ((c : K) * obj0) maxIter draw) (kliepWeights k) (copies c X) (.vec (copies c sd)) =
        .ok (copies c X, copies c w) := by
  have hX : X ≠ [] := by
    rintro rfl
    have : sd = [] := by simpa using hlen
    subst this
    simp [nSource] at hs
  have hlen' : (copies c sd).length = (copies c X).length := by simp [Copies.length, hlen]
  have hX' := Copies.ne_nil hc hX
  have hne := sourceRows_ne hlen hs
  obtain ⟨centers, hcen⟩ : ∃ r, take (targetRows sd X) draw = .ok r := by
    apply take_ok_of_lt
    rw [length_targetRows hlen]
    exact hdr
  have hcen' : take (copies c (targetRows sd X)) draw = .ok centers := by
    obtain ⟨c, rfl⟩ : ∃ b, c = b + 1 := ⟨c - 1, by omega⟩
    rw [take_ok_iff] at hcen ⊢
    refine hcen.imp fun i x h => ?_
    rw [Copies.succ, List.getElem?_append_left (List.getElem?_eq_some_iff.1 h).1, h]
  have hcne : centers ≠ [] := by
    intro h
    have := (take_ok_iff.1 hcen).length_eq
    rw [h] at this
    exact hd (List.length_eq_zero_iff.1 this)
  have htne : targetRows sd X ≠ [] := by
    intro h
    obtain ⟨i, hi⟩ := List.exists_mem_of_ne_nil _ hd
    have := hdr i hi
    rw [← length_targetRows hlen, h] at this
    simp at this
  have h1 : ¬ (targetRows sd X = [] ∨ centers = [] ∨ sourceRows sd X = []) := by simp [htne, hcne, hne]
  have h2 : ¬ (copies c (targetRows sd X) = [] ∨ centers = [] ∨ copies c (sourceRows sd X) = []) := by
    simp [Copies.ne_nil hc htne, hcne, Copies.ne_nil hc hne]
  obtain ⟨alpha, hal, hal'⟩ : ∃ alpha, kliepFit k ((c : K) * eps) (tol / (c : K)) obj obj0 maxIter draw X (.vec sd) = .ok (alpha, centers) ∧
      kliepFit k eps tol obj ((c : K) * obj0) maxIter draw (copies c X) (.vec (copies c sd)) = .ok (alpha, centers) := by
    refine ⟨_, by
      simp only [kliepFit, check_ok hX hlen, bind, Except.bind, splitX_ok (sd_ne hX hlen) hlen, kliepOptimize, hcen, h1, if_false]
      rfl, ?_⟩
    simp only [kliepFit, check_ok hX' hlen', bind, Except.bind, splitX_ok (sd_ne hX' hlen') hlen', Copies.source c hlen, Copies.target c hlen,
      kliepOptimize, hcen', h2, if_false]
    rw [Copies.kliep_loop k _ _ _ hc eps tol (fun a => obj (targetRows sd X) centers (List.ofFn a)) _ (fun a => hobj _ _ _)]
    rfl
  have wts : ∀ (X : List α) (sd : List Int), X ≠ [] → sd.length = X.length → sourceRows sd X ≠ [] →
      kliepWeights k (alpha, centers) X (.vec sd) = .ok (List.zipWith (fun d x => if 0 ≤ d then alpha.map (fun a => rowDot k centers a x) else some 0) sd X) := by
    intro X sd hX hlen hne
    simp only [kliepWeights, check_ok hX hlen, bind, Except.bind, sourceIdx_ok (sd_ne hX hlen), take_sourceIdx hlen, hne, if_false,
      scatter_ok (fun x => alpha.map (fun a => rowDot k centers a x)) hlen]
  refine ⟨_, by simp only [fitTransform, hal, bind, Except.bind, wts X sd hX hlen hne]; rfl, ?_⟩
  simp only [fitTransform, hal', bind, Except.bind, wts _ _ hX' hlen' (by rw [Copies.source c hlen]; exact Copies.ne_nil hc hne), Copies.zipWith _ c hlen]
  rfl

/-- The objective of the library, a sum over the target rows, meets the hypothesis, whatever the logarithm. -/
theorem Copies.kliep_objective (lg : K → K) (k : α → α → K) (eps : K) (c : Nat) (T C : List α) (a : List K) :
    ((copies c T).map (fun x => lg (rowDot k C a x + eps))).sum = (c : K) * (T.map (fun x => lg (rowDot k C a x + eps))).sum := by
  rw [Copies.map, Copies.sum]

/-- One step with `EPS = 1/10` on data listed twice is one step with `EPS = 1/5`, and not one with `1/10`. -/
theorem C142_kliep_counterexample :
    ∃ (k : ℚ → ℚ → ℚ) (eps : ℚ) (X : List ℚ) (sd : List Int) (w w' : List (Option ℚ)), (∀ x y, 0 < k x y) ∧
      fitTransform (kliepFit k eps 0 (fun _ _ _ => 0) 0 1 [0, 1]) (kliepWeights k) X (.vec sd) = .ok (X, w) ∧
      fitTransform (kliepFit k eps 0 (fun _ _ _ => 0) 0 1 [0, 1]) (kliepWeights k) (copies 2 X) (.vec (copies 2 sd)) = .ok (copies 2 X, copies 2 w') ∧
      w' ≠ w :=
  ⟨fun x c => 1 / (1 + (x - c) * (x - c)), 1 / 10, [0, 1, 2, 3], [1, 1, -2, -2], [some (861 / 1450), some (2039 / 1450), some 0, some 0],
    [some (431 / 725), some (1019 / 725), some 0, some 0], fun x y => by have := mul_self_nonneg (x - y); positivity, by decide +kernel, by decide +kernel,
    by decide +kernel⟩

/-- Listed once with the doubled step. -/
example : ∃ w, fitTransform (kliepFit (fun x c : ℚ => 1 / (1 + (x - c) * (x - c))) (((2 : Nat) : ℚ) * (1 / 10)) (1 / ((2 : Nat) : ℚ))
        (fun T _ a => (T.length : ℚ) * a.sum) 4 3 [0, 1]) (kliepWeights (fun x c : ℚ => 1 / (1 + (x - c) * (x - c)))) [0, 1, 2, 3] (.vec [1, 1, -2, -2]) =
      .ok ([0, 1, 2, 3], w) ∧
    fitTransform (kliepFit (fun x c : ℚ => 1 / (1 + (x - c) * (x - c))) (1 / 10) 1 (fun T _ a => (T.length : ℚ) * a.sum) (((2 : Nat) : ℚ) * 4) 3 [0, 1])
        (kliepWeights (fun x c : ℚ => 1 / (1 + (x - c) * (x - c)))) (copies 2 [0, 1, 2, 3]) (.vec (copies 2 [1, 1, -2, -2])) =
      .ok (copies 2 [0, 1, 2, 3], copies 2 w) :=
  C142_kliep (fun x c : ℚ => 1 / (1 + (x - c) * (x - c))) (1 / 10) 1 (fun T _ a => (T.length : ℚ) * a.sum) 4 3 [0, 1] [0, 1, 2, 3] [1, 1, -2, -2] rfl
    (by decide) (by decide) (by decide) 2 (by norm_num) (fun T C a => by rw [Copies.length]; push_cast; ring)

end Skada

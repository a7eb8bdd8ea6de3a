/-
C91: the graph alignment loss of SPA (skada/deep/losses.py:413-478).
-/
import Verif.Props.DeepMMD
import Verif.Lemmas.Monad

namespace Skada

open Spec Np

section Algebra
variable {K : Type} [Field K] [LinearOrder K] {d n m : Nat}

namespace DL

theorem adj_err (sqrt ex : K → K) (e : K) (metric : String) (hm : metric ∉ ["cos", "gauss", "euc"]) (X : Fin n → Fin d → K) :
    adj sqrt ex e metric X = .error .valueError := by
  simp only [List.mem_cons, List.not_mem_nil, or_false, not_or] at hm
  unfold adj; rw [if_neg hm.1, if_neg hm.2.1, if_neg hm.2.2]

theorem adj_ok (sqrt ex : K → K) (e : K) (metric : String) (hm : metric ∈ ["cos", "gauss", "euc"]) (X : Fin n → Fin d → K) :
    ∃ A, adj sqrt ex e metric X = .ok A := by
  simp only [List.mem_cons, List.not_mem_nil, or_false] at hm
  rcases hm with rfl | rfl | rfl
  · exact ⟨_, rfl⟩
  · exact ⟨_, rfl⟩
  · exact ⟨_, rfl⟩

theorem laplacian_err (sqrt : K → K) (eps : K) (kind : String) (hk : kind ∉ ["laplac1", "laplac2", "laplac3"]) (A : Fin n → Fin n → K) :
    laplacian sqrt eps kind A = .error .valueError := by
  simp only [List.mem_cons, List.not_mem_nil, or_false, not_or] at hk
  unfold laplacian; simp only [if_neg hk.1, if_neg hk.2.1, if_neg hk.2.2]

theorem laplacian_cases (sqrt : K → K) (eps : K) (kind : String) (hk : kind ∈ ["laplac1", "laplac2", "laplac3"]) (A : Fin n → Fin n → K) :
    (∃ L, laplacian sqrt eps kind A = .ok L) ∨ laplacian sqrt eps kind A = .error .runtimeError := by
  simp only [List.mem_cons, List.not_mem_nil, or_false] at hk
  unfold laplacian
  rcases hk with rfl | rfl | rfl
  · dsimp only; rw [if_pos rfl]; split_ifs
    · exact .inr rfl
    · exact .inl ⟨_, rfl⟩
  · exact .inl ⟨_, rfl⟩
  · dsimp only; rw [if_neg (by decide), if_neg (by decide), if_pos rfl]; split_ifs
    · exact .inr rfl
    · exact .inl ⟨_, rfl⟩

omit [LinearOrder K] in
theorem subBroadcast_comm (a b : List K) :
    (subBroadcast a b).map (fun r => r.map (fun x => x ^ 2)) = (subBroadcast b a).map (fun r => r.map (fun x => x ^ 2)) := by
  unfold subBroadcast
  by_cases h : a.length = b.length
  · rw [if_pos h, if_pos h.symm]
    simp only [Except.map]
    congr 1
    clear h
    induction a generalizing b with
    | nil => simp
    | cons x a ih =>
      cases b with
      | nil => simp
      | cons y b => simp only [List.zipWith_cons_cons, List.map_cons, ih b]; congr 1; ring
  · rw [if_neg h, if_neg (Ne.symm h)]
    rcases a with _ | ⟨x, _ | ⟨x', a⟩⟩ <;> rcases b with _ | ⟨y, _ | ⟨y', b⟩⟩ <;>
      simp only [Except.map, List.map_cons, List.map_nil, List.map_map, Except.ok.injEq] at h ⊢ <;>
      first
      | rfl
      | (simp at h; done)
      | (congr 1; · ring
         · congr 1; · ring
           · apply List.map_congr_left; intro z _; simp only [Function.comp]; ring)

end DL

/-- C91.  Exchanging the two batches does not change the outcome (value or exception). -/
theorem C91_symmetric (sqrt ex : K → K) (svals : ∀ n : Nat, (Fin n → Fin n → K) → List K) (e eps : K) (metric kind : String)
    (S : Fin n → Fin d → K) (T : Fin m → Fin d → K) :
    DL.gda sqrt ex svals e eps metric kind S T = DL.gda sqrt ex svals e eps metric kind T S := by
  unfold DL.gda
  by_cases hm : metric ∈ ["cos", "gauss", "euc"]
  swap
  · rw [DL.adj_err _ _ _ _ hm, DL.adj_err _ _ _ _ hm]; rfl
  obtain ⟨A, hA⟩ := DL.adj_ok sqrt ex e metric hm S
  obtain ⟨B, hB⟩ := DL.adj_ok sqrt ex e metric hm T
  rw [hA, hB]
  simp only [ok_bind]
  by_cases hk : kind ∈ ["laplac1", "laplac2", "laplac3"]
  swap
  · rw [DL.laplacian_err _ _ _ hk, DL.laplacian_err _ _ _ hk]; rfl
  rcases DL.laplacian_cases sqrt eps kind hk A with ⟨L, hL⟩ | hL <;> rcases DL.laplacian_cases sqrt eps kind hk B with ⟨M, hM⟩ | hM <;>
    rw [hL, hM] <;> simp only [ok_bind, err_bind]
  have h := DL.subBroadcast_comm (svals n L) (svals m M)
  rcases h1 : DL.subBroadcast (svals n L) (svals m M) with _ | r <;> rcases h2 : DL.subBroadcast (svals m M) (svals n L) with _ | r' <;>
    rw [h1, h2] at h <;> simp only [Except.map] at h <;> simp only [ok_bind, err_bind]
  · cases h; rfl
  · cases h
  · cases h
  · rw [Except.ok.inj h]

/-- C91.  Unknown metrics and Laplacians are a `ValueError`; otherwise batches of different sizes are a `RuntimeError`, unless one of them
has a single row (its singular value is then broadcast). -/
theorem C91_errors (sqrt ex : K → K) (svals : ∀ n : Nat, (Fin n → Fin n → K) → List K) (hlen : ∀ n A, (svals n A).length = n) (e eps : K)
    (metric kind : String) (S : Fin n → Fin d → K) (T : Fin m → Fin d → K) :
    ((metric ∉ ["cos", "gauss", "euc"] ∨ kind ∉ ["laplac1", "laplac2", "laplac3"]) →
      DL.gda sqrt ex svals e eps metric kind S T = .error .valueError) ∧
    (metric ∈ ["cos", "gauss", "euc"] → kind ∈ ["laplac1", "laplac2", "laplac3"] → n ≠ m → n ≠ 1 → m ≠ 1 →
      DL.gda sqrt ex svals e eps metric kind S T = .error .runtimeError) := by
  constructor
  · intro h
    unfold DL.gda
    by_cases hm : metric ∈ ["cos", "gauss", "euc"]
    swap
    · rw [DL.adj_err _ _ _ _ hm]; rfl
    obtain ⟨A, hA⟩ := DL.adj_ok sqrt ex e metric hm S
    obtain ⟨B, hB⟩ := DL.adj_ok sqrt ex e metric hm T
    rw [hA, hB]
    simp only [ok_bind]
    rw [DL.laplacian_err _ _ _ (h.resolve_left (fun hc => hc hm))]; rfl
  · intro hm hk hnm hn1 hm1
    unfold DL.gda
    obtain ⟨A, hA⟩ := DL.adj_ok sqrt ex e metric hm S
    obtain ⟨B, hB⟩ := DL.adj_ok sqrt ex e metric hm T
    rw [hA, hB]
    simp only [ok_bind]
    rcases DL.laplacian_cases sqrt eps kind hk A with ⟨L, hL⟩ | hL <;> rcases DL.laplacian_cases sqrt eps kind hk B with ⟨M, hM⟩ | hM <;>
      rw [hL, hM] <;> simp only [ok_bind, err_bind]
    have hl1 := hlen n L
    have hl2 := hlen m M
    unfold DL.subBroadcast
    rw [if_neg (by omega)]
    generalize svals n L = a at hl1
    generalize svals m M = b at hl2
    rcases a with _ | ⟨x, _ | ⟨x', a⟩⟩ <;> rcases b with _ | ⟨y, _ | ⟨y', b⟩⟩ <;>
      simp only [List.length_cons, List.length_nil] at hl1 hl2 <;> first | omega | rfl

/-- Batches of 3 and 2 rows. -/
example (ex : ℚ → ℚ) : DL.gda (fun x => x) ex (fun n _ => List.replicate n 1) 0 1 "gauss" "laplac1"
    ![![1], ![2], ![3]] ![![(4 : ℚ)], ![5]] = .error .runtimeError :=
  (C91_errors (fun x => x) ex (fun n _ => List.replicate n 1) (by simp) 0 1 "gauss" "laplac1" ![![1], ![2], ![3]] ![![(4 : ℚ)], ![5]]).2
    (by decide) (by decide) (by decide) (by decide) (by decide)

end Algebra

section Real
variable {d d' n : Nat}

/-- C91.  For the default metrics (`euc`, and `gauss` used by SPA) the loss only sees the distances inside each batch: batches with the same
pairwise distances (equal batches, and batches that differ by a shift, a rotation or a reflection) have loss 0, and replacing a batch by such
a copy does not change the loss; whenever the loss is a number it is non-negative. -/
theorem C91_distances (svals : ∀ n : Nat, (Fin n → Fin n → ℝ) → List ℝ) (e eps : ℝ) (metric kind : String)
    (hm : metric = "euc" ∨ metric = "gauss") (S S' : Fin n → Fin d → ℝ) (hS : ∀ i j, eucl (S i) (S j) = eucl (S' i) (S' j)) :
    (∀ v, DL.gda Real.sqrt Real.exp svals e eps metric kind S S' = .ok v → v = 0) ∧
    ∀ {m : Nat} (T : Fin m → Fin d → ℝ),
      DL.gda Real.sqrt Real.exp svals e eps metric kind S T = DL.gda Real.sqrt Real.exp svals e eps metric kind S' T ∧
      ∀ v, DL.gda Real.sqrt Real.exp svals e eps metric kind S T = .ok v → 0 ≤ v := by
  have hadj : DL.adj Real.sqrt Real.exp e metric S = DL.adj Real.sqrt Real.exp e metric S' := by
    rcases hm with rfl | rfl
    · show Except.ok _ = Except.ok _; congr 1; funext i j; exact hS i j
    · show Except.ok _ = Except.ok _; congr 1; funext i j; rw [DL.dist_eq, DL.dist_eq, hS]
  have hmem : metric ∈ ["cos", "gauss", "euc"] := by rcases hm with rfl | rfl <;> decide
  refine ⟨fun v hv => ?_, fun T => ⟨?_, fun v hv => ?_⟩⟩
  · unfold DL.gda at hv
    rw [← hadj] at hv
    obtain ⟨A, hA⟩ := DL.adj_ok Real.sqrt Real.exp e metric hmem S
    rw [hA] at hv
    simp only [ok_bind] at hv
    by_cases hk : kind ∈ ["laplac1", "laplac2", "laplac3"]
    swap
    · rw [DL.laplacian_err _ _ _ hk] at hv; cases hv
    rcases DL.laplacian_cases Real.sqrt eps kind hk A with ⟨L, hL⟩ | hL <;> rw [hL] at hv <;> simp only [ok_bind, err_bind] at hv
    · have h0 : DL.subBroadcast (svals n L) (svals n L) = .ok (List.replicate (svals n L).length 0) := by
        unfold DL.subBroadcast; rw [if_pos rfl]; congr 1
        rw [List.zipWith_self, List.eq_replicate_iff]
        exact ⟨by simp, fun b hb => by obtain ⟨x, -, rfl⟩ := List.mem_map.1 hb; ring⟩
      rw [h0] at hv
      simp only [ok_bind, List.map_replicate, List.sum_replicate] at hv
      have := Except.ok.inj hv
      simpa using this.symm
    · cases hv
  · unfold DL.gda; rw [hadj]
  · unfold DL.gda at hv
    obtain ⟨A, hA⟩ := DL.adj_ok Real.sqrt Real.exp e metric hmem S
    obtain ⟨B, hB⟩ := DL.adj_ok Real.sqrt Real.exp e metric hmem T
    rw [hA, hB] at hv
    simp only [ok_bind] at hv
    rcases h1 : DL.laplacian Real.sqrt eps kind A with _ | L <;> rw [h1] at hv
    · cases hv
    rcases h2 : DL.laplacian Real.sqrt eps kind B with _ | M <;> rw [h2] at hv
    · cases hv
    simp only [ok_bind] at hv
    rcases h3 : DL.subBroadcast (svals n L) (svals _ M) with _ | r <;> rw [h3] at hv
    · cases hv
    · rw [← Except.ok.inj hv]; exact Real.sqrt_nonneg _

/-- A shifted batch. -/
example (S : Fin 3 → Fin 2 → ℝ) (i j : Fin 3) : eucl (S i) (S j) = eucl (S i + ![7, 1]) (S j + ![7, 1]) := by
  simp [eucl]

/-- C91.  What SPA computes (`gauss`, default Laplacian) always succeeds on batches of the same size, whatever the features, and the loss
is 0 exactly when the singular values of the two Laplacians agree. -/
theorem C91_total (svals : ∀ n : Nat, (Fin n → Fin n → ℝ) → List ℝ) (hlen : ∀ n A, (svals n A).length = n) (e eps : ℝ) (heps : 0 ≤ eps)
    (S : Fin n → Fin d → ℝ) (T : Fin n → Fin d → ℝ) :
    ∃ A B : Fin n → Fin n → ℝ,
      (∀ i j, A i j = -(Real.exp (-(2 / 9) * eucl (S i) (S j) ^ 2) / ((∑ k, Real.exp (-(2 / 9) * eucl (S i) (S k) ^ 2)) + eps))) ∧
      (∀ i j, B i j = -(Real.exp (-(2 / 9) * eucl (T i) (T j) ^ 2) / ((∑ k, Real.exp (-(2 / 9) * eucl (T i) (T k) ^ 2)) + eps))) ∧
      ∃ v, DL.gda Real.sqrt Real.exp svals e eps "gauss" "laplac1" S T = .ok v ∧ (v = 0 ↔ svals n A = svals n B) := by
  have hL : ∀ X : Fin n → Fin d → ℝ, ∃ L, DL.adj Real.sqrt Real.exp e "gauss" X = .ok (fun i j => Real.exp (-(2 / 9) * eucl (X i) (X j) ^ 2)) ∧
      DL.laplacian Real.sqrt eps "laplac1" (fun i j => Real.exp (-(2 / 9) * eucl (X i) (X j) ^ 2)) = .ok L ∧
      ∀ i j, L i j = -(Real.exp (-(2 / 9) * eucl (X i) (X j) ^ 2) / ((∑ k, Real.exp (-(2 / 9) * eucl (X i) (X k) ^ 2)) + eps)) := by
    intro X
    have hv : ∀ i, 0 < (∑ k, Real.exp (-(2 / 9) * eucl (X i) (X k) ^ 2)) + eps := fun i =>
      add_pos_of_pos_of_nonneg (Finset.sum_pos (fun _ _ => Real.exp_pos _) ⟨i, Finset.mem_univ _⟩) heps
    refine ⟨fun i j => -(1 / ((∑ k, Real.exp (-(2 / 9) * eucl (X i) (X k) ^ 2)) + eps)) * Real.exp (-(2 / 9) * eucl (X i) (X j) ^ 2), ?_, ?_, fun i j => by ring⟩
    · show Except.ok _ = Except.ok _
      congr 1; funext i j; rw [DL.dist_eq]; congr 1; ring
    · unfold DL.laplacian
      dsimp only
      rw [if_pos rfl, if_neg]
      simp only [List.any_eq_true, decide_eq_true_eq, not_exists, not_and]
      exact fun i _ => (hv i).ne'
  obtain ⟨A, hA1, hA2, hA3⟩ := hL S
  obtain ⟨B, hB1, hB2, hB3⟩ := hL T
  refine ⟨A, B, hA3, hB3, Real.sqrt (((List.zipWith (· - ·) (svals n A) (svals n B)).map (fun x => x ^ 2)).sum), ?_, ?_⟩
  · unfold DL.gda
    rw [hA1, hB1]
    simp only [ok_bind, hA2, hB2]
    unfold DL.subBroadcast
    rw [if_pos (by rw [hlen, hlen])]
    rfl
  · have hl : (svals n A).length = (svals n B).length := by rw [hlen, hlen]
    generalize svals n A = a at hl
    generalize svals n B = b at hl
    rw [Real.sqrt_eq_zero (List.sum_nonneg fun x hx => by obtain ⟨y, -, rfl⟩ := List.mem_map.1 hx; positivity)]
    induction a generalizing b with
    | nil => cases b with
      | nil => simp
      | cons _ _ => simp at hl
    | cons x a ih =>
      cases b with
      | nil => simp at hl
      | cons y b =>
        have hn : 0 ≤ ((List.zipWith (· - ·) a b).map (fun x => x ^ 2)).sum := List.sum_nonneg fun x hx => by
          obtain ⟨y, -, rfl⟩ := List.mem_map.1 hx; positivity
        have hih : ((List.zipWith (· - ·) a b).map (fun x => x ^ 2)).sum = 0 ↔ a = b := ih b (by simpa using hl)
        simp only [List.zipWith_cons_cons, List.map_cons, List.sum_cons, List.cons.injEq]
        rw [← hih]
        constructor
        · intro h
          have h1 := sq_nonneg (x - y)
          have h2 : (x - y) ^ 2 = 0 := by linarith
          exact ⟨by have := pow_eq_zero_iff two_ne_zero |>.1 h2; linarith, by linarith⟩
        · rintro ⟨rfl, h⟩; rw [h]; ring

/-- C91.  `laplac2` is a graph Laplacian: rows sum to zero, and for a symmetric non-negative adjacency matrix it is positive semidefinite. -/
theorem C91_laplac2 (eps : ℝ) (A : Fin n → Fin n → ℝ) :
    ∃ L, DL.laplacian Real.sqrt eps "laplac2" A = .ok L ∧ (∀ i, ∑ j, L i j = 0) ∧
      ((∀ i j, A i j = A j i) → (∀ i j, 0 ≤ A i j) → ∀ x : Fin n → ℝ, 0 ≤ ∑ i, ∑ j, x i * L i j * x j) := by
  refine ⟨_, rfl, fun i => ?_, fun hs hp x => ?_⟩
  · simp [Finset.sum_sub_distrib]
  · have key : ∑ i, ∑ j, x i * ((if i = j then ∑ k, A i k else 0) - A i j) * x j = (∑ i, ∑ j, A i j * (x i - x j) ^ 2) / 2 := by
      have h1 : ∑ i, ∑ j, x i * ((if i = j then ∑ k, A i k else 0) - A i j) * x j = ∑ i, ∑ j, (A i j * x i ^ 2 - A i j * x i * x j) := by
        refine Finset.sum_congr rfl fun i _ => ?_
        simp only [mul_sub, sub_mul, Finset.sum_sub_distrib]
        congr 1
        · simp only [mul_ite, mul_zero, ite_mul, zero_mul, Finset.sum_ite_eq, Finset.mem_univ, if_true]
          rw [← Finset.sum_mul]; ring
        · exact Finset.sum_congr rfl fun j _ => by ring
      have h2 : ∑ i, ∑ j, A i j * x j ^ 2 = ∑ i, ∑ j, A i j * x i ^ 2 := by
        rw [Finset.sum_comm]; exact Finset.sum_congr rfl fun i _ => Finset.sum_congr rfl fun j _ => by rw [hs]
      rw [h1, eq_div_iff two_ne_zero]
      have h3 : ∑ i, ∑ j, A i j * (x i - x j) ^ 2 = ∑ i, ∑ j, (A i j * x i ^ 2 - A i j * x i * x j) * 2 + (∑ i, ∑ j, A i j * x j ^ 2 - ∑ i, ∑ j, A i j * x i ^ 2) := by
        rw [← Finset.sum_sub_distrib, ← Finset.sum_add_distrib]
        refine Finset.sum_congr rfl fun i _ => ?_
        rw [← Finset.sum_sub_distrib, ← Finset.sum_add_distrib]
        exact Finset.sum_congr rfl fun j _ => by ring
      rw [h3, h2, sub_self, add_zero, Finset.sum_mul]
      exact Finset.sum_congr rfl fun i _ => by rw [Finset.sum_mul]
    rw [key]
    exact div_nonneg (Finset.sum_nonneg fun i _ => Finset.sum_nonneg fun j _ => mul_nonneg (hp i j) (sq_nonneg _)) (by norm_num)

/-- C91.  `laplac3` is the symmetrically normalised graph Laplacian, damped by `eps`: for a symmetric adjacency matrix with degrees `v` above `-eps`,
`xᵀLx = ½ Σ A_ij (y_i - y_j)² + eps Σ y_i²` with `y_i = x_i / √(v_i + eps)`; a degree of at most `-eps` is refused. -/
theorem C91_laplac3 (eps : ℝ) (A : Fin n → Fin n → ℝ) :
    ((∀ i, 0 < (∑ k, A i k) + eps) → (∀ i j, A i j = A j i) →
      ∃ L, DL.laplacian Real.sqrt eps "laplac3" A = .ok L ∧ (∀ i j, L i j = L j i) ∧ ∀ x y : Fin n → ℝ,
        (∀ i, y i = x i / Real.sqrt ((∑ k, A i k) + eps)) →
          ∑ i, ∑ j, x i * L i j * x j = 1 / 2 * ∑ i, ∑ j, A i j * (y i - y j) ^ 2 + eps * ∑ i, y i ^ 2) ∧
    (∀ i, (∑ k, A i k) + eps ≤ 0 → DL.laplacian Real.sqrt eps "laplac3" A = .error .runtimeError) := by
  constructor
  · intro hv hs
    refine ⟨fun i j => (if i = j then 1 else 0) - 1 / Real.sqrt ((∑ k, A i k) + eps) * A i j * (1 / Real.sqrt ((∑ k, A j k) + eps)), ?_, ?_, ?_⟩
    · unfold DL.laplacian
      dsimp only
      rw [if_neg (by decide), if_neg (by decide), if_pos rfl, if_neg]
      simp only [List.any_eq_true, decide_eq_true_eq, not_exists, not_and]
      exact fun i _ => not_le.2 (hv i)
    · intro i j
      dsimp only
      rw [hs i j]
      congr 1
      · simp only [eq_comm]
      · ring
    · intro x y hy
      have hx : ∀ i, x i ^ 2 = ((∑ k, A i k) + eps) * y i ^ 2 := by
        intro i
        have h0 : Real.sqrt ((∑ k, A i k) + eps) ≠ 0 := (Real.sqrt_pos.2 (hv i)).ne'
        have h1 := Real.sq_sqrt (hv i).le
        rw [hy, div_pow, h1, mul_div_cancel₀]
        exact (hv i).ne'
      have h1 : ∑ i, ∑ j, x i * ((if i = j then 1 else 0) - 1 / Real.sqrt ((∑ k, A i k) + eps) * A i j * (1 / Real.sqrt ((∑ k, A j k) + eps))) * x j
          = ∑ i, ∑ j, (A i j * y i ^ 2 - A i j * y i * y j) + eps * ∑ i, y i ^ 2 := by
        rw [Finset.mul_sum, ← Finset.sum_add_distrib]
        refine Finset.sum_congr rfl fun i _ => ?_
        simp only [mul_sub, sub_mul, Finset.sum_sub_distrib]
        have e1 : ∑ j, x i * (if i = j then 1 else 0) * x j = ∑ j, A i j * y i ^ 2 + eps * y i ^ 2 := by
          simp only [mul_ite, mul_one, mul_zero, ite_mul, zero_mul, Finset.sum_ite_eq, Finset.mem_univ, if_true]
          rw [← Finset.sum_mul, ← sq, hx, add_mul]
        have e2 : ∑ j, x i * (1 / Real.sqrt ((∑ k, A i k) + eps) * A i j * (1 / Real.sqrt ((∑ k, A j k) + eps))) * x j = ∑ j, A i j * y i * y j :=
          Finset.sum_congr rfl fun j _ => by rw [hy i, hy j]; ring
        rw [e1, e2]; ring
      have h2 : ∑ i, ∑ j, A i j * y j ^ 2 = ∑ i, ∑ j, A i j * y i ^ 2 := by
        rw [Finset.sum_comm]; exact Finset.sum_congr rfl fun i _ => Finset.sum_congr rfl fun j _ => by rw [hs]
      have h3 : ∑ i, ∑ j, A i j * (y i - y j) ^ 2 = 2 * ∑ i, ∑ j, (A i j * y i ^ 2 - A i j * y i * y j) + (∑ i, ∑ j, A i j * y j ^ 2 - ∑ i, ∑ j, A i j * y i ^ 2) := by
        rw [Finset.mul_sum, ← Finset.sum_sub_distrib, ← Finset.sum_add_distrib]
        refine Finset.sum_congr rfl fun i _ => ?_
        rw [Finset.mul_sum, ← Finset.sum_sub_distrib, ← Finset.sum_add_distrib]
        exact Finset.sum_congr rfl fun j _ => by ring
      rw [h1, h3, h2]; ring
  · intro i hi
    unfold DL.laplacian
    dsimp only
    rw [if_neg (by decide), if_neg (by decide), if_pos rfl, if_pos]
    exact List.any_eq_true.2 ⟨i, List.mem_finRange i, by simpa using hi⟩

/-- Hence it is positive semidefinite for non-negative weights. -/
example (A : Fin 3 → Fin 3 → ℝ) (hs : ∀ i j, A i j = A j i) (hp : ∀ i j, 0 < A i j) :
    ∃ L, DL.laplacian Real.sqrt 0 "laplac3" A = .ok L ∧ ∀ x : Fin 3 → ℝ, 0 ≤ ∑ i, ∑ j, x i * L i j * x j := by
  obtain ⟨L, h1, -, h2⟩ := (C91_laplac3 0 A).1 (fun i => by rw [add_zero]; exact Finset.sum_pos (fun k _ => hp i k) ⟨i, Finset.mem_univ _⟩) hs
  refine ⟨L, h1, fun x => ?_⟩
  rw [h2 x _ (fun _ => rfl), zero_mul, add_zero]
  exact mul_nonneg (by norm_num) (Finset.sum_nonneg fun i _ => Finset.sum_nonneg fun j _ => mul_nonneg (hp i j).le (sq_nonneg _))

/-- C91.  The default `laplac1` is not a Laplacian: its rows sum to `-v/(v + eps)` instead of 0 (the identity of `I - D⁻¹A` is missing), so
on a graph with positive weights every row sum is negative. -/
theorem C91_laplac1_counterexample (eps : ℝ) (heps : 0 ≤ eps) (A : Fin n → Fin n → ℝ) (hp : ∀ i j, 0 < A i j) :
    ∃ L, DL.laplacian Real.sqrt eps "laplac1" A = .ok L ∧ ∀ i, ∑ j, L i j < 0 := by
  have hv : ∀ i, 0 < ∑ k, A i k := fun i => Finset.sum_pos (fun k _ => hp i k) ⟨i, Finset.mem_univ _⟩
  refine ⟨fun i j => -(1 / ((∑ k, A i k) + eps)) * A i j, ?_, ?_⟩
  · unfold DL.laplacian
    dsimp only
    rw [if_pos rfl, if_neg]
    simp only [List.any_eq_true, decide_eq_true_eq, not_exists, not_and]
    exact fun i _ => by have := hv i; positivity
  · intro i
    rw [← Finset.mul_sum]
    have := hv i
    have h2 : 0 < 1 / ((∑ k, A i k) + eps) := by positivity
    nlinarith

example : ∃ L, DL.laplacian Real.sqrt 0 "laplac1" (fun _ _ : Fin 2 => (1 : ℝ)) = .ok L ∧ ∀ i, ∑ j, L i j < 0 :=
  C91_laplac1_counterexample 0 le_rfl _ (fun _ _ => one_pos)

/-- C91.  With cosine similarities a row sum may be negative: the symmetric Laplacian of `(x, -x, -x)` has NaN entries and the call fails,
even for a batch against itself. -/
theorem C91_cos_counterexample (svals : ∀ n : Nat, (Fin n → Fin n → ℝ) → List ℝ) :
    DL.gda Real.sqrt Real.exp svals (1 / 10 ^ 12) (1 / 10 ^ 7) "cos" "laplac3" ![![1], ![-1], ![-1]] ![![(1 : ℝ)], ![-1], ![-1]] =
      .error .runtimeError := by
  have hmax : max (1 : ℝ) (1 / 10 ^ 12) = 1 := max_eq_left (by norm_num)
  have hA : DL.adj Real.sqrt Real.exp (1 / 10 ^ 12) "cos" ![![(1 : ℝ)], ![-1], ![-1]] = .ok (fun i j => ![![(1 : ℝ)], ![-1], ![-1]] i 0 * ![![(1 : ℝ)], ![-1], ![-1]] j 0) := by
    show Except.ok _ = Except.ok _
    congr 1; funext i j
    rw [Fin.sum_univ_one, Fin.sum_univ_one, Fin.sum_univ_one]
    have h1 : ∀ i : Fin 3, (![![(1 : ℝ)], ![-1], ![-1]] i 0) ^ 2 = 1 := by intro i; fin_cases i <;> norm_num
    rw [h1, h1, Real.sqrt_one, hmax, div_one, div_one]
  unfold DL.gda
  rw [hA]
  simp only [ok_bind]
  have hL : DL.laplacian Real.sqrt (1 / 10 ^ 7) "laplac3" (fun i j => ![![(1 : ℝ)], ![-1], ![-1]] i 0 * ![![(1 : ℝ)], ![-1], ![-1]] j 0) = .error .runtimeError := by
    unfold DL.laplacian
    dsimp only
    rw [if_neg (by decide), if_neg (by decide), if_pos rfl, if_pos]
    rw [List.any_eq_true]
    refine ⟨0, List.mem_finRange _, ?_⟩
    rw [decide_eq_true_eq, Fin.sum_univ_three]
    show (1 : ℝ) * 1 + 1 * -1 + 1 * -1 + 1 / 10 ^ 7 ≤ 0
    norm_num
  rw [hL]
  rfl

end Real

end Skada

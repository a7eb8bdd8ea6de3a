/-
Properties of the subspace adapters: row positions (C35), the matrices of TCA/TJM (C67), TCA's components (C68), the TJM
iteration (C69), the TSL objective (C70) and the default number of components of subspace alignment (C71).
-/
import Verif.Model.Subspace
import Verif.Lemmas.Mapping
import Verif.Props.Mapping
import Mathlib.Tactic.FinCases
import Mathlib.Tactic.FieldSimp

namespace Skada
open Np Spec RW Map Subsp Matrix

/-! ### C35: rows keep their positions -/

section Rows
variable {K : Type} [Field K] {d p : Nat}

theorem merge_rows (f g : (Fin d → K) → (Fin p → K)) (X : List (Fin d → K)) (sd : List Int) (hX : X ≠ [])
    (hlen : sd.length = X.length) :
    ∃ out, mergeN ⟨.float, [p], (sourceRows sd X).map f⟩ ⟨.float, [p], (targetRows sd X).map g⟩ sd = .ok out ∧
      out.rows.length = X.length ∧
      ∀ (i : Nat) (l : Int) (x : Fin d → K), sd[i]? = some l → X[i]? = some x →
        out.rows[i]? = some (if 0 ≤ l then f x else g x) := by
  have hsd := RW.sd_ne hX hlen
  obtain ⟨out, ho, hol, -, -, hos, hot⟩ := mergeN_ok (s := ⟨.float, [p], (sourceRows sd X).map f⟩)
    (t := ⟨.float, [p], (targetRows sd X).map g⟩) hsd (by simp [length_sourceRows hlen]) (by simp [length_targetRows hlen])
    (fun _ _ => rfl)
  have hid : ∀ (t : DType) (l : List (Fin p → K)), l.map (Cell.cast t) = l := by
    intro t l
    have : (Cell.cast t : (Fin p → K) → (Fin p → K)) = id := rfl
    rw [this, List.map_id]
  rw [hid] at hos hot
  refine ⟨out, ho, hol.trans hlen, fun i l x hl hx => ?_⟩
  by_cases h0 : 0 ≤ l
  · rw [at_source hol.symm hl h0, hos, List.getElem?_map, ← at_source hlen hl h0, hx, if_pos h0]; rfl
  · rw [at_target hol.symm hl (by omega), hot, List.getElem?_map, ← at_target hlen hl (by omega), hx, if_neg h0]; rfl

/-- C35 (subspace alignment). Row `i` of the output is the source projection moved into the target basis for a source
row, the target projection for a target row, for every interleaving. -/
theorem C35_subspace_alignment_rows (Ps Pt : Pca K d p) (X : NArr (Fin d → K)) (sd : List Int) (hX : X.rows ≠ [])
    (hlen : sd.length = X.rows.length) :
    ∃ out, saTransform Ps Pt X (.vec sd) true = .ok out ∧ out.rows.length = X.rows.length ∧
      ∀ (i : Nat) (l : Int) (x : Fin d → K), sd[i]? = some l → X.rows[i]? = some x →
        out.rows[i]? = some (if 0 ≤ l then
            ((x - Ps.mean) ᵥ* Ps.comps.transpose) ᵥ* (Ps.comps * Pt.comps.transpose)
          else (x - Pt.mean) ᵥ* Pt.comps.transpose) := by
  obtain ⟨out, ho, hl, h⟩ := merge_rows (fun x => Ps.apply x ᵥ* (Ps.comps * Pt.comps.transpose)) Pt.apply X.rows sd hX hlen
  refine ⟨out, ?_, hl, h⟩
  simp only [saTransform, RW.check_ok hX hlen, ok_bind, RW.splitX_ok (RW.sd_ne hX hlen) hlen]
  exact ho

/-- C35 (transfer subspace learning). Row `i` of the output is row `i` of the input times the learnt matrix, for source
and target rows alike and every interleaving. -/
theorem C35_tsl_rows (W : Matrix (Fin d) (Fin p) K) (X : NArr (Fin d → K)) (sd : List Int) (hX : X.rows ≠ [])
    (hlen : sd.length = X.rows.length) :
    ∃ out, tslTransform W X (.vec sd) true = .ok out ∧ out.rows = X.rows.map (fun x => x ᵥ* W) := by
  obtain ⟨out, ho, hl, h⟩ := merge_rows (fun x => x ᵥ* W) (fun x => x ᵥ* W) X.rows sd hX hlen
  refine ⟨out, ?_, ?_⟩
  · simp only [tslTransform, RW.check_ok hX hlen, ok_bind, RW.splitX_ok (RW.sd_ne hX hlen) hlen]
    exact ho
  · refine List.ext_getElem? fun i => ?_
    rw [List.getElem?_map]
    rcases lt_or_ge i X.rows.length with hi | hi
    · obtain ⟨x, hx⟩ : ∃ x, X.rows[i]? = some x := ⟨_, List.getElem?_eq_getElem hi⟩
      obtain ⟨l, hl'⟩ : ∃ l, sd[i]? = some l := ⟨_, List.getElem?_eq_getElem (hlen ▸ hi)⟩
      rw [h i l x hl' hx, hx]
      simp
    · rw [List.getElem?_eq_none (hl ▸ hi), List.getElem?_eq_none hi]; rfl

example : (saTransform (K := ℚ) (d := 1) (p := 1) ⟨fun _ => 1, fun _ _ => 1⟩ ⟨fun _ => 5, fun _ _ => 1⟩
    ⟨.float, [1], [fun _ => 7, fun _ => 3, fun _ => 9]⟩ (.vec [-2, 1, -2]) true).map (fun o => o.rows.map (fun r => r 0))
    = .ok [2, 2, 4] := by decide +kernel

/-- `fit_transform` and `transform` on source data are refused when sources are not allowed. -/
theorem C35_source_refused (Ps Pt : Pca K d p) (W : Matrix (Fin d) (Fin p) K) (X : NArr (Fin d → K)) (sd : List Int)
    (hX : X.rows ≠ []) (hlen : sd.length = X.rows.length) (hs : 0 < nSource sd) :
    saTransform Ps Pt X (.vec sd) false = .error .valueError ∧ tslTransform W X (.vec sd) false = .error .valueError := by
  simp [saTransform, tslTransform, check_source_refused hX hlen hs, err_bind]

end Rows

/-! Kernel embeddings. -/

section Embed
set_option linter.unusedSectionVars false
variable {K : Type} [Field K] {α : Type} {p : Nat}

/-- The embedding of a single row: `Σⱼ k(x, zⱼ) · Vⱼ` over the training rows `z` (sources, then targets). -/
def Spec.embed (k : α → α → K) (F : Embedding α K p) (x : α) : Fin p → K :=
  fun c => (List.zipWith (fun z v => k x z * v c) (F.Xs ++ F.Xt) F.V).sum

theorem rowMul_map (k : α → α → K) (F : Embedding α K p) (x : α) :
    rowMul ((F.Xs ++ F.Xt).map (k x)) F.V = embed k F x := by
  funext c
  rw [rowMul, List.zipWith_map_left]
  rfl

theorem zipWith_gram (k : α → α → K) (X Y Z : List α) :
    List.zipWith (· ++ ·) (gram k X Y) (gram k X Z) = X.map (fun x => (Y ++ Z).map (k x)) := by
  simp [gram, List.zipWith_map]

theorem kernelBlock_eq (k : α → α → K) (hk : ∀ x y, k x y = k y x) (Xs Xt : List α) :
    kernelBlock k Xs Xt = (Xs ++ Xt).map (fun x => (Xs ++ Xt).map (k x)) := by
  have h : gramT k Xs Xt = gram k Xt Xs := by
    simp [gramT, gram, hk]
  rw [kernelBlock, h, zipWith_gram, zipWith_gram, ← List.map_append]

theorem kernelTransform_ok [DecidableEq α] (k : α → α → K) (hk : ∀ x y, k x y = k y x) (F : Embedding α K p)
    (X : List α) (sd : List Int) (hX : X ≠ []) (hlen : sd.length = X.length) :
    kernelTransform k F X (.vec sd) true = .ok
      (if sourceRows sd X = F.Xs ∧ targetRows sd X = F.Xt then (sourceRows sd X ++ targetRows sd X).map (embed k F)
        else X.map (embed k F)) := by
  simp only [kernelTransform, RW.check_ok hX hlen, ok_bind, RW.splitX_ok (RW.sd_ne hX hlen) hlen]
  split
  · rename_i h
    rw [kernelBlock_eq k hk, List.map_map, ← h.1, ← h.2, h.1, h.2]
    exact congrArg Except.ok (List.map_congr_left fun x _ => rowMul_map k F x)
  · rw [zipWith_gram, List.map_map]
    exact congrArg Except.ok (List.map_congr_left fun x _ => rowMul_map k F x)

/-- C35 (TCA/TJM, new data). On data other than the training data, row `i` of the output is the embedding of row `i` of the
input, for every interleaving. -/
theorem C35_kernel_new_data [DecidableEq α] (k : α → α → K) (hk : ∀ x y, k x y = k y x) (F : Embedding α K p)
    (X : List α) (sd : List Int) (hX : X ≠ []) (hlen : sd.length = X.length)
    (hnew : sourceRows sd X ≠ F.Xs ∨ targetRows sd X ≠ F.Xt) :
    kernelTransform k F X (.vec sd) true = .ok (X.map (embed k F)) := by
  rw [kernelTransform_ok k hk F X sd hX hlen, if_neg]
  rintro ⟨a, b⟩
  rcases hnew with h | h
  · exact h a
  · exact h b

theorem kernelFit_ok (k : α → α → K) (eig : List (List K) → Nat → Nat → Py (List (Fin p → K))) (X : List α) (sd : List Int)
    (hX : X ≠ []) (hlen : sd.length = X.length) (V : List (Fin p → K))
    (hV : eig (kernelBlock k (sourceRows sd X) (targetRows sd X)) (nSource sd) (nTarget sd) = .ok V) :
    kernelFit k eig X (.vec sd) = .ok ⟨sourceRows sd X, targetRows sd X, V⟩ := by
  simp [kernelFit, RW.check_ok hX hlen, ok_bind, RW.splitX_ok (RW.sd_ne hX hlen) hlen, length_sourceRows hlen,
    length_targetRows hlen, hV, pure_ok]

/-- C35 (TCA/TJM, what the code does on the training data). For every interleaving the output of `fit_transform` lists the
embeddings of all source rows first, then those of all target rows. -/
theorem C35_kernel_training_order [DecidableEq α] (k : α → α → K) (hk : ∀ x y, k x y = k y x)
    (eig : List (List K) → Nat → Nat → Py (List (Fin p → K))) (X : List α) (sd : List Int) (hX : X ≠ [])
    (hlen : sd.length = X.length) (V : List (Fin p → K))
    (hV : eig (kernelBlock k (sourceRows sd X) (targetRows sd X)) (nSource sd) (nTarget sd) = .ok V) :
    kernelFitTransform k eig X (.vec sd) = .ok
      ((sourceRows sd X ++ targetRows sd X).map (embed k ⟨sourceRows sd X, targetRows sd X, V⟩)) := by
  simp only [kernelFitTransform, kernelFit_ok k eig X sd hX hlen V hV, ok_bind]
  rw [kernelTransform_ok k hk _ X sd hX hlen, if_pos ⟨rfl, rfl⟩]

theorem rows_sorted {sd : List Int} {X : List α} (hlen : sd.length = X.length)
    (hs : sd.Pairwise (fun a b => a < 0 → b < 0)) : sourceRows sd X ++ targetRows sd X = X := by
  induction sd generalizing X with
  | nil => cases X with
    | nil => rfl
    | cons _ _ => cases hlen
  | cons e sd ih =>
    cases X with
    | nil => cases hlen
    | cons x X =>
      rw [List.pairwise_cons] at hs
      have hl : sd.length = X.length := by simpa using hlen
      by_cases he : 0 ≤ e
      · have := ih hl hs.2
        simpa [sourceRows, targetRows, he, not_lt.2 he] using this
      · have he' : e < 0 := by omega
        have h0 : sourceRows sd X = [] := by
          rw [← List.length_eq_zero_iff, length_sourceRows hl]
          unfold nSource
          rw [List.countP_eq_zero]
          intro b hb
          have := hs.1 b hb he'
          simp; omega
        have := ih hl hs.2
        rw [h0, List.nil_append] at this
        have h1 : sourceRows (e :: sd) (x :: X) = sourceRows sd X := by simp [sourceRows, he]
        have h2 : targetRows (e :: sd) (x :: X) = x :: targetRows sd X := by simp [targetRows, he']
        rw [h1, h0, h2, this, List.nil_append]

/-- C35 (TCA/TJM, training data), partial: when every source row precedes every target row, row `i` of `fit_transform(X)` is
the embedding of row `i` of `X`. Missing: other layouts, where it fails (`C35_counterexample`). -/
theorem C35_kernel_rows_partial [DecidableEq α] (k : α → α → K) (hk : ∀ x y, k x y = k y x)
    (eig : List (List K) → Nat → Nat → Py (List (Fin p → K))) (X : List α) (sd : List Int) (hX : X ≠ [])
    (hlen : sd.length = X.length) (V : List (Fin p → K))
    (hV : eig (kernelBlock k (sourceRows sd X) (targetRows sd X)) (nSource sd) (nTarget sd) = .ok V)
    (hs : sd.Pairwise (fun a b => a < 0 → b < 0)) :
    kernelFitTransform k eig X (.vec sd) = .ok (X.map (embed k ⟨sourceRows sd X, targetRows sd X, V⟩)) := by
  rw [C35_kernel_training_order k hk eig X sd hX hlen V hV, rows_sorted hlen hs]

/-- C35 fails for TCA and TJM: with a target row before a source row, the output rows are exchanged, so a classifier
trained on them sees the embeddings with the wrong labels.  (Linear kernel, one component.) -/
theorem C35_counterexample :
    ∃ (k : ℚ → ℚ → ℚ) (eig : List (List ℚ) → Nat → Nat → Py (List (Fin 1 → ℚ))) (X : List ℚ) (sd : List Int)
      (F : Embedding ℚ ℚ 1) (out : List (Fin 1 → ℚ)),
      (∀ x y, k x y = k y x) ∧ sd.length = X.length ∧ 0 < nSource sd ∧ 0 < nTarget sd ∧
      kernelFit k eig X (.vec sd) = .ok F ∧ kernelFitTransform k eig X (.vec sd) = .ok out ∧
      out ≠ X.map (embed k F) ∧
      (out.map (fun r => r 0), X.map (fun x => embed k F x 0)) = ([3, 2], [2, 3]) := by
  refine ⟨fun x y => x * y, fun _ _ _ => .ok [fun _ => 1, fun _ => -1], [2, 3], [-2, 1],
    ⟨[3], [2], [fun _ => 1, fun _ => -1]⟩,
    ([3] ++ [2]).map (embed (fun x y : ℚ => x * y) ⟨[3], [2], [fun _ => 1, fun _ => -1]⟩), fun x y => mul_comm x y,
    rfl, by decide, by decide, rfl, ?_, ?_, by decide +kernel⟩
  · exact C35_kernel_training_order (fun x y : ℚ => x * y) (fun x y => mul_comm x y)
      (fun _ _ _ => .ok [fun _ => 1, fun _ => -1]) [2, 3] [-2, 1] (by simp) rfl [fun _ => 1, fun _ => -1] rfl
  · intro h
    have := congrFun (List.cons.inj h).1 0
    revert this
    decide +kernel

/-- Concrete instance of the partial theorem: two source rows, then a target row. -/
example : ([1, 2, -3] : List Int).Pairwise (fun a b => a < 0 → b < 0) := by decide

end Embed

/-! ### C67: the matrices -/

section Mats
variable {K : Type} [Field K] [CharZero K] {ns nt : Nat}

/-- The mean of a vector. -/
def Spec.mean {n : Nat} (v : Fin n → K) : K := (∑ i, v i) / (n : K)

omit [CharZero K] in
theorem mmd_mulVec (v : Fin ns ⊕ Fin nt → K) :
    v ⬝ᵥ (mmdMatrix K ns nt *ᵥ v) =
      (∑ i, v (.inl i)) ^ 2 / (ns : K) ^ 2 - 2 * ((∑ i, v (.inl i)) * ∑ j, v (.inr j)) / ((ns : K) * nt)
        + (∑ j, v (.inr j)) ^ 2 / (nt : K) ^ 2 := by
  simp only [dotProduct, mulVec, Fintype.sum_sum_type, mmdMatrix, Matrix.fromBlocks_apply₁₁, Matrix.fromBlocks_apply₁₂,
    Matrix.fromBlocks_apply₂₁, Matrix.fromBlocks_apply₂₂, Matrix.of_apply, Matrix.transpose_apply, ← Finset.mul_sum,
    ← Finset.sum_mul]
  ring

/-- C67 (MMD matrix). For every vector of projections, the quadratic form of the MMD matrix of TCA and TJM is the squared
difference between the source mean and the target mean. -/
theorem C67_mmd_matrix (v : Fin ns ⊕ Fin nt → K) (hs : 0 < ns) (ht : 0 < nt) :
    v ⬝ᵥ (mmdMatrix K ns nt *ᵥ v) = (Spec.mean (fun i => v (.inl i)) - Spec.mean (fun j => v (.inr j))) ^ 2 := by
  have h1 : (ns : K) ≠ 0 := by exact_mod_cast hs.ne'
  have h2 : (nt : K) ≠ 0 := by exact_mod_cast ht.ne'
  rw [mmd_mulVec]
  unfold Spec.mean
  field_simp
  ring

/-- C67 (centring matrix). Its quadratic form is the total scatter about the overall mean. -/
theorem C67_centring (v : Fin ns ⊕ Fin nt → K) (h : 0 < ns + nt) :
    v ⬝ᵥ (centring K ns nt *ᵥ v) = ∑ i, (v i - (∑ j, v j) / ((ns : K) + nt)) ^ 2 := by
  have h1 : (ns : K) + nt ≠ 0 := by exact_mod_cast h.ne'
  have hc : (∑ _i : Fin ns ⊕ Fin nt, (1 : K)) = (ns : K) + nt := by simp
  have e1 : ∀ i, (centring K ns nt *ᵥ v) i = v i - (∑ j, v j) / ((ns : K) + nt) := by
    intro i
    simp only [centring, Matrix.sub_mulVec, Matrix.one_mulVec, Pi.sub_apply]
    simp only [mulVec, dotProduct, Matrix.of_apply, ← Finset.mul_sum]
    ring
  simp only [dotProduct, e1]
  set m := (∑ j, v j) / ((ns : K) + nt) with hm
  have hS : ∑ j, v j = ((ns : K) + nt) * m := by rw [hm]; field_simp
  have e2 : ∑ i, (v i - m) ^ 2 = ∑ i, v i * (v i - m) - m * (∑ i, v i - (∑ _i : Fin ns ⊕ Fin nt, (1 : K)) * m) := by
    rw [Finset.sum_mul, ← Finset.sum_sub_distrib, Finset.mul_sum, ← Finset.sum_sub_distrib]
    exact Finset.sum_congr rfl fun i _ => by ring
  rw [e2, hc, hS]
  ring

/-- C67 (objective). For a symmetric kernel matrix, the terms `tr(Wᵀ K L K W)` and `tr(Wᵀ K H K W)` of TCA and TJM are, summed
over the components, the squared distance of the embedded domain means and the scatter of all embedded rows. -/
theorem C67_objective {p : Nat} (Km : Matrix (Fin ns ⊕ Fin nt) (Fin ns ⊕ Fin nt) K) (hK : Km.transpose = Km)
    (W : Matrix (Fin ns ⊕ Fin nt) (Fin p) K) (hs : 0 < ns) (ht : 0 < nt) :
    (W.transpose * (Km * mmdMatrix K ns nt * Km) * W).trace =
        ∑ c, (Spec.mean (fun i => (Km * W) (.inl i) c) - Spec.mean (fun j => (Km * W) (.inr j) c)) ^ 2 ∧
    (W.transpose * tcaB Km * W).trace =
        ∑ c, ∑ i, ((Km * W) i c - (∑ j, (Km * W) j c) / ((ns : K) + nt)) ^ 2 := by
  have key : ∀ M : Matrix (Fin ns ⊕ Fin nt) (Fin ns ⊕ Fin nt) K,
      (W.transpose * (Km * M * Km) * W).trace = ∑ c, (fun i => (Km * W) i c) ⬝ᵥ (M *ᵥ fun i => (Km * W) i c) := by
    intro M
    have e : W.transpose * (Km * M * Km) * W = (Km * W).transpose * (M * (Km * W)) := by
      rw [Matrix.transpose_mul, hK]; simp only [Matrix.mul_assoc]
    rw [e, Matrix.trace]
    refine Finset.sum_congr rfl fun c _ => ?_
    simp only [Matrix.diag_apply]
    rw [Matrix.mul_apply]
    rfl
  constructor
  · rw [key]
    exact Finset.sum_congr rfl fun c _ => C67_mmd_matrix _ hs ht
  · rw [tcaB, key]
    exact Finset.sum_congr rfl fun c _ => C67_centring _ (by omega)

/-- C67 (normalisation). The Frobenius norm by which TJM divides the MMD matrix is `1/n_s + 1/n_t`. -/
theorem C67_frobenius (hs : 0 < ns) (ht : 0 < nt) :
    ∑ i, ∑ j, (mmdMatrix K ns nt i j) ^ 2 = (1 / (ns : K) + 1 / nt) ^ 2 := by
  have h1 : (ns : K) ≠ 0 := by exact_mod_cast hs.ne'
  have h2 : (nt : K) ≠ 0 := by exact_mod_cast ht.ne'
  simp only [Fintype.sum_sum_type, mmdMatrix, Matrix.fromBlocks_apply₁₁, Matrix.fromBlocks_apply₁₂,
    Matrix.fromBlocks_apply₂₁, Matrix.fromBlocks_apply₂₂, Matrix.of_apply, Matrix.transpose_apply, Finset.sum_const,
    Finset.card_univ, Fintype.card_fin, nsmul_eq_mul]
  field_simp

example : (fun i : Fin 2 ⊕ Fin 1 => (Sum.elim ![1, 3] ![5] i : ℚ)) ⬝ᵥ
    (mmdMatrix ℚ 2 1 *ᵥ fun i => Sum.elim ![1, 3] ![5] i) = (2 - 5) ^ 2 := by
  rw [C67_mmd_matrix _ (by decide) (by decide)]
  simp [Spec.mean, Fin.sum_univ_two]
  norm_num

end Mats

/-! ### C68: TCA's components -/

section TCA
variable {K : Type} [Field K] {ns nt : Nat}

/-- C68 (eigenvectors), partial: whenever the eigensolver's output really diagonalises the solution of `A S = B` (which needs
a symmetric `S`), each component `v` with eigenvalue `l` satisfies TCA's generalised eigenproblem `B v = l A v`.  Missing:
non-symmetric `S`, where it fails (`C68_counterexample`). -/
theorem C68_components_partial (mu : K) (Km S V : Matrix (Fin ns ⊕ Fin nt) (Fin ns ⊕ Fin nt) K) (l : Fin ns ⊕ Fin nt → K)
    (hS : tcaA mu Km * S = tcaB Km) (hV : S * V = V * Matrix.diagonal l) (c : Fin ns ⊕ Fin nt) :
    tcaB Km *ᵥ (fun i => V i c) = l c • (tcaA mu Km *ᵥ fun i => V i c) := by
  have h : S *ᵥ (fun i => V i c) = l c • fun i => V i c := by
    funext i
    have := congrFun (congrFun hV i) c
    rw [Matrix.mul_diagonal, Matrix.mul_apply] at this
    simp only [mulVec, dotProduct, Pi.smul_apply, smul_eq_mul]
    rw [this, mul_comm]
  rw [← hS, ← Matrix.mulVec_mulVec, h, Matrix.mulVec_smul]

/-- C68. An orthonormal basis of eigenvectors of `S` exists only if the two matrices of the eigenproblem commute; otherwise
`eigh`, which always returns an orthonormal basis, returns at least one vector that is not a component of TCA. -/
theorem C68_orthonormal_needs_commuting (mu : K) (Km S V : Matrix (Fin ns ⊕ Fin nt) (Fin ns ⊕ Fin nt) K)
    (l : Fin ns ⊕ Fin nt → K) (hK : Km.transpose = Km) (hS : tcaA mu Km * S = tcaB Km)
    (hO : V * V.transpose = 1) (hV : S * V = V * Matrix.diagonal l) :
    tcaA mu Km * tcaB Km = tcaB Km * tcaA mu Km := by
  have hSd : S = V * Matrix.diagonal l * V.transpose := by
    rw [← hV, Matrix.mul_assoc, hO, Matrix.mul_one]
  have hSt : S.transpose = S := by
    rw [hSd]; simp [Matrix.transpose_mul, Matrix.mul_assoc]
  have hL : (mmdMatrix K ns nt).transpose = mmdMatrix K ns nt := by
    ext i j
    rcases i with i | i <;> rcases j with j | j <;> rfl
  have hH : (centring K ns nt).transpose = centring K ns nt := by
    ext i j
    simp [centring, Matrix.one_apply, eq_comm]
  have hA : (tcaA mu Km).transpose = tcaA mu Km := by
    simp only [tcaA, Matrix.transpose_add, Matrix.transpose_one, Matrix.transpose_smul, Matrix.transpose_mul, hL, hK,
      Matrix.mul_assoc]
  have hB : (tcaB Km).transpose = tcaB Km := by
    simp only [tcaB, Matrix.transpose_mul, hH, hK, Matrix.mul_assoc]
  have h2 : tcaB Km = S * tcaA mu Km := by
    have := congrArg Matrix.transpose hS
    rw [Matrix.transpose_mul, hSt, hA, hB] at this
    exact this.symm
  conv_lhs => rw [h2]
  rw [← hS, Matrix.mul_assoc]

/-- The kernel matrix of the linear kernel on one source row `(1,0)` and target rows `(0,1)`, `(0,2)`. -/
def exKm : Matrix (Fin 1 ⊕ Fin 2) (Fin 1 ⊕ Fin 2) ℚ :=
  Matrix.fromBlocks !![1] !![0, 0] !![0; 0] !![1, 2; 2, 4]

/-- C68 fails: for this symmetric positive semi-definite kernel matrix, whatever orthonormal basis an eigensolver returns, it
does not consist of eigenvectors of the matrix TCA has to diagonalise. -/
theorem C68_counterexample (S V : Matrix (Fin 1 ⊕ Fin 2) (Fin 1 ⊕ Fin 2) ℚ) (l : Fin 1 ⊕ Fin 2 → ℚ)
    (hS : tcaA 1 exKm * S = tcaB exKm) (hO : V * V.transpose = 1) : S * V ≠ V * Matrix.diagonal l := by
  intro hV
  have hK : exKm.transpose = exKm := by
    ext i j
    rcases i with i | i <;> rcases j with j | j <;> fin_cases i <;> fin_cases j <;> rfl
  have h := C68_orthonormal_needs_commuting 1 exKm S V l hK hS hO hV
  have := congrFun (congrFun h (.inl 0)) (.inr 0)
  simp [tcaA, tcaB, exKm, mmdMatrix, centring, Matrix.mul_apply, Fintype.sum_sum_type, Fin.sum_univ_two,
    Matrix.add_apply, Matrix.sub_apply] at this
  norm_num at this

/-- The hypotheses of the counterexample are met: the linear system has a solution. -/
example : ∃ S V : Matrix (Fin 1 ⊕ Fin 2) (Fin 1 ⊕ Fin 2) ℚ, tcaA 1 exKm * S = tcaB exKm ∧ V * V.transpose = 1 := by
  refine ⟨Matrix.fromBlocks !![8/159] !![11/53, 22/53] !![-4/53; -8/53] !![10/53, 20/53; 20/53, 40/53], 1, ?_, by simp⟩
  ext i j
  rcases i with i | i <;> rcases j with j | j <;> fin_cases i <;> fin_cases j <;>
    simp [tcaA, tcaB, exKm, mmdMatrix, centring, Matrix.mul_apply, Fintype.sum_sum_type, Fin.sum_univ_two,
      Matrix.add_apply, Matrix.sub_apply] <;> norm_num

end TCA

section Select
variable {K : Type} [Field K] [LinearOrder K]

/-- C68 (selection). The kept components are `min p n` distinct ones, and no dropped component has an eigenvalue of larger
absolute value. -/
theorem C68_selection (eigvals : List K) (p : Nat) :
    (tcaSelect eigvals p).length = min p eigvals.length ∧ (tcaSelect eigvals p).Nodup ∧
    (∀ i ∈ tcaSelect eigvals p, i < eigvals.length) ∧
    ∀ (i j : Nat) (a b : K), i ∈ tcaSelect eigvals p → j ∉ tcaSelect eigvals p → eigvals[i]? = some a →
      eigvals[j]? = some b → |b| ≤ |a| := by
  set r : Nat → Nat → Prop := fun i j => |eigvals.getD i 0| ≤ |eigvals.getD j 0| with hr
  set o := (List.range eigvals.length).insertionSort r with ho
  have hp : o.Perm (List.range eigvals.length) := List.perm_insertionSort _ _
  have hs : o.Pairwise r := by
    have : Std.Total r := ⟨fun a b => le_total _ _⟩
    have : IsTrans Nat r := ⟨fun a b c h1 h2 => le_trans h1 h2⟩
    exact List.pairwise_insertionSort r _
  have hsel : tcaSelect eigvals p = o.reverse.take p := rfl
  have hlen : o.length = eigvals.length := by rw [hp.length_eq, List.length_range]
  have hnd : o.reverse.Nodup := List.nodup_reverse.2 (hp.nodup_iff.2 List.nodup_range)
  refine ⟨?_, ?_, ?_, ?_⟩
  · rw [hsel, List.length_take, List.length_reverse, hlen]
  · rw [hsel]; exact hnd.sublist (List.take_sublist _ _)
  · intro i hi
    rw [hsel] at hi
    have : i ∈ o := List.mem_reverse.1 (List.mem_of_mem_take hi)
    exact List.mem_range.1 (hp.mem_iff.1 this)
  · intro i j a b hi hj ha hb
    rw [hsel] at hi hj
    have hjo : j ∈ o.reverse := by
      rw [List.mem_reverse, hp.mem_iff, List.mem_range]
      exact (List.getElem?_eq_some_iff.1 hb).1
    have hjd : j ∈ o.reverse.drop p := by
      rw [← List.take_append_drop p o.reverse, List.mem_append] at hjo
      exact hjo.resolve_left hj
    have hpw : o.reverse.Pairwise (fun a b => r b a) := List.pairwise_reverse.2 hs
    rw [← List.take_append_drop p o.reverse, List.pairwise_append] at hpw
    have := hpw.2.2 i hi j hjd
    simp only [hr] at this
    have e1 : eigvals.getD i 0 = a := by rw [List.getD_eq_getElem?_getD, ha]; rfl
    have e2 : eigvals.getD j 0 = b := by rw [List.getD_eq_getElem?_getD, hb]; rfl
    rwa [e1, e2] at this

example : tcaSelect ([1, -7, 3, 0] : List ℚ) 2 = [1, 2] := by decide +kernel

end Select

/-! ### C69: the TJM iteration -/

section TJM
set_option linter.unusedSectionVars false
variable {K : Type} [Field K] [LinearOrder K] [IsStrictOrderedRing K]

/-- C69 fails: TJM never iterates.  For every tolerance `≥ 0`, every problem and every `max_iter ≥ 1` the result is that of the
first iteration, so the instance-reweighting update (`G`, the "joint matching" part) is never used. -/
theorem C69_counterexample {A G : Type} (step : G → A × G × K) (identity : G) (tol : K) (htol : 0 ≤ tol) (n : Nat) :
    tjmFit step identity tol (n + 1) = .ok (step identity).1 := by
  simp only [tjmFit, tjmLoop]
  rw [if_pos]
  rcases htol.eq_or_lt with h | h
  · left; rw [← h]; simp
  · right
    exact lt_of_le_of_lt (div_nonpos_of_nonneg_of_nonpos (abs_nonneg _) (by linarith)) h

/-- C69 (zero iterations). `max_iter=0` raises `UnboundLocalError`. -/
theorem C69_zero_iterations {A G : Type} (step : G → A × G × K) (identity : G) (tol : K) :
    tjmFit step identity tol 0 = .error .unboundLocalError := rfl

/-- C69, partial: when the relative loss change is tested against a positive previous loss (as intended), the loop stops at
the first iteration whose relative change is below `tol`.  Missing: the first test, which is made against `-2 tol`. -/
theorem C69_stop_partial {A G : Type} (step : G → A × G × K) (tol : K) (n : Nat) (g : G) (last : K) (best : Option A)
    (hl : 0 < last) :
    tjmLoop step tol (n + 1) g last best =
      if |last - (step g).2.2| < tol * last then .ok (step g).1
      else tjmLoop step tol n (step g).2.1 (step g).2.2 (some (step g).1) := by
  simp only [tjmLoop]
  have : (last = 0 ∨ |last - (step g).2.2| / last < tol) ↔ |last - (step g).2.2| < tol * last := by
    rw [div_lt_iff₀ hl]
    exact ⟨fun h => h.resolve_left hl.ne', Or.inr⟩
  by_cases h : |last - (step g).2.2| < tol * last
  · rw [if_pos (this.2 h), if_pos h]
  · rw [if_neg (fun h' => h (this.1 h')), if_neg h]

/-- A problem where a second iteration would change the result: the first one is returned although the loss halves. -/
example : tjmFit (K := ℚ) (fun g : Nat => (g, g + 1, 1 / (g + 1 : ℚ))) 0 (1 / 100) 100 = .ok 0 :=
  C69_counterexample _ _ _ (by norm_num) 99

end TJM

/-! ### C70: the TSL objective -/

section TSL
set_option linter.unusedSectionVars false
variable {K : Type} [Field K] [LinearOrder K] [IsStrictOrderedRing K] {d p : Nat}

/-- The mean square deviation of the projected rows from the projected mean. -/
def Spec.scatter (W : Matrix (Fin d) (Fin p) K) (X : List (Fin d → K)) : K :=
  (X.map (fun x => ∑ c, ((x - colMean X) ᵥ* W) c ^ 2)).sum / (X.length : K)

theorem sum_sq_vecMul (W : Matrix (Fin d) (Fin p) K) (y : Fin d → K) :
    ∑ c, (y ᵥ* W) c ^ 2 = ∑ c, ∑ i, ∑ j, W j c * (y j * y i) * W i c := by
  refine Finset.sum_congr rfl fun c _ => ?_
  simp only [vecMul, dotProduct, pow_two, Finset.sum_mul_sum]
  rw [Finset.sum_comm]
  exact Finset.sum_congr rfl fun i _ => Finset.sum_congr rfl fun j _ => by ring

theorem trace_torchCov (W : Matrix (Fin d) (Fin p) K) (X : List (Fin d → K)) :
    (W.transpose * torchCov 0 X * W).trace = scatter W X := by
  have hc : torchCov 0 X =
      Matrix.of fun i j => (X.map (fun x => (x i - colMean X i) * (x j - colMean X j))).sum / (X.length : K) := by
    simp [torchCov]
  rw [hc]
  have hg : ∀ m : Fin d → K, ∀ Y : List (Fin d → K), ∀ a : K,
      (W.transpose * (Matrix.of fun i j => (Y.map (fun x => (x i - m i) * (x j - m j))).sum / a) * W).trace
        = (Y.map (fun x => ∑ c, ((x - m) ᵥ* W) c ^ 2)).sum / a := by
    intro m Y a
    simp only [Matrix.trace, Matrix.diag_apply, Matrix.mul_apply, Matrix.transpose_apply, Matrix.of_apply]
    induction Y with
    | nil => simp
    | cons y Y ih =>
      simp only [List.map_cons, List.sum_cons, add_div, mul_add, add_mul, Finset.sum_add_distrib, ih]
      congr 1
      rw [sum_sq_vecMul, Finset.sum_div]
      refine Finset.sum_congr rfl fun c _ => ?_
      rw [Finset.sum_div]
      refine Finset.sum_congr rfl fun i _ => ?_
      rw [Finset.sum_div, Finset.sum_mul]
      refine Finset.sum_congr rfl fun j _ => ?_
      simp only [Pi.sub_apply]
      ring
  exact hg (colMean X) X _

theorem scatter_nonneg (W : Matrix (Fin d) (Fin p) K) (X : List (Fin d → K)) : 0 ≤ scatter W X := by
  refine div_nonneg (RW.sum_nonneg' ?_) (Nat.cast_nonneg _)
  intro z hz
  obtain ⟨x, -, rfl⟩ := List.mem_map.1 hz
  exact Finset.sum_nonneg fun c _ => sq_nonneg _

/-- C70 (PCA). Without regularisation the "pca" loss is minus the variance captured by the projection. -/
theorem C70_pca (W : Matrix (Fin d) (Fin p) K) (X : List (Fin d → K)) : tslPca 0 W X = - scatter W X := by
  rw [tslPca, trace_torchCov]

theorem torchCov_split (reg : K) (X : List (Fin d → K)) :
    torchCov reg X = (1 - reg) • torchCov 0 X + (reg * (torchCov 0 X).trace) • 1 := by
  simp [torchCov]

/-- C70 (PCA, regularised). For a projection with orthonormal columns the regularised "pca" loss is
`-((1 - reg) · captured variance + reg · p · total variance)` (the trace is not divided by the number of features), so for
`reg < 1` two projections compare exactly as without regularisation. -/
theorem C70_pca_regularised (reg : K) (W : Matrix (Fin d) (Fin p) K) (X : List (Fin d → K)) (hW : W.transpose * W = 1) :
    tslPca reg W X = - ((1 - reg) * scatter W X + reg * (p : K) * scatter (1 : Matrix (Fin d) (Fin d) K) X) ∧
    ∀ W' : Matrix (Fin d) (Fin p) K, W'.transpose * W' = 1 → reg < 1 →
      (tslPca reg W X ≤ tslPca reg W' X ↔ scatter W' X ≤ scatter W X) := by
  have key : ∀ V : Matrix (Fin d) (Fin p) K, V.transpose * V = 1 →
      tslPca reg V X = - ((1 - reg) * scatter V X + reg * (p : K) * scatter (1 : Matrix (Fin d) (Fin d) K) X) := by
    intro V hV
    have h1 : (torchCov 0 X).trace = scatter (1 : Matrix (Fin d) (Fin d) K) X := by
      rw [← trace_torchCov]; simp
    rw [tslPca, torchCov_split, h1, Matrix.mul_add, Matrix.add_mul, Matrix.mul_smul, Matrix.smul_mul, Matrix.mul_smul,
      Matrix.smul_mul, Matrix.mul_one, hV, Matrix.trace_add, Matrix.trace_smul, Matrix.trace_smul, trace_torchCov,
      Matrix.trace_one, Fintype.card_fin]
    simp only [smul_eq_mul]
    ring
  refine ⟨key W hW, fun W' hW' hr => ?_⟩
  rw [key W hW, key W' hW']
  have hp : 0 < 1 - reg := by linarith
  constructor
  · intro h
    have : (1 - reg) * scatter W' X ≤ (1 - reg) * scatter W X := by linarith
    exact le_of_mul_le_mul_left this hp
  · intro h
    have := mul_le_mul_of_nonneg_left h hp.le
    linarith

theorem colMean_const_proj (W : Matrix (Fin d) (Fin p) K) (X : List (Fin d → K)) (hX : X ≠ []) (q : Fin p → K)
    (h : ∀ x ∈ X, x ᵥ* W = q) : colMean X ᵥ* W = q := by
  have hn : (X.length : K) ≠ 0 := by
    have := List.length_pos_iff.2 hX
    exact_mod_cast this.ne'
  have key : ∀ Y : List (Fin d → K), (∀ x ∈ Y, x ᵥ* W = q) →
      (fun j => (Y.map (fun x => x j)).sum) ᵥ* W = (Y.length : K) • q := by
    intro Y hY
    induction Y with
    | nil => funext c; simp [vecMul, dotProduct]
    | cons y Y ih =>
      have e : (fun j => ((y :: Y).map (fun x => x j)).sum) = y + fun j => (Y.map (fun x => x j)).sum := by
        funext j; simp
      rw [e, Matrix.add_vecMul, hY y (by simp), ih (fun x hx => hY x (by simp [hx]))]
      funext c
      simp only [Pi.add_apply, Pi.smul_apply, smul_eq_mul, List.length_cons, Nat.cast_add, Nat.cast_one]
      ring
  have e : colMean X = (X.length : K)⁻¹ • fun j => (X.map (fun x => x j)).sum := by
    funext j; simp [colMean, div_eq_inv_mul]
  rw [e, Matrix.smul_vecMul, key X h, smul_smul, inv_mul_cancel₀ hn, one_smul]

theorem scatter_const (W : Matrix (Fin d) (Fin p) K) (X : List (Fin d → K)) (q : Fin p → K)
    (h : ∀ x ∈ X, x ᵥ* W = q) : scatter W X = 0 := by
  by_cases hX : X = []
  · subst hX; simp [Spec.scatter]
  · have hm := colMean_const_proj W X hX q h
    have : X.map (fun x => ∑ c, ((x - colMean X) ᵥ* W) c ^ 2) = X.map (fun _ => (0 : K)) := by
      refine List.map_congr_left fun x hx => ?_
      rw [Matrix.sub_vecMul, h x hx, hm, sub_self]
      simp
    unfold Spec.scatter
    rw [this]
    simp

theorem classRows_eq {β : Type} [DecidableEq β] (X : List (Fin d → K)) (y : List β) (c : β) :
    classRows X y c = ((X.zip y).filter (fun z => decide (z.2 = c))).map Prod.fst := by
  unfold classRows
  induction X generalizing y with
  | nil => cases y <;> simp [Np.sel]
  | cons x X ih =>
    cases y with
    | nil => simp [Np.sel]
    | cons b y =>
      have := ih y
      by_cases h : b = c <;> simp_all [Np.sel]

/-- C70 (FLDA), what the code minimises: with balanced classes and no regularisation, a projection that sends all class means
to the *same* point is a global minimiser of the "flda" loss (value 0), i.e. the objective of Fisher discriminant analysis is
inverted. -/
theorem C70_flda_inverted {β : Type} [LinearOrder β] (sqrt : Nat → K) (W : Matrix (Fin d) (Fin p) K)
    (X : List (Fin d → K)) (y : List β) (m : Nat) (hbal : ∀ c ∈ y, y.count c = m) (q : Fin p → K)
    (hmeans : ∀ c ∈ y, colMean (((X.zip y).filter (fun z => decide (z.2 = c))).map Prod.fst) ᵥ* W = q) :
    tslFlda sqrt 0 W X y = 0 ∧ ∀ {p' : Nat} (W' : Matrix (Fin d) (Fin p') K), 0 ≤ tslFlda sqrt 0 W' X y := by
  constructor
  · have : scatter W (fldaMeans sqrt X y) = 0 := by
      refine scatter_const W _ (sqrt m • q) ?_
      intro x hx
      obtain ⟨c, hc, rfl⟩ := List.mem_map.1 hx
      have hc' := mem_unique.1 hc
      have e : (fun j => colMean (classRows X y c) j * sqrt (y.count c)) = sqrt m • colMean (classRows X y c) := by
        funext j; simp [hbal c hc', mul_comm]
      rw [e, Matrix.smul_vecMul, classRows_eq, hmeans c hc']
    rw [tslFlda, trace_torchCov, this, zero_div]
  · intro p' W'
    rw [tslFlda, trace_torchCov, trace_torchCov]
    exact div_nonneg (scatter_nonneg _ _) (scatter_nonneg _ _)

/-- Two classes separated along the first axis, and spread along the second. -/
def exX : List (Fin 2 → ℚ) := [![0, 0], ![0, 1], ![3, 0], ![3, 1], ![0, 0], ![0, 1], ![3, 0], ![3, 1]]
/-- Their classes: four samples each. -/
def exY : List Nat := [0, 0, 1, 1, 0, 0, 1, 1]

/-- C70 fails for "flda": on data whose classes differ only along the first axis, the second axis (no separation at all) has a
strictly smaller loss than the first axis (perfect separation). -/
theorem C70_flda_counterexample :
    tslFlda (K := ℚ) (fun n => (Nat.sqrt n : ℚ)) 0 (!![0; 1] : Matrix (Fin 2) (Fin 1) ℚ) exX exY = 0 ∧
    tslFlda (K := ℚ) (fun n => (Nat.sqrt n : ℚ)) 0 (!![1; 0] : Matrix (Fin 2) (Fin 1) ℚ) exX exY = 4 := by
  constructor <;> decide +kernel

/-- C70 (LPP), what the code minimises: for a symmetric kernel the "lpp" loss is *minus* the kernel-weighted sum of squared
distances between projected rows of the same class. -/
theorem C70_lpp_value {β : Type} [DecidableEq β] {n : Nat} (ker : (Fin d → K) → (Fin d → K) → K)
    (hk : ∀ x z, ker x z = ker z x) (W : Matrix (Fin d) (Fin p) K) (X : Matrix (Fin n) (Fin d) K) (y : Fin n → β) :
    tslLpp ker W X y = - ∑ i, ∑ j, (if y i = y j then ker (X i) (X j) * ∑ c, ((X i - X j) ᵥ* W) c ^ 2 else 0) := by
  set E : Matrix (Fin n) (Fin n) K := Matrix.of fun i j => ker (X i) (X j) * (if y i = y j then 1 else 0) with hE
  have hsym : ∀ i j, E i j = E j i := by
    intro i j
    simp only [hE, Matrix.of_apply, hk (X i) (X j), eq_comm (a := y i)]
  set Z : Matrix (Fin n) (Fin p) K := X * W with hZ
  have hz : ∀ i j c, ((X i - X j) ᵥ* W) c = Z i c - Z j c := by
    intro i j c
    rw [Matrix.sub_vecMul]
    simp [hZ, Matrix.mul_apply, vecMul, dotProduct]
  have h1 : tslLpp ker W X y
      = (-2) * (Z.transpose * (Matrix.diagonal (fun i => ∑ j, E i j) - E) * Z).trace := by
    simp only [tslLpp, ← hE, hZ, Matrix.transpose_mul, Matrix.mul_assoc]
  have h2 : (Z.transpose * (Matrix.diagonal (fun i => ∑ j, E i j) - E) * Z).trace
      = ∑ c, (∑ i, (∑ j, E i j) * Z i c ^ 2 - ∑ i, ∑ j, E i j * (Z i c * Z j c)) := by
    rw [Matrix.mul_assoc, Matrix.trace]
    refine Finset.sum_congr rfl fun c _ => ?_
    rw [Matrix.diag_apply, Matrix.mul_apply, ← Finset.sum_sub_distrib]
    refine Finset.sum_congr rfl fun i _ => ?_
    rw [Matrix.sub_mul, Matrix.sub_apply, Matrix.diagonal_mul, Matrix.mul_apply, Matrix.transpose_apply, mul_sub,
      Finset.mul_sum]
    congr 1
    · ring
    · exact Finset.sum_congr rfl fun j _ => by ring
  have h3 : ∀ c, ∑ i, ∑ j, E i j * (Z i c - Z j c) ^ 2
      = 2 * (∑ i, (∑ j, E i j) * Z i c ^ 2 - ∑ i, ∑ j, E i j * (Z i c * Z j c)) := by
    intro c
    have a : ∑ i, ∑ j, E i j * (Z i c - Z j c) ^ 2
        = ∑ i, ∑ j, E i j * Z i c ^ 2 + ∑ i, ∑ j, E i j * Z j c ^ 2 - 2 * ∑ i, ∑ j, E i j * (Z i c * Z j c) := by
      rw [Finset.mul_sum, ← Finset.sum_add_distrib, ← Finset.sum_sub_distrib]
      refine Finset.sum_congr rfl fun i _ => ?_
      rw [Finset.mul_sum, ← Finset.sum_add_distrib, ← Finset.sum_sub_distrib]
      exact Finset.sum_congr rfl fun j _ => by ring
    have b : ∑ i, ∑ j, E i j * Z j c ^ 2 = ∑ i, ∑ j, E i j * Z i c ^ 2 := by
      rw [Finset.sum_comm]
      exact Finset.sum_congr rfl fun i _ => Finset.sum_congr rfl fun j _ => by rw [hsym]
    rw [a, b]
    simp only [Finset.sum_mul]
    ring
  rw [h1, h2, Finset.mul_sum]
  have h4 : ∑ i, ∑ j, (if y i = y j then ker (X i) (X j) * ∑ c, ((X i - X j) ᵥ* W) c ^ 2 else 0)
      = ∑ c, ∑ i, ∑ j, E i j * (Z i c - Z j c) ^ 2 := by
    rw [Finset.sum_comm]
    rw [Finset.sum_comm (s := (Finset.univ : Finset (Fin p)))]
    rw [Finset.sum_comm]
    refine Finset.sum_congr rfl fun i _ => ?_
    rw [Finset.sum_comm]
    refine Finset.sum_congr rfl fun j _ => ?_
    simp only [hz, hE, Matrix.of_apply, ← Finset.mul_sum]
    split <;> simp
  rw [h4, ← Finset.sum_neg_distrib]
  refine Finset.sum_congr rfl fun c _ => ?_
  rw [h3]
  ring

/-- C70 fails for "lpp": two neighbouring rows of the same class; the axis that keeps them together has a larger loss than the
axis that pulls them apart. -/
theorem C70_lpp_counterexample :
    tslLpp (K := ℚ) (fun _ _ => 1) (!![0; 1] : Matrix (Fin 2) (Fin 1) ℚ) !![0, 0; 1, 0] (fun _ => (0 : Nat)) = 0 ∧
    tslLpp (K := ℚ) (fun _ _ => 1) (!![1; 0] : Matrix (Fin 2) (Fin 1) ℚ) !![0, 0; 1, 0] (fun _ => (0 : Nat)) = -2 := by
  constructor
  · rw [C70_lpp_value _ (fun _ _ => rfl)]; simp [Fin.sum_univ_two, vecMul, dotProduct]
  · rw [C70_lpp_value _ (fun _ _ => rfl)]; simp [Fin.sum_univ_two, vecMul, dotProduct]; norm_num

/-- C70 (constructor). Unknown base methods and regularisation outside `[0, 1]` are rejected, everything else is accepted and
`None` means 0. -/
theorem C70_constructor (m : String) (reg : Option K) (r : K) :
    tslInit m reg = .ok r ↔ m ∈ ["pca", "flda", "lpp"] ∧ 0 ≤ r ∧ r ≤ 1 ∧ (reg = none ∧ r = 0 ∨ reg = some r) := by
  unfold tslInit
  by_cases hm : m ∈ ["pca", "flda", "lpp"]
  · have h : ¬ (m ≠ "pca" ∧ m ≠ "flda" ∧ m ≠ "lpp") := by
      simp only [List.mem_cons, List.not_mem_nil, or_false] at hm
      tauto
    rw [if_neg h]
    cases reg with
    | none =>
      constructor
      · intro e
        injection e with e
        subst e
        exact ⟨hm, le_refl _, zero_le_one, .inl ⟨rfl, rfl⟩⟩
      · rintro ⟨-, -, -, ⟨-, rfl⟩ | h⟩
        · rfl
        · cases h
    | some s =>
      simp only
      split
      · rename_i hs
        constructor
        · intro e; cases e
        · rintro ⟨-, h0, h1, ⟨h, -⟩ | h⟩
          · cases h
          · injection h with h; subst h
            rcases hs with hs | hs
            · exact absurd h0 (not_le.2 hs)
            · exact absurd h1 (not_le.2 hs)
      · rename_i hs
        rw [not_or, not_lt, not_lt] at hs
        constructor
        · intro e; injection e with e; subst e; exact ⟨hm, hs.1, hs.2, .inr rfl⟩
        · rintro ⟨-, -, -, ⟨h, -⟩ | h⟩
          · cases h
          · injection h with h; subst h; rfl
  · have h : m ≠ "pca" ∧ m ≠ "flda" ∧ m ≠ "lpp" := by
      simpa only [List.mem_cons, List.not_mem_nil, or_false, not_or] using hm
    rw [if_pos h]
    constructor
    · intro e; cases e
    · rintro ⟨h', -⟩; exact absurd h' hm

end TSL

/-! ### C71: the default number of components of subspace alignment -/

section NComp
variable {K : Type} {d : Nat}

theorem pcaCheck_pos {r p : Nat} (h : 0 < r) :
    pcaCheck r d p = if p ≤ r ∧ p ≤ d then .ok () else .error .valueError := by
  unfold pcaCheck
  rw [if_neg (by omega)]
  by_cases h' : min r d < p
  · rw [if_pos h', if_neg (by omega)]
  · rw [if_neg h', if_pos (by omega)]

/-- C71. Fitting succeeds exactly when the number of components does not exceed the number of features nor the number of
rows of *either* domain; both PCAs get their own domain's rows. -/
theorem C71_fit_iff (n : Option Nat) (X : List (Fin d → K)) (sd : List Int) (hX : X ≠ []) (hlen : sd.length = X.length)
    (hs : 0 < nSource sd) (ht : 0 < nTarget sd) :
    saFitArgs n X (.vec sd) =
      if n.getD (min X.length d) ≤ d ∧ n.getD (min X.length d) ≤ nSource sd ∧ n.getD (min X.length d) ≤ nTarget sd then
        .ok (sourceRows sd X, targetRows sd X, n.getD (min X.length d))
      else .error .valueError := by
  have hp : nComponents X.length d n = n.getD (min X.length d) := by cases n <;> rfl
  simp only [saFitArgs, RW.check_ok hX hlen, ok_bind, RW.splitX_ok (RW.sd_ne hX hlen) hlen, length_sourceRows hlen,
    length_targetRows hlen, hp]
  generalize n.getD (min X.length d) = p
  rw [pcaCheck_pos hs, pcaCheck_pos ht]
  by_cases h1 : p ≤ nSource sd ∧ p ≤ d
  · by_cases h2 : p ≤ nTarget sd ∧ p ≤ d
    · rw [if_pos h1, if_pos h2, if_pos ⟨h1.2, h1.1, h2.1⟩]; rfl
    · rw [if_pos h1, if_neg h2, if_neg (fun h => h2 ⟨h.2.2, h.1⟩)]; rfl
  · rw [if_neg h1, err_bind, if_neg (fun h => h1 ⟨h.2.1, h.1⟩)]

/-- C71 fails for the default: `n_components=None` is computed from all rows, so for every data set with more features than
rows of one domain and at least that many rows overall, fitting with default parameters is a `ValueError`. -/
theorem C71_counterexample (X : List (Fin d → K)) (sd : List Int) (hX : X ≠ []) (hlen : sd.length = X.length)
    (hs : 0 < nSource sd) (ht : 0 < nTarget sd) (hd : min (nSource sd) (nTarget sd) < min X.length d) :
    saFitArgs none X (.vec sd) = .error .valueError := by
  rw [C71_fit_iff none X sd hX hlen hs ht, if_neg]
  simp only [Option.getD_none]
  omega

/-- C71, partial: with at most as many features as rows in the smaller domain the default works. -/
theorem C71_default_partial (X : List (Fin d → K)) (sd : List Int) (hX : X ≠ []) (hlen : sd.length = X.length)
    (hs : 0 < nSource sd) (ht : 0 < nTarget sd) (hd : d ≤ nSource sd ∧ d ≤ nTarget sd) :
    saFitArgs none X (.vec sd) = .ok (sourceRows sd X, targetRows sd X, d) := by
  have := nSource_add_nTarget sd
  have h : min X.length d = d := by omega
  rw [C71_fit_iff none X sd hX hlen hs ht, if_pos] <;> simp only [Option.getD_none, h]
  omega

/-- Three features, two source rows, two target rows. -/
example : saFitArgs (K := ℚ) (d := 3) none [fun _ => 1, fun _ => 2, fun _ => 3, fun _ => 4] (.vec [1, -2, 1, -2])
    = .error .valueError := C71_counterexample _ _ (by simp) rfl (by decide) (by decide) (by decide)

end NComp

end Skada

/-
The subspace adapters (skada/_subspace.py): subspace alignment, transfer component analysis (TCA), transfer joint
matching (TJM) and transfer subspace learning (TSL).

Eigensolvers, PCA, kernels and the torch optimiser are parameters; arithmetic is exact in a field `K`.
-/
import Verif.Model.Mapping
import Mathlib.Data.Matrix.Block
import Mathlib.LinearAlgebra.Matrix.Trace
import Mathlib.Data.List.Sort

namespace Skada
namespace Subsp

open Matrix

/-! ### Subspace alignment -/

/-- A fitted `sklearn.decomposition.PCA` (no whitening): `transform(x) = (x - mean_) @ components_.T`. -/
structure Pca (K : Type) (d p : Nat) where
  mean : Fin d → K
  comps : Matrix (Fin p) (Fin d) K

/-- `PCA.transform` of one row. -/
def Pca.apply {K : Type} [Field K] {d p : Nat} (P : Pca K d p) (x : Fin d → K) : Fin p → K :=
  (x - P.mean) ᵥ* P.comps.transpose

/-- The number of components, skada/_subspace.py:95-98. -/
def nComponents (nRows d : Nat) (n : Option Nat) : Nat :=
  match n with
  | none => min nRows d
  | some n => n

/-- sklearn's check on an integer `n_components` (`svd_solver="full"`/`"auto"`): between 0 and
`min(n_samples, n_features)`; an array without rows is rejected as well. -/
def pcaCheck (nRows d p : Nat) : Py Unit :=
  if nRows = 0 then .error .valueError
  else if min nRows d < p then .error .valueError
  else .ok ()

/-- `SubspaceAlignmentAdapter.fit`, skada/_subspace.py:70-108, up to the fitted PCA objects: which data and which number
of components they receive. -/
def saFitArgs {K : Type} {d : Nat} (n : Option Nat) (X : List (Fin d → K)) (sd : SDArg) :
    Py (List (Fin d → K) × List (Fin d → K) × Nat) := do
  let (X, sd) ← checkXDomain X sd {}
  let (Xs, Xt) ← RW.splitX X sd
  let p := nComponents X.length d n
  let _ ← pcaCheck Xs.length d p
  let _ ← pcaCheck Xt.length d p
  return (Xs, Xt, p)

/-- `SubspaceAlignmentAdapter.transform`, skada/_subspace.py:110-145, with `M_ = components_source @ components_target.T`
(line 107). -/
def saTransform {K : Type} [Field K] {d p : Nat} (Ps Pt : Pca K d p) (X : NArr (Fin d → K)) (sd : SDArg)
    (allowSource : Bool) : Py (NArr (Fin p → K)) := do
  let (rows, sd) ← checkXDomain X.rows sd { allowSource := allowSource }
  let (Xs, Xt) ← RW.splitX rows sd
  let M := Ps.comps * Pt.comps.transpose
  Map.mergeN ⟨.float, [p], Xs.map (fun x => Ps.apply x ᵥ* M)⟩ ⟨.float, [p], Xt.map Pt.apply⟩ sd

/-- `TransferSubspaceLearningAdapter.transform`, skada/_subspace.py:933-953. -/
def tslTransform {K : Type} [Field K] {d p : Nat} (W : Matrix (Fin d) (Fin p) K) (X : NArr (Fin d → K)) (sd : SDArg)
    (allowSource : Bool) : Py (NArr (Fin p → K)) := do
  let (rows, sd) ← checkXDomain X.rows sd { allowSource := allowSource }
  let (Xs, Xt) ← RW.splitX rows sd
  Map.mergeN ⟨.float, [p], Xs.map (fun x => x ᵥ* W)⟩ ⟨.float, [p], Xt.map (fun x => x ᵥ* W)⟩ sd

/-! ### Kernel embeddings -/

section Kernel
variable {K : Type} [Field K] {α : Type} {p : Nat}

/-- `pairwise_kernels(X, Y, metric=kernel)`. -/
def gram (k : α → α → K) (X Y : List α) : List (List K) := X.map (fun x => Y.map (k x))

/-- `Kst.T`. -/
def gramT (k : α → α → K) (X Y : List α) : List (List K) := Y.map (fun y => X.map (fun x => k x y))

/-- `np.block([[Kss, Kst], [Kst.T, Ktt]])`, skada/_subspace.py:284-287 and 541-546. -/
def kernelBlock (k : α → α → K) (Xs Xt : List α) : List (List K) :=
  List.zipWith (· ++ ·) (gram k Xs Xs) (gram k Xs Xt) ++ List.zipWith (· ++ ·) (gramT k Xs Xt) (gram k Xt Xt)

/-- One row of `K @ V`. -/
def rowMul (r : List K) (V : List (Fin p → K)) : Fin p → K :=
  fun c => (List.zipWith (fun a v => a * v c) r V).sum

/-- The fitted attributes used by `transform` of TCA and TJM: `X_source_`, `X_target_` and `eigvects_` (`A_`). -/
structure Embedding (α K : Type) (p : Nat) where
  Xs : List α
  Xt : List α
  V : List (Fin p → K)

/-- `TransferComponentAnalysisAdapter.fit` (skada/_subspace.py:257-311) and `TransferJointMatchingAdapter.fit`
(548-640): the eigenproblem, which only sees the kernel matrix and the two sizes, is `eig`. -/
def kernelFit (k : α → α → K) (eig : List (List K) → Nat → Nat → Py (List (Fin p → K))) (X : List α) (sd : SDArg) :
    Py (Embedding α K p) := do
  let (X, sd) ← checkXDomain X sd {}
  let (Xs, Xt) ← RW.splitX X sd
  let V ← eig (kernelBlock k Xs Xt) Xs.length Xt.length
  return { Xs := Xs, Xt := Xt, V := V }

/-- `transform` of TCA (skada/_subspace.py:334-371) and TJM (494-532): the stored kernel matrix on the training data,
otherwise kernels between the rows of `X` and the training rows.  TCA's slice `[: X.shape[0]]` keeps all rows. -/
def kernelTransform [DecidableEq α] (k : α → α → K) (F : Embedding α K p) (X : List α) (sd : SDArg) (allowSource : Bool) :
    Py (List (Fin p → K)) := do
  let (X, sd) ← checkXDomain X sd { allowSource := allowSource }
  let (Xs, Xt) ← RW.splitX X sd
  if Xs = F.Xs ∧ Xt = F.Xt then
    return (kernelBlock k F.Xs F.Xt).map (fun r => rowMul r F.V)
  else
    return (List.zipWith (· ++ ·) (gram k X F.Xs) (gram k X F.Xt)).map (fun r => rowMul r F.V)

/-- `fit_transform`, skada/_subspace.py:313-332 and 473-492. -/
def kernelFitTransform [DecidableEq α] (k : α → α → K) (eig : List (List K) → Nat → Nat → Py (List (Fin p → K)))
    (X : List α) (sd : SDArg) : Py (List (Fin p → K)) := do
  let F ← kernelFit k eig X sd
  kernelTransform k F X sd true

end Kernel

/-! ### The matrices of TCA and TJM -/

section Mats
variable {K : Type} [Field K] {ns nt : Nat}

/-- The MMD matrix `L` of TCA (skada/_subspace.py:290-295), `_get_mmd_matrix` of TJM (534-539). Rows are ordered sources
first. -/
def mmdMatrix (K : Type) [Field K] (ns nt : Nat) : Matrix (Fin ns ⊕ Fin nt) (Fin ns ⊕ Fin nt) K :=
  let st : Matrix (Fin ns) (Fin nt) K := Matrix.of fun _ _ => -1 / ((ns : K) * nt)
  Matrix.fromBlocks (Matrix.of fun _ _ => 1 / (ns : K) ^ 2) st st.transpose (Matrix.of fun _ _ => 1 / (nt : K) ^ 2)

/-- The centring matrix `H`, skada/_subspace.py:297 and 583. -/
def centring (K : Type) [Field K] (ns nt : Nat) : Matrix (Fin ns ⊕ Fin nt) (Fin ns ⊕ Fin nt) K :=
  1 - Matrix.of fun _ _ => 1 / ((ns : K) + nt)

/-- `A` and `B` of TCA, skada/_subspace.py:299-300. -/
def tcaA (mu : K) (Km : Matrix (Fin ns ⊕ Fin nt) (Fin ns ⊕ Fin nt) K) : Matrix (Fin ns ⊕ Fin nt) (Fin ns ⊕ Fin nt) K :=
  1 + mu • (Km * mmdMatrix K ns nt * Km)

/-- `B`. -/
def tcaB (Km : Matrix (Fin ns ⊕ Fin nt) (Fin ns ⊕ Fin nt) K) : Matrix (Fin ns ⊕ Fin nt) (Fin ns ⊕ Fin nt) K :=
  Km * centring K ns nt * Km

end Mats

/-- `np.argsort(np.abs(eigvals))[::-1][:n_components]`, skada/_subspace.py:309; equal values are ordered by position here
(numpy's default sort leaves that open). -/
def tcaSelect {K : Type} [Field K] [LinearOrder K] (eigvals : List K) (p : Nat) : List Nat :=
  let order := (List.range eigvals.length).insertionSort (fun i j => |eigvals.getD i 0| ≤ |eigvals.getD j 0|)
  order.reverse.take p

/-! ### The TJM iteration -/

section TJM
variable {K : Type} [Field K] [LinearOrder K]

/-- The loop of `TransferJointMatchingAdapter.fit`, skada/_subspace.py:590-638.  `step G` computes `A`, the new `G` and the
loss of one iteration from the current `G`; `best` is the `A` of the last iteration.  Reading `A` after zero iterations
is an `UnboundLocalError`. Losses are finite. -/
def tjmLoop {A G : Type} (step : G → A × G × K) (tol : K) : Nat → G → K → Option A → Py A
  | 0, _, _, best => match best with
    | none => .error .unboundLocalError
    | some a => .ok a
  | n + 1, g, last, _ =>
    let (a, g', loss) := step g
    if last = 0 ∨ |last - loss| / last < tol then .ok a
    else tjmLoop step tol n g' loss (some a)

/-- `last_loss = -2 * self.tol`; `G = np.identity(n)`. -/
def tjmFit {A G : Type} (step : G → A × G × K) (identity : G) (tol : K) (maxIter : Nat) : Py A :=
  tjmLoop step tol maxIter identity (-2 * tol) none

end TJM

/-! ### The TSL objective -/

section TSL
variable {K : Type} [Field K] [LinearOrder K] {d p : Nat}

/-- `_torch_cov`, skada/_subspace.py:773-784. -/
def torchCov (reg : K) (X : List (Fin d → K)) : Matrix (Fin d) (Fin d) K :=
  let m := Map.colMean X
  let cov : Matrix (Fin d) (Fin d) K :=
    Matrix.of fun i j => (X.map (fun x => (x i - m i) * (x j - m j))).sum / (X.length : K)
  (1 - reg) • cov + (reg * cov.trace) • 1

/-- `_F` with `base_method="pca"`, skada/_subspace.py:815-817. -/
def tslPca (reg : K) (W : Matrix (Fin d) (Fin p) K) (X : List (Fin d → K)) : K :=
  - (W.transpose * torchCov reg X * W).trace

/-- The rows of class `c`: `X_source[y_source == c]`. -/
def classRows {β : Type} [DecidableEq β] (X : List (Fin d → K)) (y : List β) (c : β) : List (Fin d → K) :=
  Np.sel (y.map (fun b => decide (b = c))) X

/-- `classes_means * sqrt(classes_n_samples)`, skada/_subspace.py:819-824. -/
def fldaMeans {β : Type} [LinearOrder β] (sqrt : Nat → K) (X : List (Fin d → K)) (y : List β) : List (Fin d → K) :=
  (Np.unique y).map (fun c => fun j => Map.colMean (classRows X y c) j * sqrt (y.count c))

/-- `_F` with `base_method="flda"`, skada/_subspace.py:818-827. -/
def tslFlda {β : Type} [LinearOrder β] (sqrt : Nat → K) (reg : K) (W : Matrix (Fin d) (Fin p) K) (X : List (Fin d → K))
    (y : List β) : K :=
  (W.transpose * torchCov reg (fldaMeans sqrt X y) * W).trace / (W.transpose * torchCov reg X * W).trace

/-- `_F` with `base_method="lpp"`, skada/_subspace.py:828-833, for `n` source rows; `ker` is
`exp(-dist / length_scale)`. -/
def tslLpp {β : Type} [DecidableEq β] {n : Nat} (ker : (Fin d → K) → (Fin d → K) → K) (W : Matrix (Fin d) (Fin p) K)
    (X : Matrix (Fin n) (Fin d) K) (y : Fin n → β) : K :=
  let E : Matrix (Fin n) (Fin n) K := Matrix.of fun i j => ker (X i) (X j) * (if y i = y j then 1 else 0)
  let D : Matrix (Fin n) (Fin n) K := Matrix.diagonal (fun i => ∑ j, E i j)
  (-2) * (W.transpose * X.transpose * (D - E) * X * W).trace

end TSL

/-- The constructor checks of `TransferSubspaceLearningAdapter`, skada/_subspace.py:760-768: the stored `reg`. -/
def tslInit {K : Type} [Field K] [LinearOrder K] (baseMethod : String) (reg : Option K) : Py K :=
  if baseMethod ≠ "pca" ∧ baseMethod ≠ "flda" ∧ baseMethod ≠ "lpp" then .error .valueError
  else match reg with
    | none => .ok 0
    | some r => if r < 0 ∨ 1 < r then .error .valueError else .ok r

end Subsp
end Skada

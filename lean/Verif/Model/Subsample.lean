/-
The subsampling transformers (skada/transformers.py).

Random draws are arguments.  Weights are an optional array; `None` values are left out of the returned parameters.
-/
import Verif.Model.Splitters

namespace Skada
namespace Subs

/-- What `fit_transform` returns: data, labels, and the parameters `sample_domain` and `sample_weight` (`none` = not returned). -/
structure Out (α W : Type) where
  X : List α
  y : List Num
  sd : SDArg
  w : Option (List W)
  deriving DecidableEq

variable {α W : Type}

/-- `self.train_size >= X.shape[0]`, skada/transformers.py:50, 115, 178. -/
def keepsAll (train : Size) (n : Nat) : Py Bool :=
  match train with
  | .none => .error .typeError
  | .int k => .ok (decide ((n : Int) ≤ k))
  | .frac q => .ok (decide ((n : ℚ) ≤ q))

/-- `X[idx]`, `y[idx]` and `_pack_params(idx, …)`, skada/transformers.py:37-42, 64-69, 128-133, 192-197. -/
def pick (X : List α) (y : List Num) (sd : List Int) (w : Option (List W)) (idx : List Nat) : Py (Out α W) := do
  let X ← Np.take X idx
  let y ← Np.take y idx
  let sd ← Np.take sd idx
  match w with
  | none => return ⟨X, y, .vec sd, none⟩
  | some w => do
    let w ← Np.take w idx
    return ⟨X, y, .vec sd, some w⟩

/-- `next(ShuffleSplit(n_splits=1, train_size=…).split(X))[0]`: sklearn takes the `n_test` first entries of the permutation for the test
part and the next `n_train` for the train part. -/
def shuffleIdx (n : Nat) (train : Size) (perm : List Nat) : Py (List Nat) :=
  match validateShuffleSplit n .none train defaultTestSize with
  | .error e => .error e
  | .ok (nTrain, nTest) => .ok (slice perm nTest nTrain)

/-- The train part of the only fold. -/
def firstTrain (folds : Py (List Fold)) : Py (List Nat) :=
  match folds with
  | .error e => .error e
  | .ok [] => .error .runtimeError
  | .ok (f :: _) => .ok f.1

/-- `Subsampler.fit_transform`, skada/transformers.py:44-69: if all rows are kept, the parameters are returned as they were given. -/
def subsampler (X : List α) (y : List Num) (sd : SDArg) (w : Option (List W)) (train : Size) (perm : List Nat) : Py (Out α W) := do
  let (X, y, sd2) ← checkXyDomain X y sd {}
  let all ← keepsAll train X.length
  if all then return ⟨X, y, sd, w⟩
  else do
    let idx ← shuffleIdx X.length train perm
    pick X y sd2 w idx

/-- `DomainSubsampler.fit_transform`, skada/transformers.py:109-133.  sklearn's `StratifiedShuffleSplit` stratified on the domains is the
code from which `StratifiedDomainShuffleSplit` was derived; with one constant label the groups of the latter are the domains. -/
def domainSubsampler (X : List α) (y : List Num) (sd : SDArg) (w : Option (List W)) (train : Size) (d : StratDraw) : Py (Out α W) := do
  let (X, y, sd2) ← checkXyDomain X y sd {}
  let all ← keepsAll train X.length
  if all then return ⟨X, y, sd, w⟩
  else do
    let idx ← firstTrain (stratifiedDomainShuffleSplit X (sd2.map (fun _ => 0)) (.vec sd2) .none train [d])
    pick X y sd2 w idx

/-- `check_array(y)` inside the splitter, skada/model_selection.py:400: labels must be finite. -/
def finiteLabels (y : List Num) : Py (List ℚ) :=
  y.mapM (fun v => match v with
    | .fin q => .ok q
    | _ => .error .valueError)

/-- `StratifiedDomainSubsampler.fit_transform`, skada/transformers.py:172-197: here `sample_domain` is overwritten by its checked form. -/
def stratifiedSubsampler (X : List α) (y : List Num) (sd : SDArg) (w : Option (List W)) (train : Size) (d : StratDraw) :
    Py (Out α W) := do
  let (X, y, sd2) ← checkXyDomain X y sd {}
  let all ← keepsAll train X.length
  if all then return ⟨X, y, .vec sd2, w⟩
  else do
    let yq ← finiteLabels y
    let idx ← firstTrain (stratifiedDomainShuffleSplit X yq (.vec sd2) .none train [d])
    pick X y sd2 w idx

/-- `transform` of all three, skada/transformers.py:71-75, 135-139, 199-203. -/
def transform (X : List α) : List α := X

end Subs
end Skada

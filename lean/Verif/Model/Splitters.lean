/-
Cross-validation splitters of skada/model_selection.py.

Random draws are arguments: a draw of `rng.permutation(n)` is a list of indices, a draw of `rng.choice` a list of
the chosen elements.  The theorems assume of them only what numpy promises.  `yield` is modelled by returning the list
of all folds; an exception anywhere makes the whole list an error.
-/
import Verif.Model.Domain
import Mathlib.Data.Rat.Floor
import Mathlib.Data.Prod.Lex

namespace Skada

/-- `test_size` / `train_size`: `None`, an int or a float. -/
inductive Size
  | none | int (k : Int) | frac (q : ℚ)
  deriving DecidableEq

/-- Is the size out of range? (sklearn `_validate_shuffle_split`, first two checks) -/
def Size.bad (n : Nat) : Size → Bool
  | .none => false
  | .int k => decide ((n : Int) ≤ k) || decide (k ≤ 0)
  | .frac q => decide (q ≤ 0) || decide (1 ≤ q)

/-- sklearn's `_validate_shuffle_split(n_samples, test_size, train_size, default_test_size)`; returns
`(n_train, n_test)`.  Not skada code: assumed behaviour of the library (exact instead of floating point
arithmetic). -/
def validateShuffleSplit (n : Nat) (test train : Size) (dflt : ℚ) : Py (Nat × Nat) :=
  let test := if test = .none ∧ train = .none then Size.frac dflt else test
  if test.bad n then .error .valueError
  else if train.bad n then .error .valueError
  else if (match train, test with
      | .frac a, .frac b => decide (1 < a + b)
      | _, _ => false) then .error .valueError
  else
    let nTest? : Option Int := match test with
      | .none => Option.none
      | .int k => some k
      | .frac q => some ⌈q * n⌉
    let nTrain? : Option Int := match train with
      | .none => Option.none
      | .int k => some k
      | .frac q => some ⌊q * n⌋
    let nTrain : Int := nTrain?.getD (n - nTest?.getD 0)
    let nTest : Int := nTest?.getD (n - nTrain)
    if (n : Int) < nTrain + nTest then .error .valueError
    else if nTrain = 0 then .error .valueError
    else .ok (nTrain.toNat, nTest.toNat)

/-- `a[lo : lo + k]` -/
def slice {α : Type _} (a : List α) (lo k : Nat) : List α := (a.drop lo).take k

/-- A fold: train indices and test indices. -/
abbrev Fold := List Nat × List Nat

/-- The default test size (skada/model_selection.py:49, 141, 195). -/
def defaultTestSize : ℚ := 1 / 10

/-- `np.where(indices)` and `np.where(~indices)` (skada/model_selection.py:145-147, 263-265). -/
def sourceIdx (sd : List Int) : List Nat := Np.flatnonzero (sd.map (fun d => decide (0 ≤ d)))
def targetIdx (sd : List Int) : List Nat := Np.flatnonzero ((sd.map (fun d => decide (0 ≤ d))).map (!·))

/-- Sizes for both sides: `((n_source_train, n_source_test), (n_target_train, n_target_test))`
(skada/model_selection.py:148-161, 266-279). -/
def bothSizes (nS nT : Nat) (test train : Size) : Py ((Nat × Nat) × (Nat × Nat)) :=
  match validateShuffleSplit nS test train defaultTestSize with
  | .error e => .error e
  | .ok s => match validateShuffleSplit nT test train defaultTestSize with
    | .error e => .error e
    | .ok t => .ok (s, t)

/-- The slices of one side: train `[n_test : n_test + n_train]`, test `[: n_test]`. -/
def sliceSide (perm : List Nat) (s : Nat × Nat) : Fold := (slice perm s.2 s.1, slice perm 0 s.2)

/-- Concatenation of the two sides (skada/model_selection.py:176-179, 294-297, 590-593). -/
def joinSides (s t : Fold) : Fold := (s.1 ++ t.1, s.2 ++ t.2)

/-- One pass of the loop (skada/model_selection.py:164-179, 282-297); `πs`, `πt` are the draws of
`rng.permutation`. -/
def stFold (sd : List Int) (sizes : (Nat × Nat) × (Nat × Nat)) (πs πt : List Nat) : Py Fold :=
  match Np.take (sourceIdx sd) πs with
  | .error e => .error e
  | .ok ps => match Np.take (targetIdx sd) πt with
    | .error e => .error e
    | .ok pt => .ok (joinSides (sliceSide ps sizes.1) (sliceSide pt sizes.2))

/-- `_iter_indices` of `SourceTargetShuffleSplit` and `LeaveOneDomainOut`
(skada/model_selection.py:143-179, 261-297); one pair of permutations per split. -/
def stIterIndices {α : Type} (X : List α) (sd : List Int) (test train : Size)
    (draws : List (List Nat × List Nat)) : Py (List Fold) :=
  match checkXDomain X (.vec sd) {} with
  | .error e => .error e
  | .ok (_, sd) => match bothSizes (sourceIdx sd).length (targetIdx sd).length test train with
    | .error e => .error e
    | .ok sizes => draws.mapM (fun d => stFold sd sizes d.1 d.2)

/-- `SourceTargetShuffleSplit.split` (skada/model_selection.py:51-89, 120-179). -/
def sourceTargetShuffleSplit {α : Type} (X : List α) (sd : SDArg) (test train : Size)
    (draws : List (List Nat × List Nat)) : Py (List Fold) :=
  match checkXDomain X sd {} with
  | .error e => .error e
  | .ok (X, sd) => stIterIndices X sd test train draws

/-- `_get_domain_labels` (skada/model_selection.py:299-300). -/
def lodoDomains (sd : List Int) : List Int := Np.unique (Np.sel (sd.map (fun d => decide (0 ≤ d))) sd)

/-- `split_idx` for one target domain (skada/model_selection.py:246-253). -/
def lodoSplitIdx (sd : List Int) (domains : List Int) (t : Int) : List Nat :=
  Np.flatnonzero (sd.map (fun d => domains.any (fun e => decide (d = if e ≠ t then e else -e))))

/-- One target domain (skada/model_selection.py:245-259). -/
def lodoFold {α : Type} (X : List α) (sd : List Int) (domains : List Int) (test train : Size) (t : Int)
    (draw : List Nat × List Nat) : Py (List Fold) :=
  let idx := lodoSplitIdx sd domains t
  match Np.take X idx with
  | .error e => .error e
  | .ok Xs => match Np.take sd idx with
    | .error e => .error e
    | .ok sds => match stIterIndices Xs sds test train [draw] with   -- `_n_splits = 1`
      | .error e => .error e
      | .ok folds => folds.mapM (fun f =>
          match Np.take idx f.1 with
          | .error e => .error e
          | .ok tr => match Np.take idx f.2 with
            | .error e => .error e
            | .ok te => .ok (tr, te))

/-- The domain order: a permutation of the domain positions, cut to `max_n_splits`
(skada/model_selection.py:241-243). -/
def lodoOrder (nDomains maxSplits : Nat) (π : List Nat) : List Nat :=
  if maxSplits < nDomains then π.take maxSplits else π

/-- `LeaveOneDomainOut.split` (skada/model_selection.py:199-259).  `π` is the draw of
`rng.permutation(n_domains)`, `draw t` the pair of permutations drawn for target domain `t`. -/
def leaveOneDomainOut {α : Type} (X : List α) (sd : SDArg) (maxSplits : Nat) (test train : Size) (π : List Nat)
    (draw : Int → List Nat × List Nat) : Py (List Fold) :=
  match checkXDomain X sd {} with
  | .error e => .error e
  | .ok (X, sd) =>
    let domains := lodoDomains sd
    match Np.take domains (lodoOrder domains.length maxSplits π) with
    | .error e => .error e
    | .ok ts => match ts.mapM (fun t => lodoFold X sd domains test train t (draw t)) with
      | .error e => .error e
      | .ok fs => .ok fs.flatten

/-- `LeaveOneDomainOut.get_n_splits` (skada/model_selection.py:302-323). -/
def lodoNSplits (sd : List Int) (maxSplits : Nat) : Nat := min maxSplits (lodoDomains sd).length

/-- sklearn's `_approximate_mode(class_counts, n_draws, rng)` as a relation: every class gets the floor of its
proportional share plus 0 or 1, the total is `n_draws`, and classes with a larger remainder are served first (ties
are broken at random). Not skada code: assumed behaviour of the library. -/
structure ApproxMode (counts : List Nat) (n : Nat) (alloc : List Nat) : Prop where
  len : alloc.length = counts.length
  total : alloc.sum = n
  near : ∀ (i c a : Nat), counts[i]? = some c → alloc[i]? = some a →
    a = c * n / counts.sum ∨ a = c * n / counts.sum + 1
  largestFirst : ∀ (i j ci ai cj aj : Nat), counts[i]? = some ci → alloc[i]? = some ai →
    counts[j]? = some cj → alloc[j]? = some aj →
    ai = ci * n / counts.sum + 1 → aj = cj * n / counts.sum → cj * n % counts.sum ≤ ci * n % counts.sum

/-- The draws of one stratified fold: the two allocations, one permutation per group, the final shuffles. -/
structure StratDraw where
  nI : List Nat
  tI : List Nat
  perms : List (List Nat)
  finalTrain : List Nat
  finalTest : List Nat

/-- The index lists of the groups (skada/model_selection.py:414-417, 442-444): rows with equal (label, domain),
in increasing order, groups sorted. Labels are numbers. -/
def groupKeys (y : List ℚ) (sd : List Int) : List (ℚ ×ₗ Int) := List.zipWith (fun a d => toLex (a, d)) y sd

def groupIdx (keys : List (ℚ ×ₗ Int)) : List (List Nat) :=
  (Np.unique keys).map (fun g => Np.flatnonzero (keys.map (fun k => decide (k = g))))

/-- Inner loop over the groups (skada/model_selection.py:455-463). -/
def stratGroups : List (List Nat) → List Nat → List Nat → List (List Nat) → Py Fold
  | [], _, _, _ => .ok ([], [])
  | g :: gs, n :: ns, t :: ts, π :: πs =>
    match Np.take g π with
    | .error e => .error e
    | .ok p => match stratGroups gs ns ts πs with
      | .error e => .error e
      | .ok f => .ok (slice p 0 n ++ f.1, slice p n t ++ f.2)
  | _ :: _, _, _, _ => .error .indexError

/-- One fold (skada/model_selection.py:448-468). -/
def stratFold (groups : List (List Nat)) (d : StratDraw) : Py Fold :=
  match stratGroups groups d.nI d.tI d.perms with
  | .error e => .error e
  | .ok f => match Np.take f.1 d.finalTrain with
    | .error e => .error e
    | .ok tr => match Np.take f.2 d.finalTest with
      | .error e => .error e
      | .ok te => .ok (tr, te)

/-- `StratifiedDomainShuffleSplit.split` (skada/model_selection.py:384-472) for one-dimensional labels. -/
def stratifiedDomainShuffleSplit {α : Type} (X : List α) (y : List ℚ) (sd : SDArg) (test train : Size)
    (draws : List StratDraw) : Py (List Fold) :=
  match checkXDomain X sd {} with
  | .error e => .error e
  | .ok (X, sd) =>
    if y.length ≠ X.length then .error .valueError           -- `indexable`
    else match validateShuffleSplit X.length test train defaultTestSize with
    | .error e => .error e
    | .ok (nTrain, nTest) =>
      let groups := groupIdx (groupKeys y sd)
      if groups.any (fun g => decide (g.length < 2)) then .error .valueError
      else if nTrain < groups.length then .error .valueError
      else if nTest < groups.length then .error .valueError
      else draws.mapM (stratFold groups)

/-- `rng.choice(v, int(len(v) * under_sampling), replace=False)` for each domain, then concatenated and shuffled
(skada/model_selection.py:550-564).  `pool` is the resulting list (a draw); `np.concatenate([])` is a `ValueError`. -/
def underSampled (doms : List (Int × List Nat)) (pool : List Nat) : Py (List Nat) :=
  if doms = [] then .error .valueError else .ok pool

/-- One fold (skada/model_selection.py:549-593). -/
def domainFold (dS dT : List (Int × List Nat)) (test train : Size) (poolS poolT : List Nat) : Py Fold :=
  match underSampled dS poolS with
  | .error e => .error e
  | .ok ps => match underSampled dT poolT with
    | .error e => .error e
    | .ok pt => match bothSizes ps.length pt.length test train with
      | .error e => .error e
      | .ok sizes => .ok (joinSides (sliceSide ps sizes.1) (sliceSide pt sizes.2))

/-- Number of rows drawn from a domain of `k` rows: `int(k * under_sampling)`. -/
def underSize (us : ℚ) (k : Nat) : Nat := ⌊(k : ℚ) * us⌋.toNat

/-- What the drawn pool can be: per-domain draws of the prescribed size without repetition, shuffled. -/
def PoolDraw (us : ℚ) (doms : List (Int × List Nat)) (pool : List Nat) : Prop :=
  ∃ parts : List (List Nat),
    List.Forall₂ (fun kv part => part.Nodup ∧ part ⊆ kv.2 ∧ part.length = underSize us kv.2.length) doms parts ∧
    pool.Perm parts.flatten

/-- `DomainShuffleSplit(...).split(...)` (skada/model_selection.py:522-593). -/
def domainShuffleSplit {α : Type} (X : List α) (sd : SDArg) (us : ℚ) (test train : Size)
    (draws : List (List Nat × List Nat)) : Py (List Fold) :=
  if ¬ (0 ≤ us ∧ us ≤ 1) then .error .valueError        -- constructor, line 540
  else match checkXDomain X sd {} with
    | .error e => .error e
    | .ok (_, sd) => match extractDomainsIndicesSplit sd with
      | .error e => .error e
      | .ok (dS, dT) => draws.mapM (fun d => domainFold dS dT test train d.1 d.2)

end Skada

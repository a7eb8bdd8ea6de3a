/-
Model of where skada takes its random numbers from: the `random_state` argument of the splitters (skada/model_selection.py), of KLIEP
(skada/_reweight.py), of the scorers DEV and MixVal (skada/metrics.py), of the subsamplers (skada/transformers.py), of subspace alignment
(skada/_subspace.py), of `_shuffle_arrays` (skada/_utils.py) and of the dataset generators (skada/datasets).

The library is a parameter: generators have states of any type `γ`, `ask` is any function from a request and a state to an answer and the next state.
What a function computes from its draws is a parameter too (`k`), except for the splitters, whose folds are those of Verif/Model/Splitters.lean.
-/
import Verif.Model.Splitters

namespace Skada.Rng

/-- The requests skada makes to a generator: `permutation(n)` (also of an array of `n` rows), `choice` of `k` positions of `n`, `shuffle` of `n` rows
(as the permutation it applies) and the tie breaking of sklearn's `_approximate_mode`. -/
inductive Query where
  | perm (n : Nat)
  | choice (n k : Nat) (replace : Bool)
  | shuffle (n : Nat)
  | approxMode (counts : List Nat) (n : Nat)
  deriving DecidableEq

/-- numpy: generators made from a seed, generators made from the entropy of the operating system (the `i`-th one), and their answers. -/
structure Numpy (γ : Type) where
  seeded : Int → γ
  os : Nat → γ
  ask : Query → γ → List Nat × γ

variable {γ R A B : Type}

/-- A computation that draws from a generator. -/
abbrev Draw (γ A : Type) := γ → A × γ

def Draw.pure (a : A) : Draw γ A := fun g => (a, g)

def Draw.bind (m : Draw γ A) (f : A → Draw γ B) : Draw γ B := fun g => f (m g).1 (m g).2

instance : Monad (Draw γ) where
  pure := Draw.pure
  bind := Draw.bind

/-- A value of `random_state`: `None`, an integer, the `RandomState` object number `k`, or anything else. -/
inductive Seed where
  | none | int (s : Int) | inst (k : Nat) | other
  deriving DecidableEq

/-- The generator a function holds: numpy's global one, one of its own, or the object number `k`. -/
inductive Src (γ : Type) where
  | glob | own (g : γ) | inst (k : Nat)

/-- sklearn's `check_random_state` (trusted external behaviour): an integer makes a new generator, seeds outside `[0, 2**32)` are a `ValueError`. -/
def checkRandomState (np : Numpy γ) : Seed → Py (Src γ)
  | .none => .ok .glob
  | .int s => if 0 ≤ s ∧ s < 4294967296 then .ok (.own (np.seeded s)) else .error .valueError
  | .inst k => .ok (.inst k)
  | .other => .error .valueError

/-- One stage of a splitter: whether it calls `check_random_state` again, and what it draws for its fold. -/
abbrev Stage (γ : Type) := Bool × Draw γ (Py Fold)

/-- A splitter of skada/model_selection.py with its own parameters. -/
inductive Splitter where
  | sourceTarget (n : Nat) (test train : Size)
  | lodo (maxSplits : Nat) (test train : Size)
  | stratified (n : Nat) (test train : Size)
  | domain (n : Nat) (us : ℚ) (test train : Size)

/-- `splitter.split(X, y, sample_domain)` with its `random_state`; of `X` only the number of rows matters. -/
structure SplitCall where
  splitter : Splitter
  seed : Seed
  X : List Unit
  y : List ℚ
  sd : SDArg

/-- The generator object returned by `split`: not started, between two folds, or finished. -/
inductive Iter (γ : Type) where
  | fresh (c : SplitCall)
  | running (seed : Seed) (rest : List (Stage γ)) (src : Src γ)
  | done

/-- Everything random numbers come from, and the generator objects of the program by name: numpy's global generator, the `RandomState` objects, how often
the entropy of the operating system was used. -/
structure World (γ : Type) where
  glob : γ
  insts : Nat → γ
  made : Nat
  its : Nat → Option (Iter γ)

/-- Draw from the generator held. -/
def Src.run (src : Src γ) (m : Draw γ A) (w : World γ) : A × Src γ × World γ :=
  match src with
  | .glob => ((m w.glob).1, .glob, { w with glob := (m w.glob).2 })
  | .own g => ((m g).1, .own (m g).2, w)
  | .inst k => ((m (w.insts k)).1, .inst k, { w with insts := Function.update w.insts k (m (w.insts k)).2 })

/-- `rng = check_random_state(random_state)` followed by draws from `rng`. -/
def withRng (np : Numpy γ) (seed : Seed) (m : Draw γ (Py A)) (w : World γ) : Py A × World γ :=
  match checkRandomState np seed with
  | .error e => (.error e, w)
  | .ok src => ((src.run m w).1, (src.run m w).2.2)

/-- `rng = np.random.RandomState(random_state)` followed by draws from `rng`, as in the dataset generators (skada/datasets/_samples_generator.py:342, 494,
683, 817, skada/datasets/_mnist_usps.py:57).  Trusted external behaviour of numpy: `None` takes entropy from the operating system, a `RandomState` object
is no seed (`TypeError`). -/
def withNew (np : Numpy γ) (seed : Seed) (m : Draw γ (Py A)) (w : World γ) : Py A × World γ :=
  match seed with
  | .none => ((m (np.os w.made)).1, { w with made := w.made + 1 })
  | .int s => if 0 ≤ s ∧ s < 4294967296 then ((m (np.seeded s)).1, w) else (.error .valueError, w)
  | .inst _ => (.error .typeError, w)
  | .other => (.error .typeError, w)

/-- Two steps of a function, the second after the first succeeded. -/
def andThen (m : World γ → Py A × World γ) (f : A → World γ → Py B × World γ) (w : World γ) : Py B × World γ :=
  match (m w).1 with
  | .error e => (.error e, (m w).2)
  | .ok a => f a (m w).2

/-- `for … in …` around a step of a function. -/
def forEach {T : Type} (f : T → World γ → Py A × World γ) : List T → World γ → Py (List A) × World γ
  | [] => fun w => (.ok [], w)
  | t :: ts => andThen (f t) (fun a => andThen (forEach f ts) (fun as w => (.ok (a :: as), w)))

/-! ### Splitters -/

/-- One fold of `SourceTargetShuffleSplit._iter_indices` (skada/model_selection.py:164-179). -/
def stBody (np : Numpy γ) (sd : List Int) (sizes : (Nat × Nat) × (Nat × Nat)) : Draw γ (Py Fold) := do
  let πs ← np.ask (.perm (sourceIdx sd).length)
  let πt ← np.ask (.perm (targetIdx sd).length)
  pure (stFold sd sizes πs πt)

/-- `LeaveOneDomainOut.split` for one target domain (skada/model_selection.py:245-259, 261-297): the checks, then the draws. -/
def lodoBody (np : Numpy γ) (X : List Unit) (sd : List Int) (test train : Size) (t : Int) : Draw γ (Py Fold) :=
  let idx := lodoSplitIdx sd (lodoDomains sd) t
  let sds := idx.map (fun i => sd.getD i 0)
  match bothSizes (sourceIdx sds).length (targetIdx sds).length test train with
  | .error e => pure (.error e)
  | .ok _ => do
    let πs ← np.ask (.perm (sourceIdx sds).length)
    let πt ← np.ask (.perm (targetIdx sds).length)
    pure ((lodoFold X sd (lodoDomains sd) test train t (πs, πt)).bind (fun fs => match fs with
      | f :: _ => .ok f
      | [] => .error .indexError))

/-- `for i in range(n_groups): rng.permutation(group_counts[i])` and alike. -/
def askAll (np : Numpy γ) : List Query → Draw γ (List (List Nat))
  | [] => pure []
  | q :: qs => do
    let a ← np.ask q
    let as ← askAll np qs
    pure (a :: as)

/-- One fold of `StratifiedDomainShuffleSplit._iter_indices` (skada/model_selection.py:448-468). -/
def stratBody (np : Numpy γ) (groups : List (List Nat)) (nTrain nTest : Nat) : Draw γ (Py Fold) := do
  let counts := groups.map List.length
  let nI ← np.ask (.approxMode counts nTrain)
  let tI ← np.ask (.approxMode (List.zipWith (· - ·) counts nI) nTest)
  let perms ← askAll np (counts.map .perm)
  match stratGroups groups nI tI perms with
  | .error e => pure (.error e)
  | .ok f => do
    let fTrain ← np.ask (.perm f.1.length)
    let fTest ← np.ask (.perm f.2.length)
    pure (stratFold groups ⟨nI, tI, perms, fTrain, fTest⟩)

/-- The rows of the domains at the positions drawn by `rng.choice(v, int(len(v) * under_sampling), replace=False)`, concatenated
(skada/model_selection.py:550-561). -/
def choose (doms : List (Int × List Nat)) (ps : List (List Nat)) : List Nat :=
  (List.zipWith (fun kv p => p.map (fun i => kv.2.getD i 0)) doms ps).flatten

/-- One fold of `DomainShuffleSplit._iter_indices` (skada/model_selection.py:549-593). -/
def domainBody (np : Numpy γ) (dS dT : List (Int × List Nat)) (us : ℚ) (test train : Size) : Draw γ (Py Fold) :=
  let req (doms : List (Int × List Nat)) := doms.map (fun kv => Query.choice kv.2.length (underSize us kv.2.length) false)
  if dS = [] then pure (.error .valueError)
  else do
    let ps ← askAll np (req dS)
    if dT = [] then pure (.error .valueError)
    else do
      let pt ← askAll np (req dT)
      let s := choose dS ps
      let t := choose dT pt
      let σ ← np.ask (.shuffle s.length)
      let τ ← np.ask (.shuffle t.length)
      pure (domainFold dS dT test train (σ.map (fun i => s.getD i 0)) (τ.map (fun i => t.getD i 0)))

/-- The checks of `StratifiedDomainShuffleSplit` (skada/model_selection.py:391-444): the groups and the sizes. -/
def stratChecks (X : List Unit) (y : List ℚ) (sd : SDArg) (test train : Size) : Py (List (List Nat) × Nat × Nat) :=
  match checkXDomain X sd {} with
  | .error e => .error e
  | .ok (X, sd) =>
    if y.length ≠ X.length then .error .valueError
    else match validateShuffleSplit X.length test train defaultTestSize with
    | .error e => .error e
    | .ok (nTrain, nTest) =>
      let groups := groupIdx (groupKeys y sd)
      if groups.any (fun g => decide (g.length < 2)) then .error .valueError
      else if nTrain < groups.length then .error .valueError
      else if nTest < groups.length then .error .valueError
      else .ok (groups, nTrain, nTest)

/-- The beginning of the generator function up to the first fold: the checks, then `check_random_state` (skada/model_selection.py:81-89, 143-163, 226-243,
391-446, 543-548); `LeaveOneDomainOut` draws the order of the domains here and calls `check_random_state` again for every domain (line 281). -/
def start (np : Numpy γ) (c : SplitCall) (w : World γ) : Py (List (Stage γ) × Src γ) × World γ :=
  match c.splitter with
  | .sourceTarget n test train =>
    match checkXDomain c.X c.sd {} with
    | .error e => (.error e, w)
    | .ok (_, sd) => match bothSizes (sourceIdx sd).length (targetIdx sd).length test train with
      | .error e => (.error e, w)
      | .ok sizes => match checkRandomState np c.seed with
        | .error e => (.error e, w)
        | .ok src => (.ok (List.replicate n (false, stBody np sd sizes), src), w)
  | .lodo maxSplits test train =>
    match checkXDomain c.X c.sd {} with
    | .error e => (.error e, w)
    | .ok (X, sd) => match checkRandomState np c.seed with
      | .error e => (.error e, w)
      | .ok src =>
        let r := src.run (np.ask (.perm (lodoDomains sd).length)) w
        match Np.take (lodoDomains sd) (lodoOrder (lodoDomains sd).length maxSplits r.1) with
        | .error e => (.error e, r.2.2)
        | .ok ts => (.ok (ts.map (fun t => (true, lodoBody np X sd test train t)), r.2.1), r.2.2)
  | .stratified n test train =>
    match stratChecks c.X c.y c.sd test train with
    | .error e => (.error e, w)
    | .ok (groups, nTrain, nTest) => match checkRandomState np c.seed with
      | .error e => (.error e, w)
      | .ok src => (.ok (List.replicate n (false, stratBody np groups nTrain nTest), src), w)
  | .domain n us test train =>
    if ¬ (0 ≤ us ∧ us ≤ 1) then (.error .valueError, w)
    else match checkXDomain c.X c.sd {} with
    | .error e => (.error e, w)
    | .ok (_, sd) => match extractDomainsIndicesSplit sd with
      | .error e => (.error e, w)
      | .ok (dS, dT) => match checkRandomState np c.seed with
        | .error e => (.error e, w)
        | .ok src => (.ok (List.replicate n (false, domainBody np dS dT us test train), src), w)

/-- What the caller of `next` sees. -/
inductive Got where
  | fold (f : Fold)
  | stop
  | raised (e : PyErr)
  deriving DecidableEq

/-- A running generator function up to its next `yield`. -/
def advance (np : Numpy γ) (seed : Seed) (rest : List (Stage γ)) (src : Src γ) (w : World γ) : Got × Iter γ × World γ :=
  match rest with
  | [] => (.stop, .done, w)
  | (again, m) :: rest =>
    match (if again then checkRandomState np seed else .ok src) with
    | .error e => (.raised e, .done, w)
    | .ok src =>
      let r := src.run m w
      match r.1 with
      | .ok f => (.fold f, .running seed rest r.2.1, r.2.2)
      | .error e => (.raised e, .done, r.2.2)

/-- `next(it)`: nothing of the generator function is executed before the first call. -/
def Iter.next (np : Numpy γ) (it : Iter γ) (w : World γ) : Got × Iter γ × World γ :=
  match it with
  | .done => (.stop, .done, w)
  | .running seed rest src => advance np seed rest src w
  | .fresh c =>
    match (start np c w).1 with
    | .error e => (.raised e, .done, (start np c w).2)
    | .ok (rest, src) => advance np c.seed rest src (start np c w).2

/-! ### Functions that draw and return -/

/-- `KLIEPReweightAdapter.fit` (skada/_reweight.py:464-550) as a consumer of random numbers: `n` target rows, `nCenters`, the folds of the
cross-validation as lists of training rows, the number of candidates for `gamma` (`none`: `gamma` is no list). -/
structure Kliep where
  n : Nat
  nCenters : Nat
  folds : List (List Nat)
  gammas : Option Nat

/-- The calls of a program that use a `random_state`.  `k` is the rest of the function, applied to what was drawn. -/
inductive Call (γ R : Type) where
  /-- `DeepEmbeddedValidation._score` on `n` source rows (skada/metrics.py:436-443): the permutation of `train_test_split` -/
  | dev (seed : Seed) (n : Nat) (k : List Nat → Py R)
  /-- `MixValScorer._score` on `n` target rows (skada/metrics.py:748-749) -/
  | mixval (seed : Seed) (n : Nat) (k : List Nat → Py R)
  /-- `Subsampler.fit_transform` on `n` rows (skada/transformers.py:44-70): the permutation of `ShuffleSplit`, `none` if all rows are kept -/
  | subsample (seed : Seed) (n keep : Nat) (k : Option (List Nat) → Py R)
  /-- `DomainSubsampler.fit_transform` (skada/transformers.py:109-133): `m` are the draws of sklearn's `StratifiedShuffleSplit` -/
  | domainSubsample (seed : Seed) (n keep : Nat) (all : Py R) (m : Draw γ (Py R))
  /-- `StratifiedDomainSubsampler.fit_transform` (skada/transformers.py:172-197), for a numeric one-dimensional `y` -/
  | stratSubsample (seed : Seed) (X : List Unit) (y : List ℚ) (sd : SDArg) (keep : Nat) (k : Option Fold → Py R)
  /-- `SubspaceAlignmentAdapter.fit` (skada/_subspace.py:99-108): both PCAs draw from the same generator -/
  | subspace (seed : Seed) (source target : Draw γ R) (k : R → R → Py R)
  /-- `KLIEPReweightAdapter.fit`; `best` is the chosen candidate as a function of all centres drawn -/
  | kliep (seed : Seed) (a : Kliep) (best : List (List (List Nat)) → Nat) (k : Nat → List Nat → Py R)
  /-- `_shuffle_arrays` on `n` rows (skada/_utils.py:218-227) -/
  | shuffleArrays (seed : Seed) (n : Nat) (k : List Nat → Py R)
  /-- `make_shifted_datasets`, `make_dataset_from_moons_distribution`, `make_variable_frequency_dataset`, `load_mnist_usps`: all draws are from one
  generator (skada/datasets/_samples_generator.py:494-591, 683-725, 817-852, skada/datasets/_mnist_usps.py:57-108) -/
  | generate (seed : Seed) (m : Draw γ (Py R))
  /-- `make_shifted_blobs` (skada/datasets/_samples_generator.py:342-360): the blobs of sklearn's `make_blobs`, called with the same `random_state`, and
  the noise, if any -/
  | blobs (seed : Seed) (m : Draw γ (Py R)) (noise : Option (Draw γ R)) (k : R → Option R → Py R)

/-- `_weights_optimization` (skada/_reweight.py:498-504): the positions of the centres among `n` target rows. -/
def kliepCentres (np : Numpy γ) (seed : Seed) (nCenters n : Nat) : World γ → Py (List Nat) × World γ :=
  withRng np seed (fun g => (.ok (np.ask (.choice n (min n nCenters) true) g).1, (np.ask (.choice n (min n nCenters) true) g).2))

/-- `_likelihood_cross_validation` (skada/_reweight.py:525-552): a shuffle whose result is not used, then the centres for every candidate and fold. -/
def kliepCv (np : Numpy γ) (seed : Seed) (a : Kliep) (candidates : Nat) : World γ → Py (List (List (List Nat))) × World γ :=
  andThen (withRng np seed (fun g => (.ok (), (np.ask (.shuffle a.n) g).2))) (fun _ =>
    forEach (fun _ => forEach (fun train => kliepCentres np seed a.nCenters train.length) a.folds) (List.range candidates))

/-- One call of the program. -/
def Call.exec (np : Numpy γ) : Call γ R → World γ → Py R × World γ
  | .dev seed n k => withRng np seed (fun g => (k (np.ask (.perm n) g).1, (np.ask (.perm n) g).2))
  | .mixval seed n k => withRng np seed (fun g => (k (np.ask (.perm n) g).1, (np.ask (.perm n) g).2))
  | .subsample seed n keep k =>
    withRng np seed (fun g => if n ≤ keep then (k none, g) else (k (some (np.ask (.perm n) g).1), (np.ask (.perm n) g).2))
  | .domainSubsample seed n keep all m => withRng np seed (fun g => if n ≤ keep then (all, g) else m g)
  | .stratSubsample seed X y sd keep k =>
    withRng np seed (fun g =>
      if X.length ≤ keep then (k none, g)
      else match stratChecks X y sd .none (.int keep) with
        | .error e => (.error e, g)
        | .ok (groups, nTrain, nTest) =>
          ((stratBody np groups nTrain nTest g).1.bind (fun f => k (some f)), (stratBody np groups nTrain nTest g).2))
  | .subspace seed source target k => withRng np seed (fun g => (k (source g).1 (target (source g).2).1, (target (source g).2).2))
  | .kliep seed a best k =>
    andThen (match a.gammas with
      | none => fun w => (.ok 0, w)
      | some c => andThen (kliepCv np seed a c) (fun l w => (.ok (best l), w)))
      (fun b => andThen (kliepCentres np seed a.nCenters a.n) (fun cs w => (k b cs, w)))
  | .shuffleArrays seed n k => withRng np seed (fun g => (k (np.ask (.shuffle n) g).1, (np.ask (.shuffle n) g).2))
  | .generate seed m => withNew np seed m
  | .blobs seed m noise k => fun w =>
    -- `rng` is made first, the blobs are drawn next, then the noise from `rng`
    match seed with
    | .inst _ => (.error .typeError, w)
    | .other => (.error .typeError, w)
    | _ => andThen (withRng np seed m) (fun b =>
        withNew np seed (fun g => match noise with
          | none => (k b none, g)
          | some e => (k b (some (e g).1), (e g).2))) w

/-! ### Programs -/

/-- What a program does. -/
inductive Op (γ R : Type) where
  /-- the user draws from the global generator (`none`) or from object number `k` -/
  | draw (k : Option Nat) (q : Query)
  /-- `np.random.seed(s)`, or object number `k` is made with seed `s` -/
  | reseed (k : Option Nat) (s : Int)
  /-- `name = splitter.split(…)` -/
  | split (name : Nat) (c : SplitCall)
  /-- `next(name)` -/
  | next (name : Nat)
  /-- a call that draws and returns -/
  | call (c : Call γ R)

/-- What the user sees of one operation. -/
inductive Obs (R : Type) where
  | nothing
  | drawn (l : List Nat)
  | got (g : Got)
  | value (r : Py R)
  deriving DecidableEq

/-- One operation; `next` of an unknown name is a `NameError`, shown as nothing. -/
def Op.exec (np : Numpy γ) : Op γ R → World γ → Obs R × World γ
  | .draw none q, w => (.drawn (np.ask q w.glob).1, { w with glob := (np.ask q w.glob).2 })
  | .draw (some k) q, w => (.drawn (np.ask q (w.insts k)).1, { w with insts := Function.update w.insts k (np.ask q (w.insts k)).2 })
  | .reseed none s, w => (.nothing, { w with glob := np.seeded s })
  | .reseed (some k) s, w => (.nothing, { w with insts := Function.update w.insts k (np.seeded s) })
  | .split n c, w => (.nothing, { w with its := Function.update w.its n (some (.fresh c)) })
  | .next n, w =>
    match w.its n with
    | none => (.nothing, w)
    | some it =>
      let r := it.next np w
      (.got r.1, { r.2.2 with its := Function.update r.2.2.its n (some r.2.1) })
  | .call c, w => (.value (c.exec np w).1, (c.exec np w).2)

/-- A program: the operations in order, with what the user sees of each. -/
def run (np : Numpy γ) : World γ → List (Op γ R) → List (Obs R) × World γ
  | w, [] => ([], w)
  | w, o :: os => ((o.exec np w).1 :: (run np (o.exec np w).2 os).1, (run np (o.exec np w).2 os).2)

end Skada.Rng

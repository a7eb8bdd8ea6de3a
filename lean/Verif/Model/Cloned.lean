/-
Copies of DA pipelines: `sklearn.base.clone` of a pipeline of selectors, the `memory` argument of `make_da_pipeline`
(skada/_pipeline.py), and parameters that a constructor turns into other objects
(`NearestNeighborReweightAdapter`, skada/_reweight.py).
-/
import Verif.Model.Pipeline
import Verif.Model.PipelineRun

namespace Skada

variable {α β σ : Type}

/-- A selector with the behaviour of its base estimator, which is determined by class and parameters.  Simplification: a
selector of another class works like `Shared`. -/
def PSel.sel (behave : Val → Est α σ) (s : PSel) : Sel α σ := ⟨behave s.base, s.mask, s.final⟩

/-- A selector as a pipeline step (skada/base.py: `Shared`, `PerDomain`, `SelectSource`, `SelectTarget`,
`SelectSourceTarget` with one estimator). -/
def PSel.step (behave : Val → Est α σ) (s : PSel) : Step α σ :=
  match s.kind with
  | .shared | .custom _ => .shared (s.sel behave)
  | .perDomain => .perDomain (s.sel behave)
  | .selectSource => .select .source (s.sel behave)
  | .selectTarget => .select .target (s.sel behave)
  | .sourceTarget => .sourceTarget ⟨behave s.base, none, s.final⟩

/-- The steps as run by `fit`; the first component of a step says which parameters the routing of the pipeline lets
through to it. -/
def runSteps (behave : Val → Est α σ) (steps : List ((String → Bool) × PSel)) : List ((String → Bool) × Step α σ) :=
  steps.map (fun st => (st.1, st.2.step behave))

/-- `clone(pipeline)` (scikit-learn, trusted external behaviour): every step is cloned; routing requests are copied. -/
def clonePipeline : List ((String → Bool) × PSel) → Py (List ((String → Bool) × PSel))
  | [] => .ok []
  | (keep, s) :: l => match s.clone with
    | .error e => .error e
    | .ok s' => match clonePipeline l with
      | .error e => .error e
      | .ok l' => .ok ((keep, s') :: l')

/-- `Pipeline.fit` with a `memory` (skada/_pipeline.py:109; scikit-learn, trusted external behaviour): every step but the
last is cloned before `fit_transform`.  The flag of a step tells if its result is taken from the cache: then its base
estimator is not called and the labels of the caller are not overwritten. -/
def fitCached [Cell α] (behave : Val → Est α σ) : List (Bool × (String → Bool) × PSel) → Cont α → Option (List Num) →
    Dict → Run α (List (Fitted σ) × Option (List Num))
  | [], _, y, _ => ([], .ok ([], y))
  | [(_, keep, s)], c, y, params => match (s.step behave).fit c y (params.filter (fun kv => keep kv.1)) with
    | (calls, .error e) => (calls, .error e)
    | (calls, .ok (f, y')) => (calls, .ok ([f], y'))
  | (hit, keep, s) :: rest, c, y, params => match s.clone with
    | .error e => ([], .error e)
    | .ok s' => match (s'.step behave).fitTransform c y (params.filter (fun kv => keep kv.1)) with
      | (calls, .error e) => (calls, .error e)
      | (calls, .ok (f, c', y')) =>
        let calls := if hit then [] else calls
        match fitCached behave rest c' (if hit then y else y') params with
        | (calls', .error e) => (calls ++ calls', .error e)
        | (calls', .ok (fs, y'')) => (calls ++ calls', .ok (f :: fs, y''))

/-! ### Parameters used up by the constructor -/

/-- `NearestNeighborReweightAdapter`: the parameters `n_neighbors` and `laplace_smoothing`, and the number of neighbours of
the classifier kept in `base_estimator`. -/
structure NNAdapter where
  neighbors : Nat
  laplace : Bool
  stored : Nat

/-- The constructor (skada/_reweight.py:734-765).  Simplification: the other parameters of the classifier are left out. -/
def NNAdapter.init (k : Nat) (laplace : Bool) : NNAdapter := ⟨k, laplace, k⟩

/-- `set_params(n_neighbors=k)`: scikit-learn sets the attribute. -/
def NNAdapter.setNeighbors (a : NNAdapter) (k : Nat) : NNAdapter := { a with neighbors := k }

/-- `clone(adapter)`: the constructor with the current parameters. -/
def NNAdapter.clone (a : NNAdapter) : NNAdapter := .init a.neighbors a.laplace

/-- `compute_weights` (skada/_reweight.py:805-818): `_get_weights` clones the stored classifier (lines 794-798).  `knn k Xs x`
is the label predicted for `x` by a classifier with `k` neighbours trained on `(Xs, arange(len(Xs)))`. -/
def NNAdapter.weights {K : Type} [Field K] (knn : Nat → List α → α → Nat) (a : NNAdapter) (X : List α)
    (sd : SDArg) : Py (List K) :=
  RW.nnWeights (knn a.stored) a.laplace X sd

end Skada

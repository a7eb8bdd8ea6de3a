# A Lean 4 model of skada

Target: `scikit-adaptation/skada` in `/repo` (Python).  The model lives in `lean/Verif/`, split as

* `Verif/Model/*.lean`  – the model, one file per part of the code, each definition citing file and lines;
* `Verif/Lemmas/*.lean` – helper lemmas (nothing here is a claim);
* `Verif/Props/*.lean`  – the property theorems `Cxx_…`, written against plain Lean/Mathlib notions
  (lists, indices, permutations, sums), each followed by an `example` that satisfies its hypotheses.

`properties.jsonl` states the claims in English, `MANIFEST.json` maps them to theorem names,
`seeded/LOG.jsonl` records the mutation tests.

## Trusted base

* Lean 4.33 kernel.  Axioms used by the theorems: at most `propext`, `Classical.choice`, `Quot.sound`.
  No own axioms, no `sorry`, no `native_decide`, no `bv_decide`.
* The hand translation Python → Lean.  Nothing mechanical ties the model to the source; every
  definition cites the lines it mirrors and states simplifications.
* Assumed behaviour of external libraries (parameters or primitives of the model):
  * numpy: boolean mask selection and assignment, integer take/put, `unique`, `flatnonzero`, `concatenate`,
    `zeros_like`, `argmin/argmax` (first extremum), truncation when a float is stored in an int array.
    These are the definitions in `Verif/Model/Np.lean`.
  * random draws (`rng.permutation`, `rng.shuffle`, `rng.choice(replace=False)`, `RandomSampler`) are
    arbitrary values satisfying their contract (a permutation, a duplicate-free sub-list); theorems hold for every draw.
  * sklearn / POT / torch estimators, solvers and losses are arbitrary functions (parameters).  A contract is only
    assumed where a theorem states it as a hypothesis (e.g. "the plan has the stated marginals").
* Numbers: arithmetic is exact (ℤ, ℚ, ℝ or an arbitrary ordered field), floating point rounding, overflow and
  int32 conversion of huge labels are not modelled. NaN/±inf are modelled for label arrays only.
  * sklearn: `clone`/`get_params`/`set_params`, `available_if`, `Pipeline.fit` and its name check, metadata routing (which parameters a
    step receives is a parameter of the model), `ShuffleSplit`/`StratifiedShuffleSplit` sizes, `LabelEncoder`, `Normalizer`, `softmax`.
  * numpy broadcasting where it matters (`weights * error` in DEV), `np.cov`/`np.var(ddof=1)`, `nanmean`; torch indexing, `cat`,
    `RandomSampler` (refuses an empty source), skorch's concatenation of batches. skorch's training loop with `train_split=None`: one optimiser step per
    batch, callbacks at the beginning of an epoch and the end of a batch.
  * `exp`, `log`, `sqrt`, powers, kernels, `eigh`, PCA and the POT solvers are parameters; theorems that need the real functions
    instantiate them with Mathlib's.
  * L-BFGS of torch (C120–C122): an arbitrary procedure that evaluates the loss; `Descends` (final loss not above the first) is a hypothesis;
    gradients are an arbitrary function; `torch.linalg.inv` fails exactly for singular matrices, `cholesky` factorises exactly the positive
    definite ones among symmetric matrices, `qr` gives orthonormal columns.
  * `check_cv(int)` is `KFold` without shuffling (C123): contiguous blocks, `ValueError` for fewer than 2 folds or fewer rows than folds;
    `pairwise_kernels` does not validate `gamma`, so a string fails with `TypeError` at `-gamma`.
  * `sklearn.pipeline.Pipeline` without `memory` fits the step objects it holds and does not clone them (C124).
  * `scipy.optimize.minimize(method="SLSQP")` (C125–C127): a result reported as a success is feasible up to `δ` and satisfies the first-order
    condition up to `ε` with the derivative it was given; the reported value is the objective at the reported point. `LinearConstraint` and bounds mean what
    SciPy documents; a NaN bound is met by nothing.
  * `train_test_split` (C128): the first `n_test` entries of a permutation are test rows, the rest training rows, no training row left is a
    `ValueError`. `Pipeline.transform` calls the steps in turn. The domain classifier of DEV predicts row by row.
  * scikit-learn's metadata routing (C130): `MethodMetadataRequest`, `MetadataRequest` (composition of `fit_transform`), `MetadataRouter`,
    `process_routing` and the router of `Pipeline`, as modelled in `Model/Routing`. Base estimators are consumers, not routers.
  * `torch.nn` layers (C131): `Linear`, `Conv1d`, `ReLU`, `AdaptiveAvgPool1d(1)`, `Dropout`, and the shapes of `Conv2d`, `MaxPool2d`, `flatten`,
    as defined in `Model/DeepModules`.
  * scikit-learn's `cross_validate` with `error_score=nan` (C132), as modelled in `Model/CrossVal`.
  * `sklearn.pipeline.Pipeline` without `memory` fits its steps in place, one after the other (C133); routing errors raised before the first step are not part of this model (they are in C130).
  * for C136: the estimators inside a pipeline, density estimators, domain classifiers, PCA, covariance estimators and transport solvers give
    equivalent results for the same samples in another order (hypotheses of the theorems, not axioms);
  * for C137: the estimators inside a pipeline and the fitted transports answer sample by sample (hypotheses of the theorems);
  * for C138: the estimators inside a pipeline, the transports of OT mapping and the optimiser of the location-scale mapping treat classes as names (hypotheses of the theorems); the gradient of transfer subspace learning is a parameter that does not see the labels;
  * for C139: density estimators, domain classifier, neighbour search, JCPOT's transport and the base estimators of JDOT respect the map of the samples (hypotheses of the theorems);
  * for C140: the exact transport cost `emd2` is proportional to the transported mass (hypothesis of `C140_deepjdot_*`);
  * for the transport part of C141: the solver returns a plan of least cost (`BestPlan`, `Solves`), the base estimator of JDOT has no loss on its training data (hypotheses of the theorems);
  * for C141: fitted densities, PCA and the `auto` covariance do not depend on the order of their samples (`OrderBlind`, hypotheses of the theorems);
  * for C142: fitted densities and domain classifiers only look at proportions, predictors treat copies alike (`CopyBlind` and similar hypotheses of the theorems);
  * for C65 (alignment) and C143: `bures_wasserstein_mapping` returns `A` with `Aᵀ C A` equal to the covariance of the barycenter and `b` matching the means; for C143 also: the barycenter of equal Gaussians is that Gaussian and the map of a Gaussian to itself has `A = 1`; a fitted POT transport asked about its own source samples returns their barycentric images (`Spec.ExactTransport`);
  * torch and skorch for C145: forward hooks run in the order of registration whenever their layer runs; `copy.deepcopy` copies parameters, hooks and
    their dictionaries and raises `RuntimeError` for a tensor that is not a leaf of the gradient graph; `sklearn.clone` deep-copies parameters that are not
    estimators; skorch's `initialize` hands the stored `module__…` arguments to the module class without copying them.
  * skorch for C146: `fit` calls `initialize` unless `warm_start` and initialised, then `partial_fit`; `partial_fit` calls `initialize` if not initialised;
    `predict_proba` raises `NotInitializedError` before; `initialize` creates module and optimiser anew; one optimiser step per batch.
  * numpy and sklearn for C147: `check_random_state` returns the global generator, a new generator for an integer in [0, 2**32) or the object given;
    `np.random.RandomState(seed)` takes fresh entropy for `None` and raises `TypeError` for a `RandomState` object; `train_test_split`, `ShuffleSplit`
    draw one permutation from the generator handed over; a generator's answers depend on nothing but its state.
  * `numpy.linalg.eigh` for C148: orthonormal eigenvectors and their eigenvalues, in any order and with any signs; POT's plans are functions of the cost
    matrix, its barycenters and linear maps turn with the moments; Ledoit-Wolf shrinkage turns with the samples.
  * `sqrt` for C149: the root of `c² a` is `c` times the root of `a` (proved for ℝ in `Units.real_root`); the Ledoit-Wolf covariance is multiplied by
    `c²`; POT's plan does not change when all costs are multiplied by a positive number.
  * `sklearn.datasets.load_files`, `csv.reader`, `loadmat`, `str.lower`, `os.path.exists`/`makedirs` in the dataset loaders; a download either
    succeeds or fails, leaving an arbitrary folder content.
* Not modelled: logging and warnings, file systems beyond that, GPU/devices, autograd, sklearn's metadata
  routing *configuration* (only its effect "which parameters are routed" appears, as a parameter), input coercion by
  `check_array` (lists → arrays); except its emptiness check where it matters.

## Method per property

See the table. "State machine" = invariant proved by induction over an arbitrary list of operations;
"2-run" = non-interference statement about two executions; "cex" = the code violates the claim as stated:
a theorem gives a concrete counterexample on the model and a `_partial` theorem proves what does hold.

| id | modelled code | how proved |
|----|---------------|-----------|
| C01, C02, C03 | `source_target_split`, `source_target_merge`, `_merge_arrays` | mask-select / mask-assign lemmas by induction on the mask |
| C04 | `_merge_arrays` with dtypes | cex (int source + float target truncates) + partial (target representable in source dtype) |
| C05, C06 | `source_target_split`, `per_domain_split`, `extract_domains_indices` | refinement to `List.filter` on zipped lists |
| C07 | `_find_y_type`, `_check_y_masking`, auto branch of `check_X_y_domain` | decision logic outright |
| C08, C09 | `check_X_y_domain`, `check_X_domain` | decision logic; cex for `allow_multi_target` (tests `n_sources`) |
| C10 | `_merge_domain_outputs` | induction over the list of domains |
| C11 | `_remove_masked`, `_apply_domain_masks` | refinement to `List.filter` |
| C12 | `Shared` selector, `MetadataContainer`, sklearn `Pipeline.fit` loop | 2-run, induction over the steps, estimators arbitrary functions |
| C13, C14 | `PerDomain` | refinement; cex for C14 (IndexError once labels are masked) |
| C15 | `SelectSource`, `SelectTarget`, `SelectSourceTarget` | refinement |
| C16 | `_auto_mask_target_labels` (in place) | cex + partial (nothing written at source rows / when already masked) |
| C17 | `get_params`, `__init__`, sklearn `clone` | cex + partial |
| C18 | `MetadataContainer` | state machine |
| C19, C20 | `_pipeline.py` | induction over the step list; cex for unknown selector name |
| C21 | `DomainAwareDataset.add_domain/merge/get_domain` | state machine; cex for automatic names |
| C22, C23 | `DomainAwareDataset.pack` | induction over the request lists; cex for label dtypes without a mask |
| C24 | `pack_lodo`, `LeaveOneDomainOut` | for every permutation; cex for label 0 |
| C25–C27 | shuffle splitters | for every permutation/draw |
| C28, C29 | `frank_wolfe` | loop invariant; LP-vertex optimality |
| C30 | `_qp_solve_frank_wolfe` | decision logic; cex for one-row `A` |
| C31–C33 | `_reweight.py` | algebra over an ordered field; cex for discriminator ratio and nearest-neighbour indexing |
| C34, C35 | `_mapping.py`, `_subspace.py` | refinement; cex for interleaved rows in TCA/TJM |
| C36 | label propagation | refinement; cex for JCPOT with several targets |
| C37, C38 | JDOT loops and costs | loop invariant; cex for binary hinge |
| C39 | DASVM selection | cex: `k` has no effect; partial |
| C40 | gradual adaptation | convexity algebra; cex for ties |
| C41, C42 | deep samplers | for every permutation |
| C43 | deep criterion | 2-run |
| C44 | `DeepDADataset` | state machine; cex for in-place merge |
| C45 | `MemoryBank` | cex (update statement is cut in two) + closed form |
| C46 | subsamplers | for every draw |
| C47–C51 | scorers | refinement / real analysis |
| C52 | generators | arithmetic; cex for odd sizes in the subspace generator |
| C53–C55 | `check_X_y_domain`, `source_target_merge` (missing halves, absent domains) | decision logic |
| C56 | `select_domain` | refinement to filtering |
| C57 | `StratifiedDomainShuffleSplit` | every draw; cex for small groups |
| C58, C60 | selectors' `score`, `set_params` | decision logic; cex |
| C59 | `make_da_pipeline` + sklearn's name check | induction over steps; cex for nested pipelines |
| C61 | `frank_wolfe` | rate by induction over the iterations |
| C62, C63 | kernel mean matching, MMD target shift | linear algebra over an ordered field |
| C64–C66 | CORAL, MultiLinearMonge, MMD-LS | refinement row by row |
| C67–C71 | TCA, TJM, TSL, SubspaceAlignment | matrix identities; cex (non-symmetric `eigh`, loop exit, inverted losses, default size) |
| C72, C73 | JDOT regression and classification | loop invariant |
| C74, C75 | DASVM, GradualEstimator | loop refinement; cex |
| C76–C78 | deep prediction, loss, restrictions | refinement; cex |
| C79–C82 | SND, DEV, MixVal, MaNo | real analysis; cex |
| C83–C85 | `make_*` data set generators | arithmetic over all draws |
| C86 | `deepcoral_loss` | algebra over an ordered field; cex for `assume_centered` |
| C87 | `dan_loss` and its kernel | positive definiteness of `exp(-β‖x-y‖)` (integral representation, Schur products), strictness on distinct points |
| C88 | `cdd_loss` | double sums compared with the class-wise MMD; cex |
| C89 | `mcc_loss` | loss = (C-1)/C minus a weighted variance; equality case |
| C90 | `nap_loss` | pigeonhole on the top-k choice (any choice meeting torch's contract); cex when the batch covers the memory |
| C91 | `gda_loss`, `_adj`, `_laplacian` | algebra, singular values a parameter; cex for `laplac1` and cos |
| C92 | `deepjdot_loss` | Birkhoff's theorem: exact OT with uniform weights = best pairing |
| C93 | `SphericalKMeans` | loop invariant: Cauchy–Schwarz per cluster; cex for zero rows and exhausted iterations |
| C94 | `DANNLoss`, `CDANLoss`, `DomainClassifier`, gradient reversal | concavity of the clamped log, equality cases; cex for the default classifier |
| C95 | `MDDLoss`, `ModifiedCrossEntropyLoss` | algebra on softmax and smoothing; cex for all-pairs averaging and double softmax |
| C96 | `SPALoss`, `CountEpochs` | schedule = tanh; state machine over training events; cex for refits |
| C97 | `CDANModule.forward`, `CDAN`, `check_generator` | positions of the outer product; generator state machine over batches; cex |
| C98 | `SourceOnly`, `TargetOnly`, `DomainOnlyDataLoader`, skorch's loop | refinement to a plain training loop on the rows of one side, induction over batches and epochs; cex for small and weighted data |
| C99 | `DomainAwareNet.fit` with both loaders | two runs on data sets equal up to target labels, induction over batches and epochs |
| C100 | `DomainAwareModule.forward`, `CDANModule.forward` | same call in both modes; concatenation of batches; cex for modules without `sample_weight` |
| C101 | `ComputeSourceCentroids` | class sums for labels 0..C-1, composed with C93; cex for other labels |
| C102 | `MemoryBank` with `nap_loss` | initial memory; cex: induction over batches, all pseudo-labels are class 0, composed with C90 |
| C103 | `predict_proba`, `predict`, `_get_predict_nonlinearity` | softmax of every batch, order kept, independent of batch size; cex for raw outputs |
| C104 | callback lists in `CAN`, `SPA` | heap of list objects, induction over programs; cex for shared lists |
| C105 | `fit` with the balanced loader, loss of a step | epochs equal steps over balanced batches, counts from C41; loss from C43; cex for small data |
| C106 | `_prepare_input`, `_process_dataset`, dict constructor, `as_dict`, `as_arrays`, `domains` | all forms refine one list of records (C44's relation determines the tensors); induction over items; cex for dropped arguments |
| C107 | factories `DeepCoral`, `DAN`, `CAN`, `MCC`, `DeepJDOT`, `DANN`, `CDAN`, `MDD`, `SPA` and `DomainAwareCriterion.__init__` | composition of the step (C43, C105) with the loss theorems (C86-C96); NaN adaptation losses are an arbitrary value; cex for the lost reduction, the default classifier, single rows |
| C108 | `pipelineFit` (C18) on chains of shared selectors, weights and label proposals | induction over an independent account `Adapts` of a run through the adapters; the final step by C10/C11/C16; cex for the class -1 |
| C109 | `Shared._route_to_estimator`, `Pipeline.predict/score`, `BaseReweightAdapter` and OT mapping adapters as steps | induction over the fitted steps; whole reweighting and OT mapping methods by C108 with C31/C34; cex for scoring the class -1 |
| C110 | every shallow adapter as a pipeline step (`Model/ShallowMethods`) | C108/C109 with the adapter's own property (C31, C33, C36, C62, C64, C65, C66 …); cex for TCA/TJM, Monge and JCPOT |
| C111 | `Step.transform`, `stepsRoute` (`Model/PipelineSteps`): evaluation of pipelines with any selectors | equivalence with the rest of the pipeline on row-wise transformed data (C13, C15, C10); C108/C109 for the rest |
| C112 | `jdotRegressorFit`, `jdotClassifierFit`, `jdotPredict`, `jdotEst` (`Model/Jdot`): the two JDOT classes around the loops of C37/C72/C73, with base estimators that may raise | what is trained, on what, with which cost, from the rounds of the loop; descent by one step lemma and induction over the rounds; pipelines through C108/C109 |
| C113 | `gradAsk`, `gradScore`, `gradFitAny`, `gradSaved`, `dasvmAsk`, `dasvmAskProba`, `dasvmScore`, `selfEst` (`Model/SelfLabelRun`): methods and pipeline steps around `gradFit` and `dasvmFit` of C39/C40 | training and prediction through pipelines by C108 and induction over the adapters, composed with C74/C75; scores by counting |
| C114 | `PSel.step`, `clonePipeline`, `fitCached`, `NNAdapter` (`Model/Cloned`): selector objects of C17/C60 as the pipeline steps of C108, `clone` step by step, `Pipeline.fit` with `memory` and a flag per step for a cache hit | the clone's steps are the original ones with default mask and no final mark; equality of runs by induction over the steps; masking is idempotent, so cache hits do not matter |
| C115 | `Cls`, `Cls.construct`, `getParams`, `setParam`, `clone`, one `Cls` per estimator (`Model/Ctor`): parameters with defaults, what `__init__` stores for a value, computed attributes, `**kwargs` | what is stored is a fixed point of storing (per class), so rebuilding from the attributes gives the same object; `set_params` changes one attribute |
| C116 | `Factory`, `Factory.call`, one `Factory` per function, `Heap` (identity of default estimators), `transport` (`Model/Ctor`) | table facts checked over the finite list of functions, then for all arguments by lookup lemmas; refinement of the heap to independent pipelines by induction over operations |
| C117 | `Disk`, `Net`, `ensure`, `fetch`, `run`, `fetchAll`, `fetchHomeAll` (`Model/Loaders`): state = dataset folder and number of downloads; the outcome of a download is an argument | induction over the sequence of calls; what each call returns is stated by relations on arguments and folder |
| C118 | `load31` (with `load_files`, `np.squeeze`), `parseCsv`, `loadHome`, `loadHomeAll`, `loadAmazon`, `shuffle1/2` | pairs of row and label are a permutation of the pairs on disk; sorting by name is canonical |
| C119 | `subset`, `mnistUspsData`, `mnistUsps` on top of the registry and `pack` of `Model/Dataset` | draws as arbitrary functions; computation of `pack` |
| C120 | `torchMinimize`, `gradMax`, `Pack` (`Model/Optim`); L-BFGS is a parameter that may evaluate the loss and returns a final and a last evaluated point | case analysis; contract `Descends`; negations by a cubic polynomial and by NaN |
| C121 | `mmdlsOptimize`, `mmdlsObj`, `smoother`, `lsR` over ℝ | the objective is a squared RKHS distance (Laplace kernel positive semidefinite) plus regulariser; `L + reg_k I` is positive definite |
| C122 | `tslFit`, `tslOptimize`, `tslLoss`, `tslD`, `tslF` over ℝ; QR and Cholesky are parameters | shrunk covariances are positive definite; covariances of few rows are singular; invariance under rotations; descent from C120 |
| C123 | `fitObj`, `likelihoodCV`, `logLiks`, `foldLik`, `kfold`, `autoScale` (`Model/Kliep`) over an ordered field; `exp`, `log`, draws are parameters | blocks of `KFold` partition the rows; optimisation depends on kernel values only; C33 for the final weights; induction over the history of fits |
| C124 | `build`, `wrap`, `mark`, `unmark`, `fitSteps`, `Heap.step` (`Model/Share`): estimators, selectors and pipelines as objects with identity | refinement, by induction over the history, to pipelines that own their steps; aliasing invariant for the nested case |
| C125 | `qpSolveAll`, `qpScipy`, `constraints`, `bounds` (`Model/QpScipy`); `scipy.optimize.minimize` is a parameter with contract `Spec.SolverOk ε δ` | the call equals the documented problem; Taylor expansion holds iff `Q` is symmetric; convexity turns stationarity into optimality |
| C126 | `kmmOptimizeAll`, `kmmFitAll`, `kmmFitTransform` (`Model/QpScipy`) | the squared kernel distance is the objective scaled and shifted; C125 for scipy, C30 for frank-wolfe |
| C127 | `tarsOmega`, `tarsProgram`, `tarsDiscrete`, `tarsContinuous` (`Model/QpScipy`) | `P = BᵀKB + 1e-12 I` with `B = ΩᵀR`; C125; the smoothing matrix exists and is unique |
| C128 | `dev`, `devOnFeatures`, `pipeFeatures`, `trainTest` (`Model/Dev`); classifier, loss, permutation are parameters | evaluation of the run for arguments that are accepted; the split is a permutation; posterior odds give the density ratio; transformers that keep target rows are invisible |
| C129 | all scorers of `Model/Scorers` and `Model/Dev` | congruence: the run only uses the source labels, or the type of the labels |
| C130 | routers of the selectors and their interpretation (`Model/Routing`): `selRoute`, `pipeRoute`, `fit`, `eval` | lookups in the routed dictionaries; congruence of selectors under dictionaries that agree on the requested names; induction over the steps |
| C131 | modules and layer hook (`Model/DeepModules`): `ToyCNN.init/forward/hooked`, `Toy2D.row`, `mnistShape` | list sums as finite sums, exchange of means; a coordinate flip for the dropout draws; `log x - log y > x - y` on (0, 1] |
| C132 | `cross_validate` over the models of pipeline, splitters and scorers (`Model/CrossVal`) | non-interference: C12 for the training rows, C129 for the scorers, C24, C25 and C27 for disjointness of train and test |
| C133 | a pipeline as an object with what its selectors store, over histories of calls (`Model/History`) | induction over the steps and over the history; refinement to a new pipeline fitted once |
| C134 | two runs of the same pipeline, scorer or splitter with domain vectors of equal signs (`Spec/Sides`) | a relation between two executions kept by every function of the model, induction over the steps |
| C135 | the documented defaults as a table of their own (`Spec/Documented`), constructors and factories of `Model/Ctor` | the table against the signatures by evaluation, lifted to all calls by what a successful construction stores |
| C136 | all of `Model/PipelineSteps` and the adapters; `Spec/Order` says when two inputs are the same samples in two orders | relational induction over the steps: both runs are described by functions of the sample numbers, mapped over two permuted lists of numbers |
| C137 | `stepsRoute`, `perDomainRoute`, `SST.route` and the adapters' `transform`; `Spec/Batch` says when a call is about some of the samples of another | relational induction as for C136, but one-sided (the larger call may fail where the smaller does not): domains, sides and checks of the smaller call are filtered from those of the larger one |
| C138 | `pipelineFit`, `stepsRoute` and the adapters that look at labels; `Spec/Names` says what renaming classes means | the calls of the second run are computed from those of the first (equalities through masking, routing and merging; related states through estimators), with the invariant that labels stay integers; for the adapters `np.unique` commutes with order-preserving renamings | 
| C139 | the reweighting, label propagation, JDOT and embedding functions of the model on `X` and on `X.map g`; `Spec/Geometry` | every function is shown to commute with `map g` (checks, splits and index selections do not look at rows; kernels and costs agree by hypothesis); results are equal or related. JDOT: simulation of the loop, `Mf / Mf.mean()` cancels a factor. CORAL: means move with the shift, covariances do not | 
| C140 | `otLabelProp`, `otLabelPropReg`, `jdotRegressorFit`, `jdotClassifierFit`, `getLoss`, `deepjdot` on weights and on weights scaled by side | the split of scaled weights is the scaled split; `w / w.sum()` cancels the factor, zero totals stay zero totals; deep losses are shown to be proportional | 
| C141 | `densityWeights`, `gaussianFitWeights`, `discriminatorWeights`, `nnWeights`, `kmmFitTransform`, `coralFitTransform`, `saTransform`, `importanceWeighted`, `devScore`, `deepcoral`, `dan`, `otLabelProp`, `otLabelPropReg`, `jdotRegressorFit`, `jdotClassifierFit` on samples without shift (`Spec/NoShift.lean`) | ratios of equal densities are one; for KMM the weights one are feasible with distance zero, so the optimum of C126 is zero, and the distance is the kernel form of `w - 1`; square root times inverse square root is the identity; C87 for DAN; for transport the plan that pairs equal samples costs nothing, so a best plan has no mass between different samples (`NoShift.supported`), and for JDOT this is kept by induction over the iterations | 
| C142 | `densityWeights`, `gaussianFitWeights`, `discriminatorWeights`, `coralFitTransform`, `importanceWeighted`, `predictionEntropy`, `softNeighborhood`, `devScore`, `mano`, `deepcoral`, `dan`, `mcc` on `copies k` of the data (`Spec/Replicate.lean`) | splitting, masking and `zipWith` commute with `copies`, sums and lengths are multiplied by `k`; the lower median is characterised by counts, which all grow by `k²`; in DEV the two factors `1/(kn-1)` cancel; KMM by averaging the weights of the copies (`Copies.mmdSq_means`) and C126 on the copied data, KLIEP by induction over its loop (Verif/Props/ReplicateKmm.lean), MultiLinearMonge from C65 and the statistics of the domains (Verif/Props/ReplicateMonge.lean), exact optimal transport by adding up the plan over the copies and spreading it over them (Verif/Props/ReplicateOt.lean), label propagation from C36 and the mass of a class on the copies, assuming a solver that shares plans out among copies (Verif/Props/ReplicateLp.lean), entropic transport because its best plan is unique, hence unchanged by exchanging copies (Verif/Props/ReplicateSinkhorn.lean) |
| C143 | `coralFitTransform`, `mongeFit`/`mongeTransform` with `gaussMap`, `otFitTransform` with a barycentric transport, `RW.fitTransform`, `otLabelProp`, each run twice | after the first run both sides (all domains) have equal statistics, `invsqrtm C * sqrtm C = 1` and the map of a Gaussian to itself is the identity; an assignment makes the source rows a permutation of the target rows, then C141; counterexamples by exact rational computation, optimality of plans by dual potentials |
| C144 | `RW.splitX`, `gaussianFitWeights`, `densityFit`/`densityWeights`, `DL.deepcoral`, `DL.dan`, `Adv.dannLoss` with `Adv.bceLoss`, `coralFitTransform` | negating nonzero labels swaps `sourceRows` and `targetRows` (induction), the weights are `t/s` and `s/t` (times one constant); kernels are symmetric, double sums commute; `sqrtm C * invsqrtm C = 1`; for the default bandwidths of DAN a closed form over the reals that is strictly decreasing in every bandwidth |
| C145 | `Hk.*` (Verif/Model/Hooks.lean): heap of networks, hook dictionaries and wrappers with `wrap`, `forward`, `clone`, `copyBase`, a program is a list of operations | refinement: an abstraction function to `Spec.Networks` (no hooks, no dictionaries) commutes with every operation under an invariant (each wrapper's dictionary is written by a hook on its own network, dictionaries are not shared between networks, every dictionary entry was written by such a hook); the statements on fits by induction over the batches in the abstract machine |
| C146 | `NetLife.*` (Verif/Model/Life.lean) on top of `Hk.*`: nets with network, layer, warm start, module and optimiser state; `fit`, `partial_fit`, predictions, `predict_features`, `clone` | second refinement, to `Spec.Lives` (networks and nets only), by the refinement of C145 and induction over batches and programs; warm start by comparing the abstract runs, cross-validation by induction over the folds in the abstract machine |
| C147 | `Rng.*` (Verif/Model/Rng.lean): numpy as a parameter, `check_random_state` and `RandomState`, the splitters as generator functions executed up to the next `yield`, KLIEP, DEV, MixVal, subsamplers, generators; programs over all of them | every computation is shown to be local to the places its `random_state` names (`Local`, closed under sequencing); isolation by induction over programs; folds by induction over the stages of a generator object; renaming of generators (`C147_renamed`, Verif/Props/RngRename.lean) by a simulation between corresponding situations (`Rename.Same`), closed under sequencing; correctness of every fold of every program (`C147_every_fold`, Verif/Props/RngFolds.lean) from the promises `LawfulNp` of numpy and sklearn, which are shown to be satisfiable; number of folds by an invariant over programs, integers against objects by a simulation, requests of every call against requests of the user (Verif/Props/RngCounts.lean); witnesses for the negative parts |
| C148 | the existing models of the mapping and subspace adapters and of the deep losses, on samples multiplied by an orthonormal matrix (`Spec.turn`) | merging and splitting commute with a linear map of the rows; a function of the eigenvalues does not depend on the eigenvectors chosen (`Rotation.spectral_unique`), hence roots turn with the matrix; rational witnesses for the negative parts |
| C149 | the existing models of the mapping, subspace and KLIEP adapters and of the deep losses, on samples multiplied by a number (`Spec.inUnit`) | a change of units is the matrix `c • 1`, so the lemmas of C148 apply; roots of `c² C` by `Rotation.spectral_unique`; argmin and median commute with a positive factor; over ℝ the assumptions on `sqrt` and `eigh` are discharged with Mathlib's spectral theorem (`Units.real_eigh`); rational witnesses for the negative parts |

## What is modelled, file by file

| file in `/repo/skada` | modelled | not modelled |
|---|---|---|
| `utils.py`, `_utils.py` | checks, split/merge, masking, label type, `qp_solve` (Frank–Wolfe), `frank_wolfe` | scipy solver calls and L-BFGS (parameters) |
| `base.py` | `Shared`, `PerDomain`, `SelectSource/Target/SourceTarget`, `MetadataContainer`, masking on `fit` | docstring machinery, `__sklearn_tags__` |
| `_pipeline.py` | whole file | visual block representation |
| `_reweight.py`, `_mapping.py`, `_subspace.py`, `_ot.py`, `_self_labeling.py`, `_gradual_da.py` | fit/transform logic, weights, loops, costs | numerical solvers and inner estimators (parameters) |
| `model_selection.py`, `transformers.py`, `metrics.py` | all splitters, subsamplers and scorers | – |
| `datasets/_base.py`, `datasets/_samples_generator.py` | registry, `pack`, `pack_lodo`, `select_domain`, generators | Bunch wrapping, signal filtering |
| `datasets/_office.py`, `_office_home.py`, `_amazon_review.py`, `_mnist_usps.py` | folder and download logic, categories, labels, shuffling, subsets | the network, archive and file formats (parameters), `get_data_home` |
| `deep/` | samplers, data set, criterion, net prediction and loss, memory bank, centroid callback, losses (see the Lean files) | network architectures, autograd, devices |

## Where the code disagrees with the claims

Each line is backed by a `…_counterexample` theorem or an error branch in a `…_errors` theorem, unless marked (model only).

Selectors and pipelines
* `SelectSourceTarget.predict` is never available, its `score` ends in an `AssertionError`; `PerDomain.score` never returns a number (C58).
* `get_params`/`clone` of `SelectSourceTarget` raise `AttributeError`; `clone` resets `mask_target_labels` and finality (C17).
* `set_params(base_estimator=…)` collides with an own parameter of that name, e.g. DASVM (C60).
* `PerDomain` cannot be fitted with masked labels (C14); the caller's target labels are overwritten in place (C16).
* `SelectSourceTarget._fit` hands an array where a container is expected; `fit_transform` without the base method reads an unset attribute (model only).
* Alias names are not renamed on the consuming path (base.py:347); `predicts_target_labels` switches masking off for all later steps (model only).
* Unknown `default_selector` → `AttributeError` (C20); named nested pipelines cannot be fitted, two unnamed ones of one type collide (C59).
* Class -1 is taken for the mask: with classes -1/1 the source rows of class -1 are dropped from training (C108) and the target rows of class -1 from `score` (C109).
* End to end (C110): `TransferComponentAnalysis`/`TransferJointMatching` pair embeddings with the wrong labels when a target row precedes a source row; `MultiLinearMongeAlignment(...).predict(X)` without `sample_domain` raises `KeyError`; `JCPOTLabelProp` trains its base estimator on class indices.
* Pipelines (C111): a `PerDomain` step makes `predict` without `sample_domain` fail with `KeyError`; `SelectSourceTarget` passes the true target labels to the target transformer and masks nothing.
* JDOT (C112): `fit` returns `None`; `JDOTRegressor.predict` and `score` request `allow_source` but do not accept it (`TypeError` through a pipeline); a class whose transported weights are all below the threshold is dropped, after which the class costs fail to broadcast; zero target weights give NaN labels in regression; the check of consistent lengths in `source_target_split` checks nothing.
* Self-labelling (C113): `GradualEstimator.fit` gives the target labels it receives to the transport method, so outside a pipeline they influence training; a `GradualEstimator` around a fitted classifier predicts before `fit`; `DASVMClassifier.predict` raises `AttributeError` before `fit`; both request `decision_function`/`predict_log_proba` routing for methods they do not all have.
* Copies (C114): `clone` loses `mask_target_labels=False` and the mark of the final step; with `memory` and `mask_target_labels=False` the result depends on what is in the cache; pipelines with `SelectSourceTarget` cannot be cloned; `NearestNeighborReweightAdapter.set_params` has no effect outside a pipeline.
* `SelectSourceTarget` (C15): a source estimator without `transform` and a target transformer is accepted, although the error message says both or neither have to be transformers (`C15_source_target_init_counterexample`).
* Constructors (C115): `**kwargs` of the JDOT classes are lost by `clone`; `DASVMClassifier` ignores unknown arguments; `set_params(x=None)` then `clone` raises `RuntimeError` for the six parameters with `None` as a default marker; unfitted ensembles as `domain_classifier`/`weight_estimator` raise `AttributeError` because of `x or default`; `set_params` skips the checks of the constructor.
* Functions building pipelines (C116): `LinearOTMapping` has default `reg=1.0`, documented as 1e-08; `OTLabelProp` passes `reg=0` where the adapter has `None`; `ClassRegularizerOTMapping` has one shared default `SVC`, and raises `AttributeError` for `base_estimator=None`.
* Loaders (C117–C119): the dataset folder is created before the download, so a failed download is never repeated and a partly unpacked archive is returned as the data; Office-31 integer labels differ between domains when a category is missing in one of them; a data file with several samples gets one label; `fetch_office_home` and `fetch_amazon_review` return a `DomainAwareDataset` where the documentation says `Bunch` (model only); `load_mnist_usps` draws with replacement, and its documented default `n_classes=5` is 10 (model only).
* `torch_minimize` (C120) checks the gradient of the last evaluation, not of the solution, and a NaN gradient passes; MMDLSConS (C121) ignores continuous labels and then does not start at the identity; the divergence of transfer subspace learning (C122) mixes three kernels and can be negative.
* KLIEP (C123): `fit` overwrites the parameter `gamma` when it is a list, so `"scale"` is frozen at the first data (also for an object that is cloned afterwards, and also if that fit fails); `np.argmax` prefers NaN; the shuffled index of the cross-validation is never used; a misspelt string reaches the kernel (`TypeError`).
* Pipelines as steps (C124): `make_da_pipeline(inner, clf)` takes over the selector objects of `inner` and un-marks its last one, so `inner` no longer has a final step and every fit of the outer pipeline refits `inner`; a selector object passed twice is one object in both places and keeps its final mark.
* `qp_solve` (C125): the gradient `Qx + c` is only right for symmetric `Q`, which is not documented as a requirement; "Return val as None if optimization failed" is not what happens (the value is returned with a warning); `frank-wolfe` returns no third component for `log=True`; `b`/`beq` without matrix are silently ignored. `A` without `b` becomes a NaN bound that nothing satisfies.
* DEV (C128): features of source rows are computed without `sample_domain`, so adapters treat them as target rows; mapping and reweighting adapters leave them unchanged and the density ratio ignores the adaptation.
* MixVal and MaNo (C129) look at the type of all labels, so target rows masked with NaN are refused.
* Routing (C130): the routers of the selectors map no `fit_transform`, the method that `Pipeline.fit` calls on all steps but the last, so these steps receive `sample_domain` only. `SelectSourceTarget` registers both estimators under one name, so the requests of the source estimator are forgotten.
* Modules (C131): `ToyModule2D(proba=True)` in a net with the default `predict_nonlinearity` goes through the softmax twice, so `predict_proba` is flatter than the module's own probabilities.
* Cross-validation (C132): `StratifiedDomainShuffleSplit` groups target rows by `y`, so its folds (and whether it raises) depend on target labels.
* Histories (C133): a `fit` that raises leaves the steps before the failing one refitted and the others as they were; `predict` then answers from a mixture of two fits without an exception. A step that does not hide labels sees masked labels if the same array is used for a second `fit`.
* Names of domains (C134): swapping the names of two target domains swaps the labels `JCPOTLabelProp` proposes; `PerDomain.predict` returns an array of the type of the domain with the smallest label, so swapping names can truncate predictions; `CircularValidation` negates the labels for the way back, and a source with the label 0 stays a source.
* Documented defaults (C135): `max_iter` of `KMMReweightAdapter`/`KMMReweight` is documented as 100 and is 1000; `reg` of `LinearOTMapping` is documented as 1e-8 and is 1; the base estimator of `JCPOTLabelProp` is documented as `LinearRegression()` and is `LogisticRegression()`.
* Order of samples (C136): `PerDomain` around a predictor takes rows of a domain by their place before masked rows were removed; steps behind `SelectSource`/`SelectTarget` see the remaining rows with per-sample parameters of all rows; `NearestNeighborReweightAdapter` uses `X[~source_idx]` with integer indices, which mirrors places; `transform` of TCA and TJM on the training samples answers in the order sources, targets.
* Other samples of a batch (C137): TCA/TJM answer the training batch from the stored kernel in the order sources-targets, MMD-LS uses the stored rows for the training sources but the nearest (first) neighbour otherwise, and `PerDomain` casts all predictions to the type of those of the first domain: answers for a sample then depend on the other samples.
* Names of classes (C138): `JCPOTLabelPropAdapter` proposes the position of a class among the classes instead of its name, so classes 5 and 7 become 0 and 1; `MMDTarSReweightAdapter` uses an RBF kernel of the class numbers also for classification, so that its weights depend on how the classes are numbered; a class named -1 is silently treated as masked.
* Place of the samples (C139): with `assume_centered=True` CORAL depends on the origin also when all samples, source and target, are shifted together (`C139_coral_centered_counterexample`); KLIEP with `gamma='scale'` depends on the origin of every single feature (C123).
* Size of the weights (C140): `DomainAwareNet.get_loss` averages `weight * loss` without dividing by the total weight, so doubling all weights doubles the loss; it selects the weights of domains `> 0` although the losses belong to domains `>= 0`, so weights of one raise where a source domain has label 0. `JDOTRegressor` normalises weights for the plan but hands the target weights unnormalised to the base regressor; `deepjdot_loss` uses given weights as they are and `1/n` otherwise.
* No shift (C141): `NearestNeighborReweightAdapter` gives the weights 0, 2, 1 to the sources 0, 10, 20 although the targets are 0, 20, 10, because `X[~source_idx]` does not select the targets (same cause as C32).
* Copies (C142): `deepcoral_loss` divides the covariances by `n - 1`, so listing two batches of 2 rows twice turns a loss of 1 into 4/9, while `CORALAdapter` divides by `n` and is not changed; `SoftNeighborhoodDensity` is 0 for one target sample and positive for two copies of it. The default `eps=None` of KMM depends on the number of rows, so copies may be weighted by 3/2 where the sample has to be weighted by 1; nearest-neighbour reweighting gives the whole weight to one of the copies; the step of KLIEP is a sum, not a mean, over the target rows.
* Adapting twice (C143): CORAL with a numeric `reg` moves its own output again, because the shrunk covariances of the two sides still differ after the first run; barycentric optimal transport is not idempotent when mass is split; `OTLabelPropAdapter` returns masked source labels, so applying it to its own output masks everything.
* Exchanging the sides (C144): the default bandwidths of `dan_loss` come from the source batch alone, so the loss is not symmetric; the label 0 is its own negative, so negating labels does not exchange the sides (see C134 for `CircularValidation`).
* Networks (C145): `fit` of a net built by the functions of skada.deep does not start anew: skorch builds a new `DomainAwareModule` around the same network, so a second fit continues training, and nets built with one network share weights. After a fit `sklearn.clone(net)` raises until a prediction was made, because the hook's dictionary holds a tensor of the last training batch. Hooks are never removed from the user's network.
* Nets (C146): `predict_features` of a net that was never fitted initialises it and returns features of the untrained network, after which predictions no longer raise `NotInitializedError`; `warm_start` only decides whether the optimiser is renewed.
* Random states (C147): the dataset generators and `load_mnist_usps` document "int, RandomState instance or None" but call `np.random.RandomState(random_state)`, a `TypeError` for an instance; with `None` their noise is out of reach of `np.random.seed`; `LeaveOneDomainOut` with an integer reuses the seed for every target domain; KLIEP's cross-validation shuffles an index it never uses.
* Coordinates (C148): `cdd_loss` calls `F.cosine_similarity` on the axis of the centres (skada/deep/losses.py:256-258), so the loss of CAN depends on the coordinates of the features although cosines do not; `MMDLSConSMappingAdapter` scales features one by one, so rotating the samples gives another adapter.
* Units (C149): `gamma='auto'` of KLIEP depends on the unit (unlike `'scale'`), and `dan_loss` adds `eps=1e-7` to a distance (skada/deep/losses.py:178-181), so its default bandwidths do not follow the unit exactly.
* `source_target_merge` with a missing half finds the type of a feature matrix as if it were labels: integer-valued matrices with several columns are refused (C53).
* A final selector reused as inner step stays final (C17/C20).

Labels, domains and data sets
* Merging int sources with float targets truncates (C04); `allow_multi_target` tests the number of sources (C08); merged outputs and masks in C10, C11, C54.
* Automatic names collide with explicit ones (C21); `pack` without mask value leaves int8/string labels unmasked (C23); domain 0 is lost by LODO (C24).
* Small groups break the stratified split (C57).
* Generators: multiclass subspace labels are wrong for odd sizes (C52); the subspace shift gives half the documented number of points (C83);
  position 1.0 of the moons is an `IndexError` (C52_moons); `sigma_ch` of the frequency generator is unused and its channel weights scale time points (not modelled).

Optimisation
* Frank–Wolfe `qp_solve` treats a one-row `A` as an equality, ignores `A` when `Aeq` is given, ignores bounds (C30).

Reweighting, mapping, subspaces
* Density fallback weights average `1/n`; Gaussian weights unnormalised; discriminator weights inverted; nearest-neighbour weights use `~` on
  integer positions (C31–C33); KLIEP overwrites `gamma`; KMM's bound is ignored by the default solver (C62); MMDTarS target rows get `1e-13` (C63).
* MultiLinearMonge truncates integer data, unseen domains are a `KeyError` (C65); MMD-LS maps unseen classes to 0 (C66).
* TCA/TJM training path returns rows in another order (C35); TCA applies `eigh` to a non-symmetric matrix (C68); TJM stops after one iteration (C69);
  TSL losses inverted (C70); default SubspaceAlignment may not fit (C71).

Optimal transport and self-labelling
* JCPOT returns class positions and mixes targets (C36); JDOT `n_iter_max=0` is an `UnboundLocalError`; binary hinge cost constant (C38).
* DASVM's `k` has no effect beyond 1 (C39), error once all rows are added, probabilities come from the source-only model (C74).
* Gradual adaptation: ties in the coupling are an `IndexError` (C40), `max_iter` drift (C75).

Deep
* In-place merge leaves stale sample indices (C44); memory bank discards its momentum term and collides (C45); `net.score` fails with any source row (C76);
  weighted loss treats domain 0 differently on the two sides (C77); NaN labels count as labels (C78).

* Deep CORAL: `assume_centered` has no effect (C86). DAN: the "Gaussian" kernel uses the unsquared distance (C87). CDD: masks select columns only
  and counts are squared, so identical domains have a positive loss; the distance filter runs along the wrong axis (C88).
* MCC is constant on one-row batches (C89). NAP ignores the features when the batch covers the memory (C90). GDA: the default Laplacian lacks the
  identity, cosine with the symmetric Laplacian can fail (C91).
* The default domain classifier of DANN, CDAN and SPA is a softmax over one class, constantly 1: their adversarial loss is the constant 100 (C94, C96).
* MDD: the target term indexes all row/label pairs instead of each row's own label; scores go through softmax twice (C95). SPA's epoch counter is
  not reset by a new `fit` (C96). An integer seed reseeds torch's global generator; CDAN does so on every batch (C97).
* With fewer rows on its side than `batch_size`, `SourceOnly`/`TargetOnly` makes no step and `fit` succeeds. `TargetOnly` with weights has a NaN loss or
  fails, because weights are used for positive domains only (C98).
* A base module without a parameter `sample_weight` can be trained but not used for prediction; CDAN refuses weights with a `TypeError`; a wrong layer
  name is a `KeyError` in the first batch only (C100).
* CAN assumes source labels 0..C-1. With labels 1..C the last class has no centroid and the others are shifted; labels outside the range raise a
  `RuntimeError` from `torch.stack` (C101).
* SPA's memory never receives new values (the `+momentum * …` lines are discarded): every pseudo-label is class 0 in every training (C102).
* `predict_proba` with a criterion other than cross-entropy returns raw outputs (C103).
* `CAN` and `SPA` append to the user's list of callbacks: several nets made from one list count epochs several times, CAN then SPA breaks CAN (C104).
* With fewer rows than the batch size on the ruling side, `fit` makes no step and returns the untrained network silently (C105).
* Arguments beside a `DeepDADataset`, a torch `Dataset` (`y`, `sample_domain`) or an empty dict are dropped without a check; `predict(X)` without
  `sample_domain` takes every row for a source and fails (C106).
* The `reduction` a base criterion was built with is overwritten by `criterion__reduction`; `MDD` without `n_classes` fails with a `TypeError` of
  `nn.Linear` instead of a message; with the default domain classifier the domain loss of DANN is constant (C107).
* K-means with an all-zero row: all restarts are NaN, the first one wins (C93).
* SphericalKMeans: one zero row turns the model into NaN and puts all rows into cluster 0; on exhaustion `inertia_` uses stale labels;
  `random_state` is unused (C93).

Subsamplers and scorers
* Documented float sizes 0 and 1 are rejected, NaN labels rejected (C46). `SupervisedScorer` drops `sample_domain` by default (C47).
* Prediction entropy 'mean' averages over classes too and the fallback logarithm gives negative entropies (C49).
* CircularValidation keeps domain 0 as source and treats whole-number regression targets as classes (C50).
* SND: NaN under underflow (C79). DEV: default loss broadcasts to an n×n matrix (C80). MaNo: NaN for equal logits, reversed ranking (C51, C82).

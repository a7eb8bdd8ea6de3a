{"id": "C01", "title": "Splitting then merging by domain gives the data back", "statement": "For every array A and every sample_domain of the same length, source_target_merge(*source_target_split(A, sample_domain=sd), sample_domain=sd) returns exactly A: same length, same row at every position, whatever the interleaving of source and target rows, as long as at least one row exists and both halves carry the same dtype.", "quantifier": "all row types, all arrays, all sample_domain vectors (any interleaving, any labels, one side possibly empty)", "why_tests_cant": "A unit test fixes a few interleavings; the claim is about every arrangement of rows and of domain labels.", "anchors": ["skada/utils.py: source_target_split", "skada/utils.py: source_target_merge", "skada/utils.py: _merge_arrays"]}
{"id": "C02", "title": "Merging then splitting returns both halves", "statement": "If source_target_merge(S, T, sample_domain=sd) succeeds on two complete halves then source_target_split of the result with the same sd returns S and T unchanged and in order.", "quantifier": "all halves S and T and all sd with matching numbers of source and target rows", "why_tests_cant": "Round trip over every interleaving, not only the tested one.", "anchors": ["skada/utils.py: source_target_merge", "skada/utils.py: source_target_split"]}
{"id": "C03", "title": "Merge refuses every count mismatch", "statement": "With a given non-empty sample_domain and two non-empty feature arrays of equal row width, source_target_merge either raises ValueError or returns an array whose length is len(sample_domain) and in which each input row is used exactly once; it succeeds exactly when the numbers of source and target labels in sample_domain equal the two array lengths. No row is silently dropped, duplicated or zero-filled.", "quantifier": "all pairs of arrays and all sample_domain vectors", "why_tests_cant": "The accept/reject boundary is a predicate on all inputs; tests touch a few points of it.", "anchors": ["skada/utils.py: source_target_merge", "skada/utils.py: _merge_arrays"]}
{"id": "C04", "title": "Merged values equal the input values", "statement": "Every value in the merged array equals the value of the row it came from, for both halves and for every combination of source and target dtypes.", "quantifier": "all numeric source and target arrays of integer or floating dtype", "why_tests_cant": "Tests use equal dtypes on both sides; the claim quantifies over dtype combinations and values.", "anchors": ["skada/utils.py: _merge_arrays", "skada/utils.py: source_target_merge"]}
{"id": "C05", "title": "Source/target split is an order-preserving aligned partition", "statement": "source_target_split sends row i of every given array to the source half iff sample_domain[i] >= 0 and to the target half otherwise; each half keeps the original relative order; the halves of different arrays stay row-aligned; the two lengths add up to the original length; None arrays stay None on both sides.", "quantifier": "all lists of arrays and all sample_domain vectors", "why_tests_cant": "Partition and alignment must hold for every label vector.", "anchors": ["skada/utils.py: source_target_split", "skada/utils.py: extract_source_indices"]}
{"id": "C06", "title": "Per-domain split loses nothing and mixes nothing", "statement": "per_domain_split returns one entry per distinct domain label; the entry of label d holds precisely the rows whose label is d, in order and aligned across arrays; scattering the entries back gives the original arrays.", "quantifier": "all arrays and all sample_domain vectors with any number of domains", "why_tests_cant": "Number of domains and interleaving are unbounded.", "anchors": ["skada/utils.py: per_domain_split", "skada/utils.py: extract_domains_indices"]}
{"id": "C07", "title": "Automatic sample_domain marks exactly the masked rows as target", "statement": "When check_X_y_domain derives sample_domain from y, a row gets the default target label -2 iff its label is masked (-1 for classification, NaN for regression) and the default source label 1 otherwise; if y contains no masked label, or a classification y contains a label below -1, a ValueError is raised instead of guessing.", "quantifier": "all label vectors, discrete or continuous", "why_tests_cant": "Must hold for every label vector including all-masked and mixed ones.", "anchors": ["skada/utils.py: check_X_y_domain", "skada/_utils.py: _check_y_masking", "skada/_utils.py: _find_y_type"]}
{"id": "C08", "title": "Domain validation accepts exactly the permitted layouts", "statement": "check_X_y_domain and check_X_domain raise ValueError iff sample_domain violates one of the flags: a source row while allow_source=False, a target row while allow_target=False, more than one source domain while allow_multi_source=False, more than one target domain while allow_multi_target=False, a label used with both signs while allow_common_domain_idx=False; otherwise they return sample_domain unchanged.", "quantifier": "all sample_domain vectors and all flag combinations", "why_tests_cant": "Flags times label sets is an infinite table; a test samples a handful of cells.", "anchors": ["skada/utils.py: check_X_y_domain", "skada/utils.py: check_X_domain"]}
{"id": "C09", "title": "check_X_domain default and broadcast labels", "statement": "With sample_domain=None check_X_domain labels every row with the default target-only label -1 (or raises if auto is disabled); a scalar label is broadcast to all rows; a vector of another length is rejected; with allow_domains only rows whose label is listed, or whose side is covered by a +inf or -inf wildcard, are accepted, otherwise ValueError.", "quantifier": "all X lengths, labels and allow_domains sets", "why_tests_cant": "Infinite input space incl. wildcard combinations.", "anchors": ["skada/utils.py: check_X_domain"]}
{"id": "C10", "title": "Per-domain outputs are scattered back to their own rows", "statement": "Merging per-domain outputs yields an array of the requested length in which position idx[k] of a domain holds the k-th output of this domain, for every domain, and zero where no domain wrote; parameters produced by only some domains are zero elsewhere; with an index partition the result does not depend on the order in which domains were processed.", "quantifier": "all families of disjoint index sets with outputs of the same length, any number of domains", "why_tests_cant": "Scatter correctness for all partitions of all sizes.", "anchors": ["skada/_utils.py: _merge_domain_outputs"]}
{"id": "C11", "title": "Removing masked samples keeps exactly the labelled rows, aligned", "statement": "After masked-sample removal, X, y and every per-sample parameter contain precisely the rows with an unmasked label in their original order; scalar or differently sized parameters are untouched; a second removal changes nothing.", "quantifier": "all X, y and parameter dictionaries", "why_tests_cant": "Alignment over every mask pattern.", "anchors": ["skada/_utils.py: _remove_masked", "skada/_utils.py: _apply_domain_masks"]}
{"id": "C12", "title": "No target label reaches a fitted estimator", "statement": "Fitting a DA pipeline made of shared selectors (default mask_target_labels=True) with sample_domain given is non-interfering: two label vectors of the same kind that agree on source rows lead to the very same sequence of data handed to every step's estimator and the same fitted steps, whatever the estimators do.", "quantifier": "all pipelines of any length, all estimators (arbitrary functions), all X, sample_domain, and all pairs of label vectors agreeing on source rows", "why_tests_cant": "Non-interference is a statement about pairs of executions over all estimators and label vectors.", "anchors": ["skada/base.py: BaseSelector._auto_mask_target_labels", "skada/base.py: Shared._fit", "skada/base.py: MetadataContainer", "skada/_pipeline.py: make_da_pipeline"]}
{"id": "C13", "title": "Per-domain prediction routing", "statement": "A fitted PerDomain selector answers each row with the output of the estimator fitted for that row's domain label, at the row's original position, independent of which other domains are in the batch; a row of a domain never seen in fit makes the call raise ValueError rather than using another domain's model. (Base estimators return one row per sample, with a common dtype and row shape.)", "quantifier": "all batches, label vectors, sets of fitted domains and base estimators returning one row per sample of a common dtype and shape", "why_tests_cant": "Routing over every interleaving and domain set.", "anchors": ["skada/base.py: PerDomain._route_to_estimator", "skada/_utils.py: _merge_domain_outputs"]}
{"id": "C14", "title": "Per-domain training sees exactly its own domain", "statement": "PerDomain.fit hands to the estimator of domain d exactly the (unmasked) rows of domain d with their labels.", "quantifier": "all data sets, label masks and domain layouts", "why_tests_cant": "Needs all mask/domain combinations; the combination 'some labels masked' is easy to miss.", "anchors": ["skada/base.py: PerDomain._fit", "skada/base.py: BaseSelector._remove_masked"]}
{"id": "C15", "title": "SelectSource, SelectTarget and SelectSourceTarget see only their side", "statement": "SelectSource fits its estimator only on rows with sample_domain >= 0, SelectTarget only on rows < 0; SelectSourceTarget fits the source estimator only on source rows and the target one only on target rows, raises ValueError when a side is missing at fit, and answers each row at its position with the estimator of its own side.", "quantifier": "all inputs and layouts", "why_tests_cant": "All interleavings; observable through arbitrary estimators.", "anchors": ["skada/base.py: _BaseSelectDomain", "skada/base.py: SelectSource", "skada/base.py: SelectTarget", "skada/base.py: SelectSourceTarget"]}
{"id": "C16", "title": "Fitting does not modify the caller's labels", "statement": "After fit of a selector or pipeline the label array passed by the caller has the same content as before.", "quantifier": "all label arrays and sample_domain vectors", "why_tests_cant": "A test would have to compare before/after for each input class; the claim is for all inputs.", "anchors": ["skada/base.py: BaseSelector._auto_mask_target_labels"]}
{"id": "C17", "title": "Clone keeps the target-label masking choice", "statement": "sklearn.clone of a selector yields a selector with the same mask_target_labels setting and the same base estimator parameters.", "quantifier": "all selectors, base estimators and settings", "why_tests_cant": "Quantifies over all constructor arguments.", "anchors": ["skada/base.py: BaseSelector.get_params", "skada/base.py: BaseSelector.__init__", "skada/base.py: SelectSourceTarget"]}
{"id": "C18", "title": "The metadata container carries the latest outputs", "statement": "After any sequence of step outputs (array, pair, triple) merged into the container: X is the X of the last output, the labels are those of the last triple (the caller's y before any triple), and every metadata key holds the value of the last output that wrote it, with caller parameters used only for keys never written.", "quantifier": "all histories of step outputs of any length", "why_tests_cant": "History-quantified (induction over the sequence).", "anchors": ["skada/base.py: MetadataContainer.merge_in", "skada/base.py: MetadataContainer.merge_out"]}
{"id": "C19", "title": "Pipeline construction keeps the steps and names them uniquely", "statement": "make_da_pipeline produces one selector step per given (flattened) step in the given order; automatically generated names are pairwise distinct; user names are kept; exactly the last step is final; an empty argument list raises TypeError.", "quantifier": "all lists of steps (named or not, repeated types, nested pipelines)", "why_tests_cant": "Uniqueness for arbitrarily many repeated types.", "anchors": ["skada/_pipeline.py: make_da_pipeline", "skada/_pipeline.py: _name_estimators", "skada/_pipeline.py: _wrap_with_selectors"]}
{"id": "C20", "title": "Selector wrapping is idempotent and rejects unknown selectors", "statement": "A step that already is a selector (or None) is left as is; a known selector name or a callable returning a selector wraps the step once; every other default_selector raises ValueError.", "quantifier": "all steps and all default_selector values", "why_tests_cant": "Decision table over all inputs.", "anchors": ["skada/_pipeline.py: _wrap_with_selector"]}
{"id": "C21", "title": "Dataset registry: names and ids are a bijection over any history", "statement": "After any sequence of add_domain and merge calls that return normally, every added domain is reachable by exactly one name, distinct names have distinct ids, ids are 1..n in insertion order, and get_domain(name) returns the arrays that were added under that name.", "quantifier": "all histories of add_domain/merge with or without explicit names", "why_tests_cant": "Invariant over unbounded operation histories.", "anchors": ["skada/datasets/_base.py: DomainAwareDataset.add_domain", "skada/datasets/_base.py: DomainAwareDataset.merge", "skada/datasets/_base.py: DomainAwareDataset.get_domain"]}
{"id": "C22", "title": "pack concatenates the requested domains with signed ids", "statement": "pack(as_sources, as_targets) returns the rows of the requested domains in request order, sources first, each source row labelled +id and each target row labelled -id of its domain, X, y and sample_domain aligned and of equal length; an unknown name raises KeyError; splitting the result by sign gives back the concatenated sources and targets.", "quantifier": "all datasets, request lists (with repetitions), label kinds", "why_tests_cant": "All registries and request lists.", "anchors": ["skada/datasets/_base.py: DomainAwareDataset.pack"]}
{"id": "C23", "title": "Packed training data never exposes a target label", "statement": "With mask_target_labels=True (or train=True) every target label in the packed y is the mask value (-1 or NaN) and source labels are unchanged; with False all labels are those stored.", "quantifier": "all datasets, label dtypes and request lists", "why_tests_cant": "All dtypes and values; a test uses int64/float64 only.", "anchors": ["skada/datasets/_base.py: DomainAwareDataset.pack"]}
{"id": "C24", "title": "pack_lodo plus LeaveOneDomainOut gives leakage-free folds", "statement": "On the output of pack_lodo, each LeaveOneDomainOut fold uses exactly one domain as target: its rows occur only as target rows, every other domain's rows only as source rows, train and test rows are disjoint, and over an unrestricted run each domain is held out exactly once.", "quantifier": "all datasets with any number of domains, all random permutations, all max_n_splits", "why_tests_cant": "Quantifies over all datasets and all random choices.", "anchors": ["skada/model_selection.py: LeaveOneDomainOut", "skada/datasets/_base.py: DomainAwareDataset.pack_lodo"]}
{"id": "C25", "title": "Source/target shuffle split is a valid two-sided split", "statement": "Each fold of SourceTargetShuffleSplit has train and test index lists that are duplicate-free, disjoint, in range, with n_test source + n_test' target rows in test and the prescribed numbers in train: both sides are always represented as computed from test_size/train_size, for every random permutation.", "quantifier": "all sample_domain vectors, sizes and permutations", "why_tests_cant": "All random choices.", "anchors": ["skada/model_selection.py: SourceTargetShuffleSplit._iter_indices"]}
{"id": "C26", "title": "Stratified domain split is proportional per (label, domain) group", "statement": "StratifiedDomainShuffleSplit either raises ValueError or produces disjoint, duplicate-free train and test lists of the prescribed sizes in which the number of train rows of every (label, domain) group differs by less than one from its proportional share (and likewise for test among the remaining rows); a group of size 1, or more groups than train or test rows, is always rejected.", "quantifier": "all y, sample_domain, sizes, allocations and permutations", "why_tests_cant": "All group structures and random choices.", "anchors": ["skada/model_selection.py: StratifiedDomainShuffleSplit._iter_indices"]}
{"id": "C27", "title": "Domain shuffle split with under-sampling draws per domain without repetition", "statement": "DomainShuffleSplit rejects under_sampling outside [0,1]; otherwise each fold uses at most int(len*under_sampling) rows per domain, no row twice, train and test disjoint.", "quantifier": "all sample_domain vectors, under_sampling values and random choices", "why_tests_cant": "All random choices and domain layouts.", "anchors": ["skada/model_selection.py: DomainShuffleSplit"]}
{"id": "C28", "title": "Frank-Wolfe iterates stay feasible", "statement": "For positive constraint coefficients c, 0 <= clb <= cub, any gradient oracle and any positive number of iterations, the vector returned by frank_wolfe is non-negative and satisfies clb <= <c, x> <= cub.", "quantifier": "all dimensions, gradients (arbitrary functions), coefficients, bounds, iteration counts >= 1", "why_tests_cant": "Invariant over unbounded iteration counts and arbitrary gradients.", "anchors": ["skada/utils.py: frank_wolfe"]}
{"id": "C29", "title": "Frank-Wolfe moves to a minimising vertex", "statement": "At each iteration the direction point chosen by frank_wolfe minimises the linearised objective <grad, v> over all v >= 0 with clb <= <c, v> <= cub.", "quantifier": "all gradients, positive c and 0 <= clb <= cub, all competing feasible points", "why_tests_cant": "Optimality against all feasible points.", "anchors": ["skada/utils.py: frank_wolfe"]}
{"id": "C30", "title": "qp_solve with the frank-wolfe solver honours Ax <= b", "statement": "qp_solve(solver='frank-wolfe') returns a point satisfying the stated inequality constraints and minimising among them; unsupported constraint shapes raise ValueError.", "quantifier": "all supported A, b, Aeq, beq", "why_tests_cant": "All constraint systems.", "anchors": ["skada/utils.py: qp_solve", "skada/utils.py: _qp_solve_frank_wolfe"]}
{"id": "C31", "title": "Density-ratio reweighting gives proper source weights", "statement": "The weights of the density-ratio adapters are non-negative, zero on target rows, aligned with the rows of X, average exactly 1 over the source rows, and are a monotone function of the target/source density ratio.", "quantifier": "all data, density values, layouts", "why_tests_cant": "All layouts and density values.", "anchors": ["skada/_reweight.py: DensityReweightAdapter", "skada/_reweight.py: DiscriminatorReweightAdapter", "skada/_reweight.py: GaussianReweightAdapter"]}
{"id": "C32", "title": "Nearest-neighbour reweighting counts target neighbours", "statement": "NearestNeighborReweight gives each source row the number of target rows for which it is the nearest source row (plus the Laplace constant), so weights sum to the number of target rows (plus constant times number of source rows).", "quantifier": "all source/target layouts", "why_tests_cant": "Any interleaving of source and target.", "anchors": ["skada/_reweight.py: NearestNeighborReweightAdapter"]}
{"id": "C33", "title": "KLIEP iterates stay in the constraint set", "statement": "Each KLIEP iteration keeps the mixture coefficients non-negative and normalised (b.alpha = 1), so estimated importance weights are non-negative and average 1 over source rows.", "quantifier": "all kernel matrices, step sizes and iteration counts", "why_tests_cant": "Invariant over unbounded iterations.", "anchors": ["skada/_reweight.py: KLIEPReweightAdapter"]}
{"id": "C34", "title": "OT mapping adapters move only source rows", "statement": "fit_transform of an OT mapping adapter leaves every target row unchanged at its position and replaces the i-th source row by the i-th mapped row, for any interleaving.", "quantifier": "all layouts and mappings", "why_tests_cant": "All interleavings and maps.", "anchors": ["skada/_mapping.py: BaseOTMappingAdapter"]}
{"id": "C35", "title": "Row order is preserved by subspace adapters", "statement": "Row i of fit_transform(X) of TransferComponentAnalysis / TransferJointMatching is the embedding of row i of X.", "quantifier": "all X and sample_domain layouts", "why_tests_cant": "Interleaved layouts are not in the tests.", "anchors": ["skada/_subspace.py: TransferComponentAnalysisAdapter.transform", "skada/_subspace.py: TransferJointMatchingAdapter.transform"]}
{"id": "C36", "title": "Label propagation assigns labels to the right target rows", "statement": "OT label propagation masks every source label and gives target row i a class label that is the arg-max of its transported class mass; JCPOT does the same for several target domains.", "quantifier": "all plans, class sets and domain layouts", "why_tests_cant": "All layouts incl. several interleaved target domains.", "anchors": ["skada/_ot.py: OTLabelPropAdapter", "skada/_ot.py: JCPOTLabelPropAdapter"]}
{"id": "C37", "title": "JDOT outer loop stops correctly and reports every iteration", "statement": "The JDOT solvers run at most n_iter_max iterations, stop at the first iteration i>0 whose loss change is below tol, return the model of the last executed iteration, and the loss history has one entry per executed iteration.", "quantifier": "all loss sequences, tolerances and n_iter_max", "why_tests_cant": "All loss histories.", "anchors": ["skada/_ot.py: solve_jdot_regression", "skada/_ot.py: solve_jdot_classification"]}
{"id": "C38", "title": "Binary hinge class cost separates the classes", "statement": "The JDOT class cost for a correct confident prediction is smaller than the cost for the wrong class, for every number of classes including two.", "quantifier": "all decision values and label encodings", "why_tests_cant": "All decision values.", "anchors": ["skada/_ot.py: get_jdot_class_cost_matrix", "skada/_ot.py: get_tgt_loss_jdot_class"]}
{"id": "C39", "title": "DASVM selection picks only admissible points and honours k", "statement": "Each round of DASVM selects at most k points per class among the admissible ones and marks exactly those; increasing k selects more points.", "quantifier": "all decision values, masks and k", "why_tests_cant": "All decision matrices and k.", "anchors": ["skada/_self_labeling.py: DASVMClassifier._find_points_next_step"]}
{"id": "C40", "title": "Gradual adaptation generates well-formed interpolations", "statement": "The number of generated samples at each step equals the number of retained transport entries, every generated sample is the convex combination of its source and target row with weights (n_steps-step)/n_steps and step/n_steps, so the last step yields exact target rows; the advanced strategy covers each source and each target row.", "quantifier": "all couplings (ties included), alpha, n_steps", "why_tests_cant": "All couplings incl. ties.", "anchors": ["skada/_gradual_da.py: GradualEstimator"]}
{"id": "C41", "title": "Balanced sampler is balanced, in range and fair", "statement": "DomainBalancedSampler yields exactly len() indices, alternating source and target, so each batch of 2*batch_size has batch_size of each; every index of a side is drawn floor or ceil of (draws / side size) times, for all shuffles.", "quantifier": "all datasets, batch sizes, modes and random permutations", "why_tests_cant": "All random permutations and sizes.", "anchors": ["skada/deep/base.py: DomainBalancedSampler"]}
{"id": "C42", "title": "Domain-only sampler", "statement": "DomainOnlySampler yields len() pairwise distinct indices, all on the requested side, len() being the largest multiple of batch_size not above the side's size; other domain_used values raise ValueError.", "quantifier": "all datasets, batch sizes and permutations", "why_tests_cant": "All random permutations and sizes.", "anchors": ["skada/deep/base.py: DomainOnlySampler"]}
{"id": "C43", "title": "Deep training loss ignores target labels", "statement": "The value of DomainAwareCriterion (train_on_target=False) does not depend on the labels of target rows, whatever base and adaptation losses are used.", "quantifier": "all batches, losses and pairs of label vectors agreeing on source rows", "why_tests_cant": "Two-execution property over all losses.", "anchors": ["skada/deep/base.py: DomainAwareCriterion.forward"]}
{"id": "C44", "title": "Deep dataset stays aligned over any history", "statement": "After any sequence of construction, merge, add_domain, select and weight updates, X, y, sample_domain, weights and per-domain sample indices of a DeepDADataset have equal length and stay row-aligned, and the sample index of a row is its rank within its domain.", "quantifier": "all operation histories", "why_tests_cant": "Invariant over unbounded histories.", "anchors": ["skada/deep/base.py: DeepDADataset"]}
{"id": "C45", "title": "The memory bank tracks target features", "statement": "After a batch the memory of each visited target sample is (1-momentum)*old + momentum*new, other entries are unchanged.", "quantifier": "all batches, momenta and histories", "why_tests_cant": "All histories.", "anchors": ["skada/deep/callbacks.py: MemoryBank.on_batch_end"]}
{"id": "C46", "title": "Subsampling keeps data, labels, domains and weights aligned", "statement": "The subsampling transformers return distinct rows of the input with their own label, domain and weight, exactly train_size of them (all, if train_size exceeds the data), and never alter data at transform time.", "quantifier": "all inputs, sizes and random draws", "why_tests_cant": "All random draws.", "anchors": ["skada/transformers.py: Subsampler", "skada/transformers.py: DomainSubsampler", "skada/transformers.py: StratifiedDomainSubsampler"]}
{"id": "C47", "title": "Supervised scorer scores exactly the target rows", "statement": "SupervisedScorer passes to the wrapped scorer exactly the target rows of X with the corresponding entries of target_labels and multiplies by +1 or -1 according to greater_is_better.", "quantifier": "all inputs and scorers", "why_tests_cant": "All layouts and scorers.", "anchors": ["skada/metrics.py: SupervisedScorer"]}
{"id": "C48", "title": "Importance-weighted scorer uses normalised weights", "statement": "The importance weights used for scoring are non-negative, sum to 1 over the source rows and are proportional to the target/source density ratio, falling back to uniform weights iff their sum is 0.", "quantifier": "all log-densities and layouts", "why_tests_cant": "All density values.", "anchors": ["skada/metrics.py: ImportanceWeightedScorer"]}
{"id": "C49", "title": "Prediction-entropy score range", "statement": "For valid class probabilities the prediction entropy is between 0 and log(n_classes) per row, zero-probability entries contribute 0, and 'sum' = n * 'mean'.", "quantifier": "all probability matrices", "why_tests_cant": "All probability matrices.", "anchors": ["skada/metrics.py: PredictionEntropyScorer"]}
{"id": "C50", "title": "Circular validation swaps the roles of source and target", "statement": "The backward estimator is trained with the original target rows as source (with predicted labels) and the original source rows as target (masked), and the score compares the true source labels with the backward predictions on exactly those rows.", "quantifier": "all layouts and labels", "why_tests_cant": "All layouts, incl. label 0 domains.", "anchors": ["skada/metrics.py: CircularValidation"]}
{"id": "C51", "title": "MaNo score range", "statement": "The MaNo score of any logit matrix lies between 0 and 1 for every p >= 1; p <= 0 raises ValueError.", "quantifier": "all logit matrices and p", "why_tests_cant": "All logits.", "anchors": ["skada/metrics.py: MaNoScorer"]}
{"id": "C52", "title": "Generated data sets have one correct label per sample", "statement": "The synthetic generators return as many labels as samples, and each sample carries the label of the cluster it was drawn from.", "quantifier": "all sample counts", "why_tests_cant": "All sample counts incl. odd ones.", "anchors": ["skada/datasets/_samples_generator.py: _generate_data_2d_classif", "skada/datasets/_samples_generator.py: _generate_data_2d_classif_subspace"]}
{"id": "C53", "title": "A missing half is filled with the mask label", "statement": "Merging labels when one half is None or empty returns the given labels at their positions and the mask value (-1 for classification, NaN for regression) at every position of the missing half. A missing half of a feature matrix is filled with NaN rows, unless the given half contains NaN or consists of integers only in several columns, which raises ValueError.", "quantifier": "all label vectors and sample_domain vectors with matching counts", "why_tests_cant": "Holds for every interleaving and label vector.", "anchors": ["skada/utils.py: source_target_merge", "skada/_utils.py: _find_y_type"]}
{"id": "C54", "title": "check_X_y_domain returns one domain label per sample", "statement": "Whenever check_X_y_domain succeeds, X, y and the returned sample_domain have the same length.", "quantifier": "all X, y, sample_domain (absent, scalar or vector)", "why_tests_cant": "All length combinations.", "anchors": ["skada/utils.py: check_X_y_domain"]}
{"id": "C55", "title": "Merging without sample_domain concatenates source then target", "statement": "source_target_merge without sample_domain returns the source rows followed by the target rows together with labels 1 for the source rows and -2 for the target rows.", "quantifier": "all pairs of non-empty arrays of equal row shape", "why_tests_cant": "All sizes and values.", "anchors": ["skada/utils.py: source_target_merge"]}
{"id": "C56", "title": "select_domain selects exactly the source rows of the named domains", "statement": "For every dictionary of domain names produced by a data set, every sample_domain array and every non-empty list of known names, `select_domain` returns the Boolean mask that is true exactly at rows whose label equals the positive id of one of the names; in particular rows packed as target (negated id) are never selected.", "quantifier": "all registries with unique names, all sample_domain arrays, all non-empty name lists", "why_tests_cant": "the fold over names is quantified over lists of any length and arbitrary label arrays; tests use two names", "anchors": ["skada/datasets/_base.py: select_domain"]}
{"id": "C57", "title": "Stratified domain split represents every (label, domain) group in train and in test", "statement": "Whenever StratifiedDomainShuffleSplit accepts its arguments, every (label, domain) group has at least one row in train and at least one row in test.", "quantifier": "all label and domain arrays, all sizes, all random draws", "why_tests_cant": "depends on the rounding of proportional shares for arbitrary group sizes; a test fixes a few group sizes", "anchors": ["skada/model_selection.py: StratifiedDomainShuffleSplit._iter_indices"]}
{"id": "C58", "title": "Scoring a fitted multi-estimator selector returns a number", "statement": "Calling score on a fitted PerDomain or SelectSourceTarget selector whose base estimators have a score method returns a number.", "quantifier": "all fitted selectors of these two kinds, all batches", "why_tests_cant": "Quantifies over all estimators and batches; a test shows one failing call only.", "anchors": ["skada/base.py: PerDomain._route_to_estimator", "skada/base.py: SelectSourceTarget._route_to_estimator", "skada/_utils.py: _merge_domain_outputs"]}
{"id": "C59", "title": "A DA pipeline that can be built can be fitted as far as its step names are concerned", "statement": "The step names of every pipeline returned by make_da_pipeline are accepted by scikit-learn when the pipeline is fitted: distinct, not reserved, without double underscore.", "quantifier": "all lists of steps, named or not, nested or not", "why_tests_cant": "The repository test only builds a pipeline with a named nested pipeline, it never fits it; the claim is about all step lists.", "anchors": ["skada/_pipeline.py: make_da_pipeline", "skada/_pipeline.py: _name_estimators"]}
{"id": "C60", "title": "Parameters set through a selector reach the base estimator", "statement": "selector.set_params(p=v) for a parameter p of the base estimator changes exactly that parameter of the base estimator and get_params reports it; unknown names raise ValueError.", "quantifier": "all selectors, base estimators, parameter names and values", "why_tests_cant": "Quantifies over parameter names; only particular names collide.", "anchors": ["skada/base.py: BaseSelector.get_params", "skada/base.py: BaseSelector.set_params"]}
{"id": "C61", "title": "Frank-Wolfe converges at rate 1/T", "statement": "For a convex objective with curvature at most C on the feasible set, the point returned by frank_wolfe after T >= 1 iterations has an objective value at most 2C/(T+1) above that of every feasible point.", "quantifier": "every dimension, constraint, convex objective, starting point and number of iterations", "why_tests_cant": "A test runs a few problems for a fixed number of iterations; the rate is a statement about all of them.", "anchors": ["skada/utils.py: frank_wolfe"]}
{"id": "C62", "title": "Kernel mean matching weights respect their constraints", "statement": "KMMReweight weights are zero on target rows, between 0 and B on source rows, and sum to n(1-eps)..n(1+eps) over the n source rows.", "quantifier": "every kernel, data set, interleaving of domains, eps in [0,1], iteration count", "why_tests_cant": "Needs the solver's invariant for all kernels and data.", "anchors": ["skada/_reweight.py: KMMReweightAdapter"]}
{"id": "C63", "title": "Target-shift weights depend only on the class", "statement": "For classification, MMDTarSReweight gives all source rows of one class the same weight (that class's coefficient), target rows the constant 1e-13, and rows of classes unseen in training the constant 1e-13.", "quantifier": "every data set, label set, interleaving and solver output", "why_tests_cant": "The indicator-matrix product has to be followed for every label arrangement.", "anchors": ["skada/_reweight.py: MMDTarSReweightAdapter"]}
{"id": "C64", "title": "CORAL aligns second-order statistics row by row", "statement": "CORAL centres target rows at their positions (or leaves them when assume_centered) and maps each centred source row at its own position by the same linear map; after the map the covariance of the source rows equals that of the target rows and both are centred. Fitting without one side is an error.", "quantifier": "every data set, interleaving, dimension and ordered field", "why_tests_cant": "The equality of covariance matrices has to hold for every data set and dimension, not up to a tolerance on a sample.", "anchors": ["skada/_mapping.py: CORALAlignmentAdapter, _sqrtm, _invsqrtm"]}
{"id": "C65", "title": "MultiLinearMonge moves each domain by its own affine map", "statement": "After fit, transform sends each row of a source domain to the barycenter by that domain's affine map and each row of a target domain by its own map, at the row's own position, keeping the mapped values; the statistics used are the weighted mean and covariance, which is symmetric positive semi-definite; after fit_transform every domain has the mean and covariance of the barycenter of the source domains.", "quantifier": "every set of domains, interleaving, dtype, weights", "why_tests_cant": "All interleavings, numbers of domains and dtypes have to be covered.", "anchors": ["skada/_mapping.py: MultiLinearMongeAlignmentAdapter, _get_cov_mean"]}
{"id": "C66", "title": "MMD location-scale mapping is a per-class affine map of source rows", "statement": "MMDLSConSMapping leaves target rows unchanged and sends a source row of class c to scale_c * x + offset_c at its own position, on training data and on new labelled data; new unlabelled source rows use the parameters of a nearest training source row; a class never seen in fit is sent to zero.", "quantifier": "every data set, interleaving, label set, optimiser output and distance", "why_tests_cant": "All layouts and optimiser outputs.", "anchors": ["skada/_mapping.py: MMDLSConSMappingAdapter"]}
{"id": "C67", "title": "The matrices of TCA and TJM measure what they claim", "statement": "The MMD term of the TCA/TJM objective is the squared distance between the embedded source and target means, and the constraint term is the scatter of all embedded rows, for every projection; TJM divides by the exact Frobenius norm 1/n_s + 1/n_t.", "quantifier": "all sizes, symmetric kernel matrices and projections", "why_tests_cant": "An identity over all projections and sizes.", "anchors": ["skada/_subspace.py: TransferComponentAnalysisAdapter.fit", "skada/_subspace.py: TransferJointMatchingAdapter._get_mmd_matrix"]}
{"id": "C68", "title": "TCA returns the leading components of its eigenproblem", "statement": "The stored components are solutions of the generalised eigenproblem (I + mu KLK) v l = KHK v with the largest absolute eigenvalues.", "quantifier": "all kernel matrices and numbers of components", "why_tests_cant": "The error (eigh applied to a non-symmetric matrix) is silent; it needs a proof that no orthonormal basis can be right.", "anchors": ["skada/_subspace.py: TransferComponentAnalysisAdapter.fit"]}
{"id": "C69", "title": "TJM iterates until the loss change is small", "statement": "TransferJointMatching repeats its two updates until the relative change of the loss is below tol or max_iter is reached.", "quantifier": "all problems, tolerances and iteration limits", "why_tests_cant": "The loop exit depends on the whole loss history.", "anchors": ["skada/_subspace.py: TransferJointMatchingAdapter.fit"]}
{"id": "C70", "title": "The TSL objective rewards good projections", "statement": "Minimising the base loss of TransferSubspaceLearning maximises captured variance (pca), maximises the between-class scatter relative to the total scatter (flda) and keeps neighbouring rows of a class together (lpp); invalid parameters are rejected.", "quantifier": "all data, labels, projections", "why_tests_cant": "A statement about all projections, including the global minimiser.", "anchors": ["skada/_subspace.py: TransferSubspaceLearningAdapter"]}
{"id": "C71", "title": "Default subspace alignment can be fitted on any data", "statement": "SubspaceAlignmentAdapter with default parameters fits whenever both domains have rows, with at most min(n_features, rows of each domain) components.", "quantifier": "all data sizes", "why_tests_cant": "All combinations of domain sizes and dimensions.", "anchors": ["skada/_subspace.py: SubspaceAlignmentAdapter.fit"]}
{"id": "C72", "title": "JDOT regression never makes its objective worse and stops", "statement": "With exact transport plans, a least-squares regressor (whose class contains the zero predictor), 0<=alpha<=1 and positive target weights, the reported OT losses of JDOT regression never increase and the number of iterations is bounded by first loss / tol, whatever n_iter_max is; the marginals are probability vectors proportional to the sample weights.", "quantifier": "all costs, labels, weights, alpha, tolerances and iteration counts", "why_tests_cant": "Alternating minimisation over all data; an unbounded number of iterations.", "anchors": ["skada/_ot.py: solve_jdot_regression"]}
{"id": "C73", "title": "JDOT classification trains on exactly the transported labels", "statement": "The weighted data set given to the classifier contains target row j with label c and weight w exactly when w is the transported mass of class c on row j (times n_t) and exceeds the threshold; the reported target loss equals the label part of the OT objective up to the thresholded entries.", "quantifier": "all plans, labels, thresholds and class costs", "why_tests_cant": "All plans and thresholds.", "anchors": ["skada/_ot.py: get_data_jdot_class", "skada/_ot.py: get_tgt_loss_jdot_class", "skada/_ot.py: solve_jdot_classification"]}
{"id": "C74", "title": "DASVM trains on exactly the rows it selected, and predicts with the model it finished with", "statement": "After a successful DASVM fit, every model of the sequence was trained on the source rows still kept with their true labels plus the target rows added so far with the labels given by the previous model, the sequence of recorded indices matches the trained models, the masks only grow, and both predict and predict_proba use the last model; fitting never fails for data on which the base estimator can be fitted.", "quantifier": "all data sets, base estimators, decision functions, k and max_iter", "why_tests_cant": "Depends on every run of the loop, all decision values and all numbers of rounds.", "anchors": ["skada/_self_labeling.py: DASVMClassifier.fit, predict, predict_proba, _get_decision"]}
{"id": "C75", "title": "Gradual adaptation trains a chain of models from source to target", "statement": "Every successful gradual fit with at least one step saves n_steps + 1 estimators and n_steps data sets: the first estimator is fitted on the labelled source rows only, the samples of each step are labelled by the estimator before it, the next estimator is fitted on exactly these, the last step contains target rows only, and the estimator used for prediction is the last one; fitting again gives the same training budgets.", "quantifier": "all data sets, couplings, base estimators, n_steps and both selection strategies", "why_tests_cant": "Ranges over all couplings, base estimators and step counts.", "anchors": ["skada/_gradual_da.py: GradualEstimator.fit, generate_data_at_step"]}
{"id": "C76", "title": "Deep prediction covers the target rows and score evaluates them", "statement": "A fitted network's predict gives one class per target row in order (all rows with allow_source=True) and ValueError when there is none; score is the fraction of evaluated rows whose predicted class equals the label.", "quantifier": "all networks, data, labels and domains", "why_tests_cant": "All data; the interplay of row selection and labels.", "anchors": ["skada/deep/base.py: DomainAwareNet.predict_proba, predict, score"]}
{"id": "C77", "title": "Weighted deep training loss", "statement": "With sample weights and an unreduced criterion, the training loss is the mean over the source rows of the batch of weight times loss.", "quantifier": "all batches, losses, weights and domains", "why_tests_cant": "All domain patterns; the failing ones are rare in test data.", "anchors": ["skada/deep/base.py: DomainAwareNet.get_loss"]}
{"id": "C78", "title": "Deep dataset restrictions keep items and sample indices", "statement": "select_source, select_target and select_domain return exactly the items of that side or domain in order with unchanged sample index, label and weight; per_domain_split has each occurring domain once; select_with_labels drops masked rows.", "quantifier": "all datasets reached by any history", "why_tests_cant": "All histories and domain patterns.", "anchors": ["skada/deep/base.py: DeepDADataset.select_source, select_target, select_domain, per_domain_split, select_with_labels"]}
{"id": "C79", "title": "Soft neighbourhood density is a number between 0 and log n", "statement": "The SoftNeighborhoodDensity score of n target rows is the mean entropy of the softmax, at the given temperature, of the cosine similarities of each row with all rows (that with itself negated); it is a number between 0 and log(n) (with sign), and no row counts itself as its closest neighbour.", "quantifier": "all prediction matrices and temperatures", "why_tests_cant": "All probability matrices and temperatures; tests fix one temperature.", "anchors": ["skada/metrics.py: SoftNeighborhoodDensity"]}
{"id": "C80", "title": "Deep embedded validation estimates the target risk", "statement": "The DeepEmbeddedValidation score is the control-variate estimate of the importance-weighted loss: each validation row's loss is multiplied by its own density ratio, and a constant loss c is estimated as c.", "quantifier": "all density ratios, losses and validation sizes", "why_tests_cant": "Array broadcasting changes the formula silently; tests only check that the score is finite.", "anchors": ["skada/metrics.py: DeepEmbeddedValidation"]}
{"id": "C81", "title": "Mixup validation scores convex mixtures with the dominating label", "statement": "MixValScorer scores mixtures alpha*x_i + (1-alpha)*x_pi(i) of target rows labelled with the predicted label of the dominating row, split into pairs with equal and with different predicted labels; 'both' is the mean of the available group scores and never NaN.", "quantifier": "all data, predictions, mixing factors and permutations", "why_tests_cant": "All permutations and predictions.", "anchors": ["skada/metrics.py: MixValScorer"]}
{"id": "C82", "title": "MaNo normalisation keeps the ranking of the classes", "statement": "In the probabilities MaNoScorer computes from logits, a class with a larger logit has a larger probability.", "quantifier": "all logit matrices and thresholds", "why_tests_cant": "All logits; the failing branch depends on logit gaps.", "anchors": ["skada/metrics.py: MaNoScorer._softrun", "skada/metrics.py: MaNoScorer._taylor_softmax"]}
{"id": "C83", "title": "Packed layout of the synthetic data sets", "statement": "Every synthetic generator returns the source samples first with positive domain labels and then the target samples with negative ones, one unmasked label per sample, each point with the label of the cluster it comes from; make_shifted_datasets returns 8*n_samples points per side as documented; several moon positions give domains numbered in order; blobs targets are the source points moved by the shift; invalid arguments raise.", "quantifier": "all sizes, shifts, label kinds, noise arguments, draws and positions", "why_tests_cant": "All sizes, all random draws and all combinations of options.", "anchors": ["skada/datasets/_samples_generator.py: make_shifted_datasets", "skada/datasets/_samples_generator.py: make_shifted_blobs", "skada/datasets/_samples_generator.py: make_dataset_from_moons_distribution", "skada/datasets/_samples_generator.py: make_variable_frequency_dataset"]}
{"id": "C84", "title": "Class share under target shift", "statement": "With target_shift and a ratio in [0, 1], exactly int(8*n*ratio) of the 8*n target points belong to the first class and the others to the second; a ratio outside [0, 1] by at least one point is refused.", "quantifier": "all sizes, ratios and random draws", "why_tests_cant": "All ratios and all draws.", "anchors": ["skada/datasets/_samples_generator.py: make_shifted_datasets"]}
{"id": "C85", "title": "Standardisation of generated data", "statement": "standardize=True gives every feature pooled mean 0 and pooled mean square 1 with one increasing affine map for both domains, unless the feature is constant (NaN); labels and domains do not change.", "quantifier": "all data, real arithmetic", "why_tests_cant": "All data.", "anchors": ["skada/datasets/_samples_generator.py: make_shifted_datasets"]}
{"id": "C86", "title": "Deep CORAL loss", "statement": "The Deep CORAL loss is the squared Frobenius distance of the two sample covariance matrices divided by 4*d^2; it is non-negative, symmetric, zero exactly when the covariances agree, unchanged by shifting either domain and by the order of rows; assume_centered=True uses the uncentred second moments.", "quantifier": "all batches and feature dimensions", "why_tests_cant": "All batches, all shifts and permutations.", "anchors": ["skada/deep/losses.py: deepcoral_loss"]}
{"id": "C87", "title": "DAN loss is a squared MMD", "statement": "With positive bandwidths the DAN loss is the squared maximum mean discrepancy of a positive definite kernel: non-negative, symmetric, at most twice the number of bandwidths, zero exactly when the two batches have the same empirical distribution, unchanged by row order and by a common shift; the default bandwidths are positive; the kernel is Gaussian in the distance.", "quantifier": "all batches, bandwidths and dimensions, real arithmetic", "why_tests_cant": "Non-negativity and the zero set are statements about all batches.", "anchors": ["skada/deep/losses.py: dan_loss", "skada/deep/losses.py: _maximum_mean_discrepancy", "skada/deep/losses.py: _gaussian_kernel"]}
{"id": "C88", "title": "Contrastive domain discrepancy", "statement": "The CDD loss averages class-wise discrepancies between source rows of a class and target rows of a cluster; equal classes have discrepancy 0; target rows far (in cosine distance) from every centre are left out and the others kept; the order of rows does not matter; an unfitted or foreign clustering is refused.", "quantifier": "all batches, labels, centres and thresholds", "why_tests_cant": "All batches and cluster configurations.", "anchors": ["skada/deep/losses.py: cdd_loss", "skada/deep/utils.py: SphericalKMeans.predict"]}
{"id": "C89", "title": "Minimum class confusion loss", "statement": "The MCC loss is the average confusion between a class and the other classes; it lies in [0, (C-1)/C], is positive for two or more classes, is largest exactly when all rows of the batch have the same class probabilities, is small for confident and diverse predictions, and does not depend on row order, class numbering or constants added to a row's logits.", "quantifier": "all batches of logits, temperatures and numbers of classes (real arithmetic)", "why_tests_cant": "Range, equality case and invariances are statements about all batches.", "anchors": ["skada/deep/losses.py: mcc_loss", "skada/deep/losses.py: probability_scaling"]}
{"id": "C90", "title": "Pseudo-labels from the nearest memory rows", "statement": "In the NAP loss each target row takes as neighbours the K nearest remembered rows that are not in the current batch; its pseudo-label is the class of largest mean remembered output; the loss is the weighted mean of the cross-entropies and lies between 0 and the largest of them.", "quantifier": "all memories, batches, K and tie-breaking choices of top-k", "why_tests_cant": "All memories and batch index sets.", "anchors": ["skada/deep/losses.py: nap_loss"]}
{"id": "C91", "title": "Graph alignment loss", "statement": "The GDA loss is symmetric, non-negative, zero on batches with equal pairwise distances and depends only on these distances for euc/gauss; unknown metrics or Laplacians raise ValueError, batches of different sizes fail; the Laplacians have zero row sums and are defined for every metric.", "quantifier": "all batches, metrics, Laplacians and singular value routines", "why_tests_cant": "All batches; invariance under all isometries.", "anchors": ["skada/deep/losses.py: gda_loss", "skada/deep/losses.py: _adj", "skada/deep/losses.py: _laplacian"]}
{"id": "C92", "title": "DeepJDOT loss is the cheapest pairing", "statement": "For batches of equal size and default weights the DeepJDOT loss is the average joint cost of the cheapest one-to-one pairing of source and target rows; it is non-negative and zero exactly when the batches can be paired with equal features and perfect predictions; batches of different sizes raise.", "quantifier": "all batches, labels, criteria, regularisations and exact solvers", "why_tests_cant": "A minimum over all pairings for all batches.", "anchors": ["skada/deep/losses.py: deepjdot_loss"]}
{"id": "C93", "title": "Spherical k-means descends and predicts the nearest centre", "statement": "Distances lie in [0,1]; predict gives the first nearest centre; fit ends within max_iter iterations, with an inertia not above the cost of any assignment to the initial centres, equal to the nearest-centre cost of cluster_centers_ when it converged early; without initial centres the result is the best restart; it works on every data set.", "quantifier": "all data, initial centres, shuffles, tolerances and iteration limits (real arithmetic)", "why_tests_cant": "Descent and optimality over all assignments and all runs.", "anchors": ["skada/deep/utils.py: SphericalKMeans.fit", "skada/deep/utils.py: SphericalKMeans.predict", "skada/deep/utils.py: SphericalKMeans._run_single_kmean"]}
{"id": "C94", "title": "The domain-adversarial loss measures how well domains are told apart", "statement": "For predictions in [0,1] the DANN loss is a number in [0,200], 0 exactly when every row gets its own domain, at least 2 log 2 when both domains get the same predictions (equality iff all are 1/2); CDAN uses the same loss; predictions outside [0,1] raise; the reversal layer leaves outputs alone and negates and scales gradients; the default classifier gives an adversarial signal.", "quantifier": "all non-empty batches of predictions, all layers and features", "why_tests_cant": "Exact zero and minimum cases range over all real batches.", "anchors": ["skada/deep/_adversarial.py: DANNLoss.forward", "skada/deep/_adversarial.py: CDANLoss.forward", "skada/deep/modules.py: DomainClassifier", "skada/deep/_adversarial.py: DANN"]}
{"id": "C95", "title": "The MDD loss contrasts pseudo-labels of both domains", "statement": "The loss is gamma times the source cross-entropy against the first largest class score minus the mean log(1 - smoothed probability of the row's own pseudo-label) on the target; it is never negative and stays finite; a perfect discriminator reaches source loss 0.", "quantifier": "all batches, class counts from 2, smoothing in (0,1], gamma", "why_tests_cant": "Sign and identity of the loss for all real scores.", "anchors": ["skada/deep/_adversarial.py: MDDLoss.forward", "skada/deep/_adversarial.py: ModifiedCrossEntropyLoss", "skada/deep/_adversarial.py: MDD"]}
{"id": "C96", "title": "SPA weights its three terms by the epoch of the current fit", "statement": "The adversarial weight is tanh-shaped from low, monotone, below high; the pseudo-label weight grows linearly up to 1 in every fit; the loss is the weighted sum of the three terms; max_epochs=0 is an error.", "quantifier": "all epoch numbers, numbers of fits, weights and batches", "why_tests_cant": "Concerns every epoch of every sequence of fits.", "anchors": ["skada/deep/_graph_alignment.py: SPALoss.forward", "skada/deep/callbacks.py: CountEpochs", "skada/deep/_graph_alignment.py: SPA"]}
{"id": "C97", "title": "CDAN conditions features on predictions with independent randomness", "statement": "Up to max_features products the conditioned row is the full outer product, whose inner products are products of inner products; above, it is the product of two scaled random projections; the default classifier has the matching size; a random_state does not disturb other random draws.", "quantifier": "all batches, sizes, projection matrices, seeds and numbers of forward passes", "why_tests_cant": "Needs all sizes around the threshold and whole sequences of random states.", "anchors": ["skada/deep/_adversarial.py: CDANModule.forward", "skada/deep/_adversarial.py: CDAN", "skada/deep/utils.py: check_generator"]}
{"id": "C98", "title": "SourceOnly and TargetOnly are ordinary training on one side", "statement": "Training SourceOnly (TargetOnly) gives the same network as an ordinary training loop over the source (target) rows alone: rows of the other side have no influence, every epoch goes over shuffled rows of the side in batches, weights are honoured, and at least one step is made.", "quantifier": "all data sets, networks, losses, optimisers, shuffles, batch sizes and numbers of epochs", "why_tests_cant": "Equality with a reference training for every data set, optimiser and number of epochs.", "anchors": ["skada/deep/_baseline.py: SourceOnly", "skada/deep/_baseline.py: TargetOnly", "skada/deep/base.py: DomainOnlyDataLoader", "skada/deep/base.py: DomainOnlySampler", "skada/deep/base.py: DomainAwareNet.fit"]}
{"id": "C99", "title": "Target labels have no influence on deep training", "statement": "For every network that does not train on the target, two data sets that differ only in target labels lead to the same trained network, with every data loader.", "quantifier": "all networks, losses, adaptation losses, optimisers, shuffles, data sets and numbers of epochs", "why_tests_cant": "A leak can sit in any loss, loader or callback and show only after many steps; independence quantifies over pairs of runs.", "anchors": ["skada/deep/base.py: DomainAwareNet.fit", "skada/deep/base.py: DomainAwareCriterion.forward", "skada/deep/base.py: DomainBalancedDataLoader", "skada/deep/base.py: DomainOnlyDataLoader"]}
{"id": "C100", "title": "A module that can be trained can predict, and predicts the same", "statement": "The module gives the same predictions and features in training calls and prediction calls in the same state, predictions do not depend on the batch size, weights are passed on, and a wrong layer name is reported.", "quantifier": "all base modules, states, batches, layer names and batch sizes", "why_tests_cant": "Ranges over all base modules and all ways of cutting rows into batches.", "anchors": ["skada/deep/base.py: DomainAwareModule.forward", "skada/deep/_adversarial.py: CDANModule.forward", "skada/deep/base.py: DomainAwareNet.feature_iter"]}
{"id": "C101", "title": "CAN starts the target clusters at the source class centroids", "statement": "At every epoch there is one cluster per source class, cluster c starts at the sum of the normalised source features of class c, the clustering of the target costs at most as much as any assignment of target rows to these centroids, and target labels are not used.", "quantifier": "all feature maps, data sets, class labels and numbers of classes", "why_tests_cant": "Ranges over all label sets and features; the cost bound is an optimisation statement.", "anchors": ["skada/deep/callbacks.py: ComputeSourceCentroids.on_epoch_begin", "skada/deep/utils.py: SphericalKMeans.fit"]}
{"id": "C102", "title": "SPA's pseudo-labels follow the network's outputs on near target rows", "statement": "SPA remembers one feature row and one class distribution per target row, starting from unit features and uniform distributions, updates them with the network's features and outputs of every batch, and labels a target row with the class its nearest remembered rows favour.", "quantifier": "all data sets, networks, momenta, sequences of batches and numbers of classes", "why_tests_cant": "The claim is about the memory after every possible training history; unit tests check that the loss is finite.", "anchors": ["skada/deep/callbacks.py: MemoryBank.on_train_begin", "skada/deep/callbacks.py: MemoryBank.on_batch_end", "skada/deep/losses.py: nap_loss", "skada/deep/_graph_alignment.py: SPALoss.forward"]}
{"id": "C103", "title": "predict_proba of a deep net returns probabilities", "statement": "For every fitted net, predict_proba returns for each wanted row (target rows, all rows with allow_source) positive probabilities that sum to one, in the order of the rows, independent of the batch size, and predict returns their first largest class, which is also the class of largest network output; an invalid predict_nonlinearity is a TypeError.", "quantifier": "all networks, data sets, batch sizes, criteria and settings of predict_nonlinearity", "why_tests_cant": "Ranges over all networks, criteria and ways of cutting rows into batches; the order-preservation of the softmax is a statement about all real outputs.", "anchors": ["skada/deep/base.py: DomainAwareNet.predict_proba", "skada/deep/base.py: DomainAwareNet.predict", "skada/deep/base.py: DomainAwareNet._get_predict_nonlinearity", "skada/deep/utils.py: _infer_predict_nonlinearity"]}
{"id": "C104", "title": "CAN and SPA give each net its own callbacks", "statement": "A net made by CAN or SPA has the callbacks passed by the user and exactly one set of the method's own; constructing other nets does not change it, so every epoch is counted once.", "quantifier": "all programs constructing any number of CAN and SPA nets with None, a single callback or shared lists", "why_tests_cant": "Aliasing shows only in programs that construct several nets; the statement quantifies over all of them.", "anchors": ["skada/deep/_divergence.py: CAN", "skada/deep/_graph_alignment.py: SPA", "skada/deep/callbacks.py: CountEpochs.on_epoch_begin"]}
{"id": "C105", "title": "Deep adaptation trains on balanced batches with base loss plus weighted adaptation loss", "statement": "In every epoch of fit with the balanced loader the optimiser makes N/b steps, N being the size of the ruling side cut down to a multiple of the batch size b; every step sees b source and b target rows in turn; over the epoch all source rows are used equally often up to one, and so are all target rows; the loss of a step is the mean of the base loss on the source rows plus reg times the adaptation loss, which gets each side's predictions, features, domain predictions and positions apart and no target labels.", "quantifier": "all data sets with both sides, shuffles, batch sizes, modes, numbers of epochs, networks, losses, optimisers and callbacks", "why_tests_cant": "Quantifies over all shuffles, networks and optimisers and over whole training runs; a test sees one run of one network.", "anchors": ["skada/deep/base.py: DomainBalancedDataLoader", "skada/deep/base.py: DomainBalancedSampler", "skada/deep/base.py: DomainAwareCriterion.forward", "skada/deep/base.py: DomainAwareNet.get_loss"]}
{"id": "C106", "title": "All input forms of a deep net mean the same data", "statement": "The same samples given as arrays, as a dict, as a DataFrame, as a torch Dataset or as a DeepDADataset lead to the same training data, and a data set survives conversion to a dict or to arrays and back; an entry of a dict wins over the argument of the same name; an argument given beside the data is used or rejected; malformed items are rejected wherever they stand; the list of domains names each domain once, in order.", "quantifier": "all samples, with weights on all or none, all dicts, torch datasets and arguments", "why_tests_cant": "Each test uses one form and one combination of keys and arguments; agreement of all forms and the fate of every argument are for all combinations.", "anchors": ["skada/deep/base.py: DomainAwareNet._prepare_input", "skada/deep/base.py: DomainAwareNet._process_dataset", "skada/deep/base.py: DeepDADataset.__init__", "skada/deep/base.py: DeepDADataset._if_given_dict", "skada/deep/base.py: DeepDADataset.as_dict", "skada/deep/base.py: DeepDADataset.as_arrays", "skada/deep/base.py: DeepDADataset.domains"]}
{"id": "C107", "title": "Each deep method trains on its published objective", "statement": "At every training step the loss of DeepCoral, DAN, CAN, MCC, DeepJDOT, DANN, CDAN, MDD and SPA is the mean loss of the source predictions plus the weight given to the method times the method's alignment term (covariances, kernel means, class confusion, cheapest pairing, domain classification, margin disparity, scheduled graph terms) on the source and target rows of the batch; target labels play no part; the reduction chosen for the base criterion is respected; missing sizes are rejected when the net is built.", "quantifier": "all base modules, domain classifiers, states, batches with rows of both sides, weights and criteria", "why_tests_cant": "A test trains for a few steps and checks a score; that the quantity minimised is the published formula on the right rows is a statement about every batch and every network.", "anchors": ["skada/deep/_divergence.py: DeepCoral", "skada/deep/_divergence.py: DAN", "skada/deep/_divergence.py: CAN", "skada/deep/_class_confusion.py: MCC", "skada/deep/_optimal_transport.py: DeepJDOT", "skada/deep/_adversarial.py: DANN", "skada/deep/_adversarial.py: CDAN", "skada/deep/_adversarial.py: MDD", "skada/deep/_graph_alignment.py: SPA", "skada/deep/base.py: DomainAwareCriterion.__init__"]}
{"id": "C108", "title": "What a pipeline trains its final estimator on", "statement": "However many adapters precede it, fitting a domain adaptation pipeline on source and target rows shows every adapter the rows of the previous one together with the labels in which the target labels are masked, and trains the final estimator on the source part of the last adapter's rows, their labels and the weights some adapter produced; target labels never reach any step; when an adapter proposes labels for target rows, these rows are trained on as well.", "quantifier": "all chains of adapters of any length, all rows, labels, domains and weights, all final estimators, with or without interest in weights", "why_tests_cant": "A test fits one pipeline of two steps; what reaches the last step is a statement about every chain of adapters.", "anchors": ["skada/_pipeline.py: make_da_pipeline", "skada/base.py: Shared.fit", "skada/base.py: BaseSelector._route_and_merge_params", "skada/base.py: BaseSelector._remove_masked", "skada/base.py: Shared._transform"]}
{"id": "C109", "title": "Fit then predict: a domain adaptation method as a whole", "statement": "A pipeline of adapters that leave target data as they are answers predict, predict_proba and score on target data with the fitted final estimator on the rows as given, with or without sample_domain; source rows are refused at prediction time. In particular a reweighting method is its final estimator trained on the source rows with the source part of the computed weights, and an OT mapping method is its final estimator trained on the transported source rows with their labels.", "quantifier": "all pipelines of such adapters, all fitted states, target data sets, weights, transport maps and final estimators", "why_tests_cant": "A test checks the score of one method on one data set; that the method is equal to its textbook description holds or fails for all data.", "anchors": ["skada/_pipeline.py: make_da_pipeline", "skada/base.py: Shared._route_to_estimator", "skada/base.py: BaseAdapter.transform", "skada/_reweight.py: BaseReweightAdapter", "skada/_mapping.py: BaseOTMappingAdapter"]}
{"id": "C110", "title": "What each shallow method trains on and predicts with", "statement": "CORAL, SubspaceAlignment, TransferSubspaceLearning, TransferComponentAnalysis, TransferJointMatching, MultiLinearMongeAlignment, MMDLSConSMapping, OTLabelProp and the reweighting methods, each as the pipeline its factory builds around a base estimator: which rows, labels and weights the base estimator is trained on, and on which rows it is asked at prediction time, as a closed formula of the source rows, their labels and the target rows; target labels have no influence.", "quantifier": "all data sets with any interleaving of source and target rows, all labels, all base estimators, all kernels, solvers and decompositions", "why_tests_cant": "A test checks the score of a method on a toy data set; that the whole method equals its published description is a statement about all data and all base estimators.", "anchors": ["skada/_mapping.py: CORAL, MultiLinearMongeAlignment, MMDLSConSMapping", "skada/_subspace.py: SubspaceAlignment, TransferComponentAnalysis, TransferJointMatching, TransferSubspaceLearning", "skada/_ot.py: OTLabelProp, JCPOTLabelProp", "skada/_reweight.py: KLIEPReweight, KMMReweight, DensityReweight, DiscriminatorReweight"]}
{"id": "C111", "title": "Per-domain and per-side transformers in front of a method", "statement": "A pipeline that starts with a transformer wrapped in PerDomain (or SelectSourceTarget) fits one transformer per domain (per side) on the rows of that domain (side) only; the rest of the pipeline is fitted, and later asked, exactly as if it had been given the data in which every row was transformed by the transformer of its own domain (side). Predicting rows of a domain not seen during fit raises ValueError; PerDomain needs sample_domain at prediction time, while SelectSourceTarget takes rows without it for target rows.", "quantifier": "all data sets with any interleaving of domains, all row-wise transformers, all remaining pipelines", "why_tests_cant": "The equivalence quantifies over every interleaving of domains, every transformer and every continuation of the pipeline.", "anchors": ["skada/base.py: PerDomain, SelectSourceTarget", "skada/_utils.py: _merge_domain_outputs", "skada/_pipeline.py: make_da_pipeline"]}
{"id": "C112", "title": "What JDOT estimators train on and predict with", "statement": "JDOTRegressor and JDOTClassifier train their base estimator on target rows only, with labels carried over from the sources by the stored transport plan: a regressor gets one weighted average of source labels per target row (between the smallest and the largest source label for an exact plan), a classifier every target row with every source class, weighted by the transported mass, entries above thr_weights times the largest weight. The plan solves the OT problem for normalised distances mixed with the label cost of an estimator fitted before. Target labels have no influence, with or without a pipeline in front. With exact solvers the reported losses never rise (classification: up to an amount bounded through thr_weights, zero for thr_weights=0) and the loop stops by itself. predict, predict_proba and score are those of the fitted base estimator; source rows only cause a warning.", "quantifier": "all data sets, weights, base estimators, OT solvers, alpha, thr_weights, n_iter_max and tol", "why_tests_cant": "The equivalences range over every base estimator, every OT solver and every data set, and the descent over every number of iterations.", "anchors": ["skada/_ot.py: JDOTRegressor, JDOTClassifier, solve_jdot_regression, solve_jdot_classification, get_data_jdot_class, get_jdot_class_cost_matrix", "skada/base.py: DAEstimator"]}
{"id": "C113", "title": "Self-labelling estimators in pipelines, their answers and scores", "statement": "A pipeline ending in GradualEstimator or DASVMClassifier trains it on all adapted rows with hidden target labels: the first classifier on the adapted source rows with their true labels, DASVM with the same result as with visible target labels. Afterwards predict and decision_function of target data are the last trained classifier applied to each adapted row; sample_domain and allow_source never reach it, and without adapters source rows are predicted like any others. score of GradualEstimator is the fraction of rows whose label is predicted. estimators_ and intermediate_data_ hold n_steps+1 classifiers and n_steps training sets exactly when asked for.", "quantifier": "all adapters, base classifiers, transport methods, data sets, labels and parameters", "why_tests_cant": "Quantifies over every chain of adapters, every base classifier and every transport method; tests check shapes of a few runs.", "anchors": ["skada/_gradual_da.py: GradualEstimator.fit, predict, predict_proba, predict_log_proba, score", "skada/_self_labeling.py: DASVMClassifier.fit, predict, predict_proba, decision_function, score", "skada/base.py: Shared"]}
{"id": "C114", "title": "Copies of a pipeline learn and predict what the original does", "statement": "clone(pipeline) — what cross_validate and GridSearchCV fit — trains every estimator on the same data with the same result as the original and answers the same; so does fitting with memory=..., whichever steps are in the cache. Pipelines with label-proposing adapters (JCPOTLabelProp), for which make_da_pipeline switches masking off, train the final estimator on the same propagated labels after cloning. A parameter changed with set_params takes effect.", "quantifier": "all pipelines of selectors, base estimators, data sets, labels, parameters and cache states", "why_tests_cant": "Quantifies over every pipeline and every data set; tests clone a few pipelines and do not compare what is learned.", "anchors": ["skada/base.py: BaseSelector.__init__, get_params, set_params, _mark_as_final; SelectSourceTarget", "skada/_pipeline.py: make_da_pipeline, _wrap_with_selectors", "skada/_ot.py: JCPOTLabelPropAdapter", "skada/_reweight.py: NearestNeighborReweightAdapter"]}
{"id": "C115", "title": "Constructor arguments survive clone and set_params", "statement": "An estimator built with keyword arguments keeps each of them as the attribute of the same name, unchanged; clone of it succeeds and gives an estimator with the same parameters and computed attributes; set_params(p=v) followed by clone gives the estimator built with p=v in the first place, or raises what the constructor raises for v. Unknown arguments and missing required ones raise TypeError.", "quantifier": "all 23 shallow estimator classes with parameters, all keyword arguments, all parameters and values", "why_tests_cant": "Quantifies over every class, argument and value; scikit-learn's estimator checks are not run on the adapters and tests set a few parameters only.", "anchors": ["skada/_reweight.py: __init__ of the adapters", "skada/_mapping.py: __init__ of the adapters", "skada/_subspace.py: __init__ of the adapters", "skada/_ot.py: JDOTRegressor.__init__, JDOTClassifier.__init__, OTLabelPropAdapter.__init__, JCPOTLabelPropAdapter.__init__", "skada/_self_labeling.py: DASVMClassifier.__init__"]}
{"id": "C116", "title": "Functions that build pipelines pass their arguments on and keep pipelines apart", "statement": "Calling a method such as OTMapping(...) or KLIEPReweight(...) builds its adapter with exactly the arguments given and its documented defaults otherwise, and the estimator given or the default one as last step; the adapter's parameters reach the transport solver under their own names. Setting a parameter on one pipeline never changes another one.", "quantifier": "all 20 pipeline-building functions, all arguments, all sequences of building pipelines and setting parameters", "why_tests_cant": "Quantifies over all arguments of all functions and over sequences of calls; tests call each function once with a few arguments.", "anchors": ["skada/_reweight.py: DensityReweight ... MMDTarSReweight", "skada/_mapping.py: OTMapping ... MMDLSConSMapping, _create_transport_estimator", "skada/_subspace.py: SubspaceAlignment ... TransferSubspaceLearning", "skada/_ot.py: OTLabelProp, JCPOTLabelProp"]}
{"id": "C117", "title": "Loaders download at most once and then read the folder", "statement": "In any sequence of calls of a dataset loader on a machine without the data, only the first call that names a known domain and allows downloading downloads; before it calls raise OSError, after it every call returns what its domain has in the folder. Unknown domain names raise ValueError and touch nothing; case of names does not matter. The loaders of all domains return, under each name, what the loader of that domain returns. (Fails: a download that failed is tried again.)", "quantifier": "all sequences of calls of the Office-31, Office-Home and Amazon review loaders, all domain arguments, all outcomes of downloads, all folder contents", "why_tests_cant": "Quantifies over sequences of calls and over failing downloads; the tests that download are skipped by default.", "anchors": ["skada/datasets/_office.py: _fetch_office31, _fetch_office31_all, _download_office31", "skada/datasets/_office_home.py: _fetch_office_home, _fetch_office_home_all", "skada/datasets/_amazon_review.py: _fetch_amazon_review, _fetch_amazon_review_all"]}
{"id": "C118", "title": "Loaded rows keep their labels and are complete", "statement": "A loaded domain has one row and one label per sample on disk of the categories or domain asked for, row and label belonging together, with or without shuffling; integer labels of Office-31 are positions in the alphabetical list of the categories asked for, independent of the order in which the system lists files.", "quantifier": "all folder contents, categories, permutations, CSV files and domains", "why_tests_cant": "Quantifies over all folder contents, listing orders and permutations; tests see one data set and check shapes.", "anchors": ["skada/datasets/_office.py: _load_office31", "skada/datasets/_office_home.py: parse_office_home_csv, _load_office_home, _load_office_home_all", "skada/datasets/_amazon_review.py: _load_amazon_review", "skada/_utils.py: _shuffle_arrays"]}
{"id": "C119", "title": "load_mnist_usps draws labelled rows of the classes asked for", "statement": "load_mnist_usps(n_samples=q, n_classes=k) returns floor(q*n) rows of each data set with their own labels, all below k; MNIST rows are source with domain 1, USPS rows target with domain -2, and labels are not masked; q outside [0, 1] raises ValueError. (Fails: with n_samples=1 every row is returned.)", "quantifier": "all shares, numbers of classes, data sets and draws", "why_tests_cant": "Quantifies over all data and draws; tests check shapes on the downloaded data only.", "anchors": ["skada/datasets/_mnist_usps.py: load_mnist_usps"]}
{"id": "C120", "title": "torch_minimize returns a point of the optimiser, its loss and an exact warning", "statement": "torch_minimize returns the final point of the optimiser in the form of its input (one array or a list of arrays), the loss at that point, which is not above the loss at the start, and warns exactly if the largest absolute entry of the gradient there exceeds tol. (Fails: the gradient looked at is that of the last evaluation, and NaN never warns.)", "quantifier": "all losses, gradients, descent optimisers, starting points, tolerances", "why_tests_cant": "Quantifies over all losses and optimisers; tests run one quadratic.", "anchors": ["skada/utils.py: torch_minimize"]}
{"id": "C121", "title": "MMDLSConS maps classes as a whole and does not increase its criterion", "statement": "For classification the fitted location-scale map of MMDLSConSMappingAdapter moves all source rows of a class by the same map; its weighted kernel discrepancy to the target, and that plus the regulariser, are not above the discrepancy of the unmapped source rows; with reg_k > 0 the fit never meets a singular matrix. (Fails for regression: labels have no influence and the start is not the identity.)", "quantifier": "all data, labels, gamma, reg_k, reg_m and descent optimisers", "why_tests_cant": "Inequality over all data and optimisers; tests check shapes of outputs.", "anchors": ["skada/_mapping.py: MMDLSConSMappingAdapter._mapping_optimization"]}
{"id": "C122", "title": "Transfer subspace learning stores an orthonormal projection not worse than its start", "statement": "TransferSubspaceLearningAdapter.fit stores min(n_components, n_features) orthonormal columns whose loss is not above that of keeping the first features; the loss depends on the subspace only. Its divergence of source and target is symmetric, zero for equal samples and finite with 0 < reg <= 1 if both projected samples have two distinct rows; otherwise, or with reg=None and no more rows than components, fitting raises. (Fails: the divergence can be negative.)", "quantifier": "all data, labels, base methods, parameters, factorisations and descent optimisers", "why_tests_cant": "Quantifies over all data, subspaces and optimisers; tests fit one data set and check shapes.", "anchors": ["skada/_subspace.py: TransferSubspaceLearningAdapter.fit, _D, _F, _torch_cov"]}
{"id": "C123", "title": "KLIEP chooses gamma by held-out likelihood and a refit equals a new fit", "statement": "KLIEPReweightAdapter.fit with a list of candidates (numbers, 'scale', 'auto') holds every target row out exactly once, scores each candidate by the mean held-out log density ratio, and uses the first best one for the final fit; 'scale' makes the fitted weights independent of the units and the origin of the data; the weights of the fitted rows are non-negative on source rows with mean one and zero on target rows; fitting an object again gives what a new object gives. (Fails: a list containing 'scale' is overwritten by numbers in the first fit, so later fits use the variance of the first data; a NaN score wins; shifting a single feature changes 'scale'.)", "quantifier": "all data, domain labels, candidates, fold counts, center draws, histories of earlier fits", "why_tests_cant": "Quantifies over all data, candidates and histories of fits; tests fit once and check the shape of the weights.", "anchors": ["skada/_reweight.py: KLIEPReweightAdapter.fit, _likelihood_cross_validation, _weights_optimization, _auto_scale_gammas, compute_weights"]}
{"id": "C124", "title": "Building or fitting one pipeline does not change another", "statement": "Pipelines made with make_da_pipeline are separate objects: building one leaves earlier ones as they were, fitting one (also when the fit fails) leaves the learned state of all others, and in each pipeline exactly the last step acts as the final one. Only the settings of estimator objects passed to several pipelines are shared. (Fails for a pipeline passed as a step of another and for a selector object used twice: then steps are the same objects, so fitting one refits the other and the inner pipeline loses its final step.)", "quantifier": "all histories of creating estimators and selectors, building pipelines from them, setting parameters and fitting, in any order, with failing fits", "why_tests_cant": "Quantifies over all interleavings of operations on several pipelines; tests build and fit one pipeline at a time.", "anchors": ["skada/_pipeline.py: make_da_pipeline, _wrap_with_selector", "skada/base.py: BaseSelector._mark_as_final, _unmark_as_final, Shared.fit"]}
{"id": "C125", "title": "qp_solve(solver='scipy') solves the documented quadratic program or warns", "statement": "qp_solve with the scipy solver hands SciPy the documented problem (objective 1/2 x'Qx + x'c, lb <= x <= ub, Ax <= b, Aeq x = beq, each ignored if None, start at ones); it warns exactly if SciPy does not report success; without a warning and for a symmetric positive semidefinite Q the result is feasible, its value is the documented objective, and no feasible point is better, up to the solver's tolerances. (Fails: for a non-symmetric Q the derivative passed is wrong and the result is not a minimiser; on failure the value is returned, not None; frank-wolfe ignores lb, ub and log.)", "quantifier": "all sizes, matrices, optional constraints and bounds, starting points, and all solvers meeting the stated contract", "why_tests_cant": "Quantifies over all problems and all solver behaviours; tests solve a handful of small problems.", "anchors": ["skada/utils.py: qp_solve, _qp_solve_scipy"]}
{"id": "C126", "title": "KMM weights minimise the kernel distance between weighted source and target means", "statement": "KMMReweightAdapter.fit_transform with a symmetric positive semidefinite kernel returns, for both solvers, weights that are zero on target rows, satisfy the documented constraints on source rows (the bound B only with the scipy solver), and are optimal: no other admissible weights bring the weighted source mean closer to the target mean in the kernel space, up to the solver tolerance (scipy, when no warning is issued) or an explicit O(1/max_iter) gap (frank-wolfe, which never fails for 0 <= eps <= 1).", "quantifier": "all data, domain labels, kernels, eps, B, iteration counts and solvers meeting the contract", "why_tests_cant": "Optimality over all admissible weights for all data; tests only check shapes and that fitting runs.", "anchors": ["skada/_reweight.py: KMMReweightAdapter.fit, _weights_optimization, compute_weights", "skada/utils.py: qp_solve"]}
{"id": "C127", "title": "MMDTarSReweight weights are optimal among the weights constant on classes", "statement": "MMDTarSReweightAdapter.fit never fails on the inversion for positive semidefinite kernels and reg > 0; when no warning is issued, the source weights are constant on classes (or label-smoothed for continuous labels), lie in [0, 10], have a sum within m(1 +- 10/(4 sqrt m)), and among all such weights none brings the label-smoothed source mean closer to the target mean in the kernel space, up to the solver tolerance and the 1e-12 ridge.", "quantifier": "all data, labels, kernels, regularisation values and solvers meeting the contract", "why_tests_cant": "Optimality over all admissible weights for all data; tests only check that the pipeline runs.", "anchors": ["skada/_reweight.py: MMDTarSReweightAdapter.fit, _weights_optimization"]}
{"id": "C128", "title": "Deep embedded validation estimates the target risk from held-out source rows only", "statement": "DeepEmbeddedValidation splits the source rows into disjoint training and validation rows, trains its domain classifier on the features of the training rows against those of the target rows, and returns the control-variate estimate from the losses of the validation rows, each weighted by the estimated density ratio of its own row (exactly target density over source density for a classifier that knows the densities). Target labels have no influence. The features are those the fitted pipeline computes for the rows. (Fails: features are computed without domain labels, so source rows are treated as target rows and a learned mapping of the source rows is never seen by the density ratio.)", "quantifier": "all estimators, data, domain labels, permutations, domain classifiers and losses", "why_tests_cant": "Independence and equality for all inputs; tests only check that the score is finite.", "anchors": ["skada/metrics.py: DeepEmbeddedValidation._score, _fit_adapt"]}
{"id": "C129", "title": "Unsupervised scorers do not use target labels", "statement": "With sample_domain given, changing the labels of target rows does not change the score of ImportanceWeightedScorer, DeepEmbeddedValidation, PredictionEntropyScorer, SoftNeighborhoodDensity, CircularValidation (as long as the labels are accepted as masked), MixValScorer and MaNoScorer (as long as the labels are still recognised as classes). (Fails otherwise: a single NaN or non-integer target label makes MixValScorer and MaNoScorer raise ValueError.)", "quantifier": "all data, domain labels, pairs of label vectors equal on the source rows, and all estimators", "why_tests_cant": "A relational property over pairs of inputs: no test compares the scores for different target labels.", "anchors": ["skada/metrics.py"]}
{"id": "C130", "title": "Keyword parameters given to a pipeline reach the estimators that ask for them", "statement": "Given to fit or to an evaluation method of a DA pipeline, sample_domain is accepted and reaches every step whatever the estimators request. Any other parameter is delivered to exactly those estimators that request it (under its name or an alias), and a parameter requested by nobody is refused with TypeError before any estimator is called. (Holds for evaluation methods. Fails for fit: parameters requested by a transformer that is not the last step never reach it, silently if the last estimator asks for them too and with a TypeError otherwise; and of the two estimators of SelectSourceTarget only the target's requests count.)", "quantifier": "all pipelines of selectors, all requests of their estimators, all dictionaries of parameters", "why_tests_cant": "Ranges over all combinations of requests of all steps; the tests try sample_weight on the last step only.", "anchors": ["skada/base.py: BaseSelector.get_metadata_routing, SelectSourceTarget.get_metadata_routing, _DAMetadataRequesterMixin, BaseSelector"]}
{"id": "C131", "title": "The shipped network modules: shapes, pooling, dropout and probabilities", "statement": "ToyCNN gives one row of n_classes numbers per series for every length from kernel_size on and refuses shorter series and other channel counts with RuntimeError; its outputs for a series are the means of its outputs for the windows of kernel_size positions. num_features is the width of the recorded features exactly for series of input_size positions, so that a domain classifier made for it refuses the features of every other length. ToyModule2D in evaluation mode gives the mean of its training-mode outputs over all dropout draws, and with proba=True probability vectors; the default predict_proba applies the softmax a second time to these (same predicted class, no probability above e/(e+K-1), equal to the module's output only if uniform). MNISTtoUSPSNet takes exactly the one-channel image batches whose halved convolved sides have the product 144, of the squares those of 28 and 29 pixels.", "quantifier": "all weights, all sizes of the modules, all batches", "why_tests_cant": "Ranges over all weights, input lengths and image sizes, and over all dropout draws at once; the tests use the sizes of the examples.", "anchors": ["skada/deep/modules.py: ToyModule2D, ToyCNN, MNISTtoUSPSNet", "skada/deep/utils.py: IntermediateLayerHook, _infer_predict_nonlinearity"]}
{"id": "C132", "title": "Cross-validation selects models without target labels and without test rows", "statement": "cross_validate of a DA pipeline whose first step hides target labels (the default), with SourceTargetShuffleSplit, LeaveOneDomainOut or DomainShuffleSplit and one of the scorers for unsupervised selection (importance weighting, prediction entropy, neighbourhood density, deep embedded validation, MixVal, MaNo) or the supervised scorer with target_labels, gives the same scores whatever class labels y holds on the target rows; with any other scorer a fold depends on the target labels of its test rows only; the model of a fold does not depend on its test rows; and a fold whose fit or score raises is reported as NaN without effect on the others, an exception only if no fit succeeds. (Fails for StratifiedDomainShuffleSplit, whose folds depend on the target labels.)", "quantifier": "all pipelines, estimators, data sets, class labels, random draws and sizes of the splitters", "why_tests_cant": "Quantifies over pairs of runs with different hidden labels; the tests run one label vector and look at the shape of the scores.", "anchors": ["skada/model_selection.py: SourceTargetShuffleSplit, LeaveOneDomainOut, DomainShuffleSplit, StratifiedDomainShuffleSplit", "skada/metrics.py: ImportanceWeightedScorer, PredictionEntropyScorer, SoftNeighborhoodDensity, DeepEmbeddedValidation, MixValScorer, MaNoScorer, SupervisedScorer", "skada/base.py: Shared, PerDomain"]}
{"id": "C133", "title": "A pipeline answers by its last successful fit, whatever was done with it before", "statement": "After any history of calls on a DA pipeline object (fits on other data, fits that raised, set_params, predictions), a fit succeeds or raises exactly as the first fit of a new pipeline with the current configuration, and after a success every step holds the estimators of that call: all later answers, and get_estimator, are those of the new pipeline, also after a later set_params. Before the first fit every evaluation is a NotFittedError. get_estimator(d) of a per-domain selector gives the estimator fitted on the rows of domain d in the last call, and a KeyError for domains that only an earlier call had seen. Fitting twice with the same label array (which is masked in place) is the same as fitting once if the first step hides target labels. A fit that raises should leave the pipeline as it was: this holds for a single selector, but in a longer pipeline the steps before the failing one are already refitted, and the object then answers with a mixture of two fits.", "quantifier": "all pipelines of Shared, PerDomain, SelectSource, SelectTarget and SelectSourceTarget steps of any length, all estimators, all histories of fit / set_params / evaluation of any length, all data, labels and parameters", "why_tests_cant": "Unit tests fit an object once or twice; state left over by earlier calls can come from any history of any length, and mixtures appear only after failures in particular steps", "anchors": ["skada/base.py: Shared._fit, Shared.fit_transform, PerDomain._fit, PerDomain.fit_transform, PerDomain.get_estimator, SelectSourceTarget._fit, BaseSelector.set_params, BaseSelector._auto_mask_target_labels"]}
{"id": "C134", "title": "Domain labels are names: only their sign matters", "statement": "If the labels in sample_domain are replaced by others with the same signs (domains renamed, merged or split, on the source or the target side), fitting a DA pipeline makes the same calls up to these names and ends with the same fitted estimators and the same exception if any, and later answers are the same. This holds for any pipeline of shared, source-only, target-only and source/target selectors around ordinary estimators and around OT mappings, CORAL, MMD-LS, subspace alignment, TSL, TCA, TJM, all reweighting methods, OT label propagation, and for DASVM, GradualEstimator and JDOT, for the scorers and for SourceTargetShuffleSplit. PerDomain selectors treat single domains by design; a renaming that keeps the order of the labels only renames their estimators. It fails for JCPOT (swapping the names of two target domains swaps the proposed labels), for PerDomain under renamings that change the order (the type of the merged array is that of the smallest label) and for CircularValidation when a source has the label 0 (negation leaves it a source).", "quantifier": "all pipelines of any length, all data and labels, all pairs of domain vectors with equal signs, all estimators that do not ask for sample_domain, all parameters of the listed methods", "why_tests_cant": "Unit tests use one or two fixed labellings (1 and -2); dependence on the value, the order or the number of labels shows only when labels are changed and can hide in any step", "anchors": ["skada/base.py: Shared, SelectSource, SelectTarget, SelectSourceTarget, PerDomain", "skada/_utils.py: _merge_domain_outputs, _remove_masked", "skada/utils.py: check_X_domain, check_X_y_domain, extract_source_indices, source_target_split, source_target_merge", "skada/_mapping.py", "skada/_subspace.py", "skada/_reweight.py", "skada/_ot.py: OTLabelPropAdapter, JCPOTLabelPropAdapter, JDOTRegressor, JDOTClassifier", "skada/_self_labeling.py: DASVMClassifier", "skada/_gradual_da.py: GradualEstimator", "skada/metrics.py: CircularValidation and the other scorers", "skada/model_selection.py: SourceTargetShuffleSplit"]}
{"id": "C135", "title": "Leaving an argument out means its documented default", "statement": "An estimator, or a pipeline made by one of the package's functions, that is built without an argument whose default is stated in the documentation has exactly that value as attribute, whatever other arguments are given; a base estimator, weight estimator or domain classifier that is left out is of the documented class. It fails for max_iter of KMMReweightAdapter and KMMReweight (documented 100, actual 1000), reg of LinearOTMapping (documented 1e-8, actual 1) and the base estimator of JCPOTLabelProp (documented LinearRegression, actual LogisticRegression).", "quantifier": "all 23 estimators and 20 pipeline functions of the shallow methods, all parameters with a documented default, all combinations of other keyword arguments", "why_tests_cant": "There are hundreds of pairs of parameter and default, documentation is not executed by tests, and whether a default survives depends on which other arguments are given", "anchors": ["skada/_reweight.py", "skada/_mapping.py", "skada/_subspace.py", "skada/_ot.py", "skada/_self_labeling.py: DASVMClassifier.__init__"]}
{"id": "C136", "title": "The order of the samples does not matter", "statement": "Fitting a domain-aware pipeline on the same samples in another order (rows, labels, domain labels and per-sample parameters permuted together) gives an equivalent fitted pipeline, or the same exception; the answers of equivalent pipelines about samples in another order are the same answers in that order, and scores are unchanged. It holds for the adapters based on means, covariances, densities, discriminators, PCA, optimal transport and Monge maps when their external estimators do not depend on the order. It fails for PerDomain around a predictor when samples are masked, for steps behind SelectSource/SelectTarget that combine remaining rows with parameters of all rows, for nearest-neighbour reweighting, and for transform of TCA/TJM on the training samples.", "quantifier": "all pipelines of order-independent estimators in all selectors, all permutations of all training and test samples, all parameters", "why_tests_cant": "There are n! orders of every dataset, and tests use generators that always put the sources before the targets", "anchors": ["skada/base.py: Shared, PerDomain, SelectSource, SelectTarget, SelectSourceTarget", "skada/_utils.py: _merge_domain_outputs, _apply_domain_masks", "skada/_mapping.py", "skada/_reweight.py", "skada/_subspace.py", "skada/utils.py: source_target_merge, source_target_split"]}
{"id": "C137", "title": "The answer about a sample does not depend on the other samples asked about", "statement": "If a fitted domain-aware pipeline answers predict (or predict_proba, decision_function) for a batch, then it answers every non-empty selection of the batch, with repetitions and in any order, and gives each sample the answer it had in the batch, with or without allow_source; the same holds for predictors inside PerDomain and SelectSourceTarget that answer with arrays of one type and shape, and for the transform of the reweighting, label-propagation, CORAL, linear OT, linear Monge, subspace-alignment and transfer-subspace adapters; TCA/TJM and MMD-LS treat samples one by one as long as only target samples are asked about. allow_source=True only adds acceptance of source samples: it never changes an answer that was given without it.", "quantifier": "all pipelines of selectors and samplewise estimators, all fitted states, all batches and all selections of positions, all domain labels", "why_tests_cant": "tests ask about one batch, and do not compare with the answers for every selection of its samples", "anchors": ["skada/base.py:BaseSelector", "skada/base.py:PerDomain", "skada/base.py:SelectSourceTarget", "skada/_utils.py:_merge_domain_outputs", "skada/_mapping.py", "skada/_subspace.py", "skada/utils.py:check_X_domain"]}
{"id": "C138", "title": "Class labels are only names", "statement": "If the classes of a classification problem (non-negative integers) are given other names, a domain-aware pipeline of name-blind estimators is fitted on the same calls with the classes renamed or fails with the same exception, and afterwards predicts the same classes under their new names; masked labels stay masked. The unsupervised adapters, OT mapping, transfer subspace learning, location-scale mapping and OT label propagation are name-blind (the last three for renamings that keep the order of the classes). JCPOT label propagation, MMD target shift and the class name -1 are exceptions.", "quantifier": "all pipelines of selectors and estimators that treat classes as names, all integer labels, all renamings of the classes (order-preserving where classes are sorted), all data and domain labels", "why_tests_cant": "tests use the classes 0, 1, 2 only and never compare with a renamed problem", "anchors": ["skada/base.py:BaseSelector", "skada/base.py:Shared", "skada/utils.py", "skada/_ot.py:OTLabelPropAdapter", "skada/_ot.py:JCPOTLabelPropAdapter", "skada/_reweight.py:MMDTarSReweightAdapter", "skada/_mapping.py:MMDLSConSMappingAdapter", "skada/_subspace.py:TransferSubspaceLearningAdapter"]}
{"id": "C139", "title": "Only the geometry of the samples matters", "statement": "Moving all samples by a map that keeps distances (a shift of the origin, a rotation, a reflection) changes nothing in what the methods compute from distances or kernels: KLIEP (gamma a number or 'auto', or a list of such values), KMM, MMD target shift, the nearest-neighbour, density, Gaussian and discriminator reweighting give the same weights, TCA and joint matching the same coordinates, OT and JCPOT label propagation the same labels, JDOT the same plans and losses, or the same exceptions; a change of units may be added for the density ratios and for JDOT. CORAL is even blind to separate shifts of the source and of the target side. (Fails for gamma='scale' and for CORAL with assume_centered=True.)", "quantifier": "all samples, domain labels and weights, all maps that keep the kernel (distances) and, where samples are compared for equality, are one-to-one; all solvers and estimators that work with distances only", "why_tests_cant": "tests fix one data set; invariance under every shift and rotation needs the computation to be followed symbolically", "anchors": ["skada/_reweight.py:KLIEPReweightAdapter", "skada/_reweight.py:KMMReweightAdapter", "skada/_reweight.py:MMDTarSReweightAdapter", "skada/_reweight.py:DensityReweightAdapter", "skada/_reweight.py:GaussianReweightAdapter", "skada/_reweight.py:DiscriminatorReweightAdapter", "skada/_reweight.py:NearestNeighborReweightAdapter", "skada/_subspace.py:TransferComponentAnalysisAdapter", "skada/_subspace.py:TransferJointMatchingAdapter", "skada/_ot.py:JDOTRegressor", "skada/_ot.py:JDOTClassifier", "skada/_ot.py:OTLabelPropAdapter", "skada/_ot.py:JCPOTLabelPropAdapter", "skada/_mapping.py:CORALAdapter"]}
{"id": "C140", "title": "Only the proportions of sample weights matter", "statement": "Multiplying all weights of source samples by one number and all weights of target samples by another changes nothing in OTLabelProp and in JDOT: the same proposed labels, the same estimator, plan and losses, or the same exception; and weight one for every sample is the same as no weights. (Fails for deep networks, whose batch loss is proportional to the weights, for deepjdot_loss, where weights of one make the loss as many times larger as there are samples, and for JDOTRegressor when the base regressor reacts to a common factor of its weights, such as ridge regression.)", "quantifier": "all samples, labels, domain labels, weights and factors other than zero; all OT solvers, base classifiers and (with the stated assumption) base regressors", "why_tests_cant": "tests compare a few weight vectors; that a factor cancels in every branch of an iterative solver is a symbolic statement", "anchors": ["skada/_ot.py:OTLabelPropAdapter", "skada/_ot.py:JDOTRegressor", "skada/_ot.py:JDOTClassifier", "skada/_ot.py:solve_jdot_regression", "skada/_ot.py:solve_jdot_classification", "skada/deep/base.py:DomainAwareNet.get_loss", "skada/deep/losses.py:deepjdot_loss"]}
{"id": "C141", "title": "Without shift, adaptation changes nothing", "statement": "If the target samples are the source samples in some order, adaptation is neutral: density ratio reweighting (kernel density, Gaussian, a domain classifier that cannot tell the sides apart) gives every source sample the weight one and every target sample the weight zero; kernel mean matching finds weights whose kernel distance to the target is within the accuracy of the solver of zero, and weight one for all with a strictly positive definite kernel; CORAL only subtracts the common mean; subspace alignment only projects; the importance weighted score uses equal weights, deep embedded validation is the plain mean loss; the CORAL and MMD losses are zero; with an exact transport solver the transport mapping moves nothing, and with labels that are a function of the sample, label propagation gives every target sample its own label, and JDOT trains its base estimator on the target samples with their own labels at transport cost zero. (Fails for nearest neighbour reweighting unless sources and targets are stored as mirror images.)", "quantifier": "all samples and domain labels without shift, any number of domains; all density estimators, PCA and covariance estimators that do not look at the order of their samples; all QP solvers of a given accuracy; all exact optimal transport solvers, all positive costs between different samples, all base estimators without loss on their training data", "why_tests_cant": "tests measure that adaptation helps on one shifted data set; that it is exactly neutral without shift, for all data, is not sampled", "anchors": ["skada/_reweight.py:DensityReweightAdapter", "skada/_reweight.py:GaussianReweightAdapter", "skada/_reweight.py:DiscriminatorReweightAdapter", "skada/_reweight.py:NearestNeighborReweightAdapter", "skada/_reweight.py:KMMReweightAdapter", "skada/_mapping.py:CORALAdapter", "skada/_subspace.py:SubspaceAlignmentAdapter", "skada/metrics.py:ImportanceWeightedScorer", "skada/metrics.py:DeepEmbeddedValidation", "skada/deep/losses.py:deepcoral_loss", "skada/deep/losses.py:dan_loss", "skada/_ot.py:OTLabelPropAdapter", "skada/_ot.py:JDOTRegressor", "skada/_ot.py:JDOTClassifier", "skada/_mapping.py:BaseOTMappingAdapter"]}
{"id": "C142", "title": "Listing every sample equally often changes nothing", "statement": "If the whole data set is listed k times, every copy of a sample gets the weight of the sample from density, Gaussian and domain classifier reweighting and the image of the sample from CORAL (without or with a numeric regularisation); the importance weighted, deep embedded validation and MaNo scores and the mean prediction entropy stay as they are, and the summed prediction entropy is multiplied by k; the DAN and MCC losses stay as they are, DAN also when the two batches are listed a different number of times and with its default bandwidths. MultiLinearMonge moves every copy like the sample, also when every domain is listed a number of times of its own. Exact optimal transport mapping: the mean of the images of the copies of a source sample is its image under a plan of least cost for the data listed once, and spreading such a plan equally over the copies has least cost and moves every copy like the sample. Entropic optimal transport mapping moves every copy like the sample. Label propagation with a solver that shares a plan out equally among copies gives every copy the label or the value of the sample, with or without sample weights. Kernel mean matching with a given eps: the mean weights of the copies of each sample are an optimal answer for the data listed once. KLIEP (with the same centres) behaves as on the data listed once with a step k times as long and a tolerance k times as sharp. (Fails for exact optimal transport copy by copy with other plans of least cost, since two copies may be sent to different places or get different labels, for kernel mean matching with eps=None, for nearest-neighbour reweighting, where one copy takes the whole weight, for the deep CORAL loss, which is multiplied by the square of k(n-1)/(kn-1), and for the soft neighbourhood density.)", "quantifier": "all samples, domain labels and numbers of copies; all density estimators, domain classifiers and predictors that only look at proportions and treat copies alike; all batches", "why_tests_cant": "tests fix the size of the data set; that only proportions matter is a statement about all data sets and all numbers of copies", "anchors": ["skada/_reweight.py:DensityReweightAdapter", "skada/_reweight.py:GaussianReweightAdapter", "skada/_reweight.py:DiscriminatorReweightAdapter", "skada/_reweight.py:KMMReweightAdapter", "skada/_reweight.py:KLIEPReweightAdapter", "skada/_reweight.py:NearestNeighborReweightAdapter", "skada/_mapping.py:CORALAdapter", "skada/metrics.py:ImportanceWeightedScorer", "skada/metrics.py:PredictionEntropyScorer", "skada/metrics.py:SoftNeighborhoodDensity", "skada/metrics.py:DeepEmbeddedValidation", "skada/metrics.py:MaNoScorer", "skada/deep/losses.py:deepcoral_loss", "skada/deep/losses.py:dan_loss", "skada/deep/losses.py:mcc_loss", "skada/_mapping.py:MultiLinearMongeAlignmentAdapter", "skada/_mapping.py:BaseOTMappingAdapter", "skada/_ot.py:OTLabelPropAdapter", "skada/_mapping.py:EntropicOTMappingAdapter"]}
{"id": "C143", "title": "Adapting adapted data changes nothing", "statement": "Running an adapter again, fitted anew, on the data it returned gives these data back: for CORAL without regularisation, for MultiLinearMongeAlignment, for exact optimal transport whenever the first plan is an assignment, and for every reweighting method (same weights). (Fails for CORAL with a numeric regularisation, for optimal transport plans that split the mass of a sample, and for label propagation, whose second run masks every sample.)", "quantifier": "all samples and domain labels; CORAL: positive definite covariances; Monge: all Gaussian barycenters and maps with the stated properties; transport: all costs that vanish exactly between equal samples; label propagation: all plans and weights", "why_tests_cant": "a test compares two runs on one data set; that adapted data are a fixed point is a statement about all data sets", "anchors": ["skada/_mapping.py:CORALAdapter", "skada/_mapping.py:MultiLinearMongeAlignmentAdapter", "skada/_mapping.py:BaseOTMappingAdapter", "skada/_reweight.py:BaseReweightAdapter", "skada/_ot.py:OTLabelPropAdapter"]}
{"id": "C144", "title": "Exchanging source and target", "statement": "Negating every domain label exchanges the two sides everywhere, provided no domain is labelled 0. Then: the Gaussian reweighting weight of a source sample and the weight the same point gets as a target sample after the exchange are reciprocal; for density reweighting their product is one constant for all points; the Deep CORAL loss, the DAN loss with given bandwidths and the graph alignment loss of SPA do not change; the DANN domain loss does not change if the domain classifier's answers p become 1 - p; and CORAL (no regularisation) from source to target followed by CORAL from the adapted source to the original source gives the original source back up to its mean. (Fails for the domain label 0, which stays a source, and for DAN with default bandwidths, which are computed from the first batch alone.)", "quantifier": "all data and domain labels without 0; all densities, exponentials with exp(r) exp(-r) = 1, batches, bandwidths, predictions; CORAL: positive definite covariances", "why_tests_cant": "tests fix which side is the source; a symmetry between two runs with opposite roles is a relation over all data sets", "anchors": ["skada/utils.py:source_target_split", "skada/_reweight.py:DensityReweightAdapter", "skada/_reweight.py:GaussianReweightAdapter", "skada/_mapping.py:CORALAdapter", "skada/deep/losses.py:deepcoral_loss", "skada/deep/losses.py:dan_loss", "skada/deep/losses.py:gda_loss", "skada/deep/_adversarial.py:DANNLoss"]}
{"id": "C145", "title": "Wrapped networks, their hooks, sharing and cloning", "statement": "However networks are wrapped, shared between nets, trained, called and cloned, and however many hooks pile up on them: every call returns the prediction and the features of the chosen layer for exactly this input and the current parameters of its own network, as if there were no hooks at all; a wrong layer name is a KeyError; a clone starts with the parameters of the original and lives on its own. A fit continues from the current parameters of the network the net was built with and writes the trained parameters into it. (Surprises, proved: a second fit does not start anew; nets built with the same network share its weights; after a fit, cloning raises RuntimeError until the network has been called without gradients once; a layer that a pass does not run shows the features of the previous call; every fit leaves one more hook on the user's network.)", "quantifier": "all programs of creating, wrapping, calling, training and cloning networks, all networks, layers, inputs and updates", "why_tests_cant": "state shared through hook dictionaries and aliased networks depends on the whole history of objects; tests build one net, fit it once and look at it once", "anchors": ["skada/deep/base.py:DomainAwareModule", "skada/deep/utils.py:_register_forwards_hook", "skada/deep/utils.py:IntermediateLayerHook", "skada/deep/_divergence.py:DeepCoral"]}
{"id": "C146", "title": "The life of a net: fits, warm start, clones, cross-validation, features", "statement": "In every program that makes networks and nets around them, fits them with or without warm start or partially, predicts, asks for features and clones, in any order and with any sharing: predictions and features are one per row, in order, independent of the batch size, computed with the current parameters of the net's network; a fit succeeds if the layer exists and continues from these parameters with a fresh optimiser unless the net is warm; cross-validation (clone, fit, predict per fold) gives for every fold the predictions of training from the current parameters, whatever the other folds are, and leaves the original network as it is; and warm_start makes no difference at all if the optimiser keeps no state. (Not as expected, proved: features of an unfitted net are given without an error and make it count as fitted.)", "quantifier": "all programs, networks, layers, optimisers, batches, rows and batch sizes", "why_tests_cant": "the outcome depends on the whole history of shared objects; tests run one fit and one prediction", "anchors": ["skada/deep/base.py:DomainAwareNet.fit", "skada/deep/base.py:DomainAwareNet.predict_proba", "skada/deep/base.py:DomainAwareNet.predict_features", "skada/deep/base.py:DomainAwareNet.feature_iter", "skada/deep/base.py:DomainAwareModule"]}
{"id": "C147", "title": "random_state: integers isolate, None and RandomState objects share", "statement": "In every program that splits, scores, fits KLIEP, subsamples, generates data, draws from numpy and consumes several splits in any interleaving: operations with an integer random_state show the same in every program that contains them in the same order, whatever else happens, and change neither numpy's global generator nor any RandomState object; more generally, operations on one generator are not affected by operations on others. With an integer, SourceTargetShuffleSplit gives the folds of the permutations drawn in sequence from that seed, LeaveOneDomainOut starts anew from the seed for every target domain, DEV and MixVal score all estimators on the same rows, and KLIEP compares all candidates for gamma with the same centres. np.random.seed makes programs with random_state=None reproducible, except the dataset generators, and such a program shows what it shows with one object RandomState(s) passed everywhere; more generally it does not matter which shared generator plays which role. (Not as documented, proved: the dataset generators raise TypeError for a RandomState object; two splits sharing a RandomState object depend on the order in which they are consumed.)", "quantifier": "all programs, generators, seeds, data, estimators and interleavings", "why_tests_cant": "reproducibility is about all other programs and histories; tests run the same call twice", "anchors": ["skada/model_selection.py:SourceTargetShuffleSplit", "skada/model_selection.py:LeaveOneDomainOut", "skada/model_selection.py:StratifiedDomainShuffleSplit", "skada/model_selection.py:DomainShuffleSplit", "skada/_reweight.py:KLIEPReweightAdapter.fit", "skada/metrics.py:DeepEmbeddedValidation", "skada/metrics.py:MixValScorer", "skada/transformers.py:Subsampler", "skada/datasets/_samples_generator.py:make_shifted_blobs"]}
{"id": "C148", "title": "Other coordinates give the same answers in other coordinates", "statement": "When all samples are expressed in other orthonormal coordinates (a rotation, a reflection, in particular another order of the features), the adapters that return data give the same result in these coordinates, for the samples of the fit and for new ones, or raise the same exception: CORAL with empirical or shrunk covariances, whichever eigenvectors the eigenvalue routine happens to return; exact optimal transport whose plan depends on the costs; linear Monge alignment when barycenter and maps turn with the moments. Subspace alignment and transfer subspace learning send the samples to the very same points with the turned components, which are as good as the original ones. The losses of Deep CORAL, DAN, DeepJDOT and SPA and the clusters of CAN do not change. The location-scale mapping respects the order of the features but not rotations, and the loss of CAN changes under rotations because it compares samples and centres along the wrong axis.", "quantifier": "all samples, domain labels, dimensions, orthonormal matrices over any field, shrinkages, square-root and eigenvalue routines, kernels, labels, and requests to transform", "why_tests_cant": "a test tries one rotation of one data set with a tolerance; it cannot separate the choice of eigenvectors of one LAPACK build from the mathematics, and cannot cover all rotations, degenerate eigenvalues and error cases", "anchors": ["skada/_mapping.py: CORALAdapter, BaseOTMappingAdapter, MultiLinearMongeAlignmentAdapter, MMDLSConSMappingAdapter, _sqrtm, _invsqrtm, _get_cov_mean", "skada/_utils.py: _estimate_covariance", "skada/_subspace.py: SubspaceAlignmentAdapter, TransferSubspaceLearningAdapter", "skada/deep/losses.py: deepcoral_loss, dan_loss, deepjdot_loss, gda_loss, nap_loss, cdd_loss"]}
{"id": "C149", "title": "Another unit of measurement gives the same answers in another unit", "statement": "When all samples are measured in another unit (every entry multiplied by the same positive number), CORAL, exact optimal transport, subspace alignment, transfer subspace learning with a given projection, and the location-scale mapping give the same result in the new unit, for the samples of the fit and for new ones, or raise the same exception. KLIEP gives the same weights when its numeric gammas are divided by the square of the factor, and so do the other methods that use a Gaussian kernel; the losses of DAN, DeepJDOT and the clusters of CAN are the same when their bandwidths, reg_dist and lower bounds are converted; the loss of Deep CORAL is multiplied by the fourth power of the factor. Not so: KLIEP with gamma='auto', DAN with its default bandwidths (the number added to the median has no unit), and, for transport, a change of the unit of one feature only.", "quantifier": "all samples, domain labels, dimensions, positive factors, shrinkages, square-root and eigenvalue routines, lists of gammas, folds, labels and requests to transform, over any (ordered) field; for CORAL also over the real numbers with the true square root and any correct eigenvalue routine", "why_tests_cant": "a test multiplies one data set by one factor and compares with a tolerance; it cannot cover all factors, degenerate eigenvalues and error cases, nor tell a tolerance from a constant without a unit such as 1e-7", "anchors": ["skada/_mapping.py: CORALAdapter, BaseOTMappingAdapter, MMDLSConSMappingAdapter, _sqrtm, _invsqrtm", "skada/_utils.py: _estimate_covariance", "skada/_reweight.py: KLIEPReweightAdapter", "skada/_subspace.py: SubspaceAlignmentAdapter, TransferSubspaceLearningAdapter", "skada/deep/losses.py: deepcoral_loss, dan_loss, deepjdot_loss", "skada/deep/utils.py: SphericalKMeans"]}

{
 "claims": [
  {
   "property": "C01",
   "status": "proved",
   "theorems": [
    "Skada.C01_split_merge_roundtrip"
   ],
   "note": "Round trip for any number of 1-D or 2-D arrays at once."
  },
  {
   "property": "C02",
   "status": "proved",
   "theorems": [
    "Skada.C02_merge_split_roundtrip"
   ],
   "note": ""
  },
  {
   "property": "C03",
   "status": "proved",
   "theorems": [
    "Skada.C03_merge_accepts_iff",
    "Skada.C03_merge_conserves"
   ],
   "note": ""
  },
  {
   "property": "C04",
   "status": "partial",
   "theorems": [
    "Skada.C04_counterexample",
    "Skada.C04_merged_values_partial",
    "Skada.C04_float_source_keeps"
   ],
   "note": "Counterexample: int source + float target truncates target values. Proved when the target values are representable in the source dtype."
  },
  {
   "property": "C05",
   "status": "proved",
   "theorems": [
    "Skada.C05_split_value",
    "Skada.C05_split_partition",
    "Skada.C05_split_errors"
   ],
   "note": ""
  },
  {
   "property": "C06",
   "status": "proved",
   "theorems": [
    "Skada.C06_per_domain_value",
    "Skada.C06_per_domain_injective",
    "Skada.C06_per_domain_members"
   ],
   "note": ""
  },
  {
   "property": "C07",
   "status": "proved",
   "theorems": [
    "Skada.C07_auto_regression",
    "Skada.C07_auto_classification",
    "Skada.C07_auto_refuses"
   ],
   "note": ""
  },
  {
   "property": "C08",
   "status": "partial",
   "theorems": [
    "Skada.C08_check_domain_code",
    "Skada.C08_check_Xy_domain_code",
    "Skada.C08_check_domain_partial",
    "Skada.C08_counterexample"
   ],
   "note": "Code tests n_sources for allow_multi_target (utils.py:117,220): counterexamples both ways; proved for allow_multi_target=True, and exact characterisation of the code."
  },
  {
   "property": "C09",
   "status": "proved",
   "theorems": [
    "Skada.C09_check_X_domain",
    "Skada.C09_allow_domains"
   ],
   "note": ""
  },
  {
   "property": "C10",
   "status": "partial",
   "theorems": [
    "Skada.C10_scatter_partial",
    "Skada.C10_order_independent_partial",
    "Skada.C10_no_domain",
    "Skada.C10_counterexample",
    "Skada.C10_containers_partial"
   ],
   "note": "Proved for outputs of one dtype (arrays and containers); counterexample when domains return different dtypes (first dtype wins)."
  },
  {
   "property": "C11",
   "status": "partial",
   "theorems": [
    "Skada.C11_remove_classification",
    "Skada.C11_remove_regression_partial",
    "Skada.C11_idempotent_partial",
    "Skada.C11_counterexample"
   ],
   "note": "Classification proved incl. idempotence; regression without infinite labels; counterexamples for inf labels and for repeated removal in regression."
  },
  {
   "property": "C12",
   "status": "proved",
   "theorems": [
    "Skada.C12_target_labels_hidden",
    "Skada.C12_kind_needed"
   ],
   "note": ""
  },
  {
   "property": "C13",
   "status": "proved",
   "theorems": [
    "Skada.C13_routing",
    "Skada.C13_rowwise",
    "Skada.C13_unseen"
   ],
   "note": ""
  },
  {
   "property": "C14",
   "status": "partial",
   "theorems": [
    "Skada.C14_fit_partial",
    "Skada.C14_counterexample"
   ],
   "note": "Proved when no row is dropped (transformer, sample_domain requested, or nothing masked); otherwise fit never returns: rows are removed from X but not from sample_domain (base.py:471-478)."
  },
  {
   "property": "C15",
   "status": "partial",
   "theorems": [
    "Skada.C15_select_side",
    "Skada.C15_source_target_fit",
    "Skada.C15_source_target_route_partial",
    "Skada.C15_counterexample",
    "Skada.C15_source_target_init",
    "Skada.C15_source_target_init_counterexample"
   ],
   "note": "SelectSource/SelectTarget and SelectSourceTarget.fit proved; SelectSourceTarget routing proved for transform/predict_proba/...; predict never exists on SelectSourceTarget (AttributeError)."
  },
  {
   "property": "C16",
   "status": "partial",
   "theorems": [
    "Skada.C16_source_labels_partial",
    "Skada.C16_unchanged_partial",
    "Skada.C16_counterexample"
   ],
   "note": "Source labels unchanged proved; the caller's target labels are overwritten in place (counterexample)."
  },
  {
   "property": "C17",
   "status": "partial",
   "theorems": [
    "Skada.C17_clone_partial",
    "Skada.C17_counterexample",
    "Skada.C17_counterexample_source_target",
    "Skada.C17_final_lost"
   ],
   "note": "Class and base parameters kept; masking choice reset to the default by every clone (get_params omits it), finality lost, SelectSourceTarget cannot be cloned."
  },
  {
   "property": "C18",
   "status": "proved",
   "theorems": [
    "Skada.C18_history",
    "Skada.C18_rejects"
   ],
   "note": ""
  },
  {
   "property": "C19",
   "status": "partial",
   "theorems": [
    "Skada.C19_steps",
    "Skada.C19_auto_names_distinct",
    "Skada.C19_final_partial",
    "Skada.C19_empty",
    "Skada.C19_counterexample"
   ],
   "note": "Proved; finality under the proviso that no already-final selector is given as an inner step (counterexample otherwise)."
  },
  {
   "property": "C20",
   "status": "partial",
   "theorems": [
    "Skada.C20_wrap",
    "Skada.C20_class",
    "Skada.C20_idempotent",
    "Skada.C20_rejects_partial",
    "Skada.C20_counterexample"
   ],
   "note": "Full decision table proved; unknown selector names raise AttributeError instead of ValueError (counterexample, for every such name)."
  },
  {
   "property": "C21",
   "status": "partial",
   "theorems": [
    "Skada.C21_registry_refines_partial",
    "Skada.C21_get_domain_partial",
    "Skada.C21_counterexample"
   ],
   "note": "Refinement to an append-only list for every history of add_domain/merge without explicit names of the automatic form `_n`; counterexample otherwise."
  },
  {
   "property": "C22",
   "status": "proved",
   "theorems": [
    "Skada.C22_pack_content",
    "Skada.C22_pack_errors"
   ],
   "note": ""
  },
  {
   "property": "C23",
   "status": "partial",
   "theorems": [
    "Skada.C23_pack_masks_partial",
    "Skada.C23_counterexample"
   ],
   "note": "Proved for 32/64 bit numeric labels and absent labels; counterexample for other label dtypes."
  },
  {
   "property": "C24",
   "status": "partial",
   "theorems": [
    "Skada.C24_lodo_folds_partial",
    "Skada.C24_counterexample",
    "Skada.C24_pack_lodo_folds"
   ],
   "note": "All labels but 0 (always the case after pack_lodo, see C24_pack_lodo_folds); counterexample for label 0."
  },
  {
   "property": "C25",
   "status": "proved",
   "theorems": [
    "Skada.C25_sizes",
    "Skada.C25_folds",
    "Skada.C25_no_domain"
   ],
   "note": ""
  },
  {
   "property": "C26",
   "status": "proved",
   "theorems": [
    "Skada.C26_proportional",
    "Skada.C26_rejects"
   ],
   "note": ""
  },
  {
   "property": "C27",
   "status": "proved",
   "theorems": [
    "Skada.C27_domain_shuffle_split"
   ],
   "note": ""
  },
  {
   "property": "C28",
   "status": "proved",
   "theorems": [
    "Skada.C28_feasible",
    "Skada.C28_empty",
    "Skada.C28_zero_iterations"
   ],
   "note": "Any ordered field, any gradient oracle, any starting point. C28_zero_iterations shows the iteration hypothesis is needed."
  },
  {
   "property": "C29",
   "status": "proved",
   "theorems": [
    "Skada.C29_direction"
   ],
   "note": "Stated through the API: iterate m+1 is the documented convex combination with a feasible minimiser of the linearised objective."
  },
  {
   "property": "C30",
   "status": "partial",
   "theorems": [
    "Skada.C30_equality_partial",
    "Skada.C30_two_rows_partial",
    "Skada.C30_rejects",
    "Skada.C30_solver",
    "Skada.C30_counterexample",
    "Skada.C30_counterexample_ignored"
   ],
   "note": "Proved (feasible, value returned, within explicit O(1/T) gap of every feasible point) for one equality row and for two opposite inequality rows; counterexamples: one inequality row is treated as equality (for all iteration counts); A is ignored when Aeq is given. Errors proved."
  },
  {
   "property": "C31",
   "status": "partial",
   "theorems": [
    "Skada.C31_density_partial",
    "Skada.C31_density_fallback",
    "Skada.C31_density_missing_side",
    "Skada.C31_counterexample_fallback",
    "Skada.C31_gaussian_partial",
    "Skada.C31_counterexample_gaussian",
    "Skada.C31_discriminator_partial",
    "Skada.C31_discriminator_labels",
    "Skada.C31_counterexample_discriminator"
   ],
   "note": "Density: proved except in the all-zero fallback (counterexample: average 1/n). Gaussian: exact ratio, not normalised (counterexample). Discriminator: proved normalised but decreasing in the target probability, i.e. inverted (for all inputs, plus counterexample)."
  },
  {
   "property": "C32",
   "status": "partial",
   "theorems": [
    "Skada.C32_counts_partial",
    "Skada.C32_total",
    "Skada.C32_counterexample"
   ],
   "note": "Code indexes with ~ on integers, so it counts over mirrored rows: proved for mirror-antisymmetric arrangements, C32_total gives the actual sum for all inputs, counterexample included."
  },
  {
   "property": "C33",
   "status": "proved",
   "theorems": [
    "Skada.C33_kliep",
    "Skada.C33_zero_iterations",
    "Skada.C33_stop",
    "Skada.C33_best_gamma"
   ],
   "note": "Any positive kernel, draw, step, tolerance; also no division by zero. C33_zero_iterations shows the iteration hypothesis is needed. Gamma selection proved as arg-max."
  },
  {
   "property": "C34",
   "status": "proved",
   "theorems": [
    "Skada.C34_ot_mapping",
    "Skada.C34_transform_targets"
   ],
   "note": "Any transport plan and mapping; also transform on target-only and new data."
  },
  {
   "property": "C35",
   "status": "partial",
   "theorems": [
    "Skada.C35_subspace_alignment_rows",
    "Skada.C35_tsl_rows",
    "Skada.C35_source_refused",
    "Skada.C35_kernel_new_data",
    "Skada.C35_kernel_training_order",
    "Skada.C35_kernel_rows_partial",
    "Skada.C35_counterexample"
   ],
   "note": "Subspace alignment and TSL proved for every layout; TCA/TJM proved on new data and, on training data, when sources precede targets; counterexample for interleaved training data. Eigensolver arbitrary, kernel symmetric."
  },
  {
   "property": "C36",
   "status": "partial",
   "theorems": [
    "Skada.C36_discrete",
    "Skada.C36_continuous",
    "Skada.C36_jcpot_partial",
    "Skada.C36_jcpot_order_counterexample",
    "Skada.C36_jcpot_label_counterexample"
   ],
   "note": "OTLabelProp proved for every layout (discrete: winning class of the row; continuous: barycentre within the label range). JCPOT: partial for targets grouped in increasing label order; counterexamples: several target domains in pack order get each other's labels; propagated labels are argmax indices, not class labels."
  },
  {
   "property": "C37",
   "status": "proved",
   "theorems": [
    "Skada.C37_loop",
    "Skada.C37_zero_iterations",
    "Skada.C37_regression_result"
   ],
   "note": "Both solvers share the loop; body arbitrary. n_iter_max=0 is an UnboundLocalError (proved)."
  },
  {
   "property": "C38",
   "status": "partial",
   "theorems": [
    "Skada.C38_counterexample",
    "Skada.C38_hinge_partial",
    "Skada.C38_multinomial",
    "Skada.C38_dispatch"
   ],
   "note": "Counterexample for all decision values: binary hinge cost is equal for both classes. Proved for one decision value per class and for the multinomial cost; error branches proved."
  },
  {
   "property": "C39",
   "status": "partial",
   "theorems": [
    "Skada.C39_selection_partial",
    "Skada.C39_no_selection",
    "Skada.C39_k_counterexample"
   ],
   "note": "Exactly the best admissible point per score column is marked; the role of k is refuted: any k >= 1 behaves like k = 1 (C39_k_counterexample)."
  },
  {
   "property": "C40",
   "status": "partial",
   "theorems": [
    "Skada.C40_threshold",
    "Skada.C40_samples_partial",
    "Skada.C40_ties",
    "Skada.C40_sparse_counterexample",
    "Skada.C40_weights",
    "Skada.C40_advanced",
    "Skada.C40_advanced_empty"
   ],
   "note": "Simple strategy: exact success condition (no tie at the threshold), IndexError otherwise; any plan with at most n+m non-zero entries fails with alpha = 1 (C40_sparse_counterexample). Advanced strategy proved without restriction."
  },
  {
   "property": "C41",
   "status": "proved",
   "theorems": [
    "Skada.C41_epoch",
    "Skada.C41_batches",
    "Skada.C41_errors"
   ],
   "note": "Proved for all shuffles, sizes and modes; rejected uses covered."
  },
  {
   "property": "C42",
   "status": "proved",
   "theorems": [
    "Skada.C42_only",
    "Skada.C42_errors"
   ],
   "note": "Proved for all shuffles and sizes; rejected uses covered."
  },
  {
   "property": "C43",
   "status": "proved",
   "theorems": [
    "Skada.C43_target_labels",
    "Skada.C43_value"
   ],
   "note": "Two-execution theorem and exact value for all losses."
  },
  {
   "property": "C44",
   "status": "partial",
   "theorems": [
    "Skada.C44_histories_partial",
    "Skada.C44_rank",
    "Skada.C44_inplace_counterexample"
   ],
   "note": "Refinement to lists of records over all nestings of public calls except in-place merge, including which calls fail; in-place merge refuted in general (rows merged in are never seen)."
  },
  {
   "property": "C45",
   "status": "partial",
   "theorems": [
    "Skada.C45_history_partial",
    "Skada.C45_features_counterexample",
    "Skada.C45_update_counterexample",
    "Skada.C45_collision_counterexample"
   ],
   "note": "Closed form over all histories: memory is (1-momentum)^visits times its initial value; the documented update is refuted (features never enter) and slots are shared between target domains."
  },
  {
   "property": "C46",
   "status": "partial",
   "theorems": [
    "Skada.C46_subsampler_partial",
    "Skada.C46_bounds_counterexample",
    "Skada.C46_domain_partial",
    "Skada.C46_domain_counterexample",
    "Skada.C46_stratified_partial",
    "Skada.C46_nan_counterexample"
   ],
   "note": "Proved for all data, sizes and draws: distinct rows, alignment of labels/domains/weights, exact counts, proportional shares per domain (and label). Partial because documented float sizes 0 and 1 raise ValueError (C46_bounds_counterexample), stratified variants refuse sizes leaving fewer dropped rows than groups (C46_domain_counterexample), NaN-masked labels are refused (C46_nan_counterexample)."
  },
  {
   "property": "C47",
   "status": "partial",
   "theorems": [
    "Skada.C47_supervised",
    "Skada.C47_labels",
    "Skada.C47_independent",
    "Skada.C47_default_counterexample"
   ],
   "note": "Rows, labels, domains and sign proved for all scorers; with scoring=None the estimator is scored without sample_domain (C47_default_counterexample)."
  },
  {
   "property": "C48",
   "status": "proved",
   "theorems": [
    "Skada.C48_weights",
    "Skada.C48_requires_weights"
   ],
   "note": "exp(wt-ws) is any non-negative function of the two log-densities; infinite log-densities of the source are not modelled."
  },
  {
   "property": "C49",
   "status": "partial",
   "theorems": [
    "Skada.C49_range_partial",
    "Skada.C49_mean_counterexample",
    "Skada.C49_fallback_counterexample",
    "Skada.C49_errors"
   ],
   "note": "Range per row, sum and mean proved over the reals; 'sum' = n*C*'mean' (C49_mean_counterexample) and the 1e-7 fallback gives negative entropies (C49_fallback_counterexample)."
  },
  {
   "property": "C50",
   "status": "partial",
   "theorems": [
    "Skada.C50_encoding",
    "Skada.C50_swap_partial",
    "Skada.C50_domain_zero_counterexample",
    "Skada.C50_regression_counterexample",
    "Skada.C50_constant",
    "Skada.C50_unmasked"
   ],
   "note": "Swap proved when no domain is labelled 0; domain 0 stays source (C50_domain_zero_counterexample); whole-number regression targets are treated as classes (C50_regression_counterexample)."
  },
  {
   "property": "C51",
   "status": "partial",
   "theorems": [
    "Skada.C51_pipeline",
    "Skada.C51_sharp",
    "Skada.C51_network_partial",
    "Skada.C51_equal_logits_counterexample",
    "Skada.C51_equal_logits_reachable",
    "Skada.C51_errors"
   ],
   "note": "Range proved; NaN when a row has equal logits and the Taylor branch is chosen (C51_equal_logits_counterexample). C51_sharp gives the exact range [1/C, (1/C)^(1/p)] for probability inputs."
  },
  {
   "property": "C52",
   "status": "partial",
   "theorems": [
    "Skada.C52_classif",
    "Skada.C52_subspace_partial",
    "Skada.C52_subspace_counterexample",
    "Skada.C52_errors",
    "Skada.C52_moons"
   ],
   "note": "Holds for the two-dimensional and moons data and for binary and regression subspace labels; multiclass subspace labels are right for even n only: for odd n the first points of a small cluster get the label of the big one (C52_subspace_counterexample)."
  },
  {
   "property": "C53",
   "status": "proved",
   "theorems": [
    "Skada.C53_missing_target_filled",
    "Skada.C53_missing_source_filled",
    "Skada.C53_missing_rows_filled"
   ],
   "note": ""
  },
  {
   "property": "C54",
   "status": "partial",
   "theorems": [
    "Skada.C54_counterexample",
    "Skada.C54_Xy_lengths_partial"
   ],
   "note": "Counterexample: an explicit label vector of another length is accepted. Proved for derived and scalar labels and X/y lengths."
  },
  {
   "property": "C55",
   "status": "proved",
   "theorems": [
    "Skada.C55_merge_infers_domain"
   ],
   "note": ""
  },
  {
   "property": "C56",
   "status": "proved",
   "theorems": [
    "Skada.C56_select_domain",
    "Skada.C56_never_selects_targets"
   ],
   "note": ""
  },
  {
   "property": "C57",
   "status": "partial",
   "theorems": [
    "Skada.C57_represented_partial",
    "Skada.C57_counterexample"
   ],
   "note": "Counterexample (8+2 rows, train 8, test 2: smaller group absent from test); proved for groups whose proportional share is at least one row."
  },
  {
   "property": "C58",
   "status": "partial",
   "theorems": [
    "Skada.C58_counterexample_per_domain",
    "Skada.C58_counterexample_source_target"
   ],
   "note": "Refuted: score never returns for PerDomain and SelectSourceTarget."
  },
  {
   "property": "C59",
   "status": "partial",
   "theorems": [
    "Skada.C59_auto_names_valid_partial",
    "Skada.C59_counterexample",
    "Skada.C59_counterexample_unnamed"
   ],
   "note": "Proved for unnamed, non-nested steps; every pipeline with a named nested DA pipeline is rejected at fit (counterexample), also two unnamed nested ones of the same type."
  },
  {
   "property": "C60",
   "status": "partial",
   "theorems": [
    "Skada.C60_set_param_partial",
    "Skada.C60_counterexample"
   ],
   "note": "Proved for all names but base_estimator; counterexample for DASVMClassifier-like base estimators."
  },
  {
   "property": "C61",
   "status": "proved",
   "theorems": [
    "Skada.C61_rate"
   ],
   "note": ""
  },
  {
   "property": "C62",
   "status": "partial",
   "theorems": [
    "Skada.C62_kmm_partial",
    "Skada.C62_counterexample"
   ],
   "note": "Non-negativity, zero target weights and the sum constraint proved; the upper bound B is ignored by the default solver (counterexample for all T >= 72)."
  },
  {
   "property": "C63",
   "status": "proved",
   "theorems": [
    "Skada.C63_target_shift",
    "Skada.C63_lengths",
    "Skada.C63_new_samples"
   ],
   "note": ""
  },
  {
   "property": "C64",
   "status": "proved",
   "theorems": [
    "Skada.C64_rows",
    "Skada.C64_missing_side",
    "Skada.C64_sqrtm",
    "Skada.C64_coral_aligns",
    "Skada.C64_shrinkage"
   ],
   "note": "Row-wise behaviour for any eigh/cov; alignment of covariances proved for any exact eigendecomposition with positive eigenvalues."
  },
  {
   "property": "C65",
   "status": "partial",
   "theorems": [
    "Skada.C65_rows_partial",
    "Skada.C65_counterexample",
    "Skada.C65_unknown_domain",
    "Skada.C65_fit",
    "Skada.C65_statistics",
    "Skada.C65_weighted_mean",
    "Skada.C65_cov_psd",
    "Skada.C65_aligns"
   ],
   "note": "Proved for floating point X; counterexample: for integer X the mapped values are truncated (X_adapt = X.copy()). Domains not seen in fit raise KeyError (proved). Statistics proved symmetric PSD."
  },
  {
   "property": "C66",
   "status": "proved",
   "theorems": [
    "Skada.C66_fit_transform",
    "Skada.C66_new_labelled",
    "Skada.C66_new_unlabelled"
   ],
   "note": "Discrete labels (classification branch). Optimiser output and distance arbitrary."
  },
  {
   "property": "C67",
   "status": "proved",
   "theorems": [
    "Skada.C67_mmd_matrix",
    "Skada.C67_centring",
    "Skada.C67_objective",
    "Skada.C67_frobenius"
   ],
   "note": "Any field of characteristic zero; index order is sources first, as in the code."
  },
  {
   "property": "C68",
   "status": "partial",
   "theorems": [
    "Skada.C68_components_partial",
    "Skada.C68_orthonormal_needs_commuting",
    "Skada.C68_counterexample",
    "Skada.C68_selection"
   ],
   "note": "Selection proved; eigenvector equation proved when the eigensolver diagonalises the solution; counterexample: the matrix handed to eigh is not symmetric, so for a concrete kernel no orthonormal basis consists of components."
  },
  {
   "property": "C69",
   "status": "partial",
   "theorems": [
    "Skada.C69_counterexample",
    "Skada.C69_zero_iterations",
    "Skada.C69_stop_partial"
   ],
   "note": "Counterexample holds for every problem: the first test divides by -2 tol, so the loop always stops after one iteration; max_iter=0 is an UnboundLocalError; C69_stop_partial describes later tests."
  },
  {
   "property": "C70",
   "status": "partial",
   "theorems": [
    "Skada.C70_pca",
    "Skada.C70_pca_regularised",
    "Skada.C70_flda_inverted",
    "Skada.C70_flda_counterexample",
    "Skada.C70_lpp_value",
    "Skada.C70_lpp_counterexample",
    "Skada.C70_constructor"
   ],
   "note": "pca proved (any reg for orthonormal projections). flda: proved that the loss is inverted (counterexample). lpp: exact value proved, sign inverted (counterexample). Constructor checks proved."
  },
  {
   "property": "C71",
   "status": "partial",
   "theorems": [
    "Skada.C71_fit_iff",
    "Skada.C71_counterexample",
    "Skada.C71_default_partial"
   ],
   "note": "Exact condition proved; default fails when a domain has fewer rows than min(total rows, features) (counterexample for all such data)."
  },
  {
   "property": "C72",
   "status": "proved",
   "theorems": [
    "Skada.C72_descent",
    "Skada.C72_stops",
    "Skada.C72_marginals",
    "Skada.C72_regression"
   ],
   "note": "OT solver exact and estimator an exact weighted least-squares fit (hypotheses)."
  },
  {
   "property": "C73",
   "status": "proved",
   "theorems": [
    "Skada.C73_data",
    "Skada.C73_membership",
    "Skada.C73_loss",
    "Skada.C73_loss_bounds"
   ],
   "note": "Class cost arbitrary; equality when the threshold only drops zero entries, two-sided bound otherwise."
  },
  {
   "property": "C74",
   "status": "partial",
   "theorems": [
    "Skada.C74_training",
    "Skada.C74_rounds",
    "Skada.C74_proba_counterexample",
    "Skada.C74_axis_error",
    "Skada.C74_axis_counterexample",
    "Skada.C74_k_zero"
   ],
   "note": "Training data, recorded masks and prediction model proved; refuted: predict_proba uses the source-only model, AxisError once no row is left, k = 0 fails."
  },
  {
   "property": "C75",
   "status": "partial",
   "theorems": [
    "Skada.C75_training",
    "Skada.C75_refit_counterexample",
    "Skada.C75_max_iter",
    "Skada.C75_last_step"
   ],
   "note": "Chain, counts, budgets and last step proved for all successful fits; refuted: a second fit starts with a larger max_iter; base estimators without max_iter always fail."
  },
  {
   "property": "C76",
   "status": "partial",
   "theorems": [
    "Skada.C76_predict",
    "Skada.C76_score_partial",
    "Skada.C76_score_counterexample"
   ],
   "note": "Prediction proved; score proved when no row is left out; refuted as soon as a source row is present with allow_source=False."
  },
  {
   "property": "C77",
   "status": "partial",
   "theorems": [
    "Skada.C77_weighted_partial",
    "Skada.C77_domain_zero_counterexample",
    "Skada.C77_broadcast_counterexample",
    "Skada.C77_default_domain",
    "Skada.C77_scalar"
   ],
   "note": "Proved without domain 0; refuted with domain 0 (RuntimeError, or one weight applied to all rows)."
  },
  {
   "property": "C78",
   "status": "partial",
   "theorems": [
    "Skada.C78_restrict",
    "Skada.C78_per_domain",
    "Skada.C78_nan_counterexample"
   ],
   "note": "Proved for all reachable datasets; the label clause is refuted for NaN-masked regression targets."
  },
  {
   "property": "C79",
   "status": "partial",
   "theorems": [
    "Skada.C79_range_partial",
    "Skada.C79_self",
    "Skada.C79_formula",
    "Skada.C79_no_proba",
    "Skada.C79_underflow_counterexample"
   ],
   "note": "Exact arithmetic; with underflowing exp the score is NaN for small temperatures (C79_underflow_counterexample)."
  },
  {
   "property": "C80",
   "status": "partial",
   "theorems": [
    "Skada.C80_constant_partial",
    "Skada.C80_flat_closed_form",
    "Skada.C80_default_counterexample",
    "Skada.C80_pairing_counterexample",
    "Skada.C80_loss",
    "Skada.C80_weights",
    "Skada.C80_single_counterexample"
   ],
   "note": "Constant losses are estimated exactly for column losses with non-constant weights; the default loss returns a flat array and broadcasting destroys the pairing (C80_default_counterexample, C80_pairing_counterexample)."
  },
  {
   "property": "C81",
   "status": "proved",
   "theorems": [
    "Skada.C81_mixval",
    "Skada.C81_intra_labels",
    "Skada.C81_errors"
   ],
   "note": ""
  },
  {
   "property": "C82",
   "status": "partial",
   "theorems": [
    "Skada.C82_softmax_partial",
    "Skada.C82_taylor_partial",
    "Skada.C82_taylor_counterexample"
   ],
   "note": "Softmax branch and close logits proved; Taylor branch reverses the ranking for logit gaps above 2 (C82_taylor_counterexample)."
  },
  {
   "property": "C83",
   "status": "partial",
   "theorems": [
    "Skada.C83_layout_partial",
    "Skada.C83_subspace_counterexample",
    "Skada.C83_points",
    "Skada.C83_errors",
    "Skada.C83_blobs",
    "Skada.C83_noise",
    "Skada.C83_frequency",
    "Skada.C83_moons"
   ],
   "note": "Partial because the subspace shift gives 4*n points per side instead of the documented 8*n (C83_subspace_counterexample). Signals of the frequency generator are an argument."
  },
  {
   "property": "C84",
   "status": "proved",
   "theorems": [
    "Skada.C84_share",
    "Skada.C84_errors"
   ],
   "note": "Exact arithmetic: int(8*n*ratio) is the floor of the exact product."
  },
  {
   "property": "C85",
   "status": "proved",
   "theorems": [
    "Skada.C85_standardized",
    "Skada.C85_shifted"
   ],
   "note": "Real arithmetic with the real square root."
  },
  {
   "property": "C86",
   "status": "partial",
   "theorems": [
    "Skada.C86_coral",
    "Skada.C86_invariant",
    "Skada.C86_flag",
    "Skada.C86_centered_counterexample",
    "Skada.C86_errors"
   ],
   "note": "assume_centered has no effect: torch.cov centres anyway, so the flag's documented behaviour is refuted by C86_centered_counterexample; everything else is proved for all batches of at least two rows, fewer rows give NaN."
  },
  {
   "property": "C87",
   "status": "partial",
   "theorems": [
    "Skada.C87_dan",
    "Skada.C87_zero_iff",
    "Skada.C87_invariant",
    "Skada.C87_default",
    "Skada.C87_nan",
    "Skada.C87_gaussian_counterexample"
   ],
   "note": "Proved for the kernel the code computes, exp(-dist/sigma) summed over bandwidths (positive definite via an integral representation proved here). The documented Gaussian kernel is refuted (distance not squared)."
  },
  {
   "property": "C88",
   "status": "partial",
   "theorems": [
    "Skada.C88_terms_partial",
    "Skada.C88_identical_counterexample",
    "Skada.C88_combination",
    "Skada.C88_pseudo_labels",
    "Skada.C88_kept",
    "Skada.C88_discarded",
    "Skada.C88_order",
    "Skada.C88_kept_signs",
    "Skada.C88_discard_counterexample",
    "Skada.C88_errors"
   ],
   "note": "The code masks columns only and divides by squared counts, so terms only bound the class-wise MMD from above (C88_terms_partial) and identical domains have a positive loss (counterexample). The distance filter takes the cosine along the wrong axis: it depends only on the signs of the features (C88_kept_signs) and can drop a row equal to a centre's direction."
  },
  {
   "property": "C89",
   "status": "proved",
   "theorems": [
    "Skada.C89_mcc",
    "Skada.C89_range",
    "Skada.C89_invariant",
    "Skada.C89_confident",
    "Skada.C89_nan"
   ],
   "note": "Real exp/log. Consequence: a batch of one row has a constant loss."
  },
  {
   "property": "C90",
   "status": "partial",
   "theorems": [
    "Skada.C90_nap",
    "Skada.C90_range",
    "Skada.C90_blind_counterexample",
    "Skada.C90_errors"
   ],
   "note": "Holds when at least K remembered rows lie outside the batch; when the batch covers the memory the features are ignored (C90_blind_counterexample)."
  },
  {
   "property": "C91",
   "status": "partial",
   "theorems": [
    "Skada.C91_symmetric",
    "Skada.C91_errors",
    "Skada.C91_distances",
    "Skada.C91_total",
    "Skada.C91_laplac2",
    "Skada.C91_laplac3",
    "Skada.C91_laplac1_counterexample",
    "Skada.C91_cos_counterexample"
   ],
   "note": "The default laplac1 lacks the identity (row sums negative) and cos with laplac3 fails on negative row sums: counterexamples. Singular values are a parameter."
  },
  {
   "property": "C92",
   "status": "proved",
   "theorems": [
    "Skada.C92_cost",
    "Skada.C92_pairing",
    "Skada.C92_zero",
    "Skada.C92_weights",
    "Skada.C92_errors"
   ],
   "note": "Exactness of ot.emd2 for uniform weights is a hypothesis (shown satisfiable); pairing form via Birkhoff's theorem."
  },
  {
   "property": "C93",
   "status": "partial",
   "theorems": [
    "Skada.C93_dissimilarity",
    "Skada.C93_predict",
    "Skada.C93_fit",
    "Skada.C93_stop",
    "Skada.C93_descent",
    "Skada.C93_restarts",
    "Skada.C93_zero_row_counterexample",
    "Skada.C93_zero_row_restarts_counterexample",
    "Skada.C93_errors",
    "Skada.C93_stale_counterexample"
   ],
   "note": "Descent needs non-zero rows, at most n_clusters centres, and row sums that are zero or not below the norm clamp. One zero row ruins the fit (C93_zero_row_counterexample); at max_iter the inertia uses stale labels (C93_stale_counterexample)."
  },
  {
   "property": "C94",
   "status": "partial",
   "theorems": [
    "Skada.C94_range",
    "Skada.C94_value",
    "Skada.C94_indistinguishable",
    "Skada.C94_cdan",
    "Skada.C94_errors",
    "Skada.C94_default_counterexample",
    "Skada.C94_reversal"
   ],
   "note": "All but the last clause proved; the default classifier (softmax over one class) outputs 1 for every row, so the loss is the constant 100 (C94_default_counterexample). torch's BCELoss is modelled with its clamp at -100."
  },
  {
   "property": "C95",
   "status": "partial",
   "theorems": [
    "Skada.C95_target_partial",
    "Skada.C95_blind_counterexample",
    "Skada.C95_target_counterexample",
    "Skada.C95_target_range",
    "Skada.C95_loss",
    "Skada.C95_double_softmax_counterexample"
   ],
   "note": "The target term averages over all row/label pairs, so it equals the documented one only when all rows share a pseudo-label (C95_target_partial, two counterexamples); the default classifier's own softmax keeps the source term away from 0 (C95_double_softmax_counterexample)."
  },
  {
   "property": "C96",
   "status": "partial",
   "theorems": [
    "Skada.C96_adv",
    "Skada.C96_first_fit_partial",
    "Skada.C96_refit_counterexample",
    "Skada.C96_loss",
    "Skada.C96_default_counterexample",
    "Skada.C96_zero_epochs"
   ],
   "note": "Holds in the first fit; the counter is never reset, so later fits use weights above 1 (C96_refit_counterexample)."
  },
  {
   "property": "C97",
   "status": "partial",
   "theorems": [
    "Skada.C97_multilinear",
    "Skada.C97_kernel",
    "Skada.C97_random",
    "Skada.C97_size",
    "Skada.C97_required",
    "Skada.C97_generator_counterexample",
    "Skada.C97_repeat_counterexample",
    "Skada.C97_stream"
   ],
   "note": "Outer product, random layer and sizes proved; an integer seed reseeds torch's global generator on every batch, so all other random draws repeat (C97_generator_counterexample, C97_repeat_counterexample)."
  },
  {
   "property": "C98",
   "status": "partial",
   "theorems": [
    "Skada.C98_independent",
    "Skada.C98_plain",
    "Skada.C98_weighted_partial",
    "Skada.C98_small_counterexample",
    "Skada.C98_weights_counterexample",
    "Skada.C98_errors"
   ],
   "note": "Independence proved; equality with the plain loop for unweighted data (C98_plain) and for weighted source data whose domains are positive (C98_weighted_partial); with fewer rows than batch_size nothing is trained, silently (C98_small_counterexample), and a weighted target batch gives NaN or an error (C98_weights_counterexample)."
  },
  {
   "property": "C99",
   "status": "proved",
   "theorems": [
    "Skada.C99_no_leak"
   ],
   "note": "Proved for both loaders; callbacks are parameters assumed not to use target labels (C101_no_leak discharges this for CAN's)."
  },
  {
   "property": "C100",
   "status": "partial",
   "theorems": [
    "Skada.C100_same",
    "Skada.C100_keyword_counterexample",
    "Skada.C100_cdan_weights",
    "Skada.C100_cdan",
    "Skada.C100_layer",
    "Skada.C100_batch_size"
   ],
   "note": "A base module without a sample_weight parameter can be trained but every prediction is a TypeError (C100_keyword_counterexample); CDAN refuses weights (C100_cdan_weights)."
  },
  {
   "property": "C101",
   "status": "partial",
   "theorems": [
    "Skada.C101_centroids_partial",
    "Skada.C101_labels_counterexample",
    "Skada.C101_no_leak",
    "Skada.C101_empty",
    "Skada.C101_clusters_partial"
   ],
   "note": "Proved for source labels exactly 0..C-1; other labels lose classes, shift centroids or fail (C101_labels_counterexample). The cost bound keeps C93's assumption that no partial sum of unit rows is tiny but non-zero."
  },
  {
   "property": "C102",
   "status": "partial",
   "theorems": [
    "Skada.C102_begin",
    "Skada.C102_pseudo_counterexample",
    "Skada.C102_blind_counterexample"
   ],
   "note": "The initial memory is as claimed (C102_begin). The updates are not: the new values are discarded, so every pseudo-label is class 0 in every training (C102_pseudo_counterexample) and nothing the network computes enters the memory (C102_blind_counterexample)."
  },
  {
   "property": "C103",
   "status": "partial",
   "theorems": [
    "Skada.C103_probabilities",
    "Skada.C103_batch_size",
    "Skada.C103_raw_counterexample",
    "Skada.C103_mixing_counterexample",
    "Skada.C103_errors"
   ],
   "note": "Proved for 'auto' with cross-entropy; other criteria and None return raw outputs (C103_raw_counterexample), and a callable that mixes rows depends on the batch size (C103_mixing_counterexample)."
  },
  {
   "property": "C104",
   "status": "partial",
   "theorems": [
    "Skada.C104_fresh",
    "Skada.C104_shared_counterexample",
    "Skada.C104_epochs",
    "Skada.C104_count_counterexample",
    "Skada.C104_mixed_counterexample",
    "Skada.C104_can"
   ],
   "note": "Proved for None and a single callback. A list is extended in place: nets built from one list share the callbacks of all, epochs are counted several times, and CAN followed by SPA breaks the CAN net (counterexamples)."
  },
  {
   "property": "C105",
   "status": "partial",
   "theorems": [
    "Skada.C105_batches",
    "Skada.C105_loss",
    "Skada.C105_small_counterexample",
    "Skada.C105_errors"
   ],
   "note": "Batches, uses and loss as claimed, and the errors. If the ruling side is smaller than the batch size (both sides in the default mode), fit makes no step at all and returns the untrained network without a warning (C105_small_counterexample)."
  },
  {
   "property": "C106",
   "status": "partial",
   "theorems": [
    "Skada.C106_forms",
    "Skada.C106_roundtrip",
    "Skada.C106_arguments",
    "Skada.C106_ignored_counterexample",
    "Skada.C106_errors",
    "Skada.C106_no_domain_counterexample",
    "Skada.C106_domains"
   ],
   "note": "Forms, round trips, dict priority, errors and domains as claimed. Arguments beside a DeepDADataset, beside a torch Dataset (y, sample_domain) and beside an empty dict are dropped without check (C106_ignored_counterexample); without sample_domain every row is a source, so predict with default arguments fails on any array (C106_no_domain_counterexample)."
  },
  {
   "property": "C107",
   "status": "partial",
   "theorems": [
    "Skada.C107_deepcoral",
    "Skada.C107_dan",
    "Skada.C107_can",
    "Skada.C107_mcc",
    "Skada.C107_deepjdot",
    "Skada.C107_dann",
    "Skada.C107_dann_default_counterexample",
    "Skada.C107_cdan",
    "Skada.C107_mdd",
    "Skada.C107_spa",
    "Skada.C107_reduction",
    "Skada.C107_overwritten_counterexample",
    "Skada.C107_missing",
    "Skada.C107_missing_spa",
    "Skada.C107_single_counterexample",
    "Skada.C107_training"
   ],
   "note": "Loss of each method as claimed, from the factory to the formula. The base criterion's own reduction is overwritten by criterion__reduction (C107_overwritten_counterexample); with the default domain classifier DANN's term is the constant 100*reg (C107_dann_default_counterexample); DeepCoral with one row on a side is NaN (C107_single_counterexample)."
  },
  {
   "property": "C108",
   "status": "partial",
   "theorems": [
    "Skada.C108_training_data",
    "Skada.C108_propagated_labels",
    "Skada.C108_unclaimed_weights",
    "Skada.C108_domain_aware_final",
    "Skada.C108_negative_class_counterexample"
   ],
   "note": "Proved for all chains of adapters and the default shared selectors. With the classes -1 and 1 the source rows of class -1 count as masked and are dropped from training (C108_negative_class_counterexample)."
  },
  {
   "property": "C109",
   "status": "partial",
   "theorems": [
    "Skada.C109_predict",
    "Skada.C109_predict_targets",
    "Skada.C109_sources_refused",
    "Skada.C109_fit_then_predict",
    "Skada.C109_reweight_adapter",
    "Skada.C109_ot_adapter",
    "Skada.C109_reweighting_method",
    "Skada.C109_mapping_method",
    "Skada.C109_score_targets",
    "Skada.C109_score_counterexample"
   ],
   "note": "Proved for all pipelines of adapters with the stated behaviour; reweighting and OT mapping adapters shown to have it. Scoring with the classes -1 and 1 leaves the rows of class -1 out (C109_score_counterexample)."
  },
  {
   "property": "C110",
   "status": "partial",
   "theorems": [
    "Skada.C110_rows",
    "Skada.C110_coral",
    "Skada.C110_subspace_alignment",
    "Skada.C110_transfer_subspace_learning",
    "Skada.C110_kernel_partial",
    "Skada.C110_monge_partial",
    "Skada.C110_monge_unknown_domain",
    "Skada.C110_mmdls",
    "Skada.C110_label_propagation",
    "Skada.C110_reweighting",
    "Skada.C110_kliep",
    "Skada.C110_density",
    "Skada.C110_kmm",
    "Skada.C110_discriminator",
    "Skada.C110_kernel_counterexample",
    "Skada.C110_jcpot_counterexample"
   ],
   "note": "Proved for CORAL (with the covariance of the mapped sources equal to that of the targets), SA, TSL, MMDLSConS, OT label propagation, KLIEP, KMM, density and discriminator reweighting. TCA/TJM only when no target row precedes a source row (C110_kernel_partial, C110_kernel_counterexample). Linear Monge alignment only for target labels seen during fit; otherwise a KeyError (C110_monge_unknown_domain). JCPOT trains on class indices instead of labels (C110_jcpot_counterexample)."
  },
  {
   "property": "C111",
   "status": "proved",
   "theorems": [
    "Skada.C111_per_domain_fit",
    "Skada.C111_per_domain_predict",
    "Skada.C111_per_domain_refusals",
    "Skada.C111_source_target_fit",
    "Skada.C111_source_target_last",
    "Skada.C111_source_target_predict",
    "Skada.C111_per_domain_method"
   ],
   "note": "PerDomain masks the target labels it passes on; SelectSourceTarget hands the true target labels to its target transformer and to the rest of the pipeline. Transformers that ask for sample_domain inside PerDomain are covered by C13/C14 only."
  },
  {
   "property": "C112",
   "status": "partial",
   "theorems": [
    "Skada.C112_regressor_fit",
    "Skada.C112_classifier_fit",
    "Skada.C112_target_labels_unused",
    "Skada.C112_label_range",
    "Skada.C112_classes_kept",
    "Skada.C112_classifier_descent",
    "Skada.C112_regressor_descent",
    "Skada.C112_class_cost",
    "Skada.C112_predict",
    "Skada.C112_fit_returns_none_counterexample",
    "Skada.C112_base_estimator",
    "Skada.C112_pipeline_fit",
    "Skada.C112_pipeline_predict",
    "Skada.C112_allow_source_counterexample"
   ],
   "note": "Counterexamples: fit returns None, so chained calls fail; allow_source=True through a pipeline is a TypeError for JDOTRegressor. Set-ups that divide 0/0 (a side without rows or total weight, all distances zero) and zero target weights in regression are left open (an arbitrary result)."
  },
  {
   "property": "C113",
   "status": "partial",
   "theorems": [
    "Skada.C113_gradual_pipeline_fit",
    "Skada.C113_gradual_target_labels",
    "Skada.C113_gradual_direct_counterexample",
    "Skada.C113_dasvm_pipeline_fit",
    "Skada.C113_pipeline_query",
    "Skada.C113_source_rows_accepted",
    "Skada.C113_gradual_fit_then_predict",
    "Skada.C113_dasvm_fit_then_predict",
    "Skada.C113_kept",
    "Skada.C113_before_fit_counterexample",
    "Skada.C113_gradual_score",
    "Skada.C113_dasvm_score",
    "Skada.C113_pipeline_score"
   ],
   "note": "Counterexamples: called directly, GradualEstimator.fit hands true target labels to the transport method, and different target labels can train different classifiers; a GradualEstimator around an already fitted classifier predicts before fit; an unfitted DASVMClassifier raises AttributeError from predict. Missing labels (y=None) are simplified to a TypeError."
  },
  {
   "property": "C114",
   "status": "partial",
   "theorems": [
    "Skada.C114_clone_fit_partial",
    "Skada.C114_clone_predict",
    "Skada.C114_mask_counterexample",
    "Skada.C114_source_target_counterexample",
    "Skada.C114_cold_cache_partial",
    "Skada.C114_cached_partial",
    "Skada.C114_label_adapters",
    "Skada.C114_jcpot_source_labels",
    "Skada.C114_neighbours_cloned",
    "Skada.C114_final_counterexample",
    "Skada.C114_cached_counterexample",
    "Skada.C114_neighbours_counterexample"
   ],
   "note": "Proved for selectors with the default masking of their class and a last estimator that does not transform. Counterexamples: mask_target_labels=False is lost, so the clone learns from source rows only, and with memory the result depends on the state of the cache; a clone forgets which step is final, so unclaimed weights are dropped silently instead of raising ValueError when the last step transforms; no pipeline with SelectSourceTarget can be cloned; set_params(n_neighbors=...) on a NearestNeighborReweightAdapter outside a pipeline has no effect."
  },
  {
   "property": "C115",
   "status": "partial",
   "theorems": [
    "Skada.C115_stored",
    "Skada.C115_clone_partial",
    "Skada.C115_set_params",
    "Skada.C115_unknown_partial",
    "Skada.C115_misspelt_counterexample",
    "Skada.C115_kwargs_counterexample",
    "Skada.C115_none_counterexample",
    "Skada.C115_ensemble_counterexample",
    "Skada.C115_unchecked_counterexample",
    "Skada.C115_stale_counterexample"
   ],
   "note": "Counterexamples: the **kwargs of JDOTRegressor/JDOTClassifier are lost by clone (so in every pipeline); DASVMClassifier ignores unknown arguments; None, where the constructor takes it for a default, is accepted by set_params but clone then raises RuntimeError; an unfitted scikit-learn ensemble as domain_classifier or weight_estimator raises AttributeError in the constructor; set_params accepts values the constructor rejects; the classifier inside NearestNeighborReweightAdapter is stale after set_params."
  },
  {
   "property": "C116",
   "status": "partial",
   "theorems": [
    "Skada.C116_forward",
    "Skada.C116_defaults_partial",
    "Skada.C116_defaults_counterexample",
    "Skada.C116_final",
    "Skada.C116_isolated_partial",
    "Skada.C116_isolated_counterexample",
    "Skada.C116_transport"
   ],
   "note": "Forwarding proved for all functions. Counterexamples: LinearOTMapping() uses reg=1 although its documentation and the adapter say 1e-8, OTLabelProp() passes reg=0 where the adapter has None; ClassRegularizerOTMapping() pipelines share one default SVC object, so set_params on one changes all."
  },
  {
   "property": "C117",
   "status": "partial",
   "theorems": [
    "Skada.C117_present",
    "Skada.C117_absent",
    "Skada.C117_one_download",
    "Skada.C117_retry_counterexample",
    "Skada.C117_all",
    "Skada.C117_home_all",
    "Skada.C117_partial_folder_counterexample"
   ],
   "note": "Counterexamples: the folder is created before the download, so after a failed download no later call downloads again, each raises FileNotFoundError (proved for all later calls of all three loaders); a download interrupted while unpacking leaves part of the data, which is then returned as if complete."
  },
  {
   "property": "C118",
   "status": "partial",
   "theorems": [
    "Skada.C118_office31_partial",
    "Skada.C118_listing_order",
    "Skada.C118_labels_partial",
    "Skada.C118_office31_errors",
    "Skada.C118_office_home",
    "Skada.C118_office_home_rows",
    "Skada.C118_amazon",
    "Skada.C118_labels_counterexample",
    "Skada.C118_rows_counterexample",
    "Skada.C118_preset_string_counterexample",
    "Skada.C118_dropped_counterexample"
   ],
   "note": "Office-31 proved for files with one sample each. Counterexamples: a file with several samples gives more rows than labels; a category missing in one domain shifts the integer labels; the value of a preset given as a string is a substring test; Office-Home lines of unknown domains are dropped."
  },
  {
   "property": "C119",
   "status": "partial",
   "theorems": [
    "Skada.C119_mnist_usps_partial",
    "Skada.C119_replacement_counterexample"
   ],
   "note": "Counterexample: rows are drawn with replacement, so even n_samples=1 need not return every row."
  },
  {
   "property": "C120",
   "status": "partial",
   "theorems": [
    "Skada.C120_result",
    "Skada.C120_warning_partial",
    "Skada.C120_warning_counterexample",
    "Skada.C120_nan_counterexample"
   ],
   "note": "Result and descent proved outright. Warning exact if the optimiser evaluated its final point last; counterexamples: a rejected trial step hides a gradient of size 1, and a NaN gradient never warns."
  },
  {
   "property": "C121",
   "status": "partial",
   "theorems": [
    "Skada.C121_improves_partial",
    "Skada.C121_class_rows",
    "Skada.C121_per_class",
    "Skada.C121_returns",
    "Skada.C121_weights",
    "Skada.C121_labels_counterexample",
    "Skada.C121_start_counterexample"
   ],
   "note": "Proved for classification. Counterexamples: with continuous labels the result does not depend on the labels, and the start is not the identity map, so the criterion may end above that of the unmapped rows."
  },
  {
   "property": "C122",
   "status": "partial",
   "theorems": [
    "Skada.C122_divergence",
    "Skada.C122_errors",
    "Skada.C122_symm",
    "Skada.C122_same",
    "Skada.C122_basis",
    "Skada.C122_fit",
    "Skada.C122_fit_pca",
    "Skada.C122_negative_counterexample"
   ],
   "note": "Counterexample: the three means of the divergence use three different kernels, so it can be negative, below its value for identical samples."
  },
  {
   "property": "C123",
   "status": "partial",
   "theorems": [
    "Skada.C123_scale",
    "Skada.C123_units",
    "Skada.C123_folds",
    "Skada.C123_select",
    "Skada.C123_weights",
    "Skada.C123_refit",
    "Skada.C123_refit_scale",
    "Skada.C123_refit_frozen",
    "Skada.C123_refit_counterexample",
    "Skada.C123_shift_counterexample",
    "Skada.C123_nan_counterexample"
   ],
   "note": "Selection, folds, units and weights proved. Refit proved for one value and for lists of numbers; for lists with 'scale' C123_refit_frozen shows every later fit uses the first data's variance. Counterexamples for NaN scores and for shifting one feature. Floating-point underflow of exp is outside (exp is assumed positive in the selection theorem)."
  },
  {
   "property": "C124",
   "status": "partial",
   "theorems": [
    "Skada.C124_apart",
    "Skada.C124_fit_other",
    "Skada.C124_build_other",
    "Skada.C124_final",
    "Skada.C124_nested",
    "Skada.C124_nested_counterexample",
    "Skada.C124_nested_fit_counterexample",
    "Skada.C124_selector_counterexample"
   ],
   "note": "Separation proved (refinement to pipelines owning their steps) for all histories without nested pipelines and without reused selector objects; for those C124_nested and the two counterexamples describe the sharing. Shared selectors only; per-domain selectors create their estimators the same way but are not part of this heap model."
  },
  {
   "property": "C125",
   "status": "partial",
   "theorems": [
    "Skada.C125_call",
    "Skada.C125_optimal",
    "Skada.C125_failure",
    "Skada.C125_missing_side",
    "Skada.C125_ignored",
    "Skada.C125_frank_wolfe",
    "Skada.C125_nonsymmetric_counterexample"
   ],
   "note": "Proved for symmetric Q under an explicit contract of scipy.optimize.minimize (feasible up to delta, stationary up to epsilon for the derivative given). Counterexample for non-symmetric Q; failure returns the value with a warning; lengths of lb/ub are assumed to be n; A without b always ends in a warning."
  },
  {
   "property": "C126",
   "status": "proved",
   "theorems": [
    "Skada.C126_scipy",
    "Skada.C126_frank_wolfe"
   ],
   "note": "Both solvers; exact arithmetic; kernel assumed symmetric positive semidefinite (true for rbf, linear, poly with coef0 >= 0); smooth_weights=False on the training data. B is only respected by scipy (C62_counterexample)."
  },
  {
   "property": "C127",
   "status": "proved",
   "theorems": [
    "Skada.C127_classes",
    "Skada.C127_continuous",
    "Skada.C127_empty",
    "Skada.C127_errors"
   ],
   "note": "Exact arithmetic, kernels assumed positive semidefinite, solver contract as in C125; new data is C63."
  },
  {
   "property": "C128",
   "status": "partial",
   "theorems": [
    "Skada.C128_split",
    "Skada.C128_score_partial",
    "Skada.C128_ratio_partial",
    "Skada.C128_target_labels",
    "Skada.C128_errors",
    "Skada.C128_features",
    "Skada.C128_mapping_counterexample"
   ],
   "note": "Partial because the closed form is for losses in a column (for the default one-dimensional losses see C80) and because the claim about the features of source rows is false (counterexample theorem). The domain classifier predicts row by row; a source probability 0 gives NaN."
  },
  {
   "property": "C129",
   "status": "partial",
   "theorems": [
    "Skada.C129_source_scorers",
    "Skada.C129_label_free",
    "Skada.C129_type_only",
    "Skada.C129_circular",
    "Skada.C129_type_counterexample"
   ],
   "note": "All seven scorers; for MixVal and MaNo the type of the whole label vector matters (counterexample)."
  },
  {
   "property": "C130",
   "status": "partial",
   "theorems": [
    "Skada.C130_sample_domain",
    "Skada.C130_no_parameters",
    "Skada.C130_refused",
    "Skada.C130_fit_partial",
    "Skada.C130_evaluation",
    "Skada.C130_transformer_counterexample",
    "Skada.C130_source_target_counterexample"
   ],
   "note": "Evaluation methods and sample_domain: complete for Shared selectors resp. all selectors. Fit: delivery proved for parameters that only the last step asks for; the full claim is false (two counterexample theorems). The routing machinery of scikit-learn is modelled and trusted; the routers of the selectors are skada's."
  },
  {
   "property": "C131",
   "status": "proved",
   "theorems": [
    "Skada.C131_cnn_output",
    "Skada.C131_num_features",
    "Skada.C131_cnn_windows",
    "Skada.C131_toy_dropout",
    "Skada.C131_double_softmax",
    "Skada.C131_proba_either",
    "Skada.C131_mnist_images",
    "Skada.C131_mnist_square",
    "Skada.C131_mnist_single"
   ],
   "note": "Complete for two-dimensional (ToyModule2D) and three-dimensional (ToyCNN) inputs; MNISTtoUSPSNet on shapes. The layers of torch.nn are modelled by their definitions and trusted."
  },
  {
   "property": "C132",
   "status": "partial",
   "theorems": [
    "Skada.C132_training_targets",
    "Skada.C132_unsupervised",
    "Skada.C132_no_test_leak",
    "Skada.C132_failures",
    "Skada.C132_stratified_counterexample",
    "Skada.C132_scorers"
   ],
   "note": "Complete for class labels and the three splitters; false for StratifiedDomainShuffleSplit (counterexample theorem). Circular validation is not covered: it refuses labels that are not masked (C129_circular). The loop of cross_validate is scikit-learn's, modelled and trusted."
  },
  {
   "property": "C133",
   "status": "partial",
   "theorems": [
    "Skada.C133_config",
    "Skada.C133_fit",
    "Skada.C133_last_fit",
    "Skada.C133_object",
    "Skada.C133_not_fitted",
    "Skada.C133_failed_fit_partial",
    "Skada.C133_failed_single",
    "Skada.C133_same_labels_partial",
    "Skada.C133_get_estimator",
    "Skada.C133_mixed_counterexample",
    "Skada.C133_same_labels_counterexample"
   ],
   "note": "Complete for successful fits over all histories. For a fit that raises only the weaker statement holds (C133_failed_fit_partial); the full one is false (C133_mixed_counterexample). Repeated fitting with the array masked in place is the same only if the first step hides target labels (counterexample theorem)."
  },
  {
   "property": "C134",
   "status": "partial",
   "theorems": [
    "Skada.C134_fit",
    "Skada.C134_predict",
    "Skada.C134_user",
    "Skada.C134_plain",
    "Skada.C134_mapEst",
    "Skada.C134_reweightEst",
    "Skada.C134_labelEst",
    "Skada.C134_mapping",
    "Skada.C134_subspace",
    "Skada.C134_reweighting",
    "Skada.C134_weights",
    "Skada.C134_labelprop",
    "Skada.C134_estimators",
    "Skada.C134_perDomain_fit_partial",
    "Skada.C134_perDomain_predict_partial",
    "Skada.C134_perDomain_order_counterexample",
    "Skada.C134_jcpot_counterexample",
    "Skada.C134_monge_counterexample",
    "Skada.C134_scorers",
    "Skada.C134_mixVal",
    "Skada.C134_circular_partial",
    "Skada.C134_circular_counterexample",
    "Skada.C134_splitter"
   ],
   "note": "Complete for the selectors, methods, scorers and the splitter listed. Methods that treat single domains: PerDomain only for renamings that keep the order (C134_perDomain_*_partial, counterexample otherwise), CircularValidation only without the label 0 (C134_circular_partial, counterexample otherwise), JCPOT and MultiLinearMonge do depend on the names (counterexamples)."
  },
  {
   "property": "C135",
   "status": "partial",
   "theorems": [
    "Skada.C135_classes_partial",
    "Skada.C135_factories_partial",
    "Skada.C135_final_partial",
    "Skada.C135_dasvm",
    "Skada.C135_dasvm_memory",
    "Skada.C135_announces",
    "Skada.C135_nearest",
    "Skada.C135_counterexample"
   ],
   "note": "Holds for all documented defaults except the four listed, which are counterexamples (C135_counterexample). The documented values are transcribed in Spec/Documented.lean."
  },
  {
   "property": "C136",
   "status": "partial",
   "theorems": [
    "Skada.C136_fit_partial",
    "Skada.C136_predict",
    "Skada.C136_score",
    "Skada.C136_user_partial",
    "Skada.C136_mapEst",
    "Skada.C136_reweightEst",
    "Skada.C136_coral",
    "Skada.C136_ot",
    "Skada.C136_subspaceAlignment",
    "Skada.C136_transferSubspace",
    "Skada.C136_density",
    "Skada.C136_discriminator",
    "Skada.C136_gaussian",
    "Skada.C136_monge",
    "Skada.C136_labelEst",
    "Skada.C136_select_counterexample",
    "Skada.C136_perDomain_counterexample",
    "Skada.C136_nearest_counterexample",
    "Skada.C136_kernel_counterexample"
   ],
   "note": "Pipelines, and the adapters named C136_coral … C136_labelEst. Missing: PerDomain around a predictor with masked samples, parameters or labels behind SelectSource/SelectTarget, nearest-neighbour weights and TCA/TJM on training samples; all four are counterexamples (C136_*_counterexample). Estimators and solvers are assumed to be order-independent."
  },
  {
   "property": "C137",
   "status": "partial",
   "theorems": [
    "Skada.C137_predict",
    "Skada.C137_perDomain",
    "Skada.C137_sourceTarget",
    "Skada.C137_user",
    "Skada.C137_reweightEst",
    "Skada.C137_labelEst",
    "Skada.C137_mapEst",
    "Skada.C137_coral",
    "Skada.C137_ot",
    "Skada.C137_subspaceAlignment",
    "Skada.C137_transferSubspace",
    "Skada.C137_monge",
    "Skada.C137_kernel_partial",
    "Skada.C137_mmdls_partial",
    "Skada.C137_allow_source",
    "Skada.C137_allow_same",
    "Skada.C137_allow_same_mapping",
    "Skada.C137_allow_same_subspace",
    "Skada.C137_perDomain_counterexample",
    "Skada.C137_kernel_counterexample",
    "Skada.C137_mmdls_counterexample"
   ],
   "note": "Pipelines and the adapters named C137_reweightEst … C137_monge. Partial: TCA/TJM and MMD-LS only for target samples (C137_kernel_partial, C137_mmdls_partial; counterexamples with allow_source), PerDomain only for predictors of one type (counterexample). OT transports other than the linear one treat the training batch specially inside POT, which is an assumption of C137_ot. score is a number about the batch and not covered."
  },
  {
   "property": "C138",
   "status": "partial",
   "theorems": [
    "Skada.C138_fit_partial",
    "Skada.C138_route",
    "Skada.C138_user_partial",
    "Skada.C138_mapEst",
    "Skada.C138_reweightEst",
    "Skada.C138_unsupervised",
    "Skada.C138_ot",
    "Skada.C138_tsl",
    "Skada.C138_mmdls",
    "Skada.C138_tarsWeights",
    "Skada.C138_otLabelProp",
    "Skada.C138_tarsSolver_partial",
    "Skada.C138_tars_counterexample",
    "Skada.C138_ties_counterexample",
    "Skada.C138_jcpot_counterexample",
    "Skada.C138_minusOne_counterexample"
   ],
   "note": "Partial: PerDomain and SelectSourceTarget are only covered around estimators that propose no labels (C138_fit_partial, C138_user_partial); the solver of MMD target shift only for renamings that keep its label kernel (C138_tarsSolver_partial, counterexample: the kernel is that of the class numbers). Further counterexamples: JCPOT proposes positions of classes, ties of OTLabelProp go to the smaller class, a class named -1 is the mask label."
  },
  {
   "property": "C139",
   "status": "partial",
   "theorems": [
    "Skada.C139_kliep",
    "Skada.C139_kmm",
    "Skada.C139_tars",
    "Skada.C139_density",
    "Skada.C139_gaussian",
    "Skada.C139_discriminator_nn",
    "Skada.C139_embedding",
    "Skada.C139_otLabelProp",
    "Skada.C139_jcpot",
    "Skada.C139_jdot",
    "Skada.C139_covariance",
    "Skada.C139_coral",
    "Skada.C139_coral_centered_counterexample"
   ],
   "note": "The stated exceptions are C123_shift_counterexample (gamma='scale') and C139_coral_centered_counterexample. Density estimators, the domain classifier, the neighbour search, JCPOT's transport and the base estimators of JDOT are parameters that are assumed to respect the map; CORAL with reg='auto' needs the same of the Ledoit-Wolf estimate."
  },
  {
   "property": "C140",
   "status": "partial",
   "theorems": [
    "Skada.C140_otLabelProp",
    "Skada.C140_otLabelProp_ones",
    "Skada.C140_jdot",
    "Skada.C140_jdot_ones",
    "Skada.C140_getLoss_scale",
    "Skada.C140_getLoss_ones",
    "Skada.C140_getLoss_counterexample",
    "Skada.C140_deepjdot_scale",
    "Skada.C140_deepjdot_ones",
    "Skada.C140_jdot_ridge_counterexample"
   ],
   "note": "C140_getLoss_scale and C140_deepjdot_scale say what the deep code does instead; C140_getLoss_counterexample and C140_jdot_ridge_counterexample are the exceptions. For deepjdot_loss the exact transport cost is assumed to be proportional to the transported mass."
  },
  {
   "property": "C141",
   "status": "partial",
   "theorems": [
    "Skada.C141_density",
    "Skada.C141_gaussian",
    "Skada.C141_discriminator",
    "Skada.C141_neighbours_partial",
    "Skada.C141_neighbours_counterexample",
    "Skada.C141_kmm",
    "Skada.C141_kmm_frank_wolfe",
    "Skada.C141_coral",
    "Skada.C141_subspace_alignment",
    "Skada.C141_importance_weighted",
    "Skada.C141_dev",
    "Skada.C141_deep",
    "Skada.C141_otLabelProp",
    "Skada.C141_otLabelPropReg",
    "Skada.C141_jdot_regressor",
    "Skada.C141_jdot_classifier",
    "Skada.C141_ot_mapping"
   ],
   "note": "C141_neighbours_counterexample is the exception, C141_neighbours_partial the layouts on which it holds. C141_discriminator and C141_dev assume a domain classifier that answers the same for all samples. The transport theorems are for samples without sample weights and for solvers that are exact. C141_jdot_regressor and C141_jdot_classifier assume a base estimator that has no loss on the data it is trained on, and say nothing of fits that raise. OT mapping, KLIEP and the eigenvalue based embeddings are not covered."
  },
  {
   "property": "C142",
   "status": "partial",
   "theorems": [
    "Skada.C142_density",
    "Skada.C142_gaussian",
    "Skada.C142_discriminator",
    "Skada.C142_coral",
    "Skada.C142_entropy",
    "Skada.C142_mano",
    "Skada.C142_dev",
    "Skada.C142_importance_weighted",
    "Skada.C142_soft_neighbourhood_counterexample",
    "Skada.C142_dan",
    "Skada.C142_mcc",
    "Skada.C142_deepcoral_partial",
    "Skada.C142_deepcoral_counterexample",
    "Skada.C142_kmm_scipy",
    "Skada.C142_kmm_frank_wolfe",
    "Skada.C142_kmm_counterexample",
    "Skada.C142_nn_counterexample",
    "Skada.C142_kliep",
    "Skada.C142_kliep_counterexample",
    "Skada.C142_label_propagation",
    "Skada.C142_label_propagation_counterexample",
    "Skada.C142_label_propagation_continuous",
    "Skada.C142_monge",
    "Skada.C142_monge_copies",
    "Skada.C142_ot_mapping",
    "Skada.C142_ot_mapping_means",
    "Skada.C142_ot_mapping_spread",
    "Skada.C142_ot_mapping_counterexample",
    "Skada.C142_entropic_mapping"
   ],
   "note": "C142_deepcoral_counterexample and C142_soft_neighbourhood_counterexample are the exceptions; C142_deepcoral_partial gives the exact factor for batches of equal size. C142_dev is about the score formula given weights and losses, not the fitting of the domain classifier. C142_kmm_scipy and C142_kmm_frank_wolfe: with eps given, the mean weights of the copies solve the original problem (same discrepancy, same optimality up to the solver); C142_kmm_counterexample: not with eps=None. C142_kliep: KLIEP on copies is KLIEP with a longer step and a sharper tolerance (same centres drawn); C142_kliep_counterexample. C142_nn_counterexample: one copy takes all the weight. C142_monge: MultiLinearMonge, even when every domain is listed a number of times of its own. C142_ot_mapping, C142_ot_mapping_means, C142_ot_mapping_spread: exact optimal transport with any cost (the mean image of the copies comes from a best plan of the data listed once); C142_ot_mapping_counterexample: not copy by copy. C142_label_propagation and C142_label_propagation_continuous: label propagation with a solver that shares a plan out equally among copies (an assumption on POT, SharesPlans); C142_label_propagation_counterexample: not with every best plan. C142_entropic_mapping: entropic transport, whose best plan is unique, copy by copy (assuming the Sinkhorn iterations find it). The embeddings and JCPOT are not covered, nor the automatic regularisation of CORAL."
  },
  {
   "property": "C143",
   "status": "partial",
   "theorems": [
    "Skada.C143_coral",
    "Skada.C143_coral_shrinkage_counterexample",
    "Skada.C143_monge",
    "Skada.C143_ot_mapping_partial",
    "Skada.C143_ot_mapping_counterexample",
    "Skada.C143_reweighting",
    "Skada.C143_label_propagation_counterexample"
   ],
   "note": "C143_coral_shrinkage_counterexample, C143_ot_mapping_counterexample and C143_label_propagation_counterexample are the exceptions; C143_ot_mapping_partial covers plans that are assignments. MMDLS, the embeddings and integer data (C65) are not covered."
  },
  {
   "property": "C144",
   "status": "partial",
   "theorems": [
    "Skada.C144_split",
    "Skada.C144_split_counterexample",
    "Skada.C144_gaussian",
    "Skada.C144_density",
    "Skada.C144_deepcoral",
    "Skada.C144_dan",
    "Skada.C144_dan_default_counterexample",
    "Skada.C144_dann",
    "Skada.C144_coral_back"
   ],
   "note": "C144_split_counterexample (label 0) and C144_dan_default_counterexample (default bandwidths) are the exceptions; the graph alignment loss is C91_symmetric. Samples occurring on one side only have no weight to compare, KLIEP/KMM/nearest-neighbour weights are not covered."
  },
  {
   "property": "C145",
   "status": "partial",
   "theorems": [
    "Skada.C145_refines",
    "Skada.C145_fit_continues",
    "Skada.C145_clone_counterexample",
    "Skada.C145_shared_counterexample",
    "Skada.C145_stale_counterexample",
    "Skada.C145_hooks_grow"
   ],
   "note": "C145_refines assumes that every pass runs the hooked layers; C145_stale_counterexample shows what happens otherwise. C145_clone_counterexample and C145_shared_counterexample state the surprises. Devices, pickling, a domain classifier with state and networks that call a layer several times in one pass are not covered."
  },
  {
   "property": "C146",
   "status": "partial",
   "theorems": [
    "Skada.C146_refines",
    "Skada.C146_warm_start",
    "Skada.C146_fit",
    "Skada.C146_cross_validation",
    "Skada.C146_unfitted_counterexample",
    "Skada.C146_optimiser_counterexample"
   ],
   "note": "C146_refines covers all programs; C146_unfitted_counterexample and C146_optimiser_counterexample are the surprises. One training batch is an arbitrary function of parameters and optimiser state; data loading, losses, devices, callbacks and other constructor arguments are not part of this model (see C98-C107)."
  },
  {
   "property": "C147",
   "status": "partial",
   "theorems": [
    "Skada.C147_isolated",
    "Skada.C147_seeded",
    "Skada.C147_untouched",
    "Skada.C147_np_random_seed",
    "Skada.C147_source_target_folds",
    "Skada.C147_leave_one_domain_out",
    "Skada.C147_same_rows",
    "Skada.C147_kliep",
    "Skada.C147_generator_counterexample",
    "Skada.C147_none_counterexample",
    "Skada.C147_interleaved_counterexample",
    "Skada.C147_blobs_counterexample",
    "Skada.C147_all_folds",
    "Skada.C147_int_is_object",
    "Skada.C147_draws",
    "Skada.C147_subspace",
    "Skada.C147_lodo_int_counterexample",
    "Skada.C147_every_fold",
    "Skada.C147_renamed",
    "Skada.C147_none_is_object",
    "Skada.C147_renamed_counterexample"
   ],
   "note": "C147_isolated covers all programs over the modelled calls; C147_generator_counterexample, C147_none_counterexample, C147_interleaved_counterexample and C147_blobs_counterexample are the negative parts. numpy is a parameter; torch's generator, solvers and estimators with their own random_state are not part of this model. C147_every_fold: under the promises of numpy and sklearn about their answers, every fold of every program, whatever the random_state and the interleaving, is a correct fold of its splitter. C147_all_folds: exactly n_splits folds, however interleaved; C147_int_is_object / C147_lodo_int_counterexample: an integer is a new RandomState object except for LeaveOneDomainOut; C147_draws, C147_subspace: exactly what is taken from a shared generator. C147_renamed: exchanging the shared generators of a program by others in the same states changes nothing the user sees; C147_none_is_object: np.random.seed(s) with random_state=None is one RandomState(s) passed everywhere; C147_renamed_counterexample: make_shifted_blobs(random_state=None) is the exception."
  },
  {
   "property": "C148",
   "status": "partial",
   "theorems": [
    "Skada.C148_roots",
    "Skada.C148_coral",
    "Skada.C148_transport",
    "Skada.C148_distances",
    "Skada.C148_moments",
    "Skada.C148_monge",
    "Skada.C148_alignment",
    "Skada.C148_tsl",
    "Skada.C148_deepcoral",
    "Skada.C148_deep_losses",
    "Skada.C148_cdd_counterexample",
    "Skada.C148_order_is_turn",
    "Skada.C148_mmdls_order",
    "Skada.C148_mmdls_counterexample"
   ],
   "note": "C148_cdd_counterexample and C148_mmdls_counterexample are the negative parts. The Ledoit-Wolf covariance, POT's plans, barycenters and maps, and the optimisers are parameters that are assumed to turn with the samples; that the subspace optimisers find the turned projection is not claimed, only that it has the same objective."
  },
  {
   "property": "C149",
   "status": "partial",
   "theorems": [
    "Skada.C149_distances",
    "Skada.C149_roots",
    "Skada.C149_coral",
    "Skada.C149_transport",
    "Skada.C149_plans",
    "Skada.C149_alignment",
    "Skada.C149_tsl",
    "Skada.C149_mmdls",
    "Skada.C149_deepcoral",
    "Skada.C149_deep_losses",
    "Skada.C149_kliep",
    "Skada.C149_kliep_counterexample",
    "Skada.C149_dan_counterexample",
    "Skada.C149_one_feature_counterexample",
    "Skada.C149_coral_real"
   ],
   "note": "C149_kliep_counterexample, C149_dan_counterexample and C149_one_feature_counterexample are the negative parts. The plan of the transport solver is assumed not to depend on a positive factor of all costs (C149_plans: the cheapest plans are the same), the optimiser of the location-scale mapping to find offsets in the new unit; for transfer subspace learning only the objective and the map of a given projection are covered. Linear Monge alignment is in C148_monge, which holds for every matrix; joint distribution transport in C139_jdot."
  }
 ]
}
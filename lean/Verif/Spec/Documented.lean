/-
The default values stated in the documentation of the estimators and of the functions that build pipelines: the `Parameters` sections of the
docstrings in skada/_reweight.py, _mapping.py, _subspace.py, _ot.py and _self_labeling.py.  Parameters whose default the documentation does not
state are not listed.
-/
import Verif.Model.Ctor

namespace Skada.Spec
open Ctor

/-- Documented defaults of parameters.  For the estimators among them ("If None, a KernelDensity estimator is used", skada/_reweight.py:84-86,
158-160, 304-306, 376-378; "default value is LinearRegression() from scikit-learn", skada/_ot.py:519, 636-637) this is what `None` stands for. -/
def documented : String → Kw
  | "DensityReweightAdapter" => [("weight_estimator", .est { cls := "KernelDensity", hasPredict := false })]
  | "DiscriminatorReweightAdapter" => [("domain_classifier", .est { cls := "LogisticRegression" })]
  | "GaussianReweightAdapter" => [("reg", .str "auto")]
  | "KLIEPReweightAdapter" => [("cv", .num 5), ("n_centers", .num 100), ("tol", .num (1 / 1000000)), ("max_iter", .num 1000),
      ("random_state", .none)]
  | "NearestNeighborReweightAdapter" => [("n_neighbors", .num 1), ("weights", .str "uniform"), ("algorithm", .str "auto"),
      ("leaf_size", .num 30), ("p", .num 2), ("metric", .str "minkowski"), ("metric_params", .none), ("n_jobs", .none),
      ("laplace_smoothing", .bool false)]
  | "KMMReweightAdapter" => [("kernel", .str "rbf"), ("B", .num 1000), ("eps", .none), ("tol", .num (1 / 1000000)), ("max_iter", .num 100),
      ("smooth_weights", .bool false), ("solver", .str "frank-wolfe")]
  | "MMDTarSReweightAdapter" => [("reg", .num (1 / 10000000000)), ("tol", .num (1 / 1000000)), ("max_iter", .num 1000)]
  | "OTMappingAdapter" => [("metric", .str "sqeuclidean"), ("norm", .none), ("max_iter", .num 100000)]
  | "EntropicOTMappingAdapter" => [("reg_e", .num 1), ("metric", .str "sqeuclidean"), ("norm", .none), ("max_iter", .num 1000),
      ("tol", .num (1 / 100000000))]
  | "ClassRegularizerOTMappingAdapter" => [("reg_e", .num 1), ("reg_cl", .num (1 / 10)), ("norm", .str "lpl1"),
      ("metric", .str "sqeuclidean"), ("max_iter", .num 10), ("max_inner_iter", .num 200), ("tol", .num (1 / 100000000))]
  | "LinearOTMappingAdapter" => [("reg", .num (1 / 100000000)), ("bias", .bool true)]
  | "MultiLinearMongeAlignmentAdapter" => [("reg", .num (1 / 100000000)), ("bias", .bool true), ("test_time", .bool false)]
  | "CORALAdapter" => [("reg", .str "auto"), ("assume_centered", .bool false)]
  | "MMDLSConSMappingAdapter" => [("reg_k", .num (1 / 10000000000)), ("reg_m", .num (1 / 10000000000)), ("tol", .num (1 / 100000)),
      ("max_iter", .num 100)]
  | "SubspaceAlignmentAdapter" => [("n_components", .none), ("random_state", .none)]
  | "TransferComponentAnalysisAdapter" => [("kernel", .str "rbf"), ("n_components", .none), ("mu", .num (1 / 10))]
  | "TransferJointMatchingAdapter" => [("n_components", .none), ("tradeoff", .num (1 / 100)), ("max_iter", .num 100),
      ("kernel", .str "rbf"), ("tol", .num (1 / 100)), ("verbose", .bool false)]
  | "TransferSubspaceLearningAdapter" => [("n_components", .none), ("base_method", .str "flda"), ("length_scale", .num 2),
      ("mu", .num (1 / 10)), ("reg", .num (1 / 100)), ("max_iter", .num 100), ("tol", .num (1 / 100)), ("verbose", .bool false)]
  | "JDOTRegressor" => [("base_estimator", .est { cls := "LinearRegression" }), ("alpha", .num (1 / 2))]
  | "JDOTClassifier" => [("base_estimator", .est { cls := "LogisticRegression" }), ("alpha", .num (1 / 2)), ("metric", .str "multinomial"),
      ("thr_weights", .num (1 / 1000000))]
  | "OTLabelPropAdapter" => [("metric", .str "sqeuclidean"), ("reg", .none)]
  | "JCPOTLabelPropAdapter" => [("metric", .str "sqeuclidean"), ("reg", .num 1), ("max_iter", .num 10), ("tol", .num (1 / 1000000000)),
      ("verbose", .bool false)]
  | "DensityReweight" => [("weight_estimator", .est { cls := "KernelDensity", hasPredict := false })]
  | "DiscriminatorReweight" => [("domain_classifier", .est { cls := "LogisticRegression" })]
  | "GaussianReweight" => [("reg", .str "auto")]
  | "KLIEPReweight" => [("cv", .num 5), ("n_centers", .num 100), ("tol", .num (1 / 1000000)), ("max_iter", .num 1000),
      ("random_state", .none)]
  | "NearestNeighborReweight" => [("n_neighbors", .num 1), ("weights", .str "uniform"), ("algorithm", .str "auto"), ("leaf_size", .num 30),
      ("p", .num 2), ("metric", .str "minkowski"), ("metric_params", .none), ("n_jobs", .none), ("laplace_smoothing", .bool false)]
  | "KMMReweight" => [("kernel", .str "rbf"), ("B", .num 1000), ("eps", .none), ("tol", .num (1 / 1000000)), ("max_iter", .num 100),
      ("smooth_weights", .bool false), ("solver", .str "frank-wolfe")]
  | "MMDTarSReweight" => [("reg", .num (1 / 10000000000)), ("tol", .num (1 / 1000000)), ("max_iter", .num 1000)]
  | "OTMapping" => [("metric", .str "sqeuclidean"), ("norm", .none), ("max_iter", .num 100000)]
  | "EntropicOTMapping" => [("metric", .str "sqeuclidean"), ("norm", .none), ("max_iter", .num 1000), ("reg_e", .num 1),
      ("tol", .num (1 / 100000000))]
  | "ClassRegularizerOTMapping" => [("metric", .str "sqeuclidean"), ("norm", .str "lpl1"), ("max_iter", .num 10),
      ("max_inner_iter", .num 200), ("reg_e", .num 1), ("reg_cl", .num (1 / 10)), ("tol", .num (1 / 100000000))]
  | "LinearOTMapping" => [("reg", .num (1 / 100000000)), ("bias", .bool true)]
  | "MultiLinearMongeAlignment" => [("reg", .num (1 / 100000000)), ("bias", .bool true), ("test_time", .bool false)]
  | "CORAL" => [("reg", .str "auto"), ("assume_centered", .bool false)]
  | "MMDLSConSMapping" => [("reg_k", .num (1 / 10000000000)), ("reg_m", .num (1 / 10000000000)), ("tol", .num (1 / 100000)),
      ("max_iter", .num 100)]
  | "SubspaceAlignment" => [("n_components", .none), ("random_state", .none)]
  | "TransferComponentAnalysis" => [("kernel", .str "rbf"), ("n_components", .none), ("mu", .num (1 / 10))]
  | "TransferJointMatching" => [("n_components", .none), ("tradeoff", .num (1 / 100)), ("kernel", .str "rbf"), ("max_iter", .num 100)]
  | "TransferSubspaceLearning" => [("n_components", .none), ("base_method", .str "flda"), ("length_scale", .num 2), ("mu", .num (1 / 10)),
      ("reg", .num (1 / 100)), ("max_iter", .num 100), ("tol", .num (1 / 100)), ("verbose", .bool false)]
  | "OTLabelProp" => [("reg", .num 0), ("metric", .str "sqeuclidean")]
  | "JCPOTLabelProp" => [("reg", .num 1), ("metric", .str "sqeuclidean"), ("max_iter", .num 10), ("tol", .num (1 / 1000000000)),
      ("verbose", .bool false)]
  | _ => []

/-- The class of the estimator documented as default of `base_estimator` (skada/_reweight.py:597, 1147, skada/_mapping.py:398,
skada/_ot.py:1003, skada/_self_labeling.py:36); the other functions document `None` without saying what it stands for. -/
def documentedFinal : String → Option String
  | "KLIEPReweight" => some "LogisticRegression"
  | "KMMReweight" => some "LogisticRegression"
  | "ClassRegularizerOTMapping" => some "SVC"
  | "JCPOTLabelProp" => some "LinearRegression"
  | _ => none

/-- Where the documentation and the signature disagree. -/
def undocumented : List (String × String) := [("KMMReweightAdapter", "max_iter"), ("KMMReweight", "max_iter"), ("LinearOTMapping", "reg")]

end Skada.Spec

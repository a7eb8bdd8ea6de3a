/-
Model of the constructors of the shallow estimators (skada/_reweight.py, _mapping.py, _subspace.py, _ot.py, _self_labeling.py), of
`get_params`, `set_params` and `clone` on them, of the functions that build a pipeline from them, and of the transport objects they make.
-/
import Verif.Model.Np
import Mathlib.Algebra.Order.Field.Rat

namespace Skada.Ctor

/-! ### Values -/

/-- `len(estimator)`: most estimators have none, scikit-learn's ensembles have one that raises until they are fitted. -/
inductive Len
  | absent | value (n : Nat) | unfitted
  deriving DecidableEq

/-- What constructors see of an estimator given as an argument.  `cfg` stands for its parameters; the fitted state is not modelled. -/
structure AEst where
  cls : String
  cfg : String := ""
  len : Len := .absent
  hasFit : Bool := true
  hasPredict : Bool := true
  wantsWeights : Bool := false
  deriving DecidableEq

/-- A constructor argument.  `other` is any object that is true and not one of the rest. -/
inductive AVal
  | none | bool (b : Bool) | num (q : ℚ) | str (s : String) | est (e : AEst) | other (n : Nat)
  deriving DecidableEq

/-- `bool(v)` -/
def AVal.truthy : AVal → Py Bool
  | .none => .ok false
  | .bool b => .ok b
  | .num q => .ok (decide (q ≠ 0))
  | .str s => .ok (decide (s ≠ ""))
  | .est e => match e.len with
    | .absent => .ok true
    | .value n => .ok (decide (n ≠ 0))
    | .unfitted => .error .attributeError
  | .other _ => .ok true

/-- `v or w` -/
def AVal.or (v w : AVal) : Py AVal :=
  match v.truthy with
  | .error e => .error e
  | .ok true => .ok v
  | .ok false => .ok w

def kernelDensity : AEst := { cls := "KernelDensity", hasPredict := false }
def logisticRegression : AEst := { cls := "LogisticRegression" }
def linearRegression : AEst := { cls := "LinearRegression" }
def svc : AEst := { cls := "SVC" }
def svcProbability : AEst := { cls := "SVC", cfg := "probability=True" }
def kNeighbors : AEst := { cls := "KNeighborsClassifier", cfg := "n_neighbors=1" }

/-- `base_estimator` of the JDOT classes (skada/_ot.py:557-566 and 683-692) -/
def AVal.orPredictor (v : AVal) (default : AEst) : Py AVal :=
  match v with
  | .none => .ok (.est default)
  | .est e => if e.hasFit && e.hasPredict then .ok v else .error .valueError
  | _ => .error .valueError

/-- The keys of scikit-learn's `KERNEL_PARAMS` (skada/_reweight.py:17, 1025). -/
def kernelParams : List AVal :=
  [.str "additive_chi2", .str "chi2", .str "cosine", .str "linear", .str "poly", .str "polynomial", .str "rbf", .str "laplacian",
    .str "sigmoid"]

/-! ### Classes and objects -/

/-- Keyword arguments -/
abbrev Kw := List (String × AVal)

/-- A class: the parameters of `__init__` in order with their defaults (`none`: required), whether it accepts further keyword arguments and
keeps them, what it stores for each parameter, and the further attributes it computes from the stored ones. -/
structure Cls where
  name : String
  params : List (String × Option AVal)
  varKw : Bool := false
  keepKw : Bool := false
  norm : String → AVal → Py AVal := fun _ v => .ok v
  derived : (String → AVal) → Kw := fun _ => []

/-- An object: the attributes named like parameters, the computed attributes, and `self.kwargs`. -/
structure Obj where
  attrs : Kw
  derived : Kw
  kwargs : Kw
  deriving DecidableEq

/-- `getattr(o, p)` for a parameter `p`; the value for other names is not used. -/
def Obj.attr (o : Obj) (p : String) : AVal := (o.attrs.lookup p).getD .none

/-- The value bound to one parameter, `TypeError` if there is none. -/
def bindOne (kw : Kw) (p : String × Option AVal) : Py (String × AVal) :=
  match kw.lookup p.1, p.2 with
  | some v, _ => .ok (p.1, v)
  | Option.none, some d => .ok (p.1, d)
  | Option.none, Option.none => .error .typeError

/-- Python's binding of keyword arguments to parameters: `TypeError` for unknown (unless `varKw`) and for missing ones. -/
def bindArgs (params : List (String × Option AVal)) (varKw : Bool) (kw : Kw) : Py Kw :=
  if !varKw && kw.any (fun a => decide (a.1 ∉ params.map Prod.fst)) then .error .typeError
  else params.mapM (bindOne kw)

/-- What `__init__` stores for one argument. -/
def Cls.normOne (c : Cls) (a : String × AVal) : Py (String × AVal) :=
  match c.norm a.1 a.2 with
  | .error e => .error e
  | .ok v => .ok (a.1, v)

/-- `cls(**kw)` -/
def Cls.construct (c : Cls) (kw : Kw) : Py Obj :=
  match bindArgs c.params c.varKw kw with
  | .error e => .error e
  | .ok vals => match vals.mapM c.normOne with
    | .error e => .error e
    | .ok attrs => .ok
        { attrs := attrs
          derived := c.derived (fun p => (attrs.lookup p).getD .none)
          kwargs := if c.keepKw then kw.filter (fun a => decide (a.1 ∉ c.params.map Prod.fst)) else [] }

/-- `BaseEstimator.get_params(deep=False)`: the parameters of `__init__` except `**kwargs`. -/
def Cls.getParams (c : Cls) (o : Obj) : Kw := c.params.map (fun p => (p.1, o.attr p.1))

/-- `BaseEstimator.set_params` for one name without `__`. -/
def Cls.setParam (c : Cls) (o : Obj) (p : String) (v : AVal) : Py Obj :=
  if p ∈ c.params.map Prod.fst then .ok { o with attrs := o.attrs.map (fun a => if a.1 = p then (p, v) else a) }
  else .error .valueError

/-- `sklearn.base.clone`: build a new object from the parameters, `RuntimeError` if one of them is not stored as given.  The identity check
of scikit-learn is modelled by equality. -/
def Cls.clone (c : Cls) (o : Obj) : Py Obj :=
  match c.construct (c.getParams o) with
  | .error e => .error e
  | .ok o' => if (c.getParams o).all (fun a => decide (o'.attr a.1 = a.2)) then .ok o' else .error .runtimeError

/-! ### The classes -/

/-- `DensityReweightAdapter.__init__` (skada/_reweight.py:96-98) -/
def densityReweightAdapter : Cls :=
  { name := "DensityReweightAdapter"
    params := [("weight_estimator", some (.none))]
    norm := fun p v => if p = "weight_estimator" then v.or (.est kernelDensity) else .ok v }

/-- `GaussianReweightAdapter.__init__` (skada/_reweight.py:209-211) -/
def gaussianReweightAdapter : Cls :=
  { name := "GaussianReweightAdapter"
    params := [("reg", some (.str "auto"))] }

/-- `DiscriminatorReweightAdapter.__init__` (skada/_reweight.py:320-322) -/
def discriminatorReweightAdapter : Cls :=
  { name := "DiscriminatorReweightAdapter"
    params := [("domain_classifier", some (.none))]
    norm := fun p v => if p = "domain_classifier" then v.or (.est logisticRegression) else .ok v }

/-- `KLIEPReweightAdapter.__init__` (skada/_reweight.py:447-462) -/
def kliepReweightAdapter : Cls :=
  { name := "KLIEPReweightAdapter"
    params := [("gamma", none), ("cv", some (.num 5)), ("n_centers", some (.num 100)),
      ("tol", some (.num (1 / 1000000))), ("max_iter", some (.num 1000)), ("random_state", some (.none))] }

/-- `NearestNeighborReweightAdapter.__init__` (skada/_reweight.py:734-765) -/
def nearestNeighborReweightAdapter : Cls :=
  { name := "NearestNeighborReweightAdapter"
    params := [("n_neighbors", some (.num 1)), ("weights", some (.str "uniform")), ("algorithm", some (.str "auto")),
      ("leaf_size", some (.num 30)), ("p", some (.num 2)), ("metric", some (.str "minkowski")),
      ("metric_params", some (.none)), ("n_jobs", some (.none)), ("laplace_smoothing", some (.bool false))]
    derived := fun v => ["n_neighbors", "weights", "algorithm", "leaf_size", "p", "metric", "metric_params", "n_jobs"].map
      (fun p => ("base_estimator__" ++ p, v p)) }

/-- `KMMReweightAdapter.__init__` (skada/_reweight.py:1000-1030) -/
def kmmReweightAdapter : Cls :=
  { name := "KMMReweightAdapter"
    params := [("kernel", some (.str "rbf")), ("gamma", some (.none)), ("degree", some (.num 3)),
      ("coef0", some (.num 1)), ("B", some (.num 1000)), ("eps", some (.none)),
      ("tol", some (.num (1 / 1000000))), ("max_iter", some (.num 1000)),
      ("smooth_weights", some (.bool false)), ("solver", some (.str "frank-wolfe"))]
    norm := fun p v => if p = "kernel" then (if kernelParams.contains v then .ok v else .error .valueError) else .ok v }

/-- `MMDTarSReweightAdapter.__init__` (skada/_reweight.py:1242-1247) -/
def mmdTarSReweightAdapter : Cls :=
  { name := "MMDTarSReweightAdapter"
    params := [("gamma", none), ("reg", some (.num (1 / 10000000000))), ("tol", some (.num (1 / 1000000))),
      ("max_iter", some (.num 1000))] }

/-- `OTMappingAdapter.__init__` (skada/_mapping.py:139-148) -/
def otMappingAdapter : Cls :=
  { name := "OTMappingAdapter"
    params := [("metric", some (.str "sqeuclidean")), ("norm", some (.none)), ("max_iter", some (.num 100000))] }

/-- `EntropicOTMappingAdapter.__init__` (skada/_mapping.py:230-243) -/
def entropicOTMappingAdapter : Cls :=
  { name := "EntropicOTMappingAdapter"
    params := [("reg_e", some (.num 1)), ("metric", some (.str "sqeuclidean")), ("norm", some (.none)),
      ("max_iter", some (.num 1000)), ("tol", some (.num (1 / 100000000)))] }

/-- `ClassRegularizerOTMappingAdapter.__init__` (skada/_mapping.py:346-363) -/
def classRegularizerOTMappingAdapter : Cls :=
  { name := "ClassRegularizerOTMappingAdapter"
    params := [("reg_e", some (.num 1)), ("reg_cl", some (.num (1 / 10))), ("norm", some (.str "lpl1")),
      ("metric", some (.str "sqeuclidean")), ("max_iter", some (.num 10)), ("max_inner_iter", some (.num 200)),
      ("tol", some (.num (1 / 100000000)))] }

/-- `LinearOTMappingAdapter.__init__` (skada/_mapping.py:471-474) -/
def linearOTMappingAdapter : Cls :=
  { name := "LinearOTMappingAdapter"
    params := [("reg", some (.num (1 / 100000000))), ("bias", some (.bool true))] }

/-- `MultiLinearMongeAlignmentAdapter.__init__` (skada/_mapping.py:598-602) -/
def multiLinearMongeAlignmentAdapter : Cls :=
  { name := "MultiLinearMongeAlignmentAdapter"
    params := [("reg", some (.num (1 / 100000000))), ("bias", some (.bool true)), ("test_time", some (.bool false))] }

/-- `CORALAdapter.__init__` (skada/_mapping.py:840-843) -/
def coralAdapter : Cls :=
  { name := "CORALAdapter"
    params := [("reg", some (.str "auto")), ("assume_centered", some (.bool false))] }

/-- `MMDLSConSMappingAdapter.__init__` (skada/_mapping.py:1020-1028) -/
def mmdLSConSMappingAdapter : Cls :=
  { name := "MMDLSConSMappingAdapter"
    params := [("gamma", none), ("reg_k", some (.num (1 / 10000000000))), ("reg_m", some (.num (1 / 10000000000))),
      ("tol", some (.num (1 / 100000))), ("max_iter", some (.num 100))]
    derived := fun _ => [("W_", .none), ("B_", .none)] }

/-- `SubspaceAlignmentAdapter.__init__` (skada/_subspace.py:61-68) -/
def subspaceAlignmentAdapter : Cls :=
  { name := "SubspaceAlignmentAdapter"
    params := [("n_components", some (.none)), ("random_state", some (.none))] }

/-- `TransferComponentAnalysisAdapter.__init__` (skada/_subspace.py:251-255) -/
def transferComponentAnalysisAdapter : Cls :=
  { name := "TransferComponentAnalysisAdapter"
    params := [("kernel", some (.str "rbf")), ("n_components", some (.none)), ("mu", some (.num (1 / 10)))] }

/-- `TransferJointMatchingAdapter.__init__` (skada/_subspace.py:456-471) -/
def transferJointMatchingAdapter : Cls :=
  { name := "TransferJointMatchingAdapter"
    params := [("n_components", some (.none)), ("tradeoff", some (.num (1 / 100))), ("max_iter", some (.num 100)),
      ("kernel", some (.str "rbf")), ("tol", some (.num (1 / 100))), ("verbose", some (.bool false))] }

/-- `TransferSubspaceLearningAdapter.__init__` (skada/_subspace.py:747-771) -/
def transferSubspaceLearningAdapter : Cls :=
  { name := "TransferSubspaceLearningAdapter"
    params := [("n_components", some (.none)), ("base_method", some (.str "flda")), ("length_scale", some (.num 2)),
      ("mu", some (.num (1 / 10))), ("reg", some (.num (1 / 100))), ("max_iter", some (.num 100)),
      ("tol", some (.num (1 / 100))), ("verbose", some (.bool false))]
    norm := fun p v =>
      if p = "base_method" then (if [.str "pca", .str "flda", .str "lpp"].contains v then .ok v else .error .valueError)
      else if p = "reg" then (match v with
        | .none => .ok (.num 0)
        | .num r => if r < 0 ∨ r > 1 then .error .valueError else .ok v
        | .bool _ => .ok v
        | _ => .error .typeError)
      else .ok v }

/-- `JDOTRegressor.__init__` (skada/_ot.py:548-571) -/
def jdotRegressor : Cls :=
  { name := "JDOTRegressor"
    params := [("base_estimator", some (.none)), ("alpha", some (.num (1 / 2))), ("n_iter_max", some (.num 100)),
      ("tol", some (.num (1 / 100000))), ("verbose", some (.bool false))]
    varKw := true, keepKw := true
    norm := fun p v => if p = "base_estimator" then v.orPredictor linearRegression else .ok v }

/-- `JDOTClassifier.__init__` (skada/_ot.py:672-699) -/
def jdotClassifier : Cls :=
  { name := "JDOTClassifier"
    params := [("base_estimator", some (.none)), ("alpha", some (.num (1 / 2))), ("metric", some (.str "multinomial")),
      ("n_iter_max", some (.num 100)), ("tol", some (.num (1 / 100000))), ("verbose", some (.bool false)),
      ("thr_weights", some (.num (1 / 1000000)))]
    varKw := true, keepKw := true
    norm := fun p v => if p = "base_estimator" then v.orPredictor logisticRegression else .ok v }

/-- `OTLabelPropAdapter.__init__` (skada/_ot.py:805-809) -/
def otLabelPropAdapter : Cls :=
  { name := "OTLabelPropAdapter"
    params := [("metric", some (.str "sqeuclidean")), ("reg", some (.none)), ("n_iter_max", some (.num 200))] }

/-- `JCPOTLabelPropAdapter.__init__` (skada/_ot.py:937-947) -/
def jcpotLabelPropAdapter : Cls :=
  { name := "JCPOTLabelPropAdapter"
    params := [("metric", some (.str "sqeuclidean")), ("reg", some (.num 1)), ("max_iter", some (.num 10)),
      ("tol", some (.num (1 / 1000000000))), ("verbose", some (.bool false))]
    derived := fun _ => [("predicts_target_labels", .bool true)] }

/-- `DASVMClassifier.__init__` (skada/_self_labeling.py:70-87) -/
def dasvmClassifier : Cls :=
  { name := "DASVMClassifier"
    params := [("base_estimator", some (.none)), ("k", some (.num 3)), ("max_iter", some (.num 1000)),
      ("save_estimators", some (.bool false)), ("save_indices", some (.bool false))]
    varKw := true
    norm := fun p v => if p = "base_estimator" then (match v with | .none => .ok (.est svcProbability) | v => .ok v) else .ok v }

/-- The estimators of the package with parameters. -/
def library : List Cls :=
  [densityReweightAdapter, gaussianReweightAdapter, discriminatorReweightAdapter, kliepReweightAdapter,
    nearestNeighborReweightAdapter, kmmReweightAdapter, mmdTarSReweightAdapter, otMappingAdapter,
    entropicOTMappingAdapter, classRegularizerOTMappingAdapter, linearOTMappingAdapter,
    multiLinearMongeAlignmentAdapter, coralAdapter, mmdLSConSMappingAdapter, subspaceAlignmentAdapter,
    transferComponentAnalysisAdapter, transferJointMatchingAdapter, transferSubspaceLearningAdapter,
    jdotRegressor, jdotClassifier, otLabelPropAdapter, jcpotLabelPropAdapter, dasvmClassifier]

/-! ### Functions that build pipelines -/

/-- A function with the signature `base_estimator, params`: `pass` are the adapter's arguments with the names of the function's parameters
they come from; `final` is the default estimator.  `sharedFinal`: it is a default value of `base_estimator`, made once, and not built in each
call that is given `None`. -/
structure Factory where
  name : String
  cls : Cls
  params : List (String × Option AVal)
  pass : List (String × String)
  final : AEst
  sharedFinal : Bool := false

/-- The call: the adapter and the final estimator of the pipeline (`base` is `none` when `base_estimator` is not given).  With `None` in the
place of the final estimator `make_da_pipeline` raises `AttributeError` (skada/_pipeline.py:108). -/
def Factory.call (f : Factory) (base : Option AVal) (kw : Kw) : Py (Obj × AVal) :=
  match bindArgs f.params false kw with
  | .error e => .error e
  | .ok vals => match f.cls.construct (f.pass.map (fun a => (a.1, (vals.lookup a.2).getD .none))) with
    | .error e => .error e
    | .ok o => match base with
      | Option.none => .ok (o, .est f.final)
      | some .none => if f.sharedFinal then .error .attributeError else .ok (o, .est f.final)
      | some v => .ok (o, v)

/-- `DensityReweight` (skada/_reweight.py:148-173); default estimator `LogisticRegression().set_fit_request(sample_weight=True)` -/
def densityReweightFactory : Factory :=
  { name := "DensityReweight", cls := densityReweightAdapter
    params := [("weight_estimator", some (.none))]
    pass := [("weight_estimator", "weight_estimator")]
    final := { logisticRegression with wantsWeights := true } }

/-- `GaussianReweight` (skada/_reweight.py:256-294); default estimator `LogisticRegression().set_fit_request(sample_weight=True)` -/
def gaussianReweightFactory : Factory :=
  { name := "GaussianReweight", cls := gaussianReweightAdapter
    params := [("reg", some (.str "auto"))]
    pass := [("reg", "reg")]
    final := { logisticRegression with wantsWeights := true } }

/-- `DiscriminatorReweight` (skada/_reweight.py:367-398); default estimator `LogisticRegression().set_fit_request(sample_weight=True)` -/
def discriminatorReweightFactory : Factory :=
  { name := "DiscriminatorReweight", cls := discriminatorReweightAdapter
    params := [("domain_classifier", some (.none))]
    pass := [("domain_classifier", "domain_classifier")]
    final := { logisticRegression with wantsWeights := true } }

/-- `KLIEPReweight` (skada/_reweight.py:582-640); default estimator `LogisticRegression().set_fit_request(sample_weight=True)` -/
def kliepReweightFactory : Factory :=
  { name := "KLIEPReweight", cls := kliepReweightAdapter
    params := [("gamma", some (.num 1)), ("cv", some (.num 5)), ("n_centers", some (.num 100)),
      ("tol", some (.num (1 / 1000000))), ("max_iter", some (.num 1000)), ("random_state", some (.none))]
    pass := [("gamma", "gamma"), ("cv", "cv"), ("n_centers", "n_centers"), ("tol", "tol"), ("max_iter", "max_iter"),
      ("random_state", "random_state")]
    final := { logisticRegression with wantsWeights := true } }

/-- `NearestNeighborReweight` (skada/_reweight.py:821-949); default estimator `LogisticRegression().set_fit_request(sample_weight=True)` -/
def nearestNeighborReweightFactory : Factory :=
  { name := "NearestNeighborReweight", cls := nearestNeighborReweightAdapter
    params := [("n_neighbors", some (.num 1)), ("weights", some (.str "uniform")), ("algorithm", some (.str "auto")),
      ("leaf_size", some (.num 30)), ("p", some (.num 2)), ("metric", some (.str "minkowski")),
      ("metric_params", some (.none)), ("n_jobs", some (.none)), ("laplace_smoothing", some (.bool false))]
    pass := [("n_neighbors", "n_neighbors"), ("weights", "weights"), ("algorithm", "algorithm"),
      ("leaf_size", "leaf_size"), ("p", "p"), ("metric", "metric"), ("metric_params", "metric_params"),
      ("n_jobs", "n_jobs"), ("laplace_smoothing", "laplace_smoothing")]
    final := { logisticRegression with wantsWeights := true } }

/-- `KMMReweight` (skada/_reweight.py:1128-1199); default estimator `LogisticRegression().set_fit_request(sample_weight=True)` -/
def kmmReweightFactory : Factory :=
  { name := "KMMReweight", cls := kmmReweightAdapter
    params := [("kernel", some (.str "rbf")), ("gamma", some (.none)), ("degree", some (.num 3)),
      ("coef0", some (.num 1)), ("B", some (.num 1000)), ("eps", some (.none)),
      ("tol", some (.num (1 / 1000000))), ("max_iter", some (.num 1000)),
      ("smooth_weights", some (.bool false)), ("solver", some (.str "frank-wolfe"))]
    pass := [("kernel", "kernel"), ("gamma", "gamma"), ("degree", "degree"), ("coef0", "coef0"), ("B", "B"),
      ("eps", "eps"), ("tol", "tol"), ("max_iter", "max_iter"), ("smooth_weights", "smooth_weights"),
      ("solver", "solver")]
    final := { logisticRegression with wantsWeights := true } }

/-- `MMDTarSReweight` (skada/_reweight.py:1365-1405); default estimator `SVC().set_fit_request(sample_weight=True)` -/
def mmdTarSReweightFactory : Factory :=
  { name := "MMDTarSReweight", cls := mmdTarSReweightAdapter
    params := [("gamma", some (.num 1)), ("reg", some (.num (1 / 10000000000))), ("tol", some (.num (1 / 1000000))),
      ("max_iter", some (.num 1000))]
    pass := [("gamma", "gamma"), ("reg", "reg"), ("tol", "tol"), ("max_iter", "max_iter")]
    final := { svc with wantsWeights := true } }

/-- `OTMapping` (skada/_mapping.py:158-193); default estimator `SVC(kernel='rbf')` -/
def otMappingFactory : Factory :=
  { name := "OTMapping", cls := otMappingAdapter
    params := [("metric", some (.str "sqeuclidean")), ("norm", some (.none)), ("max_iter", some (.num 100000))]
    pass := [("metric", "metric"), ("norm", "norm"), ("max_iter", "max_iter")]
    final := svc }

/-- `EntropicOTMapping` (skada/_mapping.py:255-304); default estimator `SVC(kernel='rbf')` -/
def entropicOTMappingFactory : Factory :=
  { name := "EntropicOTMapping", cls := entropicOTMappingAdapter
    params := [("metric", some (.str "sqeuclidean")), ("norm", some (.none)), ("max_iter", some (.num 1000)),
      ("reg_e", some (.num 1)), ("tol", some (.num (1 / 100000000)))]
    pass := [("metric", "metric"), ("norm", "norm"), ("max_iter", "max_iter"), ("reg_e", "reg_e"), ("tol", "tol")]
    final := svc }

/-- `ClassRegularizerOTMapping` (skada/_mapping.py:382-441); default estimator `SVC(kernel='rbf')` -/
def classRegularizerOTMappingFactory : Factory :=
  { name := "ClassRegularizerOTMapping", sharedFinal := true, cls := classRegularizerOTMappingAdapter
    params := [("metric", some (.str "sqeuclidean")), ("norm", some (.str "lpl1")), ("max_iter", some (.num 10)),
      ("max_inner_iter", some (.num 200)), ("reg_e", some (.num 1)), ("reg_cl", some (.num (1 / 10))),
      ("tol", some (.num (1 / 100000000)))]
    pass := [("metric", "metric"), ("norm", "norm"), ("max_iter", "max_iter"), ("max_inner_iter", "max_inner_iter"),
      ("reg_e", "reg_e"), ("reg_cl", "reg_cl"), ("tol", "tol")]
    final := svc }

/-- `LinearOTMapping` (skada/_mapping.py:480-519); default estimator `SVC(kernel='rbf')` -/
def linearOTMappingFactory : Factory :=
  { name := "LinearOTMapping", cls := linearOTMappingAdapter
    params := [("reg", some (.num 1)), ("bias", some (.bool true))]
    pass := [("reg", "reg"), ("bias", "bias")]
    final := svc }

/-- `MultiLinearMongeAlignment` (skada/_mapping.py:703-752); default estimator `LogisticRegression()` -/
def multiLinearMongeAlignmentFactory : Factory :=
  { name := "MultiLinearMongeAlignment", cls := multiLinearMongeAlignmentAdapter
    params := [("reg", some (.num (1 / 100000000))), ("bias", some (.bool true)), ("test_time", some (.bool false))]
    pass := [("reg", "reg"), ("bias", "bias"), ("test_time", "test_time")]
    final := logisticRegression }

/-- `CORAL` (skada/_mapping.py:933-973); default estimator `SVC(kernel='rbf')` -/
def coralFactory : Factory :=
  { name := "CORAL", cls := coralAdapter
    params := [("reg", some (.str "auto")), ("assume_centered", some (.bool false))]
    pass := [("reg", "reg"), ("assume_centered", "assume_centered")]
    final := svc }

/-- `MMDLSConSMapping` (skada/_mapping.py:1186-1226); default estimator `SVC(kernel='rbf')` -/
def mmdLSConSMappingFactory : Factory :=
  { name := "MMDLSConSMapping", cls := mmdLSConSMappingAdapter
    params := [("gamma", some (.num 1)), ("reg_k", some (.num (1 / 10000000000))),
      ("reg_m", some (.num (1 / 10000000000))), ("tol", some (.num (1 / 100000))),
      ("max_iter", some (.num 100))]
    pass := [("gamma", "gamma"), ("reg_k", "reg_k"), ("reg_m", "reg_m"), ("tol", "tol"), ("max_iter", "max_iter")]
    final := svc }

/-- `SubspaceAlignment` (skada/_subspace.py:169-211); default estimator `SVC()` -/
def subspaceAlignmentFactory : Factory :=
  { name := "SubspaceAlignment", cls := subspaceAlignmentAdapter
    params := [("n_components", some (.none)), ("random_state", some (.none))]
    pass := [("n_components", "n_components"), ("random_state", "random_state")]
    final := svc }

/-- `TransferComponentAnalysis` (skada/_subspace.py:374-414); default estimator `SVC()` -/
def transferComponentAnalysisFactory : Factory :=
  { name := "TransferComponentAnalysis", cls := transferComponentAnalysisAdapter
    params := [("kernel", some (.str "rbf")), ("n_components", some (.none)), ("mu", some (.num (1 / 10)))]
    pass := [("kernel", "kernel"), ("n_components", "n_components"), ("mu", "mu")]
    final := svc }

/-- `TransferJointMatching` (skada/_subspace.py:643-696); default estimator `SVC()` -/
def transferJointMatchingFactory : Factory :=
  { name := "TransferJointMatching", cls := transferJointMatchingAdapter
    params := [("n_components", some (.none)), ("tradeoff", some (.num (1 / 100))), ("kernel", some (.str "rbf")),
      ("max_iter", some (.num 100)), ("tol", some (.num (1 / 100)))]
    pass := [("tradeoff", "tradeoff"), ("n_components", "n_components"), ("kernel", "kernel"),
      ("max_iter", "max_iter"), ("tol", "tol")]
    final := svc }

/-- `TransferSubspaceLearning` (skada/_subspace.py:956-1026); default estimator `KNeighborsClassifier(n_neighbors=1)` -/
def transferSubspaceLearningFactory : Factory :=
  { name := "TransferSubspaceLearning", cls := transferSubspaceLearningAdapter
    params := [("n_components", some (.none)), ("base_method", some (.str "flda")), ("length_scale", some (.num 2)),
      ("mu", some (.num (1 / 10))), ("reg", some (.num (1 / 100))), ("max_iter", some (.num 100)),
      ("tol", some (.num (1 / 100))), ("verbose", some (.bool false))]
    pass := [("n_components", "n_components"), ("base_method", "base_method"), ("length_scale", "length_scale"),
      ("mu", "mu"), ("reg", "reg"), ("max_iter", "max_iter"), ("tol", "tol"), ("verbose", "verbose")]
    final := kNeighbors }

/-- `OTLabelProp` (skada/_ot.py:860-902); default estimator `SVC(kernel='rbf').set_fit_request(sample_weight=True)` -/
def otLabelPropFactory : Factory :=
  { name := "OTLabelProp", cls := otLabelPropAdapter
    params := [("reg", some (.num 0)), ("metric", some (.str "sqeuclidean")), ("n_iter_max", some (.num 200))]
    pass := [("reg", "reg"), ("metric", "metric"), ("n_iter_max", "n_iter_max")]
    final := { svc with wantsWeights := true } }

/-- `JCPOTLabelProp` (skada/_ot.py:987-1042); default estimator `LogisticRegression()` -/
def jcpotLabelPropFactory : Factory :=
  { name := "JCPOTLabelProp", cls := jcpotLabelPropAdapter
    params := [("reg", some (.num 1)), ("metric", some (.str "sqeuclidean")), ("max_iter", some (.num 10)),
      ("tol", some (.num (1 / 1000000000))), ("verbose", some (.bool false))]
    pass := [("reg", "reg"), ("metric", "metric"), ("max_iter", "max_iter"), ("tol", "tol"), ("verbose", "verbose")]
    final := logisticRegression }

/-- The functions of the package that build a pipeline from an adapter. -/
def factories : List Factory :=
  [densityReweightFactory, gaussianReweightFactory, discriminatorReweightFactory, kliepReweightFactory,
    nearestNeighborReweightFactory, kmmReweightFactory, mmdTarSReweightFactory, otMappingFactory,
    entropicOTMappingFactory, classRegularizerOTMappingFactory, linearOTMappingFactory,
    multiLinearMongeAlignmentFactory, coralFactory, mmdLSConSMappingFactory, subspaceAlignmentFactory,
    transferComponentAnalysisFactory, transferJointMatchingFactory, transferSubspaceLearningFactory,
    otLabelPropFactory, jcpotLabelPropFactory]

/-! ### Which estimator object a pipeline holds -/

/-- The parameters of estimator objects: object 0 is the default argument of `ClassRegularizerOTMapping`, made when the module is loaded
(skada/_mapping.py:383); `next` is the next free identity.  `pipes` are the objects held by the pipelines built so far; `make_da_pipeline`
does not copy them. -/
structure Heap where
  store : Nat → String → Option AVal
  next : Nat
  pipes : List Nat

/-- After loading the package. -/
def Heap.init : Heap := { store := fun _ _ => Option.none, next := 1, pipes := [] }

/-- What a user does: call a factory without `base_estimator`, or set a parameter of the final estimator of pipeline number `i`. -/
inductive Op
  | build (f : Factory) | set (i : Nat) (p : String) (v : AVal)

/-- One step.  `set_params` of a selector changes its base estimator in place (skada/base.py, `BaseSelector.set_params`). -/
def Heap.step (h : Heap) : Op → Heap
  | .build f => if f.sharedFinal then { h with pipes := h.pipes ++ [0] }
    else { store := h.store, next := h.next + 1, pipes := h.pipes ++ [h.next] }
  | .set i p v => match h.pipes[i]? with
    | Option.none => h
    | some r => { h with store := fun r' p' => if r' = r ∧ p' = p then some v else h.store r' p' }

/-- The value set for parameter `p` of the final estimator of pipeline `i`; `none` if it has its default. -/
def Heap.param (h : Heap) (i : Nat) (p : String) : Option AVal :=
  match h.pipes[i]? with
  | Option.none => Option.none
  | some r => h.store r p

/-! ### Transport objects -/

/-- `_create_transport_estimator` of the OT mapping adapters: the class of POT and its arguments (skada/_mapping.py:150-155, 245-252,
365-379, 476-477). -/
def transport (cls : String) (o : Obj) : Py (String × Kw) :=
  if cls = "OTMappingAdapter" then
    .ok ("EMDTransport", [("metric", o.attr "metric"), ("norm", o.attr "norm"), ("max_iter", o.attr "max_iter")])
  else if cls = "EntropicOTMappingAdapter" then
    .ok ("SinkhornTransport", [("reg_e", o.attr "reg_e"), ("metric", o.attr "metric"), ("norm", o.attr "norm"),
      ("max_iter", o.attr "max_iter"), ("tol", o.attr "tol")])
  else if cls = "ClassRegularizerOTMappingAdapter" then
    if ¬ [AVal.str "lpl1", .str "l1l2"].contains (o.attr "norm") then .error .assertionError
    else .ok (if o.attr "norm" = .str "lpl1" then "SinkhornLpl1Transport" else "SinkhornL1l2Transport",
      [("reg_e", o.attr "reg_e"), ("reg_cl", o.attr "reg_cl"), ("metric", o.attr "metric"), ("max_iter", o.attr "max_iter"),
        ("max_inner_iter", o.attr "max_inner_iter"), ("tol", o.attr "tol")])
  else if cls = "LinearOTMappingAdapter" then
    .ok ("LinearTransport", [("reg", o.attr "reg"), ("bias", o.attr "bias")])
  else .error .attributeError

end Skada.Ctor

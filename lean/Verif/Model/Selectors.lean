/-
Metadata container and selectors of skada/base.py, and the fit loop of a pipeline of selectors.

Conventions.  `X` is a list of rows, labels are a list of numbers, keyword parameters are an insertion-ordered
dictionary.  Base estimators are arbitrary functions of the data they are given (and arbitrary functions of their
fitted state); a run records every call made to them.  Dtypes and trailing shapes of arrays travelling through the
container are not tracked (see C10 for what mixed dtypes do).
-/
import Verif.Model.Outputs
import Verif.Model.Domain

namespace Skada

/-- Keyword parameters. -/
abbrev Dict := List (String × Param Num)

/-- `d[k] = v` on an insertion-ordered dictionary. -/
def Dict.put : Dict → String → Param Num → Dict
  | [], k, v => [(k, v)]
  | (k', v') :: d, k, v => if k' = k then (k', v) :: d else (k', v') :: Dict.put d k v

/-- `d.update(e)` -/
def Dict.update (d : Dict) (e : Dict) : Dict := e.foldl (fun d kv => d.put kv.1 kv.2) d

/-- `d.get(k)`, with `None` for an absent key. -/
def Dict.get (d : Dict) (k : String) : Param Num := (d.lookup k).getD .none

/-- `k in d` -/
def Dict.has (d : Dict) (k : String) : Bool := (d.lookup k).isSome

/-! ### Metadata routing of scikit-learn (trusted external behaviour) -/

/-- The request value of one parameter: `True`, `False`, `None`, `WARN` or an alias. -/
inductive Alias | yes | no | unset | warn | name (s : String)
  deriving DecidableEq

/-- The requests of one method of an estimator. -/
abbrev Request := List (String × Alias)

/-- `MethodMetadataRequest._route_params` of scikit-learn: parameters that are `None` are ignored, an unset
request for a given parameter raises `UnsetMetadataPassedError` (a `ValueError`). -/
def routeParams (req : Request) (params : Dict) : Py Dict :=
  let args : Dict := params.filter (fun kv => decide (kv.2 ≠ .none))
  if req.any (fun r => decide (r.2 = .unset) && args.has r.1) then .error .valueError
  else .ok (req.filterMap (fun r => match r.2 with
    | .yes => (args.lookup r.1).map (fun v => (r.1, v))
    | .name a => (args.lookup a).map (fun v => (r.1, v))
    | .no | .unset | .warn => none))

/-- `{k: params[k] for k in request._consumes(params=params)}` (skada/base.py:347): requested keys, aliases are
not renamed. -/
def consumeParams (req : Request) (params : Dict) : Dict :=
  req.filterMap (fun r => match r.2 with
    | .yes => (params.lookup r.1).map (fun v => (r.1, v))
    | .name a => (params.lookup a).map (fun v => (a, v))
    | .no | .unset | .warn => none)

/-! ### The container -/

/-- What a transformer returns: an array, `(X, params)`, `(X, y, params)`, or anything else. -/
inductive StepOut (α : Type)
  | arr (X : List α) | pair (X : List α) (params : Dict) | triple (X : List α) (y : Option (List Num)) (params : Dict)
  | other

/-- `MetadataContainer` (skada/base.py:154-168). -/
structure Cont (α : Type) where
  features : List α
  labels : Option (List Num)
  metadata : Dict

variable {α β σ : Type}

/-- The `X` argument of a selector: an array or a container. -/
inductive XArg (α : Type)
  | array (X : List α) | cont (c : Cont α)

/-- `MetadataContainer.from_input(X)` (skada/base.py:170-172). -/
def Cont.fromInput : XArg α → Cont α
  | .array X => ⟨X, none, []⟩
  | .cont c => c

/-- `merge_in` (skada/base.py:175-191). -/
def Cont.mergeIn (c : Cont α) : StepOut α → Py (Cont α)
  | .pair X params => .ok ⟨X, c.labels, c.metadata.update params⟩
  | .triple X y params => .ok ⟨X, y, c.metadata.update params⟩
  | .arr X => .ok { c with features := X }
  | .other => .error .valueError

/-- `merge_out` (skada/base.py:193-196). -/
def Cont.mergeOut (c : Cont α) (y : Option (List Num)) (params : Dict) : List α × Option (List Num) × Dict :=
  (c.features, (match c.labels with | some l => some l | none => y), params.update c.metadata)

/-! ### Estimators and calls -/

/-- The data of one call `estimator.method(X, y, **params)`. -/
structure Call (α : Type) where
  X : List α
  y : Option (List Num)
  params : Dict

/-- The two ways of fitting. -/
inductive Method | fit | fitTransform
  deriving DecidableEq

/-- A base estimator: which methods it has, its routing requests, and its behaviour (arbitrary).  Fitting starts
from a fresh clone, so the fitted state is a function of the call. -/
structure Est (α σ : Type) where
  hasTransform : Bool
  hasFitTransform : Bool
  fitReq : Request
  fitTransformReq : Request
  transformReq : Request
  fit : Call α → Py σ
  fitTransform : Call α → Py (σ × StepOut α)
  transform : σ → List α → Dict → Py (StepOut α)

/-- `getattr(routing, method_name)` -/
def Est.request (e : Est α σ) : Method → Request
  | .fit => e.fitReq
  | .fitTransform => e.fitTransformReq

/-- `getattr(clone(base_estimator), method_name)(X, y, **params)` -/
def Est.invoke (e : Est α σ) (m : Method) (c : Call α) : Py (σ × StepOut α) :=
  match m with
  | .fit => match e.fit c with
    | .error err => .error err
    | .ok s => .ok (s, .other)          -- `fit` returns the estimator, which is not used as an output
  | .fitTransform => e.fitTransform c

/-- A selector around one base estimator: `mask_target_labels` and `_is_final` (skada/base.py:209-215). -/
structure Sel (α σ : Type) where
  est : Est α σ
  mask : Bool
  final : Bool

/-- Entries of a `sample_domain` parameter as integers (`check_array(sample_domain, dtype=np.int32)`). -/
def domainsOf : Param Num → Py (List Int)
  | .arr rows => if rows.any (fun v => !v.isFinite) then .error .valueError
      else .ok (rows.map (fun v => match v with | .fin q => q.num.tdiv q.den | _ => 0))
  | .scalar _ | .none => .error .typeError

/-- `extract_source_indices(params['sample_domain'])` -/
def sourceMaskOf (p : Param Num) : Py (List Bool) :=
  match domainsOf p with
  | .error e => .error e
  | .ok sd => extractSourceIndices sd

/-- `_auto_mask_target_labels` (skada/base.py:350-358).  The result is the content of the caller's array after the
call: the code writes in place. -/
def autoMask (y : Option (List Num)) (params : Dict) : Py (Option (List Num)) :=
  match y with
  | none => .ok none
  | some y =>
    if params.get "sample_domain" = .none then .ok (some y)
    else match findYType y with
      | .error e => .error e
      | .ok t => match sourceMaskOf (params.get "sample_domain") with
        | .error e => .error e
        | .ok src => match Np.boolFill y (src.map (!·)) (maskLabel t) with
          | .error e => .error e
          | .ok y' => .ok (some y')

/-- `_prepare_routing` (skada/base.py:320-348).  Both exceptions it can raise are `ValueError`s. -/
def prepareRouting (isFinal isTransformer : Bool) (req : Request) (params : Dict) : Py Dict :=
  if isFinal || !isTransformer then routeParams req params else .ok (consumeParams req params)

/-- `BaseSelector._remove_masked` (skada/base.py:360-398). -/
def Sel.removeMasked (hasTransform : Bool) (X : List α) (y : Option (List Num)) (routed : Dict) :
    Py (List α × Option (List Num) × Dict) :=
  match y with
  | none => .ok (X, none, routed)
  | some y =>
    if hasTransform || routed.has "sample_domain" then .ok (X, some y, routed)
    else match Skada.removeMasked X y routed with
      | .error e => .error e
      | .ok (X', y', r') => .ok (X', some y', r')

/-- A run: the calls made to base estimators, and the result. -/
abbrev Run (α β : Type) := List (Call α) × Py β

/-- A selector's own masking: `if self.mask_target_labels: y = self._auto_mask_target_labels(y, params)`. -/
def Sel.ownMask (s : Sel α σ) (y : Option (List Num)) (params : Dict) : Py (Option (List Num)) :=
  if s.mask then autoMask y params else .ok y

/-! ### Shared -/

/-- Routing and removal of masked rows, the same lines in `Shared._fit` (skada/base.py:431-434) and `PerDomain._fit`
(skada/base.py:472-475). -/
def Sel.routedCall (s : Sel α σ) (m : Method) (X : List α) (y : Option (List Num)) (params : Dict) : Py (Call α) :=
  match prepareRouting s.final s.est.hasTransform (s.est.request m) params with
  | .error e => .error e
  | .ok routed => match Sel.removeMasked s.est.hasTransform X y routed with
    | .error e => .error e
    | .ok (X, y, routed) => .ok ⟨X, y, routed⟩

/-- `Shared._fit` (skada/base.py:426-439); also returns the caller's labels after the in-place masking. -/
def Sel.sharedFit (s : Sel α σ) (m : Method) (c : Cont α) (y : Option (List Num)) (params : Dict) :
    Run α ((σ × StepOut α) × Option (List Num)) :=
  match s.ownMask y params with
  | .error e => ([], .error e)
  | .ok y' =>
    let (X, y'', params) := c.mergeOut y' params
    match s.routedCall m X y'' params with
    | .error e => ([], .error e)
    | .ok call => ([call], match s.est.invoke m call with
      | .error e => .error e
      | .ok r => .ok (r, y'))

/-- `Shared._route_to_estimator` for `transform` (skada/base.py:442-451); no labels are given, so nothing is
removed. -/
def Sel.sharedTransform (s : Sel α σ) (fitted : σ) (X : List α) (params : Dict) : Py (StepOut α) :=
  match prepareRouting s.final s.est.hasTransform s.est.transformReq params with
  | .error e => .error e
  | .ok routed => s.est.transform fitted X routed

/-- `Shared.fit_transform` (skada/base.py:413-423), without the call of `merge_in`. -/
def Sel.sharedFitTransformOut (s : Sel α σ) (c : Cont α) (y : Option (List Num)) (params : Dict) :
    Run α ((σ × StepOut α) × Option (List Num)) :=
  if s.est.hasFitTransform then s.sharedFit .fitTransform c y params
  else match s.sharedFit .fit c y params with
    | (calls, .error e) => (calls, .error e)
    | (calls, .ok ((fitted, _), y')) =>
      let (X, _, mp) := c.mergeOut y' params
      (calls, match routeParams s.est.transformReq mp with
        | .error e => .error e
        | .ok tp => match s.sharedTransform fitted X tp with
          | .error e => .error e
          | .ok out => .ok ((fitted, out), y'))

/-! ### PerDomain -/

/-- `{k: v[idx] for k, v in routed_params.items()}` -/
def takeParams (idx : List Nat) : Dict → Py Dict
  | [] => .ok []
  | (k, v) :: d => match v with
    | .arr rows => match Np.take rows idx with
      | .error e => .error e
      | .ok r => match takeParams idx d with
        | .error e => .error e
        | .ok d' => .ok ((k, .arr r) :: d')
    | .scalar _ | .none => .error .typeError

/-- The arguments `X[idx], y[idx] if y is not None else None, {k: v[idx]}` (skada/base.py:480-484). -/
def takeCall (X : List α) (y : Option (List Num)) (routed : Dict) (idx : List Nat) : Py (Call α) :=
  match Np.take X idx with
  | .error e => .error e
  | .ok X' =>
    let y' : Py (Option (List Num)) := match y with
      | none => .ok none
      | some y => match Np.take y idx with
        | .error e => .error e
        | .ok r => .ok (some r)
    match y' with
    | .error e => .error e
    | .ok y' => match takeParams idx routed with
      | .error e => .error e
      | .ok r' => .ok ⟨X', y', r'⟩

/-- `np.where(sample_domain == domain_label)` -/
def domainIdx (sd : List Int) (d : Int) : List Nat := Np.flatnonzero (sd.map (fun e => decide (e = d)))

/-- The loop over the domain labels (skada/base.py:476-485). -/
def Sel.perDomainLoop (s : Sel α σ) (m : Method) (X : List α) (y : Option (List Num)) (routed : Dict)
    (sd : List Int) : List Int → Run α (List (Int × List Nat × σ × StepOut α))
  | [] => ([], .ok [])
  | d :: ds =>
    match takeCall X y routed (domainIdx sd d) with
    | .error e => ([], .error e)
    | .ok call => match s.est.invoke m call with
      | .error e => ([call], .error e)
      | .ok (fitted, out) => match s.perDomainLoop m X y routed sd ds with
        | (calls, .error e) => (call :: calls, .error e)
        | (calls, .ok r) => (call :: calls, .ok ((d, domainIdx sd d, fitted, out) :: r))

/-- `PerDomain._fit` (skada/base.py:466-488). -/
def Sel.perDomainFit (s : Sel α σ) (m : Method) (c : Cont α) (y : Option (List Num)) (params : Dict) :
    Run α (List (Int × List Nat × σ × StepOut α) × Option (List Num)) :=
  match s.ownMask y params with
  | .error e => ([], .error e)
  | .ok y' =>
    let (X, y'', params) := c.mergeOut y' params
    if !params.has "sample_domain" then ([], .error .keyError)
    else match domainsOf (params.get "sample_domain") with
      | .error e => ([], .error e)
      | .ok sd => match s.routedCall m X y'' params with
        | .error e => ([], .error e)
        | .ok call => match s.perDomainLoop m call.X call.y call.params sd (Np.unique sd) with
          | (calls, .error e) => (calls, .error e)
          | (calls, .ok r) => (calls, .ok (r, y'))

/-- A parameter of a container output as an array (`v.shape` of anything else raises `AttributeError`). -/
def paramArrs : Dict → Py (List (String × NArr Num))
  | [] => .ok []
  | (k, .arr rows) :: d => match paramArrs d with
    | .error e => .error e
    | .ok r => .ok ((k, ⟨.float, [], rows⟩) :: r)
  | (_, _) :: _ => .error .attributeError

/-- One container-valued output (skada/_utils.py:183-189); arrays are rejected by the length tests. -/
def StepOut.asContainer : StepOut α → Py (Container α Num Num)
  | .pair X params => match paramArrs params with
    | .error e => .error e
    | .ok p => .ok ⟨⟨.float, [], X⟩, none, p⟩
  | .triple X y params => match paramArrs params with
    | .error e => .error e
    | .ok p => .ok ⟨⟨.float, [], X⟩, y.map (fun y => ⟨.float, [], y⟩), p⟩
  | .arr _ | .other => .error .valueError

/-- An array output with its positions. -/
def StepOut.asArr : List Nat × StepOut α → Py (List Nat × NArr α)
  | (idx, .arr X) => .ok (idx, ⟨.float, [], X⟩)
  | _ => .error .valueError

/-- A container output with its positions. -/
def StepOut.asCont : List Nat × StepOut α → Py (List Nat × Container α Num Num)
  | (idx, o) => match o.asContainer with
    | .error e => .error e
    | .ok c => .ok (idx, c)

/-- `_merge_domain_outputs(n, outputs, allow_containers=True)` on step outputs (skada/_utils.py:174-215).
Simplifications: all arrays of one kind have a common dtype, written `float`, and a common row shape; domains which mix
arrays and containers are rejected with a `ValueError`. -/
def mergeStepOuts [Cell α] (n : Nat) (outs : List (List Nat × StepOut α)) : Py (StepOut α) :=
  match outs with
  | [] => .error .assertionError
  | (_, .arr _) :: _ =>
    match outs.mapM StepOut.asArr with
    | .error e => .error e
    | .ok arrs => match mergeOutputs n arrs with
      | .error e => .error e
      | .ok a => .ok (.arr a.rows)
  | (_, .other) :: _ => .error .assertionError
  | _ =>
    match outs.mapM StepOut.asCont with
    | .error e => .error e
    | .ok cs => match mergeContainers n cs with
      | .error e => .error e
      | .ok acc => .ok (.triple ((acc.X.map NArr.rows).getD []) (acc.y.map NArr.rows)
          (acc.params.map (fun kv => (kv.1, .arr kv.2.rows))))

/-- `PerDomain.fit_transform` (skada/base.py:490-505), without the call of `merge_in`.  When the base estimator has no
`fit_transform`, line 500 calls `self._fit(X_container, y, **params)` without the method name: `TypeError`. -/
def Sel.perDomainFitTransformOut [Cell α] (s : Sel α σ) (c : Cont α) (y : Option (List Num)) (params : Dict) :
    Run α ((List (Int × σ) × StepOut α) × Option (List Num)) :=
  if s.est.hasFitTransform then
    match s.perDomainFit .fitTransform c y params with
    | (calls, .error e) => (calls, .error e)
    | (calls, .ok (r, y')) => (calls, match mergeStepOuts c.features.length (r.map (fun o => (o.2.1, o.2.2.2))) with
      | .error e => .error e
      | .ok out => .ok ((r.map (fun o => (o.1, o.2.2.1)), out), y'))
  else match s.ownMask y params with
    | .error e => ([], .error e)
    | .ok _ => ([], .error .typeError)

/-- What a method of a fitted estimator returns: an array, or a number (`score`). -/
inductive QOut (β : Type)
  | arr (a : NArr β) | number (v : Num)

/-- The loop of `PerDomain._route_to_estimator` over the domain labels (skada/base.py:513-532).  `query` is the method
called on a fitted estimator. -/
def perDomainOutputs (ests : List (Int × σ)) (query : σ → Call α → Py (QOut β)) (X : List α)
    (y : Option (List Num)) (routed : Dict) (sd : List Int) : List Int → Py (List (List Nat × QOut β))
  | [] => .ok []
  | d :: ds => match ests.lookup d with
    | none => .error .valueError
    | some e => match takeCall X y routed (domainIdx sd d) with
      | .error err => .error err
      | .ok call => match query e call with
        | .error err => .error err
        | .ok out => match perDomainOutputs ests query X y routed sd ds with
          | .error err => .error err
          | .ok r => .ok ((domainIdx sd d, out) :: r)

/-- An output that has to be an array (`assert isinstance(first_output, np.ndarray)`, skada/_utils.py:208). -/
def QOut.asArr : List Nat × QOut β → Py (List Nat × NArr β)
  | (idx, .arr a) => .ok (idx, a)
  | (_, .number _) => .error .assertionError

/-- `_merge_domain_outputs(n, outputs)` with `allow_containers=False` (skada/_utils.py:174-215): a first output which is
no array fails the assertion of line 208.  Simplification: so does a later one. -/
def mergeQOuts [Cell β] (n : Nat) (outs : List (List Nat × QOut β)) : Py (NArr β) :=
  match outs.mapM QOut.asArr with
  | .error e => .error e
  | .ok arrs => mergeOutputs n arrs

/-- `PerDomain._route_to_estimator` (skada/base.py:507-533) for a method with request `req`. -/
def Sel.perDomainRoute [Cell β] (s : Sel α σ) (req : Request) (ests : List (Int × σ))
    (query : σ → Call α → Py (QOut β)) (X : List α) (y : Option (List Num)) (params : Dict) : Py (NArr β) :=
  match prepareRouting s.final s.est.hasTransform req params with
  | .error e => .error e
  | .ok routed =>
    if !params.has "sample_domain" then .error .keyError
    else match domainsOf (params.get "sample_domain") with
      | .error e => .error e
      | .ok sd => match perDomainOutputs ests query X y routed sd (Np.unique sd) with
        | .error e => .error e
        | .ok outs => mergeQOuts X.length outs

/-! ### SelectSource, SelectTarget -/

/-- Which side a domain-selecting selector keeps. -/
inductive Side | source | target
  deriving DecidableEq

/-- `_select_indices` (skada/base.py:583-584 and 599-600). -/
def Side.mask (side : Side) (p : Param Num) : Py (List Bool) :=
  match sourceMaskOf p with
  | .error e => .error e
  | .ok m => .ok (match side with | .source => m | .target => m.map (!·))

/-- `_pre_filter` (skada/base.py:564-568): the container and the labels and parameters passed on. -/
def preFilter (side : Side) (c : Cont α) (y : Option (List Num)) (params : Dict) :
    Py (Cont α × Option (List Num) × Dict) :=
  let (X, y, params) := c.mergeOut y params
  match side.mask (params.get "sample_domain") with
  | .error e => .error e
  | .ok m => match applyDomainMasks X y params m with
    | .error e => .error e
    | .ok (X', y', params') => match c.mergeIn (.triple X' y' params') with
      | .error e => .error e
      | .ok c' => .ok (c', y', params')

/-- `_BaseSelectDomain.fit` (skada/base.py:570-572): `Shared.fit` on the filtered data.  The caller's labels are not
touched, the filtered ones are a copy. -/
def Sel.selectFit (s : Sel α σ) (side : Side) (c : Cont α) (y : Option (List Num)) (params : Dict) :
    Run α (σ × StepOut α) :=
  match preFilter side c y params with
  | .error e => ([], .error e)
  | .ok (c', y', params') => match s.sharedFit .fit c' y' params' with
    | (calls, .error e) => (calls, .error e)
    | (calls, .ok (r, _)) => (calls, .ok r)

/-- `_BaseSelectDomain.fit_transform` (skada/base.py:574-577): `Shared.fit_transform` on the filtered data. -/
def Sel.selectFitTransform (s : Sel α σ) (side : Side) (c : Cont α) (y : Option (List Num)) (params : Dict) :
    Run α (σ × Cont α) :=
  match preFilter side c y params with
  | .error e => ([], .error e)
  | .ok (c', y', params') => match s.sharedFitTransformOut c' y' params' with
    | (calls, .error e) => (calls, .error e)
    | (calls, .ok ((fitted, out), _)) => (calls, match c'.mergeIn out with
      | .error e => .error e
      | .ok c'' => .ok (fitted, c''))

/-! ### SelectSourceTarget -/

/-- `SelectSourceTarget` (skada/base.py:605-620); no `mask_target_labels` attribute is set. -/
structure SST (α σ : Type) where
  source : Est α σ
  target : Option (Est α σ)
  final : Bool

/-- The constructor's check (skada/base.py:606-613). -/
def SST.init (source : Est α σ) (target : Option (Est α σ)) (mask : Bool) : Py (SST α σ) :=
  if (match target with | some t => source.hasTransform && !t.hasTransform | none => false) then .error .typeError
  else if mask then .error .valueError
  else .ok ⟨source, target, false⟩

/-- The `sample_domain` argument of the check functions. -/
def sdArg : Param Num → Py SDArg
  | .none => .ok .none
  | .scalar v => match domainsOf (.arr [v]) with
    | .ok [d] => .ok (.scalar d)
    | .ok _ => .error .valueError
    | .error e => .error e
  | .arr rows => match domainsOf (.arr rows) with
    | .error e => .error e
    | .ok sd => .ok (.vec sd)

/-- The validation at the start of `_fit` and `_route_to_estimator` (skada/base.py:696-700 and 742-746). -/
def sstCheck (X : List α) (y : Option (List Num)) (params : Dict) : Py (List Int) :=
  match sdArg (params.get "sample_domain") with
  | .error e => .error e
  | .ok arg => match y with
    | some y => match checkXyDomain X y arg {} with
      | .error e => .error e
      | .ok (_, _, sd) => .ok sd
    | none => match checkXDomain X arg {} with
      | .error e => .error e
      | .ok (_, sd) => .ok sd

/-- Domain labels as a parameter value. -/
def domParam (sd : List Int) : Param Num := .arr (sd.map (fun (d : Int) => .fin d))

/-- One side of `SelectSourceTarget._fit` (skada/base.py:708-723).  `_prepare_routing` is given the array `X_masked`
instead of a container, so a routing problem ends in `AttributeError` (line 333). -/
def SST.fitSide (s : SST α σ) (e : Est α σ) (m : Method) (X : List α) (y : Option (List Num)) (params : Dict)
    (mask : List Bool) : Run α (σ × StepOut α) :=
  if mask.count true = 0 then ([], .error .valueError)
  else match applyDomainMasks X y params mask with
    | .error err => ([], .error err)
    | .ok (X', y', p') => match prepareRouting s.final s.source.hasTransform (e.request m) p' with
      | .error _ => ([], .error .attributeError)
      | .ok routed => match Sel.removeMasked s.source.hasTransform X' y' routed with
        | .error err => ([], .error err)
        | .ok (X'', y'', r) => ([⟨X'', y'', r⟩], e.invoke m ⟨X'', y'', r⟩)

/-- The result of `SelectSourceTarget._fit`: masks, fitted estimators and outputs of both sides. -/
structure SSTFit (α σ : Type) where
  srcMask : List Bool
  src : σ
  srcOut : StepOut α
  tgt : σ
  tgtOut : StepOut α

/-- `SelectSourceTarget._fit` (skada/base.py:694-725). -/
def SST.fit (s : SST α σ) (m : Method) (c : Cont α) (y : Option (List Num)) (params : Dict) :
    Run α (SSTFit α σ) :=
  let (X, y, params) := c.mergeOut y params
  match sstCheck X y params with
  | .error e => ([], .error e)
  | .ok sd =>
    let params := params.put "sample_domain" (domParam sd)
    let src := sd.map (fun d => decide (0 ≤ d))
    match s.fitSide s.source m X y params src with
    | (calls, .error e) => (calls, .error e)
    | (calls, .ok (fs, outs)) => match s.fitSide (s.target.getD s.source) m X y params (src.map (!·)) with
      | (calls', .error e) => (calls ++ calls', .error e)
      | (calls', .ok (ft, outt)) => (calls ++ calls', .ok ⟨src, fs, outs, ft, outt⟩)

/-- `SelectSourceTarget.fit_transform` (skada/base.py:727-738), without the call of `merge_in`.  Without a
`fit_transform` of the source estimator it fits and then reads `self.routing_`, which is never set. -/
def SST.fitTransformOut [Cell α] (s : SST α σ) (c : Cont α) (y : Option (List Num)) (params : Dict) :
    Run α ((σ × σ) × StepOut α) :=
  if s.source.hasFitTransform then
    match s.fit .fitTransform c y params with
    | (calls, .error e) => (calls, .error e)
    | (calls, .ok r) => (calls, match mergeStepOuts c.features.length
          [(Np.flatnonzero r.srcMask, r.srcOut), (Np.flatnonzero (r.srcMask.map (!·)), r.tgtOut)] with
      | .error e => .error e
      | .ok out => .ok ((r.src, r.tgt), out))
  else match s.fit .fit c y params with
    | (calls, .error e) => (calls, .error e)
    | (calls, .ok _) => (calls, .error .attributeError)

/-- The loop of `SelectSourceTarget._route_to_estimator` (skada/base.py:749-763): for each side the fitted estimator,
its request and its method (`τ`: the fitted estimators).  `isTransform` is the test `method_name == 'transform'` of line 758. -/
def SST.sideOutputs {τ : Type} (s : SST α σ) (isTransform : Bool) (query : τ → Call α → Py (QOut β)) (X : List α)
    (y : Option (List Num)) (params : Dict) :
    List (τ × Request × List Bool) → Py (List (List Nat × NArr β))
  | [] => .ok []
  | (e, req, mask) :: l =>
    if mask.count true = 0 then s.sideOutputs isTransform query X y params l
    else match applyDomainMasks X y params mask with
      | .error err => .error err
      | .ok (X', y', p') => match prepareRouting s.final s.source.hasTransform req p' with
        | .error err => .error err
        | .ok routed => match query e ⟨X', if isTransform then none else y', routed⟩ with
          | .error err => .error err
          | .ok (.number _) => .error .assertionError      -- line 762
          | .ok (.arr out) => match s.sideOutputs isTransform query X y params l with
            | .error err => .error err
            | .ok r => .ok ((Np.flatnonzero mask, out) :: r)

/-- `SelectSourceTarget._route_to_estimator` (skada/base.py:740-764). -/
def SST.route {τ : Type} [Cell β] (s : SST α σ) (isTransform : Bool) (reqS reqT : Request) (fitted : τ × τ)
    (query : τ → Call α → Py (QOut β)) (X : List α) (y : Option (List Num)) (params : Dict) : Py (NArr β) :=
  match sstCheck X y params with
  | .error e => .error e
  | .ok sd =>
    let src := sd.map (fun d => decide (0 ≤ d))
    match s.sideOutputs isTransform query X y (params.put "sample_domain" (domParam sd))
        [(fitted.1, reqS, src), (fitted.2, reqT, src.map (!·))] with
    | .error e => .error e
    | .ok outs => mergeOutputs X.length outs

/-- A key of the dictionary `estimators_`: a domain label (`PerDomain`) or a side (`SelectSourceTarget`). -/
inductive EKey | label (d : Int) | side (s : Side)
  deriving DecidableEq

/-- What the availability test can see of a selector: the methods of the attribute named `base_estimator` and of the
one named `source_estimator`, and of the fitted `estimators_`. -/
structure SelView where
  base : Option (List String)
  source : Option (List String)
  estimators : Option (List (EKey × List String))

/-- `_estimator_has(attr, base_attr_name)` (skada/base.py:36-56) behind `available_if`: `self.estimators_[0]` fails
for a dictionary without the key `0`; `available_if` turns any failure, like the answer `False`, into
`AttributeError`. -/
def estimatorHas (attr : String) (baseAttr : SelView → Option (List String)) (v : SelView) : Py Unit :=
  if (match baseAttr v with | some ms => decide (attr ∈ ms) | none => false) then .ok ()
  else match v.estimators with
    | none => .error .attributeError
    | some es => match es.lookup (.label 0) with
      | none => .error .attributeError
      | some ms => if attr ∈ ms then .ok () else .error .attributeError

/-- How a fitted `SelectSourceTarget` looks to the availability test (skada/base.py:615-616, 723-724). -/
def SST.view (sourceMethods targetMethods : List String) : SelView :=
  ⟨none, some sourceMethods, some [(.side .source, sourceMethods), (.side .target, targetMethods)]⟩

/-- Calling a method of a fitted `SelectSourceTarget`: `transform`, `predict_proba`, `predict_log_proba`,
`decision_function` and `score` are overridden with `base_attr_name='source_estimator'` (skada/base.py:766-787),
`predict` is not (skada/base.py:300-302). -/
def SST.call {τ : Type} [Cell β] (s : SST α σ) (v : SelView) (method : String) (reqS reqT : Request) (fitted : τ × τ)
    (query : τ → Call α → Py (QOut β)) (X : List α) (y : Option (List Num)) (params : Dict) : Py (NArr β) :=
  match estimatorHas method (if method = "predict" then SelView.base else SelView.source) v with
  | .error e => .error e
  | .ok _ => s.route (method = "transform") reqS reqT fitted query X y params

/-! ### A pipeline of selectors -/

/-- One step of a DA pipeline. -/
inductive Step (α σ : Type)
  | shared (s : Sel α σ) | perDomain (s : Sel α σ) | select (side : Side) (s : Sel α σ) | sourceTarget (s : SST α σ)

/-- The fitted estimators of a step. -/
inductive Fitted (σ : Type)
  | one (s : σ) | perDomain (l : List (Int × σ)) | sourceTarget (s t : σ)

/-- Does the selector offer `transform`/`fit_transform`? -/
def Step.isTransformer : Step α σ → Bool
  | .shared s | .perDomain s | .select _ s => s.est.hasTransform
  | .sourceTarget s => s.source.hasTransform

/-- `selector.fit_transform(X_container, y, **params)`: fitted step, container, caller's labels afterwards. -/
def Step.fitTransform [Cell α] (st : Step α σ) (c : Cont α) (y : Option (List Num)) (params : Dict) :
    Run α (Fitted σ × Cont α × Option (List Num)) :=
  match st with
  | .shared s => match s.sharedFitTransformOut c y params with
    | (calls, .error e) => (calls, .error e)
    | (calls, .ok ((f, out), y')) => (calls, match c.mergeIn out with
      | .error e => .error e
      | .ok c' => .ok (.one f, c', y'))
  | .perDomain s => match s.perDomainFitTransformOut c y params with
    | (calls, .error e) => (calls, .error e)
    | (calls, .ok ((f, out), y')) => (calls, match c.mergeIn out with
      | .error e => .error e
      | .ok c' => .ok (.perDomain f, c', y'))
  | .select side s => match s.selectFitTransform side c y params with
    | (calls, .error e) => (calls, .error e)
    | (calls, .ok (f, c')) => (calls, .ok (.one f, c', y))
  | .sourceTarget s => match s.fitTransformOut c y params with
    | (calls, .error e) => (calls, .error e)
    | (calls, .ok (f, out)) => (calls, match c.mergeIn out with
      | .error e => .error e
      | .ok c' => .ok (.sourceTarget f.1 f.2, c', y))

/-- `selector.fit(X_container, y, **params)`: fitted step, caller's labels afterwards. -/
def Step.fit (st : Step α σ) (c : Cont α) (y : Option (List Num)) (params : Dict) :
    Run α (Fitted σ × Option (List Num)) :=
  match st with
  | .shared s => match s.sharedFit .fit c y params with
    | (calls, .error e) => (calls, .error e)
    | (calls, .ok ((f, _), y')) => (calls, .ok (.one f, y'))
  | .perDomain s => match s.perDomainFit .fit c y params with
    | (calls, .error e) => (calls, .error e)
    | (calls, .ok (r, y')) => (calls, .ok (.perDomain (r.map (fun o => (o.1, o.2.2.1))), y'))
  | .select side s => match s.selectFit side c y params with
    | (calls, .error e) => (calls, .error e)
    | (calls, .ok (f, _)) => (calls, .ok (.one f, y))
  | .sourceTarget s => match s.fit .fit c y params with
    | (calls, .error e) => (calls, .error e)
    | (calls, .ok r) => (calls, .ok (.sourceTarget r.src r.tgt, y))

/-- The steps of `sklearn.pipeline.Pipeline.fit` (trusted external behaviour): `fit_transform` for every step but the
last, `fit` for the last, all with the same `y` object; step `k` receives the parameters that its `keep` lets through
(metadata routing of the pipeline). -/
def fitSteps [Cell α] : List ((String → Bool) × Step α σ) → Cont α → Option (List Num) → Dict →
    Run α (List (Fitted σ) × Option (List Num))
  | [], _, y, _ => ([], .ok ([], y))
  | [(keep, st)], c, y, params => match st.fit c y (params.filter (fun kv => keep kv.1)) with
    | (calls, .error e) => (calls, .error e)
    | (calls, .ok (f, y')) => (calls, .ok ([f], y'))
  | (keep, st) :: rest, c, y, params => match st.fitTransform c y (params.filter (fun kv => keep kv.1)) with
    | (calls, .error e) => (calls, .error e)
    | (calls, .ok (f, c', y')) => match fitSteps rest c' y' params with
      | (calls', .error e) => (calls ++ calls', .error e)
      | (calls', .ok (fs, y'')) => (calls ++ calls', .ok (f :: fs, y''))

/-- `Pipeline.fit(X, y, **params)`; a non-final step that is no transformer is rejected first. -/
def pipelineFit [Cell α] (steps : List ((String → Bool) × Step α σ)) (X : List α) (y : Option (List Num))
    (params : Dict) : Run α (List (Fitted σ) × Option (List Num)) :=
  if steps.dropLast.any (fun st => !st.2.isTransformer) then ([], .error .typeError)
  else fitSteps steps (Cont.fromInput (.array X)) y params

end Skada

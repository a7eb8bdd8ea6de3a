/-
Model of skada/_pipeline.py (`make_da_pipeline`) and of the parameter handling of the selectors in skada/base.py
(`get_params`, `set_params`, and `sklearn.base.clone`).
-/
import Verif.Model.Np

namespace Skada

/-! ### Objects -/

/-- What pipeline construction can see of a base estimator: class name, the attribute `predicts_target_labels`
(`False` if absent), whether it has `transform`, and its identity. -/
structure EstObj where
  cls : String
  predicts : Bool
  hasTransform : Bool
  uid : Nat
  deriving DecidableEq

/-- The selector classes of skada/base.py, and any other subclass of `BaseSelector`. -/
inductive Kind
  | shared | perDomain | selectSource | selectTarget | sourceTarget | custom (cls : String)
  deriving DecidableEq

/-- A selector object.  `base` is `base_estimator`, for `SelectSourceTarget` the `source_estimator`; `mask` is the
attribute `mask_target_labels`, which `SelectSourceTarget` does not set. -/
structure SelObj where
  kind : Kind
  base : EstObj
  mask : Option Bool
  final : Bool
  deriving DecidableEq

/-- The value of a step: `None`, an estimator, a selector. -/
inductive StepVal
  | none | est (e : EstObj) | sel (s : SelObj)
  deriving DecidableEq

/-- An argument of `make_da_pipeline`, with the name if it is a pair: an estimator, or a `Pipeline` whose first step is
a selector.  (A `Pipeline` whose first step is no selector is treated like any other estimator.) -/
inductive Arg
  | plain (name : Option String) (v : StepVal)
  | nested (name : Option String) (steps : List (String × StepVal))

/-! ### Construction of selectors -/

/-- The constructors with a base estimator and `mask_target_labels` (skada/base.py:209-215, 590-597, 605-620). -/
def Kind.construct (k : Kind) (e : EstObj) (mask : Bool) : Py SelObj :=
  match k with
  | .selectTarget => if mask then .error .valueError else .ok ⟨k, e, some mask, false⟩
  | .sourceTarget => if mask then .error .valueError else .ok ⟨k, e, none, false⟩
  | _ => .ok ⟨k, e, some mask, false⟩

/-- `default_selector`: a callable (possibly returning something else than a selector), a string, anything else. -/
inductive DefSel
  | callable (f : EstObj → Bool → Py (Option SelObj)) | str (s : String) | other

/-- `_DEFAULT_SELECTORS` (skada/_pipeline.py:16-19). -/
def defaultSelectors : List (String × Kind) := [("shared", .shared), ("per_domain", .perDomain)]

/-- `_wrap_with_selector` (skada/_pipeline.py:112-135).  For an unknown name the construction of the message,
`_DEFAULT_SELECTORS.keys().join(', ')`, fails with `AttributeError`. -/
def wrapWithSelector (v : StepVal) (d : DefSel) (mask : Bool) : Py StepVal :=
  match v with
  | .none => .ok .none
  | .sel s => .ok (.sel s)
  | .est e => match d with
    | .callable f => match f e mask with
      | .error err => .error err
      | .ok none => .error .valueError
      | .ok (some s) => .ok (.sel s)
    | .str name => match defaultSelectors.lookup name with
      | none => .error .attributeError
      | some k => match k.construct e mask with
        | .error err => .error err
        | .ok s => .ok (.sel s)
    | .other => .error .valueError

/-- `getattr(estimator, "predicts_target_labels", False)`; selectors and `None` have no such attribute. -/
def StepVal.predicts : StepVal → Bool
  | .est e => e.predicts
  | _ => false

/-- `_wrap_with_selectors` (skada/_pipeline.py:138-153); `mask_target_labels` stays `False` once reset. -/
def wrapWithSelectors (d : DefSel) : List StepVal → Bool → Py (List StepVal)
  | [], _ => .ok []
  | v :: vs, mask =>
    let mask := if v.predicts then false else mask
    match wrapWithSelector v d mask with
    | .error e => .error e
    | .ok w => match wrapWithSelectors d vs mask with
      | .error e => .error e
      | .ok ws => .ok (w :: ws)

/-! ### Names -/

/-- The class name of a selector without `base_estimator`. -/
def Kind.className : Kind → String
  | .shared => "Shared" | .perDomain => "PerDomain" | .selectSource => "SelectSource" | .selectTarget => "SelectTarget"
  | .sourceTarget => "SelectSourceTarget" | .custom c => c

/-- The automatic name before numbering (skada/_pipeline.py:167-179).  `lower()` is ASCII lower case here. -/
def baseName : StepVal → String
  | .none => "nonetype"
  | .est e => e.cls.toLower
  | .sel s => match s.kind with
    | .sourceTarget => s.kind.className.toLower
    | .perDomain => "perdomain_" ++ s.base.cls.toLower
    | _ => s.base.cls.toLower

/-- `namecount[name] += 1` for a `defaultdict(int)` -/
def bump : List (String × Nat) → String → List (String × Nat)
  | [], n => [(n, 1)]
  | (k, c) :: l, n => if k = n then (k, c + 1) :: l else (k, c) :: bump l n

/-- `namecount[name] -= 1` -/
def decr : List (String × Nat) → String → List (String × Nat)
  | [], _ => []
  | (k, c) :: l, n => if k = n then (k, c - 1) :: l else (k, c) :: decr l n

/-- The counts with the entries of value one deleted (skada/_pipeline.py:181-187). -/
def nameCounts (names : List String) : List (String × Nat) :=
  (names.foldl bump []).filter (fun kv => decide (kv.2 ≠ 1))

/-- The numbering loop (skada/_pipeline.py:189-193), over the names in reversed order. -/
def numberNames : List String → List (String × Nat) → List String
  | [], _ => []
  | n :: ns, counts => match counts.lookup n with
    | none => n :: numberNames ns counts
    | some c => (n ++ ("-" ++ toString c)) :: numberNames ns (decr counts n)

/-- `_name_estimators` (skada/_pipeline.py:156-195), the names only. -/
def nameEstimators (vs : List StepVal) : List String :=
  let names := vs.map baseName
  (numberNames names.reverse (nameCounts names)).reverse

/-! ### `make_da_pipeline` -/

/-- `nested_selector._unmark_as_final()`; anything but a selector has no such method. -/
def StepVal.unmark : StepVal → Py StepVal
  | .sel s => .ok (.sel { s with final := false })
  | _ => .error .attributeError

/-- The nested steps (skada/_pipeline.py:92-96). -/
def flattenNested (name : Option String) : List (String × StepVal) → Py (List (Option String × StepVal))
  | [] => .ok []
  | (n, v) :: l => match v.unmark with
    | .error e => .error e
    | .ok v' => match flattenNested name l with
      | .error e => .error e
      | .ok r => .ok ((some (match name with | some o => o ++ ("__" ++ n) | none => n), v') :: r)

/-- The loop over the arguments (skada/_pipeline.py:87-99): names and estimators. -/
def flattenArgs : List Arg → Py (List (Option String × StepVal))
  | [] => .ok []
  | .plain name v :: l => match flattenArgs l with
    | .error e => .error e
    | .ok r => .ok ((name, v) :: r)
  | .nested name steps :: l => match flattenNested name steps with
    | .error e => .error e
    | .ok a => match flattenArgs l with
      | .error e => .error e
      | .ok r => .ok (a ++ r)

/-- `named_steps[-1][1]._mark_as_final()` -/
def markLast : List (String × StepVal) → Py (List (String × StepVal))
  | [] => .error .indexError
  | [(n, v)] => match v with
    | .sel s => .ok [(n, .sel { s with final := true })]
    | _ => .error .attributeError
  | x :: l => match markLast l with
    | .error e => .error e
    | .ok r => .ok (x :: r)

/-- `make_da_pipeline` (skada/_pipeline.py:84-109): the steps of the pipeline. -/
def makeDaPipeline (args : List Arg) (d : DefSel) (mask : Bool) : Py (List (String × StepVal)) :=
  if args.isEmpty then .error .typeError
  else match flattenArgs args with
    | .error e => .error e
    | .ok flat => match wrapWithSelectors d (flat.map Prod.snd) mask with
      | .error e => .error e
      | .ok ws =>
        markLast (List.zipWith (fun un (as : String × StepVal) => (un.getD as.1, as.2)) (flat.map Prod.fst)
          ((nameEstimators ws).zip ws))

/-- Does the text contain two adjacent underscores? -/
def hasDunder : List Char → Bool
  | [] => false
  | c :: l => (decide (c = '_') && decide (l.head? = some '_')) || hasDunder l

/-- `Pipeline._validate_names` of scikit-learn (trusted external behaviour), called by every `fit`: names must be
distinct, different from the constructor's parameters, and without double underscore. -/
def validateNames (names : List String) : Py Unit :=
  if ¬ names.Nodup then .error .valueError
  else if names.any (fun n => n ∈ ["steps", "transform_input", "memory", "verbose"]) then .error .valueError
  else if names.any (fun n => hasDunder n.toList) then .error .valueError
  else .ok ()

/-! ### Parameters and cloning -/

/-- Values of parameters: atoms and estimators (class and parameters). -/
inductive Val
  | atom (s : String)
  | obj (cls : String) (params : List (String × Val))

/-- `estimator.get_params(deep=False)` -/
def Val.getParams : Val → Py (List (String × Val))
  | .obj _ ps => .ok ps
  | .atom _ => .error .attributeError

/-- Replacing the value of an existing key. -/
def setKey : List (String × Val) → String → Val → List (String × Val)
  | [], _, _ => []
  | (k, v) :: l, k', v' => if k = k' then (k, v') :: l else (k, v) :: setKey l k' v'

/-- Putting a key into a dictionary. -/
def putKey : List (String × Val) → String → Val → List (String × Val)
  | [], k, v => [(k, v)]
  | (k, v) :: l, k', v' => if k = k' then (k, v') :: l else (k, v) :: putKey l k' v'

/-- `estimator.set_params(**kwargs)` (scikit-learn, without nested keys): unknown names raise `ValueError`. -/
def Val.setParams : Val → List (String × Val) → Py Val
  | .atom s, [] => .ok (.atom s)
  | .atom _, _ :: _ => .error .attributeError
  | .obj c ps, kwargs =>
    if kwargs.any (fun kv => decide (kv.1 ∉ ps.map Prod.fst)) then .error .valueError
    else .ok (.obj c (kwargs.foldl (fun ps kv => setKey ps kv.1 kv.2) ps))

/-- A selector with the parameters of its base estimator. -/
structure PSel where
  kind : Kind
  base : Val
  mask : Bool
  final : Bool

/-- The default of `mask_target_labels` in the constructor (skada/base.py:209, 590, 605). -/
def Kind.defaultMask : Kind → Bool
  | .selectTarget | .sourceTarget => false
  | _ => true

/-- The constructor of the selectors with one base estimator (skada/base.py:209-215, 590-597). -/
def PSel.init (k : Kind) (base : Val) (mask : Bool) (kwargs : List (String × Val)) : Py PSel :=
  if k = .selectTarget && mask then .error .valueError
  else match base.setParams kwargs with
    | .error e => .error e
    | .ok b => .ok ⟨k, b, mask, false⟩

/-- `get_params` (skada/base.py:256-258; 661 for `SelectSourceTarget`, which reads the missing attribute
`mask_target_labels`). -/
def PSel.getParams (s : PSel) : Py (List (String × Val)) :=
  if s.kind = .sourceTarget then .error .attributeError
  else match s.base.getParams with
    | .error e => .error e
    | .ok ps => .ok (putKey ps "base_estimator" s.base)

/-- `set_params` (skada/base.py:277-280): the new base estimator, if any, then the remaining parameters. -/
def PSel.setParams (s : PSel) (kwargs : List (String × Val)) : Py PSel :=
  let base := (kwargs.lookup "base_estimator").getD s.base
  match base.setParams (kwargs.filter (fun kv => decide (kv.1 ≠ "base_estimator"))) with
  | .error e => .error e
  | .ok b => .ok { s with base := b }

/-- `sklearn.base.clone` (trusted external behaviour): the class is called with the (cloned) parameters returned by
`get_params(deep=False)`; cloning the values does not change them. -/
def PSel.clone (s : PSel) : Py PSel :=
  match s.getParams with
  | .error e => .error e
  | .ok ps => match ps.lookup "base_estimator" with
    | none => .error .typeError
    | some b => PSel.init s.kind b s.kind.defaultMask (ps.filter (fun kv => decide (kv.1 ≠ "base_estimator")))

end Skada

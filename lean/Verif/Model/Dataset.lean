/-
`DomainAwareDataset` (skada/datasets/_base.py:84-597): the registry of named domains and `pack`.

Simplifications: labels are one-dimensional; arrays (not tensors); the deprecated arguments `return_X_y` and `train`
only select among the cases below and are not represented; `return_type` only changes the wrapping of the result.
-/
import Verif.Model.Labels

namespace Skada

/-- Label dtypes as `pack` distinguishes them (skada/datasets/_base.py:333, 337); everything else is `other`
(`int8`, `int16`, unsigned integers, `bool`, `float16`, strings, objects). -/
inductive LDType | int32 | int64 | float32 | float64 | other
  deriving DecidableEq, Repr

/-- A label array: dtype and values. -/
structure LArr where
  dtype : LDType
  vals : List Num
  deriving DecidableEq

/-- The stored tuple `(X, y)` or `(X,)` (skada/datasets/_base.py:149). -/
structure Dom (α : Type) where
  X : List α
  y : Option LArr
  deriving DecidableEq

/-- The state of a `DomainAwareDataset`: `domains_` and the dictionary `domain_names_` in insertion order. -/
structure Registry (α : Type) where
  domains : List (Dom α)
  names : List (String × Nat)
  deriving DecidableEq

namespace Registry
variable {α : Type}

/-- The empty dataset (skada/datasets/_base.py:110-111). -/
def empty : Registry α := ⟨[], []⟩

/-- `d[k] = v` on an insertion-ordered dictionary. -/
def dictSet : List (String × Nat) → String → Nat → List (String × Nat)
  | [], k, v => [(k, v)]
  | (k', v') :: d, k, v => if k' = k then (k', v) :: d else (k', v') :: dictSet d k v

/-- `k in d` -/
def dictHas (d : List (String × Nat)) (k : String) : Bool := d.any (fun p => decide (p.1 = k))

/-- The automatic name `f"_{n}"` (skada/datasets/_base.py:147). -/
def autoName (n : Nat) : String := "_" ++ toString n

/-- `add_domain` (skada/datasets/_base.py:122-151); returns the new state and the exception, if any. -/
def addDomain (r : Registry α) (d : Dom α) (name : Option String) : Registry α × Option PyErr :=
  match name with
  | some nm =>
    if dictHas r.names nm then (r, some .assertionError)
    else (⟨r.domains ++ [d], dictSet r.names nm (r.domains.length + 1)⟩, none)
  | none =>
    (⟨r.domains ++ [d], dictSet r.names (autoName (r.names.length + 1)) (r.domains.length + 1)⟩, none)

/-- `get_domain` (skada/datasets/_base.py:181-196). -/
def getDomain (r : Registry α) (name : String) : Py (Dom α) :=
  match r.names.lookup name with
  | none => .error .keyError
  | some id => match r.domains[id - 1]? with
    | none => .error .indexError
    | some d => .ok d

/-- The loop of `merge` (skada/datasets/_base.py:171-178) over the remaining names; `mapping` is `names_mapping`
(`[]` for `None`).  Domains added before an exception stay. -/
def mergeLoop (other : Registry α) (mapping : List (String × String)) :
    Registry α → List String → Registry α × Option PyErr
  | r, [] => (r, none)
  | r, nm :: rest =>
    match other.getDomain nm with
    | .error e => (r, some e)
    | .ok d =>
      if d.y = none then (r, some .valueError)      -- `X, y = (X,)`
      else match r.addDomain d (some ((mapping.lookup nm).getD nm)) with
        | (r', some e) => (r', some e)
        | (r', none) => mergeLoop other mapping r' rest

/-- `merge` (skada/datasets/_base.py:153-179). -/
def merge (r other : Registry α) (mapping : List (String × String)) : Registry α × Option PyErr :=
  mergeLoop other mapping r (other.names.map Prod.fst)

/-- Labels of a stored domain; `-np.ones(n, dtype=int32)` when there are none (lines 304-308, 321-327). -/
def labelsOf (d : Dom α) : LArr :=
  match d.y with
  | none => ⟨.int32, List.replicate d.X.length (.fin (-1))⟩
  | some y => y

/-- The masking branch for one target domain (skada/datasets/_base.py:330-340); the second component is the
value of `mask` on the next iteration. -/
def maskTarget (maskLabels : Bool) (mask : Option Num) (d : Dom α) : List Num × Option Num :=
  let y := labelsOf d
  if maskLabels then
    match mask with
    | some m => (List.replicate d.X.length m, some m)
    | none => match y.dtype with
      | .int32 | .int64 => (List.replicate d.X.length (.fin (-1)), some (.fin (-1)))
      | .float32 | .float64 => (List.replicate d.X.length .nan, some .nan)
      | .other => (y.vals, none)
  else (y.vals, mask)

/-- Accumulated pieces: `Xs`, `ys`, `sample_domains`, concatenated as they are appended. -/
structure Packed (α : Type) where
  X : List α
  y : List Num
  sd : List Int
  deriving DecidableEq

/-- The source loop (skada/datasets/_base.py:301-315). -/
def packSources (r : Registry α) : Packed α → List String → Py (Packed α)
  | p, [] => .ok p
  | p, nm :: rest =>
    match r.names.lookup nm with
    | none => .error .keyError
    | some id =>
      match r.getDomain nm with
      | .error e => .error e
      | .ok d =>
        let y := (labelsOf d).vals
        packSources r ⟨p.X ++ d.X, p.y ++ y, p.sd ++ List.replicate y.length (id : Int)⟩ rest

/-- The target loop (skada/datasets/_base.py:317-345). -/
def packTargets (r : Registry α) (maskLabels : Bool) : Option Num → Packed α → List String → Py (Packed α)
  | _, p, [] => .ok p
  | mask, p, nm :: rest =>
    match r.names.lookup nm with
    | none => .error .keyError
    | some id =>
      match r.getDomain nm with
      | .error e => .error e
      | .ok d =>
        let (y, mask') := maskTarget maskLabels mask d
        packTargets r maskLabels mask'
          ⟨p.X ++ d.X, p.y ++ y, p.sd ++ List.replicate y.length (-(id : Int))⟩ rest

/-- `pack` with array output (skada/datasets/_base.py:220-365); `np.concatenate([])` raises `ValueError`. -/
def pack (r : Registry α) (srcs tgts : List String) (maskLabels : Bool) (mask : Option Num) : Py (Packed α) :=
  match packSources r ⟨[], [], []⟩ srcs with
  | .error e => .error e
  | .ok p => match packTargets r maskLabels mask p tgts with
    | .error e => .error e
    | .ok p => if srcs = [] ∧ tgts = [] then .error .valueError else .ok p

/-- `pack_lodo` (skada/datasets/_base.py:501-555). -/
def packLodo (r : Registry α) : Py (Packed α) :=
  r.pack (r.names.map Prod.fst) (r.names.map Prod.fst) true none

/-- `select_domain` (skada/datasets/_base.py:587-597) with a list of names; `reduce` over nothing is a
`TypeError`. -/
def selectDomain (names : List (String × Nat)) (sd : List Int) : List String → Py (List Bool)
  | [] => .error .typeError
  | [nm] => match names.lookup nm with
    | none => .error .keyError
    | some id => .ok (sd.map (fun d => decide (d = (id : Int))))
  | nm :: rest => match names.lookup nm with
    | none => .error .keyError
    | some id => match selectDomain names sd rest with
      | .error e => .error e
      | .ok m => .ok (List.zipWith (· || ·) (sd.map (fun d => decide (d = (id : Int)))) m)

end Registry
end Skada

/-
Domain validation and index extraction: `check_X_y_domain`, `check_X_domain`, `extract_source_indices`,
`extract_domains_indices` (skada/utils.py:26-299).

Domain labels are integers.  `check_array` is reduced to its "at least one sample" check; the conversion of
labels to int32 and the finiteness/shape checks of `X` are not modelled.
-/
import Verif.Model.Labels

namespace Skada

/-- The `sample_domain` argument: absent, one scalar label, or a label per sample. -/
inductive SDArg
  | none | scalar (d : Int) | vec (l : List Int)
  deriving DecidableEq

/-- Keyword flags of the two check functions (skada/utils.py:30-35 and 138-143). -/
structure Flags where
  allowSource : Bool := true
  allowMultiSource : Bool := true
  allowTarget : Bool := true
  allowMultiTarget : Bool := true
  allowCommonIdx : Bool := true
  allowAuto : Bool := true
  deriving DecidableEq

/-- `_DEFAULT_SOURCE_DOMAIN_LABEL` (skada/_utils.py:27) -/
def defaultSource : Int := 1
/-- `_DEFAULT_TARGET_DOMAIN_LABEL` (skada/_utils.py:26) -/
def defaultTarget : Int := -2
/-- `_DEFAULT_TARGET_DOMAIN_ONLY_LABEL` (skada/_utils.py:30) -/
def defaultTargetOnly : Int := -1

/-- `extract_source_indices` (skada/utils.py:235-256); `check_array` rejects an empty array. -/
def extractSourceIndices (sd : List Int) : Py (List Bool) :=
  if sd = [] then .error .valueError else .ok (sd.map (fun d => decide (0 ≤ d)))

/-- The flag checks shared verbatim by both functions (skada/utils.py:105-127 and 208-230).
Line 117 (and 220) tests `n_sources`, not `n_targets`; the model does the same. -/
def checkFlags (f : Flags) (sd : List Int) : Py Unit :=
  let src := sd.map (fun d => decide (0 ≤ d))
  let nSources := (Np.unique (Np.sel src sd)).length
  let nTargets := (Np.unique (Np.sel (src.map (!·)) sd)).length
  if !f.allowSource && decide (0 < nSources) then .error .valueError
  else if !f.allowTarget && decide (0 < nTargets) then .error .valueError
  else if !f.allowMultiSource && decide (1 < nSources) then .error .valueError
  else if !f.allowMultiTarget && decide (1 < nSources) then .error .valueError
  else if !f.allowCommonIdx &&
      decide ((Np.unique sd).length ≠ (Np.unique ((Np.unique sd).map (fun d => (d.natAbs : Int)))).length) then
    .error .valueError
  else .ok ()

/-- `check_X_y_domain` (skada/utils.py:26-129).  `X` is any list of rows. -/
def checkXyDomain {α : Type} (X : List α) (y : List Num) (sd : SDArg) (f : Flags)
    (allowLabelMasks : Bool := true) : Py (List α × List Num × List Int) :=
  if X = [] then .error .valueError            -- check_array(X), line 79
  else if y = [] then .error .valueError       -- check_array(y), line 80
  else if !allowLabelMasks && y.any (fun v => !v.isFinite) then .error .valueError   -- line 80
  else if X.length ≠ y.length then .error .valueError  -- check_consistent_length, line 81
  else
    let sdv : Py (List Int) :=
      match sd with
      | .none =>
        if !f.allowAuto then .error .valueError        -- lines 83-85
        else match checkYMasking y with                -- line 87
          | .error e => .error e
          | .ok t => .ok ((maskOf t y).map (fun b => if b then defaultTarget else defaultSource)) -- lines 88-96
      | .scalar d => .ok (List.replicate y.length d)   -- lines 98-99
      | .vec l => .ok l
    match sdv with
    | .error e => .error e
    | .ok l =>
      match extractSourceIndices l with                -- line 101
      | .error e => .error e
      | .ok _ =>
        match checkFlags f l with
        | .error e => .error e
        | .ok _ => .ok (X, y, l)

/-- A member of the `allow_domains` set: a label or one of the wildcards `np.inf`, `-np.inf`. -/
inductive AllowedDomain
  | label (d : Int) | posInf | negInf
  deriving DecidableEq

/-- The `allow_domains` test for one label (skada/utils.py:202-206). -/
def domainAllowed (allow : List AllowedDomain) (d : Int) : Bool :=
  decide (AllowedDomain.label d ∈ allow) ||
    (if 0 ≤ d then decide (AllowedDomain.posInf ∈ allow) else decide (AllowedDomain.negInf ∈ allow))

/-- `check_X_domain` (skada/utils.py:133-232). -/
def checkXDomain {α : Type} (X : List α) (sd : SDArg) (f : Flags)
    (allowDomains : Option (List AllowedDomain) := none) : Py (List α × List Int) :=
  if X = [] then .error .valueError                    -- check_array(X), line 182
  else
    let sdv : Py (List Int) :=
      match sd with
      | .none =>
        if !f.allowAuto then .error .valueError        -- lines 184-186
        else .ok (List.replicate X.length defaultTargetOnly)  -- lines 187-193
      | .scalar d => .ok (List.replicate X.length d)   -- lines 195-196
      | .vec l => .ok l
    match sdv with
    | .error e => .error e
    | .ok l =>
      match extractSourceIndices l with                -- line 198
      | .error e => .error e
      | .ok _ =>
        if X.length ≠ l.length then .error .valueError -- line 199
        else if (match allowDomains with
            | none => false
            | some allow => (Np.unique l).any (fun d => !domainAllowed allow d)) then .error .valueError -- 201-206
        else
          match checkFlags f l with
          | .error e => .error e
          | .ok _ => .ok (X, l)

/-- `extract_domains_indices` (skada/utils.py:259-299) with `split_source_target=False`:
the dictionary as an association list in insertion order. -/
def extractDomainsIndices (sd : List Int) : Py (List (Int × List Nat)) :=
  if sd = [] then .error .valueError
  else .ok ((Np.unique sd).map (fun d => (d, Np.flatnonzero (sd.map (fun e => decide (e = d))))))

/-- `extract_domains_indices` (skada/utils.py:294-297) with `split_source_target=True`. -/
def extractDomainsIndicesSplit (sd : List Int) :
    Py (List (Int × List Nat) × List (Int × List Nat)) :=
  match extractDomainsIndices sd with
  | .error e => .error e
  | .ok d => .ok (d.filter (fun kv => decide (0 ≤ kv.1)), d.filter (fun kv => decide (kv.1 < 0)))

end Skada

/-
`source_target_split`, `per_domain_split`, `source_target_merge`, `_merge_arrays` (skada/utils.py:302-602).
-/
import Verif.Model.Domain

namespace Skada

/-- `source_target_split` (skada/utils.py:302-333).  `None` arrays are `none`.  The call
`check_consistent_length(arrays)` on line 326 receives the tuple itself and never rejects anything; the lengths
are checked by numpy when the masks are applied.  The flat result list `[s0, t0, s1, t1, …]` is returned as pairs. -/
def sourceTargetSplit {α : Type} (arrays : List (Option (List α))) (sd : List Int) :
    Py (List (Option (List α) × Option (List α))) :=
  if arrays = [] then .error .valueError
  else match extractSourceIndices sd with
    | .error e => .error e
    | .ok m => arrays.mapM (fun a =>
        match a with
        | none => .ok (none, none)
        | some a =>
          match Np.boolIndex a m, Np.boolIndex a (m.map (!·)) with
          | .ok s, .ok t => .ok (some s, some t)
          | .error e, _ => .error e
          | _, .error e => .error e)

/-- `per_domain_split` (skada/utils.py:335-381): the source dictionary and the target dictionary. -/
def perDomainSplit {α : Type} (arrays : List (Option (List α))) (sd : List Int) :
    Py (List (Int × List (Option (List α))) × List (Int × List (Option (List α)))) :=
  if arrays = [] then .error .valueError
  else match extractDomainsIndices sd with
    | .error e => .error e
    | .ok dom =>
      let entry := fun (kv : Int × List Nat) =>
        (arrays.mapM (fun a => match a with
          | none => (Except.ok none : Py (Option (List α)))
          | some a => match Np.take a kv.2 with
            | .ok r => .ok (some r)
            | .error e => .error e) : Py (List (Option (List α)))) |>.map (fun r => (kv.1, r))
      match dom.mapM entry with
      | .error e => .error e
      | .ok l => .ok (l.filter (fun kv => decide (0 ≤ kv.1)), l.filter (fun kv => !decide (0 ≤ kv.1)))

/-- The empty array `np.array([])` substituted for `None` or empty inputs (skada/utils.py:455-459). -/
def emptyArr (α : Type) : NArr α := ⟨.float, [], []⟩

/-- Lines 455-459: `None` and arrays without rows become `np.array([])`. -/
def normArr {α : Type} : Option (NArr α) → NArr α
  | none => emptyArr α
  | some a => if a.rows = [] then emptyArr α else a

/-- Lines 454-470: per-pair normalisation and shape checks. (`np.size(a) == 0` is identified with "no rows":
arrays with rows of width 0 are not modelled.) -/
def checkPair {α : Type} (p : Option (NArr α) × Option (NArr α)) : Py (NArr α × NArr α) :=
  let s := normArr p.1
  let t := normArr p.2
  if s.rows = [] ∧ t.rows = [] then .error .valueError
  else if s.rows ≠ [] ∧ t.rows ≠ [] ∧ s.tail ≠ t.tail then .error .valueError
  else .ok (s, t)

/-- `_merge_arrays` (skada/utils.py:562-602).  The output array takes the dtype of the source array (line 585), so
target rows are converted to it on assignment. -/
def mergeArrays {α : Type} [Cell α] (s t : NArr α) (sd : List Int) : Py (NArr α) :=
  let srcMask := sd.map (fun d => decide (0 ≤ d))
  let tgtMask := sd.map (fun d => decide (d < 0))
  if s.rows ≠ [] ∧ t.rows ≠ [] then
    let out := List.replicate (s.rows.length + t.rows.length) (Cell.zero s.tail : α)
    match Np.boolAssign out srcMask (s.rows.map (Cell.cast s.dtype)) with
    | .error e => .error e
    | .ok out =>
      match Np.boolAssign out tgtMask (t.rows.map (Cell.cast s.dtype)) with
      | .error e => .error e
      | .ok out => .ok ⟨s.dtype, s.tail, out⟩
  else if s.rows ≠ [] then
    match Np.boolAssign (List.replicate s.rows.length (Cell.zero s.tail : α)) srcMask
        (s.rows.map (Cell.cast s.dtype)) with
    | .error e => .error e
    | .ok out => .ok ⟨s.dtype, s.tail, out⟩
  else
    match Np.boolAssign (List.replicate t.rows.length (Cell.zero t.tail : α)) tgtMask
        (t.rows.map (Cell.cast t.dtype)) with
    | .error e => .error e
    | .ok out => .ok ⟨t.dtype, t.tail, out⟩

/-- `default_masked_label * np.ones(shape)` (skada/utils.py:529-532): a float array. -/
def filler {α : Type} [Cell α] (pair : NArr α) (k : Nat) : Py (NArr α) :=
  match (Cell.yType pair.rows : Py YType) with
  | .error e => .error e
  | .ok ty => .ok ⟨.float, pair.tail, List.replicate k (Cell.const pair.tail (maskLabel ty))⟩

/-- Lines 503-532: fill in the empty side of a pair.  Natural subtraction is exact here: a negative
`shape_to_complete[0]` takes the same branch as zero. -/
def fillPair {α : Type} [Cell α] (p : NArr α × NArr α) (n : Nat) : Py (NArr α × NArr α) :=
  if p.2.rows = [] then
    if 0 < n - p.1.rows.length then
      match filler p.1 (n - p.1.rows.length) with
      | .error e => .error e
      | .ok f => .ok (p.1, f)
    else .ok p
  else if p.1.rows = [] then
    if 0 < n - p.2.rows.length then
      match filler p.2 (n - p.2.rows.length) with
      | .error e => .error e
      | .ok f => .ok (f, p.2)
    else .ok p
  else .ok p

/-- Lines 501-548 for one pair: fill, count check, merge. -/
def mergePair {α : Type} [Cell α] (sd : List Int) (p : NArr α × NArr α) : Py (NArr α) :=
  match fillPair p sd.length with
  | .error e => .error e
  | .ok p =>
    if p.1.rows.length ≠ (sd.map (fun d => decide (0 ≤ d))).count true ∨
       p.2.rows.length ≠ (sd.map (fun d => !decide (0 ≤ d))).count true then .error .valueError
    else mergeArrays p.1 p.2 sd

/-- Groups the flat argument list into (source, target) pairs (the `range(0, len(arrays), 2)` loops). -/
def pairUp {β : Type} : List β → List (β × β)
  | a :: b :: l => (a, b) :: pairUp l
  | _ => []

/-- Inferred labels: `[1]*n_source + [-2]*n_target` from the first pair (lines 474-490). -/
def inferDomain {α : Type} (ps : List (NArr α × NArr α)) : List Int :=
  match ps with
  | [] => []
  | p :: _ => List.replicate p.1.rows.length defaultSource ++ List.replicate p.2.rows.length defaultTarget

/-- `source_target_merge` (skada/utils.py:384-550). -/
def sourceTargetMerge {α : Type} [Cell α] (arrays : List (Option (NArr α))) (sd : Option (List Int)) :
    Py (List (NArr α) × List Int) :=
  if arrays.length < 2 then .error .valueError
  else if arrays.length % 2 ≠ 0 then .error .valueError
  else match (pairUp arrays).mapM checkPair with
    | .error e => .error e
    | .ok ps =>
      let l := match sd with
        | none => inferDomain ps
        | some l => if l = [] then inferDomain ps else l
      match extractSourceIndices l with        -- line 494
      | .error e => .error e
      | .ok _ =>
        match ps.mapM (mergePair l) with
        | .error e => .error e
        | .ok ms => .ok (ms, l)

end Skada

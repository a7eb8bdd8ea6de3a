/-
`_apply_domain_masks`, `_remove_masked`, `_merge_domain_outputs` (skada/_utils.py:130-215).
-/
import Verif.Model.Labels

namespace Skada

/-- A routed parameter: something with a length (one row per entry), a value without `__len__`, or `None`. -/
inductive Param (γ : Type)
  | arr (rows : List γ) | scalar (v : γ) | none
  deriving DecidableEq

/-- `v[masks] if (hasattr(v, "__len__") and len(v) == len(masks)) else v` (skada/_utils.py:135). -/
def maskParam {γ : Type} (m : List Bool) : Param γ → Param γ
  | .arr v => if v.length = m.length then .arr (Np.sel m v) else .arr v
  | .scalar v => .scalar v
  | .none => .none

/-- `_apply_domain_masks` (skada/_utils.py:130-138); the masks are boolean arrays. -/
def applyDomainMasks {α β γ : Type} (X : List α) (y : Option (List β)) (params : List (String × Param γ))
    (m : List Bool) : Py (List α × Option (List β) × List (String × Param γ)) :=
  match Np.boolIndex X m with
  | .error e => .error e
  | .ok X' =>
    let y' : Py (Option (List β)) := match y with
      | none => .ok none
      | some y => match Np.boolIndex y m with
        | .error e => .error e
        | .ok y' => .ok (some y')
    match y' with
    | .error e => .error e
    | .ok y' => .ok (X', y', params.map (fun kv => (kv.1, maskParam m kv.2)))

/-- The rows that are kept, by label type (skada/_utils.py:164-168): `y != -1`, respectively `isfinite(y)`. -/
def unmaskedOf : YType → List Num → List Bool
  | .discrete, y => y.map (fun v => !v.eqNegOne)
  | .continuous, y => y.map Num.isFinite

/-- `_remove_masked` (skada/_utils.py:141-171). -/
def removeMasked {α γ : Type} (X : List α) (y : List Num) (params : List (String × Param γ)) :
    Py (List α × List Num × List (String × Param γ)) :=
  match findYType y with
  | .error e => .error e
  | .ok t =>
    match applyDomainMasks X (some y) params (unmaskedOf t y) with
    | .error e => .error e
    | .ok (X', some y', p') => .ok (X', y', p')
    | .ok (X', none, p') => .ok (X', [], p')   -- unreachable: `y` was given

/-- `np.zeros((n_samples, *a.shape[1:]), dtype=a.dtype)` -/
def zerosFor {α : Type} [Cell α] (n : Nat) (a : NArr α) : NArr α :=
  ⟨a.dtype, a.tail, List.replicate n (Cell.zero a.tail)⟩

/-- `output[idx] = value` on arrays: values are converted to the dtype of `output`.  Simplification: trailing
shapes must agree, broadcasting of a row shape such as `(1,)` is not modelled. -/
def scatter {α : Type} [Cell α] (out : NArr α) (idx : List Nat) (v : NArr α) : Py (NArr α) :=
  if out.tail ≠ v.tail then .error .valueError
  else match Np.idxAssign out.rows idx (v.rows.map (Cell.cast out.dtype)) with
    | .error e => .error e
    | .ok r => .ok { out with rows := r }

/-- The loop `for idx, domain_output in domain_outputs.values(): output[idx] = domain_output`. -/
def scatterAll {α : Type} [Cell α] (out : NArr α) : List (List Nat × NArr α) → Py (NArr α)
  | [] => .ok out
  | (idx, v) :: l => match scatter out idx v with
    | .error e => .error e
    | .ok out' => scatterAll out' l

/-- `_merge_domain_outputs` for plain array outputs (skada/_utils.py:175-176, 207-215); the dictionary is the
list of its values in insertion order. -/
def mergeOutputs {α : Type} [Cell α] (n : Nat) (outs : List (List Nat × NArr α)) : Py (NArr α) :=
  match outs with
  | [] => .error .assertionError
  | (_, first) :: _ => scatterAll (zerosFor n first) outs

/-- A container output of one domain: `X`, optional `y`, parameters (skada/_utils.py:183-189). -/
structure Container (α β γ : Type) where
  X : NArr α
  y : Option (NArr β)
  params : List (String × NArr γ)

/-- One optional accumulator: created as zeros on first use, then written (skada/_utils.py:190-199). -/
def accScatter {α : Type} [Cell α] (n : Nat) (acc : Option (NArr α)) (idx : List Nat) (v : NArr α) :
    Py (Option (NArr α)) :=
  match scatter (acc.getD (zerosFor n v)) idx v with
  | .error e => .error e
  | .ok o => .ok (some o)

/-- Writing one parameter into the dictionary `params_output` (skada/_utils.py:200-205). -/
def accParam {γ : Type} [Cell γ] (n : Nat) (idx : List Nat) :
    List (String × NArr γ) → String × NArr γ → Py (List (String × NArr γ))
  | [], (k, v) => match scatter (zerosFor n v) idx v with
    | .error e => .error e
    | .ok o => .ok [(k, o)]
  | (k', a) :: acc, (k, v) =>
    if k' = k then match scatter a idx v with
      | .error e => .error e
      | .ok o => .ok ((k', o) :: acc)
    else match accParam n idx acc (k, v) with
      | .error e => .error e
      | .ok acc' => .ok ((k', a) :: acc')

/-- The loop over `domain_params.items()`. -/
def accParams {γ : Type} [Cell γ] (n : Nat) (idx : List Nat) :
    List (String × NArr γ) → List (String × NArr γ) → Py (List (String × NArr γ))
  | acc, [] => .ok acc
  | acc, kv :: ps => match accParam n idx acc kv with
    | .error e => .error e
    | .ok acc' => accParams n idx acc' ps

/-- The state of the container loop. -/
structure MergeAcc (α β γ : Type) where
  X : Option (NArr α)
  y : Option (NArr β)
  params : List (String × NArr γ)

/-- One round of the container loop (skada/_utils.py:182-205). -/
def mergeStep {α β γ : Type} [Cell α] [Cell β] [Cell γ] (n : Nat) (acc : MergeAcc α β γ)
    (d : List Nat × Container α β γ) : Py (MergeAcc α β γ) :=
  match accScatter n acc.X d.1 d.2.X with
  | .error e => .error e
  | .ok X' =>
    let y' : Py (Option (NArr β)) := match d.2.y with
      | none => .ok acc.y
      | some v => accScatter n acc.y d.1 v
    match y' with
    | .error e => .error e
    | .ok y' => match accParams n d.1 acc.params d.2.params with
      | .error e => .error e
      | .ok p' => .ok ⟨X', y', p'⟩

/-- The container loop. -/
def mergeSteps {α β γ : Type} [Cell α] [Cell β] [Cell γ] (n : Nat) :
    MergeAcc α β γ → List (List Nat × Container α β γ) → Py (MergeAcc α β γ)
  | acc, [] => .ok acc
  | acc, d :: l => match mergeStep n acc d with
    | .error e => .error e
    | .ok acc' => mergeSteps n acc' l

/-- `_merge_domain_outputs(..., allow_containers=True)` for container outputs (skada/_utils.py:177-206). -/
def mergeContainers {α β γ : Type} [Cell α] [Cell β] [Cell γ] (n : Nat)
    (outs : List (List Nat × Container α β γ)) : Py (MergeAcc α β γ) :=
  match outs with
  | [] => .error .assertionError
  | _ => mergeSteps n ⟨none, none, []⟩ outs

end Skada

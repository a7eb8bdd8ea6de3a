/-
The deep module: samplers, domain-aware criterion, weighted loss, scoring, `DeepDADataset` and the memory bank
(skada/deep/base.py, skada/deep/callbacks.py).

Networks and losses are parameters.  Tensors are lists of rows; dtypes, devices and gradients are not modelled.  Random permutations
are arguments.
-/
import Verif.Model.Reweight

namespace Skada
namespace Deep

/-! ### Samplers -/

section Samplers

/-- `len(indices) - len(indices) % batch_size`, skada/deep/base.py:209-214, 324. -/
def fullBatches (n b : Nat) : Py Nat := if b = 0 then .error .zeroDivisionError else .ok (n - n % b)

/-- A `DomainBalancedSampler`.  `num` is missing for an unknown `max_samples`. -/
structure Balanced where
  pos : List Nat
  neg : List Nat
  num : Option Nat

/-- `DomainBalancedSampler.__init__`, skada/deep/base.py:201-222; `sds` is the `sample_domain` of the items of the dataset, in
order. -/
def balancedInit (sds : List Int) (b : Nat) (mode : String) : Py Balanced := do
  let pos := Np.flatnonzero (sds.map (fun d => decide (0 ≤ d)))
  let neg := Np.flatnonzero (sds.map (fun d => decide (d < 0)))
  let ns ← fullBatches pos.length b
  let nt ← fullBatches neg.length b
  let num := if mode = "max" then some (max ns nt)
    else if mode = "min" then some (min ns nt)
    else if mode = "source" then some ns
    else if mode = "target" then some nt
    else none
  return ⟨pos, neg, num⟩

/-- An iterator over a `RandomSampler`: the positions it will still give, and the number of shuffles started so far. -/
structure Cursor where
  rest : List Nat
  started : Nat

/-- `try: next(it) except StopIteration: it = iter(sampler); next(it)`, lines 232-241.  `perm k` is the `k`-th shuffle.  An empty
shuffle would end the generator with `RuntimeError`. -/
def Cursor.next (perm : Nat → List Nat) (c : Cursor) : Py (Nat × Cursor) :=
  match c.rest with
  | p :: ps => .ok (p, ⟨ps, c.started⟩)
  | [] => match perm c.started with
    | p :: ps => .ok (p, ⟨ps, c.started + 1⟩)
    | [] => .error .runtimeError

/-- `indices[p]`. -/
def getIdx (l : List Nat) (p : Nat) : Py Nat :=
  match l[p]? with
  | none => .error .indexError
  | some i => .ok i

/-- The loop of `__iter__`, lines 231-243. -/
def balancedLoop (s : Balanced) (permP permN : Nat → List Nat) : Nat → Cursor → Cursor → Py (List Nat)
  | 0, _, _ => .ok []
  | n + 1, cp, cn => do
    let (p, cp) ← cp.next permP
    let i ← getIdx s.pos p
    let (q, cn) ← cn.next permN
    let j ← getIdx s.neg q
    let r ← balancedLoop s permP permN n cp cn
    return i :: j :: r

/-- `DomainBalancedSampler.__iter__`, skada/deep/base.py:224-243.  torch's `RandomSampler` rejects an empty data source with
`ValueError`. -/
def balancedIter (s : Balanced) (permP permN : Nat → List Nat) : Py (List Nat) :=
  if s.pos = [] ∨ s.neg = [] then .error .valueError
  else match s.num with
    | none => .error .attributeError
    | some n => balancedLoop s permP permN n ⟨permP 0, 1⟩ ⟨permN 0, 1⟩

/-- `DomainBalancedSampler.__len__`, skada/deep/base.py:245-246. -/
def balancedLen (s : Balanced) : Py Nat :=
  match s.num with
  | none => .error .attributeError
  | some n => .ok (2 * n)

/-- A `DomainOnlySampler`. -/
structure Only where
  idx : List Nat
  num : Nat

/-- `DomainOnlySampler.__init__`, skada/deep/base.py:308-324. -/
def onlyInit (sds : List Int) (b : Nat) (used : String) : Py Only := do
  let idx ← if used = "source" then .ok (Np.flatnonzero (sds.map (fun d => decide (0 ≤ d))))
    else if used = "target" then .ok (Np.flatnonzero (sds.map (fun d => decide (d < 0))))
    else .error .valueError
  let n ← fullBatches idx.length b
  return ⟨idx, n⟩

/-- `n` items of one shuffle, lines 331-333; an exhausted iterator would end the generator with `RuntimeError`. -/
def onlyLoop (idx : List Nat) : Nat → List Nat → Py (List Nat)
  | 0, _ => .ok []
  | _ + 1, [] => .error .runtimeError
  | n + 1, p :: ps => do
    let i ← getIdx idx p
    let r ← onlyLoop idx n ps
    return i :: r

/-- `DomainOnlySampler.__iter__`, skada/deep/base.py:326-333. -/
def onlyIter (s : Only) (perm : List Nat) : Py (List Nat) :=
  if s.idx = [] then .error .valueError else onlyLoop s.idx s.num perm

end Samplers

/-! ### Criterion and weighted loss -/

section Criterion
variable {K : Type} [Field K] {P D F Y : Type}

/-- A loss value: reduced, or one entry per row (`reduction='none'`). -/
inductive Loss (K : Type) where
  | scalar (v : K)
  | vec (l : List K)
  deriving DecidableEq

/-- `base_loss + reg * adapt_loss` (broadcast). -/
def Loss.plus (l : Loss K) (c : K) : Loss K :=
  match l with
  | .scalar v => .scalar (v + c)
  | .vec l => .vec (l.map (· + c))

/-- What `DomainAwareModule.forward` returns in training mode. -/
structure Out (P D F : Type) where
  yPred : List P
  domainPred : Option (List D)
  features : Option (List F)
  sd : List Int
  sampleIdx : Option (List Nat)

/-- The keyword arguments of the adaptation loss. -/
structure AdaptArgs (P D F Y : Type) where
  ys : List Y
  yPredS : List P
  yPredT : List P
  domainPredS : Option (List D)
  domainPredT : Option (List D)
  featuresS : Option (List F)
  featuresT : Option (List F)
  sampleIdxS : Option (List Nat)
  sampleIdxT : Option (List Nat)

/-- `a[mask]` and `a[~mask]` unless `a is None`, lines 106-125. -/
def splitOpt {γ : Type} (a : Option (List γ)) (m : List Bool) : Py (Option (List γ) × Option (List γ)) :=
  match a with
  | none => .ok (none, none)
  | some l => do
    let s ← Np.boolIndex l m
    let t ← Np.boolIndex l (m.map (!·))
    return (some s, some t)

/-- `DomainAwareCriterion.forward`, skada/deep/base.py:82-143. -/
def criterion (base : List P → List Y → Py (Loss K)) (adapt : AdaptArgs P D F Y → Py K) (reg : K) (onTarget : Bool)
    (o : Out P D F) (yTrue : List Y) : Py (Loss K) := do
  let m := o.sd.map (fun d => decide (0 ≤ d))
  let ps ← Np.boolIndex o.yPred m
  let pt ← Np.boolIndex o.yPred (m.map (!·))
  let (ds, dt) ← splitOpt o.domainPred m
  let (fs, ft) ← splitOpt o.features m
  let (is, it) ← splitOpt o.sampleIdx m
  let b ← if onTarget then (do
      let yt ← Np.boolIndex yTrue (m.map (!·))
      base pt yt)
    else (do
      let ys ← Np.boolIndex yTrue m
      base ps ys)
  let ys ← Np.boolIndex yTrue m
  let a ← adapt ⟨ys, ps, pt, ds, dt, fs, ft, is, it⟩
  return b.plus (reg * a)

/-- `loss.mean()`; the mean of nothing is NaN (`none`). -/
def Loss.mean (l : Loss K) : Option K :=
  match l with
  | .scalar v => some v
  | .vec [] => none
  | .vec l => some (l.sum / (l.length : K))

/-- `sample_weight * loss` with broadcasting; incompatible shapes raise `RuntimeError`. -/
def weighted (w : List K) (l : Loss K) : Py (Loss K) :=
  match l with
  | .scalar v => .ok (.vec (w.map (· * v)))
  | .vec l =>
    if w.length = l.length then .ok (.vec (List.zipWith (· * ·) w l))
    else match w, l with
      | [a], l => .ok (.vec (l.map (a * ·)))
      | w, [v] => .ok (.vec (w.map (· * v)))
      | _, _ => .error .runtimeError

/-- `DomainAwareNet.get_loss`, skada/deep/base.py:863-897; `loss` is the value of the criterion and `w`, `sd` belong to the batch. -/
def getLoss (loss : Loss K) (w : Option (List K)) (sd : List Int) : Py (Option K) :=
  match w with
  | none => .ok loss.mean
  | some w => do
    let ws ← Np.boolIndex w (sd.map (fun d => decide (0 < d)))
    match loss with
    | .scalar _ => if 1 < ws.length then .error .valueError else (do
        let r ← weighted ws loss
        return r.mean)
    | .vec _ => do
      let r ← weighted ws loss
      return r.mean

end Criterion

/-! ### DeepDADataset -/

section Dataset
variable {K α Y : Type} [DecidableEq Y]

/-- The attributes of a `DeepDADataset`. -/
structure DS (K α Y : Type) where
  X : List α
  y : List Y
  sd : List Int
  w : List K
  hasY : List Bool
  hasW : Bool
  idx : List Nat
  deriving DecidableEq

/-- A `sample_domain` argument. -/
inductive SD where
  | none
  | scalar (d : Int)
  | vec (l : List Int)

/-- `_is_correct`, skada/deep/base.py:1151-1160 (all label, domain and weight tensors are one-dimensional). -/
def isCorrect (s : DS K α Y) : Bool :=
  decide (s.X.length = s.y.length) && decide (s.y.length = s.sd.length) && (decide (s.X.length = s.w.length) || !s.hasW)

/-- `_infer_sample_idx`, skada/deep/base.py:1279-1296: `for domain_id in unique: result[sd == domain_id] = arange(count)`. -/
def inferIdx (sd : List Int) : List Nat :=
  (Np.unique sd).foldl (fun r d =>
    let m := sd.map (fun v => decide (v = d))
    Np.putMask m r (List.range (m.count true))) (sd.map (fun _ => 0))

/-- The end of `__init__`, lines 1005-1010. -/
def finish (s : DS K α Y) : Py (DS K α Y) :=
  let s := { s with hasW := decide (0 < s.w.length) }
  if isCorrect s then .ok { s with idx := inferIdx s.sd } else .error .assertionError

/-- The sample domains chosen by `_initialize`, lines 1044-1056: `len(sample_domain)` is evaluated before the test for an integer. -/
def initSD (n : Nat) (sd : SD) : Py (List Int) :=
  match sd with
  | .none => .ok (List.replicate n 0)
  | .scalar _ => .error .typeError
  | .vec [] => .ok (List.replicate n 0)
  | .vec l => .ok l

/-- `DeepDADataset(X, y, sample_domain, sample_weight)` for array-like or dict input, skada/deep/base.py:917-1092.  `noLabel` is
`_NO_LABEL_ = -1`. -/
def new (noLabel : Y) (X : List α) (y : Option (List Y)) (sd : SD) (w : Option (List K)) : Py (DS K α Y) := do
  let sd ← initSD X.length sd
  let (y, hasY) := match y with
    | none | some [] => (List.replicate X.length noLabel, List.replicate X.length false)
    | some y => (y, y.map (fun v => decide (v ≠ noLabel)))
  let w := w.getD []
  finish ⟨X, y, sd, w, hasY, decide (0 < w.length), []⟩

/-- `DeepDADataset()`. -/
def empty : DS K α Y := ⟨[], [], [], [], [], false, []⟩

/-- `merge(dataset, keep_weights, out=True)`, skada/deep/base.py:1122-1131. -/
def mergeOut (noLabel : Y) (s t : DS K α Y) (keep : Bool) : Py (DS K α Y) :=
  new noLabel (s.X ++ t.X) (some (s.y ++ t.y)) (.vec (s.sd ++ t.sd)) (some (if keep then s.w ++ t.w else []))

/-- `merge(dataset, keep_weights, out=False)`, skada/deep/base.py:1132-1144: the new state of `self`, and whether the final assertion
held.  `_sample_idx` is not touched. -/
def mergeIn (s t : DS K α Y) (keep : Bool) : DS K α Y × Py Unit :=
  let w := if keep then s.w ++ t.w else []
  let s' : DS K α Y := ⟨s.X ++ t.X, s.y ++ t.y, s.sd ++ t.sd, w, s.hasY ++ t.hasY, decide (0 < w.length), s.idx⟩
  (s', if isCorrect s' then .ok () else .error .assertionError)

/-- `DeepDADataset(dataset)`, skada/deep/base.py:979-980 and 1005-1010. -/
def copy (t : DS K α Y) : Py (DS K α Y) :=
  match mergeIn empty t true with
  | (_, .error e) => .error e
  | (s, .ok _) => finish s

/-- `__len__`, skada/deep/base.py:1162-1168. -/
def len (s : DS K α Y) : Py Nat := if isCorrect s then .ok s.X.length else .error .assertionError

/-- An item: data, domain, sample index, weight if any, label. -/
structure Item (K α Y : Type) where
  x : α
  d : Int
  i : Nat
  w : Option K
  y : Y
  deriving DecidableEq

/-- `__getitem__` for a non-negative integer, skada/deep/base.py:1170-1180. -/
def getItem (s : DS K α Y) (n : Nat) : Py (Item K α Y) :=
  match s.X[n]?, s.sd[n]?, s.idx[n]?, s.y[n]? with
  | some x, some d, some i, some y =>
    if s.hasW then match s.w[n]? with
      | some w => .ok ⟨x, d, i, some w, y⟩
      | none => .error .indexError
    else .ok ⟨x, d, i, none, y⟩
  | _, _, _, _ => .error .indexError

/-- `for item in dataset` from position `n`: without `__iter__`, Python calls `__getitem__` with 0, 1, 2, … until `IndexError`.
`fuel` bounds the number of items (there are never more than rows). -/
def iterFrom (s : DS K α Y) : Nat → Nat → List (Item K α Y)
  | 0, _ => []
  | fuel + 1, n => match getItem s n with
    | .ok a => a :: iterFrom s fuel (n + 1)
    | .error _ => []

/-- `for item in dataset`. -/
def iter (s : DS K α Y) : List (Item K α Y) := iterFrom s s.X.length 0

/-- `_select_from_mask`, skada/deep/base.py:1340-1363, with `as_arrays` at 1264-1267. -/
def selectMask (noLabel : Y) (s : DS K α Y) (mask : List Bool) (retW : Bool) : Py (DS K α Y) := do
  let X ← Np.boolIndex s.X mask
  let y ← Np.boolIndex s.y mask
  let sd ← Np.boolIndex s.sd mask
  let w ← if s.hasW && retW then (Np.boolIndex s.w mask).map some else .ok none
  new noLabel X (some y) (.vec sd) w

/-- `select_source`, `select_target`, `select_domain`, `select_with_labels`, skada/deep/base.py:1365-1430. -/
def selectSource (noLabel : Y) (s : DS K α Y) (retW : Bool) : Py (DS K α Y) :=
  selectMask noLabel s (s.sd.map (fun d => decide (0 ≤ d))) retW
@[inherit_doc selectSource]
def selectTarget (noLabel : Y) (s : DS K α Y) (retW : Bool) : Py (DS K α Y) :=
  selectMask noLabel s (s.sd.map (fun d => decide (d < 0))) retW
@[inherit_doc selectSource]
def selectDomain (noLabel : Y) (s : DS K α Y) (d : Int) (retW : Bool) : Py (DS K α Y) :=
  selectMask noLabel s (s.sd.map (fun v => decide (v = d))) retW
@[inherit_doc selectSource]
def selectLabelled (noLabel : Y) (s : DS K α Y) (retW : Bool) : Py (DS K α Y) := selectMask noLabel s s.hasY retW

/-- The condition of `select`: which attribute, and an elementwise test of it. -/
inductive On (K α Y : Type) where
  | X (p : α → Bool)
  | y (p : Y → Bool)
  | sd (p : Int → Bool)
  | w (p : K → Bool)
  | other

/-- `select(condition, on)`, skada/deep/base.py:1298-1338.  On "sample_weight" without weights the name `mask` is never bound. -/
def select (noLabel : Y) (s : DS K α Y) (c : On K α Y) (retW : Bool) : Py (DS K α Y) :=
  match c with
  | .X p => selectMask noLabel s (s.X.map p) retW
  | .y p => selectMask noLabel s (List.zipWith (· && ·) s.hasY (s.y.map p)) retW
  | .sd p => selectMask noLabel s (s.sd.map p) retW
  | .w p => if s.hasW then selectMask noLabel s (s.w.map p) retW else .error .unboundLocalError
  | .other => .error .valueError

/-- `per_domain_split`, skada/deep/base.py:1432-1449. -/
def perDomain (noLabel : Y) (s : DS K α Y) (retW : Bool) : Py (List (Int × DS K α Y)) :=
  (Np.unique s.sd).mapM (fun d => (selectDomain noLabel s d retW).map (fun t => (d, t)))

/-- `add_weights`, skada/deep/base.py:1451-1474: the new state, and whether the assertion held. -/
def addWeights (s : DS K α Y) (w : List K) : DS K α Y × Py Unit :=
  let s' : DS K α Y := { s with w := w, hasW := decide (0 < w.length) }
  (s', if isCorrect s' then .ok () else .error .assertionError)

/-- `remove_weights`, skada/deep/base.py:1476-1487. -/
def removeWeights (s : DS K α Y) : DS K α Y := { s with w := [], hasW := false }

end Dataset

/-! ### Prediction and scoring -/

section Net
variable {K α : Type} [Field K] [LinearOrder K]

/-- `predict_proba`, skada/deep/base.py:608-641: `f` is the network with its output non-linearity, row by row.  skorch concatenates the
batches, which fails with `ValueError` when there is none. -/
def predictProba (noLabel : Int) (f : α → List K) (s : DS K α Int) (allowSource : Bool) : Py (List (List K)) := do
  let s ← if allowSource then .ok s else selectTarget noLabel s true
  if s.X = [] then .error .valueError else .ok (s.X.map f)

/-- `predict`, skada/deep/base.py:536-567. -/
def predict (noLabel : Int) (f : α → List K) (s : DS K α Int) (allowSource : Bool) : Py (List Nat) := do
  let p ← predictProba noLabel f s allowSource
  p.mapM (fun r => Np.argmax r)

/-- `accuracy_score(y, pred)`: `ValueError` for different lengths. -/
def accuracy (y : List Int) (pred : List Nat) : Py K :=
  if y.length = pred.length ∧ y ≠ [] then
    .ok (((List.zipWith (fun a (b : Nat) => if a = (b : Int) then (1 : K) else 0) y pred).sum) / (y.length : K))
  else .error .valueError

/-- `score` without weights, skada/deep/base.py:668-708: the labels are not restricted to the selected rows. -/
def score (noLabel : Int) (f : α → List K) (X : List α) (y : List Int) (sd : SD) (allowSource : Bool) : Py K := do
  let s ← (new noLabel X (some y) sd none : Py (DS K α Int))
  let s ← if allowSource then .ok s else selectTarget noLabel s true
  let p ← predict noLabel f s allowSource
  accuracy y p

end Net

/-! ### Memory bank -/

section Memory
variable {K : Type} [Field K] {d : Nat}

/-- One memory of `MemoryBank.on_batch_end`, skada/deep/callbacks.py:147-170.  The term `+self.momentum * features_t.clone()` stands on
a line of its own and is discarded; `new` are the features of the target rows of the batch (unused, as in the code). -/
def bankStep (momentum : K) (mem : List (Fin d → K)) (sd : List Int) (idx : List Nat) (_new : List (Fin d → K)) :
    Py (List (Fin d → K)) := do
  let bi ← Np.boolIndex idx (sd.map (fun v => decide (v < 0)))
  let old ← Np.take mem bi
  Np.idxAssign mem bi (old.map (fun v c => (1 - momentum) * v c))

/-- The memory after a sequence of batches `(sample_domain, sample_idx, features)`. -/
def bankRun (momentum : K) (mem : List (Fin d → K)) : List (List Int × List Nat × List (Fin d → K)) → Py (List (Fin d → K))
  | [] => .ok mem
  | (sd, idx, new) :: bs => do
    let mem ← bankStep momentum mem sd idx new
    bankRun momentum mem bs

end Memory

end Deep
end Skada

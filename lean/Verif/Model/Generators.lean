/-
The synthetic data sets (skada/datasets/_samples_generator.py).

Random draws are arguments: a cluster is the function from the row number to the point drawn for that row.  Numbers are elements of an
ordered field; floating-point rounding is not modelled (in particular `int(8 * n * ratio)` is the truncation of the exact product).  Labels are
`Num`; the density used for regression labels and the square root are parameters.  `make_variable_frequency_dataset`: the filtered
signals are an argument, only labels, counts and layout are modelled.
-/
import Verif.Model.Dataset
import Mathlib.Algebra.Order.Field.Basic

namespace Skada.Gen

variable {α : Type}
variable {K : Type} [Field K] [LinearOrder K] [IsStrictOrderedRing K]

/-- `n` rows of a cluster. -/
def rows (c : Nat → α) (n : Nat) : List α := (List.range n).map c

/-- `v * np.ones(n)` -/
def const (n : Nat) (v : ℚ) : List Num := List.replicate n (.fin v)

/-- The five clusters drawn by `_generate_data_2d_classif`; the subspace variant uses the first three. -/
structure Draw (α : Type) where
  c1 : Nat → α
  c21 : Nat → α
  c22 : Nat → α
  c23 : Nat → α
  c24 : Nat → α

/-- The loop `for i in range(4): y = np.concatenate((y, (i + 1) * np.ones(m)), 0)`,
skada/datasets/_samples_generator.py:101-103, 180-182. -/
def appendClasses (y : List Num) (m : Nat) : List Num :=
  (List.range 4).foldl (fun y (i : Nat) => y ++ const m ((i : ℚ) + 1)) y

/-- `_generate_data_2d_classif`, skada/datasets/_samples_generator.py:26-113; `pdf` includes the scaling constant. -/
def classif (n : Nat) (d : Draw α) (pdf : α → ℚ) (label : String) : Py (List α × List Num) :=
  let n2 := n
  let n1 := n2 * 4
  let x := rows d.c1 n1 ++ rows d.c21 n2 ++ rows d.c22 n2 ++ rows d.c23 n2 ++ rows d.c24 n2
  if label = "binary" then .ok (x, const n1 0 ++ const (4 * n2) 1)
  else if label = "multiclass" then .ok (x, appendClasses (const n1 0) n2)
  else if label = "regression" then .ok (x, x.map (fun v => Num.fin (pdf v)))
  else .error .valueError

/-- `_generate_data_2d_classif_subspace`, skada/datasets/_samples_generator.py:116-194; `pdf` includes the projection. -/
def subspace (n : Nat) (d : Draw α) (pdf : α → ℚ) (label : String) : Py (List α × List Num) :=
  let n2 := n
  let n1 := n2 * 2
  let x := rows d.c1 n1 ++ rows d.c21 n2 ++ rows d.c22 n2
  if label = "binary" then .ok (x, const n1 0 ++ const (2 * n2) 1)
  else if label = "multiclass" then .ok (x, appendClasses (const (n1 + n1 % 4) 0) (n1 / 4))
  else if label = "regression" then .ok (x, x.map (fun v => Num.fin (pdf v)))
  else .error .valueError

/-- `int(q)`: truncation towards zero. -/
def trunc (q : ℚ) : Int := q.num.tdiv q.den

/-- `a[i]` with Python's negative indices. -/
def pyIndex (a : List α) (i : Int) : Py α :=
  let j := if i < 0 then i + a.length else i
  if j < 0 then .error .indexError
  else match a[j.toNat]? with
    | some x => .ok x
    | none => .error .indexError

/-- `_generate_data_from_moons`, skada/datasets/_samples_generator.py:197-228.  `outer`, `inner` are the two lists of 100 centres, `draw c i`
is the `i`-th point drawn around centre `c`. -/
def moons {C : Type} (n : Nat) (pos : ℚ) (outer inner : List C) (draw1 draw2 : C → Nat → α) : Py (List α × List Num) := do
  let index := trunc (pos * 100)
  let c1 ← pyIndex outer index
  let c2 ← pyIndex inner index
  .ok (rows (draw1 c1) n ++ rows (draw2 c2) n, const n 0 ++ const n 1)

/-- The `noise` argument: `None`, a number or a sequence. -/
inductive Noise (K : Type) where
  | none
  | real (s : K)
  | seq (l : List K)

/-- `X += rng.normal(scale=s, size=X.shape)` for two-dimensional points; `z i` is the standard normal draw of row `i`; a negative scale is a
`ValueError`. -/
def addNoise (s : K) (z : Nat → K × K) (X : List (K × K)) : Py (List (K × K)) :=
  if s < 0 then .error .valueError
  else .ok (X.mapIdx (fun i x => (x.1 + s * (z i).1, x.2 + s * (z i).2)))

/-- `noise[k]` -/
def noiseAt (l : List K) (k : Nat) : Py K :=
  match l[k]? with
  | some s => .ok s
  | none => .error .indexError

/-- The noise block, skada/datasets/_samples_generator.py:355-360, 586-591, 847-852. -/
def noisy (noise : Noise K) (zs zt : Nat → K × K) (Xs Xt : List (K × K)) : Py (List (K × K) × List (K × K)) :=
  match noise with
  | .none => .ok (Xs, Xt)
  | .real s => do
    let Xs ← addNoise s zs Xs
    let Xt ← addNoise s zt Xt
    .ok (Xs, Xt)
  | .seq l => do
    let a ← noiseAt l 0
    let Xs ← addNoise a zs Xs
    let b ← noiseAt l 1
    let Xt ← addNoise b zt Xt
    .ok (Xs, Xt)

/-- `X.mean(axis=0)` for one column (`0` for no rows, where NumPy gives NaN: there is nothing to standardise then). -/
def mean (l : List K) : K := l.sum / l.length

/-- `X.std(axis=0)` for one column: the square root of the mean squared deviation. -/
def std (sqrt : K → K) (l : List K) : K := sqrt (mean (l.map (fun x => (x - mean l) ^ 2)))

/-- `(x - mean) / std`; division by a zero deviation is NaN. -/
def zscore (m s x : K) : Option K := if s = 0 then none else some ((x - m) / s)

/-- The standardisation block, skada/datasets/_samples_generator.py:593-598: mean and deviation of the pooled columns. -/
def standardized (sqrt : K → K) (Xs Xt : List (K × K)) : List (Option K × Option K) × List (Option K × Option K) :=
  let X := Xs ++ Xt
  let m1 := mean (X.map Prod.fst)
  let m2 := mean (X.map Prod.snd)
  let s1 := std sqrt (X.map Prod.fst)
  let s2 := std sqrt (X.map Prod.snd)
  let f := fun x : K × K => (zscore m1 s1 x.1, zscore m2 s2 x.2)
  (Xs.map f, Xt.map f)

/-- `rng.choice(pop, size=(size,), replace=False)`: a negative size or one above `pop` is a `ValueError`; `draw` is the outcome. -/
def choice (pop : Nat) (size : Int) (draw : List Nat) : Py (List Nat) :=
  if size < 0 ∨ (pop : Int) < size then .error .valueError else .ok draw

/-- All random outcomes of `make_shifted_datasets`; `tgt` is the draw of the target clusters, `src` that of the source clusters (for the
subspace shift the second ones, the first are thrown away), `cov` the weighted choice of the covariate shift (an exception when fewer than
`8 n` weights are positive), `sel1`, `sel2` the choices of the target shift, `zs`, `zt` the noise. -/
structure ShiftDraw (K : Type) where
  src : Draw (K × K)
  tgt : Draw (K × K)
  cov : Py (List Nat)
  sel1 : List Nat
  sel2 : List Nat
  zs : Nat → K × K
  zt : Nat → K × K

/-- The arguments of `make_shifted_datasets` that matter here; `pdf`, `pdfSub` are the regression labels of the two generators. -/
structure ShiftArgs (K : Type) where
  nS : Nat
  nT : Nat
  label : String
  ratio : ℚ
  mean : K
  sigma : K
  noise : Noise K
  standardize : Bool
  pdf : K × K → ℚ
  pdfSub : K × K → ℚ

/-- Rows and labels at the chosen positions, skada/datasets/_samples_generator.py:520-521, 546-547. -/
def select (X : List α) (y : List Num) (isel : List Nat) : Py (List α × List Num) := do
  let X ← Np.take X isel
  let y ← Np.take y isel
  .ok (X, y)

/-- Source and target before noise, skada/datasets/_samples_generator.py:494-584.  The source is generated first, so a wrong `label` is
reported before a wrong `shift`. -/
def shiftedRaw (a : ShiftArgs K) (shift : String) (d : ShiftDraw K) :
    Py ((List (K × K) × List Num) × (List (K × K) × List Num)) := do
  let s ← classif a.nS d.src a.pdf a.label
  if shift = "covariate_shift" then do
    let t ← classif (a.nT * 100) d.tgt a.pdf a.label
    let isel ← d.cov
    let t ← select t.1 t.2 isel
    .ok (s, t)
  else if shift = "target_shift" then do
    let tmp := a.nT * 3
    let t ← classif tmp d.tgt a.pdf a.label
    let n1 := trunc (8 * a.nT * a.ratio)
    let n2 := 8 * (a.nT : Int) - n1
    let i1 ← choice (8 * tmp / 2) n1 d.sel1
    let i2 ← choice (8 * tmp / 2) n2 d.sel2
    let t ← select t.1 t.2 (i1 ++ i2.map (fun i => i + 8 * tmp / 2))
    .ok (s, t)
  else if shift = "conditional_shift" then do
    let t ← classif a.nT d.tgt a.pdf a.label
    .ok (s, (t.1.map (fun x => (x.1 * a.sigma + a.mean, x.2 * a.sigma + a.mean)), t.2))
  else if shift = "subspace" then do
    let s ← subspace a.nS d.src a.pdfSub a.label
    let t ← subspace a.nT d.tgt a.pdfSub a.label
    .ok (s, (t.1.map (fun x => (x.1 * -1, x.2 * -1)), t.2))
  else .error .valueError

/-- Dtype of the generated labels (skada/datasets/_samples_generator.py:98, 103, 107). -/
def labelType (label : String) : LDType := if label = "regression" then .float64 else .int64

/-- `DomainAwareDataset(domains=[(X_source, y_source, "s"), (X_target, y_target, "t")])`. -/
def twoDomains (dt : LDType) (s t : List α × List Num) : Py (Registry α) :=
  match Registry.empty.addDomain ⟨s.1, some ⟨dt, s.2⟩⟩ (some "s") with
  | (_, some e) => .error e
  | (r, none) => match r.addDomain ⟨t.1, some ⟨dt, t.2⟩⟩ (some "t") with
    | (_, some e) => .error e
    | (r, none) => .ok r

/-- `dataset.pack(as_sources=["s"], as_targets=["t"], mask_target_labels=False)`. -/
def packTwo (dt : LDType) (s t : List α × List Num) : Py (Registry.Packed α) := do
  let r ← twoDomains dt s t
  r.pack ["s"] ["t"] false none

/-- The rows after noise and standardisation; values are `Option K` with `none` for NaN. -/
def finish (standardize : Bool) (sqrt : K → K) (Xs Xt : List (K × K)) : List (Option K × Option K) × List (Option K × Option K) :=
  if standardize then standardized sqrt Xs Xt
  else (Xs.map (fun x => (some x.1, some x.2)), Xt.map (fun x => (some x.1, some x.2)))

/-- `make_shifted_datasets` with packed output, skada/datasets/_samples_generator.py:379-614. -/
def makeShifted (sqrt : K → K) (a : ShiftArgs K) (shift : String) (d : ShiftDraw K) : Py (Registry.Packed (Option K × Option K)) := do
  let (s, t) ← shiftedRaw a shift d
  let (Xs, Xt) ← noisy a.noise d.zs d.zt s.1 t.1
  let f := finish a.standardize sqrt Xs Xt
  packTwo (labelType a.label) (f.1, s.2) (f.2, t.2)

/-- `make_shifted_blobs` with packed output, skada/datasets/_samples_generator.py:272-376; `blobs` is the outcome of `make_blobs` with two
features. -/
def makeBlobs (blobs : List (K × K) × List Num) (shift : K) (noise : Noise K) (zs zt : Nat → K × K) : Py (Registry.Packed (K × K)) := do
  let Xt := blobs.1.map (fun x => (x.1 + shift, x.2 + shift))
  let (Xs, Xt) ← noisy noise zs zt blobs.1 Xt
  packTwo .int64 (Xs, blobs.2) (Xt, blobs.2)

/-- The positions argument of `make_dataset_from_moons_distribution`: one number or several. -/
inductive Pos where
  | one (p : ℚ)
  | many (l : List ℚ)

/-- The domains of one side with their names, skada/datasets/_samples_generator.py:689-707, 709-727; `gen i p` generates the `i`-th domain
at position `p`, noise included. -/
def sideDomains (pre : String) (gen : Nat → ℚ → Py (List α × List Num)) : Pos → Py (List (String × (List α × List Num)))
  | .one p => do
    let d ← gen 0 p
    .ok [(pre, d)]
  | .many l => (l.zipIdx).mapM (fun q => do
    let d ← gen q.2 q.1
    .ok (pre ++ toString q.2, d))

/-- `add_domain` for every pair. -/
def addAll : Registry α → List (String × (List α × List Num)) → Py (Registry α)
  | r, [] => .ok r
  | r, (nm, d) :: rest => match r.addDomain ⟨d.1, some ⟨.float64, d.2⟩⟩ (some nm) with
    | (_, some e) => .error e
    | (r, none) => addAll r rest

/-- `make_dataset_from_moons_distribution` with packed output, skada/datasets/_samples_generator.py:617-737. -/
def makeMoons (genS genT : Nat → ℚ → Py (List α × List Num)) (posS posT : Pos) : Py (Registry.Packed α) := do
  let s ← sideDomains "s" genS posS
  let t ← sideDomains "t" genT posT
  let r ← addAll Registry.empty (s ++ t)
  r.pack (s.map Prod.fst) (t.map Prod.fst) false none

/-- The loop of `_generate_signal_with_peak_frequency`, skada/datasets/_samples_generator.py:237-268: `sig c i` is the signal of row `i` of
class `c`.  With no class `np.concatenate([])` raises `ValueError`. -/
def peakSignals (nClasses n : Nat) (sig : Nat → Nat → α) : Py (List α × List Num) :=
  if nClasses = 0 then .error .valueError
  else .ok ((List.range nClasses).flatMap (fun c : Nat => rows (sig c) n), (List.range nClasses).flatMap (fun c : Nat => const n (c : ℚ)))

/-- `make_variable_frequency_dataset` without noise, skada/datasets/_samples_generator.py:740-868: `frequencies` are drawn from 15 without
replacement. -/
def makeFrequency (nS nT nClasses nFreq : Nat) (draw : List Nat) (sigS sigT : List Nat → Nat → Nat → α) : Py (Registry.Packed α) := do
  let f ← choice 15 (nClasses * nFreq : Nat) draw
  let s ← peakSignals nClasses nS (sigS f)
  let t ← peakSignals nClasses nT (sigT f)
  packTwo .int64 s t

end Skada.Gen

/-
The dataset loaders (skada/datasets/_office.py, _office_home.py, _amazon_review.py, _mnist_usps.py).

What is on disk below the dataset folder is a value (`δ`), the outcome of a download an argument.  The external functions
`sklearn.datasets.load_files`, `csv.reader`, `scipy.io.loadmat` and `str.lower` are modelled by what they return for given
file contents; random permutations and draws are arguments.
-/
import Mathlib.Data.List.Sort
import Mathlib.Data.List.Infix
import Mathlib.Data.Rat.Floor
import Verif.Model.Dataset

namespace Skada.Load

/-- The exceptions of the loaders. `download` stands for whatever `_fetch_remote` or unpacking raises. -/
inductive LErr
  | os | download | value | assertion | index | notFound | unreadable | type | stopIteration
  deriving DecidableEq, Repr

variable {α β γ δ l : Type}

/-! ### The dataset folder -/

/-- The `domain` argument: a member of the enumeration, given by its value, or a string. -/
inductive DomArg | member (v : String) | name (s : String)
  deriving DecidableEq

/-- `if not isinstance(domain, E): domain = E(domain.lower())` (skada/datasets/_office.py:399-400, _office_home.py:221-222,
_amazon_review.py:201-202); `values` are the values of the enumeration. -/
def parseDomain (lower : String → String) (values : List String) : DomArg → Except LErr String
  | .member v => .ok v
  | .name s => if lower s ∈ values then .ok (lower s) else .error .value

/-- The values of `Office31Domain` (skada/datasets/_office.py:84-87). -/
def office31Domains : List String := ["amazon", "webcam", "dslr"]

/-- The values of `OfficeHomeDomain` (skada/datasets/_office_home.py:42-46). -/
def officeHomeDomains : List String := ["art", "clipart", "product", "realworld"]

/-- The values of `AmazonReviewDomain` (skada/datasets/_amazon_review.py:41-45). -/
def amazonDomains : List String := ["books", "dvd", "kitchen", "elec"]

/-- The dataset folder, if it exists, and the number of downloads started so far. -/
structure Disk (δ : Type) where
  dir : Option δ
  downloads : Nat
  deriving DecidableEq

/-- The outcome of downloading and unpacking: what is in the dataset folder afterwards.  A failure leaves the folder that
was created before the download, empty or with the files unpacked so far. -/
inductive Net (δ : Type) | done (c : δ) | failed (c : δ)
  deriving DecidableEq

/-- The part of the loaders that looks for the folder and downloads (skada/datasets/_office.py:401-413,
_office_home.py:185-195 and 223-233, _amazon_review.py:203-213).  `get_data_home` only creates the parent folder. -/
def ensure (st : Disk δ) (allow : Bool) (net : Net δ) : Disk δ × Except LErr δ :=
  match st.dir with
  | some c => (st, .ok c)
  | none =>
    if !allow then (st, .error .os)
    else match net with
      | .done c => (⟨some c, st.downloads + 1⟩, .ok c)
      | .failed c => (⟨some c, st.downloads + 1⟩, .error .download)

/-- A call of a loader for one domain: arguments, the outcome of a download should there be one, and what is read from the
folder for the domain (with the draws of this call). -/
structure Fetch (δ β : Type) where
  dom : DomArg
  allow : Bool
  net : Net δ
  load : δ → String → Except LErr β

/-- `_fetch_office31`, `_fetch_office_home`, `_fetch_amazon_review` (skada/datasets/_office.py:389-427,
_office_home.py:212-247, _amazon_review.py:192-227). -/
def fetch (lower : String → String) (values : List String) (st : Disk δ) (f : Fetch δ β) : Disk δ × Except LErr β :=
  match parseDomain lower values f.dom with
  | .error e => (st, .error e)
  | .ok v => match ensure st f.allow f.net with
    | (st, .error e) => (st, .error e)
    | (st, .ok c) => (st, f.load c v)

/-- Several calls, one after the other. -/
def run (lower : String → String) (values : List String) : Disk δ → List (Fetch δ β) → Disk δ × List (Except LErr β)
  | st, [] => (st, [])
  | st, f :: fs =>
    let (st, r) := fetch lower values st f
    let (st, rs) := run lower values st fs
    (st, r :: rs)

/-- `_fetch_office31_all`, `_fetch_amazon_review_all` (skada/datasets/_office.py:366-386, _amazon_review.py:171-189): one
call per domain.  The dataset is the list of its named domains. -/
def fetchAll (lower : String → String) (values : List String) (allow : Bool) (net : Net δ) (load : δ → String → Except LErr β) :
    Disk δ → List String → Disk δ × Except LErr (List (String × β))
  | st, [] => (st, .ok [])
  | st, v :: vs => match fetch lower values st ⟨.member v, allow, net, load⟩ with
    | (st, .error e) => (st, .error e)
    | (st, .ok d) => match fetchAll lower values allow net load st vs with
      | (st, .error e) => (st, .error e)
      | (st, .ok ds) => (st, .ok ((v, d) :: ds))

/-! ### Shuffling -/

/-- `arr[indices]` -/
def takeRows (a : List α) (idx : List Nat) : Except LErr (List α) :=
  idx.mapM (fun i => match a[i]? with | some x => .ok x | none => .error .index)

/-- One array shuffled, if asked for. -/
def shuffle1 (perm : Option (List Nat)) (a : List α) : Except LErr (List α) :=
  match perm with
  | none => .ok a
  | some p => takeRows a p

/-- `_shuffle_arrays(X, y)` behind `if shuffle` (skada/_utils.py:218-227); `perm` is the shuffled `indices`. -/
def shuffle2 (perm : Option (List Nat)) (X : List α) (y : List β) : Except LErr (List α × List β) :=
  match shuffle1 perm X with
  | .error e => .error e
  | .ok X => match shuffle1 perm y with
    | .error e => .error e
    | .ok y => .ok (X, y)

/-! ### Office-31 -/

/-- A two-dimensional array, as `loadmat` returns them. -/
structure Mat (β : Type) where
  cols : Nat
  rows : List (List β)
  deriving DecidableEq

/-- The result of `np.squeeze` on such an array. -/
inductive Sq (β : Type) | scalar | vec (v : List β) | mat (m : Mat β)

/-- `np.squeeze` (skada/datasets/_office.py:465). -/
def squeeze (m : Mat β) : Sq β :=
  match m.rows with
  | [r] => if m.cols = 1 then .scalar else .vec r
  | rs => if m.cols = 1 then .vec rs.flatten else .mat m

/-- `content.shape[-1]` (skada/datasets/_office.py:467). -/
def Sq.last : Sq β → Except LErr Nat
  | .scalar => .error .index
  | .vec v => .ok v.length
  | .mat m => .ok m.cols

/-- The rows `np.vstack` makes of it. -/
def Sq.stack : Sq β → List (List β)
  | .scalar => []
  | .vec v => [v]
  | .mat m => m.rows

/-- A loader specification (skada/datasets/_office.py:26-68): does a file name match the pattern, the number of features, and
the conversion to the dtype. -/
structure Spec31 (β γ : Type) where
  pat : String → Bool
  dim : Nat
  cast : β → γ

/-- A file: its array under the expected key, if it can be read. -/
abbrev File (β : Type) := String × Option (Mat β)

/-- What `listdir` finds in the folder of a domain: folders with their files, and plain files (`none`). -/
abbrev Container (β : Type) := List (String × Option (List (File β)))

/-- The `categories` argument: `None`, the presets, a list of names, or (undocumented) one string. -/
inductive Cats | none | all | caltech256 | names (ns : List String) | text (s : String)

/-- `_CATEGORIES_CALTECH256` (skada/datasets/_office.py:70-81). -/
def caltech256 : List String :=
  ["back_pack", "bike", "calculator", "headphones", "keyboard", "laptop_computer", "monitor", "mouse", "mug", "projector"]

/-- Presets replaced (skada/datasets/_office.py:414-418), then `f in categories` in `load_files`; on a string `in` is a
substring test. -/
def Cats.keep : Cats → String → Bool
  | .none, _ => true
  | .all, _ => true
  | .caltech256, f => decide (f ∈ Load.caltech256)
  | .names ns, f => decide (f ∈ ns)
  | .text s, f => decide (f.toList <:+: s.toList)

/-- `sorted(listdir(...))` -/
def sortByName (es : List (String × α)) : List (String × α) := es.insertionSort (fun a b => a.1 ≤ b.1)

/-- The category folders `load_files` uses, in its order. -/
def folders (c : Container β) (cats : Cats) : List (String × List (File β)) :=
  ((sortByName c).filterMap (fun e => e.2.map (fun fs => (e.1, fs)))).filter (fun e => cats.keep e.1)

/-- The files `load_files` finds, with their labels, before shuffling. -/
def listed (fs : List (String × List (File β))) : List (File β × Nat) :=
  fs.zipIdx.flatMap (fun e => (sortByName e.1.2).map (fun f => (f, e.2)))

/-- The result: `target_names`, `X`, `y`. -/
structure Bunch31 (γ : Type) where
  names : List String
  X : List (List γ)
  y : List Nat
  deriving DecidableEq

/-- The loop over the files (skada/datasets/_office.py:462-470): the arrays kept, with the labels that `indices` select. -/
def readFiles (sp : Spec31 β γ) : List (File β × Nat) → Except LErr (List (List (List γ)) × List Nat)
  | [] => .ok ([], [])
  | (f, i) :: fs =>
    if sp.pat f.1 then
      match f.2 with
      | none => .error .unreadable
      | some m => match (squeeze m).last with
        | .error e => .error e
        | .ok d =>
          if d ≠ sp.dim then .error .assertion
          else match readFiles sp fs with
            | .error e => .error e
            | .ok (data, y) => .ok ((squeeze m).stack.map (·.map sp.cast) :: data, i :: y)
    else readFiles sp fs

/-- `_load_office31` (skada/datasets/_office.py:440-476); `c = none` when the folder of the domain is missing. -/
def load31 (sp : Spec31 β γ) (c : Option (Container β)) (cats : Cats) (perm : Option (List Nat)) : Except LErr (Bunch31 γ) :=
  match c with
  | none => .error .notFound
  | some c =>
    let fs := folders c cats
    match shuffle1 perm (listed fs) with
    | .error e => .error e
    | .ok files => match readFiles sp files with
      | .error e => .error e
      | .ok (data, y) => if data = [] then .error .value else .ok ⟨fs.map Prod.fst, data.flatten, y⟩

/-! ### Office-Home -/

/-- One line of the CSV file: `row[:-2]`, `row[-2]`, `row[-1]` (skada/datasets/_office_home.py:315-321), and the numbers. -/
def parseRow (num : String → Option α) (row : List String) : Except LErr (List α × String × String) :=
  match row.reverse with
  | d :: y :: xs => match xs.reverse.mapM num with
    | some x => .ok (x, y, d)
    | none => .error .value
  | _ => .error .index

/-- `parse_office_home_csv` (skada/datasets/_office_home.py:301-327) on the lines of the file (`none`: no such file).  A line
with fewer than two cells is an `IndexError`, lines of different lengths or a cell that is no number a `ValueError` (the
`IndexError` comes first because the numbers are parsed after the loop); without data lines `np.char.lower` later fails. -/
def parseCsv (num : String → Option α) (csv : Option (List (List String))) : Except LErr (List (List α × String × String)) :=
  match csv with
  | none => .error .notFound
  | some [] => .error .stopIteration
  | some (_ :: lines) =>
    if lines.any (fun r => decide (r.length < 2)) then .error .index
    else if lines.any (fun r => decide (r.length ≠ (lines.headD []).length)) then .error .value
    else match lines.mapM (parseRow num) with
      | .error e => .error e
      | .ok rows => if rows = [] then .error .type else .ok rows

/-- The rows of one domain (skada/datasets/_office_home.py:204-206, 275-277). -/
def ofDomain (lower : String → String) (v : String) (rows : List (List α × String × String)) : List (List α) × List String :=
  let kept := rows.filter (fun r => decide (lower r.2.2 = v))
  (kept.map (·.1), kept.map (·.2.1))

/-- `_load_office_home` (skada/datasets/_office_home.py:263-282). -/
def loadHome (lower : String → String) (num : String → Option α) (csv : Option (List (List String))) (v : String)
    (perm : Option (List Nat)) : Except LErr (List (List α) × List String) :=
  match parseCsv num csv with
  | .error e => .error e
  | .ok rows => shuffle2 perm (ofDomain lower v rows).1 (ofDomain lower v rows).2

/-- `_load_office_home_all` and the loop over the domains (skada/datasets/_office_home.py:197-209, 285-298); `X`, `y` and the
domains are shuffled together. -/
def loadHomeAll (lower : String → String) (num : String → Option α) (csv : Option (List (List String)))
    (perm : Option (List Nat)) : Except LErr (List (String × (List (List α) × List String))) :=
  match parseCsv num csv with
  | .error e => .error e
  | .ok rows => match shuffle1 perm rows with
    | .error e => .error e
    | .ok rows => .ok (officeHomeDomains.map (fun v => (v, ofDomain lower v rows)))

/-- `_fetch_office_home_all` (skada/datasets/_office_home.py:176-209): the folder is looked for once. -/
def fetchHomeAll (lower : String → String) (num : String → Option α) (st : Disk (Option (List (List String)))) (allow : Bool)
    (net : Net (Option (List (List String)))) (perm : Option (List Nat)) :
    Disk (Option (List (List String))) × Except LErr (List (String × (List (List α) × List String))) :=
  match ensure st allow net with
  | (st, .error e) => (st, .error e)
  | (st, .ok csv) => (st, loadHomeAll lower num csv perm)

/-! ### Amazon reviews -/

/-- `_load_amazon_review` (skada/datasets/_amazon_review.py:257-281): `files` gives the arrays `fts` and `labels` of a file. -/
def loadAmazon (files : String → Option (List α × List (List l))) (v : String) (perm : Option (List Nat)) :
    Except LErr (List α × List l) :=
  match files (v ++ "_400.mat") with
  | none => .error .notFound
  | some (X, y) => shuffle2 perm X y.flatten

/-! ### MNIST and USPS -/

/-- Classes below `n_classes`, then `rng.choice(positions, int(n_samples * n))` (skada/datasets/_mnist_usps.py:74-82,
100-108); `draw i` is the `i`-th position drawn — with replacement. The positions are floating point numbers there; indexing
by them is taken to be indexing by the integers they are. -/
def subset (nSamples : ℚ) (nClasses : Int) (data : List (α × Int)) (draw : Nat → Nat) : Py (List (α × Int)) :=
  let kept := data.filter (fun r => decide (r.2 < nClasses))
  let size := (⌊nSamples * kept.length⌋).toNat
  (List.range size).mapM (fun i => match kept[draw i]? with | some r => .ok r | none => .error .indexError)

/-- Rows and labels of a domain. -/
def digits (rows : List (α × Int)) : Dom α := ⟨rows.map Prod.fst, some ⟨.int64, rows.map (fun r => .fin r.2)⟩⟩

/-- The dataset built by `load_mnist_usps` (skada/datasets/_mnist_usps.py:54-115, `return_dataset=True`). -/
def mnistUspsData (nSamples : ℚ) (nClasses : Int) (mnist usps : List (α × Int)) (draw₁ draw₂ : Nat → Nat) : Py (Registry α) :=
  if nSamples < 0 ∨ nSamples > 1 then .error .valueError
  else match subset nSamples nClasses mnist draw₁ with
    | .error e => .error e
    | .ok m => match subset nSamples nClasses usps draw₂ with
      | .error e => .error e
      | .ok u => match Registry.empty.addDomain (digits m) (some "mnist") with
        | (_, some e) => .error e
        | (r, none) => match r.addDomain (digits u) (some "usps") with
          | (_, some e) => .error e
          | (r, none) => .ok r

/-- `load_mnist_usps` (skada/datasets/_mnist_usps.py:18-125). -/
def mnistUsps (nSamples : ℚ) (nClasses : Int) (mnist usps : List (α × Int)) (draw₁ draw₂ : Nat → Nat) :
    Py (Registry.Packed α) :=
  match mnistUspsData nSamples nClasses mnist usps draw₁ draw₂ with
  | .error e => .error e
  | .ok r => r.pack ["mnist"] ["usps"] false none

end Skada.Load

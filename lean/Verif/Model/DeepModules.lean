/-
The network modules that skada ships: `ToyModule2D`, `ToyCNN` and `MNISTtoUSPSNet` (skada/deep/modules.py), and the hook that records the
output of a layer (skada/deep/utils.py:17-35).

The layers of `torch.nn` are modelled by their definitions on numbers of an ordered field, tensors by lists of their rows; a tensor of shape
`(n, c, l)` carries its shape.  `MNISTtoUSPSNet` is modelled on shapes only.  Sizes (channels, kernel, classes) are at least one.
-/
import Verif.Model.DeepNet

namespace Skada.Nets

open Np

variable {K : Type} [Field K] [LinearOrder K]

/-! ### Layers of torch.nn -/

/-- `sum_j w_j * x_j` for `j < n` -/
def dot (n : Nat) (w : Nat → K) (x : List K) : K := ((List.range n).map (fun j => w j * x.getD j 0)).sum

/-- Weights of `nn.Linear(fanIn, fanOut)`. -/
structure Linear (K : Type) where
  fanIn : Nat
  fanOut : Nat
  /-- weight of an output and an input -/
  w : Nat → Nat → K
  b : Nat → K

/-- `nn.Linear` on one row of the right width -/
def Linear.row (W : Linear K) (x : List K) : List K := (List.range W.fanOut).map (fun o => W.b o + dot W.fanIn (W.w o) x)

/-- `nn.Linear` on a two-dimensional tensor whose rows have width `width`; another width than the layer's: `RuntimeError` (also for an empty batch). -/
def Linear.run (W : Linear K) (width : Nat) (X : List (List K)) : Py (List (List K)) :=
  if width ≠ W.fanIn then .error .runtimeError else .ok (X.map W.row)

/-- `nn.ReLU` on one number -/
def relu (x : K) : K := max x 0

/-- A tensor of shape `(n, c, l)`: samples, channels, positions. -/
structure Tensor3 (K : Type) where
  n : Nat
  c : Nat
  l : Nat
  data : List (List (List K))

/-- The entries agree with the shape. -/
def Tensor3.Rect (t : Tensor3 K) : Prop := t.data.length = t.n ∧ ∀ s ∈ t.data, s.length = t.c ∧ ∀ r ∈ s, r.length = t.l

/-- `nn.Conv1d(chan, out, kernel)`, stride one, no padding. -/
structure Conv1d (K : Type) where
  chan : Nat
  out : Nat
  kernel : Nat
  /-- weight of an output channel, an input channel and an offset -/
  w : Nat → Nat → Nat → K
  b : Nat → K

/-- The convolution of one sample at output channel `o` and position `t` -/
def Conv1d.at (W : Conv1d K) (s : List (List K)) (o t : Nat) : K :=
  W.b o + ((List.range W.chan).map (fun c => dot W.kernel (W.w o c) ((s.getD c []).drop t))).sum

/-- `Conv1d.forward`: the channels must be those of the layer and the series at least as long as the kernel, else `RuntimeError`. -/
def Conv1d.run (W : Conv1d K) (x : Tensor3 K) : Py (Tensor3 K) :=
  if x.c ≠ W.chan then .error .runtimeError
  else if x.l < W.kernel then .error .runtimeError
  else .ok ⟨x.n, W.out, x.l - W.kernel + 1,
    x.data.map (fun s => (List.range W.out).map (fun o => (List.range (x.l - W.kernel + 1)).map (W.at s o)))⟩

/-- `tensor.flatten(start_dim=1)` -/
def Tensor3.flatten1 (x : Tensor3 K) : List (List K) := x.data.map List.flatten

/-- `nn.AdaptiveAvgPool1d(1)`, then `nn.Flatten(start_dim=1)`: the mean over the positions of every channel. -/
def avgPool (x : Tensor3 K) : List (List K) := x.data.map (fun s => s.map (fun r => r.sum / (r.length : K)))

/-! ### ToyCNN -/

/-- A constructed `ToyCNN`. -/
structure ToyCNN (K : Type) where
  conv : Conv1d K
  numFeatures : Nat
  fc : Linear K

/-- `self.feature_extractor` (skada/deep/modules.py:98-101) -/
def extract (W : Conv1d K) (x : Tensor3 K) : Py (Tensor3 K) := do
  let y ← W.run x
  return { y with data := y.data.map (fun s => s.map (fun r => r.map relu)) }

/-- `ToyCNN._num_features` (skada/deep/modules.py:128-133): the feature extractor is run on one sample of unspecified numbers `u`. -/
def featureCount (W : Conv1d K) (u : Nat → Nat → K) (chan size : Nat) : Py Nat := do
  let out ← extract W ⟨1, chan, size, [(List.range chan).map (fun c => (List.range size).map (u c))]⟩
  return out.data.flatten.flatten.length

/-- `ToyCNN.__init__` (skada/deep/modules.py:93-107); `w`, `b`, `v`, `a` are the initial weights. -/
def ToyCNN.init (u : Nat → Nat → K) (w : Nat → Nat → Nat → K) (b : Nat → K) (v : Nat → Nat → K) (a : Nat → K)
    (channels inputSize classes kernel out : Nat) : Py (ToyCNN K) := do
  let conv : Conv1d K := ⟨channels, out, kernel, w, b⟩
  let nf ← featureCount conv u channels inputSize
  return ⟨conv, nf, ⟨out, classes, v, a⟩⟩

/-- `ToyCNN.forward` (skada/deep/modules.py:109-126). -/
def ToyCNN.forward (M : ToyCNN K) (x : Tensor3 K) : Py (List (List K)) := do
  let y ← extract M.conv x
  M.fc.run y.c (avgPool y)

/-- What `IntermediateLayerHook` (skada/deep/utils.py:17-23) records for the layer `feature_extractor` during a forward pass, and the width of
its rows. -/
def ToyCNN.hooked (M : ToyCNN K) (x : Tensor3 K) : Py (Nat × List (List K)) := do
  let y ← extract M.conv x
  let _ ← M.fc.run y.c (avgPool y)
  return (y.c * y.l, y.flatten1)

/-- The first layer of a `DomainClassifier(num_features)` (skada/deep/modules.py:173-181) on the recorded features. -/
def ToyCNN.domainInput (M : ToyCNN K) (D : Linear K) (x : Tensor3 K) : Py (List (List K)) := do
  let (w, f) ← M.hooked x
  D.run w f

/-! ### ToyModule2D -/

/-- A constructed `ToyModule2D` (skada/deep/modules.py:33-44); `nonlin` works number by number. -/
structure Toy2D (K : Type) where
  dense0 : Linear K
  nonlin : K → K
  dense1 : Linear K
  proba : Bool

/-- `ToyModule2D.__init__` (skada/deep/modules.py:33-44) with initial weights `w`, `b`, `v`, `a` -/
def Toy2D.init (w : Nat → Nat → K) (b : Nat → K) (v : Nat → Nat → K) (a : Nat → K) (nonlin : K → K) (classes features : Nat) (proba : Bool) :
    Toy2D K := ⟨⟨2, features, w, b⟩, nonlin, ⟨features, classes, v, a⟩, proba⟩

/-- `nn.Dropout(p)` on one row: nothing in evaluation mode (`none`); in training mode the entries whose draw is false become zero and the others are
divided by `1 - p`. -/
def dropout (p : K) : Option (List Bool) → List K → List K
  | none, x => x
  | some m, x => List.zipWith (fun keep v => if keep then v / (1 - p) else 0) m x

/-- `ToyModule2D.forward` (skada/deep/modules.py:46-73) on one row; `mask` are the draws of the dropout layer for this row. -/
def Toy2D.row (ex : K → K) (M : Toy2D K) (mask : Option (List Bool)) (x : List K) : List K :=
  let z := M.dense1.row (dropout (1 / 2) mask ((M.dense0.row x).map M.nonlin))
  if M.proba then Deep.softmaxRow ex z else z

/-- `ToyModule2D.forward` (skada/deep/modules.py:46-73) on a batch of rows of width `width`; `none`: evaluation mode, else the draws of every row. -/
def Toy2D.forward (ex : K → K) (M : Toy2D K) (masks : Option (List (List Bool))) (width : Nat) (X : List (List K)) : Py (List (List K)) :=
  if width ≠ M.dense0.fanIn then .error .runtimeError
  else match masks with
    | none => .ok (X.map (M.row ex none))
    | some ms => .ok (List.zipWith (fun m x => M.row ex (some m) x) ms X)

/-! ### MNISTtoUSPSNet, shapes -/

/-- Shape of the output of `nn.Conv2d(cin, cout, k, 1)` for an input `(n, c, h, w)` or, without a batch dimension, `(c, h, w)`. -/
def conv2dShape (cin cout k : Nat) : List Nat → Py (List Nat)
  | [n, c, h, w] => if c ≠ cin ∨ h < k ∨ w < k then .error .runtimeError else .ok [n, cout, h - k + 1, w - k + 1]
  | [c, h, w] => if c ≠ cin ∨ h < k ∨ w < k then .error .runtimeError else .ok [cout, h - k + 1, w - k + 1]
  | _ => .error .runtimeError

/-- Shape of the output of `nn.MaxPool2d(k)`; an output without entries is a `RuntimeError`. -/
def maxPoolShape (k : Nat) : List Nat → Py (List Nat)
  | [n, c, h, w] => if h / k = 0 ∨ w / k = 0 then .error .runtimeError else .ok [n, c, h / k, w / k]
  | [c, h, w] => if h / k = 0 ∨ w / k = 0 then .error .runtimeError else .ok [c, h / k, w / k]
  | _ => .error .runtimeError

/-- Shape of `torch.flatten(x, 1)` -/
def flatten1Shape : List Nat → Py (List Nat)
  | [] => .error .indexError
  | [_] => .error .indexError
  | n :: rest => .ok [n, rest.prod]

/-- Shape of the output of `nn.Linear(fanIn, fanOut)` on a two-dimensional input -/
def linearShape (fanIn fanOut : Nat) : List Nat → Py (List Nat)
  | [n, w] => if w ≠ fanIn then .error .runtimeError else .ok [n, fanOut]
  | _ => .error .runtimeError

/-- Shape of the output of `MNISTtoUSPSNet.forward` (skada/deep/modules.py:199-228); ReLU and dropout keep shapes. -/
def mnistShape (x : List Nat) : Py (List Nat) := do
  let x ← conv2dShape 1 32 3 x
  let x ← conv2dShape 32 64 3 x
  let x ← maxPoolShape 2 x
  let x ← flatten1Shape x
  let x ← linearShape 9216 128 x
  linearShape 128 10 x

end Skada.Nets

/-
C107: the training loss of every deep method, from its factory down to the formula.
-/
import Verif.Model.DeepMethods
import Verif.Props.DeepBalanced
import Verif.Props.DeepCoral
import Verif.Props.DeepMMD
import Verif.Props.DeepMcc
import Verif.Props.DeepJdot
import Verif.Props.DeepMdd
import Verif.Props.DeepSpa
import Verif.Props.DeepNap
import Verif.Props.DeepGda
import Verif.Props.DeepCdd

namespace Skada
open Np Spec Deep

variable {σ K α P D F Y : Type} [Field K] [LinearOrder K] {d c : Nat}

namespace Spec

/-- The network, run on an unweighted batch with source and target rows in state `st`, goes to state `st'` and gives the predictions `p` and, at the
named layer, the features `f`: one row each per row of the batch. -/
structure Ran (base : BaseModule σ K α P F) (layer : String) (b : List (Item K α Y)) (st st' : σ) (p : List P) (f : List F) : Prop where
  run : ∃ layers, base st (b.map (·.x)) none = .ok (st', p, layers) ∧ layers layer = some f
  predictions : p.length = b.length
  features : f.length = b.length
  unweighted : ∀ a ∈ b, a.w = none
  source : 0 < nSource (b.map (·.d))
  target : 0 < nTarget (b.map (·.d))

/-- The source rows of a column of the batch. -/
def ofSource {γ : Type} (b : List (Item K α Y)) (col : List γ) : List γ := sourceRows (b.map (·.d)) col
/-- The target rows of a column of the batch. -/
def ofTarget {γ : Type} (b : List (Item K α Y)) (col : List γ) : List γ := targetRows (b.map (·.d)) col

/-- The mean over the source rows of the loss of the predictions `p`. -/
def sourceLoss (row : P → Y → K) (b : List (Item K α Y)) (p : List P) : K :=
  (List.zipWith row (ofSource b p) (ofSource b (b.map (·.y)))).sum / ((ofSource b p).length : K)

end Spec

omit [Field K] [LinearOrder K] in
theorem Spec.Ran.source_ne {base : BaseModule σ K α P F} {n : String} {b : List (Item K α Y)} {st st' : σ} {p : List P} {f : List F}
    (R : Ran base n b st st' p f) {γ : Type} (col : List γ) (h : col.length = b.length) : ofSource b col ≠ [] := by
  have := R.source
  rw [← length_sourceRows (a := col) (by simpa using h.symm)] at this
  exact List.length_pos_iff.1 this

omit [Field K] [LinearOrder K] in
theorem Spec.Ran.target_ne {base : BaseModule σ K α P F} {n : String} {b : List (Item K α Y)} {st st' : σ} {p : List P} {f : List F}
    (R : Ran base n b st st' p f) {γ : Type} (col : List γ) (h : col.length = b.length) : ofTarget b col ≠ [] := by
  have := R.target
  rw [← length_targetRows (a := col) (by simpa using h.symm)] at this
  exact List.length_pos_iff.1 this

theorem mem_of_sourceRows {γ : Type} {sd : List Int} {a : List γ} {v : γ} (h : v ∈ sourceRows sd a) : v ∈ a := by
  unfold sourceRows at h
  obtain ⟨q, hq, rfl⟩ := List.mem_map.1 h
  exact (List.of_mem_zip (List.mem_of_mem_filter hq)).2

theorem mem_of_targetRows {γ : Type} {sd : List Int} {a : List γ} {v : γ} (h : v ∈ targetRows sd a) : v ∈ a := by
  unfold targetRows at h
  obtain ⟨q, hq, rfl⟩ := List.mem_map.1 h
  exact (List.of_mem_zip (List.mem_of_mem_filter hq)).2

omit [LinearOrder K] in
/-- The loss of a batch from the parts. -/
theorem loss_parts (nan : K) (base : BaseModule σ K α P F) (n : String) (clf : Option (Classifier σ D F)) (crit : BaseCrit K P Y)
    (adapt : σ → AdaptArgs P D F Y → Py K) (reg : K) (kw : Kw σ K α Y) (b : List (Item K α Y)) (st st' st'' : σ) (p : List P) (f : List F)
    (R : Ran base n b st st' p f) (dp : Option (List D)) (hdp : domainScores clf st' (some f) = .ok (st'', dp))
    (hdl : ∀ l, dp = some l → l.length = b.length) :
    (domainAware nan base (some n) clf crit adapt reg kw).loss (collate b) st = (do
      let l ← (crit.init kw.reduction).eval nan (ofSource b p) (ofSource b (b.map (·.y)))
      let a ← adapt st'' ⟨ofSource b (b.map (·.y)), ofSource b p, ofTarget b p, dp.map (ofSource b), dp.map (ofTarget b), some (ofSource b f), some (ofTarget b f),
        some (ofSource b (b.map (·.i))), some (ofTarget b (b.map (·.i)))⟩
      return (st'', lossMean (l.plus (reg * a)))) := by
  obtain ⟨layers, hrun, hlay⟩ := R.run
  have hwn : b.mapM Item.w = none := by
    cases b with
    | nil => have := R.source; simp [nSource] at this
    | cons a b => rw [List.mapM_cons, R.unweighted a (by simp)]; rfl
  unfold Net.loss forwardFit collate
  simp only [domainAware, hwn, Option.map_none, hrun, ok_bind, featuresOf, layerOf, hlay]
  have hd : domainOf (⟨base, some n, clf⟩ : Module σ K α P D F) st' (some f) = .ok (st'', dp) := hdp
  simp only [Except.map, ok_bind, hd, pure_ok]
  rw [C43_value _ _ _ _ _ (by simpa using R.predictions) (by simp) (by simpa using hdl)
    (by intro l h; simp only [Option.some.injEq] at h; subst h; simpa using R.features) (by simp)]
  dsimp only [Option.map_some]
  unfold ofSource ofTarget
  generalize (crit.init kw.reduction).eval nan _ _ = q
  cases q with
  | error e => rfl
  | ok q =>
    simp only [ok_bind]
    generalize adapt _ _ = q'
    cases q' with
    | error e => rfl
    | ok q' => simp only [ok_bind, pure_ok, getLoss, lossMean_eq]

omit [LinearOrder K] in
/-- The base criterion with reduction "mean". -/
theorem eval_mean (nan : K) (row : P → Y → K) (red : String) (base : BaseModule σ K α P F) (n : String) (b : List (Item K α Y)) (st st' : σ) (p : List P) (f : List F)
    (R : Ran base n b st st' p f) :
    ((BaseCrit.torch row red).init "mean").eval nan (ofSource b p) (ofSource b (b.map (·.y))) = .ok (.scalar (sourceLoss row b p)) := by
  have h1 : (ofSource b p).length = nSource (b.map (·.d)) := length_sourceRows (by simpa using R.predictions.symm)
  have h2 : (ofSource b (b.map (·.y))).length = nSource (b.map (·.d)) := length_sourceRows (by simp)
  unfold BaseCrit.init BaseCrit.eval
  dsimp only
  rw [if_neg (by rw [h1, h2]; simp), if_neg (by decide), if_pos rfl, if_neg (R.source_ne p R.predictions)]
  rfl

omit [LinearOrder K] in
/-- A step of a method without domain classifier. -/
theorem loss_plain (nan : K) (base : BaseModule σ K α P F) (n : String) (row : P → Y → K) (red : String)
    (adapt : σ → AdaptArgs P Unit F Y → Py K) (reg : K) (kw : Kw σ K α Y) (hkw : kw.reduction = "mean") (b : List (Item K α Y)) (st st' : σ) (p : List P)
    (f : List F) (R : Ran base n b st st' p f) (v : K)
    (hv : adapt st' ⟨ofSource b (b.map (·.y)), ofSource b p, ofTarget b p, none, none, some (ofSource b f), some (ofTarget b f),
        some (ofSource b (b.map (·.i))), some (ofTarget b (b.map (·.i)))⟩ = .ok v) :
    (domainAware nan base (some n) none (.torch row red) adapt reg kw).loss (collate b) st = .ok (st', some (sourceLoss row b p + reg * v)) := by
  rw [loss_parts nan base n none _ adapt reg kw b st st' st' p f R none rfl (by simp), hkw, eval_mean nan row red base n b st st' p f R]
  simp only [ok_bind, Option.map_none, hv]
  rfl

omit [LinearOrder K] in
/-- A step of a method with a domain classifier. -/
theorem loss_adv (nan : K) (base : BaseModule σ K α P F) (n : String) (g : Classifier σ D F) (row : P → Y → K) (red : String)
    (adapt : σ → AdaptArgs P D F Y → Py K) (reg : K) (kw : Kw σ K α Y) (hkw : kw.reduction = "mean") (b : List (Item K α Y)) (st st' st'' : σ) (p : List P)
    (f : List F) (R : Ran base n b st st' p f) (dp : List D) (hg : g st' (some f) = .ok (st'', dp)) (hdl : dp.length = b.length) (v : K)
    (hv : adapt st'' ⟨ofSource b (b.map (·.y)), ofSource b p, ofTarget b p, some (ofSource b dp), some (ofTarget b dp), some (ofSource b f), some (ofTarget b f),
        some (ofSource b (b.map (·.i))), some (ofTarget b (b.map (·.i)))⟩ = .ok v) :
    (domainAware nan base (some n) (some g) (.torch row red) adapt reg kw).loss (collate b) st = .ok (st'', some (sourceLoss row b p + reg * v)) := by
  rw [loss_parts nan base n (some g) _ adapt reg kw b st st' st'' p f R (some dp) (by simp [domainScores, hg, Except.map])
    (by intro l h; simp only [Option.some.injEq] at h; rw [← h, hdl]), hkw, eval_mean nan row red base n b st st' p f R]
  simp only [ok_bind, Option.map_some, hv]
  rfl

/-! ### A small network for the examples -/

/-- Inputs are numbers; the features are the input, the class scores are the input and 0. -/
def demoBase : BaseModule Unit K K (Fin 2 → K) (Fin 1 → K) :=
  fun st X _ => .ok (st, X.map (fun x => ![x, 0]), fun n => if n = "fc" then some (X.map (fun x => ![x])) else none)
/-- Two source rows (inputs 0 and 1) and two target rows (inputs 2 and 4). -/
def demoBatch : List (Item K K Int) := [⟨0, 1, 0, none, 0⟩, ⟨2, -2, 0, none, -1⟩, ⟨1, 1, 1, none, 1⟩, ⟨4, -2, 1, none, -1⟩]
/-- What the network gives on it. -/
def demoPreds : List (Fin 2 → K) := [![0, 0], ![2, 0], ![1, 0], ![4, 0]]
/-- What the network gives on it. -/
def demoFeats : List (Fin 1 → K) := [![0], ![2], ![1], ![4]]
/-- A criterion, of no particular meaning. -/
def demoRow (p : Fin 2 → K) (y : Int) : K := p 0 - y + 1
/-- Its keyword arguments. -/
def demoKw (red : String) : Kw Unit K K Int := ⟨red, fun st _ => .ok st, fun st _ => .ok st, fun st _ => .ok st⟩

omit [LinearOrder K] in
theorem demo_ran : Ran (demoBase (K := K)) "fc" demoBatch () () demoPreds demoFeats where
  run := ⟨_, rfl, rfl⟩
  predictions := rfl
  features := rfl
  unweighted := by simp [demoBatch]
  source := by simp [demoBatch, nSource]
  target := by simp [demoBatch, nTarget]

/-! ### Divergences -/

/-- C107 (DeepCoral).  Every step with at least two rows of either side has the loss `mean source loss + reg * ‖C_s - C_t‖² / (4 d²)`, `C_s` and `C_t` being
the sample covariances of the source and of the target features of the batch, whatever `assume_centered` is. -/
theorem C107_deepcoral {K : Type} [Field K] [LinearOrder K] [IsStrictOrderedRing K] (nan : K) (base : BaseModule σ K α P (Fin d → K)) (n : String) (reg : K) (ac : Bool) (row : P → Y → K) (red : String)
    (kw : Kw σ K α Y) (hkw : kw.reduction = "mean") (b : List (Item K α Y)) (st st' : σ) (p : List P) (f : List (Fin d → K)) (R : Ran base n b st st' p f)
    (hd : 0 < d) (hs : 2 ≤ nSource (b.map (·.d))) (ht : 2 ≤ nTarget (b.map (·.d))) :
    ∃ v, (deepCoral nan base (some n) reg ac (.torch row red) kw).loss (collate b) st = .ok (st', some (sourceLoss row b p + reg * v)) ∧
      4 * (d : K) ^ 2 * v = ∑ j, ∑ k, (sampleCov (ofSource b f) j k - sampleCov (ofTarget b f) j k) ^ 2 := by
  obtain ⟨v, hv, -, h4, -⟩ := C86_coral ac (ofSource b f) (ofTarget b f) hd
    (by unfold ofSource; rw [length_sourceRows (by simpa using R.features.symm)]; exact hs)
    (by unfold ofTarget; rw [length_targetRows (by simpa using R.features.symm)]; exact ht)
  refine ⟨v, loss_plain nan base n row red _ reg kw hkw b st st' p f R v ?_, h4⟩
  simp only [withFeatures, hv]
  rfl

example : (deepCoral 0 demoBase (some "fc") 3 false (.torch demoRow "sum") (demoKw "mean")).loss (collate demoBatch) () = .ok ((), some ((1 : ℚ) + 3 * (9 / 16))) := by
  decide +kernel

example : ∃ v : ℚ, (deepCoral 0 demoBase (some "fc") 3 false (.torch demoRow "sum") (demoKw "mean")).loss (collate demoBatch) () =
    .ok ((), some (sourceLoss demoRow demoBatch demoPreds + 3 * v)) :=
  let ⟨v, h, _⟩ := C107_deepcoral 0 demoBase "fc" 3 false demoRow "sum" (demoKw "mean") rfl demoBatch () () demoPreds demoFeats demo_ran (by norm_num)
    (by decide) (by decide)
  ⟨v, h⟩

/-- C107 (DAN).  With given positive bandwidths every step has the loss `mean source loss + reg * MMD²`, the mean over all pairs of rows of the batch of the
kernel `∑_σ exp(-‖x - y‖ / σ)` within the source, plus within the target, minus twice across. -/
theorem C107_dan (nan : ℝ) (pow2 : Nat → ℝ) (eps : ℝ) (base : BaseModule σ ℝ α P (Fin d → ℝ)) (n : String) (reg : ℝ) (sg : List ℝ) (hsg : ∀ s ∈ sg, 0 < s)
    (row : P → Y → ℝ) (red : String) (kw : Kw σ ℝ α Y) (hkw : kw.reduction = "mean") (b : List (Item ℝ α Y)) (st st' : σ) (p : List P) (f : List (Fin d → ℝ))
    (R : Ran base n b st st' p f) :
    (danNet nan Real.sqrt Real.exp pow2 eps base (some n) reg (some sg) (.torch row red) kw).loss (collate b) st =
      .ok (st', some (sourceLoss row b p + reg * (pairMean (expKernel sg) (ofSource b f) (ofSource b f) + pairMean (expKernel sg) (ofTarget b f) (ofTarget b f)
        - 2 * pairMean (expKernel sg) (ofSource b f) (ofTarget b f)))) := by
  obtain ⟨v, hv, -, h4, -⟩ := C87_dan pow2 eps sg hsg (ofSource b f) (ofTarget b f) (R.source_ne f R.features) (R.target_ne f R.features)
  rw [← h4]
  refine loss_plain nan base n row red _ reg kw hkw b st st' p f R v ?_
  simp only [withFeatures, hv]
  rfl

example := C107_dan 0 (fun _ => 1) 0 demoBase "fc" 3 [1, 2] (by simp) demoRow "mean" (demoKw "mean") rfl demoBatch () () demoPreds demoFeats demo_ran

/-- C107 (CAN).  Every step has the loss `mean source loss + reg * cdd_loss(source labels, source features, target features)` with the thresholds and bandwidths
given to `CAN` and the clusters stored in the criterion; without clusters it is a `ValueError`. -/
theorem C107_can (nan : K) (sqrt ex : K → K) (pow2 : Nat → K) (e eps : K) (centers : σ → Option (List (Fin d → K))) (base : BaseModule σ K α P (Fin d → K))
    (n : String) (reg thr : K) (classThr : Nat) (sigmas : Option (List K)) (row : P → Int → K) (red : String) (kw : Kw σ K α Int) (hkw : kw.reduction = "mean")
    (b : List (Item K α Int)) (st st' : σ) (p : List P) (f : List (Fin d → K)) (R : Ran base n b st st' p f) :
    (∀ v, DL.cdd sqrt ex pow2 e eps thr classThr sigmas (centers st') (ofSource b (b.map (·.y))) (ofSource b f) (ofTarget b f) = .ok v →
      (canNet nan sqrt ex pow2 e eps centers base (some n) reg thr classThr sigmas (.torch row red) kw).loss (collate b) st =
        .ok (st', some (sourceLoss row b p + reg * v))) ∧
    (centers st' = none →
      (canNet nan sqrt ex pow2 e eps centers base (some n) reg thr classThr sigmas (.torch row red) kw).loss (collate b) st = .error .valueError) := by
  refine ⟨fun v hv => loss_plain nan base n row red _ reg kw hkw b st st' p f R v hv, fun hc => ?_⟩
  unfold canNet
  rw [loss_parts nan base n none _ _ reg kw b st st' st' p f R none rfl (by simp), hkw, eval_mean nan row red base n b st st' p f R]
  simp only [ok_bind, withFeatures, hc, DL.cdd]
  rfl

example : (canNet (0 : ℚ) (fun x => x) (fun x => x) (fun _ => 1) 0 0 (fun _ => some [![1], ![-1]]) demoBase (some "fc") 2 (1 / 2) 3 (some [1]) (.torch demoRow "mean")
    (demoKw "mean")).loss (collate demoBatch) () = .ok ((), some (sourceLoss demoRow demoBatch demoPreds + 2 * 0)) :=
  (C107_can (0 : ℚ) (fun x => x) (fun x => x) (fun _ => 1) 0 0 (fun _ => some [![1], ![-1]]) demoBase "fc" 2 (1 / 2) 3 (some [1]) demoRow "mean"
    (demoKw "mean") rfl demoBatch () () demoPreds demoFeats demo_ran).1 0 (by decide +kernel)

/-! ### Class confusion, optimal transport -/

/-- C107 (MCC).  Every step has the loss `mean source loss + reg * mean class confusion of the target predictions` at temperature `T`; the features play no
part. -/
theorem C107_mcc (nan : ℝ) (eps : ℝ) (base : BaseModule σ ℝ α (Fin c → ℝ) F) (n : String) (reg T : ℝ) (hT : T ≠ 0) (hc : 0 < c)
    (row : (Fin c → ℝ) → Y → ℝ) (red : String) (kw : Kw σ ℝ α Y) (hkw : kw.reduction = "mean") (b : List (Item ℝ α Y)) (st st' : σ) (p : List (Fin c → ℝ)) (f : List F)
    (R : Ran base n b st st' p f) :
    (mccNet nan Real.exp Real.log eps base (some n) reg T (.torch row red) kw).loss (collate b) st =
      .ok (st', some (sourceLoss row b p + reg * meanConfusion T eps (ofTarget b p))) := by
  refine loss_plain nan base n row red _ reg kw hkw b st st' p f R _ ?_
  simp only
  rw [C89_mcc T eps (ofTarget b p) (R.target_ne p R.predictions) hc hT]
  rfl

example := C107_mcc 0 (1 / 100000) demoBase "fc" 1 (5 / 2) (by norm_num) (by norm_num) demoRow "mean" (demoKw "mean") rfl demoBatch () () demoPreds demoFeats demo_ran

/-- C107 (DeepJDOT).  For as many source as target rows, and an exact transport solver: every step has the loss `mean source loss + v`, where `v` is the average
cost of the cheapest one-to-one pairing of source rows (features, label) with target rows (features, prediction). -/
theorem C107_deepjdot (nan : ℝ) (ce : (Fin c → ℝ) → Y → ℝ) (emd2 : List ℝ → List ℝ → List (List ℝ) → Py ℝ)
    (hemd : ∀ (k : Nat) (M : List (List ℝ)), ∃ v, emd2 (List.replicate k (1 / (k : ℝ))) (List.replicate k (1 / (k : ℝ))) M = .ok v ∧
      IsOTCost (List.replicate k (1 / (k : ℝ))) (List.replicate k (1 / (k : ℝ))) M v)
    (base : BaseModule σ ℝ α (Fin c → ℝ) (Fin d → ℝ)) (n : String) (regDist regCl : ℝ) (row : (Fin c → ℝ) → Y → ℝ) (red : String) (kw : Kw σ ℝ α Y)
    (hkw : kw.reduction = "mean") (b : List (Item ℝ α Y)) (st st' : σ) (p : List (Fin c → ℝ)) (f : List (Fin d → ℝ)) (R : Ran base n b st st' p f)
    (m : Nat) (ys : Fin m → Y) (yt : Fin m → Fin c → ℝ) (xs xt : Fin m → Fin d → ℝ) (h1 : ofSource b (b.map (·.y)) = List.ofFn ys)
    (h2 : ofTarget b p = List.ofFn yt) (h3 : ofSource b f = List.ofFn xs) (h4 : ofTarget b f = List.ofFn xt) :
    ∃ v, (deepJdotNet nan Real.sqrt ce emd2 base (some n) regDist regCl (.torch row red) kw).loss (collate b) st = .ok (st', some (sourceLoss row b p + v)) ∧
      (∃ τ : Equiv.Perm (Fin m), v = (∑ i, jointCost ce regDist regCl (xs i) (ys i) (xt (τ i)) (yt (τ i))) / m) ∧
      ∀ τ : Equiv.Perm (Fin m), v ≤ (∑ i, jointCost ce regDist regCl (xs i) (ys i) (xt (τ i)) (yt (τ i))) / m := by
  have hm : 0 < m := by
    have := R.source_ne f R.features
    rw [h3] at this
    exact Nat.pos_of_ne_zero fun h => this (by subst h; simp)
  obtain ⟨v, hv, hex, hle⟩ := C92_pairing ce emd2 hemd regDist regCl hm ys yt xs xt
  refine ⟨v, ?_, hex, hle⟩
  rw [show sourceLoss row b p + v = sourceLoss row b p + 1 * v by ring]
  refine loss_plain nan base n row red _ 1 kw hkw b st st' p f R v ?_
  simp only [withFeatures]
  rw [h1, h2, h3, h4]
  exact hv

example (emd2 : List ℝ → List ℝ → List (List ℝ) → Py ℝ)
    (hemd : ∀ (k : Nat) (M : List (List ℝ)), ∃ v, emd2 (List.replicate k (1 / (k : ℝ))) (List.replicate k (1 / (k : ℝ))) M = .ok v ∧
      IsOTCost (List.replicate k (1 / (k : ℝ))) (List.replicate k (1 / (k : ℝ))) M v) :=
  C107_deepjdot 0 demoRow emd2 hemd demoBase "fc" 1 1 demoRow "mean" (demoKw "mean") rfl demoBatch () () demoPreds demoFeats demo_ran 2
    ![0, 1] ![![2, 0], ![4, 0]] ![![0], ![1]] ![![2], ![4]] rfl rfl rfl rfl

/-! ### Adversarial methods -/

/-- C107 (DANN).  With a domain classifier whose probabilities are not extreme, every step has the loss `mean source loss + reg * (mean of -log(1 - q) over the
source + mean of -log q over the target)`, `q` being the probability of "target" that the classifier gives to the features. -/
theorem C107_dann (nan : ℝ) (make : Nat → Classifier σ ℝ F) (base : BaseModule σ ℝ α P F) (n : String) (reg : ℝ) (g : Classifier σ ℝ F) (nf : Option Nat)
    (row : P → Y → ℝ) (red : String) (kw : Kw σ ℝ α Y) (hkw : kw.reduction = "mean") (b : List (Item ℝ α Y)) (st st' st'' : σ) (p : List P) (f : List F)
    (R : Ran base n b st st' p f) (q : List ℝ) (hg : g st' (some f) = .ok (st'', q)) (hq : q.length = b.length)
    (h01 : ∀ v ∈ q, Real.exp (-100) ≤ v ∧ Real.exp (-100) ≤ 1 - v) :
    ∃ T, dannNet nan (Adv.bceLoss Real.log) make base (some n) reg (some g) nf (.torch row red) kw = .ok T ∧
      T.loss (collate b) st = .ok (st'', some (sourceLoss row b p +
        reg * (((ofSource b q).map (fun v => - Real.log (1 - v))).sum / ((ofSource b q).length : ℝ) +
          ((ofTarget b q).map (fun v => - Real.log v)).sum / ((ofTarget b q).length : ℝ)))) := by
  refine ⟨_, rfl, loss_adv nan base n g row red _ reg kw hkw b st st' st'' p f R q hg hq _ ?_⟩
  have hms : ∀ v ∈ ofSource b q, v ∈ q := fun v hv => mem_of_sourceRows hv
  have hmt : ∀ v ∈ ofTarget b q, v ∈ q := fun v hv => mem_of_targetRows hv
  have e0 := Real.exp_pos (-100)
  simp only [withDomains]
  rw [C94_value (ofSource b q) (ofTarget b q) (fun v hv => ⟨by linarith [(h01 v (hms v hv)).1], (h01 v (hms v hv)).2⟩)
    (fun v hv => ⟨(h01 v (hmt v hv)).1, by linarith [(h01 v (hmt v hv)).2]⟩) (R.source_ne q hq) (R.target_ne q hq)]
  rfl

theorem demo_extreme : Real.exp (-100) ≤ 1 / 2 := by
  have h := Real.add_one_le_exp (100 : ℝ)
  rw [Real.exp_neg, inv_eq_one_div]
  exact one_div_le_one_div_of_le (by norm_num) (by linarith)

example := C107_dann 0 (fun _ st _ => .ok (st, [])) demoBase "fc" 3 (fun st f => .ok (st, (f.getD []).map (fun _ => 1 / 2))) none demoRow "mean" (demoKw "mean") rfl
  demoBatch () () () demoPreds demoFeats demo_ran [1 / 2, 1 / 2, 1 / 2, 1 / 2] rfl rfl (by
    intro v hv
    have : v = 1 / 2 := by simpa using hv
    subst this
    exact ⟨demo_extreme, by norm_num; simpa using demo_extreme⟩)

/-- C107 (DANN, counterexample).  With the default domain classifier (one output, softmax over it) and `reg` as given, the adaptation term is `100 * reg` at every
step, whatever features and weights: it never trains anything. -/
theorem C107_dann_default_counterexample (nan : ℝ) (layers : σ → Nat → List (Fin d → ℝ) → List (Fin 1 → ℝ)) (hlen : ∀ st k X, (layers st k X).length = X.length)
    (base : BaseModule σ ℝ α P (Fin d → ℝ)) (n : String) (reg : ℝ) (nf : Nat)
    (row : P → Y → ℝ) (red : String) (kw : Kw σ ℝ α Y) (hkw : kw.reduction = "mean") :
    ∃ T, dannNet nan (Adv.bceLoss Real.log) (fun k st f => .ok (st, Adv.squeeze1 (Adv.domainClassifier Real.exp (layers st k) (f.getD [])))) base (some n) reg none
        (some nf) (.torch row red) kw = .ok T ∧
      ∀ (b : List (Item ℝ α Y)) (st st' : σ) (p : List P) (f : List (Fin d → ℝ)), Ran base n b st st' p f →
        T.loss (collate b) st = .ok (st', some (sourceLoss row b p + reg * 100)) := by
  refine ⟨_, rfl, fun b st st' p f R => ?_⟩
  have h1 : Adv.squeeze1 (Adv.domainClassifier Real.exp (layers st' nf) f) = List.replicate b.length 1 := by
    unfold Adv.squeeze1 Adv.domainClassifier
    rw [List.map_map, List.eq_replicate_iff]
    refine ⟨by simp [hlen, R.features], fun v hv => ?_⟩
    obtain ⟨y, -, rfl⟩ := List.mem_map.1 hv
    simp [DL.softmaxT, (Real.exp_pos _).ne']
  refine loss_adv nan base n _ row red _ reg kw hkw b st st' st' p f R (List.replicate b.length 1) (by simp [h1]) (by simp) _ ?_
  have hS : ∀ v ∈ ofSource b (List.replicate b.length (1 : ℝ)), v = 1 := fun v hv => List.eq_of_mem_replicate (mem_of_sourceRows hv)
  have hT : ∀ v ∈ ofTarget b (List.replicate b.length (1 : ℝ)), v = 1 := fun v hv => List.eq_of_mem_replicate (mem_of_targetRows hv)
  have hs0 := R.source_ne (List.replicate b.length (1 : ℝ)) (by simp)
  have ht0 := R.target_ne (List.replicate b.length (1 : ℝ)) (by simp)
  simp only [withDomains]
  generalize ofSource b (List.replicate b.length (1 : ℝ)) = S at hS hs0 ⊢
  generalize ofTarget b (List.replicate b.length (1 : ℝ)) = T at hT ht0 ⊢
  obtain ⟨k, rfl⟩ : ∃ k, S = List.replicate k 1 := ⟨_, List.eq_replicate_iff.2 ⟨rfl, hS⟩⟩
  obtain ⟨m, rfl⟩ : ∃ m, T = List.replicate m 1 := ⟨_, List.eq_replicate_iff.2 ⟨rfl, hT⟩⟩
  have hsl : ((List.replicate k (1 : ℝ)).length : ℝ) ≠ 0 := by exact_mod_cast (List.length_pos_of_ne_nil hs0).ne'
  rw [Adv.dann_eq _ _ (by intro v hv; rw [hS v hv]; norm_num) (by intro v hv; rw [hT v hv]; norm_num) hs0 ht0]
  simp only [List.map_replicate, DL.mean, List.sum_replicate, List.length_replicate, Adv.clampLog, orNan, Except.map, Option.getD_some]
  simp only [List.length_replicate] at hsl
  norm_num
  field_simp

example : ∃ T, dannNet 0 (Adv.bceLoss Real.log) (fun _ st f => .ok (st, Adv.squeeze1 (Adv.domainClassifier Real.exp (fun X => X) (f.getD [])))) demoBase (some "fc") 3 none
    (some 1) (.torch demoRow "mean") (demoKw "mean") = .ok T ∧
    T.loss (collate demoBatch) () = .ok ((), some (sourceLoss demoRow demoBatch demoPreds + 3 * 100)) :=
  let ⟨T, h, h'⟩ := C107_dann_default_counterexample 0 (fun _ _ X => X) (fun _ _ _ => rfl) demoBase "fc" 3 1 demoRow "mean" (demoKw "mean") rfl
  ⟨T, h, h' _ _ _ _ _ demo_ran⟩

omit [LinearOrder K] in
/-- The loss of a batch under CDAN. -/
theorem lossCdan_adv (nan : K) (base : BaseModule σ K α P F) (n : String) (g : Classifier σ D F) (cond : List F → List P → List F) (row : P → Y → K) (red : String)
    (adapt : σ → AdaptArgs P D F Y → Py K) (reg : K) (kw : Kw σ K α Y) (hkw : kw.reduction = "mean") (b : List (Item K α Y)) (st st' st'' : σ) (p : List P)
    (f : List F) (R : Ran base n b st st' p f) (dp : List D) (hg : g st' (some (cond f p)) = .ok (st'', dp)) (hdl : dp.length = b.length) (v : K)
    (hv : adapt st'' ⟨ofSource b (b.map (·.y)), ofSource b p, ofTarget b p, some (ofSource b dp), some (ofTarget b dp), some (ofSource b f), some (ofTarget b f),
        some (ofSource b (b.map (·.i))), some (ofTarget b (b.map (·.i)))⟩ = .ok v) :
    (domainAware nan base (some n) (some g) (.torch row red) adapt reg kw).lossCdan cond (collate b) st = .ok (st'', some (sourceLoss row b p + reg * v)) := by
  obtain ⟨layers, hrun, hlay⟩ := R.run
  have hwn : b.mapM Item.w = none := by
    cases b with
    | nil => have := R.source; simp [nSource] at this
    | cons a b => rw [List.mapM_cons, R.unweighted a (by simp)]; rfl
  have he := eval_mean nan row red base n b st st' p f R
  unfold ofSource ofTarget at *
  unfold Net.lossCdan cdanFit collate
  simp only [domainAware, hwn, hrun, ok_bind, layerOf, hlay]
  have hd : domainOf (⟨base, some n, some g⟩ : Module σ K α P D F) st' (some (cond f p)) = .ok (st'', some dp) := by simp [domainOf, hg, Except.map]
  simp only [hd, ok_bind, pure_ok]
  rw [C43_value _ _ _ _ _ (by simpa using R.predictions) (by simp) (by intro l h; simp only [Option.some.injEq] at h; subst h; simpa using hdl)
    (by intro l h; simp only [Option.some.injEq] at h; subst h; simpa using R.features) (by simp)]
  dsimp only [Option.map_some]
  rw [hkw, he]
  simp only [ok_bind, hv]
  rfl

/-- C107 (CDAN).  Every step has the loss of `DANN` with `q` the probabilities that the classifier gives to the conditioned features `cond f p`. -/
theorem C107_cdan (nan : ℝ) (make : Nat → Classifier σ ℝ F) (cond : List F → List P → List F) (base : BaseModule σ ℝ α P F) (n : String) (reg : ℝ) (maxF : Nat)
    (g : Classifier σ ℝ F) (nf nc : Option Nat) (row : P → Y → ℝ) (red : String) (kw : Kw σ ℝ α Y) (hkw : kw.reduction = "mean") (b : List (Item ℝ α Y))
    (st st' st'' : σ) (p : List P) (f : List F) (R : Ran base n b st st' p f) (q : List ℝ) (hg : g st' (some (cond f p)) = .ok (st'', q)) (hq : q.length = b.length)
    (h01 : ∀ v ∈ q, Real.exp (-100) ≤ v ∧ Real.exp (-100) ≤ 1 - v) :
    ∃ T, cdanNet nan (Adv.bceLoss Real.log) make base (some n) reg maxF (some g) nf nc (.torch row red) kw = .ok T ∧
      T.lossCdan cond (collate b) st = .ok (st'', some (sourceLoss row b p +
        reg * (((ofSource b q).map (fun v => - Real.log (1 - v))).sum / ((ofSource b q).length : ℝ) +
          ((ofTarget b q).map (fun v => - Real.log v)).sum / ((ofTarget b q).length : ℝ)))) := by
  refine ⟨_, rfl, lossCdan_adv nan base n g cond row red _ reg kw hkw b st st' st'' p f R q hg hq _ ?_⟩
  have hms : ∀ v ∈ ofSource b q, v ∈ q := fun v hv => mem_of_sourceRows hv
  have hmt : ∀ v ∈ ofTarget b q, v ∈ q := fun v hv => mem_of_targetRows hv
  have e0 := Real.exp_pos (-100)
  have l1 : (ofSource b q).length = (ofSource b f).length := by
    unfold ofSource; rw [length_sourceRows (by simpa using hq.symm), length_sourceRows (by simpa using R.features.symm)]
  have l2 : (ofTarget b q).length = (ofTarget b f).length := by
    unfold ofTarget; rw [length_targetRows (by simpa using hq.symm), length_targetRows (by simpa using R.features.symm)]
  simp only [withDomains, withFeatures]
  rw [(C94_cdan (ofSource b q) (ofTarget b q) (ofSource b f) (ofTarget b f)).1 l1 l2,
    C94_value (ofSource b q) (ofTarget b q) (fun v hv => ⟨by linarith [(h01 v (hms v hv)).1], (h01 v (hms v hv)).2⟩)
    (fun v hv => ⟨(h01 v (hmt v hv)).1, by linarith [(h01 v (hmt v hv)).2]⟩) (R.source_ne q hq) (R.target_ne q hq)]
  rfl

example := C107_cdan 0 (fun _ st _ => .ok (st, [])) (fun f p => List.zipWith (fun x y => fun j => x j * y 0) f p) demoBase "fc" 3 4096
  (fun st f => .ok (st, (f.getD []).map (fun _ => 1 / 2))) none none demoRow "mean" (demoKw "mean") rfl
  demoBatch () () () demoPreds demoFeats demo_ran [1 / 2, 1 / 2, 1 / 2, 1 / 2] rfl rfl (by
    intro v hv
    have : v = 1 / 2 := by simpa using hv
    subst this
    exact ⟨demo_extreme, by norm_num; simpa using demo_extreme⟩)

/-- C107 (MDD).  Every step has the loss `mean source loss + reg * (gamma * CE - t)`: `CE` is the cross-entropy between the discriminator's scores of the source rows
and the classes that the network predicts for them, `t` the modified cross-entropy of the target rows. -/
theorem C107_mdd [NeZero c] (nan s gamma : ℝ) (hs0 : 0 < s) (hs1 : s ≤ 1) (hc : 2 ≤ c) (hg0 : 0 ≤ gamma) (make : Nat → Nat → Classifier σ (Fin c → ℝ) F)
    (base : BaseModule σ ℝ α (Fin c → ℝ) F) (n : String) (reg : ℝ) (g : Classifier σ (Fin c → ℝ) F) (nf nc : Option Nat) (row : (Fin c → ℝ) → Y → ℝ)
    (red : String) (kw : Kw σ ℝ α Y) (hkw : kw.reduction = "mean") (b : List (Item ℝ α Y)) (st st' st'' : σ) (p : List (Fin c → ℝ)) (f : List F)
    (R : Ran base n b st st' p f) (q : List (Fin c → ℝ)) (hg : g st' (some f) = .ok (st'', q)) (hq : q.length = b.length) :
    ∃ T v t ls lt, mddNet nan Real.exp Real.log s make base (some n) reg gamma (some g) nf nc (.torch row red) kw = .ok T ∧
      T.loss (collate b) st = .ok (st'', some (sourceLoss row b p + reg * v)) ∧ List.Forall₂ FirstMax (ofSource b p) ls ∧ List.Forall₂ FirstMax (ofTarget b p) lt ∧
      Adv.modifiedCE Real.exp Real.log s (ofTarget b q) lt = some t ∧
      v = gamma * ((List.zipWith (fun y k => - Real.log (softmax y k)) (ofSource b q) ls).sum / ((ofSource b q).length : ℝ)) - t ∧ 0 ≤ v := by
  have l1 : (ofSource b q).length = (ofSource b p).length := by
    unfold ofSource; rw [length_sourceRows (by simpa using hq.symm), length_sourceRows (by simpa using R.predictions.symm)]
  have l2 : (ofTarget b q).length = (ofTarget b p).length := by
    unfold ofTarget; rw [length_targetRows (by simpa using hq.symm), length_targetRows (by simpa using R.predictions.symm)]
  obtain ⟨v, t, ls, lt, hv, h1, h2, h3, h4, h5⟩ := C95_loss s gamma hs0 hs1 hc hg0 (ofSource b p) (ofTarget b p) (ofSource b q) (ofTarget b q) l1 l2
    (R.source_ne p R.predictions) (R.target_ne p R.predictions)
  refine ⟨_, v, t, ls, lt, rfl, loss_adv nan base n g row red _ reg kw hkw b st st' st'' p f R q hg hq _ ?_, h1, h2, h3, h4, h5⟩
  simp only [withDomains]
  rw [hv]
  rfl

example := C107_mdd 0 (1 / 10) 4 (by norm_num) (by norm_num) (by norm_num) (by norm_num) (fun _ _ st _ => .ok (st, [])) demoBase "fc" 3
  (fun st f => .ok (st, (f.getD []).map (fun x => ![0, x 0]))) none none demoRow "mean" (demoKw "mean") rfl demoBatch () () () demoPreds demoFeats demo_ran
  [![0, 0], ![0, 2], ![0, 1], ![0, 4]] rfl rfl

/-! ### SPA -/

/-- C107 (SPA).  In epoch `e` of `maxEpochs` every step has the loss `mean source loss + reg_adv * tanh(5 e / maxEpochs) * (a + b) + reg_gsa * g + reg_nap * (e /
maxEpochs) * h`: `a`, `b` are the domain losses, `g` the distance of the spectra (Gaussian graphs, default Laplacian) and `h` the pseudo-label loss with five
neighbours, on this batch and the memory. -/
theorem C107_spa (nan : ℝ) (svals : ∀ n : Nat, (Fin n → Fin n → ℝ) → List ℝ) (e eps : ℝ) (ce : (Fin c → ℝ) → Nat → ℝ)
    (topk : List (Option ℝ) → Nat → List Nat) (tiny : ℝ) (dom : List ℝ → List ℝ → Py (Option ℝ)) (epoch : σ → Nat) (bank : σ → Bank ℝ d c)
    (make : Nat → Classifier σ ℝ (Fin d → ℝ)) (base : BaseModule σ ℝ α (Fin c → ℝ) (Fin d → ℝ)) (n : String) (regAdv regGsa regNap : ℝ)
    (cl : Classifier σ ℝ (Fin d → ℝ)) (nf : Option Nat) (maxEpochs : Nat) (hm : maxEpochs ≠ 0) (row : (Fin c → ℝ) → Y → ℝ) (red : String) (kw : Kw σ ℝ α Y)
    (hkw : kw.reduction = "mean") (b : List (Item ℝ α Y)) (st st' st'' : σ) (p : List (Fin c → ℝ)) (f : List (Fin d → ℝ)) (R : Ran base n b st st' p f)
    (q : List ℝ) (hg : cl st' (some f) = .ok (st'', q)) (hq : q.length = b.length) (x y g h : ℝ)
    (hx : dom (ofSource b q) (List.replicate (ofSource b q).length 0) = .ok (some x)) (hy : dom (ofTarget b q) (List.replicate (ofTarget b q).length 1) = .ok (some y))
    (hgd : DL.gda Real.sqrt Real.exp svals e eps "gauss" "laplac1" (fun i : Fin (ofSource b f).length => (ofSource b f)[i])
      (fun i : Fin (ofTarget b f).length => (ofTarget b f)[i]) = .ok g)
    (hh : DL.nap Real.sqrt ce topk tiny (ofTarget b f) (ofTarget b p) (bank st'').features (bank st'').outputs (ofTarget b (b.map (·.i))) 5 = .ok h) :
    ∃ T, spaNet nan Real.sqrt Real.exp svals e eps ce topk tiny dom epoch bank make base (some n) regAdv regGsa regNap (some cl) nf maxEpochs (.torch row red) kw = .ok T ∧
      T.loss (collate b) st = .ok (st'', some (sourceLoss row b p +
        (regAdv * Real.tanh (5 * (epoch st'' : ℝ) / maxEpochs) * (x + y) + regGsa * g + regNap * ((epoch st'' : ℝ) / maxEpochs) * h))) := by
  refine ⟨_, rfl, ?_⟩
  rw [show ∀ u : ℝ, sourceLoss row b p + u = sourceLoss row b p + 1 * u from fun u => by ring]
  refine loss_adv nan base n cl row red _ 1 kw hkw b st st' st'' p f R q hg hq _ ?_
  simp only [withDomains, withFeatures, Option.getD_some, Bank.nap]
  rw [hgd, hh]
  simp only [Except.map]
  rw [C96_loss dom regAdv regGsa regNap (epoch st'') maxEpochs hm _ _ x y g h hx hy]
  rfl

/-- Seven remembered rows, five of them outside the batch. -/
def demoBank : Bank ℝ 1 2 := ⟨[![0], ![1], ![2], ![3], ![4], ![5], ![6]], List.replicate 7 ![1, 0]⟩

example : ∃ topk g h, ∃ T, spaNet 0 Real.sqrt Real.exp (fun n _ => List.replicate n 1) 1 1 (fun _ _ => 1) topk 1 (fun _ _ => .ok (some 1)) (fun _ => 7) (fun _ => demoBank)
      (fun _ st _ => .ok (st, [])) demoBase (some "fc") 1 1 1 (some (fun st f => .ok (st, (f.getD []).map (fun _ => 1 / 2)))) none 10 (.torch demoRow "mean") (demoKw "mean") =
      .ok T ∧ T.loss (collate demoBatch) () = .ok ((), some (sourceLoss demoRow demoBatch demoPreds +
        (1 * Real.tanh (5 * ((7 : ℕ) : ℝ) / (10 : ℕ)) * (1 + 1) + 1 * g + 1 * (((7 : ℕ) : ℝ) / (10 : ℕ)) * h))) := by
  obtain ⟨topk, htop⟩ := DL.exists_topk
  obtain ⟨h, hh, -⟩ := C90_range (fun _ _ => 1) topk htop 1 1 one_pos [![(2 : ℝ)], ![4]] [![2, 0], ![4, 0]] demoBank.features demoBank.outputs [0, 1] 5 (by norm_num) rfl rfl
    (by simp [demoBank]) (by decide) (by
      intro o ho j
      rw [List.eq_of_mem_replicate ho]
      fin_cases j <;> norm_num) (by simp) (by norm_num)
  obtain ⟨g, hg⟩ : ∃ g, DL.gda Real.sqrt Real.exp (fun n _ => List.replicate n 1) 1 1 "gauss" "laplac1" (fun i : Fin 2 => [![(0 : ℝ)], ![1]][i])
      (fun i : Fin 2 => [![(2 : ℝ)], ![4]][i]) = .ok g := by
    unfold DL.gda
    have hl : ∀ X : Fin 2 → Fin 1 → ℝ, ∃ A L, DL.adj Real.sqrt Real.exp 1 "gauss" X = .ok A ∧ DL.laplacian Real.sqrt 1 "laplac1" A = .ok L := by
      intro X
      have hp : ∀ f : Fin 2 → ℝ, 0 < ∑ j, Real.exp (f j) + 1 := fun f => by positivity
      refine ⟨fun i j => Real.exp (-(1 / 2) * DL.dist Real.sqrt (X i) (X j) ^ 2 / (3 / 2) ^ 2), _, rfl, if_neg ?_⟩
      simp only [List.any_eq_true, decide_eq_true_eq, not_exists, not_and]
      exact fun i _ => (hp _).ne'
    obtain ⟨A, L, hA, hL⟩ := hl (fun i : Fin 2 => [![(0 : ℝ)], ![1]][i])
    obtain ⟨B, M, hB, hM⟩ := hl (fun i : Fin 2 => [![(2 : ℝ)], ![4]][i])
    rw [hA, hB]
    simp only [ok_bind, hL, hM, DL.subBroadcast]
    exact ⟨_, rfl⟩
  exact ⟨topk, g, h, C107_spa 0 _ 1 1 _ topk 1 _ (fun _ => 7) (fun _ => demoBank) _ demoBase "fc" 1 1 1 _ none 10 (by norm_num) demoRow "mean" (demoKw "mean") rfl demoBatch
    () () () demoPreds demoFeats demo_ran [1 / 2, 1 / 2, 1 / 2, 1 / 2] rfl rfl 1 1 g h rfl rfl hg hh⟩

/-! ### Reduction of the base criterion -/

omit [LinearOrder K] in
/-- C107.  The reduction: with `criterion__reduction="none"` every step of every method has the same loss as with the default "mean"; with "sum" the source losses
are added instead; another name is a `ValueError`. -/
theorem C107_reduction [CharZero K] (nan : K) (base : BaseModule σ K α P F) (n : String) (clf : Option (Classifier σ D F)) (row : P → Y → K) (red : String)
    (adapt : σ → AdaptArgs P D F Y → Py K) (reg : K) (kw : Kw σ K α Y) (b : List (Item K α Y)) (st st' st'' : σ) (p : List P)
    (f : List F) (R : Ran base n b st st' p f) (dp : Option (List D)) (hg : domainScores clf st' (some f) = .ok (st'', dp)) (hdl : ∀ l, dp = some l → l.length = b.length)
    (v : K) (hv : adapt st'' ⟨ofSource b (b.map (·.y)), ofSource b p, ofTarget b p, dp.map (ofSource b), dp.map (ofTarget b), some (ofSource b f),
      some (ofTarget b f), some (ofSource b (b.map (·.i))), some (ofTarget b (b.map (·.i)))⟩ = .ok v) :
    (domainAware nan base (some n) clf (.torch row red) adapt reg kw).loss (collate b) st =
      if kw.reduction = "mean" ∨ kw.reduction = "none" then .ok (st'', some (sourceLoss row b p + reg * v))
      else if kw.reduction = "sum" then .ok (st'', some ((List.zipWith row (ofSource b p) (ofSource b (b.map (·.y)))).sum + reg * v))
      else .error .valueError := by
  have h1 : (ofSource b p).length = nSource (b.map (·.d)) := length_sourceRows (by simpa using R.predictions.symm)
  have h2 : (ofSource b (b.map (·.y))).length = nSource (b.map (·.d)) := length_sourceRows (by simp)
  have hne := R.source_ne p R.predictions
  rw [loss_parts nan base n clf _ adapt reg kw b st st' st'' p f R dp hg hdl, hv]
  unfold BaseCrit.init BaseCrit.eval
  dsimp only
  rw [if_neg (by rw [h1, h2]; simp)]
  by_cases hn : kw.reduction = "none"
  · rw [if_pos hn, if_pos (Or.inr hn)]
    simp only [ok_bind, pure_ok, Loss.plus, lossMean]
    have hl : (List.zipWith row (ofSource b p) (ofSource b (b.map (·.y)))).length = (ofSource b p).length := by rw [List.length_zipWith, h1, h2, min_self]
    unfold sourceLoss
    generalize List.zipWith row (ofSource b p) (ofSource b (b.map (·.y))) = L at hl ⊢
    have hL : L ≠ [] := fun h => hne (List.length_eq_zero_iff.1 (by rw [← hl, h]; rfl))
    rw [if_neg (by simpa using hL), List.length_map, ← hl]
    have hsum : ∀ (l : List K) (a : K), (l.map (· + a)).sum = l.sum + (l.length : K) * a := by
      intro l a
      induction l with
      | nil => simp
      | cons x l ih => simp only [List.map_cons, List.sum_cons, ih, List.length_cons, Nat.cast_add, Nat.cast_one]; ring
    have h0 : (L.length : K) ≠ 0 := by exact_mod_cast (List.length_pos_of_ne_nil hL).ne'
    rw [hsum, add_div, mul_div_cancel_left₀ _ h0]
  · rw [if_neg hn]
    by_cases hm : kw.reduction = "mean"
    · rw [if_pos hm, if_pos (Or.inl hm), if_neg hne]; rfl
    · have hmn : ¬ (kw.reduction = "mean" ∨ kw.reduction = "none") := fun h => h.elim hm hn
      rw [if_neg hm, if_neg hmn]
      by_cases hs : kw.reduction = "sum"
      · rw [if_pos hs, if_pos hs]; rfl
      · rw [if_neg hs, if_neg hs]; rfl

example : (deepCoral 0 demoBase (some "fc") 3 false (.torch demoRow "mean") (demoKw "none")).loss (collate demoBatch) () = .ok ((), some ((1 : ℚ) + 3 * (9 / 16))) ∧
    (deepCoral 0 demoBase (some "fc") 3 false (.torch demoRow "mean") (demoKw "sum")).loss (collate demoBatch) () = .ok ((), some ((2 : ℚ) + 3 * (9 / 16))) ∧
    (deepCoral (0 : ℚ) demoBase (some "fc") 3 false (.torch demoRow "mean") (demoKw "avg")).loss (collate demoBatch) () = .error .valueError := by decide +kernel

omit [LinearOrder K] in
/-- C107 (counterexample).  The reduction the base criterion was built with is lost: a criterion with `reduction="sum"`, which would give `S` on the source rows of
a batch, gives `S / rows`; so a step changes when the same criterion is handed in as a function. -/
theorem C107_overwritten_counterexample (nan : K) (base : BaseModule σ K α P F) (n : String) (clf : Option (Classifier σ D F)) (row : P → Y → K)
    (adapt : σ → AdaptArgs P D F Y → Py K) (reg : K) (kw : Kw σ K α Y) (hkw : kw.reduction = "mean") (b : List (Item K α Y)) (st st' st'' : σ) (p : List P)
    (f : List F) (R : Ran base n b st st' p f) (dp : Option (List D)) (hg : domainScores clf st' (some f) = .ok (st'', dp)) (hdl : ∀ l, dp = some l → l.length = b.length)
    (v : K) (hv : adapt st'' ⟨ofSource b (b.map (·.y)), ofSource b p, ofTarget b p, dp.map (ofSource b), dp.map (ofTarget b), some (ofSource b f),
      some (ofTarget b f), some (ofSource b (b.map (·.i))), some (ofTarget b (b.map (·.i)))⟩ = .ok v) :
    (domainAware nan base (some n) clf (.torch row "sum") adapt reg kw).loss (collate b) st = .ok (st'', some (sourceLoss row b p + reg * v)) ∧
    (domainAware nan base (some n) clf (.other fun p y => (BaseCrit.torch row "sum").eval nan p y) adapt reg kw).loss (collate b) st =
      .ok (st'', some ((List.zipWith row (ofSource b p) (ofSource b (b.map (·.y)))).sum + reg * v)) := by
  have h1 : (ofSource b p).length = nSource (b.map (·.d)) := length_sourceRows (by simpa using R.predictions.symm)
  have h2 : (ofSource b (b.map (·.y))).length = nSource (b.map (·.d)) := length_sourceRows (by simp)
  constructor
  · rw [loss_parts nan base n clf _ adapt reg kw b st st' st'' p f R dp hg hdl, hv, hkw, eval_mean nan row "sum" base n b st st' p f R]
    rfl
  · rw [loss_parts nan base n clf _ adapt reg kw b st st' st'' p f R dp hg hdl, hv]
    unfold BaseCrit.init BaseCrit.eval
    dsimp only
    rw [if_neg (by rw [h1, h2]; simp), if_neg (by decide), if_neg (by decide), if_pos rfl]
    rfl

example : (deepCoral 0 demoBase (some "fc") 3 false (.torch demoRow "sum") (demoKw "mean")).loss (collate demoBatch) () = .ok ((), some ((1 : ℚ) + 3 * (9 / 16))) := by
  decide +kernel

/-! ### Missing arguments, degenerate batches -/

/-- C107.  Without domain classifier the sizes are required: DANN and CDAN (and SPA, `C107_missing_spa`) raise `ValueError`; MDD raises `ValueError` without `num_features` and a `TypeError`
without `n_classes`. -/
theorem C107_missing [NeZero c] (nan : K) (ex lg : K → K) (s gamma reg : K) (dom : List K → List K → Py (Option K)) (mk : Nat → Classifier σ K F)
    (mk2 : Nat → Nat → Classifier σ (Fin c → K) F) (base : BaseModule σ K α P F) (base2 : BaseModule σ K α (Fin c → K) F) (layer : Option String) (maxF : Nat)
    (nf nc : Option Nat) (crit : BaseCrit K P Y) (crit2 : BaseCrit K (Fin c → K) Y) (kw : Kw σ K α Y) :
    ((∃ T, dannNet nan dom mk base layer reg none nf crit kw = .ok T) ↔ nf ≠ none) ∧
    (nf = none → dannNet nan dom mk base layer reg none nf crit kw = .error .valueError) ∧
    ((∃ T, cdanNet nan dom mk base layer reg maxF none nf nc crit kw = .ok T) ↔ nf ≠ none ∧ nc ≠ none) ∧
    (nf = none ∨ nc = none → cdanNet nan dom mk base layer reg maxF none nf nc crit kw = .error .valueError) ∧
    ((∃ T, mddNet nan ex lg s mk2 base2 layer reg gamma none nf nc crit2 kw = .ok T) ↔ nf ≠ none ∧ nc ≠ none) ∧
    (nf = none → mddNet nan ex lg s mk2 base2 layer reg gamma none nf nc crit2 kw = .error .valueError) ∧
    (nf ≠ none → nc = none → mddNet nan ex lg s mk2 base2 layer reg gamma none nf nc crit2 kw = .error .typeError) := by
  cases nf <;> cases nc <;>
    simp [dannNet, cdanNet, mddNet, chooseClassifier, chooseCdan, chooseDiscriminator, Adv.cdanSize, ok_bind, err_bind, pure_ok, Except.map]

example : mddNet (c := 2) 0 (fun x => x) (fun x => x) (1 / 10) (fun _ _ st _ => .ok (st, [])) (demoBase (K := ℚ)) (some "fc") 1 4 none (some 10) none (.torch demoRow "mean")
    (demoKw "mean") = .error .typeError := rfl

/-- C107.  SPA without domain classifier needs `num_features`. -/
theorem C107_missing_spa (nan : K) (sqrt ex : K → K) (svals : ∀ n : Nat, (Fin n → Fin n → K) → List K) (e eps : K) (ce : (Fin c → K) → Nat → K)
    (topk : List (Option K) → Nat → List Nat) (tiny : K) (dom : List K → List K → Py (Option K)) (epoch : σ → Nat) (bank : σ → Bank K d c)
    (make : Nat → Classifier σ K (Fin d → K)) (base : BaseModule σ K α (Fin c → K) (Fin d → K)) (layer : Option String) (regAdv regGsa regNap : K)
    (nf : Option Nat) (maxEpochs : Nat) (crit : BaseCrit K (Fin c → K) Y) (kw : Kw σ K α Y) :
    ((∃ T, spaNet nan sqrt ex svals e eps ce topk tiny dom epoch bank make base layer regAdv regGsa regNap none nf maxEpochs crit kw = .ok T) ↔ nf ≠ none) ∧
    (nf = none → spaNet nan sqrt ex svals e eps ce topk tiny dom epoch bank make base layer regAdv regGsa regNap none nf maxEpochs crit kw = .error .valueError) := by
  cases nf <;> simp [spaNet, chooseClassifier, ok_bind, err_bind, pure_ok]

/-- C107 (counterexample).  A step of DeepCoral with a single row on one side is NaN: the loss has no value independent of how NaN is represented, whatever the
features. -/
theorem C107_single_counterexample {K : Type} [Field K] [LinearOrder K] [IsStrictOrderedRing K] (nan : K) (base : BaseModule σ K α P (Fin d → K)) (n : String) (reg : K) (ac : Bool)
    (row : P → Y → K) (red : String) (kw : Kw σ K α Y) (hkw : kw.reduction = "mean") (b : List (Item K α Y)) (st st' : σ) (p : List P) (f : List (Fin d → K))
    (R : Ran base n b st st' p f) (hd : 0 < d) (h1 : nSource (b.map (·.d)) = 1 ∨ nTarget (b.map (·.d)) = 1) :
    (deepCoral nan base (some n) reg ac (.torch row red) kw).loss (collate b) st = .ok (st', some (sourceLoss row b p + reg * nan)) := by
  refine loss_plain nan base n row red _ reg kw hkw b st st' p f R nan ?_
  simp only [withFeatures]
  rw [(C86_errors ac (ofSource b f) (ofTarget b f)).2 hd (by
    unfold ofSource ofTarget
    rw [length_sourceRows (by simpa using R.features.symm), length_targetRows (by simpa using R.features.symm)]
    omega)]
  rfl

example (nan : ℚ) : (deepCoral nan demoBase (some "fc") 3 false (.torch demoRow "mean") (demoKw "mean")).loss (collate [⟨0, 1, 0, none, 0⟩, ⟨2, -2, 0, none, -1⟩]) () =
    .ok ((), some (sourceLoss demoRow [⟨0, 1, 0, none, 0⟩, ⟨2, -2, 0, none, -1⟩] [![0, 0], ![2, 0]] + 3 * nan)) :=
  C107_single_counterexample nan demoBase "fc" 3 false _ _ _ rfl _ _ _ [![0, 0], ![2, 0]] [![0], ![2]]
    ⟨⟨_, rfl, rfl⟩, rfl, rfl, by simp, by decide, by decide⟩ (by norm_num) (Or.inl (by decide))

/-! ### Whole trainings -/

theorem alternating (b : Nat) (L : List Int) (hl : L.length = 2 * b)
    (h : ∀ j < b, ∃ dp dq : Int, L[2 * j]? = some dp ∧ 0 ≤ dp ∧ L[2 * j + 1]? = some dq ∧ dq < 0) : nSource L = b ∧ nTarget L = b := by
  induction b generalizing L with
  | zero =>
    obtain rfl : L = [] := List.length_eq_zero_iff.1 (by simpa using hl)
    simp [nSource, nTarget]
  | succ b ih =>
    match L, hl with
    | x :: y :: L, hl =>
      obtain ⟨dp, dq, e1, p1, e2, p2⟩ := h 0 (by omega)
      simp only [Nat.mul_zero, List.getElem?_cons_zero, Option.some.injEq, Nat.zero_add, List.getElem?_cons_succ] at e1 e2
      subst e1; subst e2
      obtain ⟨a1, a2⟩ := ih L (by simp only [List.length_cons] at hl; omega) (fun j hj => by
        obtain ⟨dp, dq, e1, p1, e2, p2⟩ := h (j + 1) (by omega)
        rw [show 2 * (j + 1) = 2 * j + 1 + 1 by ring] at e1 e2
        exact ⟨dp, dq, e1, p1, e2, p2⟩)
      unfold nSource nTarget at *
      simp only [List.countP_cons, p1, p2, decide_true, if_true, a1, a2, decide_eq_true_eq]
      constructor
      · rw [if_neg (by omega)]
      · rw [if_neg (by omega)]
    | [x], hl => simp only [List.length_cons, List.length_nil] at hl; omega
    | [], hl => simp only [List.length_nil] at hl; omega

omit [Field K] [LinearOrder K] in
theorem ranked_getElem? (l : List (Rec K α Y)) (i : Nat) (d : Int) (h : (l.map Rec.d)[i]? = some d) : ∃ a, (ranked l)[i]? = some a ∧ a.d = d := by
  have h2 : ((ranked l).map (·.d))[i]? = some d := by rw [ranked, rankedFrom_d]; exact h
  rw [List.getElem?_map, Option.map_eq_some_iff] at h2
  exact h2

omit [Field K] [LinearOrder K] in
/-- The rows of a balanced batch: as many source as target rows, none with a weight. -/
theorem balanced_rows (l : List (Rec K α Y)) (hw : ∀ r ∈ l, r.w = none) (b : Nat) (c : List Nat) (hc : IsBalanced (l.map Rec.d) b c) :
    nSource ((c.filterMap (fun i => (ranked l)[i]?)).map (·.d)) = b ∧ nTarget ((c.filterMap (fun i => (ranked l)[i]?)).map (·.d)) = b ∧
      ∀ a ∈ c.filterMap (fun i => (ranked l)[i]?), a.w = none := by
  have hall : ∀ i ∈ c, ∃ d, (l.map Rec.d)[i]? = some d := by
    intro i hi
    obtain ⟨k, hk, rfl⟩ := List.mem_iff_getElem.1 hi
    obtain ⟨p, q, dp, dq, e1, e2, e3, -, e4, -⟩ := hc.2 (k / 2) (by have := hc.1; omega)
    rcases Nat.mod_two_eq_zero_or_one k with h | h
    · rw [show 2 * (k / 2) = k by omega, List.getElem?_eq_getElem hk, Option.some.injEq] at e1
      exact ⟨dp, by rw [e1]; exact e3⟩
    · rw [show 2 * (k / 2) + 1 = k by omega, List.getElem?_eq_getElem hk, Option.some.injEq] at e2
      exact ⟨dq, by rw [e2]; exact e4⟩
  have hmap : (c.filterMap (fun i => (ranked l)[i]?)).map (·.d) = c.filterMap (fun i => (l.map Rec.d)[i]?) := by
    rw [List.map_filterMap]
    congr 1
    funext i
    rw [← List.getElem?_map, ranked, rankedFrom_d]
  have hget : ∀ (c : List Nat), (∀ i ∈ c, ∃ d, (l.map Rec.d)[i]? = some d) → (c.filterMap (fun i => (l.map Rec.d)[i]?)).length = c.length ∧
      ∀ k p : Nat, c[k]? = some p → (c.filterMap (fun i => (l.map Rec.d)[i]?))[k]? = (l.map Rec.d)[p]? := by
    intro c
    induction c with
    | nil => simp
    | cons i c ih =>
      intro h
      obtain ⟨d, hd⟩ := h i (by simp)
      obtain ⟨h1, h2⟩ := ih (fun j hj => h j (by simp [hj]))
      rw [List.filterMap_cons, hd]
      refine ⟨by simp only [List.length_cons, h1], fun k p hk => ?_⟩
      cases k with
      | zero => simp only [List.getElem?_cons_zero, Option.some.injEq] at hk ⊢; rw [← hk, hd]
      | succ k => simp only [List.getElem?_cons_succ] at hk ⊢; exact h2 k p hk
  obtain ⟨g1, g2⟩ := hget c hall
  rw [hmap]
  obtain ⟨a1, a2⟩ := alternating b _ (by rw [g1, hc.1]) (fun j hj => by
    obtain ⟨p, q, dp, dq, e1, e2, e3, p1, e4, p2⟩ := hc.2 j hj
    exact ⟨dp, dq, by rw [g2 _ _ e1, e3], p1, by rw [g2 _ _ e2, e4], p2⟩)
  refine ⟨a1, a2, fun a ha => ?_⟩
  obtain ⟨i, -, hi⟩ := List.mem_filterMap.1 ha
  have hgen : ∀ (before : List Int) (l : List (Rec K α Y)), (∀ r ∈ l, r.w = none) → ∀ a ∈ rankedFrom before l, a.w = none := by
    intro before l
    induction l generalizing before with
    | nil => simp [rankedFrom]
    | cons r l ih =>
      intro h a ha
      rw [rankedFrom, List.mem_cons] at ha
      rcases ha with rfl | ha
      · exact h r (by simp)
      · exact ih _ (fun r hr => h r (by simp [hr])) a ha
  exact hgen [] l hw a (List.mem_of_getElem? hi)

/-- Trainings with steps that agree on all batches are equal. -/
theorem batchFit_congr {σ β : Type} (items : List β) (begin : σ → Py σ) (cut : σ → List (List Nat)) (after : σ → σ) (f g : List β → σ → Py σ)
    (h : ∀ st, ∀ c ∈ cut st, ∀ st', f (c.filterMap (fun i => items[i]?)) st' = g (c.filterMap (fun i => items[i]?)) st') (n : Nat) (st : σ) :
    batchFit items begin cut after f n st = batchFit items begin cut after g n st := by
  have hf : ∀ (cs : List (List Nat)), (∀ c ∈ cs, ∀ st', f (c.filterMap (fun i => items[i]?)) st' = g (c.filterMap (fun i => items[i]?)) st') → ∀ st,
      (cs.map (List.filterMap (fun i => items[i]?))).foldlM (fun st c => f c st) st = (cs.map (List.filterMap (fun i => items[i]?))).foldlM (fun st c => g c st) st := by
    intro cs
    induction cs with
    | nil => intro _ st; rfl
    | cons c cs ih =>
      intro hc st
      rw [List.map_cons, List.foldlM_cons, List.foldlM_cons, hc c (by simp)]
      congr 1
      funext st
      exact ih (fun c' h' => hc c' (by simp [h'])) st
  induction n generalizing st with
  | zero => rfl
  | succ n ih =>
    rw [batchFit, batchFit]
    congr 1
    funext st'
    rw [hf _ (h st')]
    congr 1
    funext st''
    exact ih st''

/-- C107 (DeepCoral, whole training).  Training DeepCoral on unweighted rows with `b ≥ 2` rows per side and batch is gradient training of `mean source loss + reg *
‖C_s - C_t‖² / (4 d²)`: every epoch starts with the given callback, then takes the given optimiser's step on this objective for each balanced batch, followed by
the callback after a batch. -/
theorem C107_training {K : Type} [Field K] [LinearOrder K] [IsStrictOrderedRing K] [DecidableEq Y] (nan : K) (noLabel : Y) (s : DS K α Y) (l : List (Rec K α Y)) (hs : Holds noLabel s l)
    (hw : ∀ r ∈ l, r.w = none) (base : BaseModule σ K α P (Fin d → K)) (hd : 0 < d) (n : String) (net : σ → List α → σ × List P × List (Fin d → K))
    (hnet : ∀ st X, (∃ layers, base st X none = .ok ((net st X).1, (net st X).2.1, layers) ∧ layers n = some (net st X).2.2) ∧
      (net st X).2.1.length = X.length ∧ (net st X).2.2.length = X.length)
    (reg : K) (ac : Bool) (row : P → Y → K) (red : String) (kw : Kw σ K α Y) (hkw : kw.reduction = "mean")
    (shs : σ → Nat → Nat → (Nat → List Nat) × (Nat → List Nat) × σ)
    (hP : ∀ st k m i, ((shs st k m).1 i).Perm (List.range k)) (hN : ∀ st k m i, ((shs st k m).2.1 i).Perm (List.range m))
    (mode : String) (hmode : mode ∈ ["max", "min", "source", "target"]) (b : Nat) (hb : 2 ≤ b)
    (h1 : 0 < nSource (l.map Rec.d)) (h2 : 0 < nTarget (l.map Rec.d)) :
    ∃ cut : σ → List (List Nat), (∀ st, ∀ c ∈ cut st, IsBalanced (l.map Rec.d) b c) ∧
      ∀ epochs st, (deepCoral nan base (some n) reg ac (.torch row red) kw).fitBalanced shs mode b epochs s st =
        batchFit (ranked l) (fun st => kw.epochBegin st s) cut (fun st => (shs st (nSource (l.map Rec.d)) (nTarget (l.map Rec.d))).2.2)
          (fun c st => do
            let st ← kw.opt st (fun st => .ok ((net st (c.map (·.x))).1, some (sourceLoss row c (net st (c.map (·.x))).2.1 +
              reg * ((∑ j, ∑ k, (sampleCov (ofSource c (net st (c.map (·.x))).2.2) j k - sampleCov (ofTarget c (net st (c.map (·.x))).2.2) j k) ^ 2) / (4 * (d : K) ^ 2)))))
            kw.batchEnd st (collate c)) epochs st := by
  obtain ⟨N, cut, -, -, hcut, hfit⟩ := C105_batches noLabel s l hs (deepCoral nan base (some n) reg ac (.torch row red) kw) shs hP hN mode hmode b (by omega) h1 h2
  refine ⟨cut, fun st => (hcut st).2.1, fun epochs st => ?_⟩
  rw [hfit]
  refine batchFit_congr _ _ _ _ _ _ (fun st c hc st' => ?_) _ _
  obtain ⟨n1, n2, n3⟩ := balanced_rows l hw b c ((hcut st).2.1 c hc)
  generalize c.filterMap (fun i => (ranked l)[i]?) = B at n1 n2 n3 ⊢
  have hloss : (deepCoral nan base (some n) reg ac (.torch row red) kw).loss (collate B) =
      fun st => .ok ((net st (B.map (·.x))).1, some (sourceLoss row B (net st (B.map (·.x))).2.1 +
              reg * ((∑ j, ∑ k, (sampleCov (ofSource B (net st (B.map (·.x))).2.2) j k - sampleCov (ofTarget B (net st (B.map (·.x))).2.2) j k) ^ 2) / (4 * (d : K) ^ 2)))) := by
    funext st
    obtain ⟨hr, hp, hf⟩ := hnet st (B.map (·.x))
    obtain ⟨v, hv, h4⟩ := C107_deepcoral nan base n reg ac row red kw hkw B st _ _ _ ⟨hr, by simpa using hp, by simpa using hf, n3, by omega, by omega⟩ hd
      (by omega) (by omega)
    have hd0 : (4 * (d : K) ^ 2) ≠ 0 := by positivity
    rw [hv, ← h4, mul_div_cancel_left₀ _ hd0]
  rw [hloss]
  rfl

/-- The rows of `demoBatch` as a data set. -/
def demoData : DS ℚ ℚ Int := ⟨[0, 2, 1, 4], [0, -1, 1, -1], [1, -2, 1, -2], [], [true, false, true, false], false, [0, 0, 1, 1]⟩

theorem demo_holds : Holds (-1) demoData [⟨0, 0, 1, none⟩, ⟨2, -1, -2, none⟩, ⟨1, 1, 1, none⟩, ⟨4, -1, -2, none⟩] :=
  ⟨rfl, rfl, rfl, by decide +kernel, Or.inl ⟨rfl, rfl, by simp⟩, by change [0, 0, 1, 1] = ranksFrom [] [1, -2, 1, -2]; decide +kernel⟩

example (reg : ℚ) : ∃ cut : Unit → List (List Nat), (∀ st, ∀ c ∈ cut st, IsBalanced [1, -2, 1, -2] 2 c) :=
  let ⟨cut, h, _⟩ := C107_training (0 : ℚ) (-1) demoData _ demo_holds (by simp) demoBase (by norm_num) "fc"
    (fun st X => (st, X.map (fun x => ![x, 0]), X.map (fun x => ![x]))) (fun st X => ⟨⟨_, rfl, rfl⟩, by simp, by simp⟩) reg false demoRow "mean" (demoKw "mean") rfl
    (fun st k m => (fun _ => List.range k, fun _ => List.range m, st)) (fun _ _ _ _ => .refl _) (fun _ _ _ _ => .refl _) "max" (by decide) 2 (by norm_num)
    (by decide) (by decide)
  ⟨cut, h⟩

end Skada

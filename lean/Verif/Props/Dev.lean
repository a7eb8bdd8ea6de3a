/-
C128: `DeepEmbeddedValidation` as a whole.
-/
import Verif.Model.Dev
import Verif.Props.PipelineRun
import Verif.Props.Scorers2

namespace Skada
open Np Spec

section Dev
set_option linter.unusedSectionVars false
variable {α ρ σ : Type}
variable {K : Type} [Field K] [LinearOrder K] [IsStrictOrderedRing K]

/-- The entries of `l` at the given positions. -/
def Spec.rowsAt {γ : Type} (l : List γ) (idx : List Nat) : List γ := idx.filterMap (fun i => l[i]?)

/-- Sample covariance, with `n - 1`. -/
def Spec.covar (a b : List K) : K := (List.zipWith (fun x y => (x - avg a) * (y - avg b)) a b).sum / ((a.length : K) - 1)

/-- The control-variate estimate of the mean of `w e` with the control variate `w` of expected value one. -/
def Spec.controlVariate (w e : List K) : K :=
  avg (List.zipWith (· * ·) w e) + (if covar w w = 0 then 0 else -covar (List.zipWith (· * ·) w e) w / covar w w) * (avg w - 1)

theorem take_rowsAt {γ : Type} {l : List γ} {idx : List Nat} (h : ∀ i ∈ idx, i < l.length) : take l idx = .ok (rowsAt l idx) := by
  induction idx with
  | nil => rfl
  | cons i idx ih =>
    have hi := h i List.mem_cons_self
    simp only [take, rowsAt, List.filterMap_cons, List.getElem?_eq_getElem hi]
    rw [ih (fun j hj => h j (List.mem_cons_of_mem _ hj))]
    rfl

theorem length_rowsAt {γ : Type} {l : List γ} {idx : List Nat} (h : ∀ i ∈ idx, i < l.length) : (rowsAt l idx).length = idx.length := by
  induction idx with
  | nil => rfl
  | cons i idx ih =>
    have hi := h i List.mem_cons_self
    have := ih (fun j hj => h j (List.mem_cons_of_mem _ hj))
    simp only [rowsAt, List.filterMap_cons, List.getElem?_eq_getElem hi, List.length_cons] at this ⊢
    omega

theorem rowsAt_range {γ : Type} (l : List γ) : rowsAt l (List.range l.length) = l := by
  have h := length_rowsAt (l := l) (idx := List.range l.length) (fun i hi => List.mem_range.1 hi)
  have e : take l (List.range l.length) = .ok (rowsAt l (List.range l.length)) := take_rowsAt (fun i hi => List.mem_range.1 hi)
  rw [take_ok_iff] at e
  apply List.ext_getElem
  · rw [h, List.length_range]
  · intro i h1 h2
    have := (List.forall₂_iff_get.1 e).2 i (by simpa using h2) h1
    simp only [List.get_eq_getElem, List.getElem_range] at this
    rw [List.getElem?_eq_getElem h2] at this
    exact (Option.some.inj this).symm

/-- The run up to the features: with valid arguments and a split that leaves training rows. -/
theorem dev_run (gib : Bool) (est : Score.DevEst α ρ) (feat : List α → Py (List α)) (proba : List α → List Int → Py (List ρ))
    (hest : est.parts = .ok (feat, proba)) (fitDC : List α → List Nat → Py (α → K × K)) (loss : List Num → List ρ → Py (Score.Losses K))
    (nTest : Nat → Nat) (perm : Nat → List Nat) (X : List α) (y : List Num) (sd : List Int) (hX : X ≠ []) (hy : y.length = X.length)
    (hs : sd.length = X.length) (hp : ∀ i ∈ perm (nSource sd), i < nSource sd) (hn : nTest (nSource sd) < nSource sd) :
    Score.dev gib est fitDC loss nTest perm X y (.vec sd) = (do
      let tr := ((perm (nSource sd)).drop (nTest (nSource sd))).take (nSource sd - nTest (nSource sd))
      let va := (perm (nSource sd)).take (nTest (nSource sd))
      let Ftr ← feat (rowsAt (sourceRows sd X) tr)
      let Fv ← feat (rowsAt (sourceRows sd X) va)
      let Ft ← feat (targetRows sd X)
      Score.devOnFeatures gib fitDC loss Ftr Fv Ft (rowsAt (sourceRows sd y) va)
        (proba (rowsAt (sourceRows sd X) va) (rowsAt (sourceRows sd sd) va))) := by
  have l1 : (sourceRows sd X).length = nSource sd := length_sourceRows hs
  have l2 : (sourceRows sd y).length = nSource sd := length_sourceRows (hs.trans hy.symm)
  have l3 : (sourceRows sd sd).length = nSource sd := length_sourceRows rfl
  have hva : ∀ i ∈ (perm (nSource sd)).take (nTest (nSource sd)), i < nSource sd := fun i hi => hp i (List.mem_of_mem_take hi)
  have htr : ∀ i ∈ ((perm (nSource sd)).drop (nTest (nSource sd))).take (nSource sd - nTest (nSource sd)), i < nSource sd :=
    fun i hi => hp i (List.mem_of_mem_drop (List.mem_of_mem_take hi))
  unfold Score.dev
  rw [hest]
  simp only [ok_bind]
  rw [checkXy_vec hX hy hs]
  simp only [ok_bind]
  rw [extractSourceIndices_ok (sd_ne_nil hX hs)]
  simp only [ok_bind]
  rw [boolIndex_source hs.symm, boolIndex_source (hy.trans hs.symm), boolIndex_source rfl, boolIndex_target hs.symm]
  simp only [ok_bind, l1, Score.trainTest]
  rw [if_neg (by omega)]
  simp only [ok_bind]
  rw [take_rowsAt (by rw [l1]; exact htr), take_rowsAt (by rw [l1]; exact hva), take_rowsAt (by rw [l2]; exact hva),
    take_rowsAt (by rw [l3]; exact hva)]
  simp only [ok_bind]

/-- C128 (the split). For a permutation of the source rows, every source row is either a training or a validation row, and none is both: together they
are the source rows; `n_test` of them are validation rows. -/
theorem C128_split {γ : Type} (l : List γ) (nTest : Nat) (perm : List Nat) (hp : perm.Perm (List.range l.length)) (hn : nTest < l.length) :
    ∃ tr va, Score.trainTest l.length nTest perm = .ok (tr, va) ∧ (va ++ tr).Perm (List.range l.length) ∧ va.length = nTest ∧
      (rowsAt l va ++ rowsAt l tr).Perm l ∧ take l va = .ok (rowsAt l va) ∧ take l tr = .ok (rowsAt l tr) := by
  have hlen : perm.length = l.length := by rw [hp.length_eq, List.length_range]
  have hcat : perm.take nTest ++ (perm.drop nTest).take (l.length - nTest) = perm := by
    rw [List.take_of_length_le (l := perm.drop nTest) (by rw [List.length_drop]; omega), List.take_append_drop]
  have hmem : ∀ i ∈ perm, i < l.length := fun i hi => List.mem_range.1 (hp.mem_iff.1 hi)
  refine ⟨(perm.drop nTest).take (l.length - nTest), perm.take nTest, ?_, ?_, ?_, ?_, ?_, ?_⟩
  · unfold Score.trainTest
    rw [if_neg (by omega)]
  · rw [hcat]; exact hp
  · rw [List.length_take]; omega
  · unfold rowsAt
    rw [← List.filterMap_append, hcat]
    refine (hp.filterMap _).trans ?_
    have := rowsAt_range l
    unfold rowsAt at this
    rw [this]
  · exact take_rowsAt (fun i hi => hmem i (List.mem_of_mem_take hi))
  · exact take_rowsAt (fun i hi => hmem i (List.mem_of_mem_drop (List.mem_of_mem_take hi)))

theorem devScore_column (gib : Bool) (w e : List K) (hl : w.length = e.length) (hn : 2 ≤ w.length) :
    Score.devScore gib w (.column e) = .ok (some (if gib then controlVariate w e else -controlVariate w e)) := by
  unfold Score.devScore
  rw [if_neg (by simpa [Score.Losses.len] using hl)]
  simp only [Score.weightedColumns, List.cons_append, List.nil_append, List.flatten_cons, List.flatten_nil, List.append_nil]
  rw [if_neg (by omega), ← signed_eq]
  congr 2
  have hc : ∀ a b : List K, Score.cov a b = covar a b := fun _ _ => rfl
  have hm : ∀ a : List K, Score.mean a = avg a := fun _ => rfl
  simp only [hc, hm, controlVariate]
  congr 1
  ring

/-- C128 (what is computed, for losses in a column). Let the features of the training rows, of the validation rows and of the target rows be `Ftr`, `Fv`,
`Ft`; let the domain classifier, trained on the training rows as class 1 and the target rows as class 0, give the validation rows positive source
probabilities. Then the score is the control-variate estimate from the losses of the validation rows alone, each with the weight
`n_train p_target / (n_target p_source)` of its own row. For one-dimensional losses see C80. -/
theorem C128_score_partial (gib : Bool) (est : Score.DevEst α ρ) (feat : List α → Py (List α)) (proba : List α → List Int → Py (List ρ))
    (hest : est.parts = .ok (feat, proba)) (fitDC : List α → List Nat → Py (α → K × K)) (loss : List Num → List ρ → Py (Score.Losses K))
    (nTest : Nat → Nat) (perm : Nat → List Nat) (X : List α) (y : List Num) (sd : List Int) (hX : X ≠ []) (hy : y.length = X.length)
    (hs : sd.length = X.length) (tr va : List Nat) (hperm : perm (nSource sd) = va ++ tr) (hp : (va ++ tr).Perm (List.range (nSource sd)))
    (hva : va.length = nTest (nSource sd)) (h2 : 2 ≤ va.length) (htr : tr ≠ []) (Ftr Fv Ft : List α)
    (h3 : feat (rowsAt (sourceRows sd X) tr) = .ok Ftr) (h4 : feat (rowsAt (sourceRows sd X) va) = .ok Fv)
    (h5 : feat (targetRows sd X) = .ok Ft) (h6 : Fv.length = va.length) (h7 : Ft ≠ []) (dc : α → K × K)
    (h8 : fitDC (Ftr ++ Ft) (Ftr.map (fun _ => 1) ++ Ft.map (fun _ => 0)) = .ok dc) (h9 : ∀ x ∈ Fv, 0 < (dc x).2) (P : List ρ)
    (h10 : proba (rowsAt (sourceRows sd X) va) (rowsAt (sourceRows sd sd) va) = .ok P) (e : List K)
    (h11 : loss (rowsAt (sourceRows sd y) va) P = .ok (.column e)) (h12 : e.length = va.length) :
    Score.dev gib est fitDC loss nTest perm X y (.vec sd) = .ok (some ((fun s => if gib then s else -s)
      (controlVariate (Fv.map (fun x => (Ftr.length * (dc x).1) / (Ft.length * (dc x).2))) e))) := by
  have hlen : va.length + tr.length = nSource sd := by
    have := hp.length_eq
    rwa [List.length_append, List.length_range] at this
  have hpos := List.length_pos_iff.2 htr
  have hn : nTest (nSource sd) < nSource sd := by omega
  rw [dev_run gib est feat proba hest fitDC loss nTest perm X y sd hX hy hs
    (fun i hi => List.mem_range.1 (hp.mem_iff.1 (hperm ▸ hi))) hn]
  have e1 : (perm (nSource sd)).take (nTest (nSource sd)) = va := by rw [hperm, ← hva, List.take_left]
  have e2 : ((perm (nSource sd)).drop (nTest (nSource sd))).take (nSource sd - nTest (nSource sd)) = tr := by
    rw [hperm, ← hva, List.drop_left, List.take_of_length_le (by omega)]
  simp only [e1, e2, h3, h4, h5, ok_bind, h10]
  unfold Score.devOnFeatures
  rw [← List.map_const', ← List.map_const', h8]
  simp only [ok_bind]
  rw [if_neg (by simpa using h7)]
  simp only [ok_bind, h11]
  rw [if_neg]
  · have hw : Score.devWeights Ftr.length Ft.length ((Fv.map dc).map Prod.fst) ((Fv.map dc).map Prod.snd)
        = Fv.map (fun x => (Ftr.length * (dc x).1) / (Ft.length * (dc x).2)) := by
      unfold Score.devWeights
      rw [List.map_map, List.map_map, zipWith_map_self]
      apply List.map_congr_left
      intro x _
      simp only [Function.comp]
      rw [div_mul_eq_mul_div, div_div]
    rw [hw, devScore_column gib _ e (by rw [List.length_map]; omega) (by rw [List.length_map]; omega)]
  · rw [List.any_map, List.any_eq_true]
    rintro ⟨x, hx, h⟩
    have := h9 x hx
    simp only [Function.comp, decide_eq_true_eq] at h
    exact absurd h this.ne'

/-- C128 (true density ratios). If the domain classifier knows the densities `ps` of the training features and `pt` of the target features (it returns the
posterior probabilities for `n_train` source and `n_target` target rows), the weights are exactly `pt / ps`. -/
theorem C128_ratio_partial (gib : Bool) (est : Score.DevEst α ρ) (feat : List α → Py (List α)) (proba : List α → List Int → Py (List ρ))
    (hest : est.parts = .ok (feat, proba)) (fitDC : List α → List Nat → Py (α → K × K)) (loss : List Num → List ρ → Py (Score.Losses K))
    (nTest : Nat → Nat) (perm : Nat → List Nat) (X : List α) (y : List Num) (sd : List Int) (hX : X ≠ []) (hy : y.length = X.length)
    (hs : sd.length = X.length) (tr va : List Nat) (hperm : perm (nSource sd) = va ++ tr) (hp : (va ++ tr).Perm (List.range (nSource sd)))
    (hva : va.length = nTest (nSource sd)) (h2 : 2 ≤ va.length) (Ftr Fv Ft : List α)
    (h3 : feat (rowsAt (sourceRows sd X) tr) = .ok Ftr) (h4 : feat (rowsAt (sourceRows sd X) va) = .ok Fv)
    (h5 : feat (targetRows sd X) = .ok Ft) (h6 : Fv.length = va.length) (h7 : Ft ≠ []) (h7' : Ftr ≠ []) (h7'' : Ftr.length = tr.length)
    (ps pt : α → K) (hps : ∀ x, 0 < ps x) (hpt : ∀ x, 0 ≤ pt x)
    (h8 : fitDC (Ftr ++ Ft) (Ftr.map (fun _ => 1) ++ Ft.map (fun _ => 0))
      = .ok (fun x => (Ft.length * pt x / (Ftr.length * ps x + Ft.length * pt x), Ftr.length * ps x / (Ftr.length * ps x + Ft.length * pt x))))
    (P : List ρ) (h10 : proba (rowsAt (sourceRows sd X) va) (rowsAt (sourceRows sd sd) va) = .ok P) (e : List K)
    (h11 : loss (rowsAt (sourceRows sd y) va) P = .ok (.column e)) (h12 : e.length = va.length) :
    Score.dev gib est fitDC loss nTest perm X y (.vec sd)
      = .ok (some ((fun s => if gib then s else -s) (controlVariate (Fv.map (fun x => pt x / ps x)) e))) := by
  have p1 : (0 : K) < Ftr.length := by exact_mod_cast List.length_pos_iff.2 h7'
  have p2 : (0 : K) < Ft.length := by exact_mod_cast List.length_pos_iff.2 h7
  have htr : tr ≠ [] := by
    rintro rfl
    exact h7' (List.length_eq_zero_iff.1 h7'')
  have hden : ∀ x, 0 < (Ftr.length : K) * ps x + Ft.length * pt x := fun x => by
    have := mul_pos p1 (hps x)
    have := mul_nonneg p2.le (hpt x)
    linarith
  rw [C128_score_partial gib est feat proba hest fitDC loss nTest perm X y sd hX hy hs tr va hperm hp hva h2 htr Ftr Fv Ft h3 h4 h5 h6 h7 _ h8
    (fun x _ => div_pos (mul_pos p1 (hps x)) (hden x)) P h10 e h11 h12]
  congr 4
  apply List.map_congr_left
  intro x _
  have a := (hden x).ne'
  have b := (hps x).ne'
  have c := p1.ne'
  have d := p2.ne'
  simp only
  field_simp

/-- C128 (target labels play no role). Two label vectors that agree on the source rows give the same score, or the same exception, whatever they say
about the target rows. -/
theorem C128_target_labels (gib : Bool) (est : Score.DevEst α ρ) (fitDC : List α → List Nat → Py (α → K × K))
    (loss : List Num → List ρ → Py (Score.Losses K)) (nTest : Nat → Nat) (perm : Nat → List Nat) (X : List α) (y y' : List Num) (sd : List Int)
    (hy : y.length = X.length) (hy' : y'.length = X.length) (hs : sd.length = X.length) (h : sourceRows sd y = sourceRows sd y') :
    Score.dev gib est fitDC loss nTest perm X y (.vec sd) = Score.dev gib est fitDC loss nTest perm X y' (.vec sd) := by
  by_cases hX : X = []
  · subst hX
    rw [List.length_nil, List.length_eq_zero_iff] at hy hy'
    rw [hy, hy']
  · unfold Score.dev
    rw [checkXy_vec hX hy hs, checkXy_vec hX hy' hs]
    cases est.parts with
    | error _ => rfl
    | ok q =>
      obtain ⟨feat, proba⟩ := q
      simp only [ok_bind]
      rw [extractSourceIndices_ok (sd_ne_nil hX hs)]
      simp only [ok_bind]
      rw [boolIndex_source hs.symm, boolIndex_source (hy.trans hs.symm), boolIndex_source (hy'.trans hs.symm), h]

/-- C128 (exceptions). No `predict_proba`: `AttributeError`. A network without `layer_name`: `ValueError`. At most `n_test` source rows (so for none and
for one): `ValueError`. -/
theorem C128_errors (gib : Bool) (fitDC : List α → List Nat → Py (α → K × K)) (loss : List Num → List ρ → Py (Score.Losses K))
    (nTest : Nat → Nat) (perm : Nat → List Nat) (X : List α) (y : List Num) (sd : List Int) :
    Score.dev gib (.noProba : Score.DevEst α ρ) fitDC loss nTest perm X y (.vec sd) = .error .attributeError ∧
    (∀ feat (proba : List α → List Int → Py (List ρ)),
      Score.dev gib (.network false feat proba) fitDC loss nTest perm X y (.vec sd) = .error .valueError) ∧
    (∀ (est : Score.DevEst α ρ) q, est.parts = .ok q → X ≠ [] → y.length = X.length → sd.length = X.length → nSource sd ≤ nTest (nSource sd) →
      Score.dev gib est fitDC loss nTest perm X y (.vec sd) = .error .valueError) := by
  refine ⟨rfl, fun _ _ => rfl, ?_⟩
  rintro est ⟨feat, proba⟩ hq hX hy hs hn
  unfold Score.dev
  rw [hq]
  simp only [ok_bind]
  rw [checkXy_vec hX hy hs]
  simp only [ok_bind]
  rw [extractSourceIndices_ok (sd_ne_nil hX hs)]
  simp only [ok_bind]
  rw [boolIndex_source hs.symm, boolIndex_source (hy.trans hs.symm), boolIndex_source rfl]
  simp only [ok_bind, length_sourceRows hs, Score.trainTest]
  rw [if_pos hn]
  rfl

theorem find_last {p : Nat → Bool} {n i : Nat} (hi : i < n) (hp : p i = true) (h : ∀ j, i < j → j < n → p j = false) :
    (List.range n).reverse.find? p = some i := by
  induction n with
  | zero => omega
  | succ n ih =>
    rw [List.range_succ, List.reverse_append, List.reverse_singleton, List.singleton_append, List.find?_cons]
    by_cases hin : i = n
    · subst hin; rw [hp]
    · rw [h n (by omega) (by omega)]
      exact ih (by omega) (fun j h1 h2 => h j h1 (by omega))

theorem lastIdx_append (pre post : List (Score.Step α)) (f : List α → Py (List α)) (hpost : ∀ s ∈ post, s = none) :
    Score.lastIdx (pre ++ some f :: post) = some pre.length := by
  unfold Score.lastIdx
  refine find_last (by simp) (by simp) ?_
  intro j h1 h2
  rw [List.getElem?_append_right (by omega), List.getElem?_cons, if_neg (by omega)]
  have hl : j - pre.length - 1 < post.length := by
    simp only [List.length_append, List.length_cons] at h2
    omega
  rw [List.getElem?_eq_getElem hl, hpost _ (List.getElem_mem hl)]

theorem chain_some (fs : List (List α → Py (List α))) (X : List α) :
    Score.chain (fs.map some) X = fs.foldlM (fun x f => f x) X := by
  induction fs generalizing X with
  | nil => rfl
  | cons f fs ih =>
    simp only [List.map_cons, Score.chain, List.foldlM_cons]
    cases h : f X with
    | error e => rfl
    | ok X' => exact ih X'

/-- C128 (the features of a pipeline). The features are what the steps up to the last one with a `transform` make of the rows, one after the other and
without domain labels; a pipeline without such a step uses the rows themselves. -/
theorem C128_features (fs : List (List α → Py (List α))) (post : List (Score.Step α)) (hpost : ∀ s ∈ post, s = none)
    (proba : List α → List Int → Py (List ρ)) :
    ∃ feat, (Score.DevEst.pipeline (fs.map some ++ post) proba).parts = .ok (feat, proba) ∧
      ∀ X, feat X = fs.foldlM (fun x f => f x) X := by
  refine ⟨_, rfl, ?_⟩
  intro X
  rcases List.eq_nil_or_concat fs with rfl | ⟨gs, g, rfl⟩
  · have : Score.lastIdx post = none := by
      unfold Score.lastIdx
      rw [List.find?_eq_none]
      intro i hi
      have hi' : i < post.length := by simpa using hi
      rw [List.getElem?_eq_getElem hi', hpost _ (List.getElem_mem hi')]
      simp
    unfold Score.pipeFeatures
    rw [List.map_nil, List.nil_append, this]
    rfl
  · rw [← chain_some]
    have e : (gs ++ [g]).map some ++ post = gs.map some ++ some g :: post := by simp
    have hl := lastIdx_append (gs.map some) post g hpost
    unfold Score.pipeFeatures
    rw [List.concat_eq_append, e, hl]
    simp only
    rw [← e, List.take_left' (by simp)]

theorem consume_nil (r : Request) : consumeParams r [] = [] := by
  unfold consumeParams
  rw [List.filterMap_eq_nil_iff]
  rintro ⟨k, a⟩ _
  cases a <;> rfl

/-- C128 (negation: the adaptation of the source rows is not seen). The features of source rows are computed without their domain labels, so the steps
treat them as target rows. For every pipeline whose transformers leave target rows as they are (all reweighting and OT mapping adapters, see C109)
the score is the one of the same `predict_proba` without any transformer: the domain classifier compares the source rows before the mapping with
the target rows, whatever mapping was learned and although `predict_proba` itself sees the mapped rows. -/
theorem C128_mapping_counterexample (gib : Bool) (es : List (Est α σ)) (mask : Bool) (fits : List σ) (fin : Est α σ) (ffin : σ)
    (hes : ∀ e ∈ es, e.hasTransform = true ∧ KeepsTargets e) (hfin : fin.hasTransform = false)
    (proba : List α → List Int → Py (List ρ)) (fitDC : List α → List Nat → Py (α → K × K)) (loss : List Num → List ρ → Py (Score.Losses K))
    (nTest : Nat → Nat) (perm : Nat → List Nat) (X : List α) (y : List Num) (sd : List Int) (hX : X ≠ []) (hy : y.length = X.length)
    (hs : sd.length = X.length) (hp : (perm (nSource sd)).Perm (List.range (nSource sd))) (hn : nTest (nSource sd) < nSource sd)
    (h1 : 0 < nTest (nSource sd)) (ht : 0 < nTarget sd) :
    Score.dev gib (.pipeline (List.zipWith (fun e f => Score.selStep ⟨e, mask, false⟩ f) es fits ++ [Score.selStep ⟨fin, mask, true⟩ ffin]) proba)
        fitDC loss nTest perm X y (.vec sd)
      = Score.dev gib (.pipeline [] proba) fitDC loss nTest perm X y (.vec sd) := by
  have hstep : ∀ l : List (Est α σ × σ), (∀ q ∈ l, q.1 ∈ es) → ∃ fs : List (List α → Py (List α)),
      l.map (fun q => Score.selStep ⟨q.1, mask, false⟩ q.2) = fs.map some ∧ ∀ X, X ≠ [] → fs.foldlM (fun x f => f x) X = .ok X := by
    intro l hle
    induction l with
    | nil => exact ⟨[], rfl, fun _ _ => rfl⟩
    | cons q l ih =>
      obtain ⟨fs, e1, e2⟩ := ih (fun r hr => hle r (List.mem_cons_of_mem _ hr))
      obtain ⟨ht1, ht2⟩ := hes q.1 (hle q List.mem_cons_self)
      refine ⟨(fun X => match Sel.sharedTransform ⟨q.1, mask, false⟩ q.2 X [] with
        | .error e => .error e
        | .ok (.arr X') => .ok X'
        | .ok _ => .error .typeError) :: fs, ?_, ?_⟩
      · rw [List.map_cons, List.map_cons, e1, Score.selStep, if_pos ht1]
        rfl
      · intro X hX
        rw [List.foldlM_cons]
        have : Sel.sharedTransform ⟨q.1, mask, false⟩ q.2 X [] = .ok (.arr X) := by
          simp only [Sel.sharedTransform, prepareRouting, ht1, Bool.not_true, Bool.or_self, Bool.false_eq_true, if_false]
          exact ht2 q.2 X _ hX (Or.inl (consume_nil _))
        simp only [this]
        exact e2 X hX
  obtain ⟨fs, e1, e2⟩ := hstep (es.zip fits) (fun q hq => (List.of_mem_zip hq).1)
  have e0 : List.zipWith (fun e f => Score.selStep ⟨e, mask, false⟩ f) es fits = fs.map some := by
    rw [← e1, List.zip, List.map_zipWith]
  have hlast : Score.selStep ⟨fin, mask, true⟩ ffin = none := by
    rw [Score.selStep, hfin]; rfl
  rw [e0, hlast]
  obtain ⟨feat, hf1, hf2⟩ := C128_features fs [none] (by simp) proba
  obtain ⟨feat', hf1', hf2'⟩ := C128_features ([] : List (List α → Py (List α))) [] (by simp) proba
  replace hf1' : (Score.DevEst.pipeline ([] : List (Score.Step α)) proba).parts = .ok (feat', proba) := hf1'
  have hm : ∀ i ∈ perm (nSource sd), i < nSource sd := fun i hi => List.mem_range.1 (hp.mem_iff.1 hi)
  have hplen : (perm (nSource sd)).length = nSource sd := by rw [hp.length_eq, List.length_range]
  rw [dev_run gib _ feat proba hf1 fitDC loss nTest perm X y sd hX hy hs hm hn,
    dev_run gib _ feat' proba hf1' fitDC loss nTest perm X y sd hX hy hs hm hn]
  have l1 : (sourceRows sd X).length = nSource sd := length_sourceRows hs
  have l2 : (targetRows sd X).length = nTarget sd := length_targetRows hs
  have n1 : rowsAt (sourceRows sd X) (((perm (nSource sd)).drop (nTest (nSource sd))).take (nSource sd - nTest (nSource sd))) ≠ [] := by
    intro h
    have := congrArg List.length h
    rw [length_rowsAt (by rw [l1]; exact fun i hi => hm i (List.mem_of_mem_drop (List.mem_of_mem_take hi))), List.length_take, List.length_drop,
      hplen, List.length_nil] at this
    omega
  have n2 : rowsAt (sourceRows sd X) ((perm (nSource sd)).take (nTest (nSource sd))) ≠ [] := by
    intro h
    have := congrArg List.length h
    rw [length_rowsAt (by rw [l1]; exact fun i hi => hm i (List.mem_of_mem_take hi)), List.length_take, hplen, List.length_nil] at this
    omega
  have n3 : targetRows sd X ≠ [] := by
    intro h
    rw [h, List.length_nil] at l2
    omega
  simp only [hf2, hf2', e2 _ n1, e2 _ n2, e2 _ n3]
  rfl

/-! ### Examples -/

/-- A classifier, a loss and data that meet the hypotheses of `C128_score_partial`: four source rows, of which the first and the third drawn are
validation rows. -/
def exDC : List ℚ → List Nat → Py (ℚ → ℚ × ℚ) := fun F l =>
  if F = [4, 2, 6, 8] ∧ l = [1, 1, 0, 0] then .ok (fun x => (x / 10, 1 - x / 10)) else .error .runtimeError

example : Score.dev true (.network true (fun X => .ok (X.map (fun x => 2 * x))) (fun X sd => .ok (List.zipWith (fun x d => x + (d : ℚ)) X sd)))
    exDC (fun y p => .ok (.column (List.zipWith (fun v q => match v with | .fin a => a * q | _ => 0) y p))) (fun n => (33 * n + 99) / 100)
    (fun _ => [3, 2, 1, 0]) [1, 3, 2, 5 / 2, 4, 3 / 2] [.fin 1, .fin (-1), .fin 2, .fin 3, .fin (-1), .fin 4] (.vec [1, -2, 1, 1, -2, 2])
    = .ok (some (21 / 2)) := by
  decide +kernel

/-- One source row only. -/
example : Score.dev true (.pipeline [] (fun X _ => .ok X)) exDC (fun _ p => .ok (.column p)) (fun n => (33 * n + 99) / 100)
    (fun n => List.range n) [1, 3] [.fin 1, .fin (-1)] (.vec [1, -2]) = .error .valueError := by
  decide +kernel

/-- A pipeline of two transformers, of which the last one is followed by a classifier. -/
example : Score.pipeFeatures [some (fun X => .ok (X.map (· + 1))), some (fun X => .ok (X.map (· * 2))), none] [1, 5] = .ok [4, 12] := by
  decide +kernel

/-- OT mapping adapters meet the hypothesis of `C128_mapping_counterexample`, whatever the transport. -/
example (ot : NArr (List Num) → Option (List Num) → NArr (List Num) → Option (List Num) → Py (NArr (List Num) → Py (NArr (List Num)))) :
    ∀ e ∈ [otEst id id ot [1]], e.hasTransform = true ∧ KeepsTargets e := by
  intro e he
  rw [List.mem_singleton.1 he]
  exact ⟨rfl, (C109_ot_adapter id id ot [1]).1⟩

end Dev
end Skada

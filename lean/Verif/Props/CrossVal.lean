/-
C132: cross-validation of DA pipelines and target labels.
-/
import Verif.Model.CrossVal
import Verif.Props.Selectors
import Verif.Props.ScorerLabels
import Verif.Lemmas.DeepTrain
import Verif.Props.Splitters
import Verif.Props.Lodo

namespace Skada
open Np Spec CV

section CrossVal
variable {α β F S σ : Type}

/-- The same data with other labels. -/
def Spec.withLabels (d : Data α β) (y : List Num) : Data α β := ⟨d.X, y, d.sd, d.tl⟩

/-- Class labels: all are integers (`-1` is the mask). -/
def Spec.ClassLabels (y : List Num) : Prop := ∀ v ∈ y, IsInt v

/-- A score that, for class labels, uses no label of a target row. -/
def Spec.NeedsNoTargetLabel (score : F → Data α β → Py S) : Prop :=
  ∀ (m : F) (d : Data α β) (y : List Num), d.sd.length = d.X.length → SameSourceLabels d.sd d.y y → ClassLabels d.y → ClassLabels y →
    score m d = score m (withLabels d y)

theorem take_mem {γ : Type} {a r : List γ} {idx : List Nat} (h : take a idx = .ok r) {v : γ} (hv : v ∈ r) : v ∈ a := by
  obtain ⟨q, hq⟩ := List.mem_iff_getElem?.1 hv
  rw [take_get h] at hq
  obtain ⟨i, -, hi⟩ := Option.bind_eq_some_iff.1 hq
  exact List.mem_of_getElem? hi

theorem take_length_eq {γ : Type} {a r : List γ} {idx : List Nat} (h : take a idx = .ok r) : r.length = idx.length :=
  (take_ok_iff.1 h).length_eq.symm

theorem take_dichotomy {γ : Type} (a : List γ) (idx : List Nat) : (∃ r, take a idx = .ok r) ∨ (take a idx = .error .indexError) := by
  by_cases h : ∀ i ∈ idx, i < a.length
  · exact .inl (take_ok_of_lt h)
  · push Not at h
    exact .inr (take_error h)

theorem take_same_length {γ δ : Type} {a : List γ} {b : List δ} (hab : a.length = b.length) (idx : List Nat) :
    ((∃ r, take a idx = .ok r) ∧ ∃ r, take b idx = .ok r) ∨ (take a idx = .error .indexError ∧ take b idx = .error .indexError) := by
  by_cases h : ∀ i ∈ idx, i < a.length
  · exact .inl ⟨take_ok_of_lt h, take_ok_of_lt (by rw [← hab]; exact h)⟩
  · push Not at h
    exact .inr ⟨take_error h, take_error (by rw [← hab]; exact h)⟩

/-- The rows of a fold: either all arrays can be indexed, or the fold is an `IndexError` for both label vectors. -/
theorem at_cases (d : Data α β) (y : List Num) (hs : d.sd.length = d.X.length) (hy : d.y.length = d.X.length) (hy' : y.length = d.X.length)
    (ht : ∀ l, d.tl = some l → l.length = d.X.length) (idx : List Nat) :
    (d.at idx = .error .indexError ∧ (withLabels d y).at idx = .error .indexError) ∨
    ∃ (e : Data α β) (z : List Num), d.at idx = .ok e ∧ (withLabels d y).at idx = .ok (withLabels e z) ∧ take d.X idx = .ok e.X ∧
      take d.y idx = .ok e.y ∧ take y idx = .ok z ∧ take d.sd idx = .ok e.sd := by
  rcases take_same_length (hs.symm) idx with ⟨⟨x, hx⟩, ⟨s, hs'⟩⟩ | ⟨h, -⟩
  · rcases take_same_length (hy.trans hy'.symm) idx with ⟨⟨u, hu⟩, ⟨z, hz⟩⟩ | ⟨h, h'⟩
    · cases htl : d.tl with
      | none =>
        refine .inr ⟨⟨x, u, s, none⟩, z, ?_, ?_, hx, hu, hz, hs'⟩
        · simp [Data.at, hx, hu, hs', htl, ok_bind]
        · simp [Data.at, withLabels, hx, hz, hs', htl, ok_bind]
      | some l =>
        rcases take_same_length ((ht l htl).trans hs.symm) idx with ⟨⟨t, htt⟩, -⟩ | ⟨-, hcon⟩
        · refine .inr ⟨⟨x, u, s, some t⟩, z, ?_, ?_, hx, hu, hz, hs'⟩
          · simp [Data.at, hx, hu, hs', htl, htt, ok_bind]
          · simp [Data.at, withLabels, hx, hz, hs', htl, htt, ok_bind]
        · rw [hcon] at hs'; cases hs'
    · left
      constructor
      · simp only [Data.at, hx, ok_bind, h]; rfl
      · simp only [Data.at, withLabels, hx, ok_bind, h']; rfl
  · left
    constructor
    · simp only [Data.at, h]; rfl
    · simp only [Data.at, withLabels, h]; rfl

theorem sameSource_take {sd s : List Int} {y y' u u' : List Num} {idx : List Nat} (h : SameSourceLabels sd y y') (hs : take sd idx = .ok s)
    (hu : take y idx = .ok u) (hu' : take y' idx = .ok u') : SameSourceLabels s u u' := by
  refine ⟨(take_length_eq hu).trans (take_length_eq hs).symm, (take_length_eq hu').trans (take_length_eq hs).symm, ?_⟩
  rintro i v ⟨hi, hv⟩
  rw [take_get hs] at hi
  obtain ⟨j, hj, hjv⟩ := Option.bind_eq_some_iff.1 hi
  rw [take_get hu, take_get hu', hj]
  exact h.2.2 j v ⟨hjv, hv⟩

theorem fitPipeline_congr [Cell α] (keep : String → Bool) (first : Step α σ) (rest : List ((String → Bool) × Step α σ)) (hs : Hides first)
    (hkeep : keep "sample_domain" = true) (X : List α) (sd : List Int) (y y' : List Num) (h : SameSourceLabels sd y y') (hk : SameKind y y') :
    fitPipeline ((keep, first) :: rest) X y sd = fitPipeline ((keep, first) :: rest) X y' sd := by
  unfold fitPipeline
  rw [C12_target_labels_hidden keep first rest X sd y y' _ hs hkeep rfl ⟨h.1.trans h.2.1.symm, fun i d h1 h2 => h.2.2 i d ⟨h1, h2⟩⟩ hk]

/-- C132 (one fold). With a pipeline whose first step hides target labels (the default), the result of a fold depends on the target labels of its
test rows only, whatever the scorer: label vectors of class labels that agree on the source rows and on the test rows give the same result. -/
theorem C132_training_targets [Cell α] (keep : String → Bool) (first : Step α σ) (rest : List ((String → Bool) × Step α σ)) (hs : Hides first)
    (hkeep : keep "sample_domain" = true) (score : List (Fitted σ) → Data α β → Py S) (d : Data α β) (y : List Num)
    (hd : d.sd.length = d.X.length) (ht : ∀ l, d.tl = some l → l.length = d.X.length) (h : SameSourceLabels d.sd d.y y)
    (hc : ClassLabels d.y) (hc' : ClassLabels y) (f : Fold) (hf : ∀ i ∈ f.2, d.y[i]? = y[i]?) :
    foldRun (fitPipeline ((keep, first) :: rest)) score d f = foldRun (fitPipeline ((keep, first) :: rest)) score (withLabels d y) f := by
  have hy := h.1.trans hd
  have hy' := h.2.1.trans hd
  unfold foldRun
  rcases at_cases d y hd hy hy' ht f.1 with ⟨h1, h2⟩ | ⟨e, z, h1, h2, hX, hu, hz, hs1⟩
  · rw [h1, h2]; rfl
  rcases at_cases d y hd hy hy' ht f.2 with ⟨h3, h4⟩ | ⟨e', z', h3, h4, hX', hu', hz', hs2⟩
  · rw [h1, h2, h3, h4]; rfl
  rw [h1, h2, h3, h4]
  simp only [ok_bind]
  have hfit := fitPipeline_congr keep first rest hs hkeep e.X e.sd e.y z (sameSource_take h hs1 hu hz)
    (.inl ⟨fun v hv => hc v (take_mem hu hv), fun v hv => hc' v (take_mem hz hv)⟩)
  have hzz : e'.y = z' := by
    apply List.ext_getElem?
    intro q
    rw [take_get hu', take_get hz']
    cases hq : f.2[q]? with
    | none => rfl
    | some i => exact hf i (List.mem_of_getElem? hq)
  have he : withLabels e' z' = e' := by rw [← hzz]; rfl
  rw [he]
  simp only [withLabels, hfit]

/-- C132. `cross_validate` of a pipeline whose first step hides target labels, with any of the splitters `SourceTargetShuffleSplit`,
`LeaveOneDomainOut` and `DomainShuffleSplit` and a scorer that needs no target label: class labels that agree on the source rows give the same
scores (and the same failures) in all folds.  So models are selected without target labels, whatever `y` holds on the target rows. -/
theorem C132_unsupervised [DecidableEq S] [Cell α] (keep : String → Bool) (first : Step α σ) (rest : List ((String → Bool) × Step α σ))
    (hs : Hides first) (hkeep : keep "sample_domain" = true) (score : List (Fitted σ) → Data α β → Py S) (hscore : NeedsNoTargetLabel score)
    (cv : Splitter) (d : Data α β) (y : List Num) (hd : d.sd.length = d.X.length) (ht : ∀ l, d.tl = some l → l.length = d.X.length)
    (h : SameSourceLabels d.sd d.y y) (hc : ClassLabels d.y) (hc' : ClassLabels y) :
    crossValidate (fitPipeline ((keep, first) :: rest)) score (cv.split d.X d.y d.sd) d =
      crossValidate (fitPipeline ((keep, first) :: rest)) score (cv.split d.X y d.sd) (withLabels d y) := by
  have hy := h.1.trans hd
  have hy' := h.2.1.trans hd
  have hsplit : cv.split d.X d.y d.sd = cv.split d.X y d.sd := by
    unfold Splitter.split
    rw [if_neg (not_not.2 hy), if_neg (not_not.2 hy')]
  have hfold : foldRun (fitPipeline ((keep, first) :: rest)) score d = foldRun (fitPipeline ((keep, first) :: rest)) score (withLabels d y) := by
    funext f
    unfold foldRun
    rcases at_cases d y hd hy hy' ht f.1 with ⟨h1, h2⟩ | ⟨e, z, h1, h2, hX, hu, hz, hs1⟩
    · rw [h1, h2]; rfl
    rcases at_cases d y hd hy hy' ht f.2 with ⟨h3, h4⟩ | ⟨e', z', h3, h4, hX', hu', hz', hs2⟩
    · rw [h1, h2, h3, h4]; rfl
    rw [h1, h2, h3, h4]
    simp only [ok_bind]
    have hfit := fitPipeline_congr keep first rest hs hkeep e.X e.sd e.y z (sameSource_take h hs1 hu hz)
      (.inl ⟨fun v hv => hc v (take_mem hu hv), fun v hv => hc' v (take_mem hz hv)⟩)
    have hsc : ∀ m, score m e' = score m (withLabels e' z') := fun m =>
      hscore m e' z' ((take_length_eq hs2).trans (take_length_eq hX').symm) (sameSource_take h hs2 hu' hz')
        (fun v hv => hc v (take_mem hu' hv)) (fun v hv => hc' v (take_mem hz' hv))
    simp only [hsc]
    simp only [withLabels, hfit]
  unfold crossValidate
  rw [hsplit, hfold]

theorem take_agree {γ : Type} {a b : List γ} {idx : List Nat} (h : ∀ i ∈ idx, a[i]? = b[i]?) : take a idx = take b idx := by
  induction idx with
  | nil => rfl
  | cons i idx ih =>
    simp only [take]
    rw [h i (List.mem_cons_self ..), ih (fun j hj => h j (List.mem_cons_of_mem _ hj))]

theorem at_ok (d : Data α β) (hs : d.sd.length = d.X.length) (hy : d.y.length = d.X.length) (ht : ∀ l, d.tl = some l → l.length = d.X.length)
    {idx : List Nat} (hi : ∀ i ∈ idx, i < d.X.length) : ∃ e, d.at idx = .ok e := by
  rcases at_cases d d.y hs hy hy ht idx with ⟨h, -⟩ | ⟨e, z, h, -⟩
  · obtain ⟨x, hx⟩ := take_ok_of_lt hi
    obtain ⟨u, hu⟩ := take_ok_of_lt (a := d.y) (idx := idx) (by rw [hy]; exact hi)
    obtain ⟨s, hs'⟩ := take_ok_of_lt (a := d.sd) (idx := idx) (by rw [hs]; exact hi)
    cases htl : d.tl with
    | none => exact ⟨⟨x, u, s, none⟩, by simp [Data.at, hx, hu, hs', htl, ok_bind]⟩
    | some l =>
      obtain ⟨t, htt⟩ := take_ok_of_lt (a := l) (idx := idx) (by rw [ht l htl]; exact hi)
      exact ⟨⟨x, u, s, some t⟩, by simp [Data.at, hx, hu, hs', htl, htt, ok_bind]⟩
  · exact ⟨e, h⟩

theorem stIter_rows {X X' : List α} (h : X'.length = X.length) {sd : List Int} (hs : sd.length = X.length) (test train : Size)
    (draws : List (List Nat × List Nat)) : stIterIndices X' sd test train draws = stIterIndices X sd test train draws := by
  by_cases hX : X = []
  · subst hX
    rw [List.length_eq_zero_iff.1 h]
  · have hX' : X' ≠ [] := by intro h'; rw [h'] at h; exact hX (List.length_eq_zero_iff.1 h.symm)
    unfold stIterIndices
    rw [checkXDomain_vec hX hs, checkXDomain_vec hX' (hs.trans h.symm)]

/-- The folds of the three splitters depend on the number of rows only, not on their values. -/
theorem split_rows (cv : Splitter) {X X' : List α} (h : X'.length = X.length) {y y' : List Num} (hy : y.length = X.length)
    (hy' : y'.length = X.length) {sd : List Int} (hs : sd.length = X.length) : cv.split X' y' sd = cv.split X y sd := by
  by_cases hX : X = []
  · subst hX
    rw [List.length_eq_zero_iff.1 h, List.length_eq_zero_iff.1 hy, List.length_eq_zero_iff.1 hy']
  have hX' : X' ≠ [] := by intro h'; rw [h'] at h; exact hX (List.length_eq_zero_iff.1 h.symm)
  unfold Splitter.split
  rw [if_neg (not_not.2 hy), if_neg (not_not.2 (hy'.trans h.symm))]
  cases cv with
  | sourceTarget test train draws =>
    simp only
    unfold sourceTargetShuffleSplit
    rw [checkXDomain_vec hX hs, checkXDomain_vec hX' (hs.trans h.symm)]
    exact stIter_rows h hs test train draws
  | leaveOneOut m test train order draw =>
    simp only
    unfold leaveOneDomainOut
    rw [checkXDomain_vec hX hs, checkXDomain_vec hX' (hs.trans h.symm)]
    simp only
    have hf : (fun t => lodoFold X' sd (lodoDomains sd) test train t (draw t)) = fun t => lodoFold X sd (lodoDomains sd) test train t (draw t) := by
      funext t
      unfold lodoFold
      simp only
      rcases take_same_length h (lodoSplitIdx sd (lodoDomains sd) t) with ⟨⟨r, hr⟩, ⟨r', hr'⟩⟩ | ⟨h1, h2⟩
      · rw [hr, hr']
        simp only
        cases ht : take sd (lodoSplitIdx sd (lodoDomains sd) t) with
        | error e => rfl
        | ok s =>
          simp only
          rw [stIter_rows ((take_length_eq hr).trans (take_length_eq hr').symm) ((take_length_eq ht).trans (take_length_eq hr').symm)]
      · rw [h1, h2]
    rw [hf]
  | domain us test train draws =>
    simp only
    unfold domainShuffleSplit
    rw [checkXDomain_vec hX hs, checkXDomain_vec hX' (hs.trans h.symm)]

/-- The random draws of a splitter are what `numpy` returns: permutations of the positions, or choices without replacement.  For `LeaveOneDomainOut`
there is no domain labelled 0 (see C24). -/
def Spec.ProperDraws (sd : List Int) : Splitter → Prop
  | .sourceTarget _ _ draws => ∀ p ∈ draws, ValidDraw sd p
  | .leaveOneOut _ _ _ order draw => (∀ v ∈ sd, v ≠ 0) ∧ order.Perm (List.range (sd.filter (fun v => decide (0 ≤ v))).dedup.length) ∧
      ∀ t ∈ sd, 0 ≤ t → (draw t).1.Perm (List.range (lodoSources sd t)) ∧ (draw t).2.Perm (List.range (sd.count (-t)))
  | .domain us _ _ draws => ∀ dS dT, extractDomainsIndicesSplit sd = .ok (dS, dT) → ∀ p ∈ draws, PoolDraw us dS p.1 ∧ PoolDraw us dT p.2

/-- In every fold of the three splitters the training rows and the test rows are different rows. -/
theorem split_disjoint (cv : Splitter) {X : List α} (hX : X ≠ []) {y : List Num} (hy : y.length = X.length) {sd : List Int}
    (hs : sd.length = X.length) (hdr : ProperDraws sd cv) {folds : List Fold} (hf : cv.split X y sd = .ok folds) {f : Fold} (hmem : f ∈ folds) :
    (f.1 ++ f.2).Nodup ∧ ∀ i ∈ f.1 ++ f.2, i < X.length := by
  unfold Splitter.split at hf
  rw [if_neg (not_not.2 hy)] at hf
  rw [← hs]
  cases cv with
  | sourceTarget test train draws =>
    simp only at hf
    obtain ⟨h1, h2⟩ := C25_folds X sd hX hs test train draws hdr
    rcases (C25_sizes (nSource sd)).1 test train with hs | ⟨a, b, hs, -⟩
    · rw [h2 (.inl hs)] at hf; cases hf
    · rcases (C25_sizes (nTarget sd)).1 test train with ht | ⟨a', b', ht, -⟩
      · rw [h2 (.inr ht)] at hf; cases hf
      · obtain ⟨fs, h3, -, h4⟩ := h1 _ _ hs ht
        rw [h3] at hf
        cases hf
        exact ⟨(h4 f hmem).nodup, (h4 f hmem).inRange⟩
  | leaveOneOut m test train order draw =>
    simp only at hf
    obtain ⟨hnz, hord, hdraw⟩ := hdr
    rcases (C24_lodo_folds_partial X sd hX hs hnz m test train order hord draw hdraw).1 with he | ⟨fs, held, h1, -, -, -, -, -, h2⟩
    · rw [he] at hf; cases hf
    · rw [h1] at hf
      cases hf
      obtain ⟨q, hq, rfl⟩ := List.mem_iff_getElem.1 hmem
      have h3 := (List.forall₂_iff_get.1 h2).2 q (by rw [h2.length_eq]; exact hq) hq
      obtain ⟨⟨a, b, c, e, -, -, -, -, h4⟩, -⟩ := h3
      exact ⟨h4.nodup, h4.inRange⟩
  | domain us test train draws =>
    simp only at hf
    obtain ⟨h1, h2⟩ := C27_domain_shuffle_split X sd hX hs us test train draws
    by_cases hu : 0 ≤ us ∧ us ≤ 1
    · cases hext : extractDomainsIndicesSplit sd with
      | error e =>
        unfold domainShuffleSplit at hf
        rw [if_neg (not_not.2 hu), checkXDomain_vec hX hs] at hf
        simp only [hext] at hf
        cases hf
      | ok p =>
        rcases h2 hu.1 hu.2 p.1 p.2 hext (hdr p.1 p.2 hext) with ⟨fs, s, t, h3, -, -, h4⟩ | h3
        · rw [h3] at hf
          cases hf
          exact ⟨(h4 f hmem).1.nodup, (h4 f hmem).1.inRange⟩
        · rw [h3] at hf; cases hf
    · rw [h1 hu] at hf; cases hf

/-- C132 (no leak from the test rows). In every fold of the three splitters, for every random draw, the fitted model does not depend on the test rows: other rows
and labels there give the same folds and the same model, whatever is fitted. -/
theorem C132_no_test_leak (fit : List α → List Num → List Int → Py F) (cv : Splitter) (d d' : Data α β) (hX : d.X ≠ []) (hd : d.sd.length = d.X.length)
    (hy : d.y.length = d.X.length) (ht : ∀ l, d.tl = some l → l.length = d.X.length) (hX' : d'.X.length = d.X.length)
    (hy' : d'.y.length = d.X.length) (hsd' : d'.sd = d.sd) (htl' : d'.tl = d.tl) (hdr : ProperDraws d.sd cv) (folds : List Fold)
    (hf : cv.split d.X d.y d.sd = .ok folds) (f : Fold) (hmem : f ∈ folds)
    (hag : ∀ i, i ∉ f.2 → d.X[i]? = d'.X[i]? ∧ d.y[i]? = d'.y[i]?) :
    cv.split d'.X d'.y d'.sd = .ok folds ∧ foldRun fit (fun m _ => .ok m) d f = foldRun fit (fun m _ => .ok m) d' f ∧
      ∃ r, foldRun fit (fun m _ => .ok m) d f = .ok r := by
  refine ⟨by rw [hsd', split_rows cv hX' hy hy' hd]; exact hf, ?_⟩
  have htwo := split_disjoint cv hX hy hd hdr hf hmem
  have hdis : ∀ i ∈ f.1, i ∉ f.2 := fun i h1 h2 => (List.nodup_append.1 htwo.1).2.2 i h1 i h2 rfl
  have hr1 : ∀ i ∈ f.1, i < d.X.length := fun i hi => htwo.2 i (List.mem_append_left _ hi)
  have hr2 : ∀ i ∈ f.2, i < d.X.length := fun i hi => htwo.2 i (List.mem_append_right _ hi)
  have ht' : ∀ l, d'.tl = some l → l.length = d'.X.length := by rw [htl', hX']; exact ht
  obtain ⟨e1, h1⟩ := at_ok d hd hy ht hr1
  obtain ⟨e2, h2⟩ := at_ok d hd hy ht hr2
  obtain ⟨e3, h3⟩ := at_ok d' (by rw [hsd', hX', hd]) (by rw [hy', hX']) ht' (idx := f.2) (by rw [hX']; exact hr2)
  have h4 : d'.at f.1 = d.at f.1 := by
    unfold Data.at
    rw [take_agree (a := d'.X) (b := d.X) (fun i hi => (hag i (hdis i hi)).1.symm),
      take_agree (a := d'.y) (b := d.y) (fun i hi => (hag i (hdis i hi)).2.symm), hsd', htl']
  unfold foldRun
  rw [h4, h1, h2, h3]
  simp only [ok_bind]
  cases fit e1.X e1.y e1.sd with
  | error e => exact ⟨trivial, _, rfl⟩
  | ok m => exact ⟨trivial, _, rfl⟩

/-- C132 (failures). A fold whose fit or score raises is reported as NaN and has no effect on the scores of the other folds; `cross_validate` itself raises only
if there is no fold (`IndexError`) or the fit of every fold raises (`ValueError`). -/
theorem C132_failures [DecidableEq S] (fit : List α → List Num → List Int → Py F) (score : F → Data α β → Py S) (d : Data α β) (fs : List Fold)
    (tr te : Fold → Data α β) (htr : ∀ f ∈ fs, d.at f.1 = .ok (tr f)) (hte : ∀ f ∈ fs, d.at f.2 = .ok (te f)) :
    (fs = [] → crossValidate fit score (.ok fs) d = .error .indexError) ∧
    (fs ≠ [] → (∀ f ∈ fs, ∃ e, fit (tr f).X (tr f).y (tr f).sd = .error e) → crossValidate fit score (.ok fs) d = .error .valueError) ∧
    ((∃ f ∈ fs, ∃ m, fit (tr f).X (tr f).y (tr f).sd = .ok m) → ∃ scores, crossValidate fit score (.ok fs) d = .ok scores ∧
      scores.length = fs.length ∧ ∀ (i : Nat) (f : Fold), fs[i]? = some f →
        ((∃ e, fit (tr f).X (tr f).y (tr f).sd = .error e) → scores[i]? = some none) ∧
        ∀ m, fit (tr f).X (tr f).y (tr f).sd = .ok m →
          ((∃ e, score m (te f) = .error e) → scores[i]? = some none) ∧ ∀ s, score m (te f) = .ok s → scores[i]? = some (some s)) := by
  set res : Fold → Result S := fun f => match fit (tr f).X (tr f).y (tr f).sd with
    | .error _ => .fitFailed
    | .ok m => match score m (te f) with
      | .error _ => .scoreFailed
      | .ok s => .score s with hres
  have hrun : ∀ f ∈ fs, foldRun fit score d f = .ok (res f) := by
    intro f hf
    unfold foldRun
    rw [htr f hf, hte f hf]
    simp only [ok_bind, hres]
    cases fit (tr f).X (tr f).y (tr f).sd with
    | error e => rfl
    | ok m => simp only; cases score m (te f) <;> rfl
  have hcv : crossValidate fit score (.ok fs) d = if fs.map res = [] then .error .indexError
      else if (fs.map res).all (fun r => decide (r = .fitFailed)) then .error .valueError else .ok ((fs.map res).map Result.value) := by
    unfold crossValidate
    simp only [ok_bind, mapM_ok hrun]
  refine ⟨?_, ?_, ?_⟩
  · rintro rfl; rw [hcv]; rfl
  · intro hne hall
    rw [hcv, if_neg (by simpa using hne), if_pos]
    rw [List.all_eq_true]
    intro r hr
    obtain ⟨f, hf, rfl⟩ := List.mem_map.1 hr
    obtain ⟨e, he⟩ := hall f hf
    simp [hres, he]
  · rintro ⟨f, hf, m, hm⟩
    refine ⟨(fs.map res).map Result.value, ?_, by simp, ?_⟩
    · rw [hcv, if_neg (by rintro h; rw [List.map_eq_nil_iff] at h; rw [h] at hf; cases hf), if_neg]
      intro hall
      have := List.all_eq_true.1 hall (res f) (List.mem_map_of_mem hf)
      simp only [hres, hm, decide_eq_true_eq] at this
      cases hsc : score m (te f) <;> rw [hsc] at this <;> cases this
    · intro i g hi
      simp only [List.getElem?_map, hi, Option.map_some, Option.some.injEq]
      refine ⟨?_, ?_⟩
      · rintro ⟨e, he⟩; simp only [hres, he]; rfl
      · intro m hm
        refine ⟨?_, ?_⟩
        · rintro ⟨e, he⟩; simp only [hres, hm, he]; rfl
        · intro s hs; simp only [hres, hm, hs]; rfl

/-- A scaler and a classifier; the score of a fold: how many labels the classifier has seen, and the number of test rows that are target. -/
def exSteps : List ((String → Bool) × Step Num (Option (List Num))) :=
  [(fun _ => true, Step.shared ⟨exEst true [("sample_domain", .yes)], true, false⟩), (fun _ => true, Step.shared ⟨exEst false [], true, true⟩)]

/-- See `exSteps`. -/
def exCvScore (m : List (Fitted (Option (List Num)))) (d : Data Num Nat) : Py (Nat × Nat) :=
  match m with
  | [_, .one (some ys)] => .ok (ys.length, (d.sd.filter (fun v => decide (v < 0))).length)
  | _ => .error .valueError

/-- Three source rows and three target rows. -/
def exCvData : Data Num Nat :=
  ⟨[.fin 1, .fin 2, .fin 3, .fin 4, .fin 5, .fin 6], [.fin 0, .fin 1, .fin 0, .fin 1, .fin 1, .fin 0], [1, 1, 1, -2, -2, -2], none⟩

/-- Two folds of `SourceTargetShuffleSplit(test_size=1)`; the masked labels give the same scores as the true ones. -/
example : crossValidate (fitPipeline exSteps) exCvScore
      ((Splitter.sourceTarget (.int 1) .none [([0, 1, 2], [2, 1, 0]), ([2, 0, 1], [1, 0, 2])]).split exCvData.X exCvData.y exCvData.sd) exCvData
      = .ok [some (2, 1), some (2, 1)] ∧
    crossValidate (fitPipeline exSteps) exCvScore
      ((Splitter.sourceTarget (.int 1) .none [([0, 1, 2], [2, 1, 0]), ([2, 0, 1], [1, 0, 2])]).split exCvData.X
        [.fin 0, .fin 1, .fin 0, .fin (-1), .fin (-1), .fin (-1)] exCvData.sd)
      (withLabels exCvData [.fin 0, .fin 1, .fin 0, .fin (-1), .fin (-1), .fin (-1)]) = .ok [some (2, 1), some (2, 1)] := by decide +kernel

example : NeedsNoTargetLabel exCvScore ∧ SameSourceLabels exCvData.sd exCvData.y [.fin 0, .fin 1, .fin 0, .fin (-1), .fin (-1), .fin (-1)] := by
  refine ⟨fun m d y _ _ _ _ => rfl, rfl, rfl, ?_⟩
  rintro i v ⟨h, hv⟩
  match i with
  | 0 => rfl
  | 1 => rfl
  | 2 => rfl
  | 3 => simp [exCvData] at h; omega
  | 4 => simp [exCvData] at h; omega
  | 5 => simp [exCvData] at h; omega
  | i + 6 => simp [exCvData] at h

/-- One domain is left out of the training sources in each fold; the hypotheses of `C132_no_test_leak` hold, also for `DomainShuffleSplit`. -/
example : ProperDraws [1, 1, 2, 2, -1, -1, -2, -2] (.leaveOneOut 10 (.int 1) .none [1, 0] (fun _ => ([1, 0], [0, 1]))) ∧
    (Splitter.leaveOneOut 10 (.int 1) .none [1, 0] (fun _ => ([1, 0], [0, 1]))).split [(1 : Nat), 2, 3, 4, 5, 6, 7, 8]
      [.fin 0, .fin 1, .fin 0, .fin 1, .fin (-1), .fin (-1), .fin (-1), .fin (-1)] [1, 1, 2, 2, -1, -1, -2, -2] = .ok [([0, 7], [1, 6]), ([2, 5], [3, 4])] ∧
    (Splitter.domain 1 (.int 1) .none [([1, 0], [2, 3])]).split [(1 : Nat), 2, 3, 4] [.fin 0, .fin 1, .fin (-1), .fin (-1)] [1, 1, -2, -2] =
      .ok [([0, 3], [1, 2])] := by
  refine ⟨⟨by decide, by decide +kernel, ?_⟩, by decide +kernel, by decide +kernel⟩
  intro t ht ht0
  have : t = 1 ∨ t = 2 := by
    simp only [List.mem_cons, List.not_mem_nil, or_false] at ht
    omega
  rcases this with rfl | rfl <;> decide +kernel

/-- The fit of the first fold fails and its score is NaN; the score of the second fold is reported. -/
example : crossValidate (fun X _ _ => if X = [(1 : Nat)] then (.error .valueError : Py Nat) else .ok X.length)
    (fun m (_ : Data Nat Nat) => .ok m) (.ok [([0], [1]), ([0, 1], [2])]) ⟨[1, 2, 3], [.fin 0, .fin 0, .fin 0], [1, 1, -2], none⟩ =
      .ok [none, some 2] := by decide +kernel

/-- A score that does need target labels: how many labels of the test rows are 1. -/
example : ¬ NeedsNoTargetLabel (fun (_ : Unit) (d : Data Num Nat) => (.ok (d.y.count (.fin 1)) : Py Nat)) := by
  intro h
  have := h () ⟨[.fin 0], [.fin 1], [-2], none⟩ [.fin (-1)] rfl
    ⟨rfl, rfl, fun i v hi => by match i with | 0 => (obtain ⟨h1, h2⟩ := hi; simp at h1; omega) | i + 1 => simp⟩
    (fun v hv => by simp at hv; exact ⟨1, by simp [hv]⟩) (fun v hv => by simp at hv; exact ⟨-1, by simp [hv]⟩)
  revert this
  decide +kernel

/-- C132 (negation for `StratifiedDomainShuffleSplit`). This splitter groups the target rows by label too, so the folds depend on target labels: with a class
that has one target row it refuses, with masked target labels it does not. -/
theorem C132_stratified_counterexample : ∃ (X : List Nat) (sd : List Int) (y y' : List ℚ) (draws : List StratDraw),
    (∀ (i : Nat) (v : Int), sd[i]? = some v → 0 ≤ v → y[i]? = y'[i]?) ∧
    stratifiedDomainShuffleSplit X y (.vec sd) (.frac (1 / 2)) (.frac (1 / 2)) draws = .error .valueError ∧
    stratifiedDomainShuffleSplit X y' (.vec sd) (.frac (1 / 2)) (.frac (1 / 2)) draws = .ok [([4, 5, 0, 2], [6, 7, 1, 3])] := by
  refine ⟨[0, 0, 0, 0, 0, 0, 0, 0], [1, 1, 1, 1, -2, -2, -2, -2], [0, 0, 1, 1, 0, 1, 1, 1], [0, 0, 1, 1, -1, -1, -1, -1],
    [⟨[2, 1, 1], [2, 1, 1], [[0, 1, 2, 3], [0, 1], [0, 1]], [0, 1, 2, 3], [0, 1, 2, 3]⟩], ?_, by decide +kernel, by decide +kernel⟩
  intro i v h hv
  match i with
  | 0 => rfl
  | 1 => rfl
  | 2 => rfl
  | 3 => rfl
  | 4 => simp at h; omega
  | 5 => simp at h; omega
  | 6 => simp at h; omega
  | 7 => simp at h; omega
  | i + 8 => simp at h

end CrossVal

section Scorers
set_option linter.unusedSectionVars false
variable {α β F L ρ : Type}
variable {K : Type} [Field K] [LinearOrder K] [IsStrictOrderedRing K]

/-- C132 (scorers). These scorers need no target label in `y`: importance weighting, prediction entropy, neighbourhood density, deep embedded
validation, MixVal, MaNo, and the supervised scorer, which takes them from `target_labels`. -/
theorem C132_scorers (gib : Bool) [DecidableEq β] :
    (∀ (accepts : Bool) (fit : List α → Py (α → L)) (ratio : L → L → K) (scorer : F → List α → List Num → List Int → List K → Py K),
      NeedsNoTargetLabel (fun (m : F) (d : Data α β) => Score.importanceWeighted gib accepts fit ratio (scorer m) d.X d.y (.vec d.sd))) ∧
    (∀ (red : Score.Reduction) (proba : F → Option (List α → List Int → Py (List (List K))))
        (logProba : F → Option (List α → List Int → Py (List (List (Option K))))) (lg : K → Option K),
      NeedsNoTargetLabel (fun (m : F) (d : Data α β) => Score.predictionEntropy gib red (proba m) (logProba m) lg d.X d.y (.vec d.sd))) ∧
    (∀ (T : K) (proba : F → Option (List α → List Int → Py (List (List K)))) (sqrt ex lg : K → K),
      NeedsNoTargetLabel (fun (m : F) (d : Data α β) => Score.softNeighborhood gib T (proba m) sqrt ex lg d.X d.y (.vec d.sd))) ∧
    (∀ (est : F → Score.DevEst α ρ) (fitDC : List α → List Nat → Py (α → K × K)) (loss : List Num → List ρ → Py (Score.Losses K))
        (nTest : Nat → Nat) (perm : Nat → List Nat),
      NeedsNoTargetLabel (fun (m : F) (d : Data α β) => Score.dev gib (est m) fitDC loss nTest perm d.X d.y (.vec d.sd))) ∧
    (∀ (alpha : K) (kind : Score.Ice) (scorer : F → List (List K) → List β → List Int → Py K)
        (predict : F → List (List K) → List Int → Py (List β)) (perm : List Nat),
      NeedsNoTargetLabel (fun (m : F) (d : Data (List K) β) => Score.mixVal gib alpha kind (scorer m) (predict m) perm d.X d.y (.vec d.sd))) ∧
    (∀ (p threshold : K) (pw : K → K → K) (ex lg : K → K) (est : F → Score.Predictor α K),
      NeedsNoTargetLabel (fun (m : F) (d : Data α β) => Score.mano gib p threshold pw ex lg (est m) d.X d.y (.vec d.sd))) ∧
    (∀ (scoring : F → List α → List β → List Int → Py K),
      NeedsNoTargetLabel (fun (m : F) (d : Data α β) => Score.supervised gib (scoring m) d.X d.y (.vec d.sd) d.tl)) := by
  refine ⟨?_, ?_, ?_, ?_, ?_, ?_, ?_⟩
  · intro accepts fit ratio scorer m d y hd h _ _
    exact (C129_source_scorers (ρ := Unit) gib d.X d.y y d.sd hd h).1 accepts fit ratio (scorer m)
  · intro red proba logProba lg m d y hd h _ _
    exact (C129_label_free gib d.X d.y y d.sd hd (h.1.trans hd) (h.2.1.trans hd)).1 red (proba m) (logProba m) lg
  · intro T proba sqrt ex lg m d y hd h _ _
    exact (C129_label_free gib d.X d.y y d.sd hd (h.1.trans hd) (h.2.1.trans hd)).2 T (proba m) sqrt ex lg
  · intro est fitDC loss nTest perm m d y hd h _ _
    exact (C129_source_scorers (L := Unit) gib d.X d.y y d.sd hd h).2 (est m) fitDC loss nTest perm
  · intro alpha kind scorer predict perm m d y hd h hc hc'
    exact (C129_type_only (α := α) gib d.y y d.sd h.1 h.2.1 (findYType_sameKind (.inl ⟨hc, hc'⟩))).1 alpha kind (scorer m) (predict m) perm d.X hd
  · intro p threshold pw ex lg est m d y hd h hc hc'
    exact (C129_type_only (β := β) gib d.y y d.sd h.1 h.2.1 (findYType_sameKind (.inl ⟨hc, hc'⟩))).2 p threshold pw ex lg (est m) d.X hd
  · intro scoring m d y hd h _ _
    by_cases hX : d.X = []
    · have : d.y = y := by
        have h1 := h.1.trans hd; have h2 := h.2.1.trans hd
        rw [hX] at h1 h2
        rw [List.length_eq_zero_iff.1 h1, List.length_eq_zero_iff.1 h2]
      show Score.supervised gib (scoring m) d.X d.y (.vec d.sd) d.tl = Score.supervised gib (scoring m) d.X y (.vec d.sd) d.tl
      rw [this]
    · show Score.supervised gib (scoring m) d.X d.y (.vec d.sd) d.tl = Score.supervised gib (scoring m) d.X y (.vec d.sd) d.tl
      unfold Score.supervised
      rw [checkXy_vec hX (h.1.trans hd) hd, checkXy_vec hX (h.2.1.trans hd) hd]
      rfl

end Scorers
end Skada

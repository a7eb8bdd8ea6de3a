/-
Property C110: the shallow methods as wholes. What each factory's pipeline trains its final estimator on, and what that
estimator is asked about at prediction time.
-/
import Verif.Props.PipelineRun
import Verif.Props.Subspace
import Verif.Props.OT
import Verif.Model.ShallowMethods

namespace Skada
open Np Spec Map Subsp Shallow Matrix

variable {β σ : Type}

section Maps
variable {α γ : Type}

theorem sourceRows_map {sd : List Int} (g : α → γ) (X : List α) : sourceRows sd (X.map g) = (sourceRows sd X).map g := by
  simp only [sourceRows, List.zip_map_right, List.filter_map, List.map_map]
  rfl

theorem targetRows_map {sd : List Int} (g : α → γ) (X : List α) : targetRows sd (X.map g) = (targetRows sd X).map g := by
  simp only [targetRows, List.zip_map_right, List.filter_map, List.map_map]
  rfl

theorem targetRows_all {sd : List Int} {X : List α} (hl : sd.length = X.length) (h : ∀ d ∈ sd, d < 0) :
    targetRows sd X = X ∧ sourceRows sd X = [] := by
  induction sd generalizing X with
  | nil => cases X with
    | nil => exact ⟨rfl, rfl⟩
    | cons _ _ => cases hl
  | cons e sd ih =>
    cases X with
    | nil => cases hl
    | cons x X =>
      have he : e < 0 := h e (by simp)
      obtain ⟨h1, h2⟩ := ih (X := X) (by simpa using hl) (fun d hd => h d (by simp [hd]))
      constructor
      · simpa [targetRows, he] using h1
      · simpa [sourceRows, not_le.2 he] using h2

/-- A `sample_domain` argument under which `n` rows count as target rows with the labels `sdt`. -/
structure TargetArg (n : Nat) (arg : SDArg) (sdt : List Int) : Prop where
  len : sdt.length = n
  neg : ∀ d ∈ sdt, d < 0
  check : ∀ {ξ : Type} (X : List ξ), X.length = n → checkXDomain X arg { allowSource := false } = .ok (X, sdt)

theorem targetArg_of {X : List α} {p : Dict} (hX : X ≠ []) (hp : TargetParams X p) :
    ∃ arg sdt, sdArg (p.get "sample_domain") = .ok arg ∧ truthy (p.get "allow_source") = false ∧ TargetArg X.length arg sdt := by
  have hne : ∀ {ξ : Type} (Y : List ξ), Y.length = X.length → Y ≠ [] := by
    intro ξ Y hY e
    subst e
    exact hX (List.length_eq_zero_iff.1 hY.symm)
  rcases hp with rfl | ⟨sd, hl, hn, rfl⟩
  · refine ⟨.none, List.replicate X.length (-1), rfl, rfl, ⟨by simp, ?_, ?_⟩⟩
    · intro d hd; rw [List.eq_of_mem_replicate hd]; omega
    · intro ξ Y hY
      rw [check_none_refusing (hne Y hY), hY]
  · refine ⟨.vec sd, sd, ?_, rfl, ⟨hl, hn, ?_⟩⟩
    · rw [get_sd, sdArg_domParam]
    · intro ξ Y hY
      exact check_noSource (hne Y hY) (hl.trans hY.symm) (nSource_eq_zero hn) false

/-- A training call of a pipeline that ends in an ordinary estimator: one label and one domain per row, at least one source
sample, source labels that are no masks, and a final estimator that may ask for sample weights. -/
structure Spec.Setting (keep : String → Bool) (fin : Est α σ) (X : List α) (y : List Num) (sd : List Int) : Prop where
  keeps : keep "sample_domain" = true
  len : sd.length = X.length
  lenY : y.length = sd.length
  labelled : Labelled sd y
  sources : 0 < nSource sd
  noTransform : fin.hasTransform = false
  request : ∃ a : Alias, fin.fitReq = [("sample_weight", a)] ∧ (a = .yes ∨ a = .no ∨ a = .unset)

theorem Spec.Setting.ne {keep : String → Bool} {fin : Est α σ} {X : List α} {y : List Num} {sd : List Int}
    (h : Setting keep fin X y sd) : X ≠ [] ∧ sd ≠ [] := by
  have hsd : sd ≠ [] := by
    rintro rfl
    have := h.sources
    simp [nSource] at this
  refine ⟨?_, hsd⟩
  rintro rfl
  exact hsd (List.length_eq_zero_iff.1 (by simpa using h.len))

/-- The pipeline of the adapter `e` and the final estimator `fin` fits `e` to `g` and `fin` to `f`; afterwards every method
called on target data, with or without `sample_domain`, is that method of `f` on `adapt` of the data. -/
def Spec.FitsThenAsks [Cell α] (keep : String → Bool) (e fin : Est α σ) (X : List α) (y : List Num) (sd : List Int) (g f : σ)
    (adapt : List α → List α) : Prop :=
  (pipelineFit (daPipeline keep [e] fin true) X (some y) [("sample_domain", domParam sd)]).2
      = .ok ([.one g, .one f], some (maskedLabels sd y)) ∧
    ∀ (β : Type) (Xt : List α) (pt : Dict) (req : Request) (query : σ → Call α → Py β), Xt ≠ [] → TargetParams Xt pt →
      Plain req →
      pipelineRoute (fittedSteps keep true [e] [g]) (keep, ⟨fin, true, true⟩, f) req query Xt none pt
        = query f ⟨adapt Xt, none, []⟩

/-- Fitting the pipeline of one adapter and a final estimator. -/
theorem map_fit [Cell α] {φ : Type} {keep : String → Bool} (wrap : φ → σ) (unwrap : σ → φ)
    (fit : List α → Option (List Num) → SDArg → Py φ) (tr : φ → List α → SDArg → Bool → Py (List α)) {fin : Est α σ}
    {X : List α} {y : List Num} {sd : List Int} (hset : Setting keep fin X y sd) (Z : List α) (g : φ) (f : σ)
    (hg : fit X (some (maskedLabels sd y)) (.vec sd) = .ok g) (hZ : tr g X (.vec sd) true = .ok Z)
    (hZl : Z.length = sd.length) (hfit : fin.fit ⟨sourceRows sd Z, some (sourceRows sd y), []⟩ = .ok f) :
    (pipelineFit (daPipeline keep [mapEst wrap unwrap fit tr] fin true) X (some y) [("sample_domain", domParam sd)]).2
      = .ok ([.one (wrap g), .one f], some (maskedLabels sd y)) := by
  obtain ⟨a, hreq, ha⟩ := hset.request
  have hrun : (mapEst wrap unwrap fit tr).fitTransform
      ⟨X, some ((none : Option (List Num)).getD (maskedLabels sd y)), [("sample_domain", domParam sd)]⟩ =
      .ok (wrap g, .arr Z) := by
    simp only [mapEst, get_sd, sdArg_domParam, Option.getD_none, hg, hZ]
  rw [C108_training_data keep [mapEst wrap unwrap fit tr] fin X Z y sd none _ [wrap g] a hset.keeps hset.ne.2 hset.lenY
    hset.labelled (.step _ _ _ _ _ _ _ _ _ _ (Or.inl ⟨asks_adapterReq, rfl⟩) rfl rfl hrun (.rows _) (.nil _)) hZl (by simp)
    hset.noTransform hreq []
    (by rcases ha with rfl | rfl | rfl
        · exact Or.inl ⟨rfl, rfl⟩
        · exact Or.inr ⟨Or.inl rfl, rfl⟩
        · exact Or.inr ⟨Or.inr ⟨rfl, rfl⟩, rfl⟩), hfit]
  rfl

/-- Querying it. -/
theorem map_ask {φ : Type} {keep : String → Bool} (wrap : φ → σ) (unwrap : σ → φ)
    (fit : List α → Option (List Num) → SDArg → Py φ) (tr : φ → List α → SDArg → Bool → Py (List α)) (fin : Est α σ)
    (hk : keep "sample_domain" = true) (g : φ) (f : σ) (hwrap : unwrap (wrap g) = g) {Xt Zt : List α} {pt : Dict} {arg : SDArg}
    (hpt : TargetParams Xt pt) (h1 : sdArg (pt.get "sample_domain") = .ok arg) (h2 : truthy (pt.get "allow_source") = false)
    (hZt : tr g Xt arg false = .ok Zt) {req : Request} (hq : Plain req) (query : σ → Call α → Py β) :
    pipelineRoute (fittedSteps keep true [mapEst wrap unwrap fit tr] [wrap g]) (keep, ⟨fin, true, true⟩, f) req query
      Xt none pt = query f ⟨Zt, none, []⟩ := by
  have ht : (mapEst wrap unwrap fit tr).transform (wrap g) Xt pt = .ok (.arr Zt) := by
    simp only [mapEst, h1, h2, hwrap, hZt]
  exact C109_predict keep true [mapEst wrap unwrap fit tr] [wrap g] fin f req query Xt Zt pt hk hq hpt
    (.step _ _ _ _ _ _ _ rfl asks_adapterReq ht (.nil _))

/-- The two together. -/
theorem map_method [Cell α] {φ : Type} {keep : String → Bool} (wrap : φ → σ) (unwrap : σ → φ)
    (fit : List α → Option (List Num) → SDArg → Py φ) (tr : φ → List α → SDArg → Bool → Py (List α)) {fin : Est α σ}
    {X : List α} {y : List Num} {sd : List Int} (hset : Setting keep fin X y sd) (Z : List α) (g : φ) (f : σ)
    (hwrap : unwrap (wrap g) = g)
    (hg : fit X (some (maskedLabels sd y)) (.vec sd) = .ok g) (hZ : tr g X (.vec sd) true = .ok Z)
    (hZl : Z.length = sd.length) (hfit : fin.fit ⟨sourceRows sd Z, some (sourceRows sd y), []⟩ = .ok f)
    (adapt : List α → List α)
    (hadapt : ∀ Xt arg sdt, Xt ≠ [] → TargetArg Xt.length arg sdt → tr g Xt arg false = .ok (adapt Xt)) :
    FitsThenAsks keep (mapEst wrap unwrap fit tr) fin X y sd (wrap g) f adapt := by
  refine ⟨map_fit wrap unwrap fit tr hset Z g f hg hZ hZl hfit, fun β Xt pt req query hXt hpt hq => ?_⟩
  obtain ⟨arg, sdt, h1, h2, h3⟩ := targetArg_of hXt hpt
  exact map_ask wrap unwrap fit tr fin hset.keeps g f hwrap hpt h1 h2 (hadapt Xt arg sdt hXt h3) hq query

end Maps

section Methods
variable {K : Type} [Field K] [LinearOrder K] [Cell (List K)]

omit [LinearOrder K] [Cell (List K)] in
theorem length_vecs (d : Nat) (X : List (List K)) : (vecs d X).length = X.length := List.length_map _

omit [LinearOrder K] [Cell (List K)] in
theorem vecs_ne {d : Nat} {X : List (List K)} (h : X ≠ []) : vecs d X ≠ [] := by
  simpa [vecs] using h

/-- Merging when all rows are target rows. -/
theorem merge_targets {ξ : Type} [Cell ξ] {sdt : List Int} (s t : NArr ξ) (hsd : sdt ≠ []) (hneg : ∀ d ∈ sdt, d < 0)
    (hs : s.rows = []) (ht : t.rows.length = sdt.length) (hc : ∀ (T : DType) (r : ξ), Cell.cast T r = r) :
    ∃ out, mergeN s t sdt = .ok out ∧ out.rows = t.rows := by
  have h0 := nSource_eq_zero hneg
  have hnt : nTarget sdt = sdt.length := by have := nSource_add_nTarget sdt; omega
  obtain ⟨out, ho, hol, -, -, -, hot⟩ := mergeN_ok (s := s) (t := t) hsd (by simp [hs, h0]) (by rw [ht, hnt])
    (fun h => absurd hs h)
  refine ⟨out, ho, ?_⟩
  rw [(targetRows_all hol.symm hneg).1] at hot
  rw [hot]
  have : (Cell.cast (mergedDtype s t) : ξ → ξ) = id := funext (hc _)
  rw [this, List.map_id]

theorem targetArg_split {ξ : Type} {n : Nat} {arg : SDArg} {sdt : List Int} (h : TargetArg n arg sdt) (hn : n ≠ 0)
    (X : List ξ) (hX : X.length = n) :
    sdt ≠ [] ∧ sdt.length = X.length ∧ RW.splitX X sdt = .ok ([], X) := by
  have hsd : sdt ≠ [] := by
    intro e
    have := h.len
    rw [e] at this
    exact hn this.symm
  have hl : sdt.length = X.length := h.len.trans hX.symm
  refine ⟨hsd, hl, ?_⟩
  rw [RW.splitX_ok hsd hl, (targetRows_all hl h.neg).1, (targetRows_all hl h.neg).2]

omit [LinearOrder K] [Cell (List K)] in
/-- C110 (rows). The adapters see exactly the numbers of the rows: rows of `d` numbers are read as vectors and written back
without change. -/
theorem C110_rows {d : Nat} (X : List (List K)) (h : ∀ r ∈ X, r.length = d) :
    (∀ r ∈ X, ∀ (j : Fin d) v, r[j.val]? = some v → vecRow d r j = v) ∧ toRows (.ok (vecs d X)) = .ok X := by
  refine ⟨fun r _ j v hv => by simp [vecRow, List.getD_eq_getElem?_getD, hv], ?_⟩
  simp only [toRows, vecs, List.map_map]
  congr 1
  refine (List.map_congr_left fun r hr => ?_).trans (List.map_id _)
  apply List.ext_getElem
  · simp [h r hr]
  · intro i h1 h2
    have h3 : i < r.length := h2
    simp [vecRow, List.getD_eq_getElem?_getD, h3]

example := C110_rows (K := ℚ) (d := 2) [[0, 1], [3, 5]] (by simp)

/-- C110 (CORAL). The final estimator of `CORAL` is trained on the source rows `(x − source mean)·cov_s^{-1/2}·cov_t^{1/2}` with
their labels.  With `reg=None` (empirical covariances, positive definite for the sources) these training rows have mean zero
and the covariance of the target rows.  At prediction time the estimator is asked about `x − target mean`.  With
`assume_centered=True` nothing is centred and the covariances are second moments about zero. -/
theorem C110_coral [IsStrictOrderedRing K] {d : Nat} (keep : String → Bool) (wrap : Coral K d → σ) (unwrap : σ → Coral K d)
    (hwrap : ∀ g, unwrap (wrap g) = g) (cov : List (Fin d → K) → Matrix (Fin d) (Fin d) K)
    (sqrtM invsqrtM : Matrix (Fin d) (Fin d) K → Matrix (Fin d) (Fin d) K) (ac : Bool) (fin : Est (List K) σ)
    (X : List (List K)) (y : List Num) (sd : List Int) (hset : Setting keep fin X y sd) (ht : 0 < nTarget sd)
    (f : σ) (S T Z : List (Fin d → K)) (hS : S = vecs d (sourceRows sd X)) (hT : T = vecs d (targetRows sd X))
    (hZ : Z = S.map (fun x => ((x - if ac then 0 else colMean S) ᵥ* invsqrtM (cov S)) ᵥ* sqrtM (cov T)))
    (hfit : fin.fit ⟨Z.map List.ofFn, some (sourceRows sd y), []⟩ = .ok f) :
    (∃ g, FitsThenAsks keep (coralEst wrap unwrap cov sqrtM invsqrtM ac) fin X y sd g f
      (fun Xt => (vecs d Xt).map (fun x => List.ofFn (x - if ac then 0 else colMean T)))) ∧
    ∀ (sqrt : K → K) (eigh : Matrix (Fin d) (Fin d) K → (Fin d → K) × Matrix (Fin d) (Fin d) K),
      cov = empCov ac → sqrtM = sqrtm sqrt eigh → invsqrtM = invsqrtm sqrt eigh →
      EighOf true sqrt eigh (empCov ac S) → EighOf false sqrt eigh (empCov ac T) →
      empCov ac Z = empCov ac T ∧ (ac = false → colMean Z = 0) := by
  obtain ⟨hX, hsd⟩ := hset.ne
  have hs := hset.sources
  have hlv : sd.length = (vecs d X).length := by rw [length_vecs, hset.len]
  have hS' : sourceRows sd (vecs d X) = S := by rw [hS]; exact sourceRows_map _ _
  have hT' : targetRows sd (vecs d X) = T := by rw [hT]; exact targetRows_map _ _
  obtain ⟨out, ho, hol, hos, -⟩ := coral_out cov sqrtM invsqrtM ac ⟨.float, [d], vecs d X⟩ sd hlv hs ht
  have hZ' : sourceRows sd out.rows = Z := by
    rw [hos]
    dsimp only
    rw [hS', hT', hZ]
    rfl
  let g : Coral K d := { meanSource := colMean S, meanTarget := colMean T, covSourceInvSqrt := invsqrtM (cov S)
                         covTargetSqrt := sqrtM (cov T) }
  have hg : coralFit cov sqrtM invsqrtM ⟨.float, [d], vecs d X⟩ (.vec sd) = .ok g := by
    have h1 := length_sourceRows hlv
    have h2 := length_targetRows hlv
    simp only [coralFit, RW.check_ok (vecs_ne hX) hlv, ok_bind, splitN_ok (X := ⟨.float, [d], vecs d X⟩) hsd hlv, h1, h2]
    rw [if_neg (by omega), hS', hT']
    rfl
  have ho' : coralTransform g ac ⟨.float, [d], vecs d X⟩ (.vec sd) true = .ok out := by
    simpa only [coralFitTransform, hg, ok_bind] using ho
  refine ⟨⟨wrap g, map_method wrap unwrap
    (fun X _ sd => coralFit cov sqrtM invsqrtM ⟨.float, [d], vecs d X⟩ sd)
    (fun F X sd allowSource => toRows (rowsOf (coralTransform F ac ⟨.float, [d], vecs d X⟩ sd allowSource)))
    hset (out.rows.map List.ofFn) g f (hwrap g) hg
    (by simp only [ho', rowsOf, toRows]) (by rw [List.length_map, hol, ← hlv])
    (by rw [sourceRows_map, hZ']; exact hfit) _ (fun Xt arg sdt hXt h => ?_)⟩, fun sqrt eigh hcov hsq hisq hes het => ?_⟩
  · have hn : Xt.length ≠ 0 := fun e => hXt (List.length_eq_zero_iff.1 e)
    obtain ⟨h1, h2, h3⟩ := targetArg_split h hn (vecs d Xt) (length_vecs d Xt)
    have hc := h.check (vecs d Xt) (length_vecs d Xt)
    obtain ⟨o, ho1, ho2⟩ := merge_targets (sdt := sdt) (⟨.float, [d], []⟩ : NArr (Fin d → K))
      ⟨.float, [d], (vecs d Xt).map (fun x => x - if ac then 0 else colMean T)⟩ h1 h.neg rfl (by simp [h2])
      (fun _ _ => rfl)
    have hpos : 0 < (vecs d Xt).length := by rw [length_vecs]; omega
    have : coralTransform g ac ⟨.float, [d], vecs d Xt⟩ arg false = .ok o := by
      simp only [coralTransform, hc, ok_bind, splitN, h3, pure_ok, List.length_nil, lt_irrefl, if_false, hpos, true_and]
      cases ac with
      | true => simpa using ho1
      | false => simpa using ho1
    simp only [this, rowsOf, toRows, ho2, List.map_map]
    rfl
  · obtain ⟨out', ho2, h1, -, h2⟩ := C64_coral_aligns sqrt eigh cov ac ⟨.float, [d], vecs d X⟩ sd hlv hs ht
      (by show EighOf true sqrt eigh (empCov ac (sourceRows sd (vecs d X))); rw [hS']; exact hes)
      (by show EighOf false sqrt eigh (empCov ac (targetRows sd (vecs d X))); rw [hT']; exact het)
    have he : out' = out := by
      have hcov' : estimateCov cov none ac = cov := by rw [hcov]; rfl
      rw [hcov', ← hsq, ← hisq, ho] at ho2
      exact (Except.ok.inj ho2).symm
    subst he
    have h1' : empCov ac (sourceRows sd out'.rows) = empCov ac (targetRows sd (vecs d X)) := h1
    rw [hZ', hT'] at h1'
    rw [hZ'] at h2
    exact ⟨h1', fun h => (h2 h).1⟩

omit [LinearOrder K] [Cell (List K)] in
/-- Merging mapped halves. -/
theorem merge_mapped {d p : Nat} (u v : (Fin d → K) → (Fin p → K)) (X : List (Fin d → K)) (sd : List Int) (hsd : sd ≠ [])
    (hlen : sd.length = X.length) :
    ∃ out, mergeN ⟨.float, [p], (sourceRows sd X).map u⟩ ⟨.float, [p], (targetRows sd X).map v⟩ sd = .ok out ∧
      out.rows.length = sd.length ∧ sourceRows sd out.rows = (sourceRows sd X).map u := by
  obtain ⟨out, ho, hol, -, -, hos, -⟩ := mergeN_ok (s := ⟨.float, [p], (sourceRows sd X).map u⟩)
    (t := ⟨.float, [p], (targetRows sd X).map v⟩) hsd (by simp [length_sourceRows hlen]) (by simp [length_targetRows hlen])
    (fun _ _ => rfl)
  refine ⟨out, ho, hol, hos.trans ?_⟩
  have : (Cell.cast (mergedDtype (⟨.float, [p], (sourceRows sd X).map u⟩ : NArr (Fin p → K))
    ⟨.float, [p], (targetRows sd X).map v⟩) : (Fin p → K) → (Fin p → K)) = id := rfl
  rw [this, List.map_id]

omit [LinearOrder K] in
/-- C110 (subspace alignment). With `n_components` at most the number of features, of source rows and of target rows: the
final estimator is trained on the source rows projected on the source components and moved into the target basis, with
their labels, and asked about the projections of the data on the target components. -/
theorem C110_subspace_alignment {d : Nat} (keep : String → Bool) (wrap : (Σ p, Pca K d p × Pca K d p) → σ)
    (unwrap : σ → Σ p, Pca K d p × Pca K d p) (hwrap : ∀ g, unwrap (wrap g) = g)
    (pca : ∀ p, List (Fin d → K) → Pca K d p) (p : Nat) (fin : Est (List K) σ) (X : List (List K)) (y : List Num)
    (sd : List Int) (hset : Setting keep fin X y sd) (h1 : p ≤ d) (h2 : p ≤ nSource sd) (h3 : p ≤ nTarget sd)
    (ht : 0 < nTarget sd) (f : σ) (S T : List (Fin d → K)) (hS : S = vecs d (sourceRows sd X))
    (hT : T = vecs d (targetRows sd X)) (Ps Pt : Pca K d p) (hPs : Ps = pca p S) (hPt : Pt = pca p T)
    (hfit : fin.fit ⟨S.map (fun x => List.ofFn
      (((x - Ps.mean) ᵥ* Ps.comps.transpose) ᵥ* (Ps.comps * Pt.comps.transpose))), some (sourceRows sd y), []⟩ = .ok f) :
    ∃ g, FitsThenAsks keep (saEst wrap unwrap pca (some p)) fin X y sd g f
      (fun Xt => (vecs d Xt).map (fun x => List.ofFn ((x - Pt.mean) ᵥ* Pt.comps.transpose))) := by
  obtain ⟨hX, hsd⟩ := hset.ne
  have hs := hset.sources
  have hlv : sd.length = (vecs d X).length := by rw [length_vecs, hset.len]
  have hS' : sourceRows sd (vecs d X) = S := by rw [hS]; exact sourceRows_map _ _
  have hT' : targetRows sd (vecs d X) = T := by rw [hT]; exact targetRows_map _ _
  obtain ⟨out, ho, hol, hos⟩ := merge_mapped (fun x => Ps.apply x ᵥ* (Ps.comps * Pt.comps.transpose)) Pt.apply (vecs d X) sd
    hsd hlv
  have hg : saFit pca (some p) (vecs d X) (.vec sd) = .ok ⟨p, Ps, Pt⟩ := by
    have e1 : S.length = nSource sd := by rw [← hS']; exact length_sourceRows hlv
    have e2 : T.length = nTarget sd := by rw [← hT']; exact length_targetRows hlv
    have c1 : pcaCheck S.length d p = .ok () := by
      unfold pcaCheck; rw [if_neg (by omega), if_neg (by omega)]
    have c2 : pcaCheck T.length d p = .ok () := by
      unfold pcaCheck; rw [if_neg (by omega), if_neg (by omega)]
    simp only [saFit, saFitArgs, RW.check_ok (vecs_ne hX) hlv, ok_bind, RW.splitX_ok hsd hlv, hS', hT', nComponents, c1, c2,
      pure_ok, hPs, hPt]
  refine ⟨wrap ⟨p, Ps, Pt⟩, map_method wrap unwrap (fun X _ sd => saFit pca (some p) (vecs d X) sd)
    (fun F X sd allowSource => toRows (rowsOf (saTransform F.2.1 F.2.2 ⟨.float, [d], vecs d X⟩ sd allowSource)))
    hset (out.rows.map List.ofFn) ⟨p, Ps, Pt⟩ f (hwrap _) hg ?_ (by rw [List.length_map, hol]) ?_ _
    (fun Xt arg sdt hXt h => ?_)⟩
  · have : saTransform Ps Pt ⟨.float, [d], vecs d X⟩ (.vec sd) true = .ok out := by
      simp only [saTransform, RW.check_ok (vecs_ne hX) hlv, ok_bind, RW.splitX_ok hsd hlv]
      exact ho
    simp only [this, rowsOf, toRows]
  · rw [sourceRows_map, hos, hS', List.map_map]
    exact hfit
  · have hn : Xt.length ≠ 0 := fun e => hXt (List.length_eq_zero_iff.1 e)
    obtain ⟨e1, e2, e3⟩ := targetArg_split h hn (vecs d Xt) (length_vecs d Xt)
    obtain ⟨o, ho1, ho2⟩ := merge_targets (sdt := sdt) (⟨.float, [p], []⟩ : NArr (Fin p → K))
      ⟨.float, [p], (vecs d Xt).map Pt.apply⟩ e1 h.neg rfl (by simp [e2]) (fun _ _ => rfl)
    have : saTransform Ps Pt ⟨.float, [d], vecs d Xt⟩ arg false = .ok o := by
      simp only [saTransform, h.check (vecs d Xt) (length_vecs d Xt), ok_bind, e3, List.map_nil]
      exact ho1
    simp only [this, rowsOf, toRows, ho2, List.map_map]
    rfl

omit [LinearOrder K] in
/-- C110 (transfer subspace learning). With `W` the matrix optimised from the source rows, their labels and the target
rows: the final estimator is trained on `x·W` for the source rows, with their labels, and asked about `x·W`. -/
theorem C110_transfer_subspace_learning {d p : Nat} (keep : String → Bool) (wrap : Matrix (Fin d) (Fin p) K → σ)
    (unwrap : σ → Matrix (Fin d) (Fin p) K) (hwrap : ∀ g, unwrap (wrap g) = g)
    (opt : List (Fin d → K) → List Num → List (Fin d → K) → Matrix (Fin d) (Fin p) K) (fin : Est (List K) σ)
    (X : List (List K)) (y : List Num) (sd : List Int) (hset : Setting keep fin X y sd) (f : σ) (S T : List (Fin d → K))
    (hS : S = vecs d (sourceRows sd X)) (hT : T = vecs d (targetRows sd X)) (W : Matrix (Fin d) (Fin p) K)
    (hW : W = opt S (sourceRows sd y) T)
    (hfit : fin.fit ⟨S.map (fun x => List.ofFn (x ᵥ* W)), some (sourceRows sd y), []⟩ = .ok f) :
    FitsThenAsks keep (tslEst wrap unwrap opt) fin X y sd (wrap W) f
      (fun Xt => (vecs d Xt).map (fun x => List.ofFn (x ᵥ* W))) := by
  obtain ⟨hX, hsd⟩ := hset.ne
  have hlv : sd.length = (vecs d X).length := by rw [length_vecs, hset.len]
  have hS' : sourceRows sd (vecs d X) = S := by rw [hS]; exact sourceRows_map _ _
  have hT' : targetRows sd (vecs d X) = T := by rw [hT]; exact targetRows_map _ _
  obtain ⟨out, ho, hol, hos⟩ := merge_mapped (fun x => x ᵥ* W) (fun x => x ᵥ* W) (vecs d X) sd hsd hlv
  have hg : tslFit opt (vecs d X) (some (maskedLabels sd y)) (.vec sd) = .ok W := by
    simp only [tslFit, RW.check_ok (vecs_ne hX) hlv, ok_bind, RW.splitX_ok hsd hlv,
      RW.splitX_ok hsd (length_maskedLabels hset.lenY).symm, sourceRows_masked hset.lenY, pure_ok, hS', hT', hW]
  refine map_method wrap unwrap (fun X y sd => tslFit opt (vecs d X) y sd)
    (fun F X sd allowSource => toRows (rowsOf (tslTransform F ⟨.float, [d], vecs d X⟩ sd allowSource)))
    hset (out.rows.map List.ofFn) W f (hwrap _) hg ?_ (by rw [List.length_map, hol]) ?_ _
    (fun Xt arg sdt hXt h => ?_)
  · have : tslTransform W ⟨.float, [d], vecs d X⟩ (.vec sd) true = .ok out := by
      simp only [tslTransform, RW.check_ok (vecs_ne hX) hlv, ok_bind, RW.splitX_ok hsd hlv]
      exact ho
    simp only [this, rowsOf, toRows]
  · rw [sourceRows_map, hos, hS', List.map_map]
    exact hfit
  · have hn : Xt.length ≠ 0 := fun e => hXt (List.length_eq_zero_iff.1 e)
    obtain ⟨e1, e2, e3⟩ := targetArg_split h hn (vecs d Xt) (length_vecs d Xt)
    obtain ⟨o, ho1, ho2⟩ := merge_targets (sdt := sdt) (⟨.float, [p], []⟩ : NArr (Fin p → K))
      ⟨.float, [p], (vecs d Xt).map (fun x => x ᵥ* W)⟩ e1 h.neg rfl (by simp [e2]) (fun _ _ => rfl)
    have : tslTransform W ⟨.float, [d], vecs d Xt⟩ arg false = .ok o := by
      simp only [tslTransform, h.check (vecs d Xt) (length_vecs d Xt), ok_bind, e3, List.map_nil]
      exact ho1
    simp only [this, rowsOf, toRows, ho2, List.map_map]
    rfl

/-- C110 (TCA and TJM, what the code does). For every interleaving: the final estimator is trained with the labels of the
source rows on those rows of the list "embeddings of all source rows, then of all target rows" that stand at the source
*positions of the input*; at prediction time it is asked about the embeddings of the data. -/
theorem kernel_method {p : Nat} (keep : String → Bool) (wrap : Embedding (List K) K p → σ)
    (unwrap : σ → Embedding (List K) K p) (hwrap : ∀ g, unwrap (wrap g) = g) (k : List K → List K → K)
    (hk : ∀ a b, k a b = k b a) (eig : List (List K) → Nat → Nat → Py (List (Fin p → K))) (fin : Est (List K) σ)
    (X : List (List K)) (y : List Num) (sd : List Int) (hset : Setting keep fin X y sd) (f : σ) (V : List (Fin p → K))
    (hV : eig (kernelBlock k (sourceRows sd X) (targetRows sd X)) (nSource sd) (nTarget sd) = .ok V)
    (F : Embedding (List K) K p) (hF : F = ⟨sourceRows sd X, targetRows sd X, V⟩)
    (hfit : fin.fit ⟨sourceRows sd ((sourceRows sd X ++ targetRows sd X).map (fun x => List.ofFn (embed k F x))),
      some (sourceRows sd y), []⟩ = .ok f) :
    FitsThenAsks keep (kernelEst wrap unwrap k eig) fin X y sd (wrap F) f
      (fun Xt => Xt.map (fun x => List.ofFn (embed k F x))) := by
  obtain ⟨hX, hsd⟩ := hset.ne
  subst hF
  have hg := kernelFit_ok k eig X sd hX hset.len V hV
  refine map_method wrap unwrap (fun X _ sd => kernelFit k eig X sd)
    (fun F X sd allowSource => toRows (kernelTransform k F X sd allowSource))
    hset ((sourceRows sd X ++ targetRows sd X).map (fun x => List.ofFn (embed k _ x))) _ f (hwrap _) hg ?_ ?_ hfit _
    (fun Xt arg sdt hXt h => ?_)
  · simp only [kernelTransform_ok k hk _ X sd hX hset.len, and_self, if_true, toRows, List.map_map]
    rfl
  · rw [List.length_map, List.length_append, length_sourceRows hset.len, length_targetRows hset.len, nSource_add_nTarget]
  · have hn : Xt.length ≠ 0 := fun e => hXt (List.length_eq_zero_iff.1 e)
    obtain ⟨e1, e2, e3⟩ := targetArg_split h hn Xt rfl
    have hne : ¬ ([] = sourceRows sd X ∧ Xt = targetRows sd X) := by
      rintro ⟨e, -⟩
      have := length_sourceRows (a := X) hset.len
      rw [← e] at this
      have := hset.sources
      simp at *
      omega
    simp only [kernelTransform, h.check Xt rfl, ok_bind, e3]
    rw [if_neg hne, zipWith_gram, List.map_map]
    simp only [pure_ok, toRows, List.map_map]
    refine congrArg Except.ok (List.map_congr_left fun x _ => ?_)
    exact congrArg List.ofFn (rowMul_map k ⟨sourceRows sd X, targetRows sd X, V⟩ x)

/-- C110 (TCA and TJM), partial: when every source row of the training data precedes every target row, the final estimator is
trained on the embeddings of the source rows with their own labels, and asked about the embeddings of the data.  Missing:
other layouts, where it fails (`C110_kernel_counterexample`). -/
theorem C110_kernel_partial {p : Nat} (keep : String → Bool) (wrap : Embedding (List K) K p → σ)
    (unwrap : σ → Embedding (List K) K p) (hwrap : ∀ g, unwrap (wrap g) = g) (k : List K → List K → K)
    (hk : ∀ a b, k a b = k b a) (eig : List (List K) → Nat → Nat → Py (List (Fin p → K))) (fin : Est (List K) σ)
    (X : List (List K)) (y : List Num) (sd : List Int) (hset : Setting keep fin X y sd)
    (hs : sd.Pairwise (fun a b => a < 0 → b < 0)) (f : σ) (V : List (Fin p → K))
    (hV : eig (kernelBlock k (sourceRows sd X) (targetRows sd X)) (nSource sd) (nTarget sd) = .ok V)
    (F : Embedding (List K) K p) (hF : F = ⟨sourceRows sd X, targetRows sd X, V⟩)
    (hfit : fin.fit ⟨(sourceRows sd X).map (fun x => List.ofFn (embed k F x)), some (sourceRows sd y), []⟩ = .ok f) :
    FitsThenAsks keep (kernelEst wrap unwrap k eig) fin X y sd (wrap F) f
      (fun Xt => Xt.map (fun x => List.ofFn (embed k F x))) := by
  refine kernel_method keep wrap unwrap hwrap k hk eig fin X y sd hset f V hV F hF ?_
  rw [rows_sorted hset.len hs, sourceRows_map]
  exact hfit

/-! #### Multi-domain linear Monge alignment -/

omit [Field K] [LinearOrder K] in
/-- C110 (multi-domain linear Monge alignment), partial: on float data, the final estimator is trained on the source rows mapped by
the maps of their own domains, with their labels, and — for data given with labels of target domains seen during `fit` —
asked about the rows mapped by the maps of their own domains.  Missing: data given without `sample_domain` and data of
other target domains, where it fails (`C110_monge_unknown_domain`). -/
theorem C110_monge_partial {γ δ : Type} (keep : String → Bool) (wrap : List (Int × (List K → List K)) → σ)
    (unwrap : σ → List (Int × (List K → List K))) (hwrap : ∀ g, unwrap (wrap g) = g) (covMean : List (List K) → γ)
    (bary : List γ → δ) (mapping : γ → δ → List K → List K) (d : Nat) (fin : Est (List K) σ) (X : List (List K))
    (y : List Num) (sd : List Int) (hset : Setting keep fin X y sd)
    (hcast : ∀ r : List K, Cell.cast DType.float r = r) :
    ∃ ks : List Int, ks.Pairwise (· < ·) ∧ (∀ k, k ∈ ks ↔ k ∈ sd ∧ 0 ≤ k) ∧
      ∀ (m : Int → List K → List K),
        (m = fun k => mapping (covMean (domainRows k sd X)) (bary (ks.map (fun j => covMean (domainRows j sd X))))) →
        ∀ f : σ, fin.fit ⟨List.zipWith m (sd.filter (fun l => decide (0 ≤ l))) (sourceRows sd X), some (sourceRows sd y), []⟩
            = .ok f →
        ∃ g, (pipelineFit (daPipeline keep [mongeEst wrap unwrap covMean bary mapping d] fin true) X (some y)
            [("sample_domain", domParam sd)]).2 = .ok ([.one g, .one f], some (maskedLabels sd y)) ∧
          ∀ (Xt : List (List K)) (sdt : List Int) (req : Request) (query : σ → Call (List K) → Py β), Xt ≠ [] →
            sdt.length = Xt.length → (∀ l ∈ sdt, l < 0 ∧ l ∈ sd) → Plain req →
            pipelineRoute (fittedSteps keep true [mongeEst wrap unwrap covMean bary mapping d] [g])
              (keep, ⟨fin, true, true⟩, f) req query Xt none [("sample_domain", domParam sdt)]
              = query f ⟨List.zipWith m sdt Xt, none, []⟩ := by
  obtain ⟨hX, hsd⟩ := hset.ne
  obtain ⟨maps, ks, hfit0, hp, hks, hdom, hlook⟩ := (C65_fit covMean bary mapping X sd hX hset.len).1 hset.sources
  refine ⟨ks, hp, hks, ?_⟩
  rintro m rfl f hfit
  set m : Int → List K → List K := fun k => mapping (covMean (domainRows k sd X))
    (bary (ks.map (fun j => covMean (domainRows j sd X)))) with hm
  have rows : ∀ (W : List (List K)) (l : List Int), W ≠ [] → l.length = W.length → (∀ e ∈ l, e ∈ sd) →
      rowsOf (mongeTransform maps ⟨.float, [d], W⟩ (.vec l)) = .ok (List.zipWith m l W) := by
    intro W l hW hl hmem
    obtain ⟨out, ho, hol, hrow⟩ := C65_rows_partial maps m ⟨.float, [d], W⟩ l hW hl
      (fun e he => hlook e (hmem e he)) (fun _ _ => hcast _)
    rw [ho]
    refine congrArg Except.ok (List.ext_getElem? fun i => ?_)
    rcases lt_or_ge i W.length with hi | hi
    · have h1 : l[i]? = some (l[i]'(by omega)) := List.getElem?_eq_getElem (by omega)
      have h2 : W[i]? = some W[i] := List.getElem?_eq_getElem hi
      rw [hrow i _ _ h1 h2, List.getElem?_zipWith, h1, h2]
    · have hol' : out.rows.length = W.length := hol
      rw [List.getElem?_eq_none (by omega), List.getElem?_eq_none (by simp; omega)]
  refine ⟨wrap maps, map_fit wrap unwrap (fun X _ sd => mongeFit covMean bary mapping X sd)
    (fun maps X sd _ => rowsOf (mongeTransform maps ⟨.float, [d], X⟩ sd)) hset (List.zipWith m sd X) maps f hfit0
    (rows X sd hX hset.len (fun _ h => h)) (by simp [hset.len]) ?_, ?_⟩
  · have : ∀ (l : List Int) (W : List (List K)), l.length = W.length →
        sourceRows l (List.zipWith m l W) = List.zipWith m (l.filter (fun l => decide (0 ≤ l))) (sourceRows l W) := by
      intro l
      induction l with
      | nil => intro W _; simp [sourceRows]
      | cons e l ih =>
        intro W hl
        cases W with
        | nil => cases hl
        | cons x W =>
          have := ih W (by simpa using hl)
          by_cases he : 0 ≤ e
          · simpa [sourceRows, he] using this
          · simpa [sourceRows, he] using this
    rw [this sd X hset.len]
    exact hfit
  · intro Xt sdt req query hXt hl hmem hq
    refine map_ask wrap unwrap (fun X _ sd => mongeFit covMean bary mapping X sd)
      (fun maps X sd _ => rowsOf (mongeTransform maps ⟨.float, [d], X⟩ sd)) fin hset.keeps maps f (hwrap _)
      (Or.inr ⟨sdt, hl, fun e he => (hmem e he).1, rfl⟩) (by rw [get_sd, sdArg_domParam]) rfl
      (rows Xt sdt hXt hl (fun e he => (hmem e he).2)) hq query

omit [Field K] [LinearOrder K] in
/-- C110 fails for multi-domain linear Monge alignment: data given without `sample_domain` count as domain -1, so unless that label
was a training domain, every prediction raises `KeyError`; likewise for target data with a new label. -/
theorem C110_monge_unknown_domain {γ δ : Type} (keep : String → Bool) (wrap : List (Int × (List K → List K)) → σ)
    (unwrap : σ → List (Int × (List K → List K))) (hwrap : ∀ g, unwrap (wrap g) = g) (covMean : List (List K) → γ)
    (bary : List γ → δ) (mapping : γ → δ → List K → List K) (d : Nat) (fin : Est (List K) σ) (f : σ) (X : List (List K))
    (sd : List Int) (hX : X ≠ []) (hlen : sd.length = X.length) (maps : List (Int × (List K → List K)))
    (hfit : mongeFit covMean bary mapping X (.vec sd) = .ok maps) (hk : keep "sample_domain" = true)
    (Xt : List (List K)) (hXt : Xt ≠ []) (req : Request) (query : σ → Call (List K) → Py β) :
    (-1 ∉ sd → pipelineRoute (fittedSteps keep true [mongeEst wrap unwrap covMean bary mapping d] [wrap maps])
      (keep, ⟨fin, true, true⟩, f) req query Xt none [] = .error .keyError) ∧
    ∀ sdt : List Int, sdt.length = Xt.length → (∃ l ∈ sdt, l ∉ sd) →
      pipelineRoute (fittedSteps keep true [mongeEst wrap unwrap covMean bary mapping d] [wrap maps])
        (keep, ⟨fin, true, true⟩, f) req query Xt none [("sample_domain", domParam sdt)] = .error .keyError := by
  have hs : 0 < nSource sd := by
    by_contra h
    rw [(C65_fit covMean bary mapping X sd hX hlen).2 (by omega)] at hfit
    cases hfit
  obtain ⟨maps', ks, hfit0, -, -, hdom, -⟩ := (C65_fit covMean bary mapping X sd hX hlen).1 hs
  rw [hfit] at hfit0
  obtain rfl := Except.ok.inj hfit0
  have hreq : (mongeEst wrap unwrap covMean bary mapping d).transformReq = adapterReq := rfl
  have htr : (mongeEst wrap unwrap covMean bary mapping d).hasTransform = true := rfl
  constructor
  · intro h1
    have hne : List.replicate Xt.length (-1 : Int) ≠ [] := by
      intro h; exact hXt (List.length_eq_zero_iff.1 (by simpa using h))
    have hc : checkXDomain Xt .none {} = checkXDomain Xt (.vec (List.replicate Xt.length (-1))) {} := by
      rw [RW.check_ok hXt (by simp)]
      simp only [checkXDomain, hXt, if_false, Bool.not_true, Bool.false_eq_true, defaultTargetOnly]
      have := RW.check_ok (X := Xt) (sd := List.replicate Xt.length (-1)) hXt (by simp)
      simpa only [checkXDomain, hXt, if_false, Bool.false_eq_true] using this
    have ht : mongeTransform maps ⟨.float, [d], Xt⟩ .none = .error .keyError := by
      rw [← C65_unknown_domain maps ⟨.float, [d], Xt⟩ (List.replicate Xt.length (-1)) hXt (by simp)
        ⟨-1, List.mem_replicate.2 ⟨fun e => hXt (List.length_eq_zero_iff.1 e), rfl⟩, fun h => h1 ((hdom _).1 h)⟩]
      simp only [mongeTransform, hc]
    have hcons : consumeParams adapterReq [] = [] := rfl
    simp only [fittedSteps, List.zipWith_cons_cons, pipelineRoute, Sel.sharedTransform, prepareRouting, htr, hreq,
      Bool.not_true, Bool.or_false, Bool.false_eq_true, if_false, List.filter_nil, hcons]
    simp only [mongeEst, mapEst, Dict.get, List.lookup_nil, Option.getD_none, sdArg, hwrap, ht, rowsOf]
  · rintro sdt hl ⟨l, hl1, hl2⟩
    have ht : mongeTransform maps ⟨.float, [d], Xt⟩ (.vec sdt) = .error .keyError :=
      C65_unknown_domain maps ⟨.float, [d], Xt⟩ sdt hXt hl ⟨l, hl1, fun h => hl2 ((hdom _).1 h)⟩
    simp only [fittedSteps, List.zipWith_cons_cons, pipelineRoute, Sel.sharedTransform, prepareRouting, htr, hreq,
      Bool.not_true, Bool.or_false, Bool.false_eq_true, if_false, keep_sd hk,
      consume_domain asks_adapterReq (params := [("sample_domain", domParam sdt)]) List.lookup_cons_self (by rfl)]
    simp only [mongeEst, mapEst, get_sd, sdArg_domParam, hwrap, ht, rowsOf]

/-! #### MMD location-scale mapping -/

theorem unique_map {α γ : Type} [LinearOrder α] [LinearOrder γ] {u : α → γ} (hu : StrictMono u) (l : List α) :
    unique (l.map u) = (unique l).map u := by
  have ins : ∀ (x : α) (l : List α), insertU (u x) (l.map u) = (insertU x l).map u := by
    intro x l
    induction l with
    | nil => rfl
    | cons y l ih =>
      simp only [List.map_cons, insertU, hu.lt_iff_lt]
      split
      · rfl
      · split
        · rw [ih]; rfl
        · rfl
  induction l with
  | nil => rfl
  | cons x l ih =>
    show insertU (u x) (unique (l.map u)) = (insertU x (unique l)).map u
    rw [ih, ins]

theorem ratCast_strictMono : StrictMono (fun v : Int => (v : ℚ)) := fun _ _ h => Int.cast_lt.2 h

/-- What the location-scale adapter sees of the labels of the source rows. -/
theorem labelNum_masked {c sd : List Int} (hc : (c.map (fun v : Int => Num.fin (v : ℚ))).length = sd.length) :
    sourceRows sd ((maskedLabels sd (c.map (fun v : Int => Num.fin (v : ℚ)))).map labelNum)
      = (sourceRows sd c).map (fun v : Int => (v : ℚ)) := by
  rw [sourceRows_map, sourceRows_masked hc, sourceRows_map, List.map_map]
  rfl

/-- C110 (MMD location-scale). With the scales `G` and offsets `H` optimised per class (classes in increasing order): the final
estimator is trained on `g∘x + h` for every source row `x`, with the `g` and `h` of its class, and asked about the data as
they are. -/
theorem C110_mmdls [IsStrictOrderedRing K] {d : Nat} (keep : String → Bool) (wrap : MmdLs K d ℚ → σ) (unwrap : σ → MmdLs K d ℚ)
    (hwrap : ∀ g, unwrap (wrap g) = g) (dist : (Fin d → K) → (Fin d → K) → K)
    (opt : List (Fin d → K) → List (Fin d → K) → List ℚ → List (Fin d → K) × List (Fin d → K)) (fin : Est (List K) σ)
    (X : List (List K)) (c : List Int) (sd : List Int)
    (hset : Setting keep fin X (c.map (fun v : Int => Num.fin (v : ℚ))) sd) (S T G H : List (Fin d → K))
    (hS : S = vecs d (sourceRows sd X)) (hT : T = vecs d (targetRows sd X))
    (hopt : opt S T ((sourceRows sd c).map (fun v : Int => (v : ℚ))) = (G, H)) (m : Int → (Fin d → K) → (Fin d → K))
    (hm : ∀ (k : Nat) (v : Int) (g h : Fin d → K), (unique (sourceRows sd c))[k]? = some v → G[k]? = some g → H[k]? = some h →
      ∀ x, m v x = fun j => g j * x j + h j)
    (hG : G.length = (unique (sourceRows sd c)).length) (hH : H.length = (unique (sourceRows sd c)).length) (f : σ)
    (hfit : fin.fit ⟨List.zipWith (fun v x => List.ofFn (m v x)) (sourceRows sd c) S,
      some ((sourceRows sd c).map (fun v : Int => Num.fin (v : ℚ))), []⟩ = .ok f) :
    ∃ g, FitsThenAsks keep (mmdlsEst wrap unwrap dist opt) fin X (c.map (fun v : Int => Num.fin (v : ℚ))) sd g f
      (fun Xt => (vecs d Xt).map List.ofFn) := by
  obtain ⟨hX, hsd⟩ := hset.ne
  have hlv : sd.length = (vecs d X).length := by rw [length_vecs, hset.len]
  have hlc : sd.length = c.length := by have := hset.lenY; simp at this; exact this.symm
  have hS' : sourceRows sd (vecs d X) = S := by rw [hS]; exact sourceRows_map _ _
  have hT' : targetRows sd (vecs d X) = T := by rw [hT]; exact targetRows_map _ _
  set y' := (maskedLabels sd (c.map (fun v : Int => Num.fin (v : ℚ)))).map labelNum with hy'
  have hyl : sd.length = y'.length := by rw [hy', List.length_map, length_maskedLabels hset.lenY]
  have hys : sourceRows sd y' = (sourceRows sd c).map (fun v : Int => (v : ℚ)) := labelNum_masked hset.lenY
  obtain ⟨F, out, hF, ho, hol, -, hrow⟩ := C66_fit_transform dist opt ⟨.float, [d], vecs d X⟩ y' sd (vecs_ne hX) hlv hyl G H
    none (by show opt (sourceRows sd (vecs d X)) (targetRows sd (vecs d X)) _ = _; rw [hS', hT', hys, hopt]) hset.sources
  rw [hys, unique_map ratCast_strictMono] at hrow
  have hol' : sd.length = out.rows.length := hlv.trans hol.symm
  have hout : sourceRows sd (out.rows.map List.ofFn) = List.zipWith (fun v x => List.ofFn (m v x)) (sourceRows sd c) S := by
    have hall : out.rows.map List.ofFn = List.zipWith (fun (l : Int) (r : List K × (Int × (Fin d → K))) =>
        if 0 ≤ l then List.ofFn (m r.2.1 r.2.2) else r.1) sd ((out.rows.map List.ofFn).zip (c.zip (vecs d X))) := by
      apply List.ext_getElem
      · simp; omega
      · intro i h1 h2
        have hi : i < sd.length := by simp at h1; omega
        simp only [List.getElem_zipWith, List.getElem_zip]
        split
        · rename_i h0
          obtain ⟨k, hk, hkv⟩ := List.getElem_of_mem (mem_unique.2 (mem_sourceRows_getElem (i := i) (a := c) hi (by omega) h0))
          have e := hrow i k sd[i] (vecs d X)[i] G[k] H[k] ((c[i] : Int) : ℚ) (List.getElem?_eq_getElem _) h0
            (List.getElem?_eq_getElem _) ?_ ?_ (List.getElem?_eq_getElem _) (List.getElem?_eq_getElem _)
          · rw [List.getElem?_eq_getElem (by omega), Option.some.injEq] at e
            rw [List.getElem_map, e, hm k c[i] G[k] H[k] (by rw [← hkv]; exact List.getElem?_eq_getElem _)
              (List.getElem?_eq_getElem _) (List.getElem?_eq_getElem _)]
          · rw [hy', List.getElem?_map, List.getElem?_eq_getElem (by rw [length_maskedLabels hset.lenY]; exact hi),
              Option.map_some, getElem_maskedLabels hset.lenY hi, if_pos h0, List.getElem_map]
            rfl
          · rw [List.getElem?_map, List.getElem?_eq_getElem hk, hkv]; rfl
        · rfl
    rw [hall, ← hS']
    have : ∀ (sd : List Int) (o : List (List K)) (c : List Int) (V : List (Fin d → K)), sd.length = o.length →
        sd.length = c.length → sd.length = V.length →
        sourceRows sd (List.zipWith (fun (l : Int) (r : List K × (Int × (Fin d → K))) =>
          if 0 ≤ l then List.ofFn (m r.2.1 r.2.2) else r.1) sd (o.zip (c.zip V)))
          = List.zipWith (fun v x => List.ofFn (m v x)) (sourceRows sd c) (sourceRows sd V) := by
      intro sd
      induction sd with
      | nil => intro o c V _ _ _; simp [sourceRows]
      | cons e sd ih =>
        intro o c V h1 h2 h3
        cases o with
        | nil => cases h1
        | cons o0 o => cases c with
          | nil => cases h2
          | cons c0 c => cases V with
            | nil => cases h3
            | cons v V =>
              have := ih o c V (by simpa using h1) (by simpa using h2) (by simpa using h3)
              by_cases he : 0 ≤ e
              · simpa [sourceRows, he] using this
              · simpa [sourceRows, he] using this
    rw [this sd _ c (vecs d X) (by simpa using hol') hlc hlv]
  refine ⟨wrap F, map_method wrap unwrap
    (fun X y sd => match y with
      | none => .error .typeError
      | some y => mmdlsFit opt (vecs d X) (y.map labelNum) sd)
    (fun F X sd allowSource => toRows (rowsOf (mmdlsTransform dist F ⟨.float, [d], vecs d X⟩ none sd allowSource)))
    hset (out.rows.map List.ofFn) F f (hwrap _) hF (by simp only [ho, rowsOf, toRows]) (by simpa using hol'.symm) ?_ _
    (fun Xt arg sdt hXt h => ?_)⟩
  · rw [hout, sourceRows_map]; exact hfit
  · have hn : Xt.length ≠ 0 := fun e => hXt (List.length_eq_zero_iff.1 e)
    obtain ⟨e1, e2, e3⟩ := targetArg_split h hn (vecs d Xt) (length_vecs d Xt)
    obtain ⟨o, ho1, ho2⟩ := merge_targets (sdt := sdt) (⟨.float, [d], []⟩ : NArr (Fin d → K))
      ⟨.float, [d], vecs d Xt⟩ e1 h.neg rfl (by simp [e2]) (fun _ _ => rfl)
    have hm1 := extractSourceIndices_ok e1
    have x1 : boolIndex (vecs d Xt) (sdt.map (fun d => decide (0 ≤ d))) = .ok [] := by
      rw [boolIndex_ok (by simp [e2]), sel_source, (targetRows_all e2 h.neg).2]
    have x2 : boolIndex (vecs d Xt) ((sdt.map (fun d => decide (0 ≤ d))).map (!·)) = .ok (vecs d Xt) := by
      rw [← tgtMask_eq, boolIndex_ok (by simp [e2]), sel_target, (targetRows_all e2 h.neg).1]
    have : mmdlsTransform dist F ⟨.float, [d], vecs d Xt⟩ none arg false = .ok o := by
      simp only [mmdlsTransform, h.check (vecs d Xt) (length_vecs d Xt), ok_bind, hm1, x1, x2, List.length_nil, if_true]
      exact ho1
    simp only [this, rowsOf, toRows, ho2]

end Methods

/-! #### Label propagation -/

section Labels
variable {α : Type} [Cell α]

theorem target_position {sd : List Int} {j : Nat} (hj : j < nTarget sd) :
    ∃ (i : Nat) (e : Int), sd[i]? = some e ∧ e < 0 ∧ nTarget (sd.take i) = j := by
  induction sd generalizing j with
  | nil => simp [nTarget] at hj
  | cons e sd ih =>
    by_cases he : e < 0
    · cases j with
      | zero => exact ⟨0, e, rfl, he, rfl⟩
      | succ j =>
        obtain ⟨i, e', h1, h2, h3⟩ := ih (j := j) (by simpa [nTarget, he] using hj)
        exact ⟨i + 1, e', h1, h2, by simpa [nTarget, he] using h3⟩
    · obtain ⟨i, e', h1, h2, h3⟩ := ih (j := j) (by simpa [nTarget, he] using hj)
      exact ⟨i + 1, e', h1, h2, by simpa [nTarget, he] using h3⟩

theorem source_position {sd : List Int} {j : Nat} (hj : j < nSource sd) :
    ∃ (i : Nat) (e : Int), sd[i]? = some e ∧ 0 ≤ e ∧ nSource (sd.take i) = j := by
  induction sd generalizing j with
  | nil => simp [nSource] at hj
  | cons e sd ih =>
    by_cases he : 0 ≤ e
    · cases j with
      | zero => exact ⟨0, e, rfl, he, rfl⟩
      | succ j =>
        obtain ⟨i, e', h1, h2, h3⟩ := ih (j := j) (by simpa [nSource, he] using hj)
        exact ⟨i + 1, e', h1, h2, by simpa [nSource, he] using h3⟩
    · obtain ⟨i, e', h1, h2, h3⟩ := ih (j := j) (by simpa [nSource, he] using hj)
      exact ⟨i + 1, e', h1, h2, by simpa [nSource, he] using h3⟩

theorem labelInt_masked {c sd : List Int} (hc : (c.map (fun v : Int => Num.fin (v : ℚ))).length = sd.length) :
    sourceRows sd ((maskedLabels sd (c.map (fun v : Int => Num.fin (v : ℚ)))).map labelInt) = sourceRows sd c := by
  rw [sourceRows_map, sourceRows_masked hc, sourceRows_map, List.map_map]
  simp [Function.comp_def, labelInt]

/-- C110 (OT label propagation). The final estimator of `OTLabelProp` never sees a source row: it is trained on the target
rows, each with the class of largest mass transported to it from the source rows of that class; the transport plan is
computed from the source rows and the target rows with uniform weights.  At prediction time it is asked about the data as
they are. -/
theorem C110_label_propagation {K : Type} [Field K] [LinearOrder K] [IsStrictOrderedRing K] (keep : String → Bool)
    (plan : List α → List α → List K → List K → List (List K)) (st : σ) (fin : Est α σ) (X : List α) (c sd : List Int)
    (hset : Setting keep fin X (c.map (fun v : Int => Num.fin (v : ℚ))) sd) :
    ∃ l : List Int, l.length = nTarget sd ∧
      (∀ j < nTarget sd, ∃ v, l[j]? = some v ∧ Winner (fun v => massFrom (plan (sourceRows sd X) (targetRows sd X)
        (List.replicate (nSource sd) (1 / (nSource sd : K))) (List.replicate (nTarget sd) (1 / (nTarget sd : K))))
        (sourceRows sd c) v j) (sourceRows sd c) v) ∧
      ∀ f, fin.fit ⟨targetRows sd X, some (l.map (fun v : Int => Num.fin (v : ℚ))), []⟩ = .ok f →
        FitsThenAsks keep (labelEst st (fun X y sd => OT.otLabelProp plan X y sd none)) fin X
          (c.map (fun v : Int => Num.fin (v : ℚ))) sd st f id := by
  obtain ⟨hX, hsd⟩ := hset.ne
  have hlc : c.length = sd.length := by have := hset.lenY; simpa using this
  set y := c.map (fun v : Int => Num.fin (v : ℚ)) with hy
  set c' := (maskedLabels sd y).map labelInt with hc'
  have hcs : sourceRows sd c' = sourceRows sd c := labelInt_masked hset.lenY
  have hcl : c'.length = X.length := by rw [hc', List.length_map, length_maskedLabels hset.lenY, hset.len]
  obtain ⟨yout, ho, hol, hsrc, htgt⟩ := C36_discrete plan X c' sd none hcl hset.len (by simp) hset.sources
  simp only [Option.map_none, sideWeights, length_sourceRows hset.len, length_targetRows hset.len, hcs] at htgt
  have hol' : sd.length = yout.length := hset.len.trans hol.symm
  have hint : ∀ v ∈ y, IsInt v := by
    intro v hv
    obtain ⟨z, _, rfl⟩ := List.mem_map.1 hv
    exact ⟨z, rfl⟩
  have hwin : ∀ j < nTarget sd, ∃ v, (targetRows sd yout)[j]? = some v ∧ Winner (fun v => massFrom (plan (sourceRows sd X)
      (targetRows sd X) (List.replicate (nSource sd) (1 / (nSource sd : K)))
      (List.replicate (nTarget sd) (1 / (nTarget sd : K)))) (sourceRows sd c) v j) (sourceRows sd c) v := by
    intro j hj
    obtain ⟨i, e, h1, h2, h3⟩ := target_position hj
    obtain ⟨v, hv, hw⟩ := htgt i e h1 h2
    rw [h3] at hw
    exact ⟨v, by rw [← h3, ← at_target hol' h1 h2, hv], hw⟩
  refine ⟨targetRows sd yout, length_targetRows hol', hwin, fun f hfit => ⟨?_, ?_⟩⟩
  · obtain ⟨a, hreq, ha⟩ := hset.request
    have hrun : (labelEst st (fun X y sd => OT.otLabelProp plan X y sd none)).fitTransform
        ⟨X, some ((none : Option (List Num)).getD (maskedLabels sd y)), [("sample_domain", domParam sd)]⟩ =
        .ok (st, .triple X (some (yout.map (fun v : Int => Num.fin (v : ℚ)))) []) := by
      simp only [labelEst, get_sd, sdArg_domParam, Option.getD_none, ← hc', ho]
    have hfit' : fin.fit ⟨targetRows sd X, some (targetRows sd (yout.map (fun v : Int => Num.fin (v : ℚ)))), []⟩ = .ok f := by
      rw [targetRows_map]; exact hfit
    rw [C108_propagated_labels keep [labelEst st (fun X y sd => OT.otLabelProp plan X y sd none)] fin true X X y
      (maskedLabels sd y) (yout.map (fun v : Int => Num.fin (v : ℚ))) sd none _ [st] a hset.keeps hsd hset.lenY
      ⟨hset.labelled.1, hset.labelled.2.1⟩ rfl
      (.step _ _ _ _ _ _ _ _ _ _ (Or.inl ⟨asks_adapterReq, rfl⟩) rfl rfl hrun (.labels _ _) (.nil _))
      (by simpa using hol'.symm) ?_ ?_ hset.len.symm (by simp) hset.noTransform hreq []
      (by rcases ha with rfl | rfl | rfl
          · exact Or.inl ⟨rfl, rfl⟩
          · exact Or.inr ⟨Or.inl rfl, rfl⟩
          · exact Or.inr ⟨Or.inr ⟨rfl, rfl⟩, rfl⟩), hfit']
    · rfl
    · intro v hv
      rw [sourceRows_map] at hv
      obtain ⟨z, hz, rfl⟩ := List.mem_map.1 hv
      obtain ⟨j, hj, rfl⟩ := List.getElem_of_mem hz
      obtain ⟨i, e, h1, h2, h3⟩ := source_position (sd := sd) (j := j) (by rw [← length_sourceRows hol']; exact hj)
      have := hsrc i e h1 h2
      rw [at_source hol' h1 h2, h3, List.getElem?_eq_getElem hj, Option.some.injEq] at this
      rw [this]
      norm_num
    · intro v hv
      rw [targetRows_map] at hv
      obtain ⟨z, hz, rfl⟩ := List.mem_map.1 hv
      obtain ⟨j, hj, rfl⟩ := List.getElem_of_mem hz
      obtain ⟨v, hv, hw⟩ := hwin j (by rw [← length_targetRows hol']; exact hj)
      rw [List.getElem?_eq_getElem hj, Option.some.injEq] at hv
      refine ⟨⟨_, rfl⟩, ?_⟩
      rw [hv]
      exact (hset.labelled.2.2 (Num.fin (v : ℚ)) (by rw [hy, sourceRows_map]; exact List.mem_map.2 ⟨v, hw.1, rfl⟩)).2 hint
  · intro β Xt pt req query hXt hpt hq
    have hkeep : (labelEst st (fun X y sd => OT.otLabelProp plan X y sd none)).transform st Xt pt = .ok (.arr Xt) := by
      obtain ⟨arg, sdt, h1, h2, h3⟩ := targetArg_of hXt hpt
      simp only [labelEst, baseTransform, h1, h2, h3.check Xt rfl]
    exact C109_predict keep true [labelEst st (fun X y sd => OT.otLabelProp plan X y sd none)] [st] fin f req query Xt Xt pt
      hset.keeps hq hpt (.step _ _ _ _ _ _ _ rfl asks_adapterReq hkeep (.nil _))

end Labels

/-! #### Reweighting methods -/

section Weights
variable {α : Type} [Cell α]

/-- C110 (reweighting methods). Whatever weights an adapter's `fit_transform` proposes: the final estimator, if it asks for
weights, is trained on the source rows as they are with their labels and their weights, and asked about the data as they
are. -/
theorem C110_reweighting {φ : Type} (keep : String → Bool) (wrap : φ → σ) (fit : List α → SDArg → Py φ)
    (weights : φ → List α → SDArg → Py (List (Option ℚ))) (fin : Est α σ) (X : List α) (y : List Num) (sd : List Int)
    (hset : Setting keep fin X y sd) (hreq : fin.fitReq = [("sample_weight", .yes)]) (w : List (Option ℚ))
    (hw : RW.fitTransform fit weights X (.vec sd) = .ok (X, w)) (hwl : w.length = sd.length) (f : σ)
    (hfit : fin.fit ⟨sourceRows sd X, some (sourceRows sd y), [("sample_weight", .arr ((sourceRows sd w).map weightNum))]⟩
      = .ok f) :
    ∃ g, FitsThenAsks keep (reweightEst wrap (fun X _ sd => fit X sd) (fun g X _ sd => weights g X sd)) fin X y sd g f id := by
  obtain ⟨g, hg, hw'⟩ : ∃ g, fit X (.vec sd) = .ok g ∧ weights g X (.vec sd) = .ok w := by
    unfold RW.fitTransform at hw
    cases hf : fit X (.vec sd) with
    | error e => rw [hf] at hw; cases hw
    | ok g =>
      rw [hf, ok_bind] at hw
      refine ⟨g, rfl, ?_⟩
      cases hq : weights g X (.vec sd) with
      | error e => rw [hq] at hw; cases hw
      | ok v =>
        rw [hq, ok_bind, pure_ok] at hw
        rw [(Prod.mk.inj (Except.ok.inj hw)).2]
  have key : ∀ (γ : Type) (Xt : List α) (pt : Dict) (req : Request) (query : σ → Call α → Py γ), Xt ≠ [] →
      TargetParams Xt pt → Plain req → _ := fun γ Xt pt req query hXt hpt hq =>
    C109_reweighting_method keep wrap (fun X _ sd => fit X sd) (fun g X _ sd => weights g X sd) fin X Xt y sd g w f req query
      pt hset.keeps hset.ne.2 hset.len.symm hset.lenY hset.labelled hg hw' hwl hset.noTransform hreq hfit hq hXt hpt
  refine ⟨wrap g, ?_, fun γ Xt pt req query hXt hpt hq => (key γ Xt pt req query hXt hpt hq).2⟩
  exact (key Unit X [] [] (fun _ _ => .ok ()) hset.ne.1 (Or.inl rfl) ⟨by intro q hq; simp at hq, by intro q hq; simp at hq⟩).1

/-- The weights of the source rows, as numbers. -/
theorem sourceWeights_values {sd : List Int} {w : List (Option ℚ)} (h : SourceWeights sd w) :
    ∃ v : List ℚ, (sourceRows sd w).map weightNum = v.map Num.fin ∧ v.length = nSource sd ∧ (∀ q ∈ v, 0 ≤ q) ∧
      sourceSum sd w = v.sum := by
  have hall : ∀ o ∈ sourceRows sd w, ∃ q : ℚ, o = some q ∧ 0 ≤ q := by
    intro o ho
    obtain ⟨j, hj, rfl⟩ := List.getElem_of_mem ho
    obtain ⟨i, e, h1, h2, h3⟩ := source_position (sd := sd) (j := j) (by rw [← length_sourceRows h.1.symm]; exact hj)
    obtain ⟨q, hq, h0⟩ := (h.2 i e h1).2 h2
    rw [at_source h.1.symm h1 h2, h3, List.getElem?_eq_getElem hj, Option.some.injEq] at hq
    exact ⟨q, hq, h0⟩
  refine ⟨(sourceRows sd w).map (·.getD 0), ?_, by simp [length_sourceRows h.1.symm], ?_, rfl⟩
  · rw [List.map_map]
    apply List.map_congr_left
    intro o ho
    obtain ⟨q, rfl, -⟩ := hall o ho
    rfl
  · intro q hq
    obtain ⟨o, ho, rfl⟩ := List.mem_map.1 hq
    obtain ⟨q, rfl, h0⟩ := hall o ho
    exact h0

theorem weighted_method {φ : Type} (keep : String → Bool) (wrap : φ → σ) (fit : List α → SDArg → Py φ)
    (weights : φ → List α → SDArg → Py (List (Option ℚ))) (fin : Est α σ) (X : List α) (y : List Num) (sd : List Int)
    (hset : Setting keep fin X y sd) (hreq : fin.fitReq = [("sample_weight", .yes)]) (w : List (Option ℚ))
    (hw : RW.fitTransform fit weights X (.vec sd) = .ok (X, w)) (hsw : SourceWeights sd w) :
    ∃ v : List ℚ, v.length = nSource sd ∧ (∀ q ∈ v, 0 ≤ q) ∧ v.sum = sourceSum sd w ∧
      ∀ f, fin.fit ⟨sourceRows sd X, some (sourceRows sd y), [("sample_weight", .arr (v.map Num.fin))]⟩ = .ok f →
        ∃ g, FitsThenAsks keep (reweightEst wrap (fun X _ sd => fit X sd) (fun g X _ sd => weights g X sd)) fin X y sd g f id := by
  obtain ⟨v, hv, hl, h0, hsum⟩ := sourceWeights_values hsw
  refine ⟨v, hl, h0, hsum.symm, fun f hfit => ?_⟩
  exact C110_reweighting keep wrap fit weights fin X y sd hset hreq w hw hsw.1 f (by rw [hv]; exact hfit)

/-- C110 (KLIEP). For any positive kernel, step size, tolerance and objective, any non-empty choice of centers among the target
rows and at least one iteration, the final estimator of `KLIEPReweight` is trained on the source rows as they are, with
their labels and non-negative weights of mean one. -/
theorem C110_kliep (keep : String → Bool) (wrap : Option (List ℚ) × List α → σ) (k : α → α → ℚ) (eps tol : ℚ)
    (obj : List α → List α → List ℚ → ℚ) (obj0 : ℚ) (maxIter : Nat) (draw : List Nat) (fin : Est α σ) (X : List α)
    (y : List Num) (sd : List Int) (hset : Setting keep fin X y sd) (hreq : fin.fitReq = [("sample_weight", .yes)])
    (hk : ∀ x c, 0 < k x c) (hd : draw ≠ []) (hdr : ∀ i ∈ draw, i < nTarget sd) (hit : 0 < maxIter) :
    ∃ v : List ℚ, v.length = nSource sd ∧ (∀ q ∈ v, 0 ≤ q) ∧ v.sum = nSource sd ∧
      ∀ f, fin.fit ⟨sourceRows sd X, some (sourceRows sd y), [("sample_weight", .arr (v.map Num.fin))]⟩ = .ok f →
        ∃ g, FitsThenAsks keep (reweightEst wrap (fun X _ sd => RW.kliepFit k eps tol obj obj0 maxIter draw X sd)
          (fun g X _ sd => RW.kliepWeights k g X sd)) fin X y sd g f id := by
  obtain ⟨_, _, w, -, -, -, -, -, hw, hsw, hsum⟩ := C33_kliep k eps tol obj obj0 maxIter draw X sd hset.len hset.sources hk hd
    hdr hit
  rw [← hsum]
  exact weighted_method keep wrap _ _ fin X y sd hset hreq w hw hsw

/-- C110 (density ratio). For any density estimator and any non-negative increasing `exp`, unless all ratios underflow, the
final estimator of `DensityReweight` is trained on the source rows as they are, with their labels and non-negative weights
of mean one. -/
theorem C110_density (keep : String → Bool) (wrap : (α → ℚ) × (α → ℚ) → σ) (kde : List α → α → ℚ) (exp : ℚ → ℚ)
    (fin : Est α σ) (X : List α) (y : List Num) (sd : List Int) (hset : Setting keep fin X y sd)
    (hreq : fin.fitReq = [("sample_weight", .yes)]) (ht : 0 < nTarget sd) (h0 : ∀ x, 0 ≤ exp x)
    (hmono : ∀ x y, x ≤ y → exp x ≤ exp y)
    (hpos : ∃ x ∈ sourceRows sd X, exp (kde (targetRows sd X) x - kde (sourceRows sd X) x) ≠ 0) :
    ∃ v : List ℚ, v.length = nSource sd ∧ (∀ q ∈ v, 0 ≤ q) ∧ v.sum = nSource sd ∧
      ∀ f, fin.fit ⟨sourceRows sd X, some (sourceRows sd y), [("sample_weight", .arr (v.map Num.fin))]⟩ = .ok f →
        ∃ g, FitsThenAsks keep (reweightEst wrap (fun X _ sd => RW.densityFit kde X sd)
          (fun g X _ sd => RW.densityWeights exp g X sd)) fin X y sd g f id := by
  obtain ⟨w, hw, hsw, hsum, -⟩ := C31_density_partial kde exp X sd hset.len hset.sources ht h0 hmono hpos
  rw [← hsum]
  exact weighted_method keep wrap _ _ fin X y sd hset hreq w hw hsw

/-- C110 (kernel mean matching). With the Frank-Wolfe solver and a tolerance `eps` between 0 and 1, the final estimator of
`KMMReweight` is trained on the source rows as they are, with their labels and non-negative weights whose mean is between
`1 - eps` and `1 + eps`. -/
theorem C110_kmm [DecidableEq α] (keep : String → Bool) (wrap : List ℚ × List α → σ) (k : α → α → ℚ) (sqrt : ℚ → ℚ) (eps B : ℚ)
    (maxIter : Nat) (scipy : ∀ n, (Fin n → ℚ) → Py ((Fin n → ℚ) × ℚ)) (fin : Est α σ) (X : List α) (y : List Num)
    (sd : List Int) (hset : Setting keep fin X y sd) (hreq : fin.fitReq = [("sample_weight", .yes)]) (ht : 0 < nTarget sd)
    (h0 : 0 ≤ eps) (h1 : eps ≤ 1) (hit : 0 < maxIter) :
    ∃ v : List ℚ, v.length = nSource sd ∧ (∀ q ∈ v, 0 ≤ q) ∧ nSource sd * (1 - eps) ≤ v.sum ∧ v.sum ≤ nSource sd * (1 + eps) ∧
      ∀ f, fin.fit ⟨sourceRows sd X, some (sourceRows sd y), [("sample_weight", .arr (v.map Num.fin))]⟩ = .ok f →
        ∃ g, FitsThenAsks keep (reweightEst wrap
          (fun X _ sd => RW.kmmFit k sqrt (some eps) B "frank-wolfe" maxIter scipy X sd)
          (fun g X _ sd => RW.kmmWeights k false g X sd)) fin X y sd g f id := by
  obtain ⟨w, e, hw, hsw, he, -, -, -, hlo, hhi⟩ := C62_kmm_partial k sqrt (some eps) B maxIter scipy X sd hset.len hset.sources
    ht (by simp) (by rintro e ⟨⟩; exact ⟨h0, h1⟩) hit
  obtain rfl := he eps rfl
  obtain ⟨v, hl, hv, hsum, hrest⟩ := weighted_method keep wrap _ _ fin X y sd hset hreq w hw hsw
  exact ⟨v, hl, hv, by rw [hsum]; exact hlo, by rw [hsum]; exact hhi, hrest⟩

/-- C110 (discriminator). Whenever the domain classifier can be fitted and gives some source row a clipped target probability
below one, the final estimator of `DiscriminatorReweight` is trained on the source rows as they are, with their
labels and non-negative weights of mean one.  (That the weights point in the wrong direction is C31.) -/
theorem C110_discriminator (keep : String → Bool) (wrap : (α → ℚ) → σ) (clf : List α → List Int → α → ℚ) (eps : ℚ)
    (fin : Est α σ) (X : List α) (y : List Num) (sd : List Int) (hset : Setting keep fin X y sd)
    (hreq : fin.fitReq = [("sample_weight", .yes)]) (he : 0 < eps) (p : α → ℚ)
    (hfit : RW.discriminatorFit clf X (.vec sd) = .ok p) (hpos : ∃ x ∈ sourceRows sd X, RW.clip eps (p x) < 1) :
    ∃ v : List ℚ, v.length = nSource sd ∧ (∀ q ∈ v, 0 ≤ q) ∧ v.sum = nSource sd ∧
      ∀ f, fin.fit ⟨sourceRows sd X, some (sourceRows sd y), [("sample_weight", .arr (v.map Num.fin))]⟩ = .ok f →
        ∃ g, FitsThenAsks keep (reweightEst wrap (fun X _ sd => RW.discriminatorFit clf X sd)
          (fun g X _ sd => RW.discriminatorWeights eps g X sd)) fin X y sd g f id := by
  obtain ⟨w, hw, hsw, hsum, -⟩ := C31_discriminator_partial clf eps X sd hset.len he p hfit hpos
  rw [← hsum]
  exact weighted_method keep wrap _ _ fin X y sd hset hreq w hw hsw

end Weights

/-! #### Counterexamples and concrete cases -/

/-- Rows of rationals: no conversion. -/
instance demoCell : Cell (List ℚ) := ⟨fun _ => [], fun _ r => r, fun _ _ => [], fun _ => .ok .continuous⟩

/-- A final estimator that asks for weights and fits to `s` whatever it is given. -/
def demoFin {α : Type} (s : σ) : Est α σ :=
  ⟨false, false, [("sample_weight", .yes)], [], [], fun _ => .ok s, fun _ => .error .attributeError,
    fun _ _ _ => .error .attributeError⟩

/-- A setting: three source rows of two classes and two target rows, interleaved. -/
theorem demoSetting {α : Type} (s : σ) (a b c d e : α) :
    Setting (fun _ => true) (demoFin s) [a, b, c, d, e] ([0, 1, 1, 0, 1].map (fun v : Int => Num.fin (v : ℚ))) [1, -2, 2, -2, 1] := by
  refine ⟨rfl, rfl, rfl, ⟨by simp, by simp, ?_⟩, by decide, rfl, _, rfl, Or.inl rfl⟩
  intro v hv
  simp only [sourceRows, List.map_cons, List.map_nil, List.zip_cons_cons, List.zip_nil_right] at hv
  norm_num at hv
  rcases hv with rfl | rfl <;> norm_num <;> rintro ⟨⟩

/-- C110 (TCA and TJM, negation). When a target row comes before a source row, the final estimator is trained on the embedding
of the target row with the label of the source row: the source row `3` of class `1` embeds to `3`, the target row `2` to
`2`, and the final estimator sees `2` with class `1`. -/
theorem C110_kernel_counterexample :
    ∃ (k : List ℚ → List ℚ → ℚ) (eig : List (List ℚ) → Nat → Nat → Py (List (Fin 1 → ℚ))) (V : List (Fin 1 → ℚ)),
      (∀ a b, k a b = k b a) ∧ eig (kernelBlock k [[3]] [[2]]) 1 1 = .ok V ∧
      List.ofFn (embed k ⟨[[3]], [[2]], V⟩ [3]) = [3] ∧ List.ofFn (embed k ⟨[[3]], [[2]], V⟩ [2]) = [2] ∧
      ((pipelineFit (daPipeline (fun _ => true) [kernelEst (σ := Option (Embedding (List ℚ) ℚ 1)) some (·.getD ⟨[], [], []⟩) k eig]
        (demoFin none) true) [[2], [3]] (some [.fin 0, .fin 1]) [("sample_domain", domParam [-2, 1])]).1.map
          (fun c => (c.X, c.y))).getLast? = some ([[2]], some [.fin 1]) :=
  ⟨fun a b => a.headD 0 * b.headD 0, fun _ _ _ => .ok [fun _ => 1, fun _ => -1], [fun _ => 1, fun _ => -1],
    fun a b => mul_comm _ _, rfl, by decide +kernel, by decide +kernel, by decide +kernel⟩

/-- C110 (JCPOT, negation). With classes 3 and 7 the final estimator of `JCPOTLabelProp` is trained on the labels 0 and 1. -/
theorem C110_jcpot_counterexample :
    ((pipelineFit (daPipeline (fun _ => true) [labelEst (α := Num) (σ := Nat) 0 (fun X y sd => OT.jcpot (K := ℚ)
      (fun _ _ Xt => Xt.map (fun x : Num => if x = .fin 0 then [1, 0] else [0, 1])) X y sd)]
      (demoFin 1) true) [.fin 5, .fin 6, .fin 0, .fin 1] (some [.fin 3, .fin 7, .fin 3, .fin 7])
        [("sample_domain", domParam [1, 1, -2, -2])]).1.map (fun c => (c.X, c.y))).getLast?
      = some ([.fin 0, .fin 1], some [.fin 0, .fin 1]) := by decide +kernel

/-- Label propagation: classes 3 and 7, interleaved rows; the final estimator sees the two target rows. -/
example : ((pipelineFit (daPipeline (fun _ => true) [labelEst (α := Num) (σ := Nat) 0 (fun X y sd => OT.otLabelProp (K := ℚ)
      (fun _ _ _ _ => [[1 / 4, 1 / 12], [0, 1 / 6], [1 / 4, 1 / 4]]) X y sd none)]
      (demoFin 1) true) [.fin 10, .fin 20, .fin 11, .fin 21, .fin 12] (some [.fin 3, .fin 3, .fin 7, .fin 3, .fin 7])
        [("sample_domain", domParam [1, -2, 1, -2, 1])]).1.map (fun c => (c.X, c.y))).getLast?
      = some ([.fin 20, .fin 21], some [.fin 3, .fin 7]) := by decide +kernel

/-- The setting of `C110_label_propagation` is met. -/
example := C110_label_propagation (K := ℚ) (fun _ => true) (fun _ _ _ _ => [[1 / 4, 1 / 12], [0, 1 / 6], [1 / 4, 1 / 4]]) (0 : Nat)
  (demoFin 1) [Num.fin 10, .fin 20, .fin 11, .fin 21, .fin 12] _ _ (demoSetting 1 _ _ _ _ _)

/-- KLIEP: the source row near the targets gets the larger weight. -/
example : ((pipelineFit (daPipeline (fun _ => true) [reweightEst (σ := Nat) (fun _ => 0)
      (fun X _ sd => RW.kliepFit (fun x c : List ℚ => 1 / (1 + (x.headD 0 - c.headD 0) * (x.headD 0 - c.headD 0))) (1 / 100) 0
        (fun _ _ _ => 0) 1 1 [1] X sd)
      (fun g X _ sd => RW.kliepWeights (fun x c : List ℚ => 1 / (1 + (x.headD 0 - c.headD 0) * (x.headD 0 - c.headD 0))) g X sd)]
      (demoFin 1) true) [[0], [1], [1], [1]] (some [.fin 0, .fin 1, .fin 1, .fin 0])
        [("sample_domain", domParam [1, -1, 2, -1])]).1.map (fun c => (c.X, c.y, c.params))).getLast?
      = some ([[0], [1]], some [.fin 0, .fin 1], [("sample_weight", .arr [.fin (2 / 3), .fin (4 / 3)])]) := by decide +kernel

/-- The hypotheses of the reweighting theorems are met. -/
example := C110_kliep (fun _ => true) (fun _ => (0 : Nat)) (fun x c : List ℚ => 1 / (1 + (x.headD 0 - c.headD 0) ^ 2)) (1 / 100) 0
  (fun _ _ _ => 0) 1 1 [1] (demoFin 1) [[0], [1], [1], [1], [2]] _ _ (demoSetting 1 _ _ _ _ _) rfl
  (fun x c => by positivity) (by simp) (by simp [nTarget]) (by simp)

example := C110_density (fun _ => true) (fun _ => (0 : Nat)) (fun (T : List (List ℚ)) (x : List ℚ) => - x.headD 0 * T.length) (max 0)
  (demoFin 1) [[0], [1], [1], [1], [2]] _ _ (demoSetting 1 _ _ _ _ _) rfl (by decide) (fun x => le_max_left _ _)
  (fun x y h => max_le_max le_rfl h) ⟨[1], by simp [sourceRows], by decide +kernel⟩

example := C110_kmm (fun _ => true) (fun _ => (0 : Nat)) (fun x c : List ℚ => x.headD 0 * c.headD 0) id (1 / 2) 1 5
  (fun _ _ => .error .valueError) (demoFin 1) [[0], [1], [1], [1], [2]] _ _ (demoSetting 1 _ _ _ _ _) rfl (by decide)
  (by norm_num) (by norm_num) (by simp)

/-- The hypotheses of the theorems on mapping methods are met. -/
example (cov : List (Fin 1 → ℚ) → Matrix (Fin 1) (Fin 1) ℚ) (s : Coral ℚ 1) :=
  C110_coral (σ := Coral ℚ 1) (fun _ => true) id id (fun _ => rfl) cov id id false (demoFin s) [[0], [1], [1], [1], [2]] _ _
    (demoSetting s _ _ _ _ _) (by decide) s _ _ _ rfl rfl rfl rfl

example (pca : ∀ p, List (Fin 2 → ℚ) → Pca ℚ 2 p) (s : Σ p, Pca ℚ 2 p × Pca ℚ 2 p) :=
  C110_subspace_alignment (σ := Σ p, Pca ℚ 2 p × Pca ℚ 2 p) (fun _ => true) id id (fun _ => rfl) pca 1 (demoFin s)
    [[0, 1], [1, 1], [1, 2], [1, 0], [2, 0]] _ _ (demoSetting s _ _ _ _ _) (by decide) (by decide) (by decide) (by decide) s
    _ _ rfl rfl _ _ rfl rfl rfl

example (s : Matrix (Fin 2) (Fin 1) ℚ) :=
  C110_transfer_subspace_learning (σ := Matrix (Fin 2) (Fin 1) ℚ) (fun _ => true) id id (fun _ => rfl) (fun _ _ _ => s) (demoFin s)
    [[0, 1], [1, 1], [1, 2], [1, 0], [2, 0]] _ _ (demoSetting s _ _ _ _ _) s _ _ rfl rfl _ rfl rfl

example : ∃ (fin : Est (List ℚ) (Embedding (List ℚ) ℚ 1)) (X : List (List ℚ)) (y : List Num) (sd : List Int),
    Setting (fun _ => true) fin X y sd ∧ sd.Pairwise (fun a b => a < 0 → b < 0) ∧ 0 < nTarget sd := by
  refine ⟨demoFin ⟨[], [], []⟩, [[3], [4], [2]], [.fin 0, .fin 1, .fin 1], [1, 1, -2],
    ⟨rfl, rfl, rfl, ⟨by simp, by simp, ?_⟩, by decide, rfl, _, rfl, Or.inl rfl⟩, by decide, by decide⟩
  intro v hv
  simp only [sourceRows, List.zip_cons_cons, List.zip_nil_right] at hv
  norm_num at hv
  rcases hv with rfl | rfl <;> norm_num <;> rintro ⟨⟩

example (s : List (Int × (List ℚ → List ℚ))) :=
  C110_monge_partial (β := Nat) (σ := List (Int × (List ℚ → List ℚ))) (fun _ => true) id id (fun _ => rfl) (List.map (fun r => r.headD 0))
    (fun g => (g.map List.sum).sum) (fun g b r => r.map (fun x => x + b - g.sum)) 1 (demoFin s)
    [[0], [1], [1], [1], [2]] _ _ (demoSetting s _ _ _ _ _) (fun _ => rfl)

example (s : MmdLs ℚ 1 ℚ) :=
  C110_mmdls (K := ℚ) (d := 1) (σ := MmdLs ℚ 1 ℚ) (fun _ => true) id id (fun _ => rfl) (fun _ _ => 0)
    (fun _ _ _ => ([fun _ => 2, fun _ => 3], [fun _ => 1, fun _ => 1])) (demoFin s)
    [[0], [1], [1], [1], [2]] _ _ (demoSetting s _ _ _ _ _) _ _ _ _ rfl rfl rfl
    (fun v x j => if v = 0 then 2 * x j + 1 else 3 * x j + 1)
    (by
      have hu : unique (sourceRows [1, -2, 2, -2, 1] [(0 : Int), 1, 1, 0, 1]) = [0, 1] := by decide
      intro k v g h h1 h2 h3 x
      rw [hu] at h1
      match k with
      | 0 => simp at h1 h2 h3; subst h1 h2 h3; simp
      | 1 => simp at h1 h2 h3; subst h1 h2 h3; simp
      | k + 2 => simp at h1) rfl rfl s rfl

end Skada

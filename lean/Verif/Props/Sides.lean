/-
Property C134: domain labels are names. Whatever method is used, as long as it does not treat single domains, only the sign of
a domain label matters: other labels with the same signs give the same fitted pipeline, the same predictions and the same
exceptions.
-/
import Verif.Lemmas.Sides
import Verif.Model.ShallowMethods
import Verif.Model.Kliep
import Verif.Model.QpScipy
import Verif.Model.Optim
import Verif.Model.Jdot
import Verif.Model.SelfLabelRun
import Verif.Props.Selectors

namespace Skada
open Np Spec

variable {α β σ : Type}

/-! ### Pipelines -/

/-- C134 (fitting). A pipeline of `Shared`, `SelectSource`, `SelectTarget` and `SelectSourceTarget` selectors around estimators
that see only the sides: two fits on the same data whose domain labels have the same signs make the same calls, up to the names of
domains, and end with the same fitted estimators and the same labels, or with the same exception. -/
theorem C134_fit [Cell α] (steps : List ((String → Bool) × Step α σ)) (hsteps : ∀ st ∈ steps, StepSides st.2) (X : List α)
    (y : Option (List Num)) (p p' : Dict) (hp : RelDict p p') :
    List.Forall₂ RelCall (pipelineFit steps X y p).1 (pipelineFit steps X y p').1 ∧
      (pipelineFit steps X y p).2 = (pipelineFit steps X y p').2 := by
  unfold pipelineFit
  split
  · exact ⟨List.Forall₂.nil, rfl⟩
  · have h := Sides.fitSteps_rel hsteps (c := Cont.fromInput (.array X)) (c' := Cont.fromInput (.array X))
      ⟨rfl, rfl, List.Forall₂.nil⟩ (y := y) hp
    exact ⟨h.1, Sides.py_eq h.2⟩

/-- C134 (evaluation). `predict`, `predict_proba`, `score`, … of such a pipeline, when the method of the final estimator does not
look at single domains either: the same answer or the same exception. -/
theorem C134_predict [Cell α] (steps : List ((String → Bool) × Step α σ × Fitted σ)) (hsteps : ∀ st ∈ steps, StepSides st.2.1)
    (last : (String → Bool) × Sel α σ × σ) (req : Request) (hreq : ∀ r ∈ req, r.2 ≠ .name "sample_domain")
    (query : σ → Call α → Py β)
    (hquery : ∀ f X y p p', RelDict p p' → (∀ kv ∈ p, Asked req kv.1) → query f ⟨X, y, p⟩ = query f ⟨X, y, p'⟩)
    (X : List α) (y : Option (List Num)) (p p' : Dict) (hp : RelDict p p') :
    stepsRoute steps last req query X y p = stepsRoute steps last req query X y p' :=
  Sides.stepsRoute_rel hsteps hp hreq hquery

/-- C134 (what a user sees). `fit(X, y, sample_domain=sd)` and `fit(X, y, sample_domain=sd')`, then a method whose final
estimator does not ask for domains: the same fitted pipeline and the same answers. -/
theorem C134_user [Cell α] (steps : List ((String → Bool) × Step α σ)) (hsteps : ∀ st ∈ steps, StepSides st.2) (X : List α)
    (y : Option (List Num)) (sd sd' : List Int) (h : SameSides sd sd') :
    (pipelineFit steps X y [("sample_domain", domParam sd)]).2 = (pipelineFit steps X y [("sample_domain", domParam sd')]).2 ∧
    ∀ (fitted : List ((String → Bool) × Step α σ × Fitted σ)), (∀ st ∈ fitted, StepSides st.2.1) →
      ∀ (last : (String → Bool) × Sel α σ × σ) (req : Request), ¬ Asked req "sample_domain" →
      ∀ (query : σ → Call α → Py β) (Xt : List α) (yt : Option (List Num)) (e e' : List Int), SameSides e e' →
        stepsRoute fitted last req query Xt yt [("sample_domain", domParam e)] =
          stepsRoute fitted last req query Xt yt [("sample_domain", domParam e')] := by
  refine ⟨(C134_fit steps hsteps X y _ _ (Sides.domDict h)).2, ?_⟩
  intro fitted hf last req hreq query Xt yt e e' he
  refine C134_predict fitted hf last req ?_ query ?_ Xt yt _ _ (Sides.domDict he)
  · intro r hr h
    exact hreq ⟨r, hr, Or.inr ⟨_, h, Or.inr rfl⟩⟩
  · intro f X y p p' hp ha
    rw [Sides.dict_eq hp (fun kv hkv h => hreq (h ▸ ha kv hkv))]

/-! ### Which estimators see only the sides -/

/-- C134 (ordinary estimators). Anything that does not ask for `sample_domain`: scikit-learn's estimators. -/
theorem C134_plain (e : Est α σ) (h1 : ¬ Asked e.fitReq "sample_domain") (h2 : ¬ Asked e.fitTransformReq "sample_domain")
    (h3 : ¬ Asked e.transformReq "sample_domain") : SidesEq e := by
  have key : ∀ req, ¬ Asked req "sample_domain" → ∀ p p' : Dict, RelDict p p' → (∀ kv ∈ p, Asked req kv.1) → p = p' :=
    fun req hreq p p' hp ha => Sides.dict_eq hp (fun kv hkv h => hreq (h ▸ ha kv hkv))
  refine ⟨⟨?_, ?_, ?_, ?_⟩, ?_⟩
  · rintro req (rfl | rfl | rfl) r hr h
    · exact h1 ⟨r, hr, Or.inr ⟨_, h, Or.inr rfl⟩⟩
    · exact h2 ⟨r, hr, Or.inr ⟨_, h, Or.inr rfl⟩⟩
    · exact h3 ⟨r, hr, Or.inr ⟨_, h, Or.inr rfl⟩⟩
  · intro X y p p' hp ha; rw [key _ h1 p p' hp ha]
  · intro X y p p' hp ha; rw [key _ h2 p p' hp ha]; exact Sides.py_refl (fun a => ⟨rfl, Sides.out_refl _⟩) _
  · intro f X p p' hp ha; rw [key _ h3 p p' hp ha]; exact Sides.py_refl Sides.out_refl _
  · intro X y p p' hp ha; rw [key _ h2 p p' hp ha]

/-- A function of a `sample_domain` argument that sees only the sides of the labels. -/
def Spec.SeesSides {γ : Type} (g : SDArg → Py γ) : Prop := ∀ sd sd', SameSides sd sd' → g (.vec sd) = g (.vec sd')

namespace Sides

theorem sdArg_cases {d d' : Dict} (h : RelDict d d') : sdArg (d.get "sample_domain") = sdArg (d'.get "sample_domain") ∨
    ∃ sd sd', SameSides sd sd' ∧ sdArg (d.get "sample_domain") = .ok (.vec sd) ∧ sdArg (d'.get "sample_domain") = .ok (.vec sd') := by
  rcases get h "sample_domain" with hg | ⟨-, sd, sd', hs, hv, hv'⟩
  · exact Or.inl (by rw [hg])
  · exact Or.inr ⟨sd, sd', hs, by rw [hv, sdArg_domParam], by rw [hv', sdArg_domParam]⟩

theorem allow {d d' : Dict} (h : RelDict d d') : d.get "allow_source" = d'.get "allow_source" := get_eq h (by decide)

theorem adapter_noAlias : ∀ r ∈ adapterReq, r.2 ≠ .name "sample_domain" := by
  intro r hr
  simp only [adapterReq, List.mem_cons, List.not_mem_nil, or_false] at hr
  rcases hr with rfl | rfl <;> simp

theorem fitReq_noAlias : ∀ r ∈ ([("sample_domain", .yes)] : Request), r.2 ≠ .name "sample_domain" := by
  intro r hr
  simp only [List.mem_cons, List.not_mem_nil, or_false] at hr
  subst hr; simp

theorem baseTransform_rel {X : List α} {d d' : Dict} (h : RelDict d d') : baseTransform X d = baseTransform X d' := by
  unfold baseTransform
  rw [allow h]
  rcases sdArg_cases h with hg | ⟨sd, sd', hs, h1, h2⟩
  · rw [hg]
  · rw [h1, h2]
    simp only
    rcases checkX (f := { allowSource := truthy (d'.get "allow_source") }) ⟨rfl, rfl, rfl⟩ hs X with ⟨e, k1, k2⟩ | ⟨k1, k2⟩
    · rw [k1, k2]
    · rw [k1, k2]

end Sides

/-- C134 (mapping and subspace adapters in general). An adapter whose `fit` and `transform` see only the sides of the labels they
are given, as a pipeline step. -/
theorem C134_mapEst {φ : Type} (wrap : φ → σ) (unwrap : σ → φ) (fit : List α → Option (List Num) → SDArg → Py φ)
    (tr : φ → List α → SDArg → Bool → Py (List α)) (hfit : ∀ X y, SeesSides (fit X y))
    (htr : ∀ f X b, SeesSides (fun sd => tr f X sd b)) : SidesEq (mapEst wrap unwrap fit tr) := by
  have hft : ∀ (X : List α) (y : Option (List Num)) (p p' : Dict), RelDict p p' →
      (mapEst wrap unwrap fit tr).fitTransform ⟨X, y, p⟩ = (mapEst wrap unwrap fit tr).fitTransform ⟨X, y, p'⟩ := by
    intro X y p p' hp
    rcases Sides.sdArg_cases hp with hg | ⟨sd, sd', hs, h1, h2⟩
    · simp only [mapEst, hg]
    · simp only [mapEst, h1, h2, hfit X y sd sd' hs, fun f => htr f X true sd sd' hs]
  have htt : ∀ f (X : List α) (p p' : Dict), RelDict p p' →
      (mapEst wrap unwrap fit tr).transform f X p = (mapEst wrap unwrap fit tr).transform f X p' := by
    intro f X p p' hp
    have hal := Sides.allow hp
    rcases Sides.sdArg_cases hp with hg | ⟨sd, sd', hs, h1, h2⟩
    · simp only [mapEst, hal, hg]
    · simp only [mapEst, hal, h1, h2, htr (unwrap f) X _ sd sd' hs]
  refine ⟨⟨?_, ?_, ?_, ?_⟩, fun X y p p' hp _ => hft X y p p' hp⟩
  · rintro req (rfl | rfl | rfl)
    · exact Sides.fitReq_noAlias
    · exact Sides.adapter_noAlias
    · exact Sides.adapter_noAlias
  · intro X y p p' hp _
    rcases Sides.sdArg_cases hp with hg | ⟨sd, sd', hs, h1, h2⟩
    · simp only [mapEst, hg]
    · simp only [mapEst, h1, h2, hfit X y sd sd' hs]
  · intro X y p p' hp _
    rw [hft X y p p' hp]
    exact Sides.py_refl (fun a => ⟨rfl, Sides.out_refl _⟩) _
  · intro f X p p' hp _
    rw [htt f X p p' hp]
    exact Sides.py_refl Sides.out_refl _

/-- C134 (reweighting adapters in general). An adapter whose `fit` and `compute_weights` see only the sides. -/
theorem C134_reweightEst {φ : Type} (wrap : φ → σ) (fit : List α → Option (List Num) → SDArg → Py φ)
    (weights : φ → List α → Option (List Num) → SDArg → Py (List (Option ℚ))) (hfit : ∀ X y, SeesSides (fit X y))
    (hw : ∀ f X y, SeesSides (weights f X y)) : SidesEq (reweightEst wrap fit weights) := by
  have hft : ∀ (X : List α) (y : Option (List Num)) (p p' : Dict), RelDict p p' →
      (reweightEst wrap fit weights).fitTransform ⟨X, y, p⟩ = (reweightEst wrap fit weights).fitTransform ⟨X, y, p'⟩ := by
    intro X y p p' hp
    rcases Sides.sdArg_cases hp with hg | ⟨sd, sd', hs, h1, h2⟩
    · simp only [reweightEst, hg]
    · simp only [reweightEst, h1, h2, hfit X y sd sd' hs, fun f => hw f X y sd sd' hs]
  refine ⟨⟨?_, ?_, ?_, ?_⟩, fun X y p p' hp _ => hft X y p p' hp⟩
  · rintro req (rfl | rfl | rfl)
    · exact Sides.fitReq_noAlias
    · exact Sides.adapter_noAlias
    · exact Sides.adapter_noAlias
  · intro X y p p' hp _
    rcases Sides.sdArg_cases hp with hg | ⟨sd, sd', hs, h1, h2⟩
    · simp only [reweightEst, hg]
    · simp only [reweightEst, h1, h2, hfit X y sd sd' hs]
  · intro X y p p' hp _
    rw [hft X y p p' hp]
    exact Sides.py_refl (fun a => ⟨rfl, Sides.out_refl _⟩) _
  · intro f X p p' hp _
    show RelPy RelOut (baseTransform X p) (baseTransform X p')
    rw [Sides.baseTransform_rel hp]
    exact Sides.py_refl Sides.out_refl _

/-- C134 (label propagation in general). -/
theorem C134_labelEst (state : σ) (prop : List α → List Int → SDArg → Py (List α × List Int)) (hprop : ∀ X y, SeesSides (prop X y)) :
    SidesEq (Shallow.labelEst state prop) := by
  have hft : ∀ (X : List α) (y : Option (List Num)) (p p' : Dict), RelDict p p' →
      (Shallow.labelEst state prop).fitTransform ⟨X, y, p⟩ = (Shallow.labelEst state prop).fitTransform ⟨X, y, p'⟩ := by
    intro X y p p' hp
    rcases Sides.sdArg_cases hp with hg | ⟨sd, sd', hs, h1, h2⟩
    · simp only [Shallow.labelEst, hg]
    · cases y with
      | none => simp only [Shallow.labelEst, h1, h2]
      | some y => simp only [Shallow.labelEst, h1, h2, hprop X _ sd sd' hs]
  refine ⟨⟨?_, fun _ _ _ _ _ _ => rfl, ?_, ?_⟩, fun X y p p' hp _ => hft X y p p' hp⟩
  · rintro req (rfl | rfl | rfl)
    · exact Sides.fitReq_noAlias
    · exact Sides.adapter_noAlias
    · exact Sides.adapter_noAlias
  · intro X y p p' hp _
    rw [hft X y p p' hp]
    exact Sides.py_refl (fun a => ⟨rfl, Sides.out_refl _⟩) _
  · intro f X p p' hp _
    show RelPy RelOut (baseTransform X p) (baseTransform X p')
    rw [Sides.baseTransform_rel hp]
    exact Sides.py_refl Sides.out_refl _

section Adapters
variable {K : Type} [Field K] [LinearOrder K] {d : Nat}

/-- C134 (mapping methods). The steps of `OTMapping` and its variants, `CORAL` and `MMDLSConSMapping`. -/
theorem C134_mapping
    (wrapO : (NArr (List Num) → Py (NArr (List Num))) → σ) (unwrapO : σ → NArr (List Num) → Py (NArr (List Num)))
    (ot : NArr (List Num) → Option (List Num) → NArr (List Num) → Option (List Num) → Py (NArr (List Num) → Py (NArr (List Num))))
    (tail : List Nat) (wrapC : Map.Coral K d → σ) (unwrapC : σ → Map.Coral K d)
    (cov : List (Fin d → K) → Matrix (Fin d) (Fin d) K) (sqrtM invsqrtM : Matrix (Fin d) (Fin d) K → Matrix (Fin d) (Fin d) K)
    (assumeCentered : Bool) (wrapM : Map.MmdLs K d ℚ → σ) (unwrapM : σ → Map.MmdLs K d ℚ) (dist : (Fin d → K) → (Fin d → K) → K)
    (opt : List (Fin d → K) → List (Fin d → K) → List ℚ → List (Fin d → K) × List (Fin d → K)) :
    SidesEq (otEst wrapO unwrapO ot tail) ∧ SidesEq (Shallow.coralEst wrapC unwrapC cov sqrtM invsqrtM assumeCentered) ∧
      SidesEq (Shallow.mmdlsEst wrapM unwrapM dist opt) := by
  refine ⟨C134_mapEst _ _ _ _ ?_ ?_, C134_mapEst _ _ _ _ ?_ ?_, C134_mapEst _ _ _ _ ?_ ?_⟩
  · intro X y sd sd' hs
    refine Sides.check_bind ⟨rfl, rfl, rfl⟩ hs _ ?_
    simp only [Sides.splitN_rel hs, Sides.splitY_rel hs]
  · intro T X b sd sd' hs
    refine congrArg rowsOf (Sides.check_bind ⟨rfl, rfl, rfl⟩ hs _ ?_)
    simp only [Sides.splitN_rel hs, Sides.mergeN_rel hs]
  · intro X y sd sd' hs
    refine Sides.check_bind ⟨rfl, rfl, rfl⟩ hs _ ?_
    simp only [Sides.splitN_rel hs]
  · intro T X b sd sd' hs
    refine congrArg (fun r => Shallow.toRows (rowsOf r)) (Sides.check_bind ⟨rfl, rfl, rfl⟩ hs _ ?_)
    simp only [Sides.splitN_rel hs, Sides.mergeN_rel hs]
  · intro X y sd sd' hs
    cases y with
    | none => rfl
    | some y =>
      refine Sides.check_bind ⟨rfl, rfl, rfl⟩ hs _ ?_
      simp only [Sides.splitX_rel hs]
  · intro T X b sd sd' hs
    refine congrArg (fun r => Shallow.toRows (rowsOf r)) (Sides.check_bind ⟨rfl, rfl, rfl⟩ hs _ ?_)
    simp only [Sides.extract hs, Sides.mergeN_rel hs]

/-- C134 (subspace methods). The steps of `SubspaceAlignment`, `TransferSubspaceLearning`, `TransferComponentAnalysis` and
`TransferJointMatching`. -/
theorem C134_subspace {p : Nat} (wrapS : (Σ p, Subsp.Pca K d p × Subsp.Pca K d p) → σ)
    (unwrapS : σ → Σ p, Subsp.Pca K d p × Subsp.Pca K d p) (pca : ∀ p, List (Fin d → K) → Subsp.Pca K d p) (n : Option Nat)
    (wrapT : Matrix (Fin d) (Fin p) K → σ) (unwrapT : σ → Matrix (Fin d) (Fin p) K)
    (opt : List (Fin d → K) → List Num → List (Fin d → K) → Matrix (Fin d) (Fin p) K)
    (wrapK : Subsp.Embedding (List K) K p → σ) (unwrapK : σ → Subsp.Embedding (List K) K p) (k : List K → List K → K)
    (eig : List (List K) → Nat → Nat → Py (List (Fin p → K))) :
    SidesEq (Shallow.saEst wrapS unwrapS pca n) ∧ SidesEq (Shallow.tslEst wrapT unwrapT opt) ∧
      SidesEq (Shallow.kernelEst wrapK unwrapK k eig) := by
  refine ⟨C134_mapEst _ _ _ _ ?_ ?_, C134_mapEst _ _ _ _ ?_ ?_, C134_mapEst _ _ _ _ ?_ ?_⟩
  · intro X y sd sd' hs
    have : Subsp.saFitArgs n (Shallow.vecs d X) (.vec sd) = Subsp.saFitArgs n (Shallow.vecs d X) (.vec sd') := by
      refine Sides.check_bind ⟨rfl, rfl, rfl⟩ hs _ ?_
      simp only [Sides.splitX_rel hs]
    simp only [Shallow.saFit, this]
  · intro T X b sd sd' hs
    refine congrArg (fun r => Shallow.toRows (rowsOf r)) (Sides.check_bind ⟨rfl, rfl, rfl⟩ hs _ ?_)
    simp only [Sides.splitX_rel hs, Sides.mergeN_rel hs]
  · intro X y sd sd' hs
    refine Sides.check_bind ⟨rfl, rfl, rfl⟩ hs _ ?_
    simp only [Sides.splitX_rel hs]
  · intro T X b sd sd' hs
    refine congrArg (fun r => Shallow.toRows (rowsOf r)) (Sides.check_bind ⟨rfl, rfl, rfl⟩ hs _ ?_)
    simp only [Sides.splitX_rel hs, Sides.mergeN_rel hs]
  · intro X y sd sd' hs
    refine Sides.check_bind ⟨rfl, rfl, rfl⟩ hs _ ?_
    simp only [Sides.splitX_rel hs]
  · intro T X b sd sd' hs
    refine congrArg Shallow.toRows (Sides.check_bind ⟨rfl, rfl, rfl⟩ hs _ ?_)
    simp only [Sides.splitX_rel hs]

end Adapters

section Weights

/-- C134 (reweighting methods). The steps of `DensityReweight`, `DiscriminatorReweight`, `KLIEPReweight` and `KMMReweight`. -/
theorem C134_reweighting [DecidableEq α] (wrapD : (α → ℚ) × (α → ℚ) → σ) (kde : List α → α → ℚ) (exp : ℚ → ℚ) (wrapC : (α → ℚ) → σ)
    (clf : List α → List Int → α → ℚ) (clipEps : ℚ) (wrapL : Option (List ℚ) × List α → σ) (k : α → α → ℚ) (eps tol : ℚ)
    (obj : List α → List α → List ℚ → ℚ) (obj0 : ℚ) (maxIter : Nat) (draw : List Nat) (wrapM : List ℚ × List α → σ) (sqrt : ℚ → ℚ)
    (kmmEps : Option ℚ) (B : ℚ) (solver : String) (scipy : ∀ n, (Fin n → ℚ) → Py ((Fin n → ℚ) × ℚ)) (smooth : Bool) :
    SidesEq (reweightEst wrapD (fun X _ sd => RW.densityFit kde X sd) (fun g X _ sd => RW.densityWeights exp g X sd)) ∧
    SidesEq (reweightEst wrapC (fun X _ sd => RW.discriminatorFit clf X sd) (fun g X _ sd => RW.discriminatorWeights clipEps g X sd)) ∧
    SidesEq (reweightEst wrapL (fun X _ sd => RW.kliepFit k eps tol obj obj0 maxIter draw X sd)
      (fun g X _ sd => RW.kliepWeights k g X sd)) ∧
    SidesEq (reweightEst wrapM (fun X _ sd => RW.kmmFit k sqrt kmmEps B solver maxIter scipy X sd)
      (fun g X _ sd => RW.kmmWeights k smooth g X sd)) := by
  refine ⟨C134_reweightEst _ _ _ ?_ ?_, C134_reweightEst _ _ _ ?_ ?_, C134_reweightEst _ _ _ ?_ ?_, C134_reweightEst _ _ _ ?_ ?_⟩
  · intro X y sd sd' hs
    refine Sides.check_bind ⟨rfl, rfl, rfl⟩ hs _ ?_
    simp only [Sides.splitX_rel hs]
  · intro f X y sd sd' hs
    refine Sides.check_bind ⟨rfl, rfl, rfl⟩ hs _ ?_
    simp only [Sides.sourceIdx_rel hs]
  · intro X y sd sd' hs
    refine Sides.check_bind ⟨rfl, rfl, rfl⟩ hs _ ?_
    simp only [Sides.sourceIdx_rel hs]
  · intro f X y sd sd' hs
    refine Sides.check_bind ⟨rfl, rfl, rfl⟩ hs _ ?_
    simp only [Sides.sourceIdx_rel hs]
  · intro X y sd sd' hs
    refine Sides.check_bind ⟨rfl, rfl, rfl⟩ hs _ ?_
    simp only [Sides.splitX_rel hs]
  · intro f X y sd sd' hs
    refine Sides.check_bind ⟨rfl, rfl, rfl⟩ hs _ ?_
    simp only [Sides.sourceIdx_rel hs]
  · intro X y sd sd' hs
    refine Sides.check_bind ⟨rfl, rfl, rfl⟩ hs _ ?_
    simp only [Sides.splitX_rel hs]
  · intro f X y sd sd' hs
    refine Sides.check_bind ⟨rfl, rfl, rfl⟩ hs _ ?_
    simp only [Sides.extract hs]

/-- C134 (more weights). `GaussianReweight` (labels at the fit and labels at the weights), `NearestNeighborReweight`, `KLIEPReweight`
with a choice of bandwidths (also the parameter of the object afterwards) and `MMDTarSReweight`. -/
theorem C134_weights [DecidableEq α] {K : Type} [Field K] [LinearOrder K] {d : Nat} (sd sd' e e' : List Int) (h : SameSides sd sd')
    (he : SameSides e e') :
    (∀ (pdf : List α → α → K) (Xf X : List α),
      RW.gaussianFitWeights pdf Xf (.vec sd) X (.vec e) = RW.gaussianFitWeights pdf Xf (.vec sd') X (.vec e')) ∧
    (∀ (knn : List α → α → Nat) (laplace : Bool) (X : List α),
      (RW.nnWeights knn laplace X (.vec sd) : Py (List K)) = RW.nnWeights knn laplace X (.vec sd')) ∧
    (∀ (E : RW.KliepEnv K) (folds : Nat → Py (List (List Nat × List Nat))) (gamma : RW.GammaParam K) (X : List (Fin d → K)),
      RW.fitObj E folds gamma X (.vec sd) = RW.fitObj E folds gamma X (.vec sd')) ∧
    (∀ (E : RW.KliepEnv K) (F : RW.KliepFitted K d) (X : List (Fin d → K)),
      RW.weightsObj E F X (.vec sd) = RW.weightsObj E F X (.vec sd')) ∧
    (∀ (solve : List α → List α → List ℚ → List K) (X : List α) (y : List ℚ),
      RW.tarsFit solve X y (.vec sd) = RW.tarsFit solve X y (.vec sd')) ∧
    (∀ (tiny : K) (fitted : List K × List K × List α × List ℚ) (X : List α) (y : List ℚ),
      RW.tarsWeights tiny fitted X y sd = RW.tarsWeights tiny fitted X y sd') := by
  refine ⟨?_, ?_, ?_, ?_, ?_, ?_⟩
  · intro pdf Xf X
    refine Sides.check_bind ⟨rfl, rfl, rfl⟩ h _ ?_
    simp only [Sides.splitX_rel h]
    refine bind_congr (fun _ => ?_)
    refine Sides.check_bind ⟨rfl, rfl, rfl⟩ he _ ?_
    simp only [Sides.sourceIdx_rel he]
  · intro knn laplace X
    refine Sides.check_bind ⟨rfl, rfl, rfl⟩ h _ ?_
    simp only [Sides.sourceIdx_rel h]
  · intro E folds gamma X
    unfold RW.fitObj
    rcases Sides.checkX (f := { allowMultiSource := true, allowMultiTarget := true }) ⟨rfl, rfl, rfl⟩ h X with ⟨err, h1, h2⟩ | ⟨h1, h2⟩
    · rw [h1, h2]
    · rw [h1, h2]
      simp only [Sides.splitX_rel h]
  · intro E F X
    unfold RW.weightsObj
    refine bind_congr (fun _ => ?_)
    refine Sides.check_bind ⟨rfl, rfl, rfl⟩ h _ ?_
    simp only [Sides.sourceIdx_rel h]
  · intro solve X y
    refine Sides.check_bind ⟨rfl, rfl, rfl⟩ h _ ?_
    simp only [Sides.splitX_rel h]
  · intro tiny fitted X y
    unfold RW.tarsWeights
    simp only [Sides.extract h]

end Weights

section Own
variable {K : Type} [Field K] [LinearOrder K] {d : Nat}

/-- C134 (label propagation). The step of `OTLabelProp`, for classes, and the values it proposes for continuous labels. -/
theorem C134_labelprop (state : σ) (plan : List α → List α → List K → List K → List (List K)) (w : Option (List K)) :
    SidesEq (Shallow.labelEst state (fun X y sd => OT.otLabelProp plan X y sd w)) ∧
    ∀ (X : List α) (y : List K), SeesSides (fun sd => OT.otLabelPropReg plan X y sd w) := by
  refine ⟨C134_labelEst state _ ?_, ?_⟩
  · intro X y sd sd' hs
    refine Sides.checkXy_bind ⟨rfl, rfl, rfl⟩ hs _ _ ?_
    simp only [Sides.splitX_rel hs, Sides.splitY_rel hs, Sides.negMask hs]
  · intro X y sd sd' hs
    refine Sides.check_bind ⟨rfl, rfl, rfl⟩ hs _ ?_
    simp only [Sides.splitX_rel hs, Sides.splitY_rel hs, Sides.negMask hs]

/-- C134 (methods that are estimators of their own). `DASVMClassifier`, `GradualEstimator`, `JDOTRegressor` and `JDOTClassifier`:
the same fitted object, and from the last two the same warning and answer. -/
theorem C134_estimators {E γ : Type} (sd sd' : List Int) (h : SameSides sd sd') :
    (∀ [DecidableEq β] (L : SL.Learner α β E K) (k maxIter : Nat) (X : List α) (y : List β),
      SL.dasvmFit L k maxIter X y (.vec sd) = SL.dasvmFit L k maxIter X y (.vec sd')) ∧
    (∀ (mlp : SL.GLearner K d β E) (given : Option (SL.GLearner K d β E × Option Nat))
      (coupling : List (Fin d → K) → List β → List (Fin d → K) → List β → List (List K)) (alpha : ℚ) (advanced : Bool) (nSteps : Nat)
      (X : List (Fin d → K)) (y : List β),
      SL.gradFitAny mlp given coupling alpha advanced nSteps X y sd = SL.gradFitAny mlp given coupling alpha advanced nSteps X y sd') ∧
    (∀ (solve : ∀ ns nt, (Fin ns → Fin nt → K) → (Fin ns → K) → (Fin nt → K) → OT.Sol K ns nt) (dist : α → α → K)
      (R : OT.Regressor α E K) (num : β → K) (alpha : K) (nIterMax : Nat) (tol : K) (undef : Py (OT.JdotOut E K)) (X : List α)
      (y : Option (List β)) (sw : Option (List K)),
      OT.jdotRegressorFit solve dist R num alpha nIterMax tol undef X y sw sd =
        OT.jdotRegressorFit solve dist R num alpha nIterMax tol undef X y sw sd') ∧
    (∀ [LinearOrder β] (solve : ∀ ns nt, (Fin ns → Fin nt → K) → (Fin ns → K) → (Fin nt → K) → OT.Sol K ns nt) (dist : α → α → K)
      (C : OT.Classifier α β E K) (metric : String) (alpha thr : K) (nIterMax : Nat) (tol : K) (undef : Py (OT.JdotOut E K)) (X : List α)
      (y : Option (List β)) (sw : Option (List K)),
      OT.jdotClassifierFit solve dist C metric alpha thr nIterMax tol undef X y sw sd =
        OT.jdotClassifierFit solve dist C metric alpha thr nIterMax tol undef X y sw sd') ∧
    (∀ (answer : E → List α → Py γ) (state : Option (OT.JdotOut E K)) (X : List α),
      OT.jdotPredict answer state X (some sd) = OT.jdotPredict answer state X (some sd')) := by
  refine ⟨?_, ?_, ?_, ?_, ?_⟩
  · intro _ L k maxIter X y
    refine Sides.check_bind ⟨rfl, rfl, rfl⟩ h _ ?_
    simp only [Sides.splitX_rel h]
  · intro mlp given coupling alpha advanced nSteps X y
    unfold SL.gradFitAny SL.gradFit
    simp only [Sides.mask h, Sides.negMask h]
  · intro solve dist R num alpha nIterMax tol undef X y sw
    unfold OT.jdotRegressorFit
    simp only [Sides.splitX_rel h, Sides.splitY_rel h]
  · intro _ solve dist C metric alpha thr nIterMax tol undef X y sw
    unfold OT.jdotClassifierFit
    simp only [Sides.splitX_rel h, Sides.splitY_rel h]
  · intro answer state X
    have ha : sd.any (fun d => decide (0 ≤ d)) = sd'.any (fun d => decide (0 ≤ d)) := by
      have := congrArg (fun l => l.any id) (Sides.mask h)
      simpa [List.any_map, Function.comp_def] using this
    unfold OT.jdotPredict
    simp only [ha]

end Own

/-! ### Methods that treat single domains -/

/-- C134 (`PerDomain`). A renaming that keeps signs and the order of the labels: the estimators of the domains receive the same calls
in the same order, and the fitted estimators are the same under the new names. -/
theorem C134_perDomain_fit_partial (s : Sel α σ) (h1 : ¬ Asked s.est.fitReq "sample_domain")
    (h2 : ¬ Asked s.est.fitTransformReq "sample_domain") (f : Int → Int) (hf : StrictMono f) (hs : ∀ d, 0 ≤ d ↔ 0 ≤ f d) (m : Method)
    (X : List α) (y : Option (List Num)) (sd : List Int) :
    s.perDomainFit m (Cont.fromInput (.array X)) y [("sample_domain", domParam (sd.map f))] =
      ((s.perDomainFit m (Cont.fromInput (.array X)) y [("sample_domain", domParam sd)]).1,
       (s.perDomainFit m (Cont.fromInput (.array X)) y [("sample_domain", domParam sd)]).2.map
        (fun r => (r.1.map (fun o => (f o.1, o.2)), r.2))) := by
  have hsd := Sides.sameSides_map hs sd
  have hp := Sides.domDict hsd
  have hreq : ¬ Asked (s.est.request m) "sample_domain" := by cases m <;> assumption
  have hna : ∀ r ∈ s.est.request m, r.2 ≠ .name "sample_domain" := fun r hr h => hreq ⟨r, hr, Or.inr ⟨_, h, Or.inr rfl⟩⟩
  have hcall : ∀ y, s.routedCall m X y [("sample_domain", domParam sd)] = s.routedCall m X y [("sample_domain", domParam (sd.map f))] := by
    intro y
    unfold Sel.routedCall
    rcases Sides.py_cases (Sides.prepare hna (f := s.final) (t := s.est.hasTransform) hp) with ⟨e, e1, e2⟩ | ⟨a, b, e1, e2, hab⟩
    · rw [e1, e2]
    · have := Sides.prepare_asked e1
      rw [Sides.dict_eq hab (fun kv hkv h => hreq (h ▸ this kv hkv))] at e1
      rw [e1, e2]
  unfold Sel.perDomainFit
  rw [← Sides.ownMask_rel s hp]
  cases s.ownMask y [("sample_domain", domParam sd)] with
  | error e => rfl
  | ok y' =>
    have hm : ∀ l, (Cont.fromInput (.array X) : Cont α).mergeOut y' [("sample_domain", domParam l)] = (X, y', [("sample_domain", domParam l)]) :=
      fun l => by cases y' <;> rfl
    have hh : ∀ l, Dict.has [("sample_domain", domParam l)] "sample_domain" = true := fun l => rfl
    have hg : ∀ l, Dict.get [("sample_domain", domParam l)] "sample_domain" = domParam l := fun l => rfl
    simp only [hm, hh, hg, domainsOf_domParam, Bool.not_true, Bool.false_eq_true, if_false]
    rw [← hcall]
    cases s.routedCall m X y' [("sample_domain", domParam sd)] with
    | error e => rfl
    | ok call =>
      dsimp only
      rw [Sides.unique_map hf, Sides.perDomainLoop_map hf]
      rcases s.perDomainLoop m call.X call.y call.params sd (Np.unique sd) with ⟨calls, r⟩
      cases r <;> rfl

/-- C134 (`PerDomain`, evaluation). With the estimators under their new names, the same answer. -/
theorem C134_perDomain_predict_partial [Cell β] (s : Sel α σ) (req : Request) (hreq : ¬ Asked req "sample_domain") (f : Int → Int)
    (hf : StrictMono f) (hs : ∀ d, 0 ≤ d ↔ 0 ≤ f d) (ests : List (Int × σ)) (query : σ → Call α → Py (QOut β)) (X : List α)
    (y : Option (List Num)) (sd : List Int) :
    s.perDomainRoute req (ests.map (fun o => (f o.1, o.2))) query X y [("sample_domain", domParam (sd.map f))] =
      s.perDomainRoute req ests query X y [("sample_domain", domParam sd)] := by
  have hp := Sides.domDict (Sides.sameSides_map hs sd)
  have hna : ∀ r ∈ req, r.2 ≠ .name "sample_domain" := fun r hr h => hreq ⟨r, hr, Or.inr ⟨_, h, Or.inr rfl⟩⟩
  have hh : ∀ l, Dict.has [("sample_domain", domParam l)] "sample_domain" = true := fun l => rfl
  have hg : ∀ l, Dict.get [("sample_domain", domParam l)] "sample_domain" = domParam l := fun l => rfl
  unfold Sel.perDomainRoute
  simp only [hh, hg, domainsOf_domParam, Bool.not_true, Bool.false_eq_true, if_false, Sides.unique_map hf, Sides.perDomainOutputs_map hf]
  rcases Sides.py_cases (Sides.prepare hna (f := s.final) (t := s.est.hasTransform) hp) with ⟨e, e1, e2⟩ | ⟨a, b, e1, e2, hab⟩
  · rw [e1, e2]
  · have := Sides.prepare_asked e1
    rw [e1, e2, Sides.dict_eq hab (fun kv hkv h => hreq (h ▸ this kv hkv))]

/-- An estimator for the examples: its answer is the first row it was fitted on. -/
def firstRow : Est Num Num :=
  ⟨false, false, [], [], [], fun c => .ok (c.X.headD .nan), fun _ => .error .attributeError, fun _ _ _ => .error .attributeError⟩

/-- The answer of `firstRow`: an integer array when the row is integral. -/
def firstRowQuery (f : Num) (c : Call Num) : Py (QOut Num) :=
  match f with
  | .fin q => .ok (.arr ⟨if q.den = 1 then .int else .float, [], c.X.map (fun _ => f)⟩)
  | _ => .error .valueError

/-- `PerDomain(firstRow).fit(X, sample_domain=sd).predict(X, sample_domain=sd)`. -/
def firstRowRun (X : List Num) (sd : List Int) : Py (List Num) :=
  match (Sel.perDomainFit ⟨firstRow, false, true⟩ .fit (Cont.fromInput (.array X)) none [("sample_domain", domParam sd)]).2 with
  | .error e => .error e
  | .ok (r, _) => match Sel.perDomainRoute ⟨firstRow, false, true⟩ [] (r.map (fun o => (o.1, o.2.2.1))) firstRowQuery X none
      [("sample_domain", domParam sd)] with
    | .error e => .error e
    | .ok out => .ok out.rows

/-- Order matters (negation for `PerDomain`): two source domains swap their names, `1` and `2`, and the predictions change. The
array of predictions takes its type from the domain with the smallest label. -/
theorem C134_perDomain_order_counterexample :
    SameSides [1, 2] [2, 1] ∧ firstRowRun [.fin 3, .fin (1 / 2)] [1, 2] = .ok [.fin 3, .fin 0] ∧
      firstRowRun [.fin 3, .fin (1 / 2)] [2, 1] = .ok [.fin 3, .fin (1 / 2)] :=
  ⟨by simp [SameSides], by decide +kernel, by decide +kernel⟩

/-- Single domains matter (negation for `JCPOTLabelProp`): two target domains swap their names, `-2` and `-3`, and the labels proposed
for the rows swap, too. Here the score of a row is read off the row itself. -/
theorem C134_jcpot_counterexample :
    ∃ (scores : List (List Nat) → List (List Int) → List Nat → List (List ℚ)), SameSides [1, -3, -2] [1, -2, -3] ∧
      OT.jcpot scores [5, 0, 1] [0, -1, -1] (.vec [1, -3, -2]) = .ok ([5, 0, 1], [-1, 0, 1]) ∧
      OT.jcpot scores [5, 0, 1] [0, -1, -1] (.vec [1, -2, -3]) = .ok ([5, 0, 1], [-1, 1, 0]) :=
  ⟨fun _ _ Xt => Xt.map (fun x => if x = 0 then [1, 0] else [0, 1]), by simp [SameSides], by decide +kernel, by decide +kernel⟩

/-- `MultiLinearMongeAlignment` has one map for each source domain: two rows of one domain or of two domains is a difference. -/
theorem C134_monge_counterexample :
    ∃ (covMean : List (List ℚ) → ℚ) (bary : List ℚ → ℚ) (mapping : ℚ → ℚ → List ℚ → List ℚ), SameSides [1, 1, -2] [1, 2, -2] ∧
      (Map.mongeFit covMean bary mapping [[1], [2], [3]] (.vec [1, 1, -2])).map (fun r => r.map (fun p => (p.1, p.2 [0]))) =
        .ok [(1, [0]), (-2, [-3 / 2])] ∧
      (Map.mongeFit covMean bary mapping [[1], [2], [3]] (.vec [1, 2, -2])).map (fun r => r.map (fun p => (p.1, p.2 [0]))) =
        .ok [(1, [1 / 2]), (2, [-1 / 2]), (-2, [-3 / 2])] :=
  ⟨fun X => (X.map (·.headD 0)).sum / X.length, fun l => l.sum / l.length, fun c b x => [x.headD 0 + b - c], by simp [SameSides],
    by decide +kernel, by decide +kernel⟩

/-! ### Concrete cases -/

/-- A renaming that keeps the order. -/
example : StrictMono (fun d : Int => if 0 ≤ d then 2 * d + 3 else 5 * d) ∧ ∀ d : Int, 0 ≤ d ↔ 0 ≤ (if 0 ≤ d then 2 * d + 3 else 5 * d) := by
  refine ⟨fun a b h => ?_, fun d => ?_⟩
  · dsimp only; split_ifs <;> omega
  · split_ifs <;> omega

/-- Three domains, renamed without change of their order. -/
example : firstRowRun [.fin 3, .fin 4, .fin 8, .fin 7] [1, 2, 2, -2] = .ok [.fin 3, .fin 4, .fin 4, .fin 7] ∧
    firstRowRun [.fin 3, .fin 4, .fin 8, .fin 7] [5, 7, 7, -10] = .ok [.fin 3, .fin 4, .fin 4, .fin 7] := by decide +kernel

/-- A pipeline of a reweighting adapter, `SelectSource` around a transformer, and a classifier that takes weights. -/
def sidesDemo : List ((String → Bool) × Step Num (Option (List Num))) :=
  [(fun _ => true, .shared ⟨reweightEst (fun _ => none) (fun X _ sd => RW.discriminatorFit (fun _ _ x => if x = .fin 1 then (1 / 4 : ℚ) else 1 / 2) X sd)
      (fun g X _ sd => RW.discriminatorWeights (1 / 100) g X sd), true, false⟩),
   (fun _ => true, .select .source ⟨exEst true [], true, false⟩),
   (fun _ => true, .shared ⟨exEst false [("sample_weight", .yes)], true, true⟩)]

theorem sidesDemo_ok : ∀ st ∈ sidesDemo, StepSides st.2 := by
  have hno : ∀ (b : Bool) (req : Request), (∀ r ∈ req, r.1 = "sample_weight" ∧ r.2 = .yes) → ¬ Asked req "sample_domain" := by
    rintro - req h ⟨r, hr, ⟨-, h1⟩ | ⟨a, h1, -⟩⟩
    · rw [(h r hr).1] at h1; exact absurd h1 (by decide)
    · rw [(h r hr).2] at h1; simp at h1
  intro st hst
  simp only [sidesDemo, List.mem_cons, List.not_mem_nil, or_false] at hst
  rcases hst with rfl | rfl | rfl
  · simp only [StepSides]
    refine (C134_reweightEst _ _ _ ?_ ?_).toSidesOnly
    · intro X y sd sd' hs
      refine Sides.check_bind ⟨rfl, rfl, rfl⟩ hs _ ?_
      simp only [Sides.sourceIdx_rel hs]
    · intro f X y sd sd' hs
      refine Sides.check_bind ⟨rfl, rfl, rfl⟩ hs _ ?_
      simp only [Sides.sourceIdx_rel hs]
  · exact (C134_plain _ (hno true _ (by simp [exEst])) (hno true _ (by simp [exEst])) (hno true _ (by simp [exEst]))).toSidesOnly
  · exact (C134_plain _ (hno true _ (by simp [exEst])) (hno true _ (by simp [exEst])) (hno true _ (by simp [exEst]))).toSidesOnly

/-- Three source rows of one domain or of three, one target row: the same fitted pipeline, and what the final estimator was given. -/
example : (pipelineFit sidesDemo [.fin 1, .fin 2, .fin 9, .fin 3] (some [.fin 0, .fin 1, .fin 1, .fin 1]) [("sample_domain", domParam [1, 1, -2, 1])]).2 =
    (pipelineFit sidesDemo [.fin 1, .fin 2, .fin 9, .fin 3] (some [.fin 0, .fin 1, .fin 1, .fin 1]) [("sample_domain", domParam [5, 0, -1, 2])]).2 :=
  (C134_user (β := Unit) sidesDemo sidesDemo_ok _ _ [1, 1, -2, 1] [5, 0, -1, 2] (by simp [SameSides])).1

example : ((pipelineFit sidesDemo [.fin 1, .fin 2, .fin 9, .fin 3] (some [.fin 0, .fin 1, .fin 1, .fin 1])
      [("sample_domain", domParam [1, 1, -2, 1])]).1.map (fun c => (c.X, c.y, c.params))).getLast? =
    some ([.fin 1, .fin 2, .fin 3], some [.fin 0, .fin 1, .fin 1], [("sample_weight", .arr [.fin (9 / 5), .fin (3 / 5), .fin (3 / 5)])]) := by
  decide +kernel

end Skada

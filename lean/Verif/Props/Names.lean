/-
Property C138: a class is only known by its name. A pipeline fitted on the same data with the classes renamed is equivalent, and its
predictions are the same with the classes renamed.
-/
import Verif.Lemmas.Names
import Verif.Props.Order
import Verif.Props.ShallowMethods
import Verif.Props.KliepObj
import Verif.Model.Optim
import Verif.Model.QpScipy

namespace Skada
open Np Spec

variable {α β σ : Type}

/-! ### Pipelines -/

/-- C138 (fitting). `fit(X, y, **params)` and the same with the classes renamed by `f`: every estimator receives the same call with the
classes renamed, and the fitted steps correspond, or both fits end with the same exception. Missing: `PerDomain` and `SelectSourceTarget`
around estimators that propose labels (`StepNames` asks for `NoLabels` there). -/
theorem C138_fit_partial [Cell α] (f : Nat → Nat) (Q : σ → σ → Prop) (steps : List ((String → Bool) × Step α σ))
    (hsteps : ∀ st ∈ steps, StepNames f Q st.2) (X : List α) (y : Option (List Num)) (hy : Discrete y) (p : Dict) :
    (pipelineFit steps X (renameY f y) p).1 = (pipelineFit steps X y p).1.map (renameCall f) ∧
      RelPy (fun a b => List.Forall₂ (FittedRel Q) a.1 b.1 ∧ b.2 = renameY f a.2)
        (pipelineFit steps X y p).2 (pipelineFit steps X (renameY f y) p).2 := by
  unfold pipelineFit
  split
  · exact ⟨rfl, rfl⟩
  · exact Names.fitSteps_rename p steps hsteps (Cont.fromInput (.array X)) Names.discrete_none y hy

/-- C138 (answers and scores). A method of the fitted pipeline, of two pipelines that correspond: the results are related as those of the
final estimator are. For `predict` there are no labels and `R` says that the predictions are renamed; for `score` the labels are renamed
and `R` is equality. -/
theorem C138_route [Cell α] (f : Nat → Nat) (Q : σ → σ → Prop) (R : β → β → Prop) (steps steps' : List ((String → Bool) × Step α σ × Fitted σ))
    (hs : List.Forall₂ (fun a b => a.1 = b.1 ∧ a.2.1 = b.2.1 ∧ StepNames f Q a.2.1 ∧ FittedRel Q a.2.2 b.2.2) steps steps')
    (keep : String → Bool) (s : Sel α σ) (g g' : σ) (hg : Q g g') (req : Request) (query : σ → Call α → Py β)
    (hq : ∀ g g', Q g g' → ∀ c, Discrete c.y → RelPy R (query g c) (query g' (renameCall f c)))
    (X : List α) (y : Option (List Num)) (hy : Discrete y) (p : Dict) :
    RelPy R (stepsRoute steps (keep, s, g) req query X y p) (stepsRoute steps' (keep, s, g') req query X (renameY f y) p) :=
  Names.stepsRoute_rename hq hg y hy p hs X

namespace Names

theorem zip_fitted {f : Nat → Nat} {Q : σ → σ → Prop} {steps : List ((String → Bool) × Step α σ)} (hs : ∀ st ∈ steps, StepNames f Q st.2)
    {fs fs' : List (Fitted σ)} (h : List.Forall₂ (FittedRel Q) fs fs') :
    List.Forall₂ (fun a b => a.1 = b.1 ∧ a.2.1 = b.2.1 ∧ StepNames f Q a.2.1 ∧ FittedRel Q a.2.2 b.2.2)
      (List.zipWith (fun st f => (st.1, st.2, f)) steps fs) (List.zipWith (fun st f => (st.1, st.2, f)) steps fs') := by
  induction h generalizing steps with
  | nil => cases steps <;> exact List.Forall₂.nil
  | cons hab _ ih =>
    cases steps with
    | nil => exact List.Forall₂.nil
    | cons st steps =>
      exact List.Forall₂.cons ⟨rfl, rfl, hs st List.mem_cons_self, hab⟩ (ih (fun t ht => hs t (List.mem_cons_of_mem _ ht)))

end Names

/-- C138 (what a user sees). `fit` with labels `y` and with the classes renamed: the same exception, or two fitted pipelines of which, on the
same data, the second predicts what the first predicts with the classes renamed. -/
theorem C138_user_partial [Cell α] (f : Nat → Nat) (Q : σ → σ → Prop) (steps : List ((String → Bool) × Step α σ)) (keep : String → Bool)
    (s : Sel α σ) (hsteps : ∀ st ∈ steps ++ [(keep, .shared s)], StepNames f Q st.2) (X : List α) (y : Option (List Num)) (hy : Discrete y)
    (p : Dict) (predict : σ → Call α → Py (List Num))
    (hpredict : ∀ g g', Q g g' → ∀ c, c.y = none → predict g' c = (predict g c).map (List.map (rename f))) :
    let run := pipelineFit (steps ++ [(keep, .shared s)]) X y p
    let run' := pipelineFit (steps ++ [(keep, .shared s)]) X (renameY f y) p
    (∀ e, run.2 = .error e → run'.2 = .error e) ∧
    ∀ fs g ys, run.2 = .ok (fs ++ [.one g], ys) → ∃ fs' g', run'.2 = .ok (fs' ++ [.one g'], renameY f ys) ∧ Q g g' ∧
      ∀ (req : Request) (Xt : List α) (q : Dict),
        stepsRoute (List.zipWith (fun st f => (st.1, st.2, f)) steps fs') (keep, s, g') req predict Xt none q =
          (stepsRoute (List.zipWith (fun st f => (st.1, st.2, f)) steps fs) (keep, s, g) req predict Xt none q).map
            (List.map (rename f)) := by
  intro run run'
  have hfit := (C138_fit_partial f Q (steps ++ [(keep, .shared s)]) hsteps X y hy p).2
  change RelPy _ run.2 run'.2 at hfit
  constructor
  · intro e he
    rw [he] at hfit
    cases h : run'.2 with
    | error e' => rw [h] at hfit; exact congrArg Except.error (Eq.symm hfit)
    | ok a => rw [h] at hfit; exact hfit.elim
  · intro fs g ys hr
    rw [hr] at hfit
    cases h : run'.2 with
    | error e' => rw [h] at hfit; exact hfit.elim
    | ok a =>
      rw [h] at hfit
      obtain ⟨fs2, ys2⟩ := a
      obtain ⟨h1, h2⟩ := hfit
      simp only at h1 h2
      subst h2
      obtain ⟨fs', x', rfl, h3, h4⟩ := Order.forall₂_snoc h1
      cases x' with
      | one g' =>
        refine ⟨fs', g', rfl, h4, ?_⟩
        intro req Xt q
        have hz := Names.zip_fitted (fun st hst => hsteps st (List.mem_append_left _ hst)) h3
        have key : RelPy (fun a b => b = a.map (rename f))
            (stepsRoute (List.zipWith (fun st f => (st.1, st.2, f)) steps fs) (keep, s, g) req
              (fun g c => predict g { c with y := none }) Xt none q)
            (stepsRoute (List.zipWith (fun st f => (st.1, st.2, f)) steps fs') (keep, s, g') req
              (fun g c => predict g { c with y := none }) Xt (renameY f none) q) := by
          refine C138_route f Q _ _ _ hz keep s g g' h4 req _ ?_ Xt none Names.discrete_none q
          intro g g' hg c _
          simp only [renameCall]
          rw [hpredict g g' hg { c with y := none } rfl]
          cases predict g { c with y := none } <;> exact rfl
        have drop : ∀ (l : List ((String → Bool) × Step α σ × Fitted σ)) (g : σ) (Xt : List α),
            stepsRoute l (keep, s, g) req (fun g c => predict g { c with y := none }) Xt none q =
              stepsRoute l (keep, s, g) req predict Xt none q := by
          intro l g
          induction l with
          | nil =>
            intro Xt
            simp only [stepsRoute, Sel.sharedRoute, Sel.removeMasked]
          | cons a l ih =>
            intro Xt
            obtain ⟨k, st, ft⟩ := a
            simp only [stepsRoute, ih]
        rw [drop] at key
        have key2 := key
        rw [show renameY f none = none from rfl, drop] at key2
        rcases Sides.py_cases key2 with ⟨e, j1, j2⟩ | ⟨a, b, j1, j2, hab⟩
        · rw [j1, j2]; rfl
        · rw [j1, j2, hab]; rfl
      | perDomain l => exact h4.elim
      | sourceTarget a b => exact h4.elim

/-! ### Which estimators do not look at the names -/

/-- C138 (mapping and subspace adapters in general). -/
theorem C138_mapEst {φ : Type} (f : Nat → Nat) (R : φ → φ → Prop) (Q : σ → σ → Prop) (wrap : φ → σ) (unwrap : σ → φ)
    (hwrap : ∀ a b, R a b → Q (wrap a) (wrap b)) (hunwrap : ∀ a b, Q a b → R (unwrap a) (unwrap b))
    (fit : List α → Option (List Num) → SDArg → Py φ) (tr : φ → List α → SDArg → Bool → Py (List α))
    (hfit : ∀ X y sd, Discrete y → RelPy R (fit X y sd) (fit X (renameY f y) sd))
    (htr : ∀ a b, R a b → ∀ X sd as, tr a X sd as = tr b X sd as) :
    NameFree f Q (mapEst wrap unwrap fit tr) ∧ NoLabels (mapEst wrap unwrap fit tr) := by
  refine ⟨⟨?_, ?_, ?_⟩, ?_⟩
  · rintro ⟨X, y, p⟩ hy
    simp only [mapEst, renameCall]
    cases sdArg (p.get "sample_domain") with
    | error e => exact rfl
    | ok sd =>
      simp only
      rcases Sides.py_cases (hfit X y sd hy) with ⟨e, k1, k2⟩ | ⟨a, b, k1, k2, hab⟩
      · rw [k1, k2]; exact rfl
      · rw [k1, k2]; exact hwrap a b hab
  · rintro ⟨X, y, p⟩ hy
    simp only [mapEst, renameCall]
    cases sdArg (p.get "sample_domain") with
    | error e => exact rfl
    | ok sd =>
      simp only
      rcases Sides.py_cases (hfit X y sd hy) with ⟨e, k1, k2⟩ | ⟨a, b, k1, k2, hab⟩
      · rw [k1, k2]; exact rfl
      · rw [k1, k2]
        simp only [htr a b hab]
        cases tr b X sd true with
        | error e => exact rfl
        | ok o => exact ⟨hwrap a b hab, rfl, fun _ _ _ h => by cases h⟩
  · intro a b hab X p
    simp only [mapEst]
    cases sdArg (p.get "sample_domain") with
    | error e => exact rfl
    | ok sd =>
      simp only [htr _ _ (hunwrap a b hab)]
      cases tr (unwrap b) X sd (truthy (p.get "allow_source")) with
      | error e => exact rfl
      | ok o => exact ⟨rfl, fun _ _ _ h => by cases h⟩
  · rintro ⟨X, y, p⟩ s X' y' p' h
    simp only [mapEst] at h
    cases h1 : sdArg (p.get "sample_domain") with
    | error e => rw [h1] at h; cases h
    | ok sd =>
      rw [h1] at h
      simp only at h
      cases h2 : fit X y sd with
      | error e => rw [h2] at h; cases h
      | ok a =>
        rw [h2] at h
        simp only at h
        cases h3 : tr a X sd true with
        | error e => rw [h3] at h; cases h
        | ok o => rw [h3] at h; cases h

/-- C138 (reweighting adapters in general). -/
theorem C138_reweightEst {φ : Type} (f : Nat → Nat) (R : φ → φ → Prop) (Q : σ → σ → Prop) (wrap : φ → σ)
    (hwrap : ∀ a b, R a b → Q (wrap a) (wrap b)) (fit : List α → Option (List Num) → SDArg → Py φ)
    (weights : φ → List α → Option (List Num) → SDArg → Py (List (Option ℚ)))
    (hfit : ∀ X y sd, Discrete y → RelPy R (fit X y sd) (fit X (renameY f y) sd))
    (hw : ∀ a b, R a b → ∀ X y sd, Discrete y → weights a X y sd = weights b X (renameY f y) sd) :
    NameFree f Q (reweightEst wrap fit weights) ∧ NoLabels (reweightEst wrap fit weights) := by
  refine ⟨⟨?_, ?_, ?_⟩, ?_⟩
  · rintro ⟨X, y, p⟩ hy
    simp only [reweightEst, renameCall]
    cases sdArg (p.get "sample_domain") with
    | error e => exact rfl
    | ok sd =>
      simp only
      rcases Sides.py_cases (hfit X y sd hy) with ⟨e, k1, k2⟩ | ⟨a, b, k1, k2, hab⟩
      · rw [k1, k2]; exact rfl
      · rw [k1, k2]; exact hwrap a b hab
  · rintro ⟨X, y, p⟩ hy
    simp only [reweightEst, renameCall]
    cases sdArg (p.get "sample_domain") with
    | error e => exact rfl
    | ok sd =>
      simp only
      rcases Sides.py_cases (hfit X y sd hy) with ⟨e, k1, k2⟩ | ⟨a, b, k1, k2, hab⟩
      · rw [k1, k2]; exact rfl
      · rw [k1, k2]
        simp only [hw a b hab X y sd hy]
        cases weights b X (renameY f y) sd with
        | error e => exact rfl
        | ok o => exact ⟨hwrap a b hab, rfl, fun _ _ _ h => by cases h⟩
  · intro a b hab X p
    simp only [reweightEst, baseTransform]
    cases sdArg (p.get "sample_domain") with
    | error e => exact rfl
    | ok sd =>
      simp only
      rcases checkXDomain X sd { allowSource := truthy (p.get "allow_source") } with e | ⟨X', sd'⟩
      · exact rfl
      · exact ⟨rfl, fun _ _ _ h => by cases h⟩
  · rintro ⟨X, y, p⟩ s X' y' p' h
    simp only [reweightEst] at h
    cases h1 : sdArg (p.get "sample_domain") with
    | error e => rw [h1] at h; cases h
    | ok sd =>
      rw [h1] at h
      simp only at h
      cases h2 : fit X y sd with
      | error e => rw [h2] at h; cases h
      | ok a =>
        rw [h2] at h
        simp only at h
        cases h3 : weights a X y sd with
        | error e => rw [h3] at h; cases h
        | ok o => rw [h3] at h; cases h

/-! ### The adapters -/

section Adapters
variable {K : Type} [Field K] [LinearOrder K] {d : Nat}

/-- C138 (unsupervised adapters). CORAL, subspace alignment, TCA, TJM and the Monge alignment never look at the labels. -/
theorem C138_unsupervised {p : Nat} {γ δ : Type} [Cell (List K)] (f : Nat → Nat)
    (w1 : Map.Coral K d → σ) (u1 : σ → Map.Coral K d) (cov : List (Fin d → K) → Matrix (Fin d) (Fin d) K)
    (sqrtM invsqrtM : Matrix (Fin d) (Fin d) K → Matrix (Fin d) (Fin d) K) (b : Bool)
    (w2 : (Σ p, Subsp.Pca K d p × Subsp.Pca K d p) → σ) (u2 : σ → Σ p, Subsp.Pca K d p × Subsp.Pca K d p)
    (pca : ∀ p, List (Fin d → K) → Subsp.Pca K d p) (n : Option Nat)
    (w3 : Subsp.Embedding (List K) K p → σ) (u3 : σ → Subsp.Embedding (List K) K p) (k : List K → List K → K)
    (eig : List (List K) → Nat → Nat → Py (List (Fin p → K)))
    (w4 : List (Int × (List K → List K)) → σ) (u4 : σ → List (Int × (List K → List K))) (covMean : List (List K) → γ) (bary : List γ → δ)
    (mapping : γ → δ → List K → List K) :
    NameFree f Eq (Shallow.coralEst w1 u1 cov sqrtM invsqrtM b) ∧ NameFree f Eq (Shallow.saEst w2 u2 pca n) ∧
      NameFree f Eq (Shallow.kernelEst w3 u3 k eig) ∧ NameFree f Eq (Shallow.mongeEst w4 u4 covMean bary mapping d) := by
  refine ⟨?_, ?_, ?_, ?_⟩ <;>
    exact (C138_mapEst f Eq Eq _ _ (fun a b h => by rw [h]) (fun a b h => by rw [h]) _ _ (fun _ _ _ _ => Sides.py_refl (fun _ => rfl) _)
      (fun a b h X sd as => by rw [h])).1

/-- C138 (optimal-transport mapping). The steps of `OTMapping` and its variants, for a transport solver to which the labels are only names. -/
theorem C138_ot (f : Nat → Nat) (ot : NArr (List Num) → Option (List Num) → NArr (List Num) → Option (List Num) →
      Py (NArr (List Num) → Py (NArr (List Num))))
    (hot : ∀ Xs ys Xt yt, ot Xs (renameY f ys) Xt (renameY f yt) = ot Xs ys Xt yt)
    (wrap : (NArr (List Num) → Py (NArr (List Num))) → σ) (unwrap : σ → NArr (List Num) → Py (NArr (List Num))) (tail : List Nat) :
    NameFree f Eq (otEst wrap unwrap ot tail) := by
  refine (C138_mapEst f Eq Eq wrap unwrap (fun a b h => by rw [h]) (fun a b h => by rw [h]) _ _ ?_ (fun a b h X sd as => by rw [h])).1
  intro X y sd _
  have : Map.otFit ot ⟨.float, tail, X⟩ (renameY f y) sd = Map.otFit ot ⟨.float, tail, X⟩ y sd := by
    have hs : ∀ sd, Map.splitY (renameY f y) sd = (Map.splitY y sd).map (fun r => (renameY f r.1, renameY f r.2)) := by
      intro sd
      cases y with
      | none => rfl
      | some y =>
        simp only [renameY, Option.map_some, Map.splitY, RW.splitX_map]
        rcases RW.splitX y sd with e | ⟨a, b⟩ <;> rfl
    unfold Map.otFit
    simp only [hs]
    rcases checkXDomain X sd {} with e | ⟨X1, sd1⟩
    · rfl
    · simp only [bind, Except.bind]
      rcases Map.splitN ⟨.float, tail, X1⟩ sd1 with e | ⟨A, B⟩
      · rfl
      · simp only
        rcases Map.splitY y sd1 with e | ⟨a, b⟩
        · rfl
        · exact hot A a B b
  rw [this]
  exact Sides.py_refl (fun _ => rfl) _

namespace Names

omit [LinearOrder K] in
theorem flda_rename {γ δ : Type} [LinearOrder γ] [LinearOrder δ] {u : γ → δ} (hu : StrictMono u) (sqrt : Nat → K) (X : List (Fin d → K))
    (y : List γ) : Subsp.fldaMeans sqrt X (y.map u) = Subsp.fldaMeans sqrt X y := by
  unfold Subsp.fldaMeans
  rw [unique_map hu, List.map_map]
  refine List.map_congr_left (fun c _ => ?_)
  have h1 : Subsp.classRows X (y.map u) (u c) = Subsp.classRows X y c := by
    unfold Subsp.classRows
    rw [List.map_map]
    congr 1
    exact List.map_congr_left (fun b _ => by simp [hu.injective.eq_iff])
  simp only [Function.comp, h1, List.count_map_of_injective y u hu.injective]

omit [LinearOrder K] in
theorem tslF_rename {γ δ : Type} [LinearOrder γ] [LinearOrder δ] {p : Nat} {u : γ → δ} (hu : StrictMono u) (exp sqrt : K → K)
    (base : Optim.Base) (lengthScale reg : K) (W : Matrix (Fin d) (Fin p) K) (X : List (Fin d → K)) (y : List γ) :
    Optim.tslF exp sqrt base lengthScale reg W X (y.map u) = Optim.tslF exp sqrt base lengthScale reg W X y := by
  cases base with
  | pca => rfl
  | flda => simp only [Optim.tslF, Subsp.tslFlda, flda_rename hu]
  | lpp =>
    have h : ∀ i j : Fin X.length, ((y.map u)[i]? = (y.map u)[j]?) ↔ (y[i]? = y[j]?) := by
      intro i j
      simp only [Fin.getElem?_fin, List.getElem?_map, (Option.map_injective hu.injective).eq_iff]
    simp only [Optim.tslF, Subsp.tslLpp, h]

end Names

/-- C138 (transfer subspace learning). `TransferSubspaceLearningAdapter.fit` on classes renamed in the same order: the same projection, for
all three base methods. -/
theorem C138_tsl {γ δ : Type} [LinearOrder γ] [LinearOrder δ] (u : γ → δ) (hu : StrictMono u) (exp sqrt : K → K)
    (chol : ∀ p, Matrix (Fin p) (Fin p) K → Option (Matrix (Fin p) (Fin p) K)) (qr : ∀ p, Matrix (Fin d) (Fin p) K → Matrix (Fin d) (Fin p) K)
    (lbfgs : ∀ p, Optim.Lbfgs (Matrix (Fin d) (Fin p) K) K) (grad : ∀ p, List (Matrix (Fin d) (Fin p) K) → List (List (Option K)))
    (base : Optim.Base) (lengthScale reg mu tol : K) (maxIter : Nat) (nComponents : Option Nat) (X : List (Fin d → K)) (y : List γ) (sd : SDArg) :
    Optim.tslFit exp sqrt chol qr lbfgs grad base lengthScale reg mu tol maxIter nComponents X (some (y.map u)) sd =
      Optim.tslFit exp sqrt chol qr lbfgs grad base lengthScale reg mu tol maxIter nComponents X (some y) sd := by
  have hf : ∀ p Xs ys Xt, Optim.tslFunc exp sqrt (chol p) (qr p) base lengthScale reg mu Xs (ys.map u) Xt =
      Optim.tslFunc exp sqrt (chol p) (qr p) base lengthScale reg mu Xs ys Xt := by
    intro p Xs ys Xt
    funext l
    unfold Optim.tslFunc
    split
    · simp only [Optim.tslLoss, Names.tslF_rename hu]
    · rfl
  unfold Optim.tslFit
  simp only [RW.splitX_map]
  rcases checkXDomain X sd {} with e | ⟨X1, sd1⟩
  · rfl
  · simp only [bind, Except.bind]
    rcases RW.splitX X1 sd1 with e | ⟨A, B⟩
    · rfl
    · simp only
      rcases RW.splitX y sd1 with e | ⟨a, b⟩
      · rfl
      · simp only [Except.map, Optim.tslOptimize, hf]

/-- C138 (location-scale mapping). `MMDLSConSMappingAdapter` on classes renamed in the same order, for an optimiser to which the classes are
only names: the same scales and offsets for every training row, and new samples are mapped in the same way. -/
theorem C138_mmdls {γ δ : Type} [LinearOrder γ] [LinearOrder δ] (u : γ → δ) (hu : StrictMono u)
    (opt : List (Fin d → K) → List (Fin d → K) → List γ → List (Fin d → K) × List (Fin d → K))
    (opt' : List (Fin d → K) → List (Fin d → K) → List δ → List (Fin d → K) × List (Fin d → K))
    (hopt : ∀ Xs Xt ys, opt' Xs Xt (ys.map u) = opt Xs Xt ys) (X : List (Fin d → K)) (y : List γ) (sd : SDArg) :
    RelPy (fun F F' => F'.W = F.W ∧ F'.B = F.B ∧ F'.classes = F.classes.map u ∧
        ∀ (dist : (Fin d → K) → (Fin d → K) → K) (Xn : NArr (Fin d → K)) (yn : Option (List γ)) (sdn : SDArg) (as : Bool),
          Map.mmdlsTransform dist F' Xn (yn.map (List.map u)) sdn as = Map.mmdlsTransform dist F Xn yn sdn as)
      (Map.mmdlsFit opt X y sd) (Map.mmdlsFit opt' X (y.map u) sd) := by
  have hc : ∀ (cl : List γ) (G : List (Fin d → K)) (c : γ), Map.classParam (cl.map u) G (u c) = Map.classParam cl G c := by
    intro cl G c
    funext j
    simp only [Map.classParam, RW.indicator, List.map_map, Function.comp_def, hu.injective.eq_iff]
  unfold Map.mmdlsFit
  simp only [RW.splitX_map]
  rcases checkXDomain X sd {} with e | ⟨X1, sd1⟩
  · exact rfl
  · simp only [bind, Except.bind]
    rcases RW.splitX X1 sd1 with e | ⟨A, B⟩
    · exact rfl
    · simp only
      rcases RW.splitX y sd1 with e | ⟨a, b⟩
      · exact rfl
      · simp only [Except.map, hopt, unique_map hu, List.map_map, Function.comp_def, hc]
        refine ⟨rfl, rfl, rfl, ?_⟩
        intro dist Xn yn sdn as
        cases yn with
        | none => rfl
        | some yn =>
          simp only [Map.mmdlsTransform, Option.map_some, RW.boolIndex_map, bind, Except.bind]
          rcases checkXDomain Xn.rows sdn { allowSource := as } with e | ⟨R, sd2⟩
          · rfl
          · simp only
            rcases extractSourceIndices sd2 with e | m
            · rfl
            · simp only
              rcases boolIndex R m with e | C
              · rfl
              · simp only
                rcases boolIndex R (m.map (!·)) with e | D
                · rfl
                · rcases boolIndex yn m with e | ys
                  · rfl
                  · simp only [Except.map, List.map_map, Function.comp_def, hc]

omit [LinearOrder K] in
/-- C138 (target shift, weights). `MMDTarSReweightAdapter`, when the solver does not look at the names (see `C138_tarsSolver_partial` and
`C138_tars_counterexample` for the solver it has): the same weights, in training and for new samples. -/
theorem C138_tarsWeights [DecidableEq α] {γ δ : Type} [LinearOrder γ] [LinearOrder δ] (u : γ → δ) (hu : StrictMono u)
    (solve : List α → List α → List γ → List K) (solve' : List α → List α → List δ → List K)
    (hsolve : ∀ Xs Xt ys, solve' Xs Xt (ys.map u) = solve Xs Xt ys) (X : List α) (y : List γ) (sd : SDArg) :
    RelPy (fun F F' => F'.1 = F.1 ∧ ∀ (tiny : K) (Xn : List α) (yn : List γ) (sdn : List Int),
        RW.tarsWeights tiny F' Xn (yn.map u) sdn = RW.tarsWeights tiny F Xn yn sdn)
      (RW.tarsFit solve X y sd) (RW.tarsFit solve' X (y.map u) sd) := by
  have hc : ∀ (cl : List γ) (c : γ), (RW.indicator (cl.map u) (u c) : List K) = RW.indicator cl c := by
    intro cl c
    simp only [RW.indicator, List.map_map, Function.comp_def, hu.injective.eq_iff]
  unfold RW.tarsFit
  simp only [RW.splitX_map]
  rcases checkXDomain X sd {} with e | ⟨X1, sd1⟩
  · exact rfl
  · simp only [bind, Except.bind]
    rcases RW.splitX X1 sd1 with e | ⟨A, B⟩
    · exact rfl
    · simp only
      rcases RW.splitX y sd1 with e | ⟨a, b⟩
      · exact rfl
      · simp only [Except.map, hsolve, unique_map hu, List.map_map, Function.comp_def, hc]
        split
        · exact rfl
        · refine ⟨rfl, ?_⟩
          intro tiny Xn yn sdn
          simp only [RW.tarsWeights, List.length_map, RW.boolIndex_map, bind, Except.bind]
          rcases extractSourceIndices sdn with e | m
          · rfl
          · simp only
            rcases boolIndex Xn m with e | C
            · rfl
            · rcases boolIndex yn m with e | ys
              · rfl
              · simp only [Except.map, List.map_map, Function.comp_def, hc]

namespace Names

/-- `f` on integers. -/
def renameInt (f : Nat → Nat) (v : Int) : Int := if 0 ≤ v then (f v.toNat : Int) else v

theorem renameInt_strictMono {f : Nat → Nat} (hf : StrictMono f) : StrictMono (renameInt f) := by
  intro a b h
  unfold renameInt
  split
  · rw [if_pos (by omega)]
    exact_mod_cast hf (show a.toNat < b.toNat by omega)
  · split <;> omega

theorem rename_int (f : Nat → Nat) (v : Int) : rename f (.fin (v : ℚ)) = .fin (renameInt f v : Int) := by
  simp only [rename, renameInt, Rat.den_intCast, Rat.num_intCast, true_and, Int.cast_nonneg_iff]
  split <;> simp

theorem labelInt_rename (f : Nat → Nat) {v : Num} (h : v.isIntegral = true) : Shallow.labelInt (rename f v) = renameInt f (Shallow.labelInt v) := by
  cases v with
  | fin q =>
    have hq : q.den = 1 := by simpa [Num.isIntegral] using h
    have : q = (q.num : ℚ) := ((Rat.den_eq_one_iff q).1 hq).symm
    rw [this, rename_int]
    simp [Shallow.labelInt]
  | nan => simp [Num.isIntegral] at h
  | pinf => simp [Num.isIntegral] at h
  | ninf => simp [Num.isIntegral] at h

theorem putMask_map {γ δ : Type} (g : γ → δ) (m : List Bool) (out vals : List γ) :
    putMask m (out.map g) (vals.map g) = (putMask m out vals).map g := by
  induction m generalizing out vals with
  | nil => simp [putMask]
  | cons b m ih =>
    cases b <;> cases out <;> cases vals <;> simp [putMask, ← ih]

theorem boolAssign_map {γ δ : Type} (g : γ → δ) (out : List γ) (m : List Bool) (vals : List γ) :
    boolAssign (out.map g) m (vals.map g) = (boolAssign out m vals).map (List.map g) := by
  unfold boolAssign
  simp only [List.length_map]
  split
  · rfl
  · split
    · simp only [Except.map, putMask_map]
    · match vals with
      | [v] => simp only [List.map_cons, List.map_nil, Except.map, ← putMask_map, List.map_replicate]
      | [] => rfl
      | a :: b :: l => rfl

theorem propLabel_rename {g : Int → Int} (hg : StrictMono g) (G : List (List K)) (ys : List Int) (j : Nat) :
    OT.propLabel G (ys.map g) j = (OT.propLabel G ys j).map g := by
  have hm : ∀ c, OT.classMass G (ys.map g) (g c) j = OT.classMass G ys c j := by
    intro c
    simp only [OT.classMass, List.zipWith_map_right, hg.injective.eq_iff]
  unfold OT.propLabel
  simp only [unique_map hg, List.map_map, Function.comp_def, hm, bind, Except.bind]
  cases argmax ((unique ys).map (fun c => OT.classMass G ys c j)) with
  | error e => rfl
  | ok k =>
    simp only [List.getElem?_map]
    cases (unique ys)[k]? <;> rfl

theorem mapM_map {γ δ ε : Type} (g : δ → ε) (a : γ → Py δ) (l : List γ) : l.mapM (fun x => (a x).map g) = (l.mapM a).map (List.map g) := by
  induction l with
  | nil => rfl
  | cons x l ih =>
    simp only [List.mapM_cons, ih, bind, Except.bind]
    cases a x with
    | error e => rfl
    | ok b => cases l.mapM a <;> rfl

theorem otLabelProp_rename {f : Nat → Nat} (hf : StrictMono f) (plan : List α → List α → List K → List K → List (List K)) (X : List α)
    (y : List Int) (sd : SDArg) (w : Option (List K)) :
    OT.otLabelProp plan X (y.map (renameInt f)) sd w = (OT.otLabelProp plan X y sd w).map (fun r => (r.1, r.2.map (renameInt f))) := by
  have h1 : (y.map (renameInt f)).map (fun v : Int => Num.fin (v : ℚ)) = (y.map (fun v : Int => Num.fin (v : ℚ))).map (rename f) := by
    simp only [List.map_map, Function.comp_def, rename_int]
  have h2 : (y.map (renameInt f)).map (fun _ => (-1 : Int)) = (y.map (fun _ => (-1 : Int))).map (renameInt f) := by
    simp only [List.map_map]
    exact List.map_congr_left (fun _ _ => rfl)
  unfold OT.otLabelProp
  rw [h1, h2, checkXy_rename]
  simp only [RW.splitX_map, bind, Except.bind]
  rcases checkXyDomain X (y.map (fun v : Int => Num.fin (v : ℚ))) sd {} with e | ⟨X1, y1, sd1⟩
  · rfl
  · simp only [Except.map]
    rcases RW.splitX X1 sd1 with e | ⟨A, B⟩
    · rfl
    · simp only
      rcases RW.splitX y sd1 with e | ⟨a, b⟩
      · rfl
      · simp only
        rcases Map.splitY w sd1 with e | ⟨ws, wt⟩
        · rfl
        · simp only
          have h3 : ∀ G : List (List K), OT.propLabel G (a.map (renameInt f)) = fun j => (OT.propLabel G a j).map (renameInt f) :=
            fun G => funext (fun j => propLabel_rename (renameInt_strictMono hf) G a j)
          rw [h3, mapM_map]
          rcases (List.range B.length).mapM (OT.propLabel (plan A B (OT.propWeights A.length ws) (OT.propWeights B.length wt)) a) with e | yht
          · rfl
          · simp only [Except.map, boolAssign_map]
            cases boolAssign (y.map (fun _ => (-1 : Int))) (sd1.map (fun d => decide (d < 0))) yht <;> rfl

end Names

/-- C138 (label propagation). The step of `OTLabelProp`, for classes renamed in the same order: the proposed labels are the same classes
under their new names. The transport plan never sees the labels. -/
theorem C138_otLabelProp (f : Nat → Nat) (hf : StrictMono f) (state : σ) (plan : List α → List α → List K → List K → List (List K)) :
    NameFree f Eq (Shallow.labelEst state (fun X y sd => OT.otLabelProp plan X y sd none)) := by
  refine ⟨fun c _ => rfl, ?_, ?_⟩
  · rintro ⟨X, y, p⟩ hy
    simp only [Shallow.labelEst, renameCall]
    cases sdArg (p.get "sample_domain") with
    | error e => exact rfl
    | ok sd =>
      cases y with
      | none => exact rfl
      | some y =>
        have h : (y.map (rename f)).map Shallow.labelInt = (y.map Shallow.labelInt).map (Names.renameInt f) := by
          simp only [List.map_map]
          exact List.map_congr_left (fun v hv => Names.labelInt_rename f (hy y rfl v hv))
        simp only [renameY, Option.map_some, h, Names.otLabelProp_rename hf]
        rcases OT.otLabelProp plan X (y.map Shallow.labelInt) sd none with e | ⟨X1, l⟩
        · exact rfl
        · refine ⟨rfl, ?_, ?_⟩
          · simp only [renameOut, renameY, Option.map_some, List.map_map, Function.comp_def, Names.rename_int]
          · intro X2 y2 p2 h2
            cases h2
            refine Names.discrete_some (fun v hv => ?_)
            obtain ⟨n, -, rfl⟩ := List.mem_map.1 hv
            simp [Num.isIntegral]
  · intro a b hab X p
    simp only [Shallow.labelEst, baseTransform]
    cases sdArg (p.get "sample_domain") with
    | error e => exact rfl
    | ok sd =>
      simp only
      rcases checkXDomain X sd { allowSource := truthy (p.get "allow_source") } with e | ⟨X', sd'⟩
      · exact rfl
      · exact ⟨rfl, fun _ _ _ h => by cases h⟩

namespace Names

/-- The quadratic program of target shift, for given matrices `L` (kernel of the labels) and `R` (classes of the samples). -/
noncomputable def tarsCore (minimize : ∀ n, QP.Call K n → Py (QP.Result K n)) (k : α → α → K) (sqrt : K → K) (reg tol : K) (maxIter : Nat)
    (Xt : List α) {m c : Nat} (x : Fin m → α) (L : Matrix (Fin m) (Fin m) K) (R : Matrix (Fin m) (Fin c) K) :
    Py (List K × List K × List String) :=
  match (if (L + reg • 1).det = 0 then .error .valueError else .ok (L * (L + reg • 1)⁻¹) : Py (Matrix (Fin m) (Fin m) K)) with
  | .error e => .error e
  | .ok omega => do
    let Kss : Matrix (Fin m) (Fin m) K := fun i j => k (x i) (x j)
    let A := omega * Kss * omega.transpose
    let M : FW.Vec K m := fun j => ∑ l, (Xt.map (fun t => k t (x l))).sum * omega j l
    let P := R.transpose * A * R + (1 / 1000000000000 : K) • 1
    let q : FW.Vec K c := fun j => -((m : K) / (Xt.length : K)) * ∑ i, M i * R i j
    let eps := 10 / (4 * sqrt m)
    let col : FW.Vec K c := fun j => ∑ i, R i j
    let cons := List.ofFn (fun i => fun j => -R i j) ++ [fun j => -col j] ++ List.ofFn (fun i => R i) ++ [col]
    let b := List.replicate m 0 ++ [-((m : K) * (1 - eps))] ++ List.replicate m 10 ++ [(m : K) * (1 + eps)]
    let out ← QP.qpSolveAll (minimize c) "scipy" P (some q) (some cons) (some b) none none none none none tol maxIter false false
    return (List.ofFn (fun i => ∑ j, R i j * out.x j), List.ofFn out.x, out.warnings)

theorem tarsCore_eq {γ : Type} [DecidableEq γ] (minimize : ∀ n, QP.Call K n → Py (QP.Result K n)) (k : α → α → K) (l : γ → γ → K) (sqrt : K → K)
    (reg tol : K) (maxIter : Nat) (S : List (α × γ)) (Xt : List α) (classes : List γ) :
    QP.tarsOnClasses minimize k l sqrt reg tol maxIter S Xt classes =
      tarsCore minimize k sqrt reg tol maxIter Xt (fun i : Fin S.length => S[i].1) (fun i j => l S[i].2 S[j].2)
        (fun i (j : Fin classes.length) => if S[i].2 = classes[j] then 1 else 0) := by
  unfold QP.tarsOnClasses tarsCore QP.tarsOmega
  dsimp only
  split
  · next h =>
    split at h
    · next hd => rw [if_pos hd]; cases h; rfl
    · cases h
  · next h =>
    split at h
    · cases h
    · next hd => rw [if_neg hd]; cases h; rfl

theorem tarsCore_congr (minimize : ∀ n, QP.Call K n → Py (QP.Result K n)) (k : α → α → K) (sqrt : K → K) (reg tol : K) (maxIter : Nat)
    (Xt : List α) {m m' c c' : Nat} (hm : m = m') (hc : c = c') (x : Fin m → α) (x' : Fin m' → α) (hx : ∀ i, x i = x' (Fin.cast hm i))
    (L : Matrix (Fin m) (Fin m) K) (L' : Matrix (Fin m') (Fin m') K) (hL : ∀ i j, L i j = L' (Fin.cast hm i) (Fin.cast hm j))
    (R : Matrix (Fin m) (Fin c) K) (R' : Matrix (Fin m') (Fin c') K) (hR : ∀ i j, R i j = R' (Fin.cast hm i) (Fin.cast hc j)) :
    tarsCore minimize k sqrt reg tol maxIter Xt x L R = tarsCore minimize k sqrt reg tol maxIter Xt x' L' R' := by
  subst hm hc
  have h1 : x = x' := funext hx
  have h2 : L = L' := funext (fun i => funext (hL i))
  have h3 : R = R' := funext (fun i => funext (hR i))
  rw [h1, h2, h3]

end Names

/-- C138 (target shift, solver). The quadratic program of `MMDTarSReweightAdapter` on classes renamed in the same order: the same weights, when
the kernel of the labels gives the same values for the new names. Missing: other renamings, because the kernel is that of the class
*numbers* (skada/_reweight.py:1257); see the counterexample. -/
theorem C138_tarsSolver_partial {γ δ : Type} [LinearOrder γ] [LinearOrder δ] (u : γ → δ) (hu : StrictMono u)
    (minimize : ∀ n, QP.Call K n → Py (QP.Result K n)) (k : α → α → K) (l : γ → γ → K) (l' : δ → δ → K) (hl : ∀ a b, l' (u a) (u b) = l a b)
    (sqrt : K → K) (reg tol : K) (maxIter : Nat) (Xs Xt : List α) (ys : List γ) :
    QP.tarsDiscrete minimize k l' sqrt reg tol maxIter Xs Xt (ys.map u) = QP.tarsDiscrete minimize k l sqrt reg tol maxIter Xs Xt ys := by
  unfold QP.tarsDiscrete
  split
  · rfl
  · rw [Names.tarsCore_eq, Names.tarsCore_eq]
    have hz : Xs.zip (ys.map u) = (Xs.zip ys).map (fun r => (r.1, u r.2)) := by
      rw [List.zip_map_right]; rfl
    refine Names.tarsCore_congr minimize k sqrt reg tol maxIter Xt (by rw [hz, List.length_map]) (by rw [unique_map hu, List.length_map])
      _ _ ?_ _ _ ?_ _ _ ?_
    · intro i; simp
    · intro i j; simp [hl]
    · intro i j
      simp [unique_map hu, hu.injective.eq_iff]

/-- C138 (counterexample: target shift). The kernel of the labels is the RBF kernel of the class numbers (skada/_reweight.py:1257-1259; here
base 1/2 instead of `e`, `gamma = 1`, `reg = 1`): for two source samples of classes 0 and 1, and the same samples of classes 0 and 2, the
matrix `omega`, from which both terms of the objective are computed, has entry 2/15 resp. 16/1023. -/
theorem C138_tars_counterexample :
    let l : Int → Int → ℚ := fun a b => (1 / 2) ^ ((a - b) ^ 2).toNat
    (∃ w, QP.tarsOmega l 1 [(10, 0), ((11 : Int), (1 : Int))] = .ok w ∧ w 0 1 = 2 / 15) ∧
      ∃ w, QP.tarsOmega l 1 [(10, 0), ((11 : Int), (2 : Int))] = .ok w ∧ w 0 1 = 16 / 1023 := by
  have key : ∀ (L : Matrix (Fin 2) (Fin 2) ℚ) (e : ℚ), L = !![1, e; e, 1] → 4 - e ^ 2 ≠ 0 → (L + (1 : ℚ) • 1).det ≠ 0 ∧
      (L * (L + (1 : ℚ) • 1)⁻¹) 0 1 = e / (4 - e ^ 2) := by
    rintro L e rfl he
    have hd : ((!![1, e; e, 1] : Matrix (Fin 2) (Fin 2) ℚ) + (1 : ℚ) • 1).det = 4 - e ^ 2 := by
      simp [Matrix.det_fin_two]; ring
    refine ⟨by rw [hd]; exact he, ?_⟩
    rw [Matrix.inv_def, hd, Matrix.adjugate_fin_two]
    simp [Matrix.mul_apply, Fin.sum_univ_two]
    field_simp
    ring
  intro l
  constructor
  · obtain ⟨h1, h2⟩ := key (fun i j => l ([(10, 0), ((11 : Int), (1 : Int))][i]).2 ([(10, 0), ((11 : Int), (1 : Int))][j]).2) (1 / 2)
      (by ext i j; fin_cases i <;> fin_cases j <;> simp [l]) (by norm_num)
    refine ⟨_, if_neg h1, ?_⟩
    rw [show (2 / 15 : ℚ) = (1 / 2) / (4 - (1 / 2) ^ 2) by norm_num]
    exact h2
  · obtain ⟨h1, h2⟩ := key (fun i j => l ([(10, 0), ((11 : Int), (2 : Int))][i]).2 ([(10, 0), ((11 : Int), (2 : Int))][j]).2) (1 / 16)
      (by ext i j; fin_cases i <;> fin_cases j <;> simp [l] <;> norm_num) (by norm_num)
    refine ⟨_, if_neg h1, ?_⟩
    rw [show (16 / 1023 : ℚ) = (1 / 16) / (4 - (1 / 16) ^ 2) by norm_num]
    exact h2

end Adapters

/-! ### Examples, and where the names matter -/

/-- The estimator of the examples keeps the labels it has seen; renamed labels are kept renamed. -/
theorem exEst_nameFree (f : Nat → Nat) (hasTr : Bool) (req : Request) :
    NameFree f (fun a b => b = renameY f a) (exEst hasTr req) ∧ NoLabels (exEst hasTr req) :=
  ⟨⟨fun _ _ => rfl, fun _ _ => ⟨rfl, rfl, fun _ _ _ h => by cases h⟩, fun _ _ _ _ _ => ⟨rfl, fun _ _ _ h => by cases h⟩⟩,
    fun _ _ _ _ _ h => by cases h⟩

/-- Label propagation, then a classifier: the adapter of the examples gives every target sample the class of the source samples from which
most mass arrives; the plan here is the product of the weights. -/
def namesDemo : List ((String → Bool) × Step Num (Option (List Num))) :=
  [(fun _ => true, .shared ⟨Shallow.labelEst none (fun X y sd => OT.otLabelProp
      (fun _ _ ws wt => ws.map (fun a : ℚ => wt.map (fun b => a * b))) X y sd none), true, false⟩)]

/-- The final classifier of the example: it predicts the label seen last. -/
def namesLast : Sel Num (Option (List Num)) := ⟨exEst false [], true, true⟩

example : (∀ st ∈ namesDemo, StepNames (fun n => 2 * n + 5) Eq st.2) ∧ StrictMono (fun n : Nat => 2 * n + 5) ∧
    Discrete (some [.fin 0, .fin 1, .fin 1, .fin 0, .fin 0]) := by
  have hm : StrictMono (fun n : Nat => 2 * n + 5) := fun a b h => by simp only; omega
  refine ⟨?_, hm, Names.discrete_some (by decide +kernel)⟩
  intro st hst
  simp only [namesDemo, List.mem_cons, List.not_mem_nil, or_false] at hst
  subst hst
  exact C138_otLabelProp _ hm _ _

/-- Both fits of the example, with classes 0, 1 and with classes 5, 7: the classifier is trained on the two target samples, with the proposed
label 1 in the one and 7 in the other. -/
example : (pipelineFit (namesDemo ++ [(fun _ => true, .shared namesLast)]) [.fin 10, .fin 11, .fin 12, .fin 13, .fin 14]
      (some [.fin 0, .fin 1, .fin 1, .fin 0, .fin 0]) [("sample_domain", domParam [1, 1, 1, -2, -2])]).2.map (fun r => r.1) =
    .ok [.one none, .one (some [.fin 1, .fin 1])] ∧
    (pipelineFit (namesDemo ++ [(fun _ => true, .shared namesLast)]) [.fin 10, .fin 11, .fin 12, .fin 13, .fin 14]
      (some [.fin 5, .fin 7, .fin 7, .fin 5, .fin 5]) [("sample_domain", domParam [1, 1, 1, -2, -2])]).2.map (fun r => r.1) =
    .ok [.one none, .one (some [.fin 7, .fin 7])] := by
  decide +kernel

/-- A transport that looks at the labels, but not at the names of the classes: only labelled source samples are moved. -/
example (f : Nat → Nat) :
    let ot : NArr (List Num) → Option (List Num) → NArr (List Num) → Option (List Num) → Py (NArr (List Num) → Py (NArr (List Num))) :=
      fun _ ys Xt _ => match ys with
        | none => .error .typeError
        | some ys => .ok (fun A => .ok { A with rows := sel (ys.map (fun v => !v.eqNegOne)) (A.rows ++ Xt.rows) })
    ∀ Xs ys Xt yt, ot Xs (renameY f ys) Xt (renameY f yt) = ot Xs ys Xt yt := by
  intro ot Xs ys Xt yt
  cases ys with
  | none => rfl
  | some ys => simp only [ot, renameY, Option.map_some, List.map_map, Function.comp_def, Names.rename_eqNegOne]

/-- The hypotheses of the theorems on location-scale mapping and target shift: classes moved by 5, an optimiser that counts classes, an RBF kernel. -/
example : StrictMono (fun v : Int => v + 5) ∧
    (∀ ys : List Int, (unique (ys.map (fun v => v + 5))).length = (unique ys).length) ∧
    (∀ a b : Int, ((1 / 2 : ℚ) ^ ((a + 5 - (b + 5)) ^ 2).toNat) = (1 / 2) ^ ((a - b) ^ 2).toNat) ∧
    (Map.mmdlsFit (fun _ _ (ys : List Int) => ((unique ys).map (fun _ => fun _ => (ys.length : ℚ)), (unique ys).map (fun _ => fun _ => 0)))
      [fun _ : Fin 1 => (1 : ℚ), fun _ => 2, fun _ => 3] [0, 1, -1] (.vec [1, 1, -2])).map (fun F => (F.W.map (fun r => r 0), F.classes)) =
      .ok ([2, 2], [0, 1]) ∧
    (Map.mmdlsFit (fun _ _ (ys : List Int) => ((unique ys).map (fun _ => fun _ => (ys.length : ℚ)), (unique ys).map (fun _ => fun _ => 0)))
      [fun _ : Fin 1 => (1 : ℚ), fun _ => 2, fun _ => 3] [5, 6, 4] (.vec [1, 1, -2])).map (fun F => (F.W.map (fun r => r 0), F.classes)) =
      .ok ([2, 2], [5, 6]) := by
  have hm : StrictMono (fun v : Int => v + 5) := fun a b h => by simp only; omega
  refine ⟨hm, fun ys => ?_, fun a b => ?_, by decide +kernel, by decide +kernel⟩
  · rw [unique_map hm, List.length_map]
  · rw [show a + 5 - (b + 5) = a - b by ring]

/-- C138 (counterexample: ties). When as much mass arrives from two classes, `OTLabelProp` proposes the smaller one (`np.argmax`): exchanging
the names of the classes does not exchange the proposal. -/
theorem C138_ties_counterexample :
    let plan : List Int → List Int → List ℚ → List ℚ → List (List ℚ) := fun _ _ ws wt => ws.map (fun a => wt.map (fun b => a * b))
    OT.otLabelProp plan [10, 11, 12] [0, 1, -1] (.vec [1, 1, -2]) none = .ok ([10, 11, 12], [-1, -1, 0]) ∧
    OT.otLabelProp plan [10, 11, 12] [1, 0, -1] (.vec [1, 1, -2]) none = .ok ([10, 11, 12], [-1, -1, 0]) := by
  decide +kernel

/-- C138 (counterexample: JCPOT). The proposed label is the position of the class, not its name (skada/_ot.py:979-982): with classes 5 and 7
the target sample is given class 1, which does not exist. -/
theorem C138_jcpot_counterexample :
    let scores : List (List Int) → List (List Int) → List Int → List (List ℚ) := fun _ _ Xt => Xt.map (fun _ => [1 / 4, 3 / 4])
    OT.jcpot scores [10, 11, 12] [0, 1, -1] (.vec [1, 1, -2]) = .ok ([10, 11, 12], [-1, -1, 1]) ∧
    OT.jcpot scores [10, 11, 12] [5, 7, -1] (.vec [1, 1, -2]) = .ok ([10, 11, 12], [-1, -1, 1]) := by
  decide +kernel

/-- C138 (counterexample: classes −1 and 1). A class with the name −1 is the mask label: of source samples with classes −1 and 1 the final
classifier only sees those of class 1, while with classes 0 and 1 it sees all. -/
theorem C138_minusOne_counterexample :
    let steps : List ((String → Bool) × Step Num (Option (List Num))) := [(fun _ => true, .shared namesLast)]
    (pipelineFit steps [.fin 10, .fin 11, .fin 12] (some [.fin 0, .fin 1, .fin 1]) [("sample_domain", domParam [1, 1, -2])]).1.map
      (fun c => (c.X, c.y)) = [([.fin 10, .fin 11], some [.fin 0, .fin 1])] ∧
    (pipelineFit steps [.fin 10, .fin 11, .fin 12] (some [.fin (-1), .fin 1, .fin 1]) [("sample_domain", domParam [1, 1, -2])]).1.map
      (fun c => (c.X, c.y)) = [([.fin 11], some [.fin 1])] := by
  decide +kernel

end Skada

/-
Property C139: only the geometry of the samples matters. When all samples are moved by a map that keeps distances (kernel values), weights,
proposed labels, plans and embeddings stay the same.
-/
import Verif.Spec.Geometry
import Verif.Props.Names
import Verif.Model.Jdot

namespace Skada
open Np Spec

namespace Geometry
open RW

section Kliep
variable {K : Type} [Field K] [LinearOrder K] {d : Nat}

omit [LinearOrder K] in
theorem rbf_keeps (exp : K → K) (v : K) {g : (Fin d → K) → Fin d → K} (hg : KeepsDistances g) (x y : Fin d → K) :
    rbf exp v (g x) (g y) = rbf exp v x y := by
  have := hg x y
  simp only [sqDistance] at this
  simp only [rbf, this]

theorem weightsOpt_geo (E : KliepEnv K) (place : Option (Nat × Nat)) {g : (Fin d → K) → Fin d → K} (hg : KeepsDistances g) (v : Gamma K)
    (Xs Xt : List (Fin d → K)) :
    weightsOpt E place v (Xs.map g) (Xt.map g) = (weightsOpt E place v Xs Xt).map (fun r => (r.1, r.2.map g)) := by
  cases v with
  | num v => exact weightsOpt_map E place (rbf_keeps E.exp v hg) Xs Xt
  | _ =>
    unfold weightsOpt
    simp only [RW.take_map, List.length_map, gammaNum]
    rcases Np.take Xt (E.draw place Xt.length) with e | c
    · rfl
    · simp only [Except.map, bind, Except.bind, List.map_eq_nil_iff]
      split <;> rfl

theorem foldLik_geo (E : KliepEnv K) (place : Nat × Nat) {g : (Fin d → K) → Fin d → K} (hg : KeepsDistances g) (v : Gamma K)
    (Xs Xt : List (Fin d → K)) (fold : List Nat × List Nat) :
    foldLik E place v (Xs.map g) (Xt.map g) fold = foldLik E place v Xs Xt fold := by
  unfold foldLik
  simp only [RW.take_map]
  rcases Np.take Xt fold.1 with e | tr
  · rfl
  · simp only [Except.map, bind, Except.bind, weightsOpt_geo E _ hg]
    rcases weightsOpt E (some place) v Xs tr with e | ⟨a, c⟩
    · rfl
    · simp only
      rcases Np.take Xt fold.2 with e | te
      · rfl
      · simp only
        rcases gammaNum v with e | v
        · rfl
        · simp only [List.map_eq_nil_iff, List.map_map, Function.comp_def, rowDot_map (rbf_keeps E.exp v hg)]

theorem likelihoodCV_geo (E : KliepEnv K) (folds : Nat → Py (List (List Nat × List Nat))) {g : (Fin d → K) → Fin d → K} (hg : KeepsDistances g)
    (gs : List (Gamma K)) (Xs Xt : List (Fin d → K)) :
    likelihoodCV E folds gs (Xs.map g) (Xt.map g) = likelihoodCV E folds gs Xs Xt := by
  simp only [likelihoodCV, logLiks, foldLik_geo E _ hg, List.length_map]

theorem autoScale_geo (g : (Fin d → K) → Fin d → K) (X : List (Fin d → K)) {v : Gamma K} (hv : v ≠ .scale) :
    autoScale (X.map g) v = autoScale X v := by
  cases v <;> first | rfl | exact absurd rfl hv

end Kliep

section Kernels
variable {α β γ K : Type} [Field K] [LinearOrder K] {g : α → β} {k : α → α → K} {k' : β → β → K}

/-- The program of kernel mean matching for given numbers of samples and kernel values. -/
def kmmCore (minimize : ∀ n, QP.Call K n → Py (QP.Result K n)) (sqrt : K → K) (eps : Option K) (B tol : K) (solver : String) (maxIter ns : Nat)
    (Q : Fin ns → FW.Vec K ns) (kappa : FW.Vec K ns) : Py (List K × List String) := do
  let e := kmmEps sqrt eps ns
  let out ← QP.qpSolveAll (minimize ns) solver Q (some (fun i => - kappa i))
    (some [fun _ => 1, fun _ => -1]) (some [(ns : K) * (1 + e), -((ns : K) * (1 - e))]) none none
    (some (List.replicate ns 0)) (some (List.replicate ns B)) none tol maxIter false false
  return (List.ofFn out.x, out.warnings)

theorem kmmCore_congr (minimize : ∀ n, QP.Call K n → Py (QP.Result K n)) (sqrt : K → K) (eps : Option K) (B tol : K) (solver : String)
    (maxIter : Nat) {n m : Nat} (h : n = m) (Q : Fin n → FW.Vec K n) (Q' : Fin m → FW.Vec K m) (v : FW.Vec K n) (v' : FW.Vec K m)
    (hQ : ∀ i j, Q i j = Q' (Fin.cast h i) (Fin.cast h j)) (hv : ∀ i, v i = v' (Fin.cast h i)) :
    kmmCore minimize sqrt eps B tol solver maxIter n Q v = kmmCore minimize sqrt eps B tol solver maxIter m Q' v' := by
  subst h
  rw [show Q = Q' from funext (fun i => funext (hQ i)), show v = v' from funext hv]

theorem kmmOptimizeAll_geo (hk : KeepsKernel g k k') (minimize : ∀ n, QP.Call K n → Py (QP.Result K n)) (sqrt : K → K) (eps : Option K)
    (B tol : K) (solver : String) (maxIter : Nat) (Xs Xt : List α) :
    QP.kmmOptimizeAll minimize k' sqrt eps B tol solver maxIter (Xs.map g) (Xt.map g) =
      QP.kmmOptimizeAll minimize k sqrt eps B tol solver maxIter Xs Xt := by
  unfold QP.kmmOptimizeAll
  simp only [List.map_eq_nil_iff]
  split
  · rfl
  · exact kmmCore_congr minimize sqrt eps B tol solver maxIter (by simp) _ _ _ _
      (fun i j => by simp [hk _ _]) (fun i => by simp [Function.comp_def, hk _ _])

theorem kmmWeights_geo [DecidableEq α] [DecidableEq β] (hk : KeepsKernel g k k') (hg : Function.Injective g) (smooth : Bool)
    (w : List K) (S Z : List α) (sd : SDArg) :
    kmmWeights k' smooth (w, S.map g) (Z.map g) sd = kmmWeights k smooth (w, S) Z sd := by
  unfold kmmWeights
  rw [check_map]
  rcases checkXDomain Z sd { allowSource := true } with e | ⟨Z1, sd1⟩
  · rfl
  · simp only [Except.map, bind, Except.bind, RW.boolIndex_map]
    rcases extractSourceIndices sd1 with e | m
    · rfl
    · simp only
      rcases boolIndex Z1 m with e | A
      · rfl
      · simp only [(List.map_injective_iff.2 hg).eq_iff, List.map_eq_nil_iff, List.length_map, List.map_map, Function.comp_def,
          rowDot_map hk]

/-- The program of target shift uses the rows through kernel values only. -/
theorem tarsCore_geo (hk : KeepsKernel g k k') (minimize : ∀ n, QP.Call K n → Py (QP.Result K n)) (sqrt : K → K) (reg tol : K) (maxIter : Nat)
    (Xt : List α) {m c : Nat} (x : Fin m → α) (L : Matrix (Fin m) (Fin m) K) (R : Matrix (Fin m) (Fin c) K) :
    Names.tarsCore minimize k' sqrt reg tol maxIter (Xt.map g) (fun i => g (x i)) L R =
      Names.tarsCore minimize k sqrt reg tol maxIter Xt x L R := by
  unfold Names.tarsCore
  simp only [List.map_map, Function.comp_def, List.length_map, hk _ _]

theorem tarsDiscrete_geo [LinearOrder γ] (hk : KeepsKernel g k k') (minimize : ∀ n, QP.Call K n → Py (QP.Result K n)) (l : γ → γ → K)
    (sqrt : K → K) (reg tol : K) (maxIter : Nat) (Xs Xt : List α) (ys : List γ) :
    QP.tarsDiscrete minimize k' l sqrt reg tol maxIter (Xs.map g) (Xt.map g) ys =
      QP.tarsDiscrete minimize k l sqrt reg tol maxIter Xs Xt ys := by
  unfold QP.tarsDiscrete
  simp only [List.map_eq_nil_iff]
  split
  · rfl
  · rw [Names.tarsCore_eq, Names.tarsCore_eq]
    refine Eq.trans ?_ (tarsCore_geo hk minimize sqrt reg tol maxIter Xt _ _ _)
    have hz : (Xs.map g).zip ys = (Xs.zip ys).map (fun r => (g r.1, r.2)) := by
      rw [List.zip_map_left]; rfl
    refine Names.tarsCore_congr minimize k' sqrt reg tol maxIter (Xt.map g) (by rw [hz, List.length_map]) rfl _ _ ?_ _ _ ?_ _ _ ?_
    · intro i; simp
    · intro i j; simp
    · intro i j; simp

end Kernels

end Geometry

section Reweight
variable {K : Type} [Field K] [LinearOrder K]
open RW

/-- C139 (KLIEP). `KLIEPReweightAdapter` with `gamma` a number, `'auto'` or a list of such values, on samples moved by a map that keeps
distances: the same `gamma` is chosen, the same coefficients belong to the moved centers, moved samples get the weights of the original
samples; or the same exception. (With `gamma='scale'` this is false: `C123_shift_counterexample`.) -/
theorem C139_kliep {d : Nat} (E : KliepEnv K) (folds : Nat → Py (List (List Nat × List Nat))) (g : (Fin d → K) → Fin d → K)
    (hg : KeepsDistances g) (gamma : GammaParam K) (h1 : gamma ≠ .one .scale) (h2 : ∀ gs, gamma = .many gs → .scale ∉ gs)
    (X : List (Fin d → K)) (sd : SDArg) :
    (fitObj E folds gamma (X.map g) sd).1 = (fitObj E folds gamma X sd).1 ∧
    RelPy (fun F F' => F'.gamma = F.gamma ∧ F'.alpha = F.alpha ∧ F'.centers = F.centers.map g ∧
        ∀ Z sdz, weightsObj E F' (Z.map g) sdz = weightsObj E F Z sdz)
      (fitObj E folds gamma X sd).2 (fitObj E folds gamma (X.map g) sd).2 := by
  have hw : ∀ (F : KliepFitted K d) Z sdz,
      weightsObj E { gamma := F.gamma, alpha := F.alpha, centers := F.centers.map g } (Z.map g) sdz = weightsObj E F Z sdz := by
    intro F Z sdz
    unfold weightsObj
    simp only [bind, Except.bind]
    rcases gammaNum F.gamma with e | v
    · rfl
    · exact kliepWeights_map (Geometry.rbf_keeps E.exp v hg) F.alpha F.centers Z sdz
  unfold fitObj
  rw [check_map]
  rcases checkXDomain X sd { allowMultiSource := true, allowMultiTarget := true } with e | ⟨X1, sd1⟩
  · exact ⟨rfl, rfl⟩
  · simp only [Except.map, splitX_map]
    rcases splitX X1 sd1 with e | ⟨Xs, Xt⟩
    · exact ⟨rfl, rfl⟩
    · simp only
      cases gamma with
      | one v =>
        have hv : v ≠ .scale := fun h => h1 (by rw [h])
        refine ⟨rfl, ?_⟩
        simp only [Geometry.autoScale_geo g X1 hv, Geometry.weightsOpt_geo E none hg, bind, Except.bind]
        rcases weightsOpt E none (autoScale X1 v) Xs Xt with e | ⟨a, c⟩
        · exact rfl
        · exact ⟨rfl, rfl, rfl, hw ⟨_, _, _⟩⟩
      | many gs =>
        have hgs : gs.map (autoScale (X1.map g)) = gs.map (autoScale X1) :=
          List.map_congr_left (fun v hv => Geometry.autoScale_geo g X1 (fun h => h2 gs rfl (h ▸ hv)))
        refine ⟨by simp only [hgs], ?_⟩
        simp only [hgs, Geometry.likelihoodCV_geo E folds hg, Geometry.weightsOpt_geo E none hg, bind, Except.bind]
        rcases likelihoodCV E folds (gs.map (autoScale X1)) Xs Xt with e | best
        · exact rfl
        · simp only
          rcases weightsOpt E none best Xs Xt with e | ⟨a, c⟩
          · exact rfl
          · exact ⟨rfl, rfl, rfl, hw ⟨_, _, _⟩⟩

variable {α β γ : Type} {g : α → β} {k : α → α → K} {k' : β → β → K}

/-- C139 (kernel mean matching). `KMMReweightAdapter` with either solver, on samples moved by a one-to-one map that keeps the kernel: the same
weights and warnings of the fit, and the same weights of moved samples; or the same exception. -/
theorem C139_kmm [DecidableEq α] [DecidableEq β] (hk : KeepsKernel g k k') (hg : Function.Injective g)
    (minimize : ∀ n, QP.Call K n → Py (QP.Result K n)) (sqrt : K → K) (eps : Option K) (B tol : K) (solver : String) (maxIter : Nat)
    (X : List α) (sd : SDArg) :
    RelPy (fun F F' => F'.1.1 = F.1.1 ∧ F'.1.2 = F.1.2.map g ∧ F'.2 = F.2 ∧
        ∀ smooth Z sdz, kmmWeights k' smooth F'.1 (Z.map g) sdz = kmmWeights k smooth F.1 Z sdz)
      (QP.kmmFitAll minimize k sqrt eps B tol solver maxIter X sd) (QP.kmmFitAll minimize k' sqrt eps B tol solver maxIter (X.map g) sd) := by
  unfold QP.kmmFitAll
  rw [check_map]
  rcases checkXDomain X sd { allowMultiSource := true, allowMultiTarget := true } with e | ⟨X1, sd1⟩
  · exact rfl
  · simp only [Except.map, bind, Except.bind, splitX_map]
    rcases splitX X1 sd1 with e | ⟨Xs, Xt⟩
    · exact rfl
    · simp only [Geometry.kmmOptimizeAll_geo hk]
      rcases QP.kmmOptimizeAll minimize k sqrt eps B tol solver maxIter Xs Xt with e | ⟨w, ws⟩
      · exact rfl
      · exact ⟨rfl, rfl, rfl, fun smooth Z sdz => Geometry.kmmWeights_geo hk hg smooth w Xs Z sdz⟩

/-- C139 (target shift). The quadratic program of `MMDTarSReweightAdapter` sees the samples through the kernel only, and the weights of the
fitted adapter, in training and for new samples, are those of the original samples. -/
theorem C139_tars [DecidableEq α] [DecidableEq β] [LinearOrder γ] (hk : KeepsKernel g k k') (hg : Function.Injective g)
    (minimize : ∀ n, QP.Call K n → Py (QP.Result K n)) (l : γ → γ → K) (sqrt : K → K) (reg tol : K) (maxIter : Nat) :
    (∀ (Xs Xt : List α) (ys : List γ), QP.tarsDiscrete minimize k' l sqrt reg tol maxIter (Xs.map g) (Xt.map g) ys =
        QP.tarsDiscrete minimize k l sqrt reg tol maxIter Xs Xt ys) ∧
    ∀ (solve : List α → List α → List γ → List K) (solve' : List β → List β → List γ → List K),
      (∀ Xs Xt ys, solve' (Xs.map g) (Xt.map g) ys = solve Xs Xt ys) → ∀ (X : List α) (y : List γ) (sd : SDArg),
      RelPy (fun F F' => F'.1 = F.1 ∧ ∀ (tiny : K) (Z : List α) (yz : List γ) (sdz : List Int),
          RW.tarsWeights tiny F' (Z.map g) yz sdz = RW.tarsWeights tiny F Z yz sdz)
        (RW.tarsFit solve X y sd) (RW.tarsFit solve' (X.map g) y sd) := by
  refine ⟨fun Xs Xt ys => Geometry.tarsDiscrete_geo hk minimize l sqrt reg tol maxIter Xs Xt ys, fun solve solve' hs X y sd => ?_⟩
  unfold RW.tarsFit
  rw [check_map]
  rcases checkXDomain X sd {} with e | ⟨X1, sd1⟩
  · exact rfl
  · simp only [Except.map, bind, Except.bind, splitX_map]
    rcases splitX X1 sd1 with e | ⟨Xs, Xt⟩
    · exact rfl
    · simp only
      rcases splitX y sd1 with e | ⟨ys, yt⟩
      · exact rfl
      · simp only [List.map_eq_nil_iff, hs]
        split
        · exact rfl
        · refine ⟨rfl, ?_⟩
          intro tiny Z yz sdz
          simp only [RW.tarsWeights, List.length_map, RW.boolIndex_map, bind, Except.bind]
          split
          · rfl
          · simp only [pure, Except.pure]
            rcases extractSourceIndices sdz with e | m
            · rfl
            · simp only
              rcases boolIndex Z m with e | A
              · rfl
              · simp only [Except.map, (List.map_injective_iff.2 hg).eq_iff]

/-- C139 (densities). `DensityReweightAdapter` with an estimator whose log density of moved samples, fitted to moved samples, differs from the
original one by a constant (the logarithm of the change of volume, so a change of units is allowed as well): the same weights. -/
theorem C139_density (exp : K → K) (kde : List α → α → K) (kde' : List β → β → K) (c : K)
    (hkde : ∀ S x, kde' (S.map g) (g x) = kde S x + c) (X : List α) (sd : SDArg) :
    RelPy (fun F F' => ∀ Z sdz, densityWeights exp F' (Z.map g) sdz = densityWeights exp F Z sdz)
      (densityFit kde X sd) (densityFit kde' (X.map g) sd) := by
  unfold densityFit
  rw [check_map]
  rcases checkXDomain X sd {} with e | ⟨X1, sd1⟩
  · exact rfl
  · simp only [Except.map, bind, Except.bind, splitX_map]
    rcases splitX X1 sd1 with e | ⟨Xs, Xt⟩
    · exact rfl
    · simp only [List.map_eq_nil_iff]
      split
      · exact rfl
      · simp only [pure, Except.pure]
        split
        · exact rfl
        · intro Z sdz
          unfold densityWeights
          rw [check_map]
          rcases checkXDomain Z sdz { allowSource := true } with e | ⟨Z1, sdz1⟩
          · rfl
          · simp only [Except.map, bind, Except.bind]
            rcases sourceIdx sdz1 with e | idx
            · rfl
            · simp only [RW.take_map]
              rcases Np.take Z1 idx with e | A
              · rfl
              · simp only [Except.map, batch, List.map_eq_nil_iff, List.length_map, List.map_map, Function.comp_def, hkde]
                by_cases h : A = []
                · simp only [h, if_true]
                · simp only [h, if_false, List.zipWith_map, List.zipWith_self, add_sub_add_right_eq_sub]

/-- C139 (Gaussian densities). `GaussianReweightAdapter`, when the density of moved samples is a constant multiple of the original one (the
change of volume): the same weights, of training samples and of new ones. -/
theorem C139_gaussian (pdf : List α → α → K) (pdf' : List β → β → K) (c : K) (hc : c ≠ 0)
    (hpdf : ∀ S x, pdf' (S.map g) (g x) = c * pdf S x) (X Z : List α) (sd sdz : SDArg) :
    gaussianFitWeights pdf' (X.map g) sd (Z.map g) sdz = gaussianFitWeights pdf X sd Z sdz := by
  have hf : ∀ a b : K, fdiv (c * a) (c * b) = fdiv a b := by
    intro a b
    simp only [fdiv, mul_eq_zero, hc, false_or, mul_div_mul_left a b hc]
  unfold gaussianFitWeights
  simp only [check_map]
  rcases checkXDomain X sd {} with e | ⟨X1, sd1⟩
  · rfl
  · simp only [Except.map, bind, Except.bind, splitX_map]
    rcases splitX X1 sd1 with e | ⟨Xs, Xt⟩
    · rfl
    · simp only
      rcases checkXDomain Z sdz { allowSource := true } with e | ⟨Z1, sdz1⟩
      · rfl
      · simp only
        rcases sourceIdx sdz1 with e | idx
        · rfl
        · simp only [RW.take_map]
          rcases Np.take Z1 idx with e | A
          · rfl
          · simp only [Except.map, List.length_map, List.map_map, Function.comp_def, hpdf, hf]

/-- C139 (domain classifier, nearest neighbours). `DiscriminatorReweightAdapter` with a classifier that gives moved samples the probabilities
of the original ones, and `NearestNeighborReweightAdapter` with a search that finds the same neighbours: the same weights. -/
theorem C139_discriminator_nn (clf : List α → List Int → α → K) (clf' : List β → List Int → β → K)
    (hclf : ∀ S y x, clf' (S.map g) y (g x) = clf S y x) (knn : List α → α → Nat) (knn' : List β → β → Nat)
    (hknn : ∀ S x, knn' (S.map g) (g x) = knn S x) (X : List α) (sd : SDArg) :
    RelPy (fun F F' => ∀ eps Z sdz, discriminatorWeights eps F' (Z.map g) sdz = discriminatorWeights eps F Z sdz)
        (discriminatorFit clf X sd) (discriminatorFit clf' (X.map g) sd) ∧
      ∀ laplace, (nnWeights knn' laplace (X.map g) sd : Py (List K)) = nnWeights knn laplace X sd := by
  constructor
  · unfold discriminatorFit
    rw [check_map]
    rcases checkXDomain X sd {} with e | ⟨X1, sd1⟩
    · exact rfl
    · simp only [Except.map, bind, Except.bind, List.length_map]
      rcases sourceIdx sd1 with e | idx
      · exact rfl
      · simp only
        rcases domainLabels X1.length idx with e | yd
        · exact rfl
        · intro eps Z sdz
          unfold discriminatorWeights
          rw [check_map]
          rcases checkXDomain Z sdz { allowSource := true } with e | ⟨Z1, sdz1⟩
          · rfl
          · simp only [Except.map, bind, Except.bind]
            rcases sourceIdx sdz1 with e | idz
            · rfl
            · simp only [RW.take_map]
              rcases Np.take Z1 idz with e | A
              · rfl
              · simp only [Except.map, batch, List.map_eq_nil_iff, List.length_map, List.map_map, Function.comp_def, hclf]
  · intro laplace
    unfold nnWeights
    rw [check_map]
    rcases checkXDomain X sd { allowSource := true } with e | ⟨X1, sd1⟩
    · rfl
    · simp only [Except.map, bind, Except.bind]
      rcases sourceIdx sd1 with e | idx
      · rfl
      · simp only [RW.take_map, takeInvert, List.length_map]
        rcases Np.take X1 idx with e | A
        · rfl
        · simp only [Except.map]
          rcases Np.take X1 (idx.map (fun i => X1.length - 1 - i)) with e | B
          · rfl
          · simp only [nnGetWeights, batch, List.map_eq_nil_iff, List.length_map, List.map_map, Function.comp_def, hknn, bind, Except.bind]

end Reweight
namespace Geometry
open RW

section Propagation
variable {α β γ K : Type} [Field K] [LinearOrder K] {g : α → β}

theorem checkXy_geo (g : α → β) (X : List α) (y : List Num) (sd : SDArg) (fl : Flags) :
    checkXyDomain (X.map g) y sd fl = (checkXyDomain X y sd fl).map (fun r => (r.1.map g, r.2)) := by
  unfold checkXyDomain
  simp only [List.map_eq_nil_iff, List.length_map]
  split
  · rfl
  · split
    · rfl
    · split
      · rfl
      · split
        · rfl
        · split
          · rfl
          · split
            · rfl
            · split <;> rfl

theorem mapM_post {δ ε : Type} (f : δ → ε) (h : γ → Py δ) (l : List γ) :
    l.mapM (fun a => (h a).map f) = (l.mapM h).map (List.map f) := by
  induction l with
  | nil => rfl
  | cons a l ih =>
    simp only [List.mapM_cons, ih]
    rcases h a with e | b
    · rfl
    · rcases l.mapM h with e | bs <;> rfl

/-- An entry of the dictionaries of `per_domain_split`, with the rows moved. -/
def moveEntry (g : α → β) (kv : Int × List (Option (List α))) : Int × List (Option (List β)) := (kv.1, kv.2.map (Option.map (List.map g)))

theorem perDomainSplit_geo (g : α → β) (X : List α) (sd : List Int) :
    perDomainSplit [some (X.map g)] sd =
      (perDomainSplit [some X] sd).map (fun r => (r.1.map (moveEntry g), r.2.map (moveEntry g))) := by
  unfold perDomainSplit
  simp only [List.cons_ne_nil, if_false]
  rcases extractDomainsIndices sd with e | dom
  · rfl
  · have key : ∀ (e' : Int × List Nat → Py (Int × List (Option (List β)))) (e : Int × List Nat → Py (Int × List (Option (List α)))),
        (∀ kv, e' kv = (e kv).map (moveEntry g)) →
        (match dom.mapM e' with
          | .error e => (.error e : Py (List (Int × List (Option (List β))) × List (Int × List (Option (List β)))))
          | .ok l => .ok (l.filter (fun kv => decide (0 ≤ kv.1)), l.filter (fun kv => !decide (0 ≤ kv.1)))) =
        Except.map (fun r => (r.1.map (moveEntry g), r.2.map (moveEntry g))) (match dom.mapM e with
          | .error e => (.error e : Py (List (Int × List (Option (List α))) × List (Int × List (Option (List α)))))
          | .ok l => .ok (l.filter (fun kv => decide (0 ≤ kv.1)), l.filter (fun kv => !decide (0 ≤ kv.1)))) := by
      intro e' e h
      rw [funext h, mapM_post]
      rcases dom.mapM e with e | l
      · rfl
      · simp only [Except.map, List.filter_map]
        rfl
    refine key _ _ (fun kv => ?_)
    simp only [List.mapM_cons, List.mapM_nil, RW.take_map]
    rcases Np.take X kv.2 with e | r <;> rfl

theorem domArrays_geo (g : α → β) (l : List (Int × List (Option (List α)))) : OT.domArrays (l.map (moveEntry g)) = (OT.domArrays l).map (List.map g) := by
  unfold OT.domArrays
  rw [List.map_map, List.map_map]
  apply List.map_congr_left
  rintro ⟨k, v⟩ -
  simp only [Function.comp_apply, moveEntry]
  rcases v with _ | ⟨(_ | a), _ | ⟨b, w⟩⟩ <;> rfl

end Propagation

end Geometry

section Adapters
variable {α β K : Type} [Field K] {g : α → β} {k : α → α → K} {k' : β → β → K}
open RW

/-- C139 (embeddings). Transfer component analysis and joint matching, on samples moved by a one-to-one map that keeps the kernel: moved
samples, in training or new, get the coordinates of the original samples, or the same exception. -/
theorem C139_embedding {p : Nat} [DecidableEq α] [DecidableEq β] (hk : KeepsKernel g k k') (hg : Function.Injective g)
    (eig : List (List K) → Nat → Nat → Py (List (Fin p → K))) (X : List α) (sd : SDArg) :
    RelPy (fun F F' => ∀ Z sdz allow, Subsp.kernelTransform k' F' (Z.map g) sdz allow = Subsp.kernelTransform k F Z sdz allow)
        (Subsp.kernelFit k eig X sd) (Subsp.kernelFit k' eig (X.map g) sd) ∧
      Subsp.kernelFitTransform k' eig (X.map g) sd = Subsp.kernelFitTransform k eig X sd := by
  have gram : ∀ A B : List α, Subsp.gram k' (A.map g) (B.map g) = Subsp.gram k A B := by
    intro A B; simp [Subsp.gram, hk _ _, Function.comp_def]
  have gramT : ∀ A B : List α, Subsp.gramT k' (A.map g) (B.map g) = Subsp.gramT k A B := by
    intro A B; simp [Subsp.gramT, hk _ _, Function.comp_def]
  have block : ∀ A B : List α, Subsp.kernelBlock k' (A.map g) (B.map g) = Subsp.kernelBlock k A B := by
    intro A B; simp only [Subsp.kernelBlock, gram, gramT]
  have hfit : RelPy (fun F F' => F' = ⟨F.Xs.map g, F.Xt.map g, F.V⟩) (Subsp.kernelFit k eig X sd) (Subsp.kernelFit k' eig (X.map g) sd) := by
    unfold Subsp.kernelFit
    rw [check_map]
    rcases checkXDomain X sd {} with e | ⟨X1, sd1⟩
    · exact rfl
    · simp only [Except.map, bind, Except.bind, splitX_map]
      rcases splitX X1 sd1 with e | ⟨A, B⟩
      · exact rfl
      · simp only [block, List.length_map]
        rcases eig (Subsp.kernelBlock k A B) A.length B.length with e | V
        · exact rfl
        · exact rfl
  have htr : ∀ (F : Subsp.Embedding α K p) Z sdz allow,
      Subsp.kernelTransform k' ⟨F.Xs.map g, F.Xt.map g, F.V⟩ (Z.map g) sdz allow = Subsp.kernelTransform k F Z sdz allow := by
    intro F Z sdz allow
    unfold Subsp.kernelTransform
    rw [check_map]
    rcases checkXDomain Z sdz { allowSource := allow } with e | ⟨Z1, sd1⟩
    · rfl
    · simp only [Except.map, bind, Except.bind, splitX_map]
      rcases splitX Z1 sd1 with e | ⟨A, B⟩
      · rfl
      · simp only [(List.map_injective_iff.2 hg).eq_iff, block, gram]
  constructor
  · rcases Sides.py_cases hfit with ⟨e, h1, h2⟩ | ⟨F, F', h1, h2, rfl⟩
    · rw [h1, h2]; exact rfl
    · rw [h1, h2]; exact htr F
  · unfold Subsp.kernelFitTransform
    rcases Sides.py_cases hfit with ⟨e, h1, h2⟩ | ⟨F, F', h1, h2, rfl⟩
    · rw [h1, h2]; rfl
    · rw [h1, h2]; exact htr F X sd true

variable [LinearOrder K]

/-- C139 (label propagation). `OTLabelPropAdapter`, whose plan is computed from the matrix of the costs between source and target rows and the
weights, on moved samples with the same costs: the same labels are proposed, to class labels and to numbers, or the same exception. -/
theorem C139_otLabelProp (solve : List (List K) → List K → List K → List (List K)) (hk : KeepsKernel g k k') (X : List α) (sd : SDArg)
    (w : Option (List K)) :
    (∀ y : List Int, OT.otLabelProp (fun A B => solve (A.map (fun x => B.map (k' x)))) (X.map g) y sd w =
      (OT.otLabelProp (fun A B => solve (A.map (fun x => B.map (k x)))) X y sd w).map (fun r => (r.1.map g, r.2))) ∧
    ∀ y : List K, OT.otLabelPropReg (fun A B => solve (A.map (fun x => B.map (k' x)))) (X.map g) y sd w =
      (OT.otLabelPropReg (fun A B => solve (A.map (fun x => B.map (k x)))) X y sd w).map (fun r => (r.1.map g, r.2)) := by
  constructor
  · intro y
    unfold OT.otLabelProp
    rw [Geometry.checkXy_geo]
    rcases checkXyDomain X (y.map (fun v : Int => Num.fin (v : ℚ))) sd {} with e | ⟨X1, y1, sd1⟩
    · rfl
    · simp only [Except.map, bind, Except.bind, splitX_map]
      rcases splitX X1 sd1 with e | ⟨A, B⟩
      · rfl
      · simp only
        rcases splitX y sd1 with e | ⟨ys, yt⟩
        · rfl
        · simp only
          rcases Map.splitY w sd1 with e | ⟨ws, wt⟩
          · rfl
          · simp only [List.map_map, Function.comp_def, hk _ _, List.length_map]
            rcases List.mapM _ (List.range B.length) with e | yh
            · rfl
            · simp only
              rcases Np.boolAssign _ _ yh with e | yo <;> rfl
  · intro y
    unfold OT.otLabelPropReg
    rw [check_map]
    rcases checkXDomain X sd {} with e | ⟨X1, sd1⟩
    · rfl
    · simp only [Except.map, bind, Except.bind, splitX_map]
      rcases splitX X1 sd1 with e | ⟨A, B⟩
      · rfl
      · simp only
        rcases splitX y sd1 with e | ⟨ys, yt⟩
        · rfl
        · simp only
          rcases Map.splitY w sd1 with e | ⟨ws, wt⟩
          · rfl
          · simp only [List.map_map, Function.comp_def, hk _ _, List.length_map]
            rcases Np.boolAssign _ _ _ with e | yo <;> rfl

omit [Field K] in
/-- C139 (joint class proportions). `JCPOTLabelPropAdapter`, when the transport gives moved samples the scores of the original ones: the same
labels are proposed, or the same exception. -/
theorem C139_jcpot (scores : List (List α) → List (List Int) → List α → List (List K))
    (scores' : List (List β) → List (List Int) → List β → List (List K))
    (hs : ∀ A ys B, scores' (A.map (List.map g)) ys (B.map g) = scores A ys B) (X : List α) (y : List Int) (sd : SDArg) :
    OT.jcpot scores' (X.map g) y sd = (OT.jcpot scores X y sd).map (fun r => (r.1.map g, r.2)) := by
  unfold OT.jcpot
  rw [Geometry.checkXy_geo]
  rcases checkXyDomain X (y.map (fun v : Int => Num.fin (v : ℚ))) sd {} with e | ⟨X1, y1, sd1⟩
  · rfl
  · simp only [Except.map, bind, Except.bind, Geometry.perDomainSplit_geo]
    rcases perDomainSplit [some X1] sd1 with e | ⟨A, B⟩
    · rfl
    · simp only
      rcases perDomainSplit [some y] sd1 with e | ⟨ys, yt⟩
      · rfl
      · simp only [Geometry.domArrays_geo, ← List.map_append, ← List.map_flatten]
        by_cases h : (OT.domArrays ys).length = 1
        · simp only [h, if_true, hs]
          rcases List.mapM _ (scores _ _ _) with e | yh
          · rfl
          · simp only
            rcases Np.boolAssign _ _ _ with e | yo <;> rfl
        · simp only [h, if_false, hs]
          rcases List.mapM _ (scores _ _ _) with e | yh
          · rfl
          · simp only
            rcases Np.boolAssign _ _ _ with e | yo <;> rfl

end Adapters
/-! ### Joint distribution transport -/

namespace Geometry
open RW OT

section Jdot
variable {α β γ E E' K : Type} [Field K] [LinearOrder K] {ns nt : Nat}

/-- Two results of one iteration that differ in the estimator only. -/
def IterRel (Q : E → E' → Prop) (r : Iter E K ns nt) (r' : Iter E' K ns nt) : Prop :=
  Q r.est r'.est ∧ r'.lossOt = r.lossOt ∧ r'.lossTgt = r.lossTgt ∧ r'.sol = r.sol ∧ r'.Ml = r.Ml

/-- Two fitted objects that differ in the estimator only. -/
def OutRel (Q : E → E' → Prop) (o : JdotOut E K) (o' : JdotOut E' K) : Prop :=
  Q o.est o'.est ∧ o'.lossOt = o.lossOt ∧ o'.lossTgt = o.lossTgt ∧ o'.plan = o.plan ∧ o'.value = o.value

theorem loop_rel {Q : E → E' → Prop} {body : Nat → (Fin ns → Fin nt → K) → Py (Iter E K ns nt)}
    {body' : Nat → (Fin ns → Fin nt → K) → Py (Iter E' K ns nt)} (hb : ∀ i M, RelPy (IterRel Q) (body i M) (body' i M)) (tol : K) (n : Nat) :
    ∀ (i : Nat) (M : Fin ns → Fin nt → K) (prev : Option (Iter E K ns nt)) (prev' : Option (Iter E' K ns nt)) (los lts : List K),
      Option.Rel (IterRel Q) prev prev' →
      RelPy (OutRel Q) (JdotOut.of (jdotLoopE body tol n i M prev los lts)) (JdotOut.of (jdotLoopE body' tol n i M prev' los lts)) := by
  induction n with
  | zero =>
    intro i M prev prev' los lts h
    cases h with
    | none => exact rfl
    | some h =>
      obtain ⟨h1, -, -, h4, -⟩ := h
      exact ⟨h1, rfl, rfl, by rw [h4], by rw [h4]⟩
  | succ n ih =>
    intro i M prev prev' los lts h
    rcases Sides.py_cases (hb i M) with ⟨e, e1, e2⟩ | ⟨r, r', e1, e2, hr⟩
    · simp only [jdotLoopE, e1, e2]; exact rfl
    · obtain ⟨h1, h2, h3, h4, h5⟩ := hr
      have fin : ∀ a b : List K, RelPy (OutRel Q) (JdotOut.of (.ok (r.est, a, b, r.sol))) (JdotOut.of (.ok (r'.est, a, b, r'.sol))) :=
        fun a b => ⟨h1, rfl, rfl, by rw [h4], by rw [h4]⟩
      have hrec := ih (i + 1) r.Ml (some r) (some r') (los ++ [r.lossOt]) (lts ++ [r.lossTgt]) (.some ⟨h1, h2, h3, h4, h5⟩)
      cases h with
      | none =>
        simp only [jdotLoopE, e1, e2, h2, h3, h5]
        exact hrec
      | some hq =>
        obtain ⟨-, q2, q3, -, -⟩ := hq
        simp only [jdotLoopE, e1, e2, h2, h3, h5, q2, q3]
        split
        · exact fin _ _
        · split
          · exact fin _ _
          · exact hrec

omit [LinearOrder K] in
theorem proper_scale {c : K} (hc : c ≠ 0) (M : Fin ns → Fin nt → K) (ws : Option (Fin ns → K)) (wt : Option (Fin nt → K)) :
    Proper (fun s t => c * M s t) ws wt ↔ Proper M ws wt := by
  simp only [Proper, ← Finset.mul_sum, ne_eq, mul_eq_zero, hc, false_or]

omit [LinearOrder K] in
theorem normalised_scale {c : K} (hc : c ≠ 0) (M : Fin ns → Fin nt → K) : normalised (fun s t => c * M s t) = normalised M := by
  funext s t
  simp only [normalised, ← Finset.mul_sum, mul_div_assoc]
  rw [← mul_div_assoc, mul_div_mul_left _ _ hc]

/-- A base regressor in the moved coordinates: fitted to moved rows it corresponds to the one fitted to the original rows, and it predicts for
moved rows what that one predicts for the original rows. -/
structure RegRel (g : α → β) (Q : E → E' → Prop) (R : Regressor α E K) (R' : Regressor β E' K) : Prop where
  fit : ∀ X y w, RelPy Q (R.fit X y w) (R'.fit (X.map g) y w)
  predict : ∀ e e', Q e e' → ∀ x, R'.predict e' (g x) = R.predict e x

/-- A base classifier in the moved coordinates. -/
structure ClsRel (g : α → β) (Q : E → E' → Prop) (C : Classifier α γ E K) (C' : Classifier β γ E' K) : Prop where
  fit : ∀ data, RelPy Q (C.fit data) (C'.fit (data.map (fun r => (g r.1, r.2))))
  logProba : ∀ e e', Q e e' → (C.view e).logProba = (C'.view e').logProba.map (fun f x => f (g x))
  proba : ∀ e e', Q e e' → (C.view e).proba = (C'.view e').proba.map (fun f x => f (g x))
  decision : ∀ e e', Q e e' → (C.view e).decision = (C'.view e').decision.map (fun f x => f (g x))

omit [LinearOrder K] in
theorem regBody_rel {g : α → β} {Q : E → E' → Prop} {R : Regressor α E K} {R' : Regressor β E' K} (h : RegRel g Q R R')
    (solve : (Fin ns → Fin nt → K) → (Fin ns → K) → (Fin nt → K) → Sol K ns nt) (alpha : K) (Mf : Fin ns → Fin nt → K) (x : Fin nt → α)
    (ys : Fin ns → K) (wt : Option (Fin nt → K)) (a : Fin ns → K) (b : Fin nt → K) (i : Nat) (M : Fin ns → Fin nt → K) :
    RelPy (IterRel Q) (regBodyE solve R alpha Mf x ys wt a b i M) (regBodyE solve R' alpha Mf (fun t => g (x t)) ys wt a b i M) := by
  simp only [regBodyE]
  have hx : List.ofFn (fun t => g (x t)) = (List.ofFn x).map g := by rw [List.map_ofFn]; rfl
  rw [hx]
  rcases Sides.py_cases (h.fit (List.ofFn x) (List.ofFn (transported ys (solve (jdotCost alpha Mf M i) a b).plan b)) (wt.map List.ofFn))
    with ⟨e, e1, e2⟩ | ⟨r, r', e1, e2, hr⟩
  · simp only [e1, e2]; exact rfl
  · simp only [e1, e2, h.predict r r' hr]
    exact ⟨hr, rfl, rfl, rfl, rfl⟩

theorem clsCost_rel {g : α → β} {Q : E → E' → Prop} {C : Classifier α γ E K} {C' : Classifier β γ E' K} (h : ClsRel g Q C C') {e : E} {e' : E'}
    (he : Q e e') (metric : String) (y : List K) (x : α) : clsCost metric (C'.view e') y (g x) = clsCost metric (C.view e) y x := by
  simp only [clsCost, h.logProba e e' he, h.proba e e' he, h.decision e e' he]
  cases (C'.view e').logProba <;> cases (C'.view e').proba <;> cases (C'.view e').decision <;> rfl

theorem dataJdot_geo (g : α → β) (X : List α) (Y : List (List K)) (labels : List γ) (thr m : K) :
    dataJdot (X.map g) Y labels thr m = (dataJdot X Y labels thr m).map (fun r => (g r.1, r.2)) := by
  have hX : (X.map g).flatMap (fun x => List.replicate labels.length x) = (X.flatMap (fun x => List.replicate labels.length x)).map g := by
    simp [List.flatMap_map, List.map_flatMap]
  have hz : ∀ (A : List α) (B : List (γ × K)), (A.map g).zip B = (A.zip B).map (fun r => (g r.1, r.2)) := by
    intro A B; rw [List.zip_map_left]; rfl
  simp only [dataJdot, hX, hz, List.filter_map]
  rfl

theorem clsBody_rel [DecidableEq γ] {g : α → β} {Q : E → E' → Prop} {C : Classifier α γ E K} {C' : Classifier β γ E' K} (h : ClsRel g Q C C')
    (solve : (Fin ns → Fin nt → K) → (Fin ns → K) → (Fin nt → K) → Sol K ns nt) (metric : String) (alpha thr : K) (Mf : Fin ns → Fin nt → K)
    (x : Fin nt → α) (ys : Fin ns → γ) (labels : List γ) (a : Fin ns → K) (b : Fin nt → K) (i : Nat) (M : Fin ns → Fin nt → K) :
    RelPy (IterRel Q) (clsBodyE solve C metric alpha thr Mf x ys labels a b i M)
      (clsBodyE solve C' metric alpha thr Mf (fun t => g (x t)) ys labels a b i M) := by
  simp only [clsBodyE]
  have hx : List.ofFn (fun t => g (x t)) = (List.ofFn x).map g := by rw [List.map_ofFn]; rfl
  rw [hx]
  rcases maxEntry (labelMass (solve (jdotCost alpha Mf M i) a b).plan ys labels).flatten with e | m
  · exact rfl
  · simp only [dataJdot_geo]
    rcases Sides.py_cases (h.fit (dataJdot (List.ofFn x) (labelMass (solve (jdotCost alpha Mf M i) a b).plan ys labels) labels thr m))
      with ⟨e, e1, e2⟩ | ⟨r, r', e1, e2, hr⟩
    · simp only [e1, e2]; exact rfl
    · simp only [e1, e2, List.mapM_map, clsCost_rel h hr, Function.comp_def, List.zipWith_map_right]
      rcases List.mapM _ (List.ofFn ys) with e | N
      · exact rfl
      · simp only
        rcases List.mapM _ (dataJdot _ _ _ _ _) with e | costs
        · exact rfl
        · exact ⟨hr, rfl, rfl, rfl, rfl⟩

/-- The fit of `JDOTRegressor` after the split, for given matrices. -/
def regCore (solve : ∀ ns nt, (Fin ns → Fin nt → K) → (Fin ns → K) → (Fin nt → K) → Sol K ns nt) (R : Regressor α E K) (alpha : K)
    (nIterMax : Nat) (tol : K) (undef : Py (JdotOut E K)) (M : Fin ns → Fin nt → K) (x : Fin nt → α) (ws : Option (Fin ns → K))
    (wt : Option (Fin nt → K)) (yv : Fin ns → K) : Py (JdotOut E K) :=
  if Proper M ws wt ∧ ∀ t, marginal wt t ≠ 0 then
    JdotOut.of (jdotLoopE (regBodyE (solve _ _) R alpha (normalised M) x yv wt (marginal ws) (marginal wt))
      tol nIterMax 0 (sqDist yv (fun _ => 0)) none [] [])
  else undef

theorem regCore_rel {g : α → β} {Q : E → E' → Prop} {R : Regressor α E K} {R' : Regressor β E' K} (h : RegRel g Q R R') {c : K} (hc : c ≠ 0)
    (solve : ∀ ns nt, (Fin ns → Fin nt → K) → (Fin ns → K) → (Fin nt → K) → Sol K ns nt) (alpha : K) (nIterMax : Nat) (tol : K)
    {undef : Py (JdotOut E K)} {undef' : Py (JdotOut E' K)} (hu : RelPy (OutRel Q) undef undef') {ns' nt' : Nat} (hs : ns' = ns) (ht : nt' = nt)
    (M : Fin ns → Fin nt → K) (M' : Fin ns' → Fin nt' → K) (hM : ∀ s t, M' s t = c * M (Fin.cast hs s) (Fin.cast ht t))
    (x : Fin nt → α) (x' : Fin nt' → β) (hx : ∀ t, x' t = g (x (Fin.cast ht t))) (ws wt : Option (List K)) (ys : List K) :
    RelPy (OutRel Q) (regCore solve R alpha nIterMax tol undef M x (ws.map entries) (wt.map entries) (entries ys))
      (regCore solve R' alpha nIterMax tol undef' M' x' (ws.map entries) (wt.map entries) (entries ys)) := by
  subst hs ht
  have h1 : M' = fun s t => c * M s t := funext (fun s => funext (fun t => hM s t))
  have h2 : x' = fun t => g (x t) := funext hx
  subst h1 h2
  unfold regCore
  simp only [proper_scale hc, normalised_scale hc]
  split
  · exact loop_rel (fun i N => regBody_rel h (solve _ _) alpha _ x _ _ _ _ i N) tol nIterMax 0 _ none none [] [] .none
  · exact hu

/-- The fit of `JDOTClassifier` after the split, for given matrices. -/
def clsCore [LinearOrder γ] (solve : ∀ ns nt, (Fin ns → Fin nt → K) → (Fin ns → K) → (Fin nt → K) → Sol K ns nt) (C : Classifier α γ E K)
    (metric : String) (alpha thr : K) (nIterMax : Nat) (tol : K) (undef : Py (JdotOut E K)) (M : Fin ns → Fin nt → K) (x : Fin nt → α)
    (ws : Option (Fin ns → K)) (wt : Option (Fin nt → K)) (ys : List γ) : Py (JdotOut E K) :=
  if h : Proper M ws wt ∧ ys.length = ns then
    JdotOut.of (jdotLoopE (clsBodyE (solve _ _) C metric alpha thr (normalised M) x (fun s => ys[s]'(by rw [h.2]; exact s.2)) (Np.unique ys)
      (marginal ws) (marginal wt)) tol nIterMax 0 (fun _ _ => 10) none [] [])
  else undef

theorem clsCore_rel [LinearOrder γ] {g : α → β} {Q : E → E' → Prop} {C : Classifier α γ E K} {C' : Classifier β γ E' K} (h : ClsRel g Q C C')
    {c : K} (hc : c ≠ 0) (solve : ∀ ns nt, (Fin ns → Fin nt → K) → (Fin ns → K) → (Fin nt → K) → Sol K ns nt) (metric : String) (alpha thr : K)
    (nIterMax : Nat) (tol : K) {undef : Py (JdotOut E K)} {undef' : Py (JdotOut E' K)} (hu : RelPy (OutRel Q) undef undef') {ns' nt' : Nat}
    (hs : ns' = ns) (ht : nt' = nt) (M : Fin ns → Fin nt → K) (M' : Fin ns' → Fin nt' → K)
    (hM : ∀ s t, M' s t = c * M (Fin.cast hs s) (Fin.cast ht t)) (x : Fin nt → α) (x' : Fin nt' → β) (hx : ∀ t, x' t = g (x (Fin.cast ht t)))
    (ws wt : Option (List K)) (ys : List γ) :
    RelPy (OutRel Q) (clsCore solve C metric alpha thr nIterMax tol undef M x (ws.map entries) (wt.map entries) ys)
      (clsCore solve C' metric alpha thr nIterMax tol undef' M' x' (ws.map entries) (wt.map entries) ys) := by
  subst hs ht
  have h1 : M' = fun s t => c * M s t := funext (fun s => funext (fun t => hM s t))
  have h2 : x' = fun t => g (x t) := funext hx
  subst h1 h2
  unfold clsCore
  simp only [proper_scale hc, normalised_scale hc]
  split
  · exact loop_rel (fun i N => clsBody_rel h (solve _ _) metric alpha thr _ x _ _ _ _ i N) tol nIterMax 0 _ none none [] [] .none
  · exact hu

end Jdot
end Geometry

section Jdot
variable {α β γ E E' K : Type} [Field K] [LinearOrder K] {g : α → β} {dist : α → α → K} {dist' : β → β → K}
open RW OT

/-- C139 (joint distribution transport). `JDOTRegressor` and `JDOTClassifier` divide the distances by their mean, so the samples may be moved by
any map that multiplies all distances by one number (a change of units included): the same plan, the same losses in every iteration, and
corresponding estimators; or the same exception. -/
theorem C139_jdot {c : K} (hc : c ≠ 0) (hd : ∀ x z, dist' (g x) (g z) = c * dist x z)
    (solve : ∀ ns nt, (Fin ns → Fin nt → K) → (Fin ns → K) → (Fin nt → K) → Sol K ns nt) (Q : E → E' → Prop) (alpha : K) (nIterMax : Nat) (tol : K)
    (undef : Py (JdotOut E K)) (undef' : Py (JdotOut E' K)) (hu : RelPy (Geometry.OutRel Q) undef undef') (X : List α) (sw : Option (List K))
    (sd : List Int) :
    (∀ (R : Regressor α E K) (R' : Regressor β E' K), Geometry.RegRel g Q R R' → ∀ (num : γ → K) (y : Option (List γ)),
      RelPy (Geometry.OutRel Q) (jdotRegressorFit solve dist R num alpha nIterMax tol undef X y sw sd)
        (jdotRegressorFit solve dist' R' num alpha nIterMax tol undef' (X.map g) y sw sd)) ∧
    ∀ [LinearOrder γ] (C : Classifier α γ E K) (C' : Classifier β γ E' K), Geometry.ClsRel g Q C C' → ∀ (metric : String) (thr : K)
      (y : Option (List γ)),
      RelPy (Geometry.OutRel Q) (jdotClassifierFit solve dist C metric alpha thr nIterMax tol undef X y sw sd)
        (jdotClassifierFit solve dist' C' metric alpha thr nIterMax tol undef' (X.map g) y sw sd) := by
  constructor
  · intro R R' hR num y
    unfold jdotRegressorFit
    rw [splitX_map]
    rcases splitX X sd with e | ⟨A, B⟩
    · exact rfl
    · simp only [Except.map, bind, Except.bind]
      rcases Map.splitY y sd with e | ⟨ys, yt⟩
      · exact rfl
      · simp only
        rcases Map.splitY sw sd with e | ⟨ws, wt⟩
        · exact rfl
        · simp only
          cases ys with
          | none => cases ws <;> exact rfl
          | some ys =>
            exact Geometry.regCore_rel hR hc solve alpha nIterMax tol hu (by simp) (by simp) (crossDist dist A B) _
              (fun s t => by simp [crossDist, hd]) (fun t => B[t]) _ (fun t => by simp) ws wt (ys.map num)
  · intro _ C C' hC metric thr y
    unfold jdotClassifierFit
    rw [splitX_map]
    rcases splitX X sd with e | ⟨A, B⟩
    · exact rfl
    · simp only [Except.map, bind, Except.bind]
      rcases Map.splitY y sd with e | ⟨ys, yt⟩
      · exact rfl
      · simp only
        rcases Map.splitY sw sd with e | ⟨ws, wt⟩
        · exact rfl
        · simp only
          cases ys with
          | none => cases ws <;> exact rfl
          | some ys =>
            exact Geometry.clsCore_rel hC hc solve metric alpha thr nIterMax tol hu (by simp) (by simp) (crossDist dist A B) _
              (fun s t => by simp [crossDist, hd]) (fun t => B[t]) _ (fun t => by simp) ws wt ys

end Jdot
/-! ### CORAL -/

namespace Geometry
open RW Map

section Coral
variable {K : Type} [Field K] {d : Nat}

/-- Every source row shifted by `a`, every target row by `b`. -/
def shifted (a b : Fin d → K) (sd : List Int) (X : List (Fin d → K)) : List (Fin d → K) :=
  List.zipWith (fun s x => x + if 0 ≤ s then a else b) sd X

/-- The array with its rows shifted. -/
def shiftedArr (a b : Fin d → K) (sd : List Int) (X : NArr (Fin d → K)) : NArr (Fin d → K) := { X with rows := shifted a b sd X.rows }

theorem shifted_length (a b : Fin d → K) {sd : List Int} {X : List (Fin d → K)} (h : X.length = sd.length) : (shifted a b sd X).length = X.length := by
  simp [shifted, h]

theorem check_length {α : Type} {X X' : List α} (h : X'.length = X.length) (sd : SDArg) (fl : Flags) :
    checkXDomain X' sd fl = (checkXDomain X sd fl).map (fun r => (X', r.2)) := by
  have hn : X' = [] ↔ X = [] := by rw [← List.length_eq_zero_iff, ← List.length_eq_zero_iff, h]
  unfold checkXDomain
  simp only [hn, h]
  split
  · rfl
  · split
    · rfl
    · split
      · rfl
      · split_ifs
        · rfl
        · rfl
        · split <;> rfl

theorem sel_shifted (a b : Fin d → K) (sd : List Int) (X : List (Fin d → K)) :
    Np.sel (sd.map (fun s => decide (0 ≤ s))) (shifted a b sd X) = (Np.sel (sd.map (fun s => decide (0 ≤ s))) X).map (· + a) ∧
    Np.sel ((sd.map (fun s => decide (0 ≤ s))).map (!·)) (shifted a b sd X) =
      (Np.sel ((sd.map (fun s => decide (0 ≤ s))).map (!·)) X).map (· + b) := by
  induction sd generalizing X with
  | nil => cases X <;> exact ⟨rfl, rfl⟩
  | cons s sd ih =>
    cases X with
    | nil =>
      by_cases h : 0 ≤ s <;> simp [shifted, Np.sel, h]
    | cons x X =>
      have := ih X
      simp only [shifted] at this ⊢
      by_cases h : 0 ≤ s
      · simp [Np.sel, h, this.1]
        simpa using this.2
      · simp [Np.sel, h, this.1]
        simpa using this.2

theorem splitX_shifted (a b : Fin d → K) {sd : List Int} {X : List (Fin d → K)} (h : X.length = sd.length) :
    splitX (shifted a b sd X) sd = (splitX X sd).map (fun r => (r.1.map (· + a), r.2.map (· + b))) := by
  have hl := shifted_length a b h
  unfold splitX sourceTargetSplit
  simp only [List.cons_ne_nil, if_false]
  cases hm : extractSourceIndices sd with
  | error e => rfl
  | ok m =>
    have hm' : m = sd.map (fun s => decide (0 ≤ s)) := by
      unfold extractSourceIndices at hm
      split at hm
      · cases hm
      · cases hm; rfl
    have hs := sel_shifted a b sd X
    simp only [List.mapM_cons, List.mapM_nil, Np.boolIndex, hl, hm']
    rw [hs.1, hs.2]
    by_cases h1 : (sd.map (fun s => decide (0 ≤ s))).length = X.length
    · simp only [h1, if_true, List.length_map]
      simp only [List.length_map] at h1
      simp [Except.map, bind, Except.bind, pure, Except.pure]
    · simp [h] at h1

theorem colMean_shift [CharZero K] (S : List (Fin d → K)) (a : Fin d → K) (h : S ≠ []) : colMean (S.map (· + a)) = colMean S + a := by
  have hn : (S.length : K) ≠ 0 := by
    have := List.length_pos_iff.2 h
    exact_mod_cast this.ne'
  funext j
  have : (S.map (fun x => x j + a j)).sum = (S.map (fun x => x j)).sum + (S.length : K) * a j := by
    clear hn h
    induction S with
    | nil => simp
    | cons x X ih => simp only [List.map_cons, List.sum_cons, ih, List.length_cons]; push_cast; ring
  simp only [colMean, List.map_map, Function.comp_def, List.length_map, Pi.add_apply, this]
  field_simp

theorem empCov_shift [CharZero K] (S : List (Fin d → K)) (a : Fin d → K) : empCov false (S.map (· + a)) = empCov false S := by
  by_cases h : S = []
  · subst h; rfl
  · simp only [empCov, Bool.false_eq_true, if_false, colMean_shift S a h, List.map_map, Function.comp_def, List.length_map, Pi.add_apply,
      add_sub_add_right_eq_sub]

end Coral
end Geometry

section Coral
variable {K : Type} [Field K] [CharZero K] {d : Nat}
open RW Map

/-- C139 (covariances). The covariance that `CORAL` estimates, without and with shrinkage, is not changed by a shift (Ledoit-Wolf shrinkage,
`reg='auto'`: if it is the case for that estimator). -/
theorem C139_covariance (auto : List (Fin d → K) → Matrix (Fin d) (Fin d) K) (reg : Option (Option K))
    (hauto : reg = some none → ∀ S a, auto (S.map (· + a)) = auto S) (S : List (Fin d → K)) (a : Fin d → K) :
    estimateCov auto reg false (S.map (· + a)) = estimateCov auto reg false S := by
  rcases reg with _ | _ | s
  · exact Geometry.empCov_shift S a
  · exact hauto rfl S a
  · simp only [estimateCov, Geometry.empCov_shift S a]

/-- C139 (CORAL). `CORALAdapter` (with `assume_centered=False` and a covariance estimate that a shift does not change) is blind to the place of
each side: when all source samples are shifted by `a` and all target samples by `b`, in training and later, the adapted samples are exactly
the same, or the same exception is raised. -/
theorem C139_coral (cov : List (Fin d → K) → Matrix (Fin d) (Fin d) K) (hcov : ∀ S a, cov (S.map (· + a)) = cov S)
    (sqrtM invsqrtM : Matrix (Fin d) (Fin d) K → Matrix (Fin d) (Fin d) K) (a b : Fin d → K) (X : NArr (Fin d → K)) (sd : List Int)
    (hX : X.rows.length = sd.length) :
    RelPy (fun F F' => ∀ (Z : NArr (Fin d → K)) (sdz : List Int), Z.rows.length = sdz.length → ∀ allow,
        coralTransform F' false (Geometry.shiftedArr a b sdz Z) (.vec sdz) allow = coralTransform F false Z (.vec sdz) allow)
      (coralFit cov sqrtM invsqrtM X (.vec sd)) (coralFit cov sqrtM invsqrtM (Geometry.shiftedArr a b sd X) (.vec sd)) ∧
    coralFitTransform cov sqrtM invsqrtM false (Geometry.shiftedArr a b sd X) (.vec sd) =
      coralFitTransform cov sqrtM invsqrtM false X (.vec sd) := by
  have hres : ∀ {Y : List (Fin d → K)} {s s' : List Int} {fl : Flags} {Y'}, checkXDomain Y (.vec s) fl = .ok (Y', s') → s' = s := by
    intro Y s s' fl Y' h
    unfold checkXDomain at h
    split at h
    · cases h
    · simp only at h
      split at h
      · cases h
      · split_ifs at h
        split at h
        · cases h
        · cases h; rfl
  have htr : ∀ (F : Coral K d) (Z : NArr (Fin d → K)) (sdz : List Int), Z.rows.length = sdz.length → ∀ allow,
      coralTransform { F with meanSource := F.meanSource + a, meanTarget := F.meanTarget + b } false (Geometry.shiftedArr a b sdz Z) (.vec sdz)
        allow = coralTransform F false Z (.vec sdz) allow := by
    intro F Z sdz hZ allow
    unfold coralTransform
    simp only [Geometry.shiftedArr]
    rw [Geometry.check_length (Geometry.shifted_length a b hZ)]
    cases hc : checkXDomain Z.rows (.vec sdz) { allowSource := allow } with
    | error e => rfl
    | ok r =>
      obtain ⟨Z1, sd1⟩ := r
      have e1 := check_same hc
      have e2 := hres hc
      subst e1 e2
      simp only [Except.map, bind, Except.bind, splitN, Geometry.splitX_shifted a b hZ]
      rcases splitX Z.rows sd1 with e | ⟨A, B⟩
      · rfl
      · simp only [pure, Except.pure, List.length_map, List.map_map, Function.comp_def, Bool.false_eq_true, if_false, add_sub_add_right_eq_sub,
          and_true]
        congr 1
        · split
          · rfl
          · have : A = [] := List.length_eq_zero_iff.1 (by omega)
            subst this; rfl
        · split
          · rfl
          · have : B = [] := List.length_eq_zero_iff.1 (by omega)
            subst this; rfl
  have hfit : RelPy (fun F F' => F' = { F with meanSource := F.meanSource + a, meanTarget := F.meanTarget + b })
      (coralFit cov sqrtM invsqrtM X (.vec sd)) (coralFit cov sqrtM invsqrtM (Geometry.shiftedArr a b sd X) (.vec sd)) := by
    unfold coralFit
    simp only [Geometry.shiftedArr]
    rw [Geometry.check_length (Geometry.shifted_length a b hX)]
    cases hc : checkXDomain X.rows (.vec sd) {} with
    | error e => exact rfl
    | ok r =>
      obtain ⟨Z1, sd1⟩ := r
      have e1 := check_same hc
      have e2 := hres hc
      subst e1 e2
      simp only [Except.map, bind, Except.bind, splitN, Geometry.splitX_shifted a b hX]
      rcases splitX X.rows sd1 with e | ⟨A, B⟩
      · exact rfl
      · simp only [pure, Except.pure, List.length_map]
        split
        · exact rfl
        · next h =>
          push Not at h
          have hA : A ≠ [] := fun e => h.1 (by simp [e])
          have hB : B ≠ [] := fun e => h.2 (by simp [e])
          simp only [hcov, Geometry.colMean_shift A a hA, Geometry.colMean_shift B b hB]
          exact rfl
  constructor
  · rcases Sides.py_cases hfit with ⟨e, h1, h2⟩ | ⟨F, F', h1, h2, rfl⟩
    · rw [h1, h2]; exact rfl
    · rw [h1, h2]; exact htr F
  · unfold coralFitTransform
    rcases Sides.py_cases hfit with ⟨e, h1, h2⟩ | ⟨F, F', h1, h2, rfl⟩
    · rw [h1, h2]; rfl
    · rw [h1, h2]; exact htr F X sd hX true

end Coral

/-! ### Examples, and where the place matters -/

/-- A shift keeps distances. -/
theorem Geometry.keeps_shift {K : Type} [Field K] {d : Nat} (t : Fin d → K) : KeepsDistances (fun x => x + t) := by
  intro x y
  simp [sqDistance]

/-- A rotation by a right angle and a shift. -/
def Geometry.turn (x : Fin 2 → ℚ) : Fin 2 → ℚ := ![5 - x 1, x 0 + 7]

theorem Geometry.keeps_turn : KeepsDistances Geometry.turn := by
  intro x y
  simp only [sqDistance, Geometry.turn, Fin.sum_univ_two, Matrix.cons_val_zero, Matrix.cons_val_one]
  ring

theorem Geometry.turn_injective : Function.Injective Geometry.turn := by
  intro x y h
  have h0 := congrFun h 0
  have h1 := congrFun h 1
  simp only [Geometry.turn, Matrix.cons_val_zero, Matrix.cons_val_one] at h0 h1
  funext i
  fin_cases i <;> simp <;> linarith

/-- The turned samples are different samples, the fitted weights are the same. -/
example :
    let weights (X : List (Fin 2 → ℚ)) : Py (List (Option ℚ)) := do
      let F ← (RW.fitObj kliepToy (RW.kfold 2) (.one (.num 1)) X (.vec [1, 1, -2, -2])).2
      RW.weightsObj kliepToy F X (.vec [1, 1, -2, -2])
    [![0, 0], ![1, 0], ![0, 2], ![1, 1]].map Geometry.turn = [![5, 7], ![5, 8], ![3, 7], ![4, 8]] ∧
      weights [![0, 0], ![1, 0], ![0, 2], ![1, 1]] = .ok [some (12 / 11), some (10 / 11), some 0, some 0] ∧
      weights [![5, 7], ![5, 8], ![3, 7], ![4, 8]] = .ok [some (12 / 11), some (10 / 11), some 0, some 0] := by
  decide +kernel

example := fun (E : RW.KliepEnv ℚ) folds (gs : List (RW.Gamma ℚ)) h X sd =>
  C139_kliep E folds Geometry.turn Geometry.keeps_turn (.many gs) (by simp) h X sd

/-- Kernel mean matching and target shift with the Gaussian kernel, and the embeddings. -/
example : KeepsKernel Geometry.turn (RW.rbf (fun x : ℚ => 1 / (1 + x ^ 2)) 3) (RW.rbf (fun x : ℚ => 1 / (1 + x ^ 2)) 3) ∧
    Function.Injective Geometry.turn :=
  ⟨Geometry.rbf_keeps _ 3 Geometry.keeps_turn, Geometry.turn_injective⟩

/-- A density estimator (a counting one, in one dimension) in other units: doubling all numbers halves the density. -/
example : ∃ (pdf : List ℚ → ℚ → ℚ) (pdf' : List ℚ → ℚ → ℚ), (∀ S x, pdf' (S.map (2 * · + 3)) (2 * x + 3) = 1 / 2 * pdf S x) ∧
    pdf [0, 1] 0 ≠ pdf [0, 1] 5 := by
  refine ⟨fun S x => (S.map (fun s => max 0 (1 - |x - s|))).sum, fun S x => (S.map (fun s => 1 / 2 * max 0 (1 - |x - s| / 2))).sum, ?_, ?_⟩
  · intro S x
    show (List.map _ (List.map _ S)).sum = 1 / 2 * (List.map _ S).sum
    rw [List.map_map, ← List.sum_map_mul_left]
    congr 1
    apply List.map_congr_left
    intro s _
    simp only [Function.comp_apply]
    have : |2 * x + 3 - (2 * s + 3)| / 2 = |x - s| := by
      rw [show 2 * x + 3 - (2 * s + 3) = 2 * (x - s) by ring, abs_mul]
      norm_num
    rw [this]
  · norm_num

/-- Label propagation: the classes proposed to the turned targets; a plan that sends everything along the cheapest entries. -/
example :
    let cost (x z : Fin 2 → ℚ) := sqDistance x z
    let solve (M : List (List ℚ)) (_ _ : List ℚ) := M.map (fun r => r.map (fun v => 1 / (1 + v)))
    let plan (A B : List (Fin 2 → ℚ)) := solve (A.map (fun x => B.map (cost x)))
    (OT.otLabelProp plan [![0, 0], ![4, 0], ![1, 0], ![3, 1]] [0, 1, -1, -1] (.vec [1, 1, -2, -2]) none).map (fun r => r.2) = .ok [-1, -1, 0, 1] ∧
    (OT.otLabelProp plan ([![0, 0], ![4, 0], ![1, 0], ![3, 1]].map Geometry.turn) [0, 1, -1, -1] (.vec [1, 1, -2, -2]) none).map (fun r => r.2) =
      .ok [-1, -1, 0, 1] := by
  decide +kernel

/-- A regressor in other units (the label of the nearest training rows, weighted by closeness), and distances doubled by `x ↦ 2 x + 3`. -/
example : Geometry.RegRel (K := ℚ) (fun x : ℚ => 2 * x + 3) (fun e e' : List (ℚ × ℚ) => e' = e.map (fun p => (2 * p.1 + 3, p.2)))
      ⟨fun X y _ => .ok (X.zip y), fun e x => (e.map (fun p => p.2 / (1 + |x - p.1|))).sum⟩
      ⟨fun X y _ => .ok (X.zip y), fun e x => (e.map (fun p => p.2 / (1 + |x - p.1| / 2))).sum⟩ ∧
    ∀ x z : ℚ, |2 * x + 3 - (2 * z + 3)| = 2 * |x - z| := by
  have habs : ∀ x z : ℚ, |2 * x + 3 - (2 * z + 3)| = 2 * |x - z| := by
    intro x z
    rw [show 2 * x + 3 - (2 * z + 3) = 2 * (x - z) by ring, abs_mul]
    norm_num
  refine ⟨⟨fun X y w => ?_, ?_⟩, habs⟩
  · show _ = _
    rw [List.zip_map_left]
    rfl
  · rintro e _ rfl x
    show (List.map _ (List.map _ e)).sum = (List.map _ e).sum
    rw [List.map_map]
    congr 1
    apply List.map_congr_left
    intro p _
    simp only [Function.comp_apply, habs]
    rw [mul_div_cancel_left₀ _ (two_ne_zero)]

/-- CORAL on samples where each side is shifted by its own vector. -/
example :
    let fit (X : List (Fin 1 → ℚ)) := (Map.coralFitTransform (Map.empCov false) (fun M => M) (fun M => M) false ⟨.float, [1], X⟩
      (.vec [1, 1, -2, -2])).map (fun r => r.rows.map List.ofFn)
    fit [![1], ![-1], ![5], ![1]] = .ok [[4], [-4], [2], [-2]] ∧ fit [![101], ![99], ![-5], ![-9]] = .ok [[4], [-4], [2], [-2]] := by
  decide +kernel

/-- C139 (counterexample: `assume_centered`). With `assume_centered=True` the covariances are second moments about zero, and the origin
matters: sources `±1`, targets `±5/9`. Shifting everything by `4/3` does not shift the adapted samples by `4/3`: the source sample `1`
becomes `5/9`, but `1 + 4/3` becomes `91/45` instead of `5/9 + 4/3 = 85/45`. -/
theorem C139_coral_centered_counterexample :
    let root : Matrix (Fin 1) (Fin 1) ℚ → ℚ := fun M => if M 0 0 = 1 then 1 else if M 0 0 = 25 / 81 then 5 / 9 else if M 0 0 = 25 / 9 then 5 / 3 else 13 / 9
    let fit (X : List (Fin 1 → ℚ)) := (Map.coralFitTransform (Map.empCov true) (fun M => Matrix.of fun _ _ => root M)
      (fun M => Matrix.of fun _ _ => 1 / root M) true ⟨.float, [1], X⟩ (.vec [1, 1, -2, -2])).map (fun r => r.rows.map List.ofFn)
    fit [![1], ![-1], ![5 / 9], ![-5 / 9]] = .ok [[5 / 9], [-5 / 9], [5 / 9], [-5 / 9]] ∧
    fit [![7 / 3], ![1 / 3], ![17 / 9], ![7 / 9]] = .ok [[91 / 45], [13 / 45], [17 / 9], [7 / 9]] := by
  decide +kernel

end Skada

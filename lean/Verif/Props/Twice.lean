/-
Property C143: adapting data that are already adapted changes nothing (and where it does).
-/
import Verif.Props.NoShiftOT

set_option linter.unusedSectionVars false

namespace Skada
open Np Spec Map Matrix

section Coral
variable {K : Type} [Field K] [LinearOrder K] [IsStrictOrderedRing K] {d : Nat}

/-- For a positive definite matrix `_invsqrtm` is the inverse of `_sqrtm`. -/
theorem invsqrtm_mul_sqrtm (sqrt : K → K) (eigh : Matrix (Fin d) (Fin d) K → (Fin d → K) × Matrix (Fin d) (Fin d) K) (C : Matrix (Fin d) (Fin d) K)
    (h : Spec.EighOf true sqrt eigh C) : invsqrtm sqrt eigh C * sqrtm sqrt eigh C = 1 := by
  obtain ⟨h1, h2, -, h4, h5⟩ := h
  rw [invsqrtm_eq, sqrtm_eq, mul_conj _ h2]
  have : (fun i => 1 / sqrt ((eigh C).1 i) * sqrt ((eigh C).1 i)) = fun _ => (1 : K) := by
    funext i
    have hp : 0 < (eigh C).1 i := by simpa using h4 i
    have hs : sqrt ((eigh C).1 i) ≠ 0 := by
      intro e
      have := h5 i
      rw [e, zero_mul] at this
      exact hp.ne this
    rw [one_div, inv_mul_cancel₀ hs]
  rw [this, Matrix.diagonal_one, Matrix.mul_one, h1]

/-- C143 (CORAL). With `reg=None` and positive definite covariances, running CORAL on the data CORAL returned gives them back, sample by sample. -/
theorem C143_coral (sqrt : K → K) (eigh : Matrix (Fin d) (Fin d) K → (Fin d → K) × Matrix (Fin d) (Fin d) K)
    (auto : List (Fin d → K) → Matrix (Fin d) (Fin d) K) (ac : Bool) (X : NArr (Fin d → K)) (sd : List Int) (hlen : sd.length = X.rows.length)
    (hs : 0 < nSource sd) (ht : 0 < nTarget sd) (hes : Spec.EighOf true sqrt eigh (empCov ac (sourceRows sd X.rows)))
    (het : Spec.EighOf true sqrt eigh (empCov ac (targetRows sd X.rows))) :
    ∃ out again, coralFitTransform (estimateCov auto none ac) (sqrtm sqrt eigh) (invsqrtm sqrt eigh) ac X (.vec sd) = .ok out ∧
      coralFitTransform (estimateCov auto none ac) (sqrtm sqrt eigh) (invsqrtm sqrt eigh) ac out (.vec sd) = .ok again ∧ again.rows = out.rows := by
  have hweak : Spec.EighOf false sqrt eigh (empCov ac (targetRows sd X.rows)) := by
    obtain ⟨h1, h2, h3, h4, h5⟩ := het
    exact ⟨h1, h2, h3, fun i => by
      have : 0 < (eigh (empCov ac (targetRows sd X.rows))).1 i := by simpa using h4 i
      simpa using this.le, h5⟩
  obtain ⟨out, ho, hcs, hct, hm⟩ := C64_coral_aligns sqrt eigh auto ac X sd hlen hs ht hes hweak
  obtain ⟨out', ho', hl', -⟩ := C64_rows (estimateCov auto none ac) (sqrtm sqrt eigh) (invsqrtm sqrt eigh) ac X sd hlen hs ht
  rw [ho] at ho'
  cases ho'
  have hlen' : sd.length = out.rows.length := hlen.trans hl'.symm
  obtain ⟨again, ha, hl, hrow⟩ := C64_rows (estimateCov auto none ac) (sqrtm sqrt eigh) (invsqrtm sqrt eigh) ac out sd hlen' hs ht
  refine ⟨out, again, ho, ha, ?_⟩
  apply List.ext_getElem? 
  intro i
  by_cases hi : i < sd.length
  · obtain ⟨l, hl0⟩ : ∃ l, sd[i]? = some l := ⟨_, List.getElem?_eq_getElem hi⟩
    obtain ⟨x, hx⟩ : ∃ x, out.rows[i]? = some x := ⟨_, List.getElem?_eq_getElem (hlen' ▸ hi)⟩
    rw [hrow i l x hl0 hx, hx]
    have hcen : ∀ Y : List (Fin d → K), (ac = false → colMean Y = 0) → x - (if ac then 0 else colMean Y) = x := by
      intro Y hY
      cases ac <;> simp [hY]
    rw [hcen _ (fun h => (hm h).1), hcen _ (fun h => (hm h).2)]
    split
    · show some ((x ᵥ* invsqrtm sqrt eigh (empCov ac (sourceRows sd out.rows))) ᵥ* sqrtm sqrt eigh (empCov ac (targetRows sd out.rows))) = _
      rw [hcs, hct, Matrix.vecMul_vecMul, invsqrtm_mul_sqrtm sqrt eigh _ het, Matrix.vecMul_one]
    · rfl
  · rw [List.getElem?_eq_none (by omega), List.getElem?_eq_none (by omega)]

/-- CORAL on one feature, with `reg=None`. -/
def twiceCoral (X : NArr (Fin 1 → ℚ)) : Py (NArr (Fin 1 → ℚ)) :=
  coralFitTransform (estimateCov (fun _ => 0) none false) (sqrtm (fun r => if r = 4 then 2 else r) (fun C => (fun _ => C 0 0, 1)))
    (invsqrtm (fun r => if r = 4 then 2 else r) (fun C => (fun _ => C 0 0, 1))) false X (.vec [1, -1, -1, 3])

/-- The hypotheses of C143 (CORAL) for source rows `0, 2` and target rows `0, 4`, and the two runs. -/
example : (Spec.EighOf (K := ℚ) (d := 1) true (fun r => if r = 4 then 2 else r) (fun C => (fun _ => C 0 0, 1)) (empCov false [fun _ => 0, fun _ => 2]) ∧
      Spec.EighOf (K := ℚ) (d := 1) true (fun r => if r = 4 then 2 else r) (fun C => (fun _ => C 0 0, 1)) (empCov false [fun _ => 0, fun _ => 4])) ∧
    (twiceCoral ⟨.float, [1], [fun _ => 0, fun _ => 0, fun _ => 4, fun _ => 2]⟩).map (fun out => out.rows.map (fun r => r 0)) = .ok [-2, -2, 2, 2] ∧
    (do let out : NArr (Fin 1 → ℚ) ← twiceCoral ⟨.float, [1], [fun _ => 0, fun _ => 0, fun _ => 4, fun _ => 2]⟩
        let again ← twiceCoral out
        pure (again.rows.map (fun r => r 0)) : Py (List ℚ)) = .ok [-2, -2, 2, 2] := by
  refine ⟨⟨⟨by simp, by simp, ?_, ?_, ?_⟩, ⟨by simp, by simp, ?_, ?_, ?_⟩⟩, by decide +kernel, by decide +kernel⟩
  · ext i j; fin_cases i; fin_cases j; simp
  · intro i; simp [empCov, colMean]; norm_num
  · intro i; simp [empCov, colMean]; norm_num
  · ext i j; fin_cases i; fin_cases j; simp
  · intro i; simp [empCov, colMean]; norm_num
  · intro i; simp [empCov, colMean]; norm_num

/-- The square roots needed below. -/
def twiceSqrt (r : ℚ) : ℚ :=
  if r = 7353 ^ 2 then 7353 else if r = 26144 ^ 2 then 26144 else if r = 9804 ^ 2 then 9804 else if r = 25327 ^ 2 then 25327 else r

/-- Two features, two source samples and six target samples; both sides are uncorrelated. -/
def twiceRows : List (Fin 2 → ℚ) :=
  [![1, 1], ![1, -1], ![4072, 46861], ![4072, -46861], ![80, 425], ![80, -425], ![28, 61], ![28, -61]]

/-- C143 fails for a numeric `reg` (shrunk covariances): the spectra of the two sides still differ after the first run, so the second run moves the
source samples again (the first feature of the first sample from 7353 to 5514.75). -/
theorem C143_coral_shrinkage_counterexample :
    ∃ (eigh : Matrix (Fin 2) (Fin 2) ℚ → (Fin 2 → ℚ) × Matrix (Fin 2) (Fin 2) ℚ) (s : ℚ) (X : NArr (Fin 2 → ℚ)) (sd : List Int)
      (out again : NArr (Fin 2 → ℚ)), 0 < s ∧ s < 1 ∧ 0 < nSource sd ∧ 0 < nTarget sd ∧ sd.length = X.rows.length ∧
      Spec.EighOf true twiceSqrt eigh (estimateCov (fun _ => 0) (some (some s)) true (sourceRows sd X.rows)) ∧
      Spec.EighOf true twiceSqrt eigh (estimateCov (fun _ => 0) (some (some s)) true (targetRows sd X.rows)) ∧
      coralFitTransform (estimateCov (fun _ => 0) (some (some s)) true) (sqrtm twiceSqrt eigh) (invsqrtm twiceSqrt eigh) true X (.vec sd) = .ok out ∧
      Spec.EighOf true twiceSqrt eigh (estimateCov (fun _ => 0) (some (some s)) true (sourceRows sd out.rows)) ∧
      targetRows sd out.rows = targetRows sd X.rows ∧
      coralFitTransform (estimateCov (fun _ => 0) (some (some s)) true) (sqrtm twiceSqrt eigh) (invsqrtm twiceSqrt eigh) true out (.vec sd) = .ok again ∧
      out.rows.head? = some ![7353, 26144] ∧ again.rows.head? ≠ out.rows.head? := by
  let eg : Matrix (Fin 2) (Fin 2) ℚ → (Fin 2 → ℚ) × Matrix (Fin 2) (Fin 2) ℚ := fun C => (fun i => C i i, 1)
  let run := fun rows => coralFitTransform (estimateCov (fun _ => 0) (some (some (126 / 943))) true) (sqrtm twiceSqrt eg) (invsqrtm twiceSqrt eg) true
    ⟨.float, [2], rows⟩ (.vec [1, 1, -2, -2, -2, -2, -2, -2])
  have get : ∀ rows L, (run rows).map (fun o => (o.dtype, o.tail, o.rows.map (fun r => (r 0, r 1)))) = .ok (.float, [2], L) →
      run rows = .ok ⟨.float, [2], L.map (fun p => ![p.1, p.2])⟩ := by
    intro rows L h
    rcases hr : run rows with e | ⟨dt, tl, o⟩
    · rw [hr] at h; cases h
    · rw [hr] at h
      simp only [Except.map, Except.ok.injEq, Prod.mk.injEq] at h
      obtain ⟨rfl, rfl, rfl⟩ := h
      rw [List.map_map]
      congr 2
      conv_lhs => rw [← List.map_id o]
      apply List.map_congr_left
      intro r _
      funext i
      fin_cases i <;> rfl
  refine ⟨eg, 126 / 943, ⟨.float, [2], twiceRows⟩, [1, 1, -2, -2, -2, -2, -2, -2], _, _, by norm_num, by norm_num, by decide, by decide, rfl, ?_, ?_,
    get twiceRows ([(7353, 26144), (7353, -26144)] ++ (twiceRows.drop 2).map (fun r => (r 0, r 1))) (by decide +kernel), ?_, ?_,
    get _ ([(22059 / 4, 26144 * 26144 / 25327), (22059 / 4, -26144 * 26144 / 25327)] ++ (twiceRows.drop 2).map (fun r => (r 0, r 1)))
      (by decide +kernel), rfl, ?_⟩
  · unfold Spec.EighOf; decide +kernel
  · unfold Spec.EighOf; decide +kernel
  · unfold Spec.EighOf; decide +kernel
  · decide +kernel
  · decide +kernel

end Coral

section Monge
variable {K : Type} [Field K] [LinearOrder K] [IsStrictOrderedRing K] {d : Nat}

/-- Covariance and mean of a domain. -/
abbrev Gauss (K : Type) (d : Nat) := Matrix (Fin d) (Fin d) K × (Fin d → K)

/-- The row map `x ↦ x·A + b` of `ot.gaussian.bures_wasserstein_mapping` as used in skada/_mapping.py:643-661 and 698: `A` is computed from the two covariances, `b` sends the mean of the domain
to the mean of the barycenter. -/
def gaussMap (A : Matrix (Fin d) (Fin d) K → Matrix (Fin d) (Fin d) K → Matrix (Fin d) (Fin d) K) (g b : Gauss K d) (x : Fin d → K) : Fin d → K :=
  x ᵥ* A g.1 b.1 + (b.2 - g.2 ᵥ* A g.1 b.1)

theorem domainRows_map_of {α : Type} (f : Int → α → α) {sd : List Int} {X Y : List α} (hX : sd.length = X.length) (hY : Y.length = X.length)
    (h : ∀ (i : Nat) (e : Int) (x : α), sd[i]? = some e → X[i]? = some x → Y[i]? = some (f e x)) (e : Int) :
    domainRows e sd Y = (domainRows e sd X).map (f e) := by
  induction sd generalizing X Y with
  | nil => simp [domainRows]
  | cons c sd ih =>
    cases X with
    | nil => simp at hX
    | cons x X =>
      cases Y with
      | nil => simp at hY
      | cons y Y =>
        have h0 := h 0 c x rfl rfl
        simp only [List.getElem?_cons_zero, Option.some.injEq] at h0
        have ih' := ih (X := X) (Y := Y) (by simpa using hX) (by simpa using hY) (fun i e x h1 h2 => by
          simpa using h (i + 1) e x (by simpa using h1) (by simpa using h2))
        unfold domainRows at ih' ⊢
        by_cases hc : c = e
        · subst hc; simp [h0, ih']
        · simp [hc, ih']

theorem domainRows_ne_of_mem {α : Type} {sd : List Int} {X : List α} (h : sd.length = X.length) {e : Int} (he : e ∈ sd) : domainRows e sd X ≠ [] := by
  obtain ⟨i, hi, rfl⟩ := List.mem_iff_getElem.1 he
  have hm : (sd[i], X[i]'(h ▸ hi)) ∈ sd.zip X := List.mem_iff_getElem.2 ⟨i, by simpa using ⟨hi, h ▸ hi⟩, by simp⟩
  exact List.ne_nil_of_mem (List.mem_map.2 ⟨_, List.mem_filter.2 ⟨hm, by simp⟩, rfl⟩)

/-- Mapping the rows of a domain by `gaussMap` gives them the covariance and mean of the barycenter. -/
theorem getCovMean_gaussMap (A : Matrix (Fin d) (Fin d) K → Matrix (Fin d) (Fin d) K → Matrix (Fin d) (Fin d) K) (bias : Bool) (Y : List (Fin d → K))
    (hY : Y ≠ []) (b : Gauss K d) (hb : bias = false → b.2 = 0)
    (hA : (A (getCovMean Y none bias).1 b.1).transpose * (getCovMean Y none bias).1 * A (getCovMean Y none bias).1 b.1 = b.1) :
    getCovMean (Y.map (gaussMap A (getCovMean Y none bias) b)) none bias = b := by
  have hs := C65_statistics (K := K) (d := d)
  set g := getCovMean Y none bias with hg
  set M := A g.1 b.1 with hM
  have hmap : Y.map (gaussMap A g b) = ((Y.map (fun x => x - g.2)).map (fun x => x ᵥ* M)).map (fun x => x - (-b.2)) := by
    rw [List.map_map, List.map_map]
    apply List.map_congr_left
    intro x _
    simp only [gaussMap, ← hM, Function.comp_apply, Matrix.sub_vecMul]
    abel
  have hmom : g.1 = moment (Y.map (fun x => x - g.2)) := by
    cases bias with
    | true => rw [hg, (hs Y).1]; simp [empCov_eq_moment]
    | false => rw [hg, (hs Y).2]; simp [empCov_eq_moment]
  have hmom2 : moment ((Y.map (fun x => x - g.2)).map (fun x => x ᵥ* M)) = b.1 := by
    rw [moment_vecMul, ← hmom, hM, hA]
  cases bias with
  | false =>
    rw [(hs _).2, hmap, hb rfl]
    have hz : ((Y.map (fun x => x - g.2)).map (fun x => x ᵥ* M)).map (fun x => x - (-(0 : Fin d → K)))
        = (Y.map (fun x => x - g.2)).map (fun x => x ᵥ* M) := by simp
    rw [hz, empCov_of_centred true (by simp), hmom2]
    exact Prod.ext rfl (hb rfl).symm
  | true =>
    have hm2 : g.2 = colMean Y := by rw [hg, (hs Y).1]
    have hne : (Y.map (fun x => x - g.2)).map (fun x => x ᵥ* M) ≠ [] := by simpa using hY
    have hcm : colMean ((Y.map (fun x => x - g.2)).map (fun x => x ᵥ* M)) = 0 := by
      rw [colMean_vecMul, colMean_sub _ _ hY, hm2, sub_self, Matrix.zero_vecMul]
    have hcb : colMean (Y.map (gaussMap A g b)) = b.2 := by
      rw [hmap, colMean_sub _ _ hne, hcm]; simp
    rw [(hs _).1, hcb]
    refine Prod.ext ?_ rfl
    show empCov false _ = b.1
    rw [empCov_eq_moment, ← hmom2, if_neg (by simp), hcb, hmap, List.map_map]
    congr 1
    conv_rhs => rw [← List.map_id ((Y.map (fun x => x - g.2)).map (fun x => x ᵥ* M))]
    apply List.map_congr_left
    intro x _
    simp

/-- C65 (alignment). If the matrices of `bures_wasserstein_mapping` carry the covariance of every domain to that of the barycenter, then after
`fit_transform` every domain, source or target, has exactly the covariance and mean of the barycenter of the source domains. -/
theorem C65_aligns (A : Matrix (Fin d) (Fin d) K → Matrix (Fin d) (Fin d) K → Matrix (Fin d) (Fin d) K) (bary : List (Gauss K d) → Gauss K d) (bias : Bool)
    (X : NArr (Fin d → K)) (sd : List Int) (hX : X.rows ≠ []) (hlen : sd.length = X.rows.length) (hs : 0 < nSource sd) (b : Gauss K d)
    (hbary : ∀ ks : List Int, ks.Pairwise (· < ·) → (∀ k, k ∈ ks ↔ k ∈ sd ∧ 0 ≤ k) →
      bary (ks.map (fun k => getCovMean (domainRows k sd X.rows) none bias)) = b)
    (hb : bias = false → b.2 = 0)
    (hA : ∀ e ∈ sd, (A (getCovMean (domainRows e sd X.rows) none bias).1 b.1).transpose * (getCovMean (domainRows e sd X.rows) none bias).1 *
      A (getCovMean (domainRows e sd X.rows) none bias).1 b.1 = b.1) :
    ∃ maps out, mongeFit (fun Y => getCovMean Y none bias) bary (gaussMap A) X.rows (.vec sd) = .ok maps ∧
      mongeTransform maps X (.vec sd) = .ok out ∧ out.dtype = X.dtype ∧ out.tail = X.tail ∧ out.rows.length = X.rows.length ∧
      ∀ e ∈ sd, getCovMean (domainRows e sd out.rows) none bias = b := by
  obtain ⟨maps, ks, hf, hp, hk, -, hl⟩ := (C65_fit (fun Y => getCovMean Y none bias) bary (gaussMap A) X.rows sd hX hlen).1 hs
  rw [hbary ks hp hk] at hl
  let f : Int → (Fin d → K) → (Fin d → K) := fun e => gaussMap A (getCovMean (domainRows e sd X.rows) none bias) b
  obtain ⟨rows, ho, hlo, hv⟩ := mongeLoop_ok maps f X sd hlen (unique sd) (fun e he => hl e (mem_unique.1 he)) X.rows rfl
  have hv' : ∀ (i : Nat) (e : Int) (x : Fin d → K), sd[i]? = some e → X.rows[i]? = some x → rows[i]? = some (f e x) := by
    intro i e x he hx
    rw [hv i e x he hx, if_pos (mem_unique.2 (List.mem_of_getElem? he))]
    rfl
  refine ⟨maps, { X with rows := rows }, hf, ?_, rfl, rfl, hlo, fun e he => ?_⟩
  · simp [mongeTransform, RW.check_ok hX hlen, ok_bind, pure_ok, extractDomainsIndices, RW.sd_ne hX hlen, ho]
  · show getCovMean (domainRows e sd rows) none bias = b
    rw [domainRows_map_of f hlen hlo hv' e]
    exact getCovMean_gaussMap A bias _ (domainRows_ne_of_mem hlen he) b hb (hA e he)

/-- C143 (MultiLinearMonge). If, moreover, the barycenter of equal Gaussians is that Gaussian and the map of a Gaussian to itself is the identity, a
second `fit_transform` on the returned data gives them back, sample by sample. -/
theorem C143_monge (A : Matrix (Fin d) (Fin d) K → Matrix (Fin d) (Fin d) K → Matrix (Fin d) (Fin d) K) (bary : List (Gauss K d) → Gauss K d) (bias : Bool)
    (X : NArr (Fin d → K)) (sd : List Int) (hX : X.rows ≠ []) (hlen : sd.length = X.rows.length) (hs : 0 < nSource sd) (b : Gauss K d)
    (hbary : ∀ ks : List Int, ks.Pairwise (· < ·) → (∀ k, k ∈ ks ↔ k ∈ sd ∧ 0 ≤ k) →
      bary (ks.map (fun k => getCovMean (domainRows k sd X.rows) none bias)) = b)
    (hb : bias = false → b.2 = 0)
    (hA : ∀ e ∈ sd, (A (getCovMean (domainRows e sd X.rows) none bias).1 b.1).transpose * (getCovMean (domainRows e sd X.rows) none bias).1 *
      A (getCovMean (domainRows e sd X.rows) none bias).1 b.1 = b.1)
    (hsame : ∀ n, bary (List.replicate (n + 1) b) = b) (hid : A b.1 b.1 = 1) :
    ∃ maps out maps', mongeFit (fun Y => getCovMean Y none bias) bary (gaussMap A) X.rows (.vec sd) = .ok maps ∧
      mongeTransform maps X (.vec sd) = .ok out ∧
      mongeFit (fun Y => getCovMean Y none bias) bary (gaussMap A) out.rows (.vec sd) = .ok maps' ∧ mongeTransform maps' out (.vec sd) = .ok out := by
  obtain ⟨maps, out, hf, ht, -, -, hlo, hg⟩ := C65_aligns A bary bias X sd hX hlen hs b hbary hb hA
  have hlen' : sd.length = out.rows.length := hlen.trans hlo.symm
  have hX' : out.rows ≠ [] := by
    intro h
    rw [h] at hlo
    exact hX (List.length_eq_zero_iff.1 hlo.symm)
  obtain ⟨maps', ks, hf', hp, hk, -, hl⟩ := (C65_fit (fun Y => getCovMean Y none bias) bary (gaussMap A) out.rows sd hX' hlen').1 hs
  have hks : ks.map (fun k => getCovMean (domainRows k sd out.rows) none bias) = List.replicate ks.length b := by
    refine List.eq_replicate_iff.2 ⟨by simp, fun g hm => ?_⟩
    obtain ⟨k, hk', rfl⟩ := List.mem_map.1 hm
    exact hg k ((hk k).1 hk').1
  have hpos : ∃ n, ks.length = n + 1 := by
    obtain ⟨e, he, h0⟩ := List.countP_pos_iff.1 hs
    have : e ∈ ks := (hk e).2 ⟨he, by simpa using h0⟩
    exact ⟨ks.length - 1, by have := List.length_pos_of_mem this; omega⟩
  obtain ⟨n, hn⟩ := hpos
  rw [hks, hn, hsame] at hl
  have hl' : ∀ e ∈ sd, lookup maps' e = .ok id := by
    intro e he
    rw [hl e he]
    congr 1
    show gaussMap A (getCovMean (domainRows e sd out.rows) none bias) b = id
    rw [hg e he]
    funext x
    simp [gaussMap, hid]
  obtain ⟨rows, ha, hla, hrow⟩ := mongeLoop_ok maps' (fun _ => id) out sd hlen' (unique sd) (fun e he => hl' e (mem_unique.1 he)) out.rows rfl
  have hrows : rows = out.rows := by
    apply List.ext_getElem?
    intro i
    by_cases hi : i < sd.length
    · obtain ⟨e, he⟩ : ∃ e, sd[i]? = some e := ⟨_, List.getElem?_eq_getElem hi⟩
      obtain ⟨x, hx⟩ : ∃ x, out.rows[i]? = some x := ⟨_, List.getElem?_eq_getElem (hlen' ▸ hi)⟩
      rw [hrow i e x he hx, if_pos (mem_unique.2 (List.mem_of_getElem? he)), hx]
      rfl
    · rw [List.getElem?_eq_none (by omega), List.getElem?_eq_none (by omega)]
  refine ⟨maps, out, maps', hf, ht, hf', ?_⟩
  simp [mongeTransform, RW.check_ok hX' hlen', ok_bind, pure_ok, extractDomainsIndices, RW.sd_ne hX' hlen', ha, hrows]

/-- The barycenter of variances on the line, with the standard deviation `1` for variance `1` and so on (the mean of the means and of the standard
deviations). -/
def twiceBary (sqrt : ℚ → ℚ) (l : List (Gauss ℚ 1)) : Gauss ℚ 1 :=
  let s := (l.map (fun g => sqrt (g.1 0 0))).sum / l.length
  (fun _ _ => s * s, fun _ => (l.map (fun g => g.2 0)).sum / l.length)

/-- The map between Gaussians on the line. -/
def twiceMap (sqrt : ℚ → ℚ) (S T : Matrix (Fin 1) (Fin 1) ℚ) : Matrix (Fin 1) (Fin 1) ℚ := fun _ _ => sqrt (T 0 0) / sqrt (S 0 0)

/-- Square roots of the variances below. -/
def twiceRoot (r : ℚ) : ℚ := if r = 1 then 1 else if r = 4 then 2 else if r = 9 then 3 else 0

/-- Two source domains (variances 1 and 9) and one target domain (variance 1): the first run gives all of them mean 7/2 and variance 4, the second run
changes nothing. -/
example : (do
      let maps ← mongeFit (fun Y => getCovMean Y none true) (twiceBary twiceRoot) (gaussMap (twiceMap twiceRoot))
        [fun _ => 0, fun _ => 3, fun _ => 2, fun _ => 5, fun _ => 9, fun _ => 7] (.vec [1, 2, 1, -3, 2, -3])
      let out ← mongeTransform maps (⟨.float, [1], [fun _ => 0, fun _ => 3, fun _ => 2, fun _ => 5, fun _ => 9, fun _ => 7]⟩ : NArr (Fin 1 → ℚ))
        (.vec [1, 2, 1, -3, 2, -3])
      let maps ← mongeFit (fun Y => getCovMean Y none true) (twiceBary twiceRoot) (gaussMap (twiceMap twiceRoot)) out.rows (.vec [1, 2, 1, -3, 2, -3])
      let again ← mongeTransform maps out (.vec [1, 2, 1, -3, 2, -3])
      pure (out.rows.map (fun r => r 0), again.rows.map (fun r => r 0)) : Py (List ℚ × List ℚ))
    = .ok ([3/2, 3/2, 11/2, 3/2, 11/2, 11/2], [3/2, 3/2, 11/2, 3/2, 11/2, 11/2]) := by
  decide +kernel

/-- The rows above. -/
def twiceLine : List (Fin 1 → ℚ) := [fun _ => 0, fun _ => 3, fun _ => 2, fun _ => 5, fun _ => 9, fun _ => 7]

/-- Their barycenter. -/
def twiceB : Gauss ℚ 1 := (!![4], ![7/2])

/-- The hypotheses of C65 (alignment) and C143 (MultiLinearMonge) for these data. -/
example : (∀ ks : List Int, ks.Pairwise (· < ·) → (∀ k, k ∈ ks ↔ k ∈ [1, 2, 1, -3, 2, -3] ∧ 0 ≤ k) →
      twiceBary twiceRoot (ks.map (fun k => getCovMean (domainRows k [1, 2, 1, -3, 2, -3] twiceLine) none true)) = twiceB) ∧
    (∀ e ∈ ([1, 2, 1, -3, 2, -3] : List Int),
      (twiceMap twiceRoot (getCovMean (domainRows e [1, 2, 1, -3, 2, -3] twiceLine) none true).1 twiceB.1).transpose *
        (getCovMean (domainRows e [1, 2, 1, -3, 2, -3] twiceLine) none true).1 *
        twiceMap twiceRoot (getCovMean (domainRows e [1, 2, 1, -3, 2, -3] twiceLine) none true).1 twiceB.1 = twiceB.1) ∧
    (∀ n, twiceBary twiceRoot (List.replicate (n + 1) twiceB) = twiceB) ∧
    twiceMap twiceRoot twiceB.1 twiceB.1 = 1 := by
  refine ⟨fun ks hp hk => ?_, by decide +kernel, fun n => ?_, by decide +kernel⟩
  · have : ks = [1, 2] := by
      have hp' : ([1, 2] : List Int).Pairwise (· < ·) := by decide
      refine List.Perm.eq_of_pairwise (fun a b _ _ h1 h2 => absurd (h1.trans h2) (lt_irrefl _)) hp hp' ?_
      refine (List.perm_ext_iff_of_nodup (hp.imp (fun h => h.ne)) (by decide)).2 fun k => ?_
      rw [hk k]
      simp only [List.mem_cons, List.not_mem_nil, or_false]
      omega
    rw [this]
    decide +kernel
  · have h : ((n : ℚ) + 1) ≠ 0 := by positivity
    refine Prod.ext ?_ ?_
    · funext i j
      have : twiceRoot 4 = 2 := by decide +kernel
      fin_cases i; fin_cases j
      simp [twiceBary, twiceB, this]
      field_simp
      norm_num
    · funext i
      fin_cases i
      simp [twiceBary, twiceB]
      field_simp

end Monge

section Transport
variable {K : Type} [Field K] [LinearOrder K] [IsStrictOrderedRing K] {d : Nat} {β : Type}

/-- The barycentric image of the source samples under a plan: sample `s` goes to the average of the target samples, weighted by what `s` sends them. -/
def Spec.barycentric (S T : List (Fin d → K)) (P : Fin S.length → Fin T.length → K) : List (Fin d → K) :=
  List.ofFn fun s => fun j => (∑ t, P s t * T[t] j) / ∑ t, P s t

/-- An exact optimal transport object of POT (`ot.da.EMDTransport`), fitted to `S` and `T` and asked about `S` again: the barycentric image under a
plan `plan S T`. -/
def Spec.ExactTransport (plan : ∀ S T : List (Fin d → K), Fin S.length → Fin T.length → K)
    (ot : NArr (Fin d → K) → Option (List β) → NArr (Fin d → K) → Option (List β) → Py (NArr (Fin d → K) → Py (NArr (Fin d → K)))) : Prop :=
  ∀ S ys T yt, ∃ F, ot S ys T yt = .ok F ∧ F S = .ok ⟨.float, S.tail, barycentric S.rows T.rows (plan S.rows T.rows)⟩

/-- What `fit_transform` of the transport adapters returns, side by side. -/
theorem exactTransport_out (plan : ∀ S T : List (Fin d → K), Fin S.length → Fin T.length → K)
    (ot : NArr (Fin d → K) → Option (List β) → NArr (Fin d → K) → Option (List β) → Py (NArr (Fin d → K) → Py (NArr (Fin d → K))))
    (hot : ExactTransport plan ot) (X : NArr (Fin d → K)) (y : Option (List β)) (sd : List Int) (hlen : sd.length = X.rows.length)
    (hy : ∀ l, y = some l → l.length = sd.length) (hs : 0 < nSource sd) :
    ∃ out, otFitTransform ot X y (.vec sd) = .ok out ∧ out.rows.length = X.rows.length ∧
      sourceRows sd out.rows = barycentric (sourceRows sd X.rows) (targetRows sd X.rows) (plan (sourceRows sd X.rows) (targetRows sd X.rows)) ∧
      targetRows sd out.rows = targetRows sd X.rows := by
  have hX : X.rows ≠ [] := by
    intro e; rw [e] at hlen
    simp at hlen; rw [hlen] at hs; simp [nSource] at hs
  have hsd := RW.sd_ne hX hlen
  have hspl : splitN X sd = _ := splitN_ok hsd hlen
  have hsy : splitY y sd = .ok (y.map (sourceRows sd), y.map (targetRows sd)) := by
    cases y with
    | none => rfl
    | some l => simp [splitY, RW.splitX_ok hsd (hy l rfl).symm]
  have hsl := length_sourceRows (a := X.rows) hlen
  have htl := length_targetRows (a := X.rows) hlen
  obtain ⟨F, hF, hFS⟩ := hot ⟨X.dtype, X.tail, sourceRows sd X.rows⟩ (y.map (sourceRows sd)) ⟨X.dtype, X.tail, targetRows sd X.rows⟩
    (y.map (targetRows sd))
  have hfit : otFit ot X y (.vec sd) = .ok F := by
    simp [otFit, ok_bind, RW.check_ok hX hlen, hspl, hsy, hF]
  obtain ⟨out, ho, hol, -, -, hos, hot'⟩ := mergeN_ok
    (s := ⟨.float, X.tail, barycentric (sourceRows sd X.rows) (targetRows sd X.rows) (plan (sourceRows sd X.rows) (targetRows sd X.rows))⟩)
    (t := ⟨X.dtype, X.tail, targetRows sd X.rows⟩) hsd (by simp [barycentric, hsl]) htl (fun _ _ => rfl)
  have hid : ∀ (t : DType) (l : List (Fin d → K)), l.map (Cell.cast t) = l := by
    intro t l
    have : (Cell.cast t : (Fin d → K) → (Fin d → K)) = id := rfl
    rw [this, List.map_id]
  rw [hid] at hos hot'
  refine ⟨out, ?_, hol.trans hlen, hos, hot'⟩
  simp [otFitTransform, ok_bind, pure_ok, hfit, otTransform, RW.check_ok hX hlen, hspl, hsl, hs, hFS, ho]

/-- Between equal samples the barycentric image is the identity. -/
theorem barycentric_noShift (c : (Fin d → K) → (Fin d → K) → K) (hc0 : ∀ x, c x x = 0) (hcp : ∀ x y, x ≠ y → 0 < c x y) (S T : List (Fin d → K))
    (hn : T.Perm S) (P : Fin S.length → Fin T.length → K) (hP : BestPlan c S T P) : barycentric S T P = S := by
  obtain ⟨hc, hbest⟩ := hP
  obtain ⟨-, hsup⟩ := NoShift.supported hn (fun s t => c S[s] T[t]) (fun s t h => by rw [h, hc0]) (fun s t h => hcp _ _ h) P hc hbest
  apply List.ext_getElem
  · simp [barycentric]
  intro i h1 h2
  simp only [barycentric, List.getElem_ofFn]
  funext j
  have hrow := hc.row ⟨i, h2⟩
  have hne : (∑ t, P ⟨i, h2⟩ t) ≠ 0 := by
    rw [hrow]
    have : (S.length : K) ≠ 0 := by
      have : 0 < S.length := by omega
      exact_mod_cast this.ne'
    exact one_div_ne_zero this
  have hsum : ∑ t, P ⟨i, h2⟩ t * T[t] j = ∑ t, P ⟨i, h2⟩ t * S[i] j := by
    refine Finset.sum_congr rfl fun t _ => ?_
    by_cases h : P ⟨i, h2⟩ t = 0
    · rw [h, zero_mul, zero_mul]
    · have := hsup ⟨i, h2⟩ t h
      have e : T[t] = S[i] := this.symm
      rw [e]
  rw [hsum, ← Finset.sum_mul, mul_comm, mul_div_assoc, div_self hne, mul_one]

/-- C141 (optimal transport mapping). If the target samples are the source samples in some order, exact optimal transport with any cost that is zero
exactly between equal samples moves nothing. -/
theorem C141_ot_mapping (plan : ∀ S T : List (Fin d → K), Fin S.length → Fin T.length → K) (c : (Fin d → K) → (Fin d → K) → K) (hc0 : ∀ x, c x x = 0)
    (hcp : ∀ x y, x ≠ y → 0 < c x y)
    (ot : NArr (Fin d → K) → Option (List β) → NArr (Fin d → K) → Option (List β) → Py (NArr (Fin d → K) → Py (NArr (Fin d → K))))
    (hot : ExactTransport plan ot) (X : NArr (Fin d → K)) (y : Option (List β)) (sd : List Int) (hX : X.rows ≠ []) (hlen : sd.length = X.rows.length)
    (hy : ∀ l, y = some l → l.length = sd.length) (hn : NoShift sd X.rows)
    (hbest : BestPlan c (sourceRows sd X.rows) (targetRows sd X.rows) (plan (sourceRows sd X.rows) (targetRows sd X.rows))) :
    ∃ out, otFitTransform ot X y (.vec sd) = .ok out ∧ out.rows = X.rows := by
  obtain ⟨hs, -⟩ := NoShift.nonempty hX hlen hn
  obtain ⟨out, ho, hl, hos, hot'⟩ := exactTransport_out plan ot hot X y sd hlen hy hs
  refine ⟨out, ho, ext_of_rows (hlen.trans hl.symm) hlen ?_ hot'⟩
  rw [hos, barycentric_noShift c hc0 hcp _ _ hn _ hbest]

theorem ofFn_equiv_perm {α : Type} {m n : Nat} (f : Fin n → α) (π : Fin m ≃ Fin n) : (List.ofFn fun s => f (π s)).Perm (List.ofFn f) := by
  have h : m = n := by simpa using Fintype.card_congr π
  subst h
  exact Equiv.Perm.ofFn_comp_perm π f

/-- An assignment sends the source samples onto the target samples. -/
theorem barycentric_assignment (S T : List (Fin d → K)) (P : Fin S.length → Fin T.length → K) (π : Fin S.length ≃ Fin T.length)
    (hπ : ∀ s t, P s t ≠ 0 ↔ t = π s) : T.Perm (barycentric S T P) := by
  have himg : barycentric S T P = List.ofFn (fun s => T[π s]) := by
    unfold barycentric
    congr 1
    funext s j
    have hz : ∀ t, t ≠ π s → P s t = 0 := fun t ht => by
      by_contra h
      exact ht ((hπ s t).1 h)
    rw [Finset.sum_eq_single (π s) (fun t _ ht => by rw [hz t ht, zero_mul]) (by simp),
      Finset.sum_eq_single (π s) (fun t _ ht => hz t ht) (by simp), mul_comm, mul_div_assoc, div_self ((hπ s _).2 rfl), mul_one]
  have h1 : T = List.ofFn (fun t : Fin T.length => T[t]) := by apply List.ext_getElem <;> simp
  rw [himg]
  conv_lhs => rw [h1]
  exact (ofFn_equiv_perm (fun t : Fin T.length => T[t]) π).symm

/-- C143 (optimal transport mapping, what holds). If the first plan is an assignment (every source sample sends all its mass to one target sample and no
two to the same), running the mapping on its own output gives that output back.
Missing from the full claim: plans that split the mass of a sample (`C143_ot_mapping_counterexample`). -/
theorem C143_ot_mapping_partial (plan : ∀ S T : List (Fin d → K), Fin S.length → Fin T.length → K) (c : (Fin d → K) → (Fin d → K) → K)
    (hc0 : ∀ x, c x x = 0) (hcp : ∀ x y, x ≠ y → 0 < c x y)
    (ot : NArr (Fin d → K) → Option (List β) → NArr (Fin d → K) → Option (List β) → Py (NArr (Fin d → K) → Py (NArr (Fin d → K))))
    (hot : ExactTransport plan ot) (X : NArr (Fin d → K)) (y : Option (List β)) (sd : List Int)
    (hlen : sd.length = X.rows.length) (hy : ∀ l, y = some l → l.length = sd.length) (hs : 0 < nSource sd)
    (π : Fin (sourceRows sd X.rows).length ≃ Fin (targetRows sd X.rows).length)
    (hπ : ∀ s t, plan (sourceRows sd X.rows) (targetRows sd X.rows) s t ≠ 0 ↔ t = π s)
    (hbest : ∀ S, S.Perm (targetRows sd X.rows) → BestPlan c S (targetRows sd X.rows) (plan S (targetRows sd X.rows))) :
    ∃ out again, otFitTransform ot X y (.vec sd) = .ok out ∧ otFitTransform ot out y (.vec sd) = .ok again ∧ again.rows = out.rows ∧
      (sourceRows sd out.rows).Perm (targetRows sd X.rows) := by
  obtain ⟨out, ho, hl, hos, hot'⟩ := exactTransport_out plan ot hot X y sd hlen hy hs
  have hlen' := hlen.trans hl.symm
  have hperm := barycentric_assignment _ _ _ π hπ
  rw [← hos] at hperm
  have hn : NoShift sd out.rows := by
    unfold NoShift
    rw [hot']
    exact hperm
  have hX' : out.rows ≠ [] := by
    intro e
    rw [e] at hlen'
    simp at hlen'; rw [hlen'] at hs; simp [nSource] at hs
  obtain ⟨again, ha, hrows⟩ := C141_ot_mapping plan c hc0 hcp ot hot out y sd hX' hlen' hy hn (by
    rw [hot']
    exact hbest _ hperm.symm)
  exact ⟨out, again, ho, ha, hrows, hperm.symm⟩

/-- Plans between two samples on the line: equal samples are paired, otherwise the samples are paired crosswise. -/
def pairPlan (S T : List (Fin 1 → ℚ)) (s : Fin S.length) (t : Fin T.length) : ℚ :=
  if S.Perm T then (if S[s] = T[t] then 1/2 else 0) else if s.val + t.val = 1 then 1/2 else 0

/-- The transport object with these plans. -/
def pairOt : NArr (Fin 1 → ℚ) → Option (List Int) → NArr (Fin 1 → ℚ) → Option (List Int) → Py (NArr (Fin 1 → ℚ) → Py (NArr (Fin 1 → ℚ))) :=
  fun S _ T _ => .ok fun _ => .ok ⟨.float, S.tail, barycentric S.rows T.rows (pairPlan S.rows T.rows)⟩

/-- The hypotheses of C141 and C143 for transport with target samples 10 and 5: the plans from either order of the target samples are optimal. -/
example : ExactTransport pairPlan pairOt ∧
    ∀ S : List (Fin 1 → ℚ), S.Perm [![10], ![5]] → BestPlan (fun x y => (x 0 - y 0) ^ 2) S [![10], ![5]] (pairPlan S [![10], ![5]]) := by
  refine ⟨fun _ _ _ _ => ⟨_, rfl, rfl⟩, fun S h => ?_⟩
  have hS : S = [![10], ![5]] ∨ S = [![5], ![10]] := by
    have hl := h.length_eq
    match S, hl with
    | [a, b], _ =>
      have ha : a ∈ [(![10] : Fin 1 → ℚ), ![5]] := h.mem_iff.1 (by simp)
      have hb : b ∈ [(![10] : Fin 1 → ℚ), ![5]] := h.mem_iff.1 (by simp)
      have hn : [a, b].Nodup := h.nodup_iff.2 (by decide +kernel)
      simp only [List.mem_cons, List.not_mem_nil, or_false] at ha hb
      rcases ha with rfl | rfl <;> rcases hb with rfl | rfl <;> simp_all
  rcases hS with rfl | rfl
  all_goals
    refine ⟨⟨by decide +kernel, by decide +kernel, by decide +kernel⟩, fun Q hQ => ?_⟩
    refine le_trans (b := 0) (by decide +kernel) (Finset.sum_nonneg fun s _ => Finset.sum_nonneg fun t _ => mul_nonneg (sq_nonneg _) (hQ.nonneg s t))

/-- The run: source samples 0 and 7 go to 5 and 10, and stay there in a second run. -/
example : (do
      let out ← otFitTransform pairOt ⟨.float, [1], [fun _ => 10, fun _ => 0, fun _ => 7, fun _ => 5]⟩ (some [1, 2, 3, 4]) (.vec [-1, 1, 2, -1])
      let again ← otFitTransform pairOt out (some [1, 2, 3, 4]) (.vec [-1, 1, 2, -1])
      pure (out.rows.map (fun r => r 0), again.rows.map (fun r => r 0)) : Py (List ℚ × List ℚ)) = .ok ([10, 5, 10, 5], [10, 5, 10, 5]) := by
  decide +kernel

/-- Squared Euclidean distance in the plane. -/
def sq2 (x y : Fin 2 → ℚ) : ℚ := (x 0 - y 0) ^ 2 + (x 1 - y 1) ^ 2

/-- The plans used below, by position. -/
def splitPlan (S T : List (Fin 2 → ℚ)) (s : Fin S.length) (t : Fin T.length) : ℚ :=
  if S.head? = some ![0, 0] then (([[1/4, 1/4, 0, 0], [0, 0, 1/4, 1/4]] : List (List ℚ)).getD s []).getD t 0
  else (([[0, 1/4, 0, 1/4], [1/4, 0, 1/4, 0]] : List (List ℚ)).getD s []).getD t 0

/-- The transport object with these plans. -/
def splitOt : NArr (Fin 2 → ℚ) → Option (List Int) → NArr (Fin 2 → ℚ) → Option (List Int) → Py (NArr (Fin 2 → ℚ) → Py (NArr (Fin 2 → ℚ))) :=
  fun S _ T _ => .ok fun _ => .ok ⟨.float, S.tail, barycentric S.rows T.rows (splitPlan S.rows T.rows)⟩

/-- An optimal plan between two and four samples, from a certificate (potentials `u` and `v`). -/
theorem best24 (c : (Fin 2 → ℚ) → (Fin 2 → ℚ) → ℚ) (s0 s1 t0 t1 t2 t3 : Fin 2 → ℚ) (P : Fin [s0, s1].length → Fin [t0, t1, t2, t3].length → ℚ)
    (hc : Coupling (fun _ => 1 / (([s0, s1].length : Nat) : ℚ)) (fun _ => 1 / (([t0, t1, t2, t3].length : Nat) : ℚ)) P)
    (u : Fin [s0, s1].length → ℚ) (v : Fin [t0, t1, t2, t3].length → ℚ) (hle : ∀ s t, u s + v t ≤ c [s0, s1][s] [t0, t1, t2, t3][t])
    (heq : ∑ s, ∑ t, c [s0, s1][s] [t0, t1, t2, t3][t] * P s t = ∑ s, ∑ t, (u s + v t) * P s t) : BestPlan c [s0, s1] [t0, t1, t2, t3] P := by
  refine ⟨hc, fun Q hQ => ?_⟩
  have dual : ∀ R, Coupling (fun _ => 1 / (([s0, s1].length : Nat) : ℚ)) (fun _ => 1 / (([t0, t1, t2, t3].length : Nat) : ℚ)) R →
      ∑ s, ∑ t, (u s + v t) * R s t = (∑ s, u s * (1 / (([s0, s1].length : Nat) : ℚ))) + ∑ t, v t * (1 / (([t0, t1, t2, t3].length : Nat) : ℚ)) := by
    intro R hR
    simp only [add_mul, Finset.sum_add_distrib]
    congr 1
    · refine Finset.sum_congr rfl fun s _ => ?_
      rw [← Finset.mul_sum, hR.row s]
    · rw [Finset.sum_comm]
      refine Finset.sum_congr rfl fun t _ => ?_
      rw [← Finset.mul_sum, hR.col t]
  rw [heq, dual P hc, ← dual Q hQ]
  exact Finset.sum_le_sum fun s _ => Finset.sum_le_sum fun t _ => mul_le_mul_of_nonneg_right (hle s t) (hQ.nonneg s t)

/-- C143 fails for optimal transport when a source sample sends its mass to several target samples: two source and four target samples in the plane,
both plans optimal for the squared distance, and the second run moves the source samples again. -/
theorem C143_ot_mapping_counterexample :
    ∃ (plan : ∀ S T : List (Fin 2 → ℚ), Fin S.length → Fin T.length → ℚ)
      (ot : NArr (Fin 2 → ℚ) → Option (List Int) → NArr (Fin 2 → ℚ) → Option (List Int) → Py (NArr (Fin 2 → ℚ) → Py (NArr (Fin 2 → ℚ))))
      (X out again : NArr (Fin 2 → ℚ)) (sd : List Int), ExactTransport plan ot ∧ sd.length = X.rows.length ∧ 0 < nSource sd ∧ 0 < nTarget sd ∧
      BestPlan sq2 (sourceRows sd X.rows) (targetRows sd X.rows) (plan _ _) ∧ otFitTransform ot X none (.vec sd) = .ok out ∧
      BestPlan sq2 (sourceRows sd out.rows) (targetRows sd out.rows) (plan _ _) ∧ otFitTransform ot out none (.vec sd) = .ok again ∧
      sourceRows sd out.rows = [![0, 5], ![1, 10]] ∧ sourceRows sd again.rows = [![1/2, -60], ![1/2, 75]] := by
  let T : List (Fin 2 → ℚ) := [![0, 100], ![0, -90], ![1, 50], ![1, -30]]
  have hex : ExactTransport splitPlan splitOt := fun S ys T yt => ⟨_, rfl, rfl⟩
  obtain ⟨out, ho, hl, hos, hot⟩ := exactTransport_out splitPlan splitOt hex ⟨.float, [2], [![0, 0], ![1, 0]] ++ T⟩ none [1, 1, -2, -2, -2, -2] rfl
    (by simp) (by decide)
  have hs0 : sourceRows [1, 1, -2, -2, -2, -2] ([![0, 0], ![1, 0]] ++ T) = [![0, 0], ![1, 0]] := rfl
  have ht0 : targetRows [1, 1, -2, -2, -2, -2] ([![0, 0], ![1, 0]] ++ T) = T := rfl
  have hos' : sourceRows [1, 1, -2, -2, -2, -2] out.rows = [![0, 5], ![1, 10]] := by
    rw [hos, hs0, ht0]; decide +kernel
  have hot' : targetRows [1, 1, -2, -2, -2, -2] out.rows = T := hot
  obtain ⟨again, ha, hla, has, hat⟩ := exactTransport_out splitPlan splitOt hex out none [1, 1, -2, -2, -2, -2] hl.symm (by simp) (by decide)
  refine ⟨splitPlan, splitOt, _, out, again, _, hex, rfl, by decide, by decide, ?_, ho, ?_, ha, hos', ?_⟩
  · show BestPlan sq2 [![0, 0], ![1, 0]] [![0, 100], ![0, -90], ![1, 50], ![1, -30]]
      (splitPlan [![0, 0], ![1, 0]] [![0, 100], ![0, -90], ![1, 50], ![1, -30]])
    exact best24 sq2 _ _ _ _ _ _ _ ⟨by decide +kernel, by decide +kernel, by decide +kernel⟩
      (fun s => ([0, -1] : List ℚ).getD s 0) (fun t => ([10000, 8100, 2501, 901] : List ℚ).getD t 0) (by decide +kernel) (by decide +kernel)
  · rw [hos', hot']
    exact best24 sq2 _ _ _ _ _ _ _ ⟨by decide +kernel, by decide +kernel, by decide +kernel⟩
      (fun s => ([0, -426] : List ℚ).getD s 0) (fun t => ([8527, 9025, 2026, 1226] : List ℚ).getD t 0) (by decide +kernel) (by decide +kernel)
  · rw [has, hos', hot']; decide +kernel

end Transport

section Others
variable {K : Type} [Field K] [LinearOrder K] [IsStrictOrderedRing K] {α : Type}

/-- C143 (reweighting). Whatever the weighting method, running it on the data it returned gives the same data and the same weights. -/
theorem C143_reweighting {φ ω : Type} (fit : List α → SDArg → Py φ) (weights : φ → List α → SDArg → Py ω) (X X' : List α) (w : ω) (sd : SDArg)
    (h : RW.fitTransform fit weights X sd = .ok (X', w)) : RW.fitTransform fit weights X' sd = .ok (X', w) := by
  have hX : X' = X := by
    simp only [RW.fitTransform, bind, Except.bind, pure, Except.pure] at h
    rcases hf : fit X sd with e | f
    · rw [hf] at h; cases h
    rw [hf] at h
    dsimp only at h
    rcases hw : weights f X sd with e | v
    · rw [hw] at h; cases h
    rw [hw] at h
    cases h
    rfl
  rw [hX] at h ⊢
  exact h

example : RW.fitTransform (RW.densityFit (fun A x => A.sum + x)) (RW.densityWeights (fun r : ℚ => r + 1)) [1, 2, 2, 5] (.vec [1, -3, 4, -1]) =
    .ok ([1, 2, 2, 5], [some 1, some 0, some 1, some 0]) := by decide +kernel

/-- C143 does not hold for label propagation: it returns masked labels for the source samples, so a second run, for every plan and weights, has nothing
but masks to propagate and masks every sample. -/
theorem C143_label_propagation_counterexample (plan : List α → List α → List K → List K → List (List K)) (X : List α) (y : List Int) (sd : List Int)
    (w : Option (List K)) (hy : y.length = X.length) (hlen : sd.length = X.length) (hw : ∀ v, w = some v → v.length = X.length) (hs : 0 < nSource sd) :
    ∃ yout, OT.otLabelProp plan X y (.vec sd) w = .ok (X, yout) ∧ OT.otLabelProp plan X yout (.vec sd) w = .ok (X, List.replicate X.length (-1)) := by
  obtain ⟨yout, h1, hl1, hsrc, -⟩ := C36_discrete plan X y sd w hy hlen hw hs
  obtain ⟨again, h2, hl2, hsrc2, htgt2⟩ := C36_discrete plan X yout sd w hl1 hlen hw hs
  refine ⟨yout, h1, ?_⟩
  have hmask : ∀ c ∈ sourceRows sd yout, c = -1 := by
    intro c hc
    unfold sourceRows at hc
    obtain ⟨⟨e, c'⟩, hm, rfl⟩ := List.mem_map.1 hc
    obtain ⟨hz, h0⟩ := List.mem_filter.1 hm
    obtain ⟨i, hi⟩ := List.mem_iff_getElem?.1 hz
    obtain ⟨h3, h4⟩ := List.getElem?_zip_eq_some.1 hi
    have := hsrc i e h3 (by simpa using h0)
    rw [h4] at this
    simpa using this
  rw [h2]
  congr 2
  apply List.ext_getElem?
  intro i
  by_cases hi : i < sd.length
  · obtain ⟨e, he⟩ : ∃ e, sd[i]? = some e := ⟨_, List.getElem?_eq_getElem hi⟩
    rw [List.getElem?_replicate, if_pos (hlen ▸ hi)]
    by_cases h0 : 0 ≤ e
    · exact hsrc2 i e he h0
    · obtain ⟨c, hc, hwin⟩ := htgt2 i e he (not_le.1 h0)
      rw [hc, hmask c hwin.1]
  · rw [List.getElem?_eq_none (by omega), List.getElem?_eq_none (by simp; omega)]

/-- The two runs on the data of C36. -/
example : let plan : List String → List String → List ℚ → List ℚ → List (List ℚ) := fun _ _ _ _ => [[1 / 4, 1 / 4], [0, 1 / 6], [1 / 4, 1 / 12]]
    OT.otLabelProp plan ["s0", "t0", "s1", "t1", "s2"] [3, -1, 7, -1, 7] (.vec [1, -2, 1, -2, 1]) none =
      .ok (["s0", "t0", "s1", "t1", "s2"], [-1, 3, -1, 3, -1]) ∧
    OT.otLabelProp plan ["s0", "t0", "s1", "t1", "s2"] [-1, 3, -1, 3, -1] (.vec [1, -2, 1, -2, 1]) none =
      .ok (["s0", "t0", "s1", "t1", "s2"], [-1, -1, -1, -1, -1]) := by
  refine ⟨?_, ?_⟩ <;> decide +kernel

end Others
end Skada

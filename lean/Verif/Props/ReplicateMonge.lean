/-
C142, continued: multi-domain linear Monge alignment on data in which the samples of a domain are listed several times.
-/
import Verif.Props.ReplicateKmm
import Verif.Props.Twice

set_option linter.unusedSectionVars false

namespace Skada
open Np Spec Map

variable {K : Type} [Field K] [LinearOrder K] [IsStrictOrderedRing K] {d : Nat}

/-- The statistics of a domain without weights are not changed by listing its samples several times. -/
theorem Copies.getCovMean (bias : Bool) : CopyBlind (fun Y : List (Fin d → K) => getCovMean Y none bias) := by
  intro k A hk
  have hs := C65_statistics (K := K) (d := d)
  cases bias with
  | true => simp only [(hs _).1, Copies.empCov false k A hk, Copies.colMean k A hk]
  | false => simp only [(hs _).2, Copies.empCov true k A hk]

theorem Copies.domainRows {α : Type} (c : Nat) (e : Int) {sd : List Int} {X : List α} (h : sd.length = X.length) :
    domainRows e (copies c sd) (copies c X) = copies c (domainRows e sd X) := by
  have := Copies.zipWith (fun (a : Int) (b : α) => (a, b)) c h
  simp only [Spec.domainRows, List.zip, this, Copies.filter, Copies.map]

/-- **C142, MultiLinearMonge.**  `X'` lists the samples of every domain `e` of `X` `c e` times, in any mixture of the domains. Then `fit_transform` moves every
sample of `X'` as it moves the samples of that domain in `X`: there is one map for each domain that gives both results. -/
theorem C142_monge (bary : List (Gauss K d) → Gauss K d) (mapping : Gauss K d → Gauss K d → (Fin d → K) → Fin d → K) (bias : Bool)
    (X X' : NArr (Fin d → K)) (sd sd' : List Int) (hX : X.rows ≠ []) (hX' : X'.rows ≠ []) (hlen : sd.length = X.rows.length)
    (hlen' : sd'.length = X'.rows.length) (hs : 0 < nSource sd) (c : Int → Nat) (hc : ∀ e, 0 < c e) (hd : ∀ e, e ∈ sd' ↔ e ∈ sd)
    (hrows : ∀ e, domainRows e sd' X'.rows = copies (c e) (domainRows e sd X.rows)) :
    ∃ (f : Int → (Fin d → K) → Fin d → K) (maps maps' : List (Int × ((Fin d → K) → Fin d → K))) (out out' : NArr (Fin d → K)),
      mongeFit (fun Y => getCovMean Y none bias) bary mapping X.rows (.vec sd) = .ok maps ∧ mongeTransform maps X (.vec sd) = .ok out ∧
      mongeFit (fun Y => getCovMean Y none bias) bary mapping X'.rows (.vec sd') = .ok maps' ∧ mongeTransform maps' X' (.vec sd') = .ok out' ∧
      out.rows = List.zipWith f sd X.rows ∧ out'.rows = List.zipWith f sd' X'.rows := by
  have hs' : 0 < nSource sd' := by
    obtain ⟨e, he, h0⟩ := List.countP_pos_iff.1 hs
    exact List.countP_pos_iff.2 ⟨e, (hd e).2 he, h0⟩
  obtain ⟨maps, ks, hf, hp, hk, -, hl⟩ := (C65_fit (fun Y => getCovMean Y none bias) bary mapping X.rows sd hX hlen).1 hs
  obtain ⟨maps', ks', hf', hp', hk', -, hl'⟩ := (C65_fit (fun Y => getCovMean Y none bias) bary mapping X'.rows sd' hX' hlen').1 hs'
  have hks : ks' = ks := by
    have hperm : ks'.Perm ks := (List.perm_ext_iff_of_nodup (hp'.imp fun h => ne_of_lt h) (hp.imp fun h => ne_of_lt h)).2 fun k => by
      rw [hk', hk, hd]
    exact hperm.eq_of_pairwise (fun a b _ _ h1 h2 => absurd h1 (not_lt.2 h2.le)) hp' hp
  subst hks
  have hst : ∀ e, getCovMean (domainRows e sd' X'.rows) none bias = getCovMean (domainRows e sd X.rows) none bias := fun e => by
    rw [hrows]; exact Copies.getCovMean bias (c e) _ (hc e)
  simp only [hst] at hl'
  obtain ⟨out, ho, hol, hov⟩ := C65_rows_partial maps (fun e => mapping (getCovMean (domainRows e sd X.rows) none bias)
    (bary (ks'.map (fun k => getCovMean (domainRows k sd X.rows) none bias)))) X sd hX hlen hl (fun _ _ => rfl)
  obtain ⟨out', ho', hol', hov'⟩ := C65_rows_partial maps' (fun e => mapping (getCovMean (domainRows e sd X.rows) none bias)
    (bary (ks'.map (fun k => getCovMean (domainRows k sd X.rows) none bias)))) X' sd' hX' hlen' hl' (fun _ _ => rfl)
  have zip : ∀ (f : Int → (Fin d → K) → Fin d → K) (sd : List Int) (rows out : List (Fin d → K)), sd.length = rows.length → out.length = rows.length →
      (∀ (i : Nat) (e : Int) (x : Fin d → K), sd[i]? = some e → rows[i]? = some x → out[i]? = some (f e x)) → out = List.zipWith f sd rows := by
    intro f sd rows out h1 h2 h3
    refine List.ext_getElem (by simp [h1, h2]) fun i hi1 hi2 => ?_
    have a1 : i < sd.length := by omega
    have a2 : i < rows.length := by omega
    have := h3 i sd[i] rows[i] (List.getElem?_eq_getElem a1) (List.getElem?_eq_getElem a2)
    rw [List.getElem?_eq_getElem hi1, Option.some.injEq] at this
    simpa using this
  exact ⟨_, maps, maps', out, out', hf, ho, hf', ho', zip _ _ _ _ hlen hol hov, zip _ _ _ _ hlen' hol' hov'⟩

/-- **C142, MultiLinearMonge, everything listed `c` times.** -/
theorem C142_monge_copies (bary : List (Gauss K d) → Gauss K d) (mapping : Gauss K d → Gauss K d → (Fin d → K) → Fin d → K) (bias : Bool)
    (X : NArr (Fin d → K)) (sd : List Int) (hX : X.rows ≠ []) (hlen : sd.length = X.rows.length) (hs : 0 < nSource sd) (c : Nat) (hc : 0 < c) :
    ∃ (maps maps' : List (Int × ((Fin d → K) → Fin d → K))) (out out' : NArr (Fin d → K)),
      mongeFit (fun Y => getCovMean Y none bias) bary mapping X.rows (.vec sd) = .ok maps ∧ mongeTransform maps X (.vec sd) = .ok out ∧
      mongeFit (fun Y => getCovMean Y none bias) bary mapping (copies c X.rows) (.vec (copies c sd)) = .ok maps' ∧
      mongeTransform maps' { X with rows := copies c X.rows } (.vec (copies c sd)) = .ok out' ∧ out'.rows = copies c out.rows := by
  obtain ⟨f, maps, maps', out, out', h1, h2, h3, h4, h5, h6⟩ := C142_monge bary mapping bias X { X with rows := copies c X.rows } sd (copies c sd) hX
    (Copies.ne_nil hc hX) hlen (by simp [Copies.length, hlen]) hs (fun _ => c) (fun _ => hc) (fun e => Copies.mem hc)
    (fun e => Copies.domainRows c e hlen)
  exact ⟨maps, maps', out, out', h1, h2, h3, h4, by rw [h6, h5, Copies.zipWith f c hlen]⟩

/-- Two source domains and a target domain; the first source domain is listed twice, the target domain three times. -/
example : (∀ e, e ∈ ([2, 1, -3, -3, 1, -3, 1, 1] : List Int) ↔ e ∈ ([1, 2, 1, -3] : List Int)) ∧
    ∀ e, domainRows e [2, 1, -3, -3, 1, -3, 1, 1] ([![3], ![0], ![5], ![5], ![2], ![5], ![0], ![2]] : List (Fin 1 → ℚ)) =
      copies (if e = 1 then 2 else if e = -3 then 3 else 1) (domainRows e [1, 2, 1, -3] [![0], ![3], ![2], ![5]]) := by
  refine ⟨fun e => by simp; tauto, fun e => ?_⟩
  by_cases h1 : e = 1
  · subst h1; decide +kernel
  by_cases h2 : e = -3
  · subst h2; decide +kernel
  by_cases h3 : e = 2
  · subst h3; decide +kernel
  have a1 : ¬ (1 = e) := fun h => h1 h.symm
  have a2 : ¬ (-3 = e) := fun h => h2 h.symm
  have a3 : ¬ (2 = e) := fun h => h3 h.symm
  simp [domainRows, copies, a1, a2, a3]

/-- The barycenter is the first source domain, the map is the shift of the means: every domain keeps its shift. -/
example : (do
      let maps ← mongeFit (fun Y => getCovMean Y none true) (fun gs => gs.headD (fun _ _ => 0, fun _ => 0)) (fun g b (x : Fin 1 → ℚ) i => x i - g.2 i + b.2 i)
        [![3], ![0], ![5], ![5], ![2], ![5], ![0], ![2]] (.vec [2, 1, -3, -3, 1, -3, 1, 1])
      let out ← mongeTransform maps ⟨.float, [1], [![3], ![0], ![5], ![5], ![2], ![5], ![0], ![2]]⟩ (.vec [2, 1, -3, -3, 1, -3, 1, 1])
      pure (out.rows.map (fun r => r 0)) : Py (List ℚ)) = .ok [1, 0, 1, 1, 2, 1, 0, 2] ∧
    (do
      let maps ← mongeFit (fun Y => getCovMean Y none true) (fun gs => gs.headD (fun _ _ => 0, fun _ => 0)) (fun g b (x : Fin 1 → ℚ) i => x i - g.2 i + b.2 i)
        [![0], ![3], ![2], ![5]] (.vec [1, 2, 1, -3])
      let out ← mongeTransform maps ⟨.float, [1], [![0], ![3], ![2], ![5]]⟩ (.vec [1, 2, 1, -3])
      pure (out.rows.map (fun r => r 0)) : Py (List ℚ)) = .ok [0, 1, 2, 1] := by decide +kernel

end Skada

/-
C50, C81: circular validation and mixup validation.
-/
import Verif.Props.Scorers2
import Verif.Props.Domain

namespace Skada
open Np Spec

section Circular
set_option linter.unusedSectionVars false
variable {α β : Type}

/-! ### Label encoding -/

theorem rat_eq_nat {v : ℚ} (h1 : v.den = 1) (h2 : 0 ≤ v) : v = ((v.num.toNat : Nat) : ℚ) := by
  have h3 := Rat.coe_int_num_of_den_eq_one h1
  have h4 : 0 ≤ v.num := Rat.num_nonneg.2 h2
  have h5 : ((v.num.toNat : Nat) : Int) = v.num := Int.toNat_of_nonneg h4
  have h6 : (((v.num.toNat : Nat) : Int) : ℚ) = ((v.num : Int) : ℚ) := by exact_mod_cast h5
  rw [← h3]
  exact_mod_cast h6.symm

/-- Decoding looks positions up in the class list; anything else is refused. -/
theorem decode_ok_iff (classes l r : List ℚ) :
    Score.decode classes l = .ok r ↔ List.Forall₂ (fun v c : ℚ => ∃ k : Nat, v = k ∧ classes[k]? = some c) l r := by
  unfold Score.decode
  rw [mapM_eq_ok_iff]
  have h : ∀ v c : ℚ, (if v.den = 1 ∧ 0 ≤ v then
      (match classes[v.num.toNat]? with
      | some c => (.ok c : Py ℚ)
      | none => .error .valueError)
      else .error .valueError) = .ok c ↔ ∃ k : Nat, v = k ∧ classes[k]? = some c := by
    intro v c
    constructor
    · intro h
      split_ifs at h with hv
      obtain ⟨h1, h2⟩ := hv
      have hvn := rat_eq_nat h1 h2
      cases hc : classes[v.num.toNat]? with
      | none => rw [hc] at h; simp at h
      | some d =>
        rw [hc] at h
        simp only [Except.ok.injEq] at h
        exact ⟨_, hvn, by rw [← h]; exact hc⟩
    · rintro ⟨k, rfl, hk⟩
      rw [if_pos ⟨by simp, by positivity⟩]
      have : ((k : ℚ).num).toNat = k := by simp
      rw [this, hk]
  constructor
  · intro hf
    exact hf.imp (fun v c hvc => (h v c).1 hvc)
  · intro hf
    exact hf.imp (fun v c hvc => (h v c).2 hvc)

theorem idxOf_getElem? {γ : Type} [DecidableEq γ] {l : List γ} {v : γ} (h : v ∈ l) : l[l.idxOf v]? = some v := by
  rw [List.getElem?_eq_getElem (List.idxOf_lt_length_iff.2 h)]
  simp

/-- C50 (label encoding). The predicted labels are re-encoded as positions `0, …, k-1` among the `k` sorted distinct predictions, and decoding gives every label
back. -/
theorem C50_encoding (l : List ℚ) :
    Score.decode (unique l) (Score.encode l) = .ok l ∧ (∀ v ∈ Score.encode l, ∃ k : Nat, v = k ∧ k < l.dedup.length) := by
  constructor
  · rw [decode_ok_iff]
    unfold Score.encode
    have : ∀ m : List ℚ, (∀ v ∈ m, v ∈ unique l) →
        List.Forall₂ (fun v c : ℚ => ∃ k : Nat, v = k ∧ (unique l)[k]? = some c) (m.map (fun v : ℚ => (((unique l).idxOf v : Nat) : ℚ))) m := by
      intro m hm
      induction m with
      | nil => exact .nil
      | cons a m ih =>
        exact .cons ⟨_, rfl, idxOf_getElem? (hm a List.mem_cons_self)⟩ (ih (fun v hv => hm v (List.mem_cons_of_mem _ hv)))
    exact this l (fun v hv => mem_unique.2 hv)
  · intro v hv
    obtain ⟨x, hx, rfl⟩ := List.mem_map.1 hv
    refine ⟨_, rfl, ?_⟩
    have hp : (unique l).Perm l.dedup := by
      rw [List.perm_ext_iff_of_nodup (nodup_unique _) (List.nodup_dedup _)]
      intro v; rw [mem_unique, List.mem_dedup]
    rw [← hp.length_eq]
    exact List.idxOf_lt_length_iff.2 (mem_unique.2 hx)

theorem boolFill_spec {γ : Type} (m : List Bool) (out : List γ) (v : γ) :
    (∀ x ∈ sel m (List.zipWith (fun b x => if b then v else x) m out), x = v) ∧
    sel (m.map (!·)) (List.zipWith (fun b x => if b then v else x) m out) = sel (m.map (!·)) out := by
  induction m generalizing out with
  | nil => cases out <;> simp [sel]
  | cons b m ih =>
    cases out with
    | nil => cases b <;> simp [sel]
    | cons x out =>
      obtain ⟨h1, h2⟩ := ih out
      cases b with
      | false =>
        simp only [List.zipWith_cons_cons, List.map_cons, Bool.not_false, sel]
        exact ⟨h1, by rw [h2]; rfl⟩
      | true =>
        simp only [List.zipWith_cons_cons, List.map_cons, Bool.not_true, sel]
        refine ⟨?_, h2⟩
        intro z hz
        rcases List.mem_cons.1 hz with rfl | hz
        · rfl
        · exact h1 z hz

theorem neg_source_mask {sd : List Int} (h0 : ∀ d ∈ sd, d ≠ 0) :
    (sd.map (fun d : Int => -d)).map (fun d => decide (0 ≤ d)) = sd.map (fun d => decide (d < 0)) := by
  rw [List.map_map]
  apply List.map_congr_left
  intro d hd
  have := h0 d hd
  simp only [Function.comp, decide_eq_decide]
  omega

theorem neg_target_mask (sd : List Int) (h0 : ∀ d ∈ sd, d ≠ 0) :
    (sd.map (fun d : Int => -d)).map (fun d => decide (d < 0)) = sd.map (fun d => decide (0 ≤ d)) := by
  rw [List.map_map]
  apply List.map_congr_left
  intro d hd
  have := h0 d hd
  simp only [Function.comp, decide_eq_decide]
  omega

/-- The run of the scorer when at least two different labels are predicted; no assumption on the domain labels. -/
theorem circular_run {K : Type} [Field K] [LinearOrder K] [IsStrictOrderedRing K] (gib : Bool) (scorer : List Num → List ℚ → Py K)
    (predict : List α → List Int → Py (List ℚ)) (refit : List α → List Num → List Int → List α → List Int → Py (List ℚ))
    (X : List α) (y : List Num) (sd : List Int) (hX : X ≠ []) (hy : y.length = X.length) (hs : sd.length = X.length)
    (ty0 : YType) (hm : checkYMasking y = .ok ty0) (pt : List ℚ)
    (hp : predict (targetRows sd X) (sd.filter (fun d => decide (d < 0))) = .ok pt) (hlen : pt.length = nTarget sd)
    (h2 : ∃ a ∈ pt, ∃ b ∈ pt, a ≠ b) (ty : YType) (hty : findYType (sourceRows sd y) = .ok ty) :
    ∃ yb : List Num, yb.length = X.length ∧
      targetRows sd yb = (if ty = .discrete then Score.encode pt else pt).map Num.fin ∧
      (∀ v ∈ sourceRows sd yb, v = if ty = .discrete then .fin (-1) else .nan) ∧
      Score.circular gib scorer predict refit X y (.vec sd)
        = (do
          let ps ← refit X yb (sd.map (fun d : Int => -d)) (sourceRows sd X) (sourceRows sd (sd.map (fun d : Int => -d)))
          let q ← (if ty = .discrete then Score.decode (unique pt) ps else .ok ps)
          let s ← scorer (sourceRows sd y) q
          .ok (if gib then s else -s)) := by
  have hf : targetRows sd sd = sd.filter (fun d => decide (d < 0)) := by rw [← sel_target, sel_map_self]
  set m := sd.map (fun d : Int => decide (0 ≤ d)) with hmdef
  set enc := if ty = .discrete then Score.encode pt else pt with henc
  have hel : enc.length = pt.length := by
    rw [henc]; split_ifs
    · simp [Score.encode]
    · rfl
  have hcnt : (enc.map Num.fin).length = (m.map (!·)).count true := by
    have := count_tgt sd
    rw [List.length_map, hel, hlen, ← this, hmdef, List.map_map]
    rfl
  set y1 := putMask (m.map (!·)) (y.map (fun _ => Num.fin 0)) (enc.map Num.fin) with hy1
  have hl1 : (m.map (!·)).length = (y.map (fun _ => Num.fin 0)).length := by simp [hmdef, hs, hy]
  have hy1l : y1.length = X.length := by rw [hy1, length_putMask, List.length_map, hy]
  set mask := if ty = .discrete then Num.fin (-1) else .nan with hmask
  set yb := List.zipWith (fun b x => if b then mask else x) m y1 with hyb
  obtain ⟨f1, f2⟩ := boolFill_spec m y1 mask
  refine ⟨yb, by rw [hyb, List.length_zipWith, hy1l, hmdef, List.length_map, hs, min_self], ?_, ?_, ?_⟩
  · rw [← sel_target, tgtMask_eq, ← hmdef, hyb, f2, hy1, sel_putMask_same hl1 hcnt]
  · rw [← sel_source, ← hmdef, hyb]
    exact f1
  · unfold Score.circular
    rw [checkXy_vec hX hy hs]
    simp only [ok_bind, hm]
    rw [extractSourceIndices_ok (sd_ne_nil hX hs)]
    simp only [ok_bind]
    rw [boolIndex_target hs.symm, boolIndex_target rfl, hf]
    simp only [ok_bind, hp]
    rw [boolIndex_source (hy.trans hs.symm)]
    simp only [ok_bind]
    have hu : ∀ c, unique pt ≠ [c] := by
      intro c hc
      obtain ⟨a, ha, b, hb, hab⟩ := h2
      have h3 := mem_unique.2 ha
      have h4 := mem_unique.2 hb
      rw [hc] at h3 h4
      simp only [List.mem_singleton] at h3 h4
      exact hab (h3.trans h4.symm)
    have hbody : ∀ (F : ℚ → Py K) (G : List ℚ → Py K), (match unique pt with
        | [c] => F c
        | classes => G classes) = G (unique pt) := by
      intro F G
      cases hc : unique pt with
      | nil => rfl
      | cons a l =>
        cases l with
        | nil => exact absurd hc (hu a)
        | cons b l => rfl
    refine (hbody _ _).trans ?_
    simp only [hty, ok_bind]
    rw [← henc, ← hmdef, boolAssign_ok hl1.symm hcnt]
    simp only [ok_bind]
    have hfill : boolFill y1 m mask = .ok yb := by
      unfold boolFill
      rw [if_neg (by rw [hy1l, hmdef, List.length_map, hs]; simp)]
    rw [← hy1, hfill]
    simp only [ok_bind]
    rw [hmdef, boolIndex_source hs.symm, boolIndex_source (by simp)]
    simp only [ok_bind]
    cases refit X yb (sd.map (fun d : Int => -d)) (sourceRows sd X) (sourceRows sd (sd.map (fun d : Int => -d))) with
    | error e => rfl
    | ok ps =>
      simp only [ok_bind]
      cases ty with
      | discrete =>
        simp only [if_true]
        cases Score.decode (unique pt) ps with
        | error e => rfl
        | ok q =>
          simp only [ok_bind]
          cases scorer (sourceRows sd y) q with
          | error e => rfl
          | ok s => simp only [ok_bind, signed_eq]
      | continuous =>
        simp only [reduceCtorEq, if_false, ok_bind]
        cases scorer (sourceRows sd y) ps with
        | error e => rfl
        | ok s => simp only [ok_bind, signed_eq]

/-- C50. Without a domain labelled 0, and with at least two different predicted target labels: the copy of the estimator is fitted on all rows with the domains
negated, so that the original target rows are its source rows, labelled by the predictions (encoded for classification), and the original source
rows are its target rows, all masked; the score compares the true source labels with the (decoded) predictions on exactly these rows. -/
theorem C50_swap_partial {K : Type} [Field K] [LinearOrder K] [IsStrictOrderedRing K] (gib : Bool) (scorer : List Num → List ℚ → Py K)
    (predict : List α → List Int → Py (List ℚ)) (refit : List α → List Num → List Int → List α → List Int → Py (List ℚ))
    (X : List α) (y : List Num) (sd : List Int) (hX : X ≠ []) (hy : y.length = X.length) (hs : sd.length = X.length)
    (h0 : ∀ d ∈ sd, d ≠ 0) (ty0 : YType) (hm : checkYMasking y = .ok ty0) (pt : List ℚ)
    (hp : predict (targetRows sd X) (sd.filter (fun d => decide (d < 0))) = .ok pt) (hlen : pt.length = nTarget sd)
    (h2 : ∃ a ∈ pt, ∃ b ∈ pt, a ≠ b) (ty : YType) (hty : findYType (sourceRows sd y) = .ok ty) :
    ∃ (yb : List Num) (sb : List Int), sb = sd.map (fun d : Int => -d) ∧
      sourceRows sb X = targetRows sd X ∧ targetRows sb X = sourceRows sd X ∧
      sourceRows sb yb = (if ty = .discrete then Score.encode pt else pt).map Num.fin ∧
      (∀ v ∈ targetRows sb yb, v = if ty = .discrete then .fin (-1) else .nan) ∧
      Score.circular gib scorer predict refit X y (.vec sd)
        = (do
          let ps ← refit X yb sb (targetRows sb X) (targetRows sb sb)
          let q ← (if ty = .discrete then Score.decode (unique pt) ps else .ok ps)
          let s ← scorer (sourceRows sd y) q
          .ok (if gib then s else -s)) := by
  obtain ⟨yb, -, e1, e2, e3⟩ := circular_run gib scorer predict refit X y sd hX hy hs ty0 hm pt hp hlen h2 ty hty
  have hsrc : ∀ {γ : Type} (a : List γ), sourceRows (sd.map (fun d : Int => -d)) a = targetRows sd a := by
    intro γ a
    rw [← sel_source, ← sel_target, neg_source_mask h0]
  have htgt : ∀ {γ : Type} (a : List γ), targetRows (sd.map (fun d : Int => -d)) a = sourceRows sd a := by
    intro γ a
    rw [← sel_source, ← sel_target, neg_target_mask sd h0]
  refine ⟨yb, _, rfl, hsrc X, htgt X, by rw [hsrc]; exact e1, by rw [htgt]; exact e2, ?_⟩
  rw [htgt, htgt]
  exact e3

/-- C50 (negation for domain 0). If a source domain is labelled 0, its rows stay source rows of the backward problem (since `-0 = 0`), so the copy of the
estimator is trained on source rows carrying the mask as their label. This holds for every data set with a domain 0. -/
theorem C50_domain_zero_counterexample {K : Type} [Field K] [LinearOrder K] [IsStrictOrderedRing K] (gib : Bool)
    (scorer : List Num → List ℚ → Py K) (predict : List α → List Int → Py (List ℚ))
    (refit : List α → List Num → List Int → List α → List Int → Py (List ℚ)) (X : List α) (y : List Num) (sd : List Int) (hX : X ≠ [])
    (hy : y.length = X.length) (hs : sd.length = X.length) (h0 : (0 : Int) ∈ sd) (ty0 : YType) (hm : checkYMasking y = .ok ty0)
    (pt : List ℚ) (hp : predict (targetRows sd X) (sd.filter (fun d => decide (d < 0))) = .ok pt) (hlen : pt.length = nTarget sd)
    (h2 : ∃ a ∈ pt, ∃ b ∈ pt, a ≠ b) (ty : YType) (hty : findYType (sourceRows sd y) = .ok ty) :
    ∃ (yb : List Num) (sb : List Int), (if ty = .discrete then Num.fin (-1) else .nan) ∈ sourceRows sb yb ∧
      Score.circular gib scorer predict refit X y (.vec sd)
        = (do
          let ps ← refit X yb sb (sourceRows sd X) (sourceRows sd sb)
          let q ← (if ty = .discrete then Score.decode (unique pt) ps else .ok ps)
          let s ← scorer (sourceRows sd y) q
          .ok (if gib then s else -s)) := by
  obtain ⟨yb, e0, -, e2, e3⟩ := circular_run gib scorer predict refit X y sd hX hy hs ty0 hm pt hp hlen h2 ty hty
  refine ⟨yb, _, ?_, e3⟩
  obtain ⟨i, hi, hz⟩ := List.mem_iff_getElem.1 h0
  have hyi : i < yb.length := by rw [e0, ← hs]; exact hi
  have hmem : ∀ (sd' : List Int) (a : List Num) (i : Nat) (d : Int) (v : Num), sd'[i]? = some d → a[i]? = some v → 0 ≤ d → v ∈ sourceRows sd' a := by
    intro sd' a i d v h1 h2 h3
    unfold sourceRows
    refine List.mem_map.2 ⟨(d, v), List.mem_filter.2 ⟨?_, by simpa using h3⟩, rfl⟩
    have : (sd'.zip a)[i]? = some (d, v) := by
      rw [List.getElem?_zip_eq_some]; exact ⟨h1, h2⟩
    exact List.mem_of_getElem? this
  have hv := e2 yb[i] (hmem sd yb i 0 _ (by rw [List.getElem?_eq_getElem hi, hz]) (List.getElem?_eq_getElem hyi) le_rfl)
  rw [← hv]
  refine hmem _ yb i 0 _ ?_ (List.getElem?_eq_getElem hyi) le_rfl
  rw [List.getElem?_map, List.getElem?_eq_getElem hi, hz]
  rfl

/-- C50 (negation for whole-number regression targets). A regression problem (target labels NaN) whose source targets happen to be whole numbers is treated as
classification: the backward problem masks with the class label -1, contains no NaN, and the estimator's regression outputs are refused with `ValueError`
unless they all are positions in the class list. -/
theorem C50_regression_counterexample {K : Type} [Field K] [LinearOrder K] [IsStrictOrderedRing K] (gib : Bool)
    (scorer : List Num → List ℚ → Py K) (predict : List α → List Int → Py (List ℚ))
    (refit : List α → List Num → List Int → List α → List Int → Py (List ℚ)) (X : List α) (y : List Num) (sd : List Int) (hX : X ≠ [])
    (hy : y.length = X.length) (hs : sd.length = X.length) (hnan : Num.nan ∈ y)
    (hint : ∀ v ∈ sourceRows sd y, ∃ n : Int, v = .fin n)
    (pt : List ℚ) (hp : predict (targetRows sd X) (sd.filter (fun d => decide (d < 0))) = .ok pt) (hlen : pt.length = nTarget sd)
    (h2 : ∃ a ∈ pt, ∃ b ∈ pt, a ≠ b)
    (hreg : ∀ yb sb, ∃ ps, refit X yb sb (sourceRows sd X) (sourceRows sd sb) = .ok ps ∧ ∃ v ∈ ps, ∀ k : Nat, v ≠ k) :
    Score.circular gib scorer predict refit X y (.vec sd) = .error .valueError := by
  have hm : checkYMasking y = .ok .continuous := by
    unfold checkYMasking
    rw [findYType_nan hnan]
    simp only
    rw [if_pos (List.any_eq_true.2 ⟨_, hnan, rfl⟩)]
  obtain ⟨yb, -, -, -, e3⟩ := circular_run gib scorer predict refit X y sd hX hy hs _ hm pt hp hlen h2 .discrete (findYType_discrete hint)
  rw [e3]
  obtain ⟨ps, hps, v, hv, hk⟩ := hreg yb (sd.map (fun d : Int => -d))
  rw [hps]
  simp only [ok_bind, if_true]
  have : Score.decode (unique pt) ps = .error .valueError := by
    unfold Score.decode
    apply mapM_error
    · intro w _
      split_ifs
      · cases (unique pt)[w.num.toNat]? <;> simp
      · simp
    · refine ⟨v, hv, ?_⟩
      rw [if_neg]
      rintro ⟨h1, h2⟩
      apply hk v.num.toNat
      exact rat_eq_nat h1 h2
  rw [this]
  rfl

/-- C50 (constant predictions). If all target rows are predicted as the same class `c`, nothing is fitted and the true source labels are compared with `c`
everywhere. -/
theorem C50_constant {K : Type} [Field K] [LinearOrder K] [IsStrictOrderedRing K] (gib : Bool) (scorer : List Num → List ℚ → Py K)
    (predict : List α → List Int → Py (List ℚ)) (refit : List α → List Num → List Int → List α → List Int → Py (List ℚ))
    (X : List α) (y : List Num) (sd : List Int) (hX : X ≠ []) (hy : y.length = X.length) (hs : sd.length = X.length)
    (ty0 : YType) (hm : checkYMasking y = .ok ty0) (pt : List ℚ) (c : ℚ)
    (hp : predict (targetRows sd X) (sd.filter (fun d => decide (d < 0))) = .ok pt) (hne : pt ≠ []) (hc : ∀ v ∈ pt, v = c) :
    Score.circular gib scorer predict refit X y (.vec sd)
      = (scorer (sourceRows sd y) (List.replicate (nSource sd) c)).map (fun s => if gib then s else -s) := by
  have hf : targetRows sd sd = sd.filter (fun d => decide (d < 0)) := by rw [← sel_target, sel_map_self]
  have hu : unique pt = [c] := by
    cases h : unique pt with
    | nil => exact absurd (unique_eq_nil.1 h) hne
    | cons a l =>
      have ha : a = c := hc a (mem_unique.1 (by rw [h]; exact List.mem_cons_self))
      cases l with
      | nil => rw [ha]
      | cons b l =>
        have hb : b = c := hc b (mem_unique.1 (by rw [h]; simp))
        have := nodup_unique pt
        rw [h, ha, hb] at this
        simp at this
  unfold Score.circular
  rw [checkXy_vec hX hy hs]
  simp only [ok_bind, hm]
  rw [extractSourceIndices_ok (sd_ne_nil hX hs)]
  simp only [ok_bind]
  rw [boolIndex_target hs.symm, boolIndex_target rfl, hf]
  simp only [ok_bind, hp]
  rw [boolIndex_source (hy.trans hs.symm)]
  simp only [ok_bind, hu]
  have hl : (sourceRows sd y).map (fun _ => c) = List.replicate (nSource sd) c := by
    rw [List.map_const', length_sourceRows (hs.trans hy.symm)]
  rw [hl]
  cases scorer (sourceRows sd y) (List.replicate (nSource sd) c) with
  | error e => rfl
  | ok s => simp only [ok_bind, signed_eq]; rfl

/-- C50 (labels must be masked). Labels that are not masked are refused with `ValueError`. -/
theorem C50_unmasked {K : Type} [Field K] [LinearOrder K] [IsStrictOrderedRing K] (gib : Bool) (scorer : List Num → List ℚ → Py K)
    (predict : List α → List Int → Py (List ℚ)) (refit : List α → List Num → List Int → List α → List Int → Py (List ℚ))
    (X : List α) (y : List Num) (sd : List Int) (hX : X ≠ []) (hy : y.length = X.length) (hs : sd.length = X.length)
    (hint : ∀ v ∈ y, ∃ n : Int, 0 ≤ n ∧ v = .fin n) :
    Score.circular gib scorer predict refit X y (.vec sd) = .error .valueError := by
  have hm : checkYMasking y = .error .valueError := by
    unfold checkYMasking
    rw [findYType_discrete (fun v hv => by obtain ⟨n, -, h⟩ := hint v hv; exact ⟨n, h⟩)]
    simp only
    rw [if_pos]
    rw [Bool.or_eq_true]
    right
    rw [Bool.not_eq_true', List.any_eq_false]
    intro v hv
    obtain ⟨n, hn, rfl⟩ := hint v hv
    simp only [Num.eqNegOne]
    have : (n : ℚ) ≠ -1 := by
      intro h
      have : n = -1 := by exact_mod_cast h
      omega
    simpa using this
  unfold Score.circular
  rw [checkXy_vec hX hy hs]
  simp only [ok_bind, hm]
  rfl

example : Score.circular true (fun ys ps => .ok (ps.sum + (ys.length : ℚ))) (fun X _ => .ok X)
    (fun _ yb sb X' _ => .ok (X'.map (fun _ => if (List.zip yb sb).length = 4 then (1 : ℚ) else 0))) [10, 20, 5, 7]
    [.fin 0, .fin 1, .fin (-1), .fin (-1)] (.vec [1, 1, -2, -2]) = .ok 16 := by decide +kernel

end Circular
end Skada

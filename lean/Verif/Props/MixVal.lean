/-
C81: the mixup validation scorer.
-/
import Verif.Props.Scorers2
import Verif.Props.Domain

namespace Skada
open Np Spec

section MixVal
set_option linter.unusedSectionVars false
variable {β : Type} [DecidableEq β]
variable {K : Type} [Field K] [LinearOrder K] [IsStrictOrderedRing K]

namespace Spec

/-- The batch scored for the positions `idx`: row `i` is `α x_i + (1 - α) x_{π(i)}`, its label the predicted label of the row with the larger share
(of row `i` for a tie). -/
structure MixedBatch (alpha : K) (Xt : List (List K)) (la : List β) (perm idx : List Nat) (m : List (List K)) (l : List β) : Prop where
  rows : List.Forall₂ (fun i row => ∃ (j : Nat) (a b : List K), perm[i]? = some j ∧ Xt[i]? = some a ∧ Xt[j]? = some b ∧
    row = List.zipWith (fun u v => alpha * u + (1 - alpha) * v) a b) idx m
  labels : List.Forall₂ (fun i v => ∃ j : Nat, perm[i]? = some j ∧ (if 1 / 2 ≤ alpha then la[i]? else la[j]?) = some v) idx l

/-- The score of one batch: NaN when it is empty; otherwise the wrapped scorer, all rows in domain -1. -/
def batchScore (scorer : List (List K) → List β → List Int → Py K) (m : List (List K)) (l : List β) : Py (Option K) :=
  if m = [] then .ok none else (scorer m l (List.replicate m.length (-1))).map some

end Spec

theorem zipWith_getElem?_some {γ δ ε : Type} {f : γ → δ → ε} {a : List γ} {b : List δ} {i : Nat} {c : ε} :
    (List.zipWith f a b)[i]? = some c ↔ ∃ x y, a[i]? = some x ∧ b[i]? = some y ∧ f x y = c := by
  rw [List.getElem?_zipWith]
  cases a[i]? <;> cases b[i]? <;> simp

theorem take_getElem? {γ : Type} {a r : List γ} {idx : List Nat} (h : take a idx = .ok r) (i : Nat) (x : γ) :
    r[i]? = some x ↔ ∃ j : Nat, idx[i]? = some j ∧ a[j]? = some x := by
  rw [take_ok_iff] at h
  have hl := h.length_eq
  rw [List.forall₂_iff_get] at h
  constructor
  · intro hx
    have hi : i < r.length := by
      by_contra hc
      rw [List.getElem?_eq_none (by omega)] at hx; simp at hx
    have := h.2 i (by omega) hi
    simp only [List.get_eq_getElem] at this
    rw [List.getElem?_eq_getElem hi, Option.some.injEq] at hx
    exact ⟨idx[i], List.getElem?_eq_getElem (by omega), by rw [this, hx]⟩
  · rintro ⟨j, hj, hx⟩
    have hi : i < idx.length := by
      by_contra hc
      rw [List.getElem?_eq_none (by omega)] at hj; simp at hj
    have := h.2 i hi (by omega)
    simp only [List.get_eq_getElem] at this
    rw [List.getElem?_eq_getElem hi, Option.some.injEq] at hj
    rw [hj, hx] at this
    rw [List.getElem?_eq_getElem (by omega), this]

/-- One batch of the model is a `MixedBatch`. -/
theorem ice_ok (alpha : K) (scorer : List (List K) → List β → List Int → Py K) (Xt Xp : List (List K)) (la lb : List β) (perm idx : List Nat)
    (hXp : take Xt perm = .ok Xp) (hlb : take la perm = .ok lb) (hpl : perm.length = Xt.length) (hll : la.length = Xt.length)
    (hidx : ∀ i ∈ idx, i < Xt.length) :
    ∃ m l, MixedBatch alpha Xt la perm idx m l ∧ (m = [] ↔ idx = []) ∧
      Score.ice scorer (List.zipWith (List.zipWith (fun a b => alpha * a + (1 - alpha) * b)) Xt Xp) (if 1 / 2 ≤ alpha then la else lb) idx
        = batchScore scorer m l := by
  have hXpl : Xp.length = perm.length := by
    rw [take_ok_iff] at hXp; exact hXp.length_eq.symm
  have hlbl : lb.length = perm.length := by
    rw [take_ok_iff] at hlb; exact hlb.length_eq.symm
  set mix := List.zipWith (List.zipWith (fun a b => alpha * a + (1 - alpha) * b)) Xt Xp with hmix
  set lab := if 1 / 2 ≤ alpha then la else lb with hlab
  obtain ⟨m, hm⟩ := take_ok_of_lt (a := mix) (idx := idx) (fun i hi => by
    rw [hmix, List.length_zipWith, hXpl, hpl, min_self]; exact hidx i hi)
  obtain ⟨l, hl⟩ := take_ok_of_lt (a := lab) (idx := idx) (fun i hi => by
    rw [hlab]; split_ifs
    · rw [hll]; exact hidx i hi
    · rw [hlbl, hpl]; exact hidx i hi)
  refine ⟨m, l, ⟨?_, ?_⟩, ?_, ?_⟩
  · rw [take_ok_iff] at hm
    refine hm.imp ?_
    intro i row hrow
    rw [hmix, zipWith_getElem?_some] at hrow
    obtain ⟨a, b, h1, h2, h3⟩ := hrow
    obtain ⟨j, hj, hb⟩ := (take_getElem? hXp i b).1 h2
    exact ⟨j, a, b, hj, h1, hb, h3.symm⟩
  · have hmem := hl
    rw [take_ok_iff] at hl
    rw [List.forall₂_iff_get] at hl ⊢
    refine ⟨hl.1, fun k h1 h2 => ?_⟩
    have h3 := hl.2 k h1 h2
    simp only [List.get_eq_getElem] at h3 ⊢
    have hlt : idx[k] < perm.length := by rw [hpl]; exact hidx _ (List.getElem_mem _)
    refine ⟨perm[idx[k]], List.getElem?_eq_getElem hlt, ?_⟩
    rw [hlab] at h3
    by_cases hal : 1 / 2 ≤ alpha
    · rw [if_pos hal] at h3 ⊢; exact h3
    · rw [if_neg hal] at h3 ⊢
      obtain ⟨j, hj, hx⟩ := (take_getElem? hlb _ _).1 h3
      rw [List.getElem?_eq_getElem hlt, Option.some.injEq] at hj
      rw [hj]; exact hx
  · have := (take_ok_iff.1 hm).length_eq
    constructor
    · intro h; rw [h] at this; exact List.length_eq_zero_iff.1 (by simpa using this)
    · intro h; rw [h] at this; exact List.length_eq_zero_iff.1 (by simpa using this.symm)
  · have hlen := (take_ok_iff.1 hm).length_eq
    unfold Score.ice batchScore
    by_cases h : idx = []
    · have : m = [] := by rw [h] at hlen; exact List.length_eq_zero_iff.1 (by simpa using hlen.symm)
      rw [if_pos h, if_pos this]
    · have : m ≠ [] := by
        intro h'; rw [h'] at hlen
        exact h (List.length_eq_zero_iff.1 (by simpa using hlen))
      rw [if_neg h, if_neg this, hm, hl]
      simp only [ok_bind, List.map_const']
      rw [hlen]
      cases scorer m l (List.replicate m.length (-1)) with
      | error e => rfl
      | ok s => rfl

/-- C81. For all data, mixing factors and shuffles `π` of the target rows. The positions are divided into those where row `i` and row `π(i)` have the same predicted
label and those where the labels differ. The scored rows are the mixtures of rows `i` and `π(i)`, labelled by the dominating row.
'intra' is the score of the first group, 'inter' of the second (NaN if the group is empty), 'both' the mean of the two, or the only one that
exists; it is never NaN. -/
theorem C81_mixval (gib : Bool) (alpha : K) (scorer : List (List K) → List β → List Int → Py K)
    (predict : List (List K) → List Int → Py (List β)) (perm : List Nat) (X : List (List K)) (y : List Num) (sd : List Int) (hX : X ≠ [])
    (hy : y.length = X.length) (hs : sd.length = X.length) (hty : findYType y = .ok .discrete) (hn : 0 < nTarget sd)
    (hperm : perm.Perm (List.range (nTarget sd))) (la : List β)
    (hp : predict (targetRows sd X) (sd.filter (fun d => decide (d < 0))) = .ok la) (hla : la.length = nTarget sd) :
    ∃ (same diff : List Nat) (m m' : List (List K)) (l l' : List β),
      same.Pairwise (· < ·) ∧ diff.Pairwise (· < ·) ∧
      (∀ i, i ∈ same ↔ ∃ (j : Nat) (v : β), perm[i]? = some j ∧ la[i]? = some v ∧ la[j]? = some v) ∧
      (∀ i, i ∈ diff ↔ ∃ (j : Nat) (v w : β), perm[i]? = some j ∧ la[i]? = some v ∧ la[j]? = some w ∧ v ≠ w) ∧
      MixedBatch alpha (targetRows sd X) la perm same m l ∧ MixedBatch alpha (targetRows sd X) la perm diff m' l' ∧
      ¬ (m = [] ∧ m' = []) ∧
      Score.mixVal gib alpha .intra scorer predict perm X y (.vec sd)
        = (batchScore scorer m l).map (Option.map (fun s => if gib then s else -s)) ∧
      Score.mixVal gib alpha .inter scorer predict perm X y (.vec sd)
        = (batchScore scorer m' l').map (Option.map (fun s => if gib then s else -s)) ∧
      (∀ s s', m ≠ [] → m' ≠ [] → batchScore scorer m l = .ok (some s) → batchScore scorer m' l' = .ok (some s') →
        Score.mixVal gib alpha .both scorer predict perm X y (.vec sd) = .ok (some (if gib then (s + s') / 2 else -((s + s') / 2)))) ∧
      (∀ s, m ≠ [] → m' = [] → batchScore scorer m l = .ok (some s) →
        Score.mixVal gib alpha .both scorer predict perm X y (.vec sd) = .ok (some (if gib then s else -s))) ∧
      (∀ s', m = [] → m' ≠ [] → batchScore scorer m' l' = .ok (some s') →
        Score.mixVal gib alpha .both scorer predict perm X y (.vec sd) = .ok (some (if gib then s' else -s'))) := by
  have hf : targetRows sd sd = sd.filter (fun d => decide (d < 0)) := by rw [← sel_target, sel_map_self]
  set Xt := targetRows sd X with hXt
  have hXtl : Xt.length = nTarget sd := by rw [hXt, length_targetRows hs]
  have hpl : perm.length = nTarget sd := by rw [hperm.length_eq, List.length_range]
  have hplt : ∀ i ∈ perm, i < nTarget sd := fun i hi => by simpa using hperm.mem_iff.1 hi
  obtain ⟨lb, hlb⟩ := take_ok_of_lt (a := la) (idx := perm) (fun i hi => by rw [hla]; exact hplt i hi)
  obtain ⟨Xp, hXp⟩ := take_ok_of_lt (a := Xt) (idx := perm) (fun i hi => by rw [hXtl]; exact hplt i hi)
  have hlbl : lb.length = nTarget sd := by rw [take_ok_iff] at hlb; rw [← hlb.length_eq, hpl]
  set same := flatnonzero (List.zipWith (fun a b => decide (a = b)) la lb) with hsame
  set diff := flatnonzero (List.zipWith (fun a b => decide (a ≠ b)) la lb) with hdiff
  have memS : ∀ i, i ∈ same ↔ ∃ (j : Nat) (v : β), perm[i]? = some j ∧ la[i]? = some v ∧ la[j]? = some v := by
    intro i
    rw [hsame, mem_flatnonzero, zipWith_getElem?_some]
    constructor
    · rintro ⟨v, w, h1, h2, h3⟩
      obtain ⟨j, hj, hw⟩ := (take_getElem? hlb i w).1 h2
      have : v = w := by simpa using h3
      exact ⟨j, v, hj, h1, by rw [this]; exact hw⟩
    · rintro ⟨j, v, h1, h2, h3⟩
      exact ⟨v, v, h2, (take_getElem? hlb i v).2 ⟨j, h1, h3⟩, by simp⟩
  have memD : ∀ i, i ∈ diff ↔ ∃ (j : Nat) (v w : β), perm[i]? = some j ∧ la[i]? = some v ∧ la[j]? = some w ∧ v ≠ w := by
    intro i
    rw [hdiff, mem_flatnonzero, zipWith_getElem?_some]
    constructor
    · rintro ⟨v, w, h1, h2, h3⟩
      obtain ⟨j, hj, hw⟩ := (take_getElem? hlb i w).1 h2
      exact ⟨j, v, w, hj, h1, hw, by simpa using h3⟩
    · rintro ⟨j, v, w, h1, h2, h3, h4⟩
      exact ⟨v, w, h2, (take_getElem? hlb i w).2 ⟨j, h1, h3⟩, by simpa using h4⟩
  have ltS : ∀ i ∈ same, i < Xt.length := by
    intro i hi
    obtain ⟨j, v, h1, -, -⟩ := (memS i).1 hi
    rw [hXtl, ← hpl]
    by_contra hc
    rw [List.getElem?_eq_none (by omega)] at h1; simp at h1
  have ltD : ∀ i ∈ diff, i < Xt.length := by
    intro i hi
    obtain ⟨j, v, w, h1, -, -, -⟩ := (memD i).1 hi
    rw [hXtl, ← hpl]
    by_contra hc
    rw [List.getElem?_eq_none (by omega)] at h1; simp at h1
  obtain ⟨m, l, hb, hne, hice⟩ := ice_ok alpha scorer Xt Xp la lb perm same hXp hlb (by rw [hpl, hXtl]) (by rw [hla, hXtl]) ltS
  obtain ⟨m', l', hb', hne', hice'⟩ := ice_ok alpha scorer Xt Xp la lb perm diff hXp hlb (by rw [hpl, hXtl]) (by rw [hla, hXtl]) ltD
  have hrun : ∀ kind, Score.mixVal gib alpha kind scorer predict perm X y (.vec sd) = (do
      let s ← (if kind = .inter then .ok none else batchScore scorer m l)
      let d ← (if kind = .intra then .ok none else batchScore scorer m' l')
      .ok ((match kind with
        | .both => Score.nanmean2 s d
        | .intra => s
        | .inter => d).map (Score.signed gib))) := by
    intro kind
    unfold Score.mixVal
    rw [checkXy_vec hX hy hs]
    simp only [ok_bind]
    rw [extractSourceIndices_ok (sd_ne_nil hX hs)]
    simp only [ok_bind]
    rw [boolIndex_target hs.symm, boolIndex_target rfl, hf]
    simp only [ok_bind, hty]
    rw [← hXt, hp]
    simp only [ok_bind, hlb, hXp]
    rw [← hsame, ← hdiff, hice, hice']
    cases kind <;> rfl
  refine ⟨same, diff, m, m', l, l', pairwise_flatnonzero _, pairwise_flatnonzero _, memS, memD, hb, hb', ?_, ?_, ?_, ?_, ?_, ?_⟩
  · rintro ⟨h1, h2⟩
    have e1 := hne.1 h1
    have e2 := hne'.1 h2
    obtain ⟨j, hj⟩ : ∃ j, perm[0]? = some j := ⟨_, List.getElem?_eq_getElem (by omega : 0 < perm.length)⟩
    have hjlt := hplt j (List.mem_of_getElem? hj)
    obtain ⟨v, hv⟩ : ∃ v, la[0]? = some v := ⟨_, List.getElem?_eq_getElem (by omega : 0 < la.length)⟩
    obtain ⟨w, hw⟩ : ∃ w, la[j]? = some w := ⟨_, List.getElem?_eq_getElem (by omega : j < la.length)⟩
    by_cases hvw : v = w
    · have := (memS 0).2 ⟨j, v, hj, hv, hvw ▸ hw⟩
      rw [e1] at this; simp at this
    · have := (memD 0).2 ⟨j, v, w, hj, hv, hw, hvw⟩
      rw [e2] at this; simp at this
  · rw [hrun]
    simp only [reduceCtorEq, if_false, if_true, ok_bind]
    cases batchScore scorer m l with
    | error e => rfl
    | ok s => simp only [ok_bind, Except.map]; congr 2; funext x; exact signed_eq gib x
  · rw [hrun]
    simp only [reduceCtorEq, if_false, if_true, ok_bind]
    cases batchScore scorer m' l' with
    | error e => rfl
    | ok s => simp only [ok_bind, Except.map]; congr 2; funext x; exact signed_eq gib x
  · intro s s' _ _ h1 h2
    rw [hrun, h1, h2]
    simp only [reduceCtorEq, if_false, ok_bind, Score.nanmean2, Option.map_some, signed_eq]
  · intro s _ h0 h1
    have h2 : batchScore scorer m' l' = .ok none := by unfold batchScore; rw [if_pos h0]
    rw [hrun, h1, h2]
    simp only [reduceCtorEq, if_false, ok_bind, Score.nanmean2, Option.map_some, signed_eq]
  · intro s h0 _ h1
    have h2 : batchScore scorer m l = .ok none := by unfold batchScore; rw [if_pos h0]
    rw [hrun, h1, h2]
    simp only [reduceCtorEq, if_false, ok_bind, Score.nanmean2, Option.map_some, signed_eq]

/-- C81 (own labels). For `α ≥ 1/2` every scored row of the group with equal labels carries the label predicted for both of its parents. -/
theorem C81_intra_labels (alpha : K) (Xt : List (List K)) (la : List β) (perm idx : List Nat) (m : List (List K)) (l : List β)
    (h : MixedBatch alpha Xt la perm idx m l)
    (hi : ∀ i ∈ idx, ∃ (j : Nat) (v : β), perm[i]? = some j ∧ la[i]? = some v ∧ la[j]? = some v) :
    List.Forall₂ (fun i v => ∃ j : Nat, perm[i]? = some j ∧ la[i]? = some v ∧ la[j]? = some v) idx l := by
  have hlab := h.labels
  rw [List.forall₂_iff_get] at hlab ⊢
  refine ⟨hlab.1, fun k h1 h2 => ?_⟩
  obtain ⟨j, hj, hv⟩ := hlab.2 k h1 h2
  simp only [List.get_eq_getElem] at hj hv ⊢
  obtain ⟨j', v, a, b, c⟩ := hi _ (List.getElem_mem h1)
  rw [hj] at a
  injection a with a
  subst a
  split_ifs at hv with hal
  · rw [b] at hv; injection hv with hv; rw [← hv]; exact ⟨j, hj, b, c⟩
  · rw [c] at hv; injection hv with hv; rw [← hv]; exact ⟨j, hj, b, c⟩

/-- C81 (arguments). Regression labels are refused with `ValueError`, as is an `ice_type` other than both, intra, inter. -/
theorem C81_errors (gib : Bool) (alpha : K) (kind : Score.Ice) (scorer : List (List K) → List β → List Int → Py K)
    (predict : List (List K) → List Int → Py (List β)) (perm : List Nat) (X : List (List K)) (y : List Num) (sd : List Int) (hX : X ≠ [])
    (hy : y.length = X.length) (hs : sd.length = X.length) (hty : findYType y = .ok .continuous) :
    Score.mixVal gib alpha kind scorer predict perm X y (.vec sd) = .error .valueError ∧
    ∀ s : String, s ≠ "both" → s ≠ "intra" → s ≠ "inter" → Score.iceOf s = .error .valueError := by
  constructor
  · unfold Score.mixVal
    rw [checkXy_vec hX hy hs]
    simp only [ok_bind]
    rw [extractSourceIndices_ok (sd_ne_nil hX hs)]
    simp only [ok_bind]
    rw [boolIndex_target hs.symm]
    simp only [ok_bind, hty]
  · intro s h1 h2 h3
    unfold Score.iceOf
    rw [if_neg h1, if_neg h2, if_neg h3]

example : Score.mixVal true (3 / 4) .both (fun m l sd => .ok ((m.flatten.sum : ℚ) + 10 * (l.sum : ℚ) + 100 * (sd.length : ℚ)))
    (fun X _ => .ok (X.map (fun r => if r.sum < 3 then (0 : ℚ) else 1))) [2, 0, 1] [[9], [1], [2], [4]] [.fin 0, .fin (-1), .fin (-1), .fin (-1)]
    (.vec [1, -2, -2, -2]) = .ok (some (317 / 2 : ℚ)) := by decide +kernel

end MixVal
end Skada

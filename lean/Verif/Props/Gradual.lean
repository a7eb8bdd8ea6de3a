/-
Properties of gradual domain adaptation: C40 (interpolation) and C75 (training).
-/
import Verif.Props.SelfLabel

namespace Skada
open Np Spec RW Map SL

/-! ### C40: gradual interpolation -/

section Cut
set_option linter.unusedSectionVars false
variable {K : Type} [Field K] [LinearOrder K] [IsStrictOrderedRing K]

/-- In an ascending list, the entries at least as large as the one at position `p`: those from `p` on, and the copies of it before. -/
theorem countP_sorted (l : List K) (hs : l.Pairwise (· ≤ ·)) (p : Nat) (t : K) (hp : l[p]? = some t) :
    l.countP (fun v => decide (t ≤ v)) = (l.length - p) + (l.take p).count t := by
  have hlt : p < l.length := by
    by_contra h; rw [List.getElem?_eq_none (by omega)] at hp; simp at hp
  have ht : l[p] = t := by rw [List.getElem?_eq_getElem hlt] at hp; exact Option.some.inj hp
  have h1 : (l.drop p).countP (fun v => decide (t ≤ v)) = l.length - p := by
    have : (l.drop p).countP (fun v => decide (t ≤ v)) = (l.drop p).length := by
      rw [List.countP_eq_length]
      intro v hv
      obtain ⟨q, hq, he⟩ := List.getElem_of_mem hv
      rw [List.getElem_drop] at he
      rw [List.length_drop] at hq
      rcases Nat.eq_zero_or_pos q with h0 | h0
      · subst h0; simp at he; simp [← he, ht]
      · have := List.pairwise_iff_getElem.1 hs p (p + q) hlt (by omega) (by omega)
        rw [he, ht] at this
        simpa using this
    rw [this, List.length_drop]
  have h2 : (l.take p).countP (fun v => decide (t ≤ v)) = (l.take p).count t := by
    unfold List.count
    apply List.countP_congr
    intro v hv
    obtain ⟨q, hq, he⟩ := List.getElem_of_mem hv
    rw [List.length_take] at hq
    rw [List.getElem_take] at he
    have := List.pairwise_iff_getElem.1 hs q p (by omega) hlt (by omega)
    rw [he, ht] at this
    simp only [decide_eq_true_eq, beq_iff_eq]
    exact ⟨fun h => le_antisymm this h, fun h => h ▸ le_refl _⟩
  conv_lhs => rw [← List.take_append_drop p l, List.countP_append, h1, h2]
  omega

/-- The number of retained entries and the threshold of the simple cut-off: the threshold is the `(M + 1)`-th largest entry. -/
def Spec.kept (gamma : List (List K)) (t : K) : Nat := gamma.flatten.countP (fun v => decide (t ≤ v))

theorem count_mask (gamma : List (List K)) (t : K) :
    (gamma.map (fun r => r.map (fun v => decide (t ≤ v)))).flatten.count true = kept gamma t := by
  unfold kept
  rw [← List.map_flatten, count_map_true]

theorem trunc_of_nonneg {x : ℚ} (h : 0 ≤ x) : (trunc x) = ((⌊x⌋.toNat : Nat) : Int) := by
  rw [trunc, if_pos h, Int.toNat_of_nonneg (Int.floor_nonneg.2 h)]

/-- `max_index` of the simple cut-off. -/
def Spec.cutIndex (alpha : ℚ) (n m : Nat) : Nat := min ⌊alpha * (n + m)⌋.toNat (n * m - 1)

theorem cutIndex_eq (alpha : ℚ) (n m : Nat) (ha : 0 ≤ alpha) (hnm : 0 < n * m) :
    trunc (min (alpha * ((n : ℚ) + m)) (((n * m : Nat) : ℚ) - 1)) = (cutIndex alpha n m : Int) := by
  have h1 : (0 : ℚ) ≤ alpha * ((n : ℚ) + m) := mul_nonneg ha (by positivity)
  have h2 : (0 : ℚ) ≤ ((n * m : Nat) : ℚ) - 1 := by
    have : (1 : ℚ) ≤ ((n * m : Nat) : ℚ) := by exact_mod_cast hnm
    linarith
  have e2 : (((n * m : Nat) : ℚ) - 1) = (((n * m - 1 : Nat)) : ℚ) := by
    rw [Nat.cast_sub (by omega)]; simp
  rw [trunc_of_nonneg (le_min h1 h2), e2]
  congr 1
  unfold cutIndex
  rcases le_total (alpha * ((n : ℚ) + m)) (((n * m - 1 : Nat)) : ℚ) with h | h
  · rw [min_eq_left h]
    have : ⌊alpha * ((n : ℚ) + m)⌋ ≤ ((n * m - 1 : Nat) : Int) := by
      have := Int.floor_mono h
      rwa [Int.floor_natCast] at this
    omega
  · rw [min_eq_right h, Int.floor_natCast]
    have : ((n * m - 1 : Nat) : Int) ≤ ⌊alpha * ((n : ℚ) + m)⌋ := by
      rw [Int.le_floor]; exact_mod_cast h
    omega

/-- C40 (threshold). For `alpha ≥ 0` and a non-empty `n × m` coupling the simple strategy keeps the entries that are at least the
`(M + 1)`-th largest, `M = min(⌊alpha (n + m)⌋, n m - 1)`: at least `M + 1` of them, and exactly `M + 1` if and only if the
threshold value does not occur among the `n m - M - 1` entries below it in sorted order. -/
theorem C40_threshold (alpha : ℚ) (m : Nat) (gamma : List (List K)) (ha : 0 ≤ alpha) (hm : ∀ r ∈ gamma, r.length = m)
    (hne : 0 < gamma.length * m) :
    ∃ (sorted : List K) (t : K), sorted.Perm gamma.flatten ∧ sorted.Pairwise (· ≤ ·) ∧
      sorted[gamma.length * m - cutIndex alpha gamma.length m - 1]? = some t ∧
      cutOff alpha m gamma = .ok ((cutIndex alpha gamma.length m : Int), gamma.map (fun r => r.map (fun v => decide (t ≤ v)))) ∧
      cutIndex alpha gamma.length m + 1 ≤ kept gamma t ∧
      (kept gamma t = cutIndex alpha gamma.length m + 1 ↔
        t ∉ sorted.take (gamma.length * m - cutIndex alpha gamma.length m - 1)) := by
  have hfl : gamma.flatten.length = gamma.length * m := by
    rw [List.length_flatten]
    clear hne
    induction gamma with
    | nil => simp
    | cons r g ih =>
      rw [List.map_cons, List.sum_cons, ih (fun r h => hm r (by simp [h])), hm r (by simp), List.length_cons]
      ring
  set M := cutIndex alpha gamma.length m with hM
  have hMl : M ≤ gamma.length * m - 1 := min_le_right _ _
  set sorted := gamma.flatten.insertionSort (· ≤ ·) with hsd
  have hperm : sorted.Perm gamma.flatten := List.perm_insertionSort _ _
  have hsorted : sorted.Pairwise (· ≤ ·) := List.pairwise_insertionSort _ _
  have hl : sorted.length = gamma.length * m := by rw [hperm.length_eq, hfl]
  have hlt : gamma.length * m - M - 1 < sorted.length := by omega
  refine ⟨sorted, sorted[gamma.length * m - M - 1], hperm, hsorted, List.getElem?_eq_getElem hlt, ?_, ?_⟩
  · unfold cutOff
    simp only
    rw [cutIndex_eq alpha gamma.length m ha hne, ← hM, ← hsd]
    have hidx : pyIndex sorted (-(M : Int) - 1) = .ok sorted[gamma.length * m - M - 1] := by
      unfold pyIndex
      have h1 : (-(M : Int) - 1) < 0 := by omega
      simp only [h1, if_true]
      have h2 : ¬ (-(M : Int) - 1 + (sorted.length : Int)) < 0 := by omega
      rw [if_neg h2]
      have h3 : (-(M : Int) - 1 + (sorted.length : Int)).toNat = gamma.length * m - M - 1 := by omega
      rw [h3, List.getElem?_eq_getElem hlt]
    rw [hidx]
    rfl
  · have hk : kept gamma sorted[gamma.length * m - M - 1]
        = M + 1 + (sorted.take (gamma.length * m - M - 1)).count sorted[gamma.length * m - M - 1] := by
      unfold kept
      rw [← hperm.countP_eq, countP_sorted sorted hsorted _ _ (List.getElem?_eq_getElem hlt), hl]
      omega
    rw [hk]
    refine ⟨by omega, ?_⟩
    rw [← List.count_eq_zero]
    omega

/-! #### Generated samples -/

variable {d : Nat}

/-- The convex combination with weight `t` on the target row. -/
def Spec.lerp (t : K) (xs xt : Fin d → K) : Fin d → K := fun c => (1 - t) * xs c + t * xt c

theorem interp_lerp (nSteps step : Nat) (h : 0 < nSteps) (xs xt : Fin d → K) :
    interp nSteps step xs xt = lerp ((step : K) / nSteps) xs xt := by
  have hn : (nSteps : K) ≠ 0 := by exact_mod_cast h.ne'
  funext c
  simp only [interp, lerp]
  rw [sub_mul, sub_div, mul_comm (nSteps : K) (xs c), mul_div_assoc (xs c), div_self hn]
  ring

theorem fillRows_spec (nSteps step : Nat) (Xs Xt : List (Fin d → K)) (l : List (Nat × Nat)) (idx : Nat)
    (out : List (Fin d → K)) (hl : ∀ p ∈ l, p.1 < Xs.length ∧ p.2 < Xt.length) (hidx : idx ≤ out.length) :
    fillRows nSteps step Xs Xt idx l out =
      if idx + l.length ≤ out.length then
        .ok (out.take idx ++ l.map (fun p => interp nSteps step (Xs.getD p.1 0) (Xt.getD p.2 0)) ++ out.drop (idx + l.length))
      else .error .indexError := by
  induction l generalizing idx out with
  | nil => simp [fillRows, hidx]
  | cons p l ih =>
    obtain ⟨i, j⟩ := p
    obtain ⟨hi, hj⟩ := hl (i, j) (by simp)
    simp only at hi hj
    unfold fillRows
    rw [List.getElem?_eq_getElem hi, List.getElem?_eq_getElem hj]
    simp only
    by_cases h : idx < out.length
    · rw [if_pos h, ih (idx + 1) _ (fun p hp => hl p (by simp [hp])) (by simp; omega)]
      simp only [List.length_set, List.length_cons]
      have e : idx + 1 + l.length = idx + (l.length + 1) := by omega
      rw [e]
      split
      · congr 1
        rw [List.take_set, List.drop_set_of_lt (by omega)]
        have : (out.take (idx + 1)).set idx (interp nSteps step Xs[i] Xt[j]) = out.take idx ++ [interp nSteps step Xs[i] Xt[j]] := by
          rw [List.take_add_one, List.getElem?_eq_getElem h]
          simp only [Option.toList]
          rw [List.set_append_right _ _ (by simp)]
          simp [h.le]
        rw [this]
        simp [List.getD_eq_getElem?_getD, hi, hj]
      · rfl
    · rw [if_neg h, if_neg (by simp; omega)]

theorem mem_argwhere {mask : List (List Bool)} {i j : Nat} :
    (i, j) ∈ argwhere mask ↔ ∃ r, mask[i]? = some r ∧ r[j]? = some true := by
  unfold argwhere
  rw [List.mem_flatMap]
  constructor
  · rintro ⟨⟨r, i'⟩, hm, hj⟩
    rw [List.mem_map] at hj
    obtain ⟨j', hj', he⟩ := hj
    injection he with e1 e2
    subst e1; subst e2
    exact ⟨r, List.mem_zipIdx_iff_getElem?.1 hm, mem_flatnonzero.1 hj'⟩
  · rintro ⟨r, h1, h2⟩
    exact ⟨(r, i), List.mem_zipIdx_iff_getElem?.2 h1, List.mem_map.2 ⟨j, mem_flatnonzero.2 h2, rfl⟩⟩

theorem length_argwhere (mask : List (List Bool)) : (argwhere mask).length = mask.flatten.count true := by
  unfold argwhere
  have : ∀ k, ((mask.zipIdx k).flatMap (fun ri => (flatnonzero ri.1).map (fun j => (ri.2, j)))).length = mask.flatten.count true := by
    induction mask with
    | nil => simp
    | cons r mask ih =>
      intro k
      rw [List.zipIdx_cons, List.flatMap_cons, List.length_append, ih, List.length_map, length_flatnonzero, List.flatten_cons,
        List.count_append]
  exact this 0

/-- Row-major order. -/
def Spec.rowMajor (p q : Nat × Nat) : Prop := p.1 < q.1 ∨ (p.1 = q.1 ∧ p.2 < q.2)

theorem pairwise_argwhere (mask : List (List Bool)) : (argwhere mask).Pairwise rowMajor := by
  unfold argwhere
  have : ∀ k, ((mask.zipIdx k).flatMap (fun ri => (flatnonzero ri.1).map (fun j => (ri.2, j)))).Pairwise rowMajor ∧
      ∀ p ∈ (mask.zipIdx k).flatMap (fun ri => (flatnonzero ri.1).map (fun j => (ri.2, j))), k ≤ p.1 := by
    induction mask with
    | nil => simp
    | cons r mask ih =>
      intro k
      obtain ⟨h1, h2⟩ := ih (k + 1)
      rw [List.zipIdx_cons, List.flatMap_cons]
      constructor
      · rw [List.pairwise_append]
        refine ⟨?_, h1, ?_⟩
        · rw [List.pairwise_map]
          exact (pairwise_flatnonzero r).imp (fun h => Or.inr ⟨rfl, h⟩)
        · intro a ha b hb
          rw [List.mem_map] at ha
          obtain ⟨j, -, rfl⟩ := ha
          have := h2 b hb
          exact Or.inl (by simp only; omega)
      · intro p hp
        rw [List.mem_append] at hp
        rcases hp with hp | hp
        · rw [List.mem_map] at hp
          obtain ⟨j, -, rfl⟩ := hp
          exact le_refl _
        · have := h2 p hp; omega
  exact (this 0).1

/-- A mask of the shape of the coupling. -/
def Spec.Shape (mask : List (List Bool)) (n m : Nat) : Prop := mask.length = n ∧ ∀ r ∈ mask, r.length = m

/-- The samples a retained set of coupling entries should produce: one per entry, row-major, interpolating its source and target
row. -/
def Spec.Interpolates (mask : List (List Bool)) (t : K) (Xs Xt : List (Fin d → K)) (R : List (Fin d → K)) : Prop :=
  ∃ ps : List (Nat × Nat), ps.Pairwise rowMajor ∧ (∀ i j, (i, j) ∈ ps ↔ ∃ r, mask[i]? = some r ∧ r[j]? = some true) ∧
    R.length = ps.length ∧ ∀ (q i j : Nat), ps[q]? = some (i, j) →
      ∃ xs xt, Xs[i]? = some xs ∧ Xt[j]? = some xt ∧ R[q]? = some (lerp t xs xt)

theorem generate_value (nSteps step : Nat) (hn : 0 < nSteps) (Xs Xt : List (Fin d → K)) (M : Nat) (mask : List (List Bool))
    (hs : Shape mask Xs.length Xt.length) (hM : M + 1 ≤ mask.flatten.count true) :
    (mask.flatten.count true = M + 1 → ∃ R, generate nSteps step Xs Xt (M : Int) mask = .ok R ∧
      Interpolates mask ((step : K) / nSteps) Xs Xt R) ∧
    (mask.flatten.count true ≠ M + 1 → generate nSteps step Xs Xt (M : Int) mask = .error .indexError) := by
  have hrange : ∀ p ∈ argwhere mask, p.1 < Xs.length ∧ p.2 < Xt.length := by
    rintro ⟨i, j⟩ hp
    obtain ⟨r, h1, h2⟩ := mem_argwhere.1 hp
    constructor
    · by_contra h; rw [List.getElem?_eq_none (by have := hs.1; simp only at h; omega)] at h1; simp at h1
    · by_contra h
      rw [List.getElem?_eq_none (by rw [hs.2 r (List.mem_of_getElem? h1)]; simp only at h; omega)] at h2; simp at h2
  have hgen : generate nSteps step Xs Xt (M : Int) mask = fillRows nSteps step Xs Xt 0 (argwhere mask)
      (List.replicate (M + 1) (fun _ => 0)) := by
    unfold generate
    rw [if_neg (by omega)]
    congr 2
  rw [hgen, fillRows_spec nSteps step Xs Xt _ 0 _ hrange (by simp), length_argwhere]
  simp only [List.length_replicate, zero_add]
  constructor
  · intro he
    rw [if_pos (by omega)]
    refine ⟨_, rfl, argwhere mask, pairwise_argwhere mask, fun i j => mem_argwhere, ?_, ?_⟩
    · simp [he, length_argwhere]
    · intro q i j hq
      obtain ⟨h1, h2⟩ := hrange (i, j) (List.mem_of_getElem? hq)
      simp only at h1 h2
      refine ⟨Xs[i], Xt[j], List.getElem?_eq_getElem h1, List.getElem?_eq_getElem h2, ?_⟩
      rw [← interp_lerp nSteps step hn]
      have hlen : q < (argwhere mask).length := by
        by_contra h; rw [List.getElem?_eq_none (by omega)] at hq; simp at hq
      simp only [List.take_zero, List.nil_append]
      rw [List.getElem?_append_left (by simpa using hlen), List.getElem?_map, hq]
      simp [List.getD_eq_getElem?_getD, h1, h2]
  · intro hne
    rw [if_neg (by omega)]

theorem shape_cut (gamma : List (List K)) (t : K) (m : Nat) (hm : ∀ r ∈ gamma, r.length = m) :
    Shape (gamma.map (fun r => r.map (fun v => decide (t ≤ v)))) gamma.length m := by
  refine ⟨by simp, fun r hr => ?_⟩
  obtain ⟨s, hs, rfl⟩ := List.mem_map.1 hr
  simpa using hm s hs

/-- C40 (simple strategy, what holds). If the coupling has pairwise different entries, every step succeeds: it generates `M + 1` samples,
one per retained entry, each the convex combination of its source and target row with target weight `step / n_steps`. -/
theorem C40_samples_partial (alpha : ℚ) (gamma : List (List K)) (nSteps step : Nat) (Xs Xt : List (Fin d → K)) (ha : 0 ≤ alpha)
    (hn : 0 < nSteps) (hg : gamma.length = Xs.length) (hm : ∀ r ∈ gamma, r.length = Xt.length) (hs : Xs ≠ []) (ht : Xt ≠ [])
    (hnd : gamma.flatten.Nodup) :
    ∃ mask R, cutOff alpha Xt.length gamma = .ok ((cutIndex alpha Xs.length Xt.length : Int), mask) ∧
      generate nSteps step Xs Xt (cutIndex alpha Xs.length Xt.length : Int) mask = .ok R ∧
      R.length = cutIndex alpha Xs.length Xt.length + 1 ∧ Interpolates mask ((step : K) / nSteps) Xs Xt R := by
  have hpos : 0 < gamma.length * Xt.length := by
    rw [hg]; exact Nat.mul_pos (List.length_pos_iff.2 hs) (List.length_pos_iff.2 ht)
  obtain ⟨sorted, t, hp, hsort, hidx, hc, hk1, hk2⟩ := C40_threshold alpha Xt.length gamma ha hm hpos
  have hsh := shape_cut gamma t Xt.length hm
  rw [hg] at *
  have hkeep : kept gamma t = cutIndex alpha Xs.length Xt.length + 1 := by
    rw [hk2]
    intro hmem
    have hnd' : sorted.Nodup := hp.nodup_iff.2 hnd
    obtain ⟨q, hq, he⟩ := List.getElem_of_mem hmem
    rw [List.getElem_take] at he
    rw [List.length_take] at hq
    have hlt : Xs.length * Xt.length - cutIndex alpha Xs.length Xt.length - 1 < sorted.length := by
      by_contra h; rw [List.getElem?_eq_none (by omega)] at hidx; simp at hidx
    rw [List.getElem?_eq_getElem hlt] at hidx
    injection hidx with hidx
    have := (List.Nodup.getElem_inj_iff hnd').1 (he.trans hidx.symm)
    omega
  have hcount := count_mask gamma t
  obtain ⟨R, h1, h2⟩ := (generate_value nSteps step hn Xs Xt (cutIndex alpha Xs.length Xt.length) _ hsh (by omega)).1 (by omega)
  refine ⟨_, R, hc, h1, ?_, h2⟩
  obtain ⟨ps, hps1, hps2, hps3, -⟩ := h2
  rw [hps3]
  have hperm : ps.length = (argwhere (gamma.map (fun r => r.map (fun v => decide (t ≤ v))))).length := by
    have e : ps.Perm (argwhere (gamma.map (fun r => r.map (fun v => decide (t ≤ v))))) := by
      have nd : ∀ l : List (Nat × Nat), l.Pairwise rowMajor → l.Nodup := by
        intro l hl
        apply hl.imp
        rintro p q h rfl
        rcases h with h | h <;> omega
      rw [List.perm_ext_iff_of_nodup (nd _ hps1) (nd _ (pairwise_argwhere _))]
      rintro ⟨i, j⟩
      rw [hps2, mem_argwhere]
    exact e.length_eq
  rw [hperm, length_argwhere, hcount, hkeep]

/-- C40 (exact failure condition of the simple strategy). Every step fails with `IndexError` as soon as the threshold value is shared by
an entry that should not have been retained. -/
theorem C40_ties (alpha : ℚ) (gamma : List (List K)) (nSteps step : Nat) (Xs Xt : List (Fin d → K)) (ha : 0 ≤ alpha)
    (hn : 0 < nSteps) (hg : gamma.length = Xs.length) (hm : ∀ r ∈ gamma, r.length = Xt.length) (hs : Xs ≠ []) (ht : Xt ≠ []) :
    ∃ mask, cutOff alpha Xt.length gamma = .ok ((cutIndex alpha Xs.length Xt.length : Int), mask) ∧
      ((∃ R, generate nSteps step Xs Xt (cutIndex alpha Xs.length Xt.length : Int) mask = .ok R ∧
          Interpolates mask ((step : K) / nSteps) Xs Xt R) ∨
        (generate nSteps step Xs Xt (cutIndex alpha Xs.length Xt.length : Int) mask = .error .indexError ∧
          cutIndex alpha Xs.length Xt.length + 1 < mask.flatten.count true)) := by
  have hpos : 0 < gamma.length * Xt.length := by
    rw [hg]; exact Nat.mul_pos (List.length_pos_iff.2 hs) (List.length_pos_iff.2 ht)
  obtain ⟨sorted, t, hp, hsort, hidx, hc, hk1, hk2⟩ := C40_threshold alpha Xt.length gamma ha hm hpos
  have hsh := shape_cut gamma t Xt.length hm
  rw [hg] at *
  have hcount := count_mask gamma t
  refine ⟨_, hc, ?_⟩
  have hgv := generate_value nSteps step hn Xs Xt (cutIndex alpha Xs.length Xt.length) _ hsh (by omega)
  by_cases he : kept gamma t = cutIndex alpha Xs.length Xt.length + 1
  · exact Or.inl (hgv.1 (by omega))
  · exact Or.inr ⟨hgv.2 (by omega), by omega⟩

/-- C40 (negation: sparse plans). With the default `alpha = 1`, any non-negative coupling with at most `n + m` non-zero entries — in
particular every vertex of the transport polytope, as returned by exact OT — and `n m > n + m + 1` makes every step fail with
`IndexError`. -/
theorem C40_sparse_counterexample (gamma : List (List K)) (nSteps step : Nat) (Xs Xt : List (Fin d → K)) (hn : 0 < nSteps)
    (hg : gamma.length = Xs.length) (hm : ∀ r ∈ gamma, r.length = Xt.length)
    (hbig : Xs.length + Xt.length + 1 < Xs.length * Xt.length) (h0 : ∀ v ∈ gamma.flatten, 0 ≤ v)
    (hsp : gamma.flatten.countP (fun v => decide (v ≠ 0)) ≤ Xs.length + Xt.length) :
    ∃ mask, cutOff 1 Xt.length gamma = .ok (((Xs.length + Xt.length : Nat) : Int), mask) ∧
      generate nSteps step Xs Xt ((Xs.length + Xt.length : Nat) : Int) mask = .error .indexError := by
  have hpos : 0 < gamma.length * Xt.length := by rw [hg]; omega
  obtain ⟨sorted, t, hp, hsort, hidx, hc, hk1, hk2⟩ := C40_threshold 1 Xt.length gamma (by norm_num) hm hpos
  have hcut : cutIndex 1 Xs.length Xt.length = Xs.length + Xt.length := by
    unfold cutIndex
    have : ⌊(1 : ℚ) * ((Xs.length : ℚ) + (Xt.length : ℚ))⌋.toNat = Xs.length + Xt.length := by
      have e : (1 : ℚ) * ((Xs.length : ℚ) + (Xt.length : ℚ)) = ((Xs.length + Xt.length : Nat) : ℚ) := by push_cast; ring
      rw [e, Int.floor_natCast]; rfl
    rw [this]; omega
  have hsh := shape_cut gamma t Xt.length hm
  rw [hg] at hpos hidx hc hk1 hk2 hsh
  rw [hcut] at hidx hc hk1 hk2
  have hcount := count_mask gamma t
  refine ⟨_, hc, (generate_value nSteps step hn Xs Xt _ _ hsh (by omega)).2 ?_⟩
  rw [hcount, Ne, hk2, not_not]
  -- the first `n m - (n + m)` entries in sorted order are zero
  have hlen : sorted.length = Xs.length * Xt.length := by
    rw [hp.length_eq, List.length_flatten]
    have : gamma.map List.length = gamma.map (fun _ => Xt.length) := List.map_congr_left (fun r hr => hm r hr)
    rw [this, List.map_const', List.sum_replicate, hg]; simp
  have hz : ∀ q (hq : q < sorted.length), q < Xs.length * Xt.length - (Xs.length + Xt.length) → sorted[q] = 0 := by
    intro q hq hlt
    by_contra hne
    have hcnt : sorted.length - q ≤ sorted.countP (fun v => decide (v ≠ 0)) := by
      have hd : (sorted.drop q).countP (fun v => decide (v ≠ 0)) = (sorted.drop q).length := by
        rw [List.countP_eq_length]
        intro v hv
        obtain ⟨r, hr, he⟩ := List.getElem_of_mem hv
        rw [List.getElem_drop] at he
        rw [List.length_drop] at hr
        have hpos0 : 0 < sorted[q] := lt_of_le_of_ne (h0 _ (hp.mem_iff.1 (List.getElem_mem hq))) (Ne.symm hne)
        have hle : sorted[q] ≤ v := by
          rcases Nat.eq_zero_or_pos r with hr0 | hr0
          · subst hr0; simp at he; exact he.le
          · have := List.pairwise_iff_getElem.1 hsort q (q + r) hq (by omega) (by omega)
            rwa [he] at this
        have : 0 < v := lt_of_lt_of_le hpos0 hle
        simp [this.ne']
      have := List.take_append_drop q sorted
      calc sorted.length - q = (sorted.drop q).countP (fun v => decide (v ≠ 0)) := by rw [hd, List.length_drop]
        _ ≤ (sorted.take q ++ sorted.drop q).countP (fun v => decide (v ≠ 0)) := by rw [List.countP_append]; omega
        _ = _ := by rw [this]
    rw [hp.countP_eq] at hcnt
    omega
  have hlt : Xs.length * Xt.length - (Xs.length + Xt.length) - 1 < sorted.length := by omega
  have ht0 : t = 0 := by
    rw [List.getElem?_eq_getElem hlt] at hidx
    injection hidx with hidx
    rw [← hidx]
    exact hz _ hlt (by omega)
  have hfirst : sorted[0]'(by omega) = 0 := hz 0 (by omega) (by omega)
  rw [ht0, List.mem_take_iff_getElem]
  exact ⟨0, by omega, hfirst⟩

/-- The last step reproduces target rows, and every weight is between 0 and 1. -/
theorem C40_weights (nSteps step : Nat) (hn : 0 < nSteps) (hs : step ≤ nSteps) (xs xt : Fin d → K) :
    0 ≤ (step : K) / nSteps ∧ (step : K) / nSteps ≤ 1 ∧ interp nSteps step xs xt = lerp ((step : K) / nSteps) xs xt ∧
      interp nSteps nSteps xs xt = xt := by
  have hpos : (0 : K) < nSteps := by exact_mod_cast hn
  refine ⟨by positivity, ?_, interp_lerp nSteps step hn xs xt, ?_⟩
  · rw [div_le_one hpos]; exact_mod_cast hs
  · rw [interp_lerp nSteps nSteps hn, div_self hpos.ne']
    funext c; simp [lerp]

/-- What the advanced strategy should retain: the first maximum of every row and of every column. -/
def Spec.Mutual (gamma : List (List K)) (m : Nat) (mask : List (List Bool)) : Prop :=
  Shape mask gamma.length m ∧ ∀ i j r, mask[i]? = some r → j < m →
    (r[j]? = some true ↔
      (∃ row y, gamma[i]? = some row ∧ row[j]? = some y ∧ (∀ z ∈ row, z ≤ y) ∧
        ∀ (j' : Nat) z, j' < j → row[j']? = some z → z < y) ∨
      (∃ row y, gamma[i]? = some row ∧ row[j]? = some y ∧ (∀ row' ∈ gamma, ∀ z, row'[j]? = some z → z ≤ y) ∧
        ∀ (i' : Nat) row' z, i' < i → gamma[i']? = some row' → row'[j]? = some z → z < y))

theorem argmax_iff {l : List K} {k : Nat} : Np.argmax l = .ok k ↔
    ∃ y, l[k]? = some y ∧ (∀ z ∈ l, z ≤ y) ∧ ∀ (j : Nat) z, j < k → l[j]? = some z → z < y := by
  constructor
  · intro h
    have hne : l ≠ [] := by rintro rfl; simp [Np.argmax, Np.argmaxFrom] at h
    obtain ⟨i, y, h1, h2, h3, h4⟩ := Np.argmax_spec hne
    rw [h1] at h
    injection h with h
    subst h
    exact ⟨y, h2, h3, h4⟩
  · rintro ⟨y, h2, h3, h4⟩
    have hne : l ≠ [] := by rintro rfl; simp at h2
    obtain ⟨i, y', h1, h2', h3', h4'⟩ := Np.argmax_spec hne
    rw [h1]
    congr 1
    rcases lt_trichotomy i k with h | h | h
    · exact absurd (h4 i y' h h2') (not_lt.2 (h3' y (List.mem_of_getElem? h2)))
    · exact h
    · exact absurd (h4' k y h h2) (not_lt.2 (h3 y' (List.mem_of_getElem? h2')))

theorem advanced_value (m : Nat) (gamma : List (List K)) (hm : ∀ r ∈ gamma, r.length = m) (hn : gamma ≠ []) (hm0 : 0 < m) :
    ∃ (mask : List (List Bool)) (M : Nat), advancedCutOff m gamma = .ok ((M : Int), mask) ∧ Mutual gamma m mask ∧
      mask.flatten.count true = M + 1 ∧ (∀ i, i < gamma.length → ∃ r, ∃ j : Nat, mask[i]? = some r ∧ r[j]? = some true) ∧
      (∀ j, j < m → ∃ (i : Nat) (r : List Bool), mask[i]? = some r ∧ r[j]? = some true) := by
  have hr : ∀ r ∈ gamma, ∃ k, Np.argmax r = .ok k ∧ k < m := by
    intro r h
    have hne : r ≠ [] := by rintro rfl; have := hm _ h; simp at this; omega
    obtain ⟨i, y, h1, h2, -, -⟩ := Np.argmax_spec hne
    refine ⟨i, h1, ?_⟩
    by_contra hc; rw [List.getElem?_eq_none (by rw [hm r h]; omega)] at h2; simp at h2
  have hcol : ∀ j, ∃ k, Np.argmax (gamma.map (fun r => r.getD j 0)) = .ok k ∧ k < gamma.length := by
    intro j
    obtain ⟨i, y, h1, h2, -, -⟩ := Np.argmax_spec (l := gamma.map (fun r => r.getD j 0)) (by simpa using hn)
    refine ⟨i, h1, ?_⟩
    by_contra hc; rw [List.getElem?_eq_none (by simpa using hc)] at h2; simp at h2
  choose! rk hrk1 hrk2 using hr
  choose ck hck1 hck2 using hcol
  have e1 : gamma.mapM (fun r => Np.argmax r) = .ok (gamma.map rk) := mapM_ok (fun r h => hrk1 r h)
  have e2 : (List.range m).mapM (fun j => Np.argmax (gamma.map (fun r => r.getD j 0))) = .ok ((List.range m).map ck) :=
    mapM_ok (fun j _ => hck1 j)
  set mask := (List.range gamma.length).map (fun i => (List.range m).map (fun j =>
    decide ((gamma.map rk)[i]? = some j) || decide (((List.range m).map ck)[j]? = some i))) with hmask
  have hval : advancedCutOff m gamma = .ok ((mask.flatten.count true : Int) - 1, mask) := by
    unfold advancedCutOff
    rw [e1]; simp only [ok_bind]
    rw [e2]; rfl
  have hentry : ∀ i j r, mask[i]? = some r → j < m → i < gamma.length ∧
      r[j]? = some (decide ((gamma.map rk)[i]? = some j) || decide (ck j = i)) := by
    intro i j r h hj
    rw [hmask, List.getElem?_map] at h
    have hi : i < gamma.length := by
      by_contra hc
      rw [List.getElem?_eq_none (by simpa using hc)] at h
      simp at h
    rw [List.getElem?_range hi] at h
    simp only [Option.map_some, Option.some.injEq] at h
    refine ⟨hi, ?_⟩
    rw [← h, List.getElem?_map, List.getElem?_range hj]
    simp [hj]
  have hrow : ∀ i, i < gamma.length → ∃ r, mask[i]? = some r := fun i hi =>
    ⟨_, List.getElem?_eq_getElem (l := mask) (by rw [hmask]; simpa using hi)⟩
  have hcovr : ∀ i, i < gamma.length → ∃ r, ∃ j : Nat, mask[i]? = some r ∧ r[j]? = some true := by
    intro i hi
    obtain ⟨r, h⟩ := hrow i hi
    have hlt := hrk2 gamma[i] (List.getElem_mem hi)
    refine ⟨r, rk gamma[i], h, ?_⟩
    rw [(hentry i _ r h hlt).2]
    simp [hi]
  have hcovc : ∀ j, j < m → ∃ (i : Nat) (r : List Bool), mask[i]? = some r ∧ r[j]? = some true := by
    intro j hj
    obtain ⟨r, h⟩ := hrow (ck j) (hck2 j)
    refine ⟨ck j, r, h, ?_⟩
    rw [(hentry _ j r h hj).2]
    simp
  have hpos : 0 < mask.flatten.count true := by
    obtain ⟨i, r, h1, h2⟩ := hcovc 0 hm0
    rw [List.count_pos_iff, List.mem_flatten]
    exact ⟨r, List.mem_of_getElem? h1, List.mem_of_getElem? h2⟩
  refine ⟨mask, mask.flatten.count true - 1, ?_, ⟨⟨by simp [hmask], ?_⟩, ?_⟩, by omega, hcovr, hcovc⟩
  · rw [hval]
    congr 2
    omega
  · intro r hr
    rw [hmask, List.mem_map] at hr
    obtain ⟨i, -, rfl⟩ := hr
    simp
  · intro i j r h hj
    obtain ⟨hi, he⟩ := hentry i j r h hj
    rw [he]
    simp only [Option.some.injEq, Bool.or_eq_true, decide_eq_true_eq]
    have hgi : gamma[i]? = some gamma[i] := List.getElem?_eq_getElem hi
    have c1 : (gamma.map rk)[i]? = some j ↔ Np.argmax gamma[i] = .ok j := by
      rw [List.getElem?_map, hgi, hrk1 gamma[i] (List.getElem_mem hi)]
      simp
    have c2 : ck j = i ↔ Np.argmax (gamma.map (fun r => r.getD j 0)) = .ok i := by
      rw [hck1 j]; simp
    have hget : ∀ row ∈ gamma, row[j]? = some (row.getD j 0) := by
      intro row hrow'
      have := hm row hrow'
      rw [List.getD_eq_getElem?_getD, List.getElem?_eq_getElem (by omega)]; rfl
    rw [c1, c2, argmax_iff, argmax_iff]
    apply or_congr
    · constructor
      · rintro ⟨y, h1, h2, h3⟩; exact ⟨_, y, hgi, h1, h2, h3⟩
      · rintro ⟨row, y, h0, h1, h2, h3⟩
        rw [hgi] at h0; injection h0 with h0; subst h0
        exact ⟨y, h1, h2, h3⟩
    · constructor
      · rintro ⟨y, h1, h2, h3⟩
        rw [List.getElem?_map, hgi] at h1
        simp only [Option.map_some, Option.some.injEq] at h1
        refine ⟨_, y, hgi, ?_, ?_, ?_⟩
        · rw [hget _ (List.getElem_mem hi), h1]
        · intro row' hr' z hz
          rw [hget _ hr'] at hz
          injection hz with hz
          exact hz ▸ h2 _ (List.mem_map_of_mem hr')
        · intro i' row' z hlt h0 hz
          rw [hget _ (List.mem_of_getElem? h0)] at hz
          injection hz with hz
          apply h3 i' z hlt
          rw [List.getElem?_map, h0, ← hz]; rfl
      · rintro ⟨row, y, h0, h1, h2, h3⟩
        rw [hgi] at h0; injection h0 with h0; subst h0
        rw [hget _ (List.getElem_mem hi)] at h1
        injection h1 with h1
        refine ⟨y, ?_, ?_, ?_⟩
        · rw [List.getElem?_map, hgi, ← h1]; rfl
        · intro z hz
          obtain ⟨row', hr', rfl⟩ := List.mem_map.1 hz
          exact h2 row' hr' _ (hget _ hr')
        · intro i' z hlt hz
          rw [List.getElem?_map] at hz
          obtain ⟨row', h0, rfl⟩ := Option.map_eq_some_iff.1 hz
          exact h3 i' row' _ hlt h0 (hget _ (List.mem_of_getElem? h0))

/-- C40 (advanced strategy). For every non-empty coupling, ties included: exactly the first maximum of each row and of each column is
retained, every source row and every target row occurs, and every step generates one interpolation per retained entry. -/
theorem C40_advanced (gamma : List (List K)) (nSteps step : Nat) (Xs Xt : List (Fin d → K)) (hn : 0 < nSteps)
    (hg : gamma.length = Xs.length) (hm : ∀ r ∈ gamma, r.length = Xt.length) (hs : Xs ≠ []) (ht : Xt ≠ []) :
    ∃ (mask : List (List Bool)) (M : Nat) (R : List (Fin d → K)), advancedCutOff Xt.length gamma = .ok ((M : Int), mask) ∧
      Mutual gamma Xt.length mask ∧ (∀ i, i < Xs.length → ∃ r, ∃ j : Nat, mask[i]? = some r ∧ r[j]? = some true) ∧
      (∀ j, j < Xt.length → ∃ (i : Nat) (r : List Bool), mask[i]? = some r ∧ r[j]? = some true) ∧
      generate nSteps step Xs Xt (M : Int) mask = .ok R ∧ R.length = M + 1 ∧ mask.flatten.count true = M + 1 ∧
      Interpolates mask ((step : K) / nSteps) Xs Xt R := by
  have hgne : gamma ≠ [] := by
    rintro rfl; simp at hg; exact hs (List.length_eq_zero_iff.1 hg.symm)
  obtain ⟨mask, M, h1, h2, h3, h4, h5⟩ := advanced_value Xt.length gamma hm hgne (List.length_pos_iff.2 ht)
  have hsh := h2.1
  rw [hg] at hsh h4
  obtain ⟨R, hR1, hR2⟩ := (generate_value nSteps step hn Xs Xt M mask hsh (by omega)).1 h3
  refine ⟨mask, M, R, h1, h2, h4, h5, hR1, ?_, h3, hR2⟩
  obtain ⟨ps, hps1, hps2, hps3, -⟩ := hR2
  rw [hps3, ← h3, ← length_argwhere]
  have nd : ∀ l : List (Nat × Nat), l.Pairwise rowMajor → l.Nodup := by
    intro l hl
    apply hl.imp
    rintro p q h rfl
    rcases h with h | h <;> omega
  have e : ps.Perm (argwhere mask) := by
    rw [List.perm_ext_iff_of_nodup (nd _ hps1) (nd _ (pairwise_argwhere _))]
    rintro ⟨i, j⟩
    rw [hps2, mem_argwhere]
  exact e.length_eq

/-- C40 (advanced strategy on an empty side). With a source row but no target row the strategy fails with `ValueError` (`argmax` of an
empty row). -/
theorem C40_advanced_empty (gamma : List (List K)) (hne : gamma ≠ []) (hm : ∀ r ∈ gamma, r = []) :
    advancedCutOff 0 gamma = .error .valueError := by
  cases gamma with
  | nil => exact absurd rfl hne
  | cons r g =>
    have := hm r (by simp)
    subst this
    unfold advancedCutOff
    rw [List.mapM_cons]
    rfl

/-! ### C75: training of the gradual estimator -/

theorem interpolates_one {mask : List (List Bool)} {Xs Xt R : List (Fin d → K)} (h : Interpolates mask 1 Xs Xt R) :
    ∀ v ∈ R, v ∈ Xt := by
  obtain ⟨ps, -, -, hl, h⟩ := h
  intro v hv
  obtain ⟨q, hq, rfl⟩ := List.getElem_of_mem hv
  obtain ⟨xs, xt, -, h2, h3⟩ := h q (ps[q]'(by omega)).1 (ps[q]'(by omega)).2 (List.getElem?_eq_getElem (by omega))
  rw [List.getElem?_eq_getElem hq] at h3
  injection h3 with h3
  have : lerp (1 : K) xs xt = xt := by funext c; simp [lerp]
  rw [h3, this]
  exact List.mem_of_getElem? h2

variable {β E : Type}

/-- The self-training chain a gradual run should leave behind, from step `step` on: the samples of each step are labelled by the model
before it, and that model's successor is fitted on exactly these with a budget 100 larger. -/
inductive Spec.Chain (L : GLearner K d β E) (P : Nat → List (Fin d → K) → Prop) :
    Nat → Nat → Nat → E → List E → List (List (Fin d → K) × List β) → Prop
  | done (step mi : Nat) (e : E) : Chain L P 0 step mi e [] []
  | step (n step mi : Nat) (e e' : E) (X : List (Fin d → K)) (es : List E) (ds : List (List (Fin d → K) × List β)) :
      P step X → L.fit (some (mi + 100)) X (X.map (L.predict e)) = .ok e' → Chain L P n (step + 1) (mi + 100) e' es ds →
      Chain L P (n + 1) step mi e (e' :: es) ((X, X.map (L.predict e)) :: ds)

theorem chain_length {L : GLearner K d β E} {P : Nat → List (Fin d → K) → Prop} {n step mi : Nat} {e : E} {es : List E}
    {ds : List (List (Fin d → K) × List β)} (h : Chain L P n step mi e es ds) : es.length = n ∧ ds.length = n := by
  induction h with
  | done => simp
  | step n step mi e e' X es ds _ _ _ ih => simp [ih.1, ih.2]

theorem gradLoop_spec (L : GLearner K d β E) (nSteps : Nat) (Xs Xt : List (Fin d → K)) (M : Int) (mask : List (List Bool))
    (n step : Nat) (g g' : GFit K d β E) (h : gradLoop L nSteps Xs Xt M mask n step g = .ok g') :
    ∃ es ds, g'.ests = g.ests ++ es ∧ g'.data = g.data ++ ds ∧ (es = [] → g'.est = g.est) ∧
      (∀ e, es.getLast? = some e → g'.est = e) ∧
      ((n = 0 ∧ es = [] ∧ ds = [] ∧ g' = g) ∨ ∃ mi, g.maxIter = some mi ∧ g'.maxIter = some (mi + 100 * n) ∧
        Chain L (fun s X => generate nSteps s Xs Xt M mask = .ok X) n step mi g.est es ds) := by
  induction n generalizing step g with
  | zero =>
    unfold gradLoop at h
    injection h with h
    subst h
    exact ⟨[], [], by simp, by simp, by simp, by simp, Or.inl ⟨rfl, rfl, rfl, rfl⟩⟩
  | succ n ih =>
    unfold gradLoop at h
    simp only [bind_ok_iff] at h
    obtain ⟨X, hX, y, hy, h⟩ := h
    rw [batch_ok_iff] at hy
    obtain ⟨-, rfl⟩ := hy
    cases hmi : g.maxIter with
    | none => rw [hmi] at h; simp at h
    | some mi =>
      rw [hmi] at h
      simp only [bind_ok_iff] at h
      obtain ⟨e, he, h⟩ := h
      obtain ⟨es, ds, h1, h2, h3, h4, h5⟩ := ih _ _ h
      refine ⟨e :: es, (X, X.map (L.predict g.est)) :: ds, by simp [h1], by simp [h2], by simp, ?_, Or.inr ⟨mi, rfl, ?_⟩⟩
      · intro e' he'
        rw [List.getLast?_cons] at he'
        injection he' with he'
        cases hes : es.getLast? with
        | none =>
          rw [hes] at he'
          rw [List.getLast?_eq_none_iff] at hes
          rw [h3 hes]; simpa using he'
        | some e2 =>
          rw [hes] at he'
          rw [h4 e2 hes]; simpa using he'
      · rcases h5 with ⟨h51, h52, h53, h54⟩ | ⟨mi', h51, h52, h53⟩
        · subst h51; subst h52; subst h53; subst h54
          exact ⟨rfl, Chain.step 0 step mi g.est e X [] [] hX he (Chain.done _ _ _)⟩
        · simp only [Option.some.injEq] at h51
          subst h51
          refine ⟨by rw [h52]; congr 1; ring, Chain.step n step mi g.est e X es ds hX he h53⟩

theorem chain_mono {L : GLearner K d β E} {P Q : Nat → List (Fin d → K) → Prop} {n step mi : Nat} {e : E} {es : List E}
    {ds : List (List (Fin d → K) × List β)} (h : Chain L P n step mi e es ds) (hpq : ∀ s X, P s X → Q s X) :
    Chain L Q n step mi e es ds := by
  induction h with
  | done => exact Chain.done _ _ _
  | step n step mi e e' X es ds h1 h2 _ ih => exact Chain.step n step mi e e' X es ds (hpq _ _ h1) h2 ih

/-- The retained entries of either strategy. -/
def Spec.Retained (alpha : ℚ) (advanced : Bool) (gamma : List (List K)) (m : Nat) (mask : List (List Bool)) : Prop :=
  if advanced then Mutual gamma m mask
  else ∃ t, kept gamma t = cutIndex alpha gamma.length m + 1 ∧ t ∈ gamma.flatten ∧
    mask = gamma.map (fun r => r.map (fun v => decide (t ≤ v)))

theorem gradFit_prefix (L : GLearner K d β E)
    (coupling : List (Fin d → K) → List β → List (Fin d → K) → List β → List (List K)) (alpha : ℚ) (advanced : Bool)
    (nSteps : Nat) (maxIter : Option Nat) (X : List (Fin d → K)) (y : List β) (sd : List Int) (hX : sd.length = X.length)
    (hy : sd.length = y.length) :
    gradFit L coupling alpha advanced nSteps maxIter X y sd =
      (do let p ← (if advanced then advancedCutOff (targetRows sd X).length
                      (coupling (sourceRows sd X) (sourceRows sd y) (targetRows sd X) (targetRows sd y))
                    else cutOff alpha (targetRows sd X).length
                      (coupling (sourceRows sd X) (sourceRows sd y) (targetRows sd X) (targetRows sd y)))
          let e ← L.fit maxIter (sourceRows sd X) (sourceRows sd y)
          gradLoop L nSteps (sourceRows sd X) (targetRows sd X) p.1 p.2 nSteps 1 ⟨maxIter, e, [e], []⟩) := by
  unfold gradFit
  simp only
  rw [boolIndex_ok (by simp [hX]), boolIndex_ok (by simp [hy]), boolIndex_ok (by simp [hX]), boolIndex_ok (by simp [hy]),
    sel_source, sel_source, sel_target, sel_target]
  cases advanced <;> rfl

/-- C75 (training chain). Every successful `fit` with at least one step: the first estimator is fitted on the source rows with their labels
and the given budget; then, step by step, the interpolations of the retained entries with target weight `step / n_steps` are
labelled by the previous estimator and the next one is fitted on exactly these with a budget 100 larger; all of them are saved
in order, and the last is the one used for prediction. The budget ends `100 * n_steps` higher. -/
theorem C75_training (L : GLearner K d β E)
    (coupling : List (Fin d → K) → List β → List (Fin d → K) → List β → List (List K)) (alpha : ℚ) (advanced : Bool)
    (nSteps : Nat) (maxIter : Option Nat) (X : List (Fin d → K)) (y : List β) (sd : List Int) (g : GFit K d β E)
    (hX : sd.length = X.length) (hy : sd.length = y.length) (ha : 0 ≤ alpha) (hn : 0 < nSteps) (gamma : List (List K))
    (hgam : gamma = coupling (sourceRows sd X) (sourceRows sd y) (targetRows sd X) (targetRows sd y))
    (hg1 : gamma.length = (sourceRows sd X).length) (hg2 : ∀ r ∈ gamma, r.length = (targetRows sd X).length)
    (hs : sourceRows sd X ≠ []) (ht : targetRows sd X ≠ [])
    (h : gradFit L coupling alpha advanced nSteps maxIter X y sd = .ok g) :
    ∃ mi e0 es mask, maxIter = some mi ∧ L.fit (some mi) (sourceRows sd X) (sourceRows sd y) = .ok e0 ∧
      g.ests = e0 :: es ∧ es.length = nSteps ∧ g.data.length = nSteps ∧ es.getLast? = some g.est ∧
      g.maxIter = some (mi + 100 * nSteps) ∧ Retained alpha advanced gamma (targetRows sd X).length mask ∧
      Chain L (fun step R => Interpolates mask ((step : K) / nSteps) (sourceRows sd X) (targetRows sd X) R)
        nSteps 1 mi e0 es g.data := by
  rw [gradFit_prefix L coupling alpha advanced nSteps maxIter X y sd hX hy, ← hgam] at h
  simp only [bind_ok_iff] at h
  obtain ⟨⟨M, mask⟩, hM, e0, he0, h⟩ := h
  simp only at h
  obtain ⟨es, ds, h1, h2, h3, h4, h5⟩ := gradLoop_spec L nSteps _ _ M mask nSteps 1 _ g h
  rcases h5 with ⟨h51, -⟩ | ⟨mi, h51, h52, h53⟩
  · omega
  · simp only at h51
    subst h51
    obtain ⟨hl1, hl2⟩ := chain_length h53
    -- the mask, and the samples of every step
    have hmask : Retained alpha advanced gamma (targetRows sd X).length mask ∧
        ∀ s R, generate nSteps s (sourceRows sd X) (targetRows sd X) M mask = .ok R →
          Interpolates mask ((s : K) / nSteps) (sourceRows sd X) (targetRows sd X) R := by
      cases advanced with
      | true =>
        simp only [if_true] at hM
        have hgne : gamma ≠ [] := by
          rintro rfl; simp at hg1; exact hs (List.length_eq_zero_iff.1 hg1.symm)
        obtain ⟨mask', M', a1, a2, a3, a4, a5⟩ := advanced_value _ gamma hg2 hgne (List.length_pos_iff.2 ht)
        rw [a1] at hM
        injection hM with hM
        injection hM with hM1 hM2
        subst hM1; subst hM2
        refine ⟨a2, fun s R hR => ?_⟩
        have hsh := a2.1
        rw [hg1] at hsh
        obtain ⟨R', b1, b2⟩ := (generate_value nSteps s hn (sourceRows sd X) (targetRows sd X) M' mask' hsh (by omega)).1 a3
        rw [b1] at hR
        injection hR with hR
        exact hR ▸ b2
      | false =>
        simp only [Bool.false_eq_true, if_false] at hM
        have hpos : 0 < gamma.length * (targetRows sd X).length := by
          rw [hg1]; exact Nat.mul_pos (List.length_pos_iff.2 hs) (List.length_pos_iff.2 ht)
        obtain ⟨sorted, t, hp, hsort, hidx, hc, hk1, hk2⟩ := C40_threshold alpha _ gamma ha hg2 hpos
        have hsh := shape_cut gamma t _ hg2
        rw [hc] at hM
        injection hM with hM
        injection hM with hM1 hM2
        subst hM1; subst hM2
        rw [hg1] at hsh
        have hgv := fun s => generate_value nSteps s hn (sourceRows sd X) (targetRows sd X) _ _ hsh
          (by rw [count_mask]; exact hk1)
        rw [count_mask] at hgv
        by_cases he : kept gamma t = cutIndex alpha gamma.length (targetRows sd X).length + 1
        · refine ⟨⟨t, he, hp.mem_iff.1 (List.mem_of_getElem? hidx), rfl⟩, fun s R hR => ?_⟩
          obtain ⟨R', b1, b2⟩ := (hgv s).1 he
          rw [b1] at hR
          injection hR with hR
          exact hR ▸ b2
        · -- the first step already fails
          exfalso
          cases nSteps with
          | zero => omega
          | succ n =>
            cases h53 with
            | step _ _ _ _ _ R _ _ hR _ _ =>
              rw [(hgv 1).2 he] at hR
              simp at hR
    refine ⟨mi, e0, es, mask, rfl, he0, by simpa using h1, hl1, by rw [h2]; simpa using hl2, ?_, h52, hmask.1, ?_⟩
    · cases hlast : es.getLast? with
      | none => rw [List.getLast?_eq_none_iff] at hlast; rw [hlast] at hl1; simp at hl1; omega
      | some e => rw [h4 e hlast]
    · rw [h2]
      exact chain_mono h53 hmask.2

/-- C75 (refitting). Two successive calls of `fit` do not train with the same budgets: the second one starts `100 * n_steps` higher. -/
theorem C75_refit_counterexample (L : GLearner K d β E)
    (coupling : List (Fin d → K) → List β → List (Fin d → K) → List β → List (List K)) (alpha : ℚ) (advanced : Bool)
    (nSteps mi : Nat) (X : List (Fin d → K)) (y : List β) (sd : List Int) (g g' : GFit K d β E)
    (hX : sd.length = X.length) (hy : sd.length = y.length) (hn : 0 < nSteps)
    (h : gradFit L coupling alpha advanced nSteps (some mi) X y sd = .ok g)
    (h' : gradFit L coupling alpha advanced nSteps g.maxIter X y sd = .ok g') :
    g.maxIter = some (mi + 100 * nSteps) ∧ g'.maxIter = some (mi + 200 * nSteps) ∧
      ∃ e0 es, g'.ests = e0 :: es ∧ L.fit (some (mi + 100 * nSteps)) (sourceRows sd X) (sourceRows sd y) = .ok e0 := by
  rw [gradFit_prefix L coupling alpha advanced nSteps _ X y sd hX hy] at h h'
  simp only [bind_ok_iff] at h h'
  obtain ⟨p, -, e0, -, h⟩ := h
  obtain ⟨p', -, e0', he0', h'⟩ := h'
  obtain ⟨es, ds, h1, -, -, -, h5⟩ := gradLoop_spec L nSteps _ _ _ _ nSteps 1 _ g h
  obtain ⟨es', ds', h1', -, -, -, h5'⟩ := gradLoop_spec L nSteps _ _ _ _ nSteps 1 _ g' h'
  rcases h5 with ⟨h51, -⟩ | ⟨mi1, h51, h52, -⟩
  · omega
  rcases h5' with ⟨h51', -⟩ | ⟨mi2, h51', h52', -⟩
  · omega
  simp only [Option.some.injEq] at h51
  subst h51
  simp only [h52, Option.some.injEq] at h51'
  subst h51'
  exact ⟨h52, by rw [h52']; congr 1; ring, e0', es', by simpa using h1', by rw [← h52]; exact he0'⟩

/-- C75 (base estimators without `max_iter`). No base estimator without a `max_iter` attribute can be used with at least one step; with
the advanced strategy and a base fit that succeeds, the failure is the `AttributeError`. -/
theorem C75_max_iter (L : GLearner K d β E)
    (coupling : List (Fin d → K) → List β → List (Fin d → K) → List β → List (List K)) (alpha : ℚ)
    (nSteps : Nat) (X : List (Fin d → K)) (y : List β) (sd : List Int) (hX : sd.length = X.length) (hy : sd.length = y.length)
    (hn : 0 < nSteps) :
    (∀ advanced g, gradFit L coupling alpha advanced nSteps none X y sd ≠ .ok g) ∧
    (∀ gamma e, gamma = coupling (sourceRows sd X) (sourceRows sd y) (targetRows sd X) (targetRows sd y) →
      gamma.length = (sourceRows sd X).length → (∀ r ∈ gamma, r.length = (targetRows sd X).length) →
      sourceRows sd X ≠ [] → targetRows sd X ≠ [] → L.fit none (sourceRows sd X) (sourceRows sd y) = .ok e →
      gradFit L coupling alpha true nSteps none X y sd = .error .attributeError) := by
  constructor
  · intro advanced g h
    rw [gradFit_prefix L coupling alpha advanced nSteps _ X y sd hX hy] at h
    simp only [bind_ok_iff] at h
    obtain ⟨p, -, e0, -, h⟩ := h
    obtain ⟨es, ds, -, -, -, -, h5⟩ := gradLoop_spec L nSteps _ _ _ _ nSteps 1 _ g h
    rcases h5 with ⟨h51, -⟩ | ⟨mi, h51, -⟩
    · omega
    · simp at h51
  · intro gamma e hgam hg1 hg2 hs ht he
    rw [gradFit_prefix L coupling alpha true nSteps _ X y sd hX hy, ← hgam]
    obtain ⟨mask, M, R, h1, -, -, -, h2, h3, -⟩ := C40_advanced gamma nSteps 1 _ _ hn hg1 hg2 hs ht
    simp only [if_true]
    rw [h1]; simp only [ok_bind]
    rw [he]; simp only [ok_bind]
    cases nSteps with
    | zero => omega
    | succ n =>
      unfold gradLoop
      rw [h2]; simp only [ok_bind]
      rw [batch_ok (by rintro rfl; simp at h3)]
      rfl

/-- The last step trains on target rows only. -/
theorem C75_last_step (L : GLearner K d β E) (mask : List (List Bool)) (Xs Xt : List (Fin d → K)) (nSteps n step mi : Nat) (e0 : E)
    (es : List E) (ds : List (List (Fin d → K) × List β)) (hn : 0 < n) (h0 : 0 < nSteps)
    (hend : step + n = nSteps + 1)
    (h : Chain L (fun step R => Interpolates mask ((step : K) / nSteps) Xs Xt R) n step mi e0 es ds) :
    ∃ R yR, ds.getLast? = some (R, yR) ∧ ∀ v ∈ R, v ∈ Xt := by
  induction h with
  | done => omega
  | step n step mi e e' X es ds h1 h2 h3 ih =>
    by_cases hz : n = 0
    · subst hz
      cases h3
      have hst : step = nSteps := by omega
      subst hst
      refine ⟨X, _, rfl, ?_⟩
      have : (step : K) / (step : K) = 1 := div_self (by exact_mod_cast h0.ne')
      rw [this] at h1
      exact interpolates_one h1
    · obtain ⟨R, yR, h4, h5⟩ := ih (by omega) (by omega)
      exact ⟨R, yR, by rw [List.getLast?_cons, h4]; rfl, h5⟩

end Cut

/-! ### Concrete cases -/

/-- Rows of one feature. -/
private def c1 (l : List ℚ) : List (Fin 1 → ℚ) := l.map (fun v _ => v)
private def out1 (r : Py (List (Fin 1 → ℚ))) : Py (List ℚ) := r.map (fun l => l.map (fun v => v 0))

/-- A coupling without ties, `alpha = 1/2`, 2 + 2 rows: three entries are kept. -/
example : cutOff (1 / 2 : ℚ) 2 ([[1 / 10, 4 / 10], [3 / 10, 2 / 10]] : List (List ℚ)) = .ok (2, [[false, true], [true, true]]) := by decide +kernel
example : ([[1 / 10, 4 / 10], [3 / 10, 2 / 10]] : List (List ℚ)).flatten.Nodup ∧ Spec.cutIndex (1 / 2) 2 2 = 2 := by decide +kernel
example : out1 (generate 4 1 (c1 [0, 10]) (c1 [100, 200]) 2 [[false, true], [true, true]]) = .ok [50, 65 / 2, 115 / 2] := by
  decide +kernel
/-- At the last step only target rows are left. -/
example : out1 (generate 4 4 (c1 [0, 10]) (c1 [100, 200]) 2 [[false, true], [true, true]]) = .ok [200, 100, 200] := by
  decide +kernel
/-- The same coupling with a tie at the threshold: four entries pass it, three rows were allocated. -/
example : cutOff (1 / 2 : ℚ) 2 ([[2 / 10, 4 / 10], [2 / 10, 2 / 10]] : List (List ℚ)) = .ok (2, [[true, true], [true, true]]) ∧
    out1 (generate 4 1 (c1 [0, 10]) (c1 [100, 200]) 2 [[true, true], [true, true]]) = .error .indexError := by decide +kernel
/-- The exact plan between four and four uniform rows has four non-zero entries; eight and one more would be needed. -/
example : 4 + 4 + 1 < 4 * 4 ∧
    (([[1, 0, 0, 0], [0, 1, 0, 0], [0, 0, 1, 0], [0, 0, 0, 1]] : List (List ℚ)).flatten.countP (fun v => decide (v ≠ 0))) ≤ 4 + 4 ∧
    cutOff 1 4 ([[1, 0, 0, 0], [0, 1, 0, 0], [0, 0, 1, 0], [0, 0, 0, 1]] : List (List ℚ))
      = .ok (8, List.replicate 4 (List.replicate 4 true)) ∧
    out1 (generate 2 1 (c1 [0, 1, 2, 3]) (c1 [5, 6, 7, 8]) 8 (List.replicate 4 (List.replicate 4 true))) = .error .indexError := by
  decide +kernel
/-- The advanced strategy on the tied coupling. -/
example : advancedCutOff 2 ([[2 / 10, 4 / 10], [2 / 10, 2 / 10]] : List (List ℚ)) = .ok (2, [[true, true], [true, false]]) := by
  decide +kernel

/-- A base learner whose model is the label of its first training row together with its budget. -/
private def demoL : GLearner ℚ 1 Int (Int × Option Nat) :=
  { fit := fun mi _ y => match y with | [] => .error .valueError | v :: _ => .ok (v, mi), predict := fun e x => if x 0 < 50 then e.1 else e.1 + 1 }
private structure DemoG where
  maxIter : Option Nat
  ests : List (Int × Option Nat)
  data : List (List ℚ × List Int)
deriving DecidableEq
private def outG (r : Py (GFit ℚ 1 Int (Int × Option Nat))) : Py DemoG :=
  r.map (fun g => ⟨g.maxIter, g.ests, g.data.map (fun p => (p.1.map (fun v => v 0), p.2))⟩)
private def demoC : List (Fin 1 → ℚ) → List Int → List (Fin 1 → ℚ) → List Int → List (List ℚ) :=
  fun _ _ _ _ => [[1 / 10, 4 / 10], [3 / 10, 2 / 10]]

/-- Two steps; the target rows have the label -1, which is never used for training. -/
example : outG (gradFit demoL demoC (1 / 2) false 2 (some 100) (c1 [0, 100, 10, 200]) [7, -1, 8, -1] [1, -2, 1, -2])
    = .ok ⟨some 300, [(7, some 100), (8, some 200), (9, some 300)],
        [([100, 55, 105], [8, 8, 8]), ([200, 100, 200], [9, 9, 9])]⟩ := by decide +kernel
/-- The second call starts from the budget the first one left. -/
example : outG (gradFit demoL demoC (1 / 2) false 2 (some 300) (c1 [0, 100, 10, 200]) [7, -1, 8, -1] [1, -2, 1, -2])
    = .ok ⟨some 500, [(7, some 300), (8, some 400), (9, some 500)],
        [([100, 55, 105], [8, 8, 8]), ([200, 100, 200], [9, 9, 9])]⟩ := by decide +kernel
/-- Without the attribute `max_iter`. -/
example : outG (gradFit demoL demoC (1 / 2) true 2 none (c1 [0, 100, 10, 200]) [7, -1, 8, -1] [1, -2, 1, -2])
    = .error .attributeError := by decide +kernel



end Skada

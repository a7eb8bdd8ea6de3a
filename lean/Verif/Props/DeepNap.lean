/-
C90: neighbour-aware pseudo-labels of SPA (skada/deep/losses.py:481-515).
-/
import Verif.Props.DeepMMD
import Verif.Lemmas.Arg
import Verif.Lemmas.Monad

namespace Skada

namespace Spec

variable {d c : Nat}

/-- `a` is at most as far as `b`; `none` is infinitely far. -/
def noFarther : Option ℝ → Option ℝ → Prop
  | _, none => True
  | none, some _ => False
  | some a, some b => a ≤ b

/-- What `torch.topk` of the negated distances returns: `k` different positions, none of the others nearer. -/
def IsTopK (dist : List (Option ℝ)) (k : Nat) (nb : List Nat) : Prop :=
  nb.Nodup ∧ nb.length = k ∧ (∀ i ∈ nb, i < dist.length) ∧
    ∀ i ∈ nb, ∀ j < dist.length, j ∉ nb → noFarther (dist.getD i none) (dist.getD j none)

/-- `nb` are `k` memory rows outside `batch`, and no other memory row outside `batch` is nearer to `x`. -/
def KNearest (memory : List (Fin d → ℝ)) (batch : List Nat) (k : Nat) (x : Fin d → ℝ) (nb : List Nat) : Prop :=
  nb.Nodup ∧ nb.length = k ∧ (∀ i ∈ nb, i < memory.length ∧ i ∉ batch) ∧
    ∀ i ∈ nb, ∀ j < memory.length, j ∉ batch → j ∉ nb → eucl x (memory.getD i 0) ≤ eucl x (memory.getD j 0)

/-- Mean remembered output of the rows `nb`, class `j`. -/
noncomputable def nbMean (outputs : List (Fin c → ℝ)) (nb : List Nat) (j : Fin c) : ℝ :=
  (nb.map (fun i => outputs.getD i 0 j)).sum / (nb.length : ℝ)

/-- `p` is the first class of largest score. -/
def FirstBest (score : Fin c → ℝ) (p : Fin c) : Prop := (∀ j, score j ≤ score p) ∧ ∀ j < p, score j < score p

end Spec

open Spec Np

variable {d c : Nat}

namespace DL

theorem memDist_length (memory : List (Fin d → ℝ)) (idx : List Nat) (x : Fin d → ℝ) : (memDist Real.sqrt memory idx x).length = memory.length := by
  simp [memDist]

theorem memDist_get (memory : List (Fin d → ℝ)) (idx : List Nat) (x : Fin d → ℝ) {i : Nat} (hi : i < memory.length) :
    (memDist Real.sqrt memory idx x).getD i none = if i ∈ idx then none else some (eucl x (memory.getD i 0) ^ 2) := by
  simp [memDist, List.getD_eq_getElem?_getD, List.getElem?_mapIdx, List.getElem?_eq_getElem hi, dist_eq]

theorem kNearest_of_topK (memory : List (Fin d → ℝ)) (idx : List Nat) (k : Nat) (x : Fin d → ℝ) (nb : List Nat)
    (hk : k ≤ ((List.range memory.length).filter (fun i => decide (i ∉ idx))).length)
    (h : IsTopK (memDist Real.sqrt memory idx x) k nb) : KNearest memory idx k x nb := by
  obtain ⟨h1, h2, h3, h4⟩ := h
  rw [memDist_length] at h3 h4
  have hout : ∀ i ∈ nb, i ∉ idx := by
    intro i hi hmem
    have hex : ∃ j, j < memory.length ∧ j ∉ idx ∧ j ∉ nb := by
      by_contra hcon
      push Not at hcon
      have hsub : ((List.range memory.length).filter (fun i => decide (i ∉ idx))) ⊆ nb.erase i := by
        intro j hj
        simp only [List.mem_filter, List.mem_range, decide_eq_true_eq] at hj
        exact (List.Nodup.mem_erase_iff h1).2 ⟨fun e => hj.2 (e ▸ hmem), hcon j hj.1 hj.2⟩
      have hle := (List.subperm_of_subset ((List.nodup_range).filter _) hsub).length_le
      rw [List.length_erase_of_mem hi] at hle
      have := List.length_pos_of_mem hi
      omega
    obtain ⟨j, hj, hj1, hj2⟩ := hex
    have := h4 i hi j hj hj2
    rw [memDist_get _ _ _ (h3 i hi), memDist_get _ _ _ hj, if_pos hmem, if_neg hj1] at this
    exact this
  refine ⟨h1, h2, fun i hi => ⟨h3 i hi, hout i hi⟩, fun i hi j hj hj1 hj2 => ?_⟩
  have := h4 i hi j hj hj2
  rw [memDist_get _ _ _ (h3 i hi), memDist_get _ _ _ hj, if_neg (hout i hi), if_neg hj1] at this
  exact (pow_le_pow_iff_left₀ (eucl_nonneg _ _) (eucl_nonneg _ _) two_ne_zero).1 this

theorem neighbourMean_eq (outputs : List (Fin c → ℝ)) (nb : List Nat) (hn : nb.Nodup) (hlt : ∀ i ∈ nb, i < outputs.length) (j : Fin c) :
    neighbourMean outputs nb nb.length j = nbMean outputs nb j := by
  unfold neighbourMean nbMean
  have h1 : (outputs.mapIdx (fun i o => (if i ∈ nb then 1 / (nb.length : ℝ) else 0) * o j)).sum =
      ∑ i ∈ Finset.range outputs.length, (if i ∈ nb then 1 / (nb.length : ℝ) else 0) * outputs.getD i 0 j := by
    rw [Finset.sum_range, ← List.sum_ofFn]
    congr 1
    apply List.ext_getElem
    · simp
    · intro i h1 h2
      simp at h1
      simp [List.getD_eq_getElem?_getD]
  have h2 : (nb.map (fun i => outputs.getD i 0 j)).sum = ∑ i ∈ nb.toFinset, outputs.getD i 0 j := by
    rw [List.sum_toFinset _ hn]
  rw [h1, h2, Finset.sum_div, ← Finset.sum_filter_add_sum_filter_not (Finset.range outputs.length) (· ∈ nb)]
  rw [Finset.sum_eq_zero (s := (Finset.range outputs.length).filter (fun i => i ∉ nb)), add_zero]
  · have : (Finset.range outputs.length).filter (· ∈ nb) = nb.toFinset := by
      ext i
      simp only [Finset.mem_filter, Finset.mem_range, List.mem_toFinset]
      exact ⟨fun h => h.2, fun h => ⟨hlt i h, h⟩⟩
    rw [this]
    refine Finset.sum_congr rfl fun i hi => ?_
    rw [if_pos (List.mem_toFinset.1 hi)]; ring
  · intro i hi
    rw [if_neg (Finset.mem_filter.1 hi).2, zero_mul]

theorem exists_best (hc : 0 < c) (f : Fin c → ℝ) : ∃ p : Fin c, argmax (List.ofFn f) = .ok (p : Nat) ∧ FirstBest f p := by
  obtain ⟨i, y, h1, h2, h3, h4⟩ := argmax_spec (l := List.ofFn f) (by
    intro h; have := congrArg List.length h; simp at this; omega)
  have hi : i < c := by
    have := (List.getElem?_eq_some_iff.1 h2).1; simpa using this
  have hy : y = f ⟨i, hi⟩ := by
    have := (List.getElem?_eq_some_iff.1 h2).2; simpa using this.symm
  refine ⟨⟨i, hi⟩, h1, fun j => ?_, fun j hj => ?_⟩
  · rw [← hy]; exact h3 _ (by simp [List.mem_ofFn])
  · rw [← hy]; exact h4 j (f j) hj (by simp)

theorem exists_topk : ∃ topk : List (Option ℝ) → Nat → List Nat, ∀ l k, k ≤ l.length → IsTopK l k (topk l k) := by
  classical
  let r : List (Option ℝ) → Nat → Nat → Prop := fun l i j => noFarther (l.getD i none) (l.getD j none)
  have htot : ∀ l, Std.Total (r l) := fun l => ⟨fun i j => by
    show noFarther _ _ ∨ noFarther _ _
    cases l.getD i none <;> cases l.getD j none <;> simp [noFarther, le_total]⟩
  have htrans : ∀ l, IsTrans Nat (r l) := fun l => ⟨fun i j k h1 h2 => by
    change noFarther _ _ at h1 h2
    show noFarther _ _
    revert h1 h2
    cases l.getD i none <;> cases l.getD j none <;> cases l.getD k none <;> simp [noFarther]
    exact le_trans⟩
  refine ⟨fun l k => ((List.range l.length).insertionSort (r l)).take k, fun l k hk => ?_⟩
  have hperm := List.perm_insertionSort (r l) (List.range l.length)
  have hnd := hperm.nodup_iff.2 List.nodup_range
  have hs := @List.pairwise_insertionSort _ (r l) _ (htot l) (htrans l) (List.range l.length)
  refine ⟨hnd.sublist (List.take_sublist _ _), by simp [hk], fun i hi => ?_, fun i hi j hj hnj => ?_⟩
  · have := hperm.mem_iff.1 (List.mem_of_mem_take hi); simpa using this
  · have hj' : j ∈ ((List.range l.length).insertionSort (r l)).drop k := by
      have : j ∈ (List.range l.length).insertionSort (r l) := hperm.mem_iff.2 (by simpa using hj)
      rw [← List.take_append_drop k ((List.range l.length).insertionSort (r l)), List.mem_append] at this
      exact this.resolve_left hnj
    rw [← List.take_append_drop k ((List.range l.length).insertionSort (r l)), List.pairwise_append] at hs
    exact hs.2.2 i hi j hj'

end DL

/-- C90.  If at least `kk` rows of the memory lie outside the batch, every target row gets the `kk` nearest memory rows outside the *whole*
batch as neighbours, its pseudo-label is the (first) class of largest mean remembered output of these, and the loss is the average of the
cross-entropies weighted by that mean output (`tiny` in the denominator). -/
theorem C90_nap (ce : (Fin c → ℝ) → Nat → ℝ) (topk : List (Option ℝ) → Nat → List Nat) (htop : ∀ l k, k ≤ l.length → IsTopK l k (topk l k))
    (tiny : ℝ) (Xt : List (Fin d → ℝ)) (Yt : List (Fin c → ℝ)) (memory : List (Fin d → ℝ)) (outputs : List (Fin c → ℝ)) (batch : List Nat)
    (kk : Nat) (hc : 0 < c) (hlen : Yt.length = Xt.length) (hout : outputs.length = memory.length) (hb : ∀ i ∈ batch, i < memory.length)
    (hk : kk ≤ ((List.range memory.length).filter (fun i => decide (i ∉ batch))).length) :
    ∃ (nb : (Fin d → ℝ) → List Nat) (p : (Fin d → ℝ) → Fin c),
      (∀ x, KNearest memory batch kk x (nb x) ∧ FirstBest (nbMean outputs (nb x)) (p x)) ∧
      DL.nap Real.sqrt ce topk tiny Xt Yt memory outputs batch kk =
        .ok (((Xt.zip Yt).map (fun q => nbMean outputs (nb q.1) (p q.1) * ce q.2 (p q.1))).sum /
          ((Xt.map (fun x => nbMean outputs (nb x) (p x))).sum + tiny)) := by
  have hkm : kk ≤ memory.length := hk.trans ((List.length_filter_le _ _).trans (by simp))
  let nb := fun x => topk (DL.memDist Real.sqrt memory batch x) kk
  have hnb : ∀ x, KNearest memory batch kk x (nb x) := fun x =>
    DL.kNearest_of_topK memory batch kk x _ hk (htop _ _ (by rw [DL.memDist_length]; exact hkm))
  choose p hp using fun x => DL.exists_best hc (nbMean outputs (nb x))
  have hmean : ∀ x, DL.neighbourMean outputs (topk (DL.memDist Real.sqrt memory batch x) kk) kk = nbMean outputs (nb x) := by
    intro x
    funext j
    have h := DL.neighbourMean_eq outputs (nb x) (hnb x).1 (fun i hi => hout ▸ ((hnb x).2.2.1 i hi).1) j
    rw [(hnb x).2.1] at h
    exact h
  refine ⟨nb, p, fun x => ⟨hnb x, (hp x).2⟩, ?_⟩
  have hidx : ¬ (batch.any (fun i => decide (memory.length ≤ i)) = true) := by
    simp only [List.any_eq_true, decide_eq_true_eq, not_exists, not_and, not_le]; exact hb
  unfold DL.nap
  rw [if_neg hidx, if_neg (by omega), if_neg (by simp [hout])]
  simp only [hmean]
  have hm : (Xt.map (fun x => List.ofFn (nbMean outputs (nb x)))).mapM argmax = .ok (Xt.map (fun x => (p x : Nat))) := by
    clear hlen
    induction Xt with
    | nil => rfl
    | cons x Xt ih => rw [List.map_cons, List.mapM_cons, (hp x).1, ih]; rfl
  rw [hm]
  simp only [ok_bind, hlen, ne_eq, not_true_eq_false, if_false]
  have hw : List.zipWith (fun (r : List ℝ) (q : Nat) => r.getD q 0) (Xt.map (fun x => List.ofFn (nbMean outputs (nb x)))) (Xt.map (fun x => (p x : Nat))) =
      Xt.map (fun x => nbMean outputs (nb x) (p x)) := by
    rw [List.zipWith_map, List.zipWith_self]
    refine List.map_congr_left fun x _ => ?_
    simp [List.getD_eq_getElem?_getD]
  rw [hw]
  congr 3
  clear hm hw
  induction Xt generalizing Yt with
  | nil => simp
  | cons x Xt ih =>
    cases Yt with
    | nil => simp at hlen
    | cons y Yt => simp only [List.map_cons, List.zipWith_cons_cons, List.zip_cons_cons]; rw [ih Yt (by simpa using hlen)]

theorem DL.nbMean_nonneg (outputs : List (Fin c → ℝ)) (nb : List Nat) (j : Fin c) (h : ∀ o ∈ outputs, ∀ j, 0 ≤ o j) : 0 ≤ nbMean outputs nb j := by
  refine div_nonneg (List.sum_nonneg fun x hx => ?_) (Nat.cast_nonneg _)
  obtain ⟨i, -, rfl⟩ := List.mem_map.1 hx
  rw [List.getD_eq_getElem?_getD]
  rcases lt_or_ge i outputs.length with hi | hi
  · rw [List.getElem?_eq_getElem hi]; exact h _ (List.getElem_mem hi) j
  · rw [List.getElem?_eq_none hi]; exact le_rfl

/-- C90.  With non-negative remembered outputs and cross-entropies in `[0, B]` the loss lies in `[0, B]`, whenever the call succeeds. -/
theorem C90_range (ce : (Fin c → ℝ) → Nat → ℝ) (topk : List (Option ℝ) → Nat → List Nat) (htop : ∀ l k, k ≤ l.length → IsTopK l k (topk l k))
    (tiny B : ℝ) (htiny : 0 < tiny) (Xt : List (Fin d → ℝ)) (Yt : List (Fin c → ℝ)) (memory : List (Fin d → ℝ)) (outputs : List (Fin c → ℝ))
    (batch : List Nat) (kk : Nat) (hc : 0 < c) (hlen : Yt.length = Xt.length) (hout : outputs.length = memory.length)
    (hb : ∀ i ∈ batch, i < memory.length)
    (hk : kk ≤ ((List.range memory.length).filter (fun i => decide (i ∉ batch))).length)
    (hpos : ∀ o ∈ outputs, ∀ j, 0 ≤ o j) (hce : ∀ y ∈ Yt, ∀ j, 0 ≤ ce y j ∧ ce y j ≤ B) (hB : 0 ≤ B) :
    ∃ v, DL.nap Real.sqrt ce topk tiny Xt Yt memory outputs batch kk = .ok v ∧ 0 ≤ v ∧ v ≤ B := by
  obtain ⟨nb, p, -, h⟩ := C90_nap ce topk htop tiny Xt Yt memory outputs batch kk hc hlen hout hb hk
  have hw : 0 ≤ (Xt.map (fun x => nbMean outputs (nb x) (p x))).sum := List.sum_nonneg fun x hx => by
    obtain ⟨z, -, rfl⟩ := List.mem_map.1 hx; exact DL.nbMean_nonneg _ _ _ hpos
  refine ⟨_, h, div_nonneg (List.sum_nonneg fun x hx => ?_) (by linarith), ?_⟩
  · obtain ⟨q, hq, rfl⟩ := List.mem_map.1 hx
    exact mul_nonneg (DL.nbMean_nonneg _ _ _ hpos) (hce _ (List.of_mem_zip hq).2 _).1
  · rw [div_le_iff₀ (by linarith)]
    have h1 : ((Xt.zip Yt).map (fun q => nbMean outputs (nb q.1) (p q.1) * ce q.2 (p q.1))).sum ≤
        ((Xt.zip Yt).map (fun q => nbMean outputs (nb q.1) (p q.1) * B)).sum := by
      refine List.sum_le_sum fun q hq => ?_
      exact mul_le_mul_of_nonneg_left (hce _ (List.of_mem_zip hq).2 _).2 (DL.nbMean_nonneg _ _ _ hpos)
    have h2 : (Xt.zip Yt).map (fun q => nbMean outputs (nb q.1) (p q.1) * B) = Xt.map (fun x => nbMean outputs (nb x) (p x) * B) := by
      have := List.map_fst_zip (l₁ := Xt) (l₂ := Yt) (by omega)
      conv_rhs => rw [← this, List.map_map]
      rfl
    rw [h2, List.sum_map_mul_right] at h1
    nlinarith

/-- Such a choice of neighbours exists, and two of three remembered rows lie outside the batch `[0]`. -/
example (ce : (Fin 2 → ℝ) → Nat → ℝ) (hce : ∀ y j, 0 ≤ ce y j ∧ ce y j ≤ 7) : ∃ topk v,
    DL.nap Real.sqrt ce topk 1 [![(0 : ℝ)]] [![0, 0]] [![0], ![1], ![5]] [![1, 0], ![0, 1], ![1, 0]] [0] 1 = .ok v ∧ 0 ≤ v ∧ v ≤ 7 := by
  obtain ⟨topk, h⟩ := DL.exists_topk
  refine ⟨topk, C90_range ce topk h 1 7 one_pos _ _ _ _ _ _ (by norm_num) rfl rfl (by simp) (by decide) ?_ (fun y _ => hce y) (by norm_num)⟩
  intro o ho j
  simp only [List.mem_cons, List.not_mem_nil, or_false] at ho
  rcases ho with rfl | rfl | rfl <;> fin_cases j <;> norm_num

/-- Three remembered rows on a line, the batch is the row 0, one neighbour: the row 1 is taken although row 0 is at distance 0. -/
example (nb : List Nat) (h : KNearest [![0], ![1], ![5]] [0] 1 ![0] nb) : nb = [1] := by
  obtain ⟨-, h2, h3, h4⟩ := h
  obtain ⟨i, rfl⟩ := List.length_eq_one_iff.1 h2
  have h5 := h3 i (by simp)
  simp only [List.length_cons, List.length_nil, List.mem_cons, List.not_mem_nil, or_false] at h5
  have : i = 1 ∨ i = 2 := by omega
  rcases this with rfl | rfl
  · rfl
  · have h6 := h4 2 (by simp) 1 (by simp) (by simp) (by simp)
    simp [eucl] at h6

/-- C90.  When the batch covers the whole memory, all distances are infinite and the neighbours (rows of the batch itself) are chosen
without regard to the features: two calls that differ in all features give the same result. -/
theorem C90_blind_counterexample {K : Type} [Field K] [LinearOrder K] (sqrt : K → K) (ce : (Fin c → K) → Nat → K)
    (topk : List (Option K) → Nat → List Nat) (tiny : K) (Xt Xt' : List (Fin d → K)) (Yt : List (Fin c → K)) (memory memory' : List (Fin d → K))
    (outputs : List (Fin c → K)) (batch : List Nat) (kk : Nat) (hX : Xt'.length = Xt.length) (hm : memory'.length = memory.length)
    (hb : ∀ i < memory.length, i ∈ batch) :
    DL.nap sqrt ce topk tiny Xt Yt memory outputs batch kk = DL.nap sqrt ce topk tiny Xt' Yt memory' outputs batch kk := by
  have hconst : ∀ (m : List (Fin d → K)) (x : Fin d → K), m.length = memory.length → DL.memDist sqrt m batch x = List.replicate memory.length none := by
    intro m x hl
    apply List.ext_getElem
    · simp [DL.memDist, hl]
    · intro i h1 h2
      simp only [DL.memDist, List.length_mapIdx] at h1
      simp [DL.memDist, hb i (by omega)]
  have hrows : ∀ (X : List (Fin d → K)) (m : List (Fin d → K)), m.length = memory.length → X.length = Xt.length →
      X.map (fun x => List.ofFn (DL.neighbourMean outputs (topk (DL.memDist sqrt m batch x) kk) kk)) =
        List.replicate Xt.length (List.ofFn (DL.neighbourMean outputs (topk (List.replicate memory.length none) kk) kk)) := by
    intro X m hl hx
    rw [List.eq_replicate_iff]
    refine ⟨by simp [hx], fun r hr => ?_⟩
    obtain ⟨x, -, rfl⟩ := List.mem_map.1 hr
    rw [hconst m x hl]
  unfold DL.nap
  simp only [hrows Xt memory rfl rfl, hrows Xt' memory' hm hX, hm, hX]

/-- C90.  A batch position outside the memory is an `IndexError`, more neighbours than remembered rows a `RuntimeError`. -/
theorem C90_errors {K : Type} [Field K] [LinearOrder K] (sqrt : K → K) (ce : (Fin c → K) → Nat → K) (topk : List (Option K) → Nat → List Nat)
    (tiny : K) (Xt : List (Fin d → K)) (Yt : List (Fin c → K)) (memory : List (Fin d → K)) (outputs : List (Fin c → K)) (batch : List Nat) (kk : Nat) :
    (∀ i ∈ batch, memory.length ≤ i → DL.nap sqrt ce topk tiny Xt Yt memory outputs batch kk = .error .indexError) ∧
    ((∀ i ∈ batch, i < memory.length) → memory.length < kk → DL.nap sqrt ce topk tiny Xt Yt memory outputs batch kk = .error .runtimeError) ∧
    ((∀ i ∈ batch, i < memory.length) → outputs.length ≠ memory.length →
      DL.nap sqrt ce topk tiny Xt Yt memory outputs batch kk = .error .runtimeError) := by
  refine ⟨?_, ?_, ?_⟩
  · intro i hi hle
    unfold DL.nap
    rw [if_pos (List.any_eq_true.2 ⟨i, hi, by simpa using hle⟩)]
  · intro hb hlt
    unfold DL.nap
    rw [if_neg (by simp only [List.any_eq_true, decide_eq_true_eq, not_exists, not_and, not_le]; exact hb), if_pos hlt]
  · intro hb hne
    unfold DL.nap
    rw [if_neg (by simp only [List.any_eq_true, decide_eq_true_eq, not_exists, not_and, not_le]; exact hb)]
    split_ifs <;> rfl

/-- Five neighbours (the default) from a memory of four rows. -/
example (ce : (Fin 2 → ℚ) → Nat → ℚ) (topk : List (Option ℚ) → Nat → List Nat) :
    DL.nap (fun x => x) ce topk 0 [![1]] [![0, 0]] [![0], ![1], ![2], ![3]] [0, 0, 0, 0] [1] 5 = .error .runtimeError :=
  (C90_errors (fun x => x) ce topk 0 [![1]] [![0, 0]] [![0], ![1], ![2], ![3]] [0, 0, 0, 0] [1] 5).2.1 (by simp) (by simp)

end Skada

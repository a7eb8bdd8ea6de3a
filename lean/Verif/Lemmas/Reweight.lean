/- Helper lemmas for the reweighting adapters. -/
import Verif.Model.Reweight
import Verif.Lemmas.SplitMerge
import Verif.Lemmas.FrankWolfe
import Verif.Props.Domain
import Verif.Props.SplitMerge
import Mathlib.Algebra.BigOperators.Field

set_option linter.unusedSectionVars false

namespace Skada
open Np Spec

namespace Spec

variable {K : Type} [Field K] [LinearOrder K]

/-- A weight vector aligned with the samples: finite and non-negative on source rows, zero on target rows. -/
def SourceWeights (sd : List Int) (w : List (Option K)) : Prop :=
  w.length = sd.length ∧ ∀ (i : Nat) (d : Int), sd[i]? = some d →
    (d < 0 → w[i]? = some (some 0)) ∧ (0 ≤ d → ∃ v : K, w[i]? = some (some v) ∧ 0 ≤ v)

/-- The sum of the weights of the source rows. -/
def sourceSum (sd : List Int) (w : List (Option K)) : K := ((sourceRows sd w).map (·.getD 0)).sum

end Spec

namespace Np

/-- Writing mapped selected values back to the selected positions of a constant array. -/
theorem putAll_nonzeroFrom {α β : Type} (z : β) (g : α → β) (m : List Bool) (X : List α) (pre : List β)
    (h : m.length = X.length) :
    putAll (pre ++ List.replicate X.length z) ((nonzeroFrom pre.length m).zip ((sel m X).map g))
      = pre ++ List.zipWith (fun b x => if b then g x else z) m X := by
  induction m generalizing X pre with
  | nil => cases X <;> simp [nonzeroFrom, sel, putAll] at *
  | cons b m ih =>
    cases X with
    | nil => simp at h
    | cons x X =>
      have h' : m.length = X.length := by simpa using h
      cases b with
      | false =>
        have := ih X (pre ++ [z]) h'
        simp only [List.length_append, List.length_cons, List.length_nil, Nat.zero_add] at this
        simp only [nonzeroFrom, sel, List.length_cons, List.replicate_succ, List.zipWith_cons_cons]
        rw [List.append_cons, this]
        simp
      | true =>
        have := ih X (pre ++ [g x]) h'
        simp only [List.length_append, List.length_cons, List.length_nil, Nat.zero_add] at this
        simp only [nonzeroFrom, sel, List.map_cons, List.zip_cons_cons, putAll, List.length_cons,
          List.replicate_succ, List.zipWith_cons_cons]
        have e : (pre ++ z :: List.replicate X.length z).set pre.length (g x)
            = (pre ++ [g x]) ++ List.replicate X.length z := by simp
        rw [e, this]
        simp

theorem idxAssign_flatnonzero {α β : Type} (z : β) (g : α → β) (m : List Bool) (X : List α)
    (h : m.length = X.length) :
    idxAssign (List.replicate X.length z) (flatnonzero m) ((sel m X).map g)
      = .ok (List.zipWith (fun b x => if b then g x else z) m X) := by
  rw [idxAssign_ok]
  · have := putAll_nonzeroFrom z g m X [] h
    simpa [flatnonzero] using this
  · intro i hi
    rw [mem_flatnonzero] at hi
    have := (List.getElem?_eq_some_iff.1 hi).1
    simp; omega
  · rw [List.length_map, length_sel h, length_flatnonzero]

end Np

namespace RW

variable {α : Type} {K : Type} [Field K] [LinearOrder K]

theorem check_ok {X : List α} {sd : List Int} (hX : X ≠ []) (hlen : sd.length = X.length) :
    checkXDomain X (.vec sd) {} = .ok (X, sd) := (C09_check_X_domain X hX).2.2.2.2 sd hlen

theorem sd_ne {X : List α} {sd : List Int} (hX : X ≠ []) (hlen : sd.length = X.length) : sd ≠ [] := by
  rintro rfl
  exact hX (List.length_eq_zero_iff.1 hlen.symm)

theorem sourceIdx_ok {sd : List Int} (h : sd ≠ []) :
    sourceIdx sd = .ok (flatnonzero (sd.map (fun d => decide (0 ≤ d)))) := by
  simp [sourceIdx, extractSourceIndices_ok h]

theorem take_sourceIdx {X : List α} {sd : List Int} (hlen : sd.length = X.length) :
    take X (flatnonzero (sd.map (fun d => decide (0 ≤ d)))) = .ok (sourceRows sd X) := by
  rw [take_flatnonzero (by simpa using hlen), sel_source]

theorem splitX_ok {X : List α} {sd : List Int} (hsd : sd ≠ []) (hlen : sd.length = X.length) :
    splitX X sd = .ok (sourceRows sd X, targetRows sd X) := by
  simp [splitX, C05_split_value [some X] sd (by simp) hsd (by simp [hlen])]

theorem scatter_ok {X : List α} {sd : List Int} (g : α → Option K) (hlen : sd.length = X.length) :
    scatterZeros X.length (flatnonzero (sd.map (fun d => decide (0 ≤ d)))) ((sourceRows sd X).map g)
      = .ok (List.zipWith (fun d x => if 0 ≤ d then g x else some 0) sd X) := by
  rw [scatterZeros, ← sel_source, idxAssign_flatnonzero _ _ _ _ (by simpa using hlen)]
  congr 1
  rw [List.zipWith_map_left]
  simp

theorem getElem?_rowWeights {β : Type} {X : List α} {sd : List Int} (g : α → β) (z : β)
    {i : Nat} {d : Int} {x : α} (hd : sd[i]? = some d) (hx : X[i]? = some x) :
    (List.zipWith (fun d x => if 0 ≤ d then g x else z) sd X)[i]?
      = some (if 0 ≤ d then g x else z) := by
  rw [List.getElem?_zipWith, hd, hx]

theorem exists_row {X : List α} {sd : List Int} (hlen : sd.length = X.length) {i : Nat} {d : Int}
    (hd : sd[i]? = some d) : ∃ x, X[i]? = some x := by
  have := (List.getElem?_eq_some_iff.1 hd).1
  exact ⟨X[i], List.getElem?_eq_getElem (by omega)⟩

theorem mem_sourceRows_of {X : List α} {sd : List Int} {i : Nat} {d : Int} {x : α}
    (hd : sd[i]? = some d) (h0 : 0 ≤ d) (hx : X[i]? = some x) : x ∈ sourceRows sd X := by
  unfold sourceRows
  rw [List.mem_map]
  refine ⟨(d, x), ?_, rfl⟩
  rw [List.mem_filter]
  refine ⟨?_, by simpa using h0⟩
  apply List.mem_of_getElem? (i := i)
  rw [List.getElem?_zip_eq_some (z := (d, x))]
  exact ⟨hd, hx⟩

theorem sourceWeights_ok {X : List α} {sd : List Int} (g : α → K) (hlen : sd.length = X.length)
    (hg : ∀ x ∈ sourceRows sd X, 0 ≤ g x) :
    SourceWeights sd (List.zipWith (fun d x => if 0 ≤ d then some (g x) else some 0) sd X) := by
  refine ⟨by simp [hlen], fun i d hd => ?_⟩
  obtain ⟨x, hx⟩ := exists_row hlen hd
  rw [getElem?_rowWeights (fun x => some (g x)) _ hd hx]
  constructor
  · intro h; rw [if_neg (by omega)]
  · intro h; rw [if_pos h]; exact ⟨g x, rfl, hg x (mem_sourceRows_of hd h hx)⟩

theorem sourceRows_zipWith {β : Type} (X : List α) (sd : List Int) (g : α → β) (z : β) :
    sourceRows sd (List.zipWith (fun d x => if 0 ≤ d then g x else z) sd X) = (sourceRows sd X).map g := by
  induction sd generalizing X with
  | nil => rfl
  | cons d sd ih =>
    cases X with
    | nil => rfl
    | cons x X =>
      by_cases h : 0 ≤ d
      · simpa [sourceRows, h] using ih X
      · simpa [sourceRows, h] using ih X

theorem sourceSum_ok (X : List α) (sd : List Int) (g : α → K) :
    sourceSum sd (List.zipWith (fun d x => if 0 ≤ d then some (g x) else some 0) sd X)
      = ((sourceRows sd X).map g).sum := by
  rw [sourceSum, sourceRows_zipWith X sd (fun x => some (g x)) (some 0), List.map_map]
  rfl

omit [LinearOrder K] in
theorem sum_map_div (l : List α) (f : α → K) (c : K) : (l.map (fun x => f x / c)).sum = (l.map f).sum / c := by
  induction l with
  | nil => simp
  | cons x l ih => simp [ih, add_div]

omit [LinearOrder K] in
/-- Dividing by the mean gives mean one. -/
theorem sum_div_mean {l : List α} {f : α → K} (hm : mean (l.map f) ≠ 0) :
    (l.map (fun x => f x / mean (l.map f))).sum = (l.length : K) := by
  rw [sum_map_div]
  unfold mean at *
  rw [List.length_map] at *
  have h1 : (l.map f).sum ≠ 0 := fun h => hm (by rw [h, zero_div])
  have h2 : (l.length : K) ≠ 0 := fun h => hm (by rw [h, div_zero])
  field_simp

variable [IsStrictOrderedRing K]

theorem sum_nonneg' {l : List K} (h : ∀ x ∈ l, 0 ≤ x) : 0 ≤ l.sum := by
  induction l with
  | nil => simp
  | cons x l ih =>
    rw [List.sum_cons]
    exact add_nonneg (h x (by simp)) (ih fun y hy => h y (by simp [hy]))

theorem mean_nonneg {l : List K} (h : ∀ x ∈ l, 0 ≤ x) : 0 ≤ mean l :=
  div_nonneg (sum_nonneg' h) (Nat.cast_nonneg _)

theorem mean_pos {l : List K} (h : ∀ x ∈ l, 0 ≤ x) (hne : ∃ x ∈ l, x ≠ 0) : 0 < mean l := by
  have hs : 0 < l.sum := by
    obtain ⟨x, hx, hx0⟩ := hne
    have hle : ∀ (l : List K), (∀ y ∈ l, 0 ≤ y) → ∀ x ∈ l, x ≤ l.sum := by
      intro l
      induction l with
      | nil => intro _ x hx; simp at hx
      | cons y l ih =>
        intro h x hx
        rw [List.sum_cons]
        rcases List.mem_cons.1 hx with rfl | hx
        · linarith [sum_nonneg' (l := l) fun z hz => h z (by simp [hz])]
        · linarith [ih (fun z hz => h z (by simp [hz])) x hx, h y (by simp)]
    exact lt_of_lt_of_le (lt_of_le_of_ne (h x hx) (Ne.symm hx0)) (hle l h x hx)
  have hl : 0 < l.length := by
    obtain ⟨x, hx, _⟩ := hne
    exact List.length_pos_of_mem hx
  exact div_pos hs (by exact_mod_cast hl)

theorem mean_zero {l : List K} (h : ∀ x ∈ l, x = 0) : mean l = 0 := by
  have : l.sum = 0 := by
    induction l with
    | nil => simp
    | cons x l ih => rw [List.sum_cons, h x (by simp), ih fun y hy => h y (by simp [hy])]; simp
  rw [mean, this, zero_div]

theorem batch_ok {β : Type} {f : α → β} {X : List α} (h : X ≠ []) : batch f X = .ok (X.map f) := by
  simp [batch, h]

theorem sourceRows_ne {X : List α} {sd : List Int} (hlen : sd.length = X.length) (h : 0 < nSource sd) :
    sourceRows sd X ≠ [] := by
  intro e
  have := length_sourceRows hlen (a := X)
  rw [e] at this
  simp at this
  omega

theorem targetRows_ne {X : List α} {sd : List Int} (hlen : sd.length = X.length) (h : 0 < nTarget sd) :
    targetRows sd X ≠ [] := by
  intro e
  have := length_targetRows hlen (a := X)
  rw [e] at this
  simp at this
  omega

theorem normaliseMean_eq (l : List α) (f : α → K) :
    normaliseMean (l.map f) = if mean (l.map f) ≠ 0 then l.map (fun x => some (f x / mean (l.map f)))
      else l.map (fun _ => fdiv 1 (l.length : K)) := by
  unfold normaliseMean
  split
  · rename_i h
    simp only [List.map_map]
    apply List.map_congr_left
    intro x _
    simp [fdiv, h]
  · simp only [List.map_map, List.length_map]
    rfl

/-- `densityWeights` in closed form. -/
theorem densityWeights_eq (exp : K → K) (fs ft : α → K) {X : List α} {sd : List Int} (hX : X ≠ [])
    (hlen : sd.length = X.length) (hs : 0 < nSource sd) :
    densityWeights exp (fs, ft) X (.vec sd) =
      let sw := (sourceRows sd X).map (fun x => exp (ft x - fs x))
      .ok (List.zipWith (fun d x => if 0 ≤ d then
        (if mean sw ≠ 0 then some (exp (ft x - fs x) / mean sw)
          else fdiv 1 (nSource sd : K)) else some 0) sd X) := by
  have hne := sourceRows_ne hlen hs
  have e : List.zipWith (fun t s => exp (t - s)) ((sourceRows sd X).map ft) ((sourceRows sd X).map fs)
      = (sourceRows sd X).map (fun x => exp (ft x - fs x)) := by
    rw [List.zipWith_map, List.zipWith_self]
  unfold densityWeights
  rw [check_ok hX hlen]
  simp only [bind, Except.bind, sourceIdx_ok (sd_ne hX hlen), take_sourceIdx hlen, batch_ok hne, e]
  rw [normaliseMean_eq, length_sourceRows hlen]
  split
  · rename_i h
    rw [scatter_ok (fun x => some (exp (ft x - fs x) / _)) hlen]
  · rename_i h
    rw [scatter_ok (fun _ => fdiv 1 (nSource sd : K)) hlen]

/-! ### KLIEP -/

namespace Kliep
variable {m : Nat} {P : Kliep α K m}

theorem b_pos (hk : ∀ x c, 0 < P.k x c) (hs : P.Xs ≠ []) (j : Fin m) : 0 < P.b j := by
  obtain ⟨x, hx⟩ := List.exists_mem_of_ne_nil _ hs
  apply mean_pos
  · intro y hy
    obtain ⟨z, _, rfl⟩ := List.mem_map.1 hy
    exact (hk z _).le
  · exact ⟨_, List.mem_map.2 ⟨x, hx, rfl⟩, (hk x _).ne'⟩

theorem kernelAt_pos (hk : ∀ x c, 0 < P.k x c) {a : Fin m → K} (h0 : ∀ j, 0 ≤ a j) (h1 : ∃ j, 0 < a j) (x : α) :
    0 < P.kernelAt a x := by
  obtain ⟨j, hj⟩ := h1
  exact Finset.sum_pos' (fun i _ => mul_nonneg (hk _ _).le (h0 i)) ⟨j, Finset.mem_univ _, mul_pos (hk _ _) hj⟩

theorem step_spec (hk : ∀ x c, 0 < P.k x c) (hs : P.Xs ≠ []) (eps : K) {a : Fin m → K}
    (h0 : ∀ j, 0 ≤ a j) (h1 : ∃ j, 0 < a j) :
    ∃ a', P.step eps a = some a' ∧ (∀ j, 0 ≤ a' j) ∧ ∑ j, P.b j * a' j = 1 := by
  have hb := b_pos (P := P) hk hs
  obtain ⟨j0, hj0⟩ := h1
  have hany : P.Xt.any (fun x => decide (P.kernelAt a x = 0)) = false := by
    rw [List.any_eq_false]
    intro x _
    simpa using (kernelAt_pos hk h0 ⟨j0, hj0⟩ x).ne'
  have hbb : 0 < ∑ j, P.b j * P.b j :=
    Finset.sum_pos (fun j _ => mul_pos (hb j) (hb j)) ⟨j0, Finset.mem_univ _⟩
  unfold step
  simp only [hany, Bool.false_eq_true, if_false, hbb.ne']
  set a1 : Fin m → K := fun j =>
    a j + eps * (P.Xt.map (fun x => P.k x (P.centers j) * (1 / P.kernelAt a x))).sum with ha1
  set bb := ∑ j, P.b j * P.b j with hbbdef
  set ba := ∑ j, P.b j * a1 j with hba
  set a2 : Fin m → K := fun j => a1 j + (1 - ba) * P.b j / bb with ha2
  have hdot : ∑ j, P.b j * a2 j = 1 := by
    have : ∑ j, P.b j * a2 j = ba + (1 - ba) / bb * bb := by
      rw [hba, hbbdef, Finset.mul_sum, ← Finset.sum_add_distrib]
      refine Finset.sum_congr rfl fun j _ => ?_
      simp only [ha2]
      ring
    rw [this, div_mul_cancel₀ _ hbb.ne']
    ring
  set a3 : Fin m → K := fun j => if 0 < a2 j then a2 j else 0 with ha3
  have h3 : ∀ j, 0 ≤ a3 j := by
    intro j
    simp only [ha3]
    split
    · rename_i h; exact h.le
    · exact le_rfl
  have hge : ∀ j, a2 j ≤ a3 j := by
    intro j
    simp only [ha3]
    split
    · exact le_rfl
    · rename_i h; exact not_lt.1 h
  have hbc : 1 ≤ ∑ j, P.b j * a3 j := by
    rw [← hdot]
    exact Finset.sum_le_sum fun j _ => mul_le_mul_of_nonneg_left (hge j) (hb j).le
  have hbc0 : ∑ j, P.b j * a3 j ≠ 0 := by linarith [hbc] |> fun h : (0 : K) < _ => h.ne'
  simp only [bind, Option.bind]
  refine ⟨_, if_neg hbc0, fun j => div_nonneg (h3 j) (by linarith), ?_⟩
  have : ∑ j, P.b j * (a3 j / ∑ j, P.b j * a3 j) = (∑ j, P.b j * a3 j) / ∑ j, P.b j * a3 j := by
    rw [Finset.sum_div]
    exact Finset.sum_congr rfl fun j _ => by rw [mul_div_assoc]
  rw [this, div_self hbc0]

theorem pos_of_dot {a : Fin m → K} (h0 : ∀ j, 0 ≤ a j) (h : ∑ j, P.b j * a j = 1) : ∃ j, 0 < a j := by
  by_contra hc
  have hz : ∀ j, a j = 0 := fun j => le_antisymm (not_lt.1 fun hj => hc ⟨j, hj⟩) (h0 j)
  simp [hz] at h

theorem loop_spec (hk : ∀ x c, 0 < P.k x c) (hs : P.Xs ≠ []) (eps tol : K) (obj : (Fin m → K) → K) (n : Nat) :
    ∀ (o : K) (a : Fin m → K), (∀ j, 0 ≤ a j) → (∃ j, 0 < a j) →
    ∃ a', P.loop eps tol obj (n + 1) o a = some a' ∧ (∀ j, 0 ≤ a' j) ∧ ∑ j, P.b j * a' j = 1 := by
  induction n with
  | zero =>
    intro o a h0 h1
    obtain ⟨a', ha, hn, hd⟩ := step_spec hk hs eps h0 h1
    refine ⟨a', ?_, hn, hd⟩
    simp only [loop, ha, bind, Option.bind]
    split <;> rfl
  | succ n ih =>
    intro o a h0 h1
    obtain ⟨a', ha, hn, hd⟩ := step_spec hk hs eps h0 h1
    rw [loop]
    simp only [ha, bind, Option.bind]
    split
    · exact ⟨a', rfl, hn, hd⟩
    · exact ih _ a' hn (pos_of_dot hn hd)

end Kliep

theorem rowDot_ofFn (k : α → α → K) (centers : List α) (a : Fin centers.length → K) (x : α) :
    rowDot k centers (List.ofFn a) x = ∑ j : Fin centers.length, k x centers[j] * a j := by
  unfold rowDot
  have : List.zipWith (fun c a => k x c * a) centers (List.ofFn a)
      = List.ofFn (fun j : Fin centers.length => k x centers[j] * a j) := by
    apply List.ext_getElem
    · simp
    · intro i h1 h2
      simp
  rw [this, List.sum_ofFn]

theorem sum_map_finset (m : Nat) (l : List α) (f : α → Fin m → K) :
    (l.map (fun x => ∑ j, f x j)).sum = ∑ j, (l.map (fun x => f x j)).sum := by
  induction l with
  | nil => simp
  | cons x l ih => simp [ih, Finset.sum_add_distrib]

theorem sum_map_mul_right' (l : List α) (f : α → K) (c : K) : (l.map (fun x => f x * c)).sum = (l.map f).sum * c := by
  induction l with
  | nil => simp
  | cons x l ih => simp [ih, add_mul]

/-- The mean kernel weight over the source rows is `b · alpha`. -/
theorem sum_kernel {m : Nat} (P : Kliep α K m) (a : Fin m → K) (hs : P.Xs ≠ []) :
    (P.Xs.map (fun x => P.kernelAt a x)).sum = (P.Xs.length : K) * ∑ j, P.b j * a j := by
  unfold Kliep.kernelAt
  rw [sum_map_finset m P.Xs (fun x j => P.k x (P.centers j) * a j), Finset.mul_sum]
  refine Finset.sum_congr rfl fun j _ => ?_
  rw [sum_map_mul_right' P.Xs (fun x => P.k x (P.centers j)) (a j)]
  have hl : (P.Xs.length : K) ≠ 0 := by
    have : 0 < P.Xs.length := List.length_pos_iff.2 hs
    exact_mod_cast this.ne'
  unfold Kliep.b mean
  rw [List.length_map]
  field_simp

/-! ### nearest neighbours -/

theorem getElem?_count_list (n : Nat) (c : K) (pred : List Nat) (i : Nat) (hi : i < n) :
    ((List.range n).map (fun i => c + (pred.count i : K)))[i]? = some (c + (pred.count i : K)) := by
  simp [hi]

theorem addCounts_ok (n : Nat) (c : K) {pred : List Nat} (h : ∀ p ∈ pred, p < n) :
    addCounts (List.replicate n c) pred = .ok ((List.range n).map (fun i => c + (pred.count i : K))) := by
  have hu : ∀ i ∈ unique pred, i < n := fun i hi => h i (mem_unique.1 hi)
  have htake : take (List.replicate n c) (unique pred) = .ok ((unique pred).map (fun _ => c)) := by
    rw [take_ok_iff]
    have : ∀ (l : List Nat), (∀ i ∈ l, i < n) →
        List.Forall₂ (fun i x => (List.replicate n c)[i]? = some x) l (l.map (fun _ => c)) := by
      intro l
      induction l with
      | nil => intro _; exact List.Forall₂.nil
      | cons i l ih =>
        intro hl
        refine List.Forall₂.cons ?_ (ih fun j hj => hl j (by simp [hj]))
        simp [hl i (by simp)]
    exact this _ hu
  unfold addCounts
  simp only [htake]
  have e : List.zipWith (fun o i => o + (pred.count i : K)) ((unique pred).map (fun _ => c)) (unique pred)
      = (unique pred).map (fun i => c + (pred.count i : K)) := by
    rw [List.zipWith_map_left, List.zipWith_self]
  rw [e, idxAssign_ok (by simpa using hu) (by simp)]
  congr 1
  have hz : (unique pred).zip ((unique pred).map (fun i => c + (pred.count i : K)))
      = (unique pred).map (fun i => (i, c + (pred.count i : K))) := by
    generalize unique pred = l
    induction l with
    | nil => rfl
    | cons a l ih => simp [ih]
  rw [hz]
  apply List.ext_getElem?
  intro i
  by_cases hi : i < n
  · rw [getElem?_count_list n c pred i hi]
    have hfst : ((unique pred).map (fun i => (i, c + (pred.count i : K)))).map Prod.fst = unique pred := by
      rw [List.map_map]; exact List.map_id _
    by_cases hm : i ∈ pred
    · apply getElem?_putAll_mem
      · rw [hfst]; exact nodup_unique _
      · exact List.mem_map.2 ⟨i, mem_unique.2 hm, rfl⟩
      · simpa using hi
    · rw [getElem?_putAll_not_mem]
      · simp [hi, List.count_eq_zero_of_not_mem hm]
      · rw [hfst, mem_unique]; exact hm
  · rw [List.getElem?_eq_none, List.getElem?_eq_none]
    · simpa using hi
    · rw [length_putAll]; simpa using hi

theorem putAll_putMask {β : Type} (z : β) (m : List Bool) (vals pre : List β)
    (h : vals.length = m.count true) :
    putAll (pre ++ List.replicate m.length z) ((nonzeroFrom pre.length m).zip vals)
      = pre ++ putMask m (List.replicate m.length z) vals := by
  induction m generalizing vals pre with
  | nil => simp [nonzeroFrom, putAll, putMask]
  | cons b m ih =>
    cases b with
    | false =>
      have := ih vals (pre ++ [z]) (by simpa using h)
      simp only [List.length_append, List.length_cons, List.length_nil, Nat.zero_add] at this
      simp only [nonzeroFrom, List.length_cons, List.replicate_succ, putMask]
      rw [List.append_cons, this]
      simp
    | true =>
      cases vals with
      | nil => simp at h
      | cons v vals =>
        have := ih vals (pre ++ [v]) (by simpa using h)
        simp only [List.length_append, List.length_cons, List.length_nil, Nat.zero_add] at this
        simp only [nonzeroFrom, List.zip_cons_cons, putAll, List.length_cons, List.replicate_succ, putMask]
        have e : (pre ++ z :: List.replicate m.length z).set pre.length v
            = (pre ++ [v]) ++ List.replicate m.length z := by simp
        rw [e, this]
        simp

/-- Assigning per-source values into a constant array. -/
theorem idxAssign_source {β : Type} (z : β) {sd : List Int} {vals : List β} (h : vals.length = nSource sd) :
    ∃ w, idxAssign (List.replicate sd.length z) (flatnonzero (sd.map (fun d => decide (0 ≤ d)))) vals = .ok w ∧
      w.length = sd.length ∧ sourceRows sd w = vals ∧ targetRows sd w = List.replicate (nTarget sd) z := by
  have hc : (sd.map (fun d => decide (0 ≤ d))).count true = nSource sd := count_src sd
  refine ⟨putMask (sd.map (fun d => decide (0 ≤ d))) (List.replicate sd.length z) vals, ?_, ?_, ?_, ?_⟩
  · rw [idxAssign_ok]
    · have := putAll_putMask z (sd.map (fun d => decide (0 ≤ d))) vals [] (by rw [hc, h])
      simpa [flatnonzero] using this
    · intro i hi
      rw [mem_flatnonzero] at hi
      have := (List.getElem?_eq_some_iff.1 hi).1
      simpa using this
    · rw [length_flatnonzero, hc, h]
  · simp [length_putMask]
  · rw [← sel_source, sel_putMask_same]
    · simp
    · rw [hc, h]
  · rw [← sel_target, tgtMask_eq, sel_not_putMask]
    · rw [← tgtMask_eq, sel_target]
      have hl : (targetRows sd (List.replicate sd.length z)).length = nTarget sd :=
        length_targetRows (by simp)
      rw [List.eq_replicate_iff]
      refine ⟨hl, fun b hb => ?_⟩
      rw [← sel_target, sel_map] at hb
      obtain ⟨r, hr, rfl⟩ := List.mem_map.1 hb
      have := (List.of_mem_zip (List.mem_filter.1 hr).1).2
      exact List.eq_of_mem_replicate this
    · simp
    · rw [hc, h]

theorem take_reverse {X : List α} {idx : List Nat} (h : ∀ i ∈ idx, i < X.length) :
    take X (idx.map (fun i => X.length - 1 - i)) = take X.reverse idx := by
  induction idx with
  | nil => rfl
  | cons i idx ih =>
    have hi := h i (by simp)
    have e : X.reverse[i]? = X[X.length - 1 - i]? := List.getElem?_reverse hi
    simp only [List.map_cons, take, e, ih fun j hj => h j (by simp [hj])]

theorem takeInvert_ok {X : List α} {sd : List Int} (hlen : sd.length = X.length) :
    takeInvert X (flatnonzero (sd.map (fun d => decide (0 ≤ d)))) = .ok (sourceRows sd X.reverse) := by
  rw [takeInvert, take_reverse, take_sourceIdx (by simpa using hlen)]
  intro i hi
  rw [mem_flatnonzero] at hi
  have := (List.getElem?_eq_some_iff.1 hi).1
  rw [List.length_map] at this
  omega

theorem sel_append {m m' : List Bool} {a a' : List α} (h : m.length = a.length) :
    sel (m ++ m') (a ++ a') = sel m a ++ sel m' a' := by
  induction m generalizing a with
  | nil => cases a <;> simp [sel] at *
  | cons b m ih =>
    cases a with
    | nil => simp at h
    | cons x a =>
      have h' : m.length = a.length := by simpa using h
      cases b <;> simp [sel, ih h']

theorem sel_reverse {m : List Bool} {a : List α} (h : m.length = a.length) :
    sel m.reverse a.reverse = (sel m a).reverse := by
  induction m generalizing a with
  | nil => cases a <;> simp [sel] at *
  | cons b m ih =>
    cases a with
    | nil => simp at h
    | cons x a =>
      have h' : m.length = a.length := by simpa using h
      rw [List.reverse_cons, List.reverse_cons, sel_append (by simpa using h'), ih h']
      cases b <;> simp [sel]

/-- With a mirror-antisymmetric arrangement the inverted indices are the target positions. -/
theorem sourceRows_reverse {X : List α} {sd : List Int} (hlen : sd.length = X.length)
    (hmir : sd.map (fun d => decide (0 ≤ d)) = (sd.map (fun d => decide (d < 0))).reverse) :
    sourceRows sd X.reverse = (targetRows sd X).reverse := by
  rw [← sel_source, hmir, sel_reverse (by simpa using hlen), sel_target]

theorem nnWeights_ok (knn : List α → α → Nat) (lap : Bool) {X : List α} {sd : List Int} (hX : X ≠ [])
    (hlen : sd.length = X.length) (hs : 0 < nSource sd)
    (hknn : ∀ Xs x, Xs ≠ [] → knn Xs x < Xs.length) :
    ∃ w : List K, nnWeights knn lap X (.vec sd) = .ok w ∧ w.length = X.length ∧
      sourceRows sd w = (List.range (nSource sd)).map (fun i => (if lap then 1 else 0) +
        (((sourceRows sd X.reverse).map (knn (sourceRows sd X))).count i : K)) ∧
      targetRows sd w = List.replicate (nTarget sd) 1 := by
  have hne := sourceRows_ne hlen hs
  have hne' : sourceRows sd X.reverse ≠ [] := sourceRows_ne (by simpa using hlen) hs
  obtain ⟨w, hw, hwl, hws, hwt⟩ := idxAssign_source (1 : K) (sd := sd)
    (vals := (List.range (nSource sd)).map (fun i => (if lap then 1 else 0) +
        (((sourceRows sd X.reverse).map (knn (sourceRows sd X))).count i : K))) (by simp)
  refine ⟨w, ?_, by omega, hws, hwt⟩
  unfold nnWeights
  rw [check_ok hX hlen]
  simp only [bind, Except.bind, sourceIdx_ok (sd_ne hX hlen), take_sourceIdx hlen, takeInvert_ok hlen,
    nnGetWeights, hne, if_false, batch_ok hne']
  rw [length_sourceRows hlen, addCounts_ok, ← hlen]
  · exact hw
  · intro p hp
    obtain ⟨x, _, rfl⟩ := List.mem_map.1 hp
    rw [← length_sourceRows hlen (a := X)]
    exact hknn _ _ hne

theorem sum_count_range (n : Nat) {l : List Nat} (h : ∀ p ∈ l, p < n) :
    ((List.range n).map (fun i => (l.count i : K))).sum = (l.length : K) := by
  induction l with
  | nil => simp
  | cons p l ih =>
    have hp := h p (by simp)
    have e : ∀ i, ((p :: l).count i : K) = (l.count i : K) + (if i = p then 1 else 0) := by
      intro i
      rw [List.count_cons]
      by_cases hip : i = p
      · simp [hip]
      · have : ¬ (p == i) = true := by simpa using fun h => hip h.symm
        simp [hip, this]
    have s : ∀ n, p < n → ((List.range n).map (fun i => if i = p then (1 : K) else 0)).sum = 1 := by
      intro n hn
      induction n with
      | zero => omega
      | succ n ihn =>
        rw [List.range_succ, List.map_append, List.sum_append]
        by_cases hpn : p = n
        · subst hpn
          have z : ((List.range p).map (fun i => if i = p then (1 : K) else 0)).sum = 0 := by
            apply List.sum_eq_zero
            intro x hx
            obtain ⟨i, hi, rfl⟩ := List.mem_map.1 hx
            rw [if_neg]
            have := List.mem_range.1 hi
            omega
          rw [z]; simp
        · rw [ihn (by omega)]
          simp [show ¬ n = p from fun h => hpn h.symm]
    simp only [e, List.sum_map_add, ih fun q hq => h q (by simp [hq]), s n hp]
    simp

end RW
end Skada

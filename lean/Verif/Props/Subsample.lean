/-
C46: the subsampling transformers.
-/
import Verif.Model.Subsample
import Verif.Props.Stratified
import Verif.Lemmas.SelfLabel

namespace Skada
open Np Spec

section Subsample
set_option linter.unusedSectionVars false
variable {α W : Type}

namespace Spec

/-- `b` consists of the entries of `a` at the positions `idx`. -/
def RowsAt {β : Type} (idx : List Nat) (a b : List β) : Prop := List.Forall₂ (fun i x => a[i]? = some x) idx b

/-- The output holds `N` different rows of the input, each with its own label, domain and weight. -/
structure IsSubsample (X : List α) (y : List Num) (sd : List Int) (w : Option (List W)) (N : Nat) (idx : List Nat) (o : Subs.Out α W) :
    Prop where
  nodup : idx.Nodup
  size : idx.length = N
  X : RowsAt idx X o.X
  y : RowsAt idx y o.y
  sd : ∃ l, o.sd = .vec l ∧ RowsAt idx sd l
  w : (w = none ∧ o.w = none) ∨ ∃ v l, w = some v ∧ o.w = some l ∧ RowsAt idx v l

/-- The number of rows asked for: an integer as it is, a fraction rounded down. -/
def wanted (train : Size) (n : Nat) : Int :=
  match train with
  | .none => 0
  | .int k => k
  | .frac q => ⌊q * n⌋

end Spec

/-- Picking valid positions. -/
theorem pick_ok (X : List α) (y : List Num) (sd : List Int) (w : Option (List W)) (idx : List Nat) (hn : idx.Nodup)
    (hi : ∀ i ∈ idx, i < X.length) (hy : y.length = X.length) (hs : sd.length = X.length)
    (hw : ∀ l, w = some l → l.length = X.length) :
    ∃ o, Subs.pick X y sd w idx = .ok o ∧ IsSubsample X y sd w idx.length idx o := by
  obtain ⟨a, ha⟩ := take_ok_of_lt hi
  obtain ⟨b, hb⟩ := take_ok_of_lt (a := y) (fun i h => by rw [hy]; exact hi i h)
  obtain ⟨c, hc⟩ := take_ok_of_lt (a := sd) (fun i h => by rw [hs]; exact hi i h)
  unfold Subs.pick
  rw [ha, hb, hc]
  simp only [ok_bind]
  rw [take_ok_iff] at ha hb hc
  cases w with
  | none => exact ⟨_, rfl, hn, rfl, ha, hb, ⟨c, rfl, hc⟩, .inl ⟨rfl, rfl⟩⟩
  | some v =>
    obtain ⟨e, he⟩ := take_ok_of_lt (a := v) (fun i h => by rw [hw v rfl]; exact hi i h)
    simp only [he, ok_bind]
    rw [take_ok_iff] at he
    exact ⟨_, rfl, hn, rfl, ha, hb, ⟨c, rfl, hc⟩, .inr ⟨v, e, rfl, rfl, he⟩⟩

/-- Sizes accepted by sklearn when only a train size is given. -/
theorem validate_train (n : Nat) (train : Size) (ht : train ≠ .none) :
    (0 < wanted train n ∧ wanted train n < n ∧ (∀ q, train = .frac q → 0 < q ∧ q < 1) →
      validateShuffleSplit n .none train defaultTestSize = .ok ((wanted train n).toNat, n - (wanted train n).toNat)) ∧
    ((∀ q, train = .frac q → q ≤ 0 ∨ 1 ≤ q) → (∀ k, train = .int k → k ≤ 0 ∨ (n : Int) ≤ k) →
      validateShuffleSplit n .none train defaultTestSize = .error .valueError) := by
  constructor
  · rintro ⟨h1, h2, h3⟩
    rcases train with _ | k | q
    · exact absurd rfl ht
    · simp only [wanted] at h1 h2 ⊢
      unfold validateShuffleSplit
      simp only [Size.bad, reduceCtorEq, and_false, if_false, Bool.false_eq_true, Bool.or_eq_true, decide_eq_true_eq,
        Option.getD_some, Option.getD_none]
      rw [if_neg (by omega), if_neg (by omega), if_neg (by omega)]
      congr 2
      omega
    · obtain ⟨q0, q1⟩ := h3 q rfl
      simp only [wanted] at h1 h2 ⊢
      unfold validateShuffleSplit
      simp only [Size.bad, reduceCtorEq, and_false, if_false, Bool.false_eq_true, Bool.or_eq_true, decide_eq_true_eq,
        Option.getD_some, Option.getD_none]
      rw [if_neg (by push Not; exact ⟨q0, q1⟩), if_neg (by omega), if_neg (by omega)]
      congr 2
      omega
  · intro h1 h2
    rcases train with _ | k | q
    · exact absurd rfl ht
    · have := h2 k rfl
      unfold validateShuffleSplit
      simp only [Size.bad, reduceCtorEq, and_false, if_false, Bool.false_eq_true, Bool.or_eq_true, decide_eq_true_eq]
      rw [if_pos (by omega)]
    · have := h1 q rfl
      unfold validateShuffleSplit
      simp only [Size.bad, reduceCtorEq, and_false, if_false, Bool.false_eq_true, Bool.or_eq_true, decide_eq_true_eq]
      rw [if_pos this]

theorem checkXy_vec {X : List α} {y : List Num} {sd : List Int} (hX : X ≠ []) (hy : y.length = X.length) (hs : sd.length = X.length) :
    checkXyDomain X y (.vec sd) {} = .ok (X, y, sd) := by
  have hpos := List.length_pos_iff.2 hX
  unfold checkXyDomain
  rw [if_neg hX, if_neg (by intro h; rw [h] at hy; simp at hy; omega), if_neg (by simp), if_neg (by omega)]
  simp only
  unfold extractSourceIndices
  rw [if_neg (by intro h; rw [h] at hs; simp at hs; omega)]
  simp only [checkFlags_default]

/-- A size that does not ask for all rows. -/
theorem not_keepsAll {train : Size} {n : Nat} (hn : 0 < n) (ht : train ≠ .none) (h1 : wanted train n < n)
    (h3 : ∀ q, train = .frac q → q < 1) : Subs.keepsAll train n = .ok false := by
  rcases train with _ | k | q
  · exact absurd rfl ht
  · simp only [Subs.keepsAll, wanted] at h1 ⊢
    rw [decide_eq_false (by omega)]
  · have := h3 q rfl
    simp only [Subs.keepsAll]
    rw [decide_eq_false]
    have : (1 : ℚ) ≤ n := by exact_mod_cast hn
    linarith

/-- C46 (uniform subsampling). For all data, sizes and shuffles: a size asking for `N` rows, `1 ≤ N < n`, gives `N` different rows with their
own label, domain and weight; a size of at least `n`, an integer or a float, gives everything back unchanged. -/
theorem C46_subsampler_partial (X : List α) (y : List Num) (sd : List Int) (w : Option (List W)) (train : Size) (perm : List Nat)
    (hX : X ≠ []) (hy : y.length = X.length) (hs : sd.length = X.length) (hw : ∀ l, w = some l → l.length = X.length)
    (hp : perm.Perm (List.range X.length)) :
    (train ≠ .none → 0 < wanted train X.length → wanted train X.length < X.length → (∀ q, train = .frac q → 0 < q ∧ q < 1) →
      ∃ o idx, Subs.subsampler X y (.vec sd) w train perm = .ok o ∧
        IsSubsample X y sd w (wanted train X.length).toNat idx o) ∧
    (∀ k : Int, train = .int k → (X.length : Int) ≤ k → Subs.subsampler X y (.vec sd) w train perm = .ok ⟨X, y, .vec sd, w⟩) ∧
    (∀ q : ℚ, train = .frac q → (X.length : ℚ) ≤ q → Subs.subsampler X y (.vec sd) w train perm = .ok ⟨X, y, .vec sd, w⟩) := by
  have hpos := List.length_pos_iff.2 hX
  refine ⟨?_, ?_, ?_⟩
  · intro ht h1 h2 h3
    unfold Subs.subsampler
    rw [checkXy_vec hX hy hs]
    simp only [ok_bind]
    rw [not_keepsAll hpos ht h2 (fun q hq => (h3 q hq).2)]
    simp only [ok_bind, Bool.false_eq_true, if_false]
    unfold Subs.shuffleIdx
    rw [(validate_train _ train ht).1 ⟨h1, h2, h3⟩]
    simp only [ok_bind]
    have hlen : (slice perm (X.length - (wanted train X.length).toNat) (wanted train X.length).toNat).length
        = (wanted train X.length).toNat := length_slice _ (by rw [hp.length_eq, List.length_range]; omega)
    have hnd : perm.Nodup := hp.nodup_iff.2 List.nodup_range
    obtain ⟨o, ho, hsub⟩ := pick_ok X y sd w (slice perm (X.length - (wanted train X.length).toNat) (wanted train X.length).toNat)
      (hnd.sublist ((List.take_sublist _ _).trans (List.drop_sublist _ _)))
      (fun i hi => by simpa using hp.mem_iff.1 (mem_slice hi)) hy hs hw
    rw [hlen] at hsub
    exact ⟨o, _, ho, hsub⟩
  · rintro k rfl hk
    unfold Subs.subsampler
    rw [checkXy_vec hX hy hs]
    simp only [ok_bind, Subs.keepsAll, decide_eq_true hk, if_true]
    rfl
  · rintro q rfl hq
    unfold Subs.subsampler
    rw [checkXy_vec hX hy hs]
    simp only [ok_bind, Subs.keepsAll, decide_eq_true hq, if_true]
    rfl

/-- C46 (documented sizes that are refused). The documentation allows fractions `0 ≤ train_size ≤ 1`. With at least two rows, the fractions
0 and 1 raise `ValueError` for all data and shuffles, as does every integer below 1. -/
theorem C46_bounds_counterexample (X : List α) (y : List Num) (sd : List Int) (w : Option (List W)) (train : Size) (perm : List Nat)
    (hX : 2 ≤ X.length) (hy : y.length = X.length) (hs : sd.length = X.length)
    (ht : train = .frac 0 ∨ train = .frac 1 ∨ ∃ k : Int, k ≤ 0 ∧ train = .int k) :
    Subs.subsampler X y (.vec sd) w train perm = .error .valueError := by
  have hXne : X ≠ [] := by rintro rfl; simp at hX
  have hv : validateShuffleSplit X.length .none train defaultTestSize = .error .valueError := by
    refine (validate_train _ train ?_).2 ?_ ?_
    · rcases ht with rfl | rfl | ⟨k, -, rfl⟩ <;> simp
    · intro q hq
      rcases ht with rfl | rfl | ⟨k, -, rfl⟩
      · injection hq with hq; left; rw [← hq]
      · injection hq with hq; right; rw [← hq]
      · simp at hq
    · intro k hk
      rcases ht with rfl | rfl | ⟨k', h, rfl⟩
      · simp at hk
      · simp at hk
      · injection hk with hk; left; omega
  have hk : Subs.keepsAll train X.length = .ok false := by
    have h2 : (2 : ℚ) ≤ X.length := by exact_mod_cast hX
    rcases ht with rfl | rfl | ⟨k, h, rfl⟩
    · simp only [Subs.keepsAll]; rw [decide_eq_false (by linarith)]
    · simp only [Subs.keepsAll]; rw [decide_eq_false (by linarith)]
    · simp only [Subs.keepsAll]; rw [decide_eq_false (by omega)]
  unfold Subs.subsampler
  rw [checkXy_vec hXne hy hs]
  simp only [ok_bind]
  rw [hk]
  simp only [ok_bind, Bool.false_eq_true, if_false]
  unfold Subs.shuffleIdx
  rw [hv]
  rfl

/-! ### Stratified subsampling -/

theorem groupIdx_length (y : List ℚ) (sd : List Int) : (groupIdx (groupKeys y sd)).length = (y.zip sd).dedup.length := by
  unfold groupIdx
  rw [List.length_map]
  have hk : groupKeys y sd = (y.zip sd).map toLex := by
    unfold groupKeys
    rw [List.zip, List.map_zipWith]
  have hp : (unique (groupKeys y sd)).Perm ((y.zip sd).dedup.map toLex) := by
    rw [List.perm_ext_iff_of_nodup (nodup_unique _)
      ((List.nodup_map_iff toLex.injective).2 (List.nodup_dedup _))]
    intro k
    rw [mem_unique, hk]
    simp
  rw [hp.length_eq, List.length_map]

/-- Exactly when the stratified splitter accepts, and what it gives. -/
theorem strat_train (X : List α) (y : List ℚ) (sd : List Int) (hX : X ≠ []) (hs : sd.length = X.length) (hy : y.length = X.length)
    (train : Size) (ht : train ≠ .none) (h1 : 0 < wanted train X.length) (h2 : wanted train X.length < X.length)
    (h3 : ∀ q, train = .frac q → 0 < q ∧ q < 1) (d : StratDraw)
    (hd : ValidStrat (groupIdx (groupKeys y sd)) (wanted train X.length).toNat (X.length - (wanted train X.length).toNat) d) :
    ((∀ a e, groupSize y sd a e ≠ 1) ∧ (y.zip sd).dedup.length ≤ (wanted train X.length).toNat ∧
      (y.zip sd).dedup.length ≤ X.length - (wanted train X.length).toNat →
      ∃ f, Subs.firstTrain (stratifiedDomainShuffleSplit X y (.vec sd) .none train [d]) = .ok f.1 ∧
        Proportional y sd (wanted train X.length).toNat (X.length - (wanted train X.length).toNat) f) ∧
    (¬ ((∀ a e, groupSize y sd a e ≠ 1) ∧ (y.zip sd).dedup.length ≤ (wanted train X.length).toNat ∧
      (y.zip sd).dedup.length ≤ X.length - (wanted train X.length).toNat) →
      Subs.firstTrain (stratifiedDomainShuffleSplit X y (.vec sd) .none train [d]) = .error .valueError) := by
  have hv := (validate_train X.length train ht).1 ⟨h1, h2, h3⟩
  constructor
  · rintro ⟨c1, c2, c3⟩
    unfold stratifiedDomainShuffleSplit
    rw [checkXDomain_vec hX hs]
    simp only
    rw [if_neg (by simpa using hy), hv]
    simp only
    have hany : ¬ ((groupIdx (groupKeys y sd)).any (fun g => decide (g.length < 2)) = true) := by
      rw [List.any_eq_true]
      rintro ⟨g, hg, hlt⟩
      unfold groupIdx at hg
      obtain ⟨k, hk, rfl⟩ := List.mem_map.1 hg
      obtain ⟨i, hi⟩ := List.mem_iff_getElem?.1 (mem_unique.1 hk)
      have e := groupSize_fibre (y := y) (sd := sd) (ofLex k).1 (ofLex k).2
      have hk2 : toLex ((ofLex k).1, (ofLex k).2) = k := rfl
      rw [hk2] at e
      have hne : (flatnonzero ((groupKeys y sd).map (fun c => decide (c = k)))) ≠ [] := by
        intro h
        have : i ∈ flatnonzero ((groupKeys y sd).map (fun c => decide (c = k))) := mem_fibre.2 hi
        rw [h] at this; simp at this
      have hp := List.length_pos_iff.2 hne
      have := c1 (ofLex k).1 (ofLex k).2
      simp only [decide_eq_true_eq] at hlt
      omega
    rw [if_neg hany, if_neg (by rw [groupIdx_length]; omega), if_neg (by rw [groupIdx_length]; omega)]
    obtain ⟨f, hf, hf2⟩ := stratFold_ok (y := y) (sd := sd) (by omega) (by omega : 0 < (wanted train X.length).toNat)
      (by omega : 0 < X.length - (wanted train X.length).toNat) (by omega) hd
    refine ⟨f, ?_, hf2⟩
    rw [List.mapM_cons, hf]
    rfl
  · intro hc
    have : stratifiedDomainShuffleSplit X y (.vec sd) .none train [d] = .error .valueError := by
      apply C26_rejects X y sd hX hs hy
      by_contra hno
      apply hc
      push Not at hno
      obtain ⟨n1, n2⟩ := hno
      have := n2 _ _ hv
      exact ⟨n1, this.1, this.2⟩
    rw [this]
    rfl

theorem rowsAt_count (idx : List Nat) (sd l : List Int) (h : RowsAt idx sd l) (d : Int) :
    l.count d = idx.countP (fun i => decide (sd[i]? = some d)) := by
  unfold RowsAt at h
  induction h with
  | nil => rfl
  | @cons i x idx' l' hx _ ih =>
    rw [List.count_cons, List.countP_cons, ih, hx]
    by_cases hxd : x = d
    · simp [hxd]
    · simp [hxd]

theorem groupSize_const (sd : List Int) (d : Int) : groupSize (sd.map (fun _ => 0)) sd 0 d = sd.count d := by
  unfold groupSize
  have : ∀ i ∈ List.range (sd.map (fun _ => (0 : ℚ))).length, inGroup (sd.map (fun _ => 0)) sd 0 d i = decide (sd[i]? = some d) := by
    intro i hi
    have hlt : i < sd.length := by simpa using hi
    unfold inGroup
    rw [List.getElem?_map, List.getElem?_eq_getElem hlt]
    simp
  rw [List.countP_congr (fun i hi => by rw [this i hi])]
  have h := rowsAt_count (List.range sd.length) sd sd (by
    unfold RowsAt
    rw [List.forall₂_iff_get]
    refine ⟨by simp, fun i h1 h2 => ?_⟩
    simp only [List.get_eq_getElem, List.getElem_range]
    exact List.getElem?_eq_getElem h2) d
  rw [h, List.length_map]

theorem inGroup_const (sd : List Int) (d : Int) (i : Nat) :
    inGroup (sd.map (fun _ => 0)) sd 0 d i = decide (sd[i]? = some d) := by
  unfold inGroup
  rw [List.getElem?_map]
  cases h : sd[i]? with
  | none => simp
  | some e => simp

/-- C46 (domain-stratified subsampling). For all data, sizes and draws sklearn can make: if every domain has at least two rows and neither
the kept nor the dropped rows are fewer than the domains, exactly `N` different rows are kept, each with its own label, domain and
weight, and every domain keeps its proportional share up to less than one row; otherwise `ValueError`. -/
theorem C46_domain_partial (X : List α) (y : List Num) (sd : List Int) (w : Option (List W)) (train : Size) (d : StratDraw)
    (hX : X ≠ []) (hy : y.length = X.length) (hs : sd.length = X.length) (hw : ∀ l, w = some l → l.length = X.length)
    (ht : train ≠ .none) (h1 : 0 < wanted train X.length) (h2 : wanted train X.length < X.length)
    (h3 : ∀ q, train = .frac q → 0 < q ∧ q < 1)
    (hd : ValidStrat (groupIdx (groupKeys (sd.map (fun _ => 0)) sd)) (wanted train X.length).toNat
      (X.length - (wanted train X.length).toNat) d) :
    ((∀ e, sd.count e ≠ 1) ∧ sd.dedup.length ≤ (wanted train X.length).toNat ∧
      sd.dedup.length ≤ X.length - (wanted train X.length).toNat →
      ∃ o idx l, Subs.domainSubsampler X y (.vec sd) w train d = .ok o ∧ IsSubsample X y sd w (wanted train X.length).toNat idx o ∧
        o.sd = .vec l ∧ ∀ e, sd.count e * (wanted train X.length).toNat < X.length * l.count e + X.length ∧
          X.length * l.count e < sd.count e * (wanted train X.length).toNat + X.length) ∧
    (¬ ((∀ e, sd.count e ≠ 1) ∧ sd.dedup.length ≤ (wanted train X.length).toNat ∧
      sd.dedup.length ≤ X.length - (wanted train X.length).toNat) →
      Subs.domainSubsampler X y (.vec sd) w train d = .error .valueError) := by
  have hpos := List.length_pos_iff.2 hX
  have hz : (sd.map (fun _ => (0 : ℚ))).length = X.length := by simpa using hs
  have hzip : ((sd.map (fun _ => (0 : ℚ))).zip sd).dedup.length = sd.dedup.length := by
    have e : (sd.map (fun _ => (0 : ℚ))).zip sd = sd.map (fun v => ((0 : ℚ), v)) := by
      clear hd hz hs
      induction sd with
      | nil => rfl
      | cons a sd ih => rw [List.map_cons, List.zip_cons_cons, ih]; rfl
    rw [e, List.dedup_map_of_injective (fun a b h => by simpa using h), List.length_map]
  have hgs : (∀ a e, groupSize (sd.map (fun _ => 0)) sd a e ≠ 1) ↔ ∀ e, sd.count e ≠ 1 := by
    constructor
    · intro h e; rw [← groupSize_const]; exact h 0 e
    · intro h a e
      by_cases ha : a = 0
      · subst ha; rw [groupSize_const]; exact h e
      · have : groupSize (sd.map (fun _ => 0)) sd a e = 0 := by
          unfold groupSize
          rw [List.countP_eq_zero]
          intro i _
          unfold inGroup
          rw [List.getElem?_map]
          cases sd[i]? with
          | none => simp
          | some v => simp [Ne.symm ha]
        omega
  obtain ⟨s1, s2⟩ := strat_train X (sd.map (fun _ => 0)) sd hX hs hz train ht h1 h2 h3 d hd
  rw [hzip] at s1 s2
  have hrun : Subs.domainSubsampler X y (.vec sd) w train d = (do
      let idx ← Subs.firstTrain (stratifiedDomainShuffleSplit X (sd.map (fun _ => 0)) (.vec sd) .none train [d])
      Subs.pick X y sd w idx) := by
    unfold Subs.domainSubsampler
    rw [checkXy_vec hX hy hs]
    simp only [ok_bind]
    rw [not_keepsAll hpos ht h2 (fun q hq => (h3 q hq).2)]
    rfl
  rw [hrun]
  constructor
  · rintro ⟨c1, c2, c3⟩
    obtain ⟨f, hf, hP⟩ := s1 ⟨hgs.2 c1, c2, c3⟩
    rw [hf]
    simp only [ok_bind]
    have hnd : f.1.Nodup := hP.nodup.sublist (List.sublist_append_left _ _)
    obtain ⟨o, ho, hsub⟩ := pick_ok X y sd w f.1 hnd
      (fun i hi => by have := hP.inRange i (List.mem_append_left _ hi); rwa [hz] at this) hy hs hw
    rw [hP.sizeTrain] at hsub
    obtain ⟨l, hl, hrow⟩ := hsub.sd
    refine ⟨o, f.1, l, ho, hsub, hl, fun e => ?_⟩
    have hc : l.count e = f.1.countP (inGroup (sd.map (fun _ => 0)) sd 0 e) := by
      rw [rowsAt_count _ _ _ hrow]
      apply List.countP_congr
      intro i _
      rw [inGroup_const]
    have t1 := hP.trainLow 0 e
    have t2 := hP.trainHigh 0 e
    rw [groupSize_const, hz, ← hc] at t1 t2
    exact ⟨t1, t2⟩
  · intro hc
    rw [s2 (fun h => hc ⟨hgs.1 h.1, h.2⟩)]
    rfl

/-- C46 (negation: sizes close to all rows). With at least two domains, asking the domain-stratified subsampler for all rows but one raises
`ValueError`, for all data and draws. -/
theorem C46_domain_counterexample (X : List α) (y : List Num) (sd : List Int) (w : Option (List W)) (d : StratDraw)
    (hX : 2 ≤ X.length) (hy : y.length = X.length) (hs : sd.length = X.length) (hw : ∀ l, w = some l → l.length = X.length)
    (h2 : 2 ≤ sd.dedup.length)
    (hd : ValidStrat (groupIdx (groupKeys (sd.map (fun _ => 0)) sd)) (X.length - 1) 1 d) :
    Subs.domainSubsampler X y (.vec sd) w (.int (X.length - 1)) d = .error .valueError := by
  have hwant : (wanted (.int ((X.length : Int) - 1)) X.length).toNat = X.length - 1 := by
    simp only [wanted]; omega
  refine (C46_domain_partial X y sd w (.int (X.length - 1)) d (by rintro rfl; simp at hX) hy hs hw (by simp) (by simp only [wanted]; omega)
    (by simp only [wanted]; omega) (by simp) ?_).2 ?_
  · rw [hwant, show X.length - (X.length - 1) = 1 by omega]; exact hd
  · rintro ⟨-, -, h⟩
    rw [hwant] at h
    omega

/-- C46 (label- and domain-stratified subsampling). The same for groups of equal label and domain, for finite labels. -/
theorem C46_stratified_partial (X : List α) (y : List ℚ) (sd : List Int) (w : Option (List W)) (train : Size) (d : StratDraw)
    (hX : X ≠ []) (hy : y.length = X.length) (hs : sd.length = X.length) (hw : ∀ l, w = some l → l.length = X.length)
    (ht : train ≠ .none) (h1 : 0 < wanted train X.length) (h2 : wanted train X.length < X.length)
    (h3 : ∀ q, train = .frac q → 0 < q ∧ q < 1)
    (hd : ValidStrat (groupIdx (groupKeys y sd)) (wanted train X.length).toNat (X.length - (wanted train X.length).toNat) d) :
    ((∀ a e, groupSize y sd a e ≠ 1) ∧ (y.zip sd).dedup.length ≤ (wanted train X.length).toNat ∧
      (y.zip sd).dedup.length ≤ X.length - (wanted train X.length).toNat →
      ∃ o idx, Subs.stratifiedSubsampler X (y.map Num.fin) (.vec sd) w train d = .ok o ∧
        IsSubsample X (y.map Num.fin) sd w (wanted train X.length).toNat idx o ∧
        ∀ a e, groupSize y sd a e * (wanted train X.length).toNat < X.length * idx.countP (inGroup y sd a e) + X.length ∧
          X.length * idx.countP (inGroup y sd a e) < groupSize y sd a e * (wanted train X.length).toNat + X.length) ∧
    (¬ ((∀ a e, groupSize y sd a e ≠ 1) ∧ (y.zip sd).dedup.length ≤ (wanted train X.length).toNat ∧
      (y.zip sd).dedup.length ≤ X.length - (wanted train X.length).toNat) →
      Subs.stratifiedSubsampler X (y.map Num.fin) (.vec sd) w train d = .error .valueError) := by
  have hpos := List.length_pos_iff.2 hX
  have hfin : Subs.finiteLabels (y.map Num.fin) = .ok y := by
    unfold Subs.finiteLabels
    clear hd hy
    induction y with
    | nil => rfl
    | cons a y ih => rw [List.map_cons, List.mapM_cons, ih]; rfl
  obtain ⟨s1, s2⟩ := strat_train X y sd hX hs hy train ht h1 h2 h3 d hd
  have hrun : Subs.stratifiedSubsampler X (y.map Num.fin) (.vec sd) w train d = (do
      let idx ← Subs.firstTrain (stratifiedDomainShuffleSplit X y (.vec sd) .none train [d])
      Subs.pick X (y.map Num.fin) sd w idx) := by
    unfold Subs.stratifiedSubsampler
    rw [checkXy_vec hX (by simpa using hy) hs]
    simp only [ok_bind]
    rw [not_keepsAll hpos ht h2 (fun q hq => (h3 q hq).2)]
    simp only [ok_bind, Bool.false_eq_true, if_false, hfin]
  rw [hrun]
  constructor
  · intro hc
    obtain ⟨f, hf, hP⟩ := s1 hc
    rw [hf]
    simp only [ok_bind]
    have hnd : f.1.Nodup := hP.nodup.sublist (List.sublist_append_left _ _)
    obtain ⟨o, ho, hsub⟩ := pick_ok X (y.map Num.fin) sd w f.1 hnd
      (fun i hi => by have := hP.inRange i (List.mem_append_left _ hi); rwa [hy] at this) (by simpa using hy) hs hw
    rw [hP.sizeTrain] at hsub
    refine ⟨o, f.1, ho, hsub, fun a e => ?_⟩
    have t1 := hP.trainLow a e
    have t2 := hP.trainHigh a e
    rw [hy] at t1 t2
    exact ⟨t1, t2⟩
  · intro hc
    rw [s2 hc]
    rfl

/-- C46 (negation: masked regression targets). With a single NaN label (the mark of a hidden regression target) the label-stratified subsampler
raises `ValueError` whenever it has to subsample. -/
theorem C46_nan_counterexample (X : List α) (y : List Num) (sd : List Int) (w : Option (List W)) (k : Int) (d : StratDraw)
    (hX : X ≠ []) (hy : y.length = X.length) (hs : sd.length = X.length) (hk : k < X.length) (hn : Num.nan ∈ y) :
    Subs.stratifiedSubsampler X y (.vec sd) w (.int k) d = .error .valueError := by
  have hfin : Subs.finiteLabels y = .error .valueError := by
    unfold Subs.finiteLabels
    apply mapM_error
    · intro v _; cases v <;> simp
    · exact ⟨_, hn, rfl⟩
  unfold Subs.stratifiedSubsampler
  rw [checkXy_vec hX hy hs]
  simp only [ok_bind, Subs.keepsAll, decide_eq_false (not_le.2 hk), Bool.false_eq_true, if_false, hfin]
  rfl

example : Subs.subsampler [10, 20, 30, 40] [.fin 0, .fin 1, .fin 2, .fin 3] (.vec [1, 1, -2, -2]) (some [5, 6, 7, 8]) (.int 2) [3, 1, 2, 0]
    = .ok ⟨[30, 10], [.fin 2, .fin 0], .vec [-2, 1], some [7, 5]⟩ := by decide +kernel
example : Subs.subsampler [10, 20, 30, 40] [.fin 0, .fin 1, .fin 2, .fin 3] (.vec [1, 1, -2, -2]) (none : Option (List ℚ)) (.frac (3 / 5))
    [3, 1, 2, 0] = .ok ⟨[30, 10], [.fin 2, .fin 0], .vec [-2, 1], none⟩ := by decide +kernel
example : Subs.domainSubsampler [10, 20, 30, 40] [.fin 0, .fin 1, .fin 2, .fin 3] (.vec [1, 1, -2, -2]) (some [5, 6, 7, 8]) (.int 2)
    ⟨[1, 1], [1, 1], [[1, 0], [0, 1]], [1, 0], [0, 1]⟩ = .ok ⟨[10, 40], [.fin 0, .fin 3], .vec [1, -2], some [5, 8]⟩ := by decide +kernel

end Subsample
end Skada

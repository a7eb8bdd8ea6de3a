/-
Property C24: `pack_lodo` and `LeaveOneDomainOut`.
-/
import Verif.Props.Splitters

namespace Skada
open Np Spec Registry

variable {α : Type}

namespace Spec

/-- A leave-one-domain-out fold for domain `t`: a valid two-sided split with rows of both sides in both parts, where
rows of domain `t` occur only as target rows and rows of other domains only as source rows. -/
def LodoFold (sd : List Int) (t : Int) (f : List Nat × List Nat) : Prop :=
  (∃ a b c e, 0 < a ∧ 0 < b ∧ 0 < c ∧ 0 < e ∧ TwoSided sd a b c e f) ∧
  ∀ i ∈ f.1 ++ f.2, ∃ d, sd[i]? = some d ∧ (0 ≤ d → d ≠ t) ∧ (d < 0 → d = -t)

/-- Number of rows available as source when `t` is held out. -/
def lodoSources (sd : List Int) (t : Int) : Nat := sd.countP (fun d => decide (0 ≤ d ∧ d ≠ t))

end Spec

theorem mem_lodoDomains {sd : List Int} {t : Int} : t ∈ lodoDomains sd ↔ t ∈ sd ∧ 0 ≤ t := by
  unfold lodoDomains
  rw [sel_map_self, mem_unique, List.mem_filter]
  simp

theorem nodup_lodoDomains (sd : List Int) : (lodoDomains sd).Nodup := nodup_unique _

/-- The rows kept when `t` is held out. -/
theorem lodo_keep {sd : List Int} {t : Int} (ht : t ∈ lodoDomains sd) {d : Int} (hd : d ∈ sd) :
    ((lodoDomains sd).any (fun e => decide (d = if e ≠ t then e else -e)) = true) ↔
      (0 ≤ d ∧ d ≠ t) ∨ d = -t := by
  rw [List.any_eq_true]
  constructor
  · rintro ⟨e, he, h⟩
    rw [decide_eq_true_eq] at h
    by_cases het : e = t
    · right; rw [if_neg (by simpa using het)] at h; omega
    · left
      rw [if_pos het] at h
      have := (mem_lodoDomains.1 he).2
      omega
  · rintro (⟨h1, h2⟩ | h)
    · exact ⟨d, mem_lodoDomains.2 ⟨hd, h1⟩, by simp [h2]⟩
    · exact ⟨t, ht, by simp [h]⟩

theorem lodo_split_sd {sd : List Int} {t : Int} (ht : t ∈ lodoDomains sd) :
    take sd (lodoSplitIdx sd (lodoDomains sd) t) = .ok (sd.filter (fun d => decide ((0 ≤ d ∧ d ≠ t) ∨ d = -t))) := by
  unfold lodoSplitIdx
  rw [take_flatnonzero (by simp), sel_map_self]
  congr 1
  apply List.filter_congr
  intro d hd
  rw [← Bool.coe_iff_coe, lodo_keep ht hd, decide_eq_true_eq]

theorem lodo_counts {sd : List Int} {t : Int} (htp : 0 < t) :
    nSource (sd.filter (fun d => decide ((0 ≤ d ∧ d ≠ t) ∨ d = -t))) = lodoSources sd t ∧
    nTarget (sd.filter (fun d => decide ((0 ≤ d ∧ d ≠ t) ∨ d = -t))) = sd.count (-t) := by
  unfold nSource nTarget lodoSources
  rw [List.countP_filter, List.countP_filter]
  constructor
  · apply List.countP_congr
    intro d _
    simp only [Bool.and_eq_true, decide_eq_true_eq]
    omega
  · unfold List.count
    apply List.countP_congr
    intro d _
    simp only [Bool.and_eq_true, decide_eq_true_eq, beq_iff_eq]
    omega

theorem forall₂_getElem? {α β : Type _} {R : α → β → Prop} {l : List α} {r : List β} (h : List.Forall₂ R l r)
    {i : Nat} {a : α} (ha : l[i]? = some a) : ∃ b, r[i]? = some b ∧ R a b := by
  induction h generalizing i with
  | nil => simp at ha
  | cons h1 _ ih =>
    cases i with
    | zero => simp at ha; subst ha; exact ⟨_, rfl, h1⟩
    | succ i => exact ih (by simpa using ha)

/-- One held-out domain. -/
theorem lodoFold_ok {α : Type} {X : List α} {sd : List Int} (hlen : sd.length = X.length) {t : Int}
    (ht : t ∈ lodoDomains sd) (htp : 0 < t) (test train : Size) {draw : List Nat × List Nat}
    (h1 : draw.1.Perm (List.range (lodoSources sd t))) (h2 : draw.2.Perm (List.range (sd.count (-t)))) :
    (∀ e, bothSizes (lodoSources sd t) (sd.count (-t)) test train = .error e →
      lodoFold X sd (lodoDomains sd) test train t draw = .error .valueError) ∧
    (∀ s u, bothSizes (lodoSources sd t) (sd.count (-t)) test train = .ok (s, u) →
      ∃ f, lodoFold X sd (lodoDomains sd) test train t draw = .ok [f] ∧ LodoFold sd t f) := by
  set idx := lodoSplitIdx sd (lodoDomains sd) t with hidx
  have hidxn : idx.Nodup := nodup_flatnonzero _
  set sds := sd.filter (fun d => decide ((0 ≤ d ∧ d ≠ t) ∨ d = -t)) with hsds
  have hsd : take sd idx = .ok sds := lodo_split_sd ht
  have hall := take_ok_iff.1 hsd
  have hltX : ∀ i ∈ idx, i < X.length := by
    intro i hi
    have := mem_flatnonzero.1 hi
    by_contra hc
    rw [List.getElem?_eq_none (by simp; omega)] at this
    cases this
  obtain ⟨Xs, hXs⟩ := take_ok_of_lt (a := X) hltX
  have hlX : Xs.length = idx.length := (take_ok_iff.1 hXs).length_eq.symm
  have hls : sds.length = idx.length := hall.length_eq.symm
  obtain ⟨c1, c2⟩ := lodo_counts (sd := sd) htp
  rw [← hsds] at c1 c2
  have hunf : lodoFold X sd (lodoDomains sd) test train t draw =
      match stIterIndices Xs sds test train [draw] with
      | .error e => .error e
      | .ok folds => folds.mapM (fun f =>
          match Np.take idx f.1 with
          | .error e => .error e
          | .ok tr => match Np.take idx f.2 with
            | .error e => .error e
            | .ok te => .ok (tr, te)) := by
    unfold lodoFold
    simp only
    rw [← hidx, hXs]
    simp only
    rw [hsd]
    rfl
  have hne_of_ok : ∀ s u, bothSizes (lodoSources sd t) (sd.count (-t)) test train = .ok (s, u) → Xs ≠ [] := by
    intro s u hb he
    obtain ⟨b1, -, -, -⟩ := bothSizes_ok hb
    rw [he] at hlX
    have : sds = [] := List.length_eq_zero_iff.1 (by rw [hls, ← hlX]; rfl)
    rw [this] at c1
    simp [nSource] at c1
    omega
  constructor
  · intro e hb
    rw [hunf]
    unfold stIterIndices
    by_cases hXe : Xs = []
    · subst hXe; simp [checkXDomain]
    · rw [checkXDomain_vec hXe (by omega)]
      simp only [length_sourceIdx, length_targetIdx]
      rw [c1, c2, hb, bothSizes_error hb]
  · intro s u hb
    obtain ⟨b1, b2, -, -⟩ := bothSizes_ok hb
    rw [hunf]
    unfold stIterIndices
    rw [checkXDomain_vec (hne_of_ok s u hb) (by omega)]
    simp only [length_sourceIdx, length_targetIdx]
    rw [c1, c2, hb]
    simp only
    obtain ⟨f, hf, hts⟩ := stFold_ok (sd := sds) (s := s) (t := u) (d := draw)
      ⟨by rw [c1]; exact h1, by rw [c2]; exact h2⟩ (by rw [c1]; exact b1.2.2) (by rw [c2]; exact b2.2.2)
    have hm : [draw].mapM (fun d => stFold sds (s, u) d.1 d.2) = .ok [f] := by
      rw [List.mapM_cons, hf]; rfl
    rw [hm]
    simp only
    have hr1 : ∀ i ∈ f.1, i < idx.length := fun i hi => by
      have := hts.inRange i (List.mem_append_left _ hi); omega
    have hr2 : ∀ i ∈ f.2, i < idx.length := fun i hi => by
      have := hts.inRange i (List.mem_append_right _ hi); omega
    obtain ⟨tr, e1⟩ := take_ok_of_lt hr1
    obtain ⟨te, e2⟩ := take_ok_of_lt hr2
    refine ⟨(tr, te), ?_, ?_⟩
    · rw [List.mapM_cons]
      simp only [e1, e2]
      rfl
    have a1 := take_ok_iff.1 e1
    have a2 := take_ok_iff.1 e2
    -- labels of the original rows
    have hlab : ∀ i j : Nat, idx[i]? = some j → sds[i]? = sd[j]? := by
      intro i j hij
      obtain ⟨d, hd1, hd2⟩ := forall₂_getElem? hall hij
      rw [hd1, hd2]
    have hmap1 : ∀ p : Option Int → Bool, tr.countP (fun j => p sd[j]?) = f.1.countP (fun i => p sds[i]?) := by
      intro p
      have : f.1.map (fun i => p sds[i]?) = tr.map (fun j => p sd[j]?) :=
        forall₂_map_eq a1 (fun i j h => by rw [hlab i j h])
      rw [← count_map_true, ← count_map_true, this]
    have hmap2 : ∀ p : Option Int → Bool, te.countP (fun j => p sd[j]?) = f.2.countP (fun i => p sds[i]?) := by
      intro p
      have : f.2.map (fun i => p sds[i]?) = te.map (fun j => p sd[j]?) :=
        forall₂_map_eq a2 (fun i j h => by rw [hlab i j h])
      rw [← count_map_true, ← count_map_true, this]
    have hin : ∀ j ∈ tr ++ te, j ∈ idx := by
      have g : ∀ (l r : List Nat), List.Forall₂ (fun i x => idx[i]? = some x) l r → ∀ j ∈ r, j ∈ idx := by
        intro l r h
        induction h with
        | nil => simp
        | cons h _ ih =>
          intro j hj
          rcases List.mem_cons.1 hj with rfl | hj
          · exact List.mem_of_getElem? h
          · exact ih j hj
      intro j hj
      rcases List.mem_append.1 hj with hj | hj
      · exact g _ _ a1 j hj
      · exact g _ _ a2 j hj
    have hsplit : ∀ j ∈ tr ++ te, ∃ d, sd[j]? = some d ∧ (0 ≤ d → d ≠ t) ∧ (d < 0 → d = -t) := by
      intro j hj
      have h := mem_flatnonzero.1 (hin j hj)
      rw [List.getElem?_map] at h
      cases hd : sd[j]? with
      | none => rw [hd] at h; cases h
      | some d =>
        rw [hd] at h
        simp only [Option.map_some, Option.some.injEq] at h
        have := (lodo_keep ht (List.mem_of_getElem? hd)).1 h
        refine ⟨d, rfl, ?_, ?_⟩ <;> omega
    refine ⟨⟨s.1, s.2, u.1, u.2, b1.1, b1.2.1, b2.1, b2.2.1, ?_⟩, hsplit⟩
    constructor
    · -- no duplicates
      simp only
      have happ : List.Forall₂ (fun i x => idx[i]? = some x) (f.1 ++ f.2) (tr ++ te) := List.rel_append a1 a2
      have key : ∀ (l r : List Nat), List.Forall₂ (fun i x => idx[i]? = some x) l r → l.Nodup → r.Nodup := by
        intro l r h
        induction h with
        | nil => simp
        | @cons i x l r h hr ih =>
          intro hn
          rw [List.nodup_cons] at hn ⊢
          refine ⟨?_, ih hn.2⟩
          intro hx
          obtain ⟨k, hk, hke⟩ := List.getElem_of_mem hx
          have hkl : k < l.length := by rw [hr.length_eq]; exact hk
          obtain ⟨x', hx', hR⟩ := forall₂_getElem? hr (List.getElem?_eq_getElem hkl)
          rw [List.getElem?_eq_getElem hk, hke] at hx'
          injection hx' with hx'
          subst hx'
          have hil : i < idx.length := by
            by_contra hc; rw [List.getElem?_eq_none (by omega)] at h; cases h
          have := (List.getElem?_inj hil hidxn).1 (h.trans hR.symm)
          exact hn.1 (this ▸ List.getElem_mem hkl)
      exact key _ _ happ hts.nodup
    · intro j hj
      obtain ⟨d, hd, -⟩ := hsplit j hj
      by_contra hc
      rw [List.getElem?_eq_none (by omega)] at hd
      cases hd
    · rw [← hts.srcTrain]; exact hmap1 (fun o => o.any (fun d => decide (0 ≤ d)))
    · rw [← hts.srcTest]; exact hmap2 (fun o => o.any (fun d => decide (0 ≤ d)))
    · rw [← hts.tgtTrain]; exact hmap1 (fun o => o.any (fun d => decide (d < 0)))
    · rw [← hts.tgtTest]; exact hmap2 (fun o => o.any (fun d => decide (d < 0)))

/-- C24 (folds). Labels without 0 (as produced by `pack_lodo`), any random draws: `LeaveOneDomainOut` raises
`ValueError` or returns one leakage-free fold per held-out domain; held-out domains are pairwise distinct source
labels, `min(max_n_splits, number of domains)` many, hence each domain exactly once when `max_n_splits` is large
enough.  If the requested sizes are possible for every domain the call does not raise.
Missing from the full claim: the label 0, see `C24_counterexample`. -/
theorem C24_lodo_folds_partial {α : Type} (X : List α) (sd : List Int) (hX : X ≠ []) (hlen : sd.length = X.length)
    (hnz : ∀ d ∈ sd, d ≠ 0) (maxSplits : Nat) (test train : Size) (π : List Nat)
    (hπ : π.Perm (List.range (sd.filter (fun d => decide (0 ≤ d))).dedup.length))
    (draw : Int → List Nat × List Nat)
    (hdraw : ∀ t ∈ sd, 0 ≤ t → (draw t).1.Perm (List.range (lodoSources sd t)) ∧
      (draw t).2.Perm (List.range (sd.count (-t)))) :
    (leaveOneDomainOut X (.vec sd) maxSplits test train π draw = .error .valueError ∨
     ∃ folds held, leaveOneDomainOut X (.vec sd) maxSplits test train π draw = .ok folds ∧
      held.Nodup ∧ (∀ t ∈ held, t ∈ sd ∧ 0 ≤ t) ∧
      folds.length = min maxSplits (sd.filter (fun d => decide (0 ≤ d))).dedup.length ∧
      folds.length = lodoNSplits sd maxSplits ∧
      ((sd.filter (fun d => decide (0 ≤ d))).dedup.length ≤ maxSplits → ∀ t ∈ sd, 0 ≤ t → t ∈ held) ∧
      List.Forall₂ (LodoFold sd) held folds) ∧
    ((∀ t ∈ sd, 0 ≤ t → ∃ s u, validateShuffleSplit (lodoSources sd t) test train defaultTestSize = .ok s ∧
        validateShuffleSplit (sd.count (-t)) test train defaultTestSize = .ok u) →
      ∃ folds, leaveOneDomainOut X (.vec sd) maxSplits test train π draw = .ok folds) := by
  set n := (sd.filter (fun d => decide (0 ≤ d))).dedup.length with hn
  have hnd : (lodoDomains sd).length = n := by
    apply List.Perm.length_eq
    rw [List.perm_ext_iff_of_nodup (nodup_lodoDomains sd) (List.nodup_dedup _)]
    intro t
    rw [mem_lodoDomains, List.mem_dedup, List.mem_filter, decide_eq_true_eq]
  obtain ⟨all, hall1, hall2⟩ := take_perm (a := lodoDomains sd) (π := π) (by rw [hnd]; exact hπ)
  have hlenall : all.length = n := by rw [hall2.length_eq, hnd]
  -- the held-out domains
  have hheld : take (lodoDomains sd) (lodoOrder (lodoDomains sd).length maxSplits π) = .ok (all.take maxSplits) := by
    rw [hnd]
    unfold lodoOrder
    split_ifs with hlt
    · rw [take_ok_iff] at hall1 ⊢
      exact List.forall₂_take maxSplits hall1
    · rw [hall1, List.take_of_length_le (by omega)]
  have hmem : ∀ t ∈ all.take maxSplits, t ∈ lodoDomains sd := fun t h => hall2.mem_iff.1 (List.mem_of_mem_take h)
  have hpos : ∀ t ∈ lodoDomains sd, 0 < t := by
    intro t ht
    obtain ⟨h1, h2⟩ := mem_lodoDomains.1 ht
    have := hnz t h1
    omega
  have hrun : leaveOneDomainOut X (.vec sd) maxSplits test train π draw =
      match (all.take maxSplits).mapM (fun t => lodoFold X sd (lodoDomains sd) test train t (draw t)) with
      | .error e => .error e
      | .ok fs => .ok fs.flatten := by
    unfold leaveOneDomainOut
    rw [checkXDomain_vec hX hlen]
    simp only
    rw [hheld]
    rfl
  have hcase : ∀ t ∈ all.take maxSplits,
      lodoFold X sd (lodoDomains sd) test train t (draw t) = .error .valueError ∨
      ∃ f, lodoFold X sd (lodoDomains sd) test train t (draw t) = .ok [f] ∧ LodoFold sd t f := by
    intro t ht
    have hm := hmem t ht
    obtain ⟨m1, m2⟩ := mem_lodoDomains.1 hm
    obtain ⟨d1, d2⟩ := hdraw t m1 m2
    obtain ⟨r1, r2⟩ := lodoFold_ok hlen hm (hpos t hm) test train d1 d2
    cases hb : bothSizes (lodoSources sd t) (sd.count (-t)) test train with
    | error e => exact .inl (r1 e hb)
    | ok su => exact .inr (r2 su.1 su.2 hb)
  have hgood : (∀ t ∈ all.take maxSplits, ∃ f, lodoFold X sd (lodoDomains sd) test train t (draw t) = .ok [f] ∧
        LodoFold sd t f) →
      ∃ folds, leaveOneDomainOut X (.vec sd) maxSplits test train π draw = .ok folds ∧
        List.Forall₂ (LodoFold sd) (all.take maxSplits) folds := by
    intro h
    have : ∀ l : List Int, (∀ t ∈ l, ∃ f, lodoFold X sd (lodoDomains sd) test train t (draw t) = .ok [f] ∧
        LodoFold sd t f) → ∃ fs, l.mapM (fun t => lodoFold X sd (lodoDomains sd) test train t (draw t)) = .ok fs ∧
        List.Forall₂ (LodoFold sd) l fs.flatten := by
      intro l
      induction l with
      | nil => intro _; exact ⟨[], rfl, .nil⟩
      | cons t l ih =>
        intro h
        obtain ⟨f, hf, hf2⟩ := h t (by simp)
        obtain ⟨fs, e1, e2⟩ := ih (fun x hx => h x (by simp [hx]))
        refine ⟨[f] :: fs, ?_, ?_⟩
        · rw [List.mapM_cons, hf, e1]; rfl
        · rw [List.flatten_cons]; exact .cons hf2 e2
    obtain ⟨fs, e1, e2⟩ := this _ h
    refine ⟨fs.flatten, ?_, e2⟩
    rw [hrun, e1]
  constructor
  · by_cases hbad : ∃ t ∈ all.take maxSplits,
        lodoFold X sd (lodoDomains sd) test train t (draw t) = .error .valueError
    · left
      have : (all.take maxSplits).mapM (fun t => lodoFold X sd (lodoDomains sd) test train t (draw t))
          = .error .valueError := by
        apply mapM_error _ hbad
        intro t ht
        rcases hcase t ht with h | ⟨f, h, _⟩
        · exact .inr h
        · exact .inl ⟨_, h⟩
      rw [hrun, this]
    · right
      obtain ⟨folds, h1, h2⟩ := hgood (fun t ht => (hcase t ht).resolve_left (fun h => hbad ⟨t, ht, h⟩))
      have hlf : folds.length = min maxSplits n := by
        rw [← h2.length_eq, List.length_take, hlenall]
      refine ⟨folds, all.take maxSplits, h1, ?_, ?_, hlf, ?_, ?_, h2⟩
      · exact (List.take_sublist _ _).nodup (hall2.nodup_iff.2 (nodup_lodoDomains sd))
      · intro t ht; exact mem_lodoDomains.1 (hmem t ht)
      · rw [hlf]; unfold lodoNSplits; rw [hnd]
      · intro hle t ht h0
        rw [List.take_of_length_le (by omega)]
        exact hall2.mem_iff.2 (mem_lodoDomains.2 ⟨ht, h0⟩)
  · intro hsz
    obtain ⟨folds, h, _⟩ := hgood (fun t ht => by
      have hm := hmem t ht
      obtain ⟨m1, m2⟩ := mem_lodoDomains.1 hm
      obtain ⟨d1, d2⟩ := hdraw t m1 m2
      obtain ⟨s, u, v1, v2⟩ := hsz t m1 m2
      refine (lodoFold_ok hlen hm (hpos t hm) test train d1 d2).2 s u ?_
      unfold bothSizes; rw [v1]; simp only; rw [v2])
    exact ⟨folds, h⟩

/-- C24 fails for labels set by hand that contain the label 0: "-0" is again 0, so the fold that should hold out domain
0 has no target rows and the whole iteration raises (skada/model_selection.py:249). -/
theorem C24_counterexample (draw : Int → List Nat × List Nat) :
    leaveOneDomainOut [(0 : Nat), 1, 2, 3, 4, 5] (.vec [0, 0, 1, 1, -1, -1]) 10 .none .none [0, 1] draw
      = .error .valueError := by
  have h1 : checkXDomain [(0 : Nat), 1, 2, 3, 4, 5] (.vec [0, 0, 1, 1, -1, -1]) {} =
      .ok ([0, 1, 2, 3, 4, 5], [0, 0, 1, 1, -1, -1]) := by decide
  have h2 : take (lodoDomains [0, 0, 1, 1, -1, -1]) (lodoOrder (lodoDomains [0, 0, 1, 1, -1, -1]).length 10 [0, 1])
      = .ok [0, 1] := by decide
  have h3 : lodoFold [(0 : Nat), 1, 2, 3, 4, 5] [0, 0, 1, 1, -1, -1] (lodoDomains [0, 0, 1, 1, -1, -1]) .none .none 0
      (draw 0) = .error .valueError := by
    have e1 : lodoSplitIdx [0, 0, 1, 1, -1, -1] (lodoDomains [0, 0, 1, 1, -1, -1]) 0 = [0, 1, 2, 3] := by decide
    unfold lodoFold
    simp only
    rw [e1]
    have e2 : bothSizes 4 0 .none .none = .error .valueError := by decide +kernel
    simp [take, stIterIndices, checkXDomain, extractSourceIndices, checkFlags_default, sourceIdx, targetIdx,
      flatnonzero, nonzeroFrom, e2]
  unfold leaveOneDomainOut
  rw [h1]
  simp only
  rw [h2]
  simp only [List.mapM_cons]
  rw [h3]
  rfl

/-! ### on the output of pack_lodo -/

/-- Rows and labels of packed domains belong together. -/
theorem aligned_flatMap {α β : Type} (l : List β) (f : β → List α) (g : β → Int) (i : Nat) (d : Int)
    (h : (l.flatMap (fun b => List.replicate (f b).length (g b)))[i]? = some d) :
    ∃ b ∈ l, ∃ x ∈ f b, d = g b ∧ (l.flatMap f)[i]? = some x := by
  induction l generalizing i with
  | nil => simp at h
  | cons b l ih =>
    simp only [List.flatMap_cons] at h ⊢
    by_cases hi : i < (f b).length
    · rw [List.getElem?_append_left (by simpa using hi), List.getElem?_replicate, if_pos hi] at h
      injection h with h
      exact ⟨b, by simp, (f b)[i], List.getElem_mem hi, h.symm, by
        rw [List.getElem?_append_left hi, List.getElem?_eq_getElem hi]⟩
    · rw [List.getElem?_append_right (by simpa using hi)] at h
      obtain ⟨b', hb', x, hx, e1, e2⟩ := ih _ h
      refine ⟨b', by simp [hb'], x, hx, e1, ?_⟩
      rw [List.getElem?_append_right (by omega)]
      simpa using e2

theorem id_injOn {L : Reg α} {n1 n2 : String} (h1 : n1 ∈ L.names) (h : L.id n1 = L.id n2) : n1 = n2 := by
  unfold Reg.id at h
  have h' : L.names.idxOf n1 = L.names.idxOf n2 := by omega
  exact (List.idxOf_inj h1).1 h'

/-- C24 (with `pack_lodo`). For a data set of uniquely named domains, pack_lodo succeeds and every fold of
`LeaveOneDomainOut` on its output holds out one named domain: rows of that domain appear only as target rows (and their
label is a mask value when labels are 32/64 bit numbers), rows of the other domains only as source rows. -/
theorem C24_pack_lodo_folds {L : Reg α} (hnd : L.names.Nodup) (hc : L.Consistent) (hne : L ≠ [])
    (hdt : ∀ p ∈ L, ∀ y, p.2.y = some y → y.dtype ≠ .other) :
    ∃ p, (ofReg L).packLodo = .ok p ∧ p.sd.length = p.X.length ∧ p.y.length = p.X.length ∧ (∀ d ∈ p.sd, d ≠ 0) ∧
      ∀ t f, t ∈ p.sd → 0 ≤ t → LodoFold p.sd t f →
        ∃ nm ∈ L.names, t = L.id nm ∧ ∀ i ∈ f.1 ++ f.2, ∃ nm' ∈ L.names, ∃ x ∈ (L.dom nm').X, ∃ v,
          p.X[i]? = some x ∧ p.y[i]? = some v ∧
          ((nm' = nm ∧ p.sd[i]? = some (-(L.id nm)) ∧ (v = .fin (-1) ∨ v = .nan)) ∨
           (nm' ≠ nm ∧ p.sd[i]? = some (L.id nm'))) := by
  have hnames : (ofReg L).names.map Prod.fst = L.names := ofReg_names_fst L
  have hnn : L.names ≠ [] := by
    intro h; exact hne (by simpa [Reg.names] using h)
  obtain ⟨p, hp, hX, hsd, hl1, hl2, hsx, htx, hsy⟩ := C22_pack_content hnd hc L.names L.names (fun _ h => h) (fun _ h => h)
    (.inl hnn) true none
  obtain ⟨p', m, hp', hm, hmask, -⟩ := (C23_pack_masks_partial hnd hc L.names L.names (fun _ h => h) (fun _ h => h)
    (.inl hnn)).2.2 (fun nm hn y hy => hdt _ (dom_mem hnd hn) y hy)
  rw [hp] at hp'
  injection hp' with hp'
  subst hp'
  have hidpos : ∀ nm, 0 < L.id nm := by intro nm; unfold Reg.id; omega
  -- labels row by row
  have hrow : ∀ (i : Nat) (d : Int), p.sd[i]? = some d → ∃ nm ∈ L.names, ∃ x ∈ (L.dom nm).X, p.X[i]? = some x ∧
      (d = L.id nm ∨ d = -(L.id nm)) := by
    intro i d hi
    rw [hsd] at hi
    have hlS := length_flatMap_replicate (L := L) L.names (fun nm => L.id nm)
    by_cases hlt : i < (L.names.flatMap (fun nm => (L.dom nm).X)).length
    · rw [List.getElem?_append_left (by rw [hlS]; exact hlt)] at hi
      obtain ⟨nm, h1, x, h2, h3, h4⟩ := aligned_flatMap L.names (fun nm => (L.dom nm).X) L.id i d hi
      refine ⟨nm, h1, x, h2, ?_, .inl h3⟩
      rw [hX, List.getElem?_append_left hlt]; exact h4
    · rw [List.getElem?_append_right (by rw [hlS]; omega)] at hi
      obtain ⟨nm, h1, x, h2, h3, h4⟩ := aligned_flatMap L.names (fun nm => (L.dom nm).X) (fun nm => -(L.id nm)) _ d hi
      refine ⟨nm, h1, x, h2, ?_, .inr h3⟩
      rw [hX, List.getElem?_append_right (by omega)]
      rw [hlS] at h4
      exact h4
  have hnz : ∀ d ∈ p.sd, d ≠ 0 := by
    intro d hd
    obtain ⟨i, hi, he⟩ := List.getElem_of_mem hd
    obtain ⟨nm, _, _, _, _, h⟩ := hrow i d (by rw [List.getElem?_eq_getElem hi, he])
    have := hidpos nm
    omega
  refine ⟨p, by unfold packLodo; rw [hnames]; exact hp, hl2, hl1, hnz, ?_⟩
  intro t f ht ht0 hf
  obtain ⟨i, hi, he⟩ := List.getElem_of_mem ht
  obtain ⟨nm, hnm, _, _, _, hid⟩ := hrow i t (by rw [List.getElem?_eq_getElem hi, he])
  have htid : t = L.id nm := by have := hidpos nm; omega
  refine ⟨nm, hnm, htid, ?_⟩
  intro j hj
  obtain ⟨d, hd, h1, h2⟩ := hf.2 j hj
  obtain ⟨nm', hnm', x, hx, hxj, hid'⟩ := hrow j d hd
  have hjl : j < p.y.length := by
    have : j < p.sd.length := by
      by_contra hcc; rw [List.getElem?_eq_none (by omega)] at hd; cases hd
    omega
  refine ⟨nm', hnm', x, hx, p.y[j], hxj, List.getElem?_eq_getElem hjl, ?_⟩
  have hp' := hidpos nm'
  rcases hid' with hid' | hid'
  · right
    refine ⟨?_, by rw [hd, hid']⟩
    rintro rfl
    exact h1 (by omega) (by rw [hid', htid])
  · left
    have heq := h2 (by omega)
    have : L.id nm' = L.id nm := by omega
    have hnn' := id_injOn hnm' this
    refine ⟨hnn', by rw [hd, heq, htid], ?_⟩
    have : p.y[j] ∈ targetRows p.sd p.y := by
      unfold targetRows
      refine List.mem_map.2 ⟨(d, p.y[j]), List.mem_filter.2 ⟨?_, by simp; omega⟩, rfl⟩
      apply List.mem_of_getElem? (i := j)
      rw [List.getElem?_zip_eq_some]
      exact ⟨hd, List.getElem?_eq_getElem hjl⟩
    rw [hmask _ this]
    exact hm

example : (ofReg (α := Nat) [("a", ⟨[10, 11], some ⟨.int64, [.fin 0, .fin 1]⟩⟩), ("b", ⟨[20, 21], some ⟨.int64, [.fin 1, .fin 0]⟩⟩)]).packLodo
    = .ok ⟨[10, 11, 20, 21, 10, 11, 20, 21],
      [.fin 0, .fin 1, .fin 1, .fin 0, .fin (-1), .fin (-1), .fin (-1), .fin (-1)], [1, 1, 2, 2, -1, -1, -2, -2]⟩ := by
  decide +kernel
example : leaveOneDomainOut [(10 : Nat), 11, 20, 21, 10, 11, 20, 21] (.vec [1, 1, 2, 2, -1, -1, -2, -2]) 10 .none .none
    [1, 0] (fun _ => ([0, 1], [1, 0])) = .ok [([1, 6], [0, 7]), ([3, 4], [2, 5])] := by decide +kernel

end Skada

/-
Properties C24–C27: the cross-validation splitters.
-/
import Verif.Lemmas.Splitters
import Verif.Props.Dataset

namespace Skada
open Np Spec

/-! ### C25 -/

/-- C25 (sizes). Whatever the requested sizes, the number of train and test rows of one side are positive and fit
into the side, or `ValueError` is raised. Without explicit sizes a side of `n ≥ 2` rows has `⌈n/10⌉` test rows and all
others are train rows; a fraction `q` of test rows gives `⌈q·n⌉`; integer sizes are taken as they are. -/
theorem C25_sizes (n : Nat) :
    (∀ test train, validateShuffleSplit n test train defaultTestSize = .error .valueError ∨
      ∃ a b, validateShuffleSplit n test train defaultTestSize = .ok (a, b) ∧ 0 < a ∧ 0 < b ∧ a + b ≤ n) ∧
    (2 ≤ n → ∃ a b : Nat, validateShuffleSplit n .none .none defaultTestSize = .ok (a, b) ∧
      (b : Int) = ⌈(n : ℚ) / 10⌉ ∧ a + b = n) ∧
    (∀ q : ℚ, 0 < q → q < 1 → ⌈q * n⌉ < n → ∃ a b : Nat, validateShuffleSplit n (.frac q) .none defaultTestSize
      = .ok (a, b) ∧ (b : Int) = ⌈q * n⌉ ∧ a + b = n) ∧
    (∀ a b : Nat, 0 < a → 0 < b → a + b ≤ n →
      validateShuffleSplit n (.int b) (.int a) defaultTestSize = .ok (a, b)) := by
  have hfrac : ∀ q : ℚ, 0 < q → q < 1 → ⌈q * n⌉ < n → ∃ a b : Nat, validateShuffleSplit n (.frac q) .none defaultTestSize
      = .ok (a, b) ∧ (b : Int) = ⌈q * n⌉ ∧ a + b = n := by
    intro q h0 h1 h2
    have hc : 0 ≤ ⌈q * n⌉ := Int.ceil_nonneg (mul_nonneg h0.le (Nat.cast_nonneg n))
    refine ⟨((n : Int) - ⌈q * n⌉).toNat, ⌈q * n⌉.toNat, ?_, by omega, by omega⟩
    unfold validateShuffleSplit
    simp only [Size.bad, reduceCtorEq, false_and, if_false, not_le.2 h0, not_le.2 h1, decide_false, Bool.or_self,
      Bool.false_eq_true, Option.getD_some, Option.getD_none]
    rw [if_neg (by omega), if_neg (by omega)]
  refine ⟨?_, ?_, hfrac, ?_⟩
  · intro test train
    cases h : validateShuffleSplit n test train defaultTestSize with
    | error e => left; rw [validate_error h]
    | ok r => right; exact ⟨r.1, r.2, rfl, validate_ok h⟩
  · intro hn
    have hlt : ⌈defaultTestSize * n⌉ < n := by
      have h2 : (2 : ℚ) ≤ n := by exact_mod_cast hn
      have h1 : ⌈defaultTestSize * n⌉ ≤ (n : Int) - 1 := by
        rw [Int.ceil_le]
        push_cast
        unfold defaultTestSize
        linarith
      omega
    obtain ⟨a, b, h, hb, hab⟩ := hfrac defaultTestSize (by norm_num [defaultTestSize]) (by norm_num [defaultTestSize]) hlt
    refine ⟨a, b, ?_, ?_, hab⟩
    · rw [← h]; simp [validateShuffleSplit]
    · rw [hb]; congr 1; unfold defaultTestSize; ring
  · intro a b ha hb hab
    unfold validateShuffleSplit
    simp only [Size.bad, reduceCtorEq, false_and, if_false, Option.getD_some, Bool.or_eq_true, decide_eq_true_eq,
      Bool.false_eq_true]
    rw [if_neg (by omega), if_neg (by omega), if_neg (by omega), if_neg (by omega)]
    simp

theorem checkXDomain_vec {α : Type} {X : List α} {sd : List Int} (hX : X ≠ []) (hlen : sd.length = X.length) :
    checkXDomain X (.vec sd) {} = .ok (X, sd) := (C09_check_X_domain X hX).2.2.2.2 sd hlen

/-- C25. For every random draw, every fold of `SourceTargetShuffleSplit` is a valid two-sided split with the sizes
prescribed for the numbers of source and target rows (there is one fold per draw, that is `n_splits` folds); if the
sizes are impossible on one side, `ValueError` is raised. -/
theorem C25_folds {α : Type} (X : List α) (sd : List Int) (hX : X ≠ []) (hlen : sd.length = X.length)
    (test train : Size) (draws : List (List Nat × List Nat)) (hd : ∀ d ∈ draws, ValidDraw sd d) :
    (∀ s t, validateShuffleSplit (nSource sd) test train defaultTestSize = .ok s →
      validateShuffleSplit (nTarget sd) test train defaultTestSize = .ok t →
      ∃ folds, sourceTargetShuffleSplit X (.vec sd) test train draws = .ok folds ∧
        folds.length = draws.length ∧ ∀ f ∈ folds, TwoSided sd s.1 s.2 t.1 t.2 f) ∧
    ((validateShuffleSplit (nSource sd) test train defaultTestSize = .error .valueError ∨
      validateShuffleSplit (nTarget sd) test train defaultTestSize = .error .valueError) →
      sourceTargetShuffleSplit X (.vec sd) test train draws = .error .valueError) := by
  have hu : sourceTargetShuffleSplit X (.vec sd) test train draws =
      match bothSizes (nSource sd) (nTarget sd) test train with
      | .error e => .error e
      | .ok sizes => draws.mapM (fun d => stFold sd sizes d.1 d.2) := by
    unfold sourceTargetShuffleSplit stIterIndices
    rw [checkXDomain_vec hX hlen]
    simp only
    rw [checkXDomain_vec hX hlen]
    simp only [length_sourceIdx, length_targetIdx]
    rfl
  rw [hu]
  constructor
  · intro s t hs ht
    have hb : bothSizes (nSource sd) (nTarget sd) test train = .ok (s, t) := by
      unfold bothSizes; rw [hs]; simp only; rw [ht]
    rw [hb]
    simp only
    obtain ⟨h1, h2, -, -⟩ := bothSizes_ok hb
    have hall : ∀ d ∈ draws, ∃ f, stFold sd (s, t) d.1 d.2 = .ok f ∧ TwoSided sd s.1 s.2 t.1 t.2 f :=
      fun d hm => stFold_ok (hd d hm) h1.2.2 h2.2.2
    clear hd hu
    induction draws with
    | nil => exact ⟨[], rfl, rfl, by simp⟩
    | cons d draws ih =>
      obtain ⟨f, hf, hf2⟩ := hall d (by simp)
      obtain ⟨fs, e1, e2, e3⟩ := ih (fun x hx => hall x (by simp [hx]))
      refine ⟨f :: fs, ?_, by simp [e2], ?_⟩
      · rw [List.mapM_cons, hf, e1]; rfl
      · intro g hg
        rcases List.mem_cons.1 hg with rfl | hg
        · exact hf2
        · exact e3 g hg
  · intro h
    cases hb : bothSizes (nSource sd) (nTarget sd) test train with
    | error e => rw [bothSizes_error hb]
    | ok st =>
      obtain ⟨-, -, h1, h2⟩ := bothSizes_ok (s := st.1) (t := st.2) hb
      rcases h with h | h
      · rw [h] at h1; cases h1
      · rw [h] at h2; cases h2

/-- C25 (no `sample_domain`). Without domain labels every row counts as target, so the split is refused. -/
theorem C25_no_domain {α : Type} (X : List α) (test train : Size) (draws : List (List Nat × List Nat)) :
    sourceTargetShuffleSplit X .none test train draws = .error .valueError := by
  unfold sourceTargetShuffleSplit
  by_cases hX : X = []
  · subst hX; rfl
  · rw [(C09_check_X_domain X hX).1]
    simp only
    unfold stIterIndices
    rw [checkXDomain_vec hX (by simp)]
    simp only
    have h0 : (sourceIdx (List.replicate X.length (-1))).length = 0 := by
      rw [length_sourceIdx]; simp [nSource, List.countP_replicate]
    rw [h0]
    have : validateShuffleSplit 0 test train defaultTestSize = .error .valueError := by
      cases h : validateShuffleSplit 0 test train defaultTestSize with
      | error e => rw [validate_error h]
      | ok r => have := validate_ok (a := r.1) (b := r.2) h; omega
    unfold bothSizes
    rw [this]

example : ValidDraw [1, -2, 1, -2, 1] ([2, 0, 1], [1, 0]) := by
  constructor <;> decide
example : sourceTargetShuffleSplit [(10 : Nat), 11, 12, 13, 14] (.vec [1, -2, 1, -2, 1]) .none .none
    [([2, 0, 1], [1, 0])] = .ok [([0, 2, 1], [4, 3])] := by decide +kernel

/-! ### C27 -/

namespace Spec

/-- Rows to be drawn on one side: for each distinct label with `side d`, `⌊us · (number of its rows)⌋`. -/
def drawnRows (us : ℚ) (side : Int → Bool) (sd : List Int) : Nat :=
  (((sd.dedup).filter side).map (fun d => ⌊(sd.count d : ℚ) * us⌋.toNat)).sum

end Spec

theorem mem_rowsOf {sd : List Int} {d : Int} {i : Nat} :
    i ∈ flatnonzero (sd.map (fun e => decide (e = d))) ↔ sd[i]? = some d := by
  rw [mem_flatnonzero, List.getElem?_map]
  cases sd[i]? <;> simp

theorem length_rowsOf (sd : List Int) (d : Int) :
    (flatnonzero (sd.map (fun e => decide (e = d)))).length = sd.count d := by
  rw [length_flatnonzero, count_map_true]
  unfold List.count
  congr 1

theorem pool_facts {us : ℚ} {sd : List Int} (ds : List Int) (hnd : ds.Nodup) (parts : List (List Nat))
    (h : List.Forall₂ (fun (kv : Int × List Nat) part => part.Nodup ∧ part ⊆ kv.2 ∧
        part.length = underSize us kv.2.length)
      (ds.map (fun d => (d, flatnonzero (sd.map (fun e => decide (e = d)))))) parts) :
    parts.flatten.Nodup ∧ (∀ i ∈ parts.flatten, ∃ d ∈ ds, sd[i]? = some d) ∧
    (∀ d ∈ ds, parts.flatten.countP (fun i => decide (sd[i]? = some d)) = underSize us (sd.count d)) ∧
    parts.flatten.length = (ds.map (fun d => underSize us (sd.count d))).sum := by
  induction ds generalizing parts with
  | nil => cases h; simp
  | cons d ds ih =>
    rw [List.map_cons] at h
    cases h with
    | @cons _ part _ parts h1 h2 =>
      obtain ⟨g1, g2, g3⟩ := h1
      simp only [length_rowsOf] at g2 g3
      rw [List.nodup_cons] at hnd
      obtain ⟨i1, i2, i3, i4⟩ := ih hnd.2 parts h2
      have hd : ∀ i ∈ part, sd[i]? = some d := fun i hi => mem_rowsOf.1 (g2 hi)
      refine ⟨?_, ?_, ?_, ?_⟩
      · rw [List.flatten_cons, List.nodup_append]
        refine ⟨g1, i1, ?_⟩
        intro i hi j hj hij
        subst hij
        obtain ⟨d', hd', e⟩ := i2 i hj
        rw [hd i hi] at e
        injection e with e
        subst e
        exact hnd.1 hd'
      · intro i hi
        rw [List.flatten_cons, List.mem_append] at hi
        rcases hi with hi | hi
        · exact ⟨d, by simp, hd i hi⟩
        · obtain ⟨d', h', e⟩ := i2 i hi
          exact ⟨d', by simp [h'], e⟩
      · intro d' hd'
        rw [List.flatten_cons, List.countP_append]
        rcases List.mem_cons.1 hd' with rfl | hm
        · rw [List.countP_eq_length.2 (fun i hi => by simp [hd i hi]), g3, List.countP_eq_zero.2, Nat.add_zero]
          intro i hi
          obtain ⟨e, he, h'⟩ := i2 i hi
          simp only [h', Option.some.injEq, decide_eq_true_eq]
          rintro rfl
          exact hnd.1 he
        · rw [i3 d' hm, List.countP_eq_zero.2, Nat.zero_add]
          intro i hi
          simp only [hd i hi, Option.some.injEq, decide_eq_true_eq]
          rintro rfl
          exact hnd.1 hm
      · rw [List.flatten_cons, List.length_append, g3, i4, List.map_cons, List.sum_cons]

theorem countP_slices {a : List Nat} (p : Nat → Bool) (b k : Nat) :
    (slice a b k).countP p + (slice a 0 b).countP p ≤ a.countP p := by
  conv_rhs => rw [← List.take_append_drop b a, List.countP_append]
  unfold slice
  have := (List.take_sublist k (a.drop b)).countP_le (p := p)
  simp only [List.drop_zero]
  omega

theorem unique_perm_dedup (sd : List Int) (p : Int → Bool) :
    ((unique sd).filter p).Perm (sd.dedup.filter p) := by
  rw [List.perm_ext_iff_of_nodup ((nodup_unique sd).filter _) ((List.nodup_dedup sd).filter _)]
  intro a
  simp [mem_unique]

theorem drawnRows_eq (us : ℚ) (p : Int → Bool) (sd : List Int) :
    (((unique sd).filter p).map (fun d => underSize us (sd.count d))).sum = drawnRows us p sd :=
  ((unique_perm_dedup sd p).map _).sum_eq

theorem filter_entries (sd : List Int) (p : Int → Bool) (l : List Int) :
    (l.map (fun d => (d, flatnonzero (sd.map (fun e => decide (e = d)))))).filter (fun kv => p kv.1) =
    (l.filter p).map (fun d => (d, flatnonzero (sd.map (fun e => decide (e = d))))) := by
  rw [List.filter_map]; rfl

/-- C27. `under_sampling` outside `[0, 1]` is rejected. Otherwise, for every draw, a fold takes at most
`⌊under_sampling · (rows of the domain)⌋` rows of each domain, no row twice, train and test are disjoint, and the sizes on
each side are those prescribed for the total number of drawn rows of the side; when no such sizes exist, or a side
is missing, `ValueError` is raised. -/
theorem C27_domain_shuffle_split {α : Type} (X : List α) (sd : List Int) (hX : X ≠ []) (hlen : sd.length = X.length)
    (us : ℚ) (test train : Size) (draws : List (List Nat × List Nat)) :
    (¬ (0 ≤ us ∧ us ≤ 1) → domainShuffleSplit X (.vec sd) us test train draws = .error .valueError) ∧
    (0 ≤ us → us ≤ 1 → ∀ dS dT, extractDomainsIndicesSplit sd = .ok (dS, dT) →
      (∀ d ∈ draws, PoolDraw us dS d.1 ∧ PoolDraw us dT d.2) →
      (∃ folds s t, domainShuffleSplit X (.vec sd) us test train draws = .ok folds ∧
        folds.length = draws.length ∧
        (draws ≠ [] → validateShuffleSplit (drawnRows us (fun d => decide (0 ≤ d)) sd) test train defaultTestSize
            = .ok s ∧
          validateShuffleSplit (drawnRows us (fun d => decide (d < 0)) sd) test train defaultTestSize = .ok t) ∧
        ∀ f ∈ folds, TwoSided sd s.1 s.2 t.1 t.2 f ∧
          ∀ d : Int, ((f.1 ++ f.2).countP (fun i => decide (sd[i]? = some d)) : ℚ) ≤ us * sd.count d) ∨
      domainShuffleSplit X (.vec sd) us test train draws = .error .valueError) := by
  constructor
  · intro h; unfold domainShuffleSplit; rw [if_pos h]
  intro hu0 hu1 dS dT hext hdraws
  have hu : domainShuffleSplit X (.vec sd) us test train draws =
      draws.mapM (fun d => domainFold dS dT test train d.1 d.2) := by
    unfold domainShuffleSplit
    rw [if_neg (by simp [hu0, hu1]), checkXDomain_vec hX hlen]
    simp only
    rw [hext]
  -- the two dictionaries
  have hsd : sd ≠ [] := by rintro rfl; exact hX (List.length_eq_zero_iff.1 hlen.symm)
  unfold extractDomainsIndicesSplit extractDomainsIndices at hext
  rw [if_neg hsd] at hext
  simp only at hext
  rw [filter_entries sd (fun d => decide (0 ≤ d)), filter_entries sd (fun d => decide (d < 0))] at hext
  injection hext with hext
  rw [Prod.mk.injEq] at hext
  obtain ⟨hS, hT⟩ := hext
  rw [hu]
  set nS := drawnRows us (fun d => decide (0 ≤ d)) sd with hnS
  set nT := drawnRows us (fun d => decide (d < 0)) sd with hnT
  have hfacts : ∀ (side : Int → Bool) (pool : List Nat), PoolDraw us (((unique sd).filter side).map (fun d => (d, flatnonzero (sd.map (fun e => decide (e = d)))))) pool →
      pool.Nodup ∧ (∀ i ∈ pool, ∃ d, side d = true ∧ sd[i]? = some d) ∧ pool.length = drawnRows us side sd ∧
      (∀ d : Int, side d = true → pool.countP (fun i => decide (sd[i]? = some d)) ≤ underSize us (sd.count d)) := by
    rintro side pool ⟨parts, h1, h2⟩
    obtain ⟨g1, g2, g3, g4⟩ := pool_facts _ ((nodup_unique sd).filter _) parts h1
    refine ⟨h2.nodup_iff.2 g1, ?_, ?_, ?_⟩
    · intro i hi
      obtain ⟨d, hd, e⟩ := g2 i (h2.mem_iff.1 hi)
      exact ⟨d, (List.mem_filter.1 hd).2, e⟩
    · rw [h2.length_eq, g4, drawnRows_eq]
    · intro d hside
      rw [h2.countP_eq]
      by_cases hd : d ∈ (unique sd).filter side
      · rw [g3 d hd]
      · have hnot : d ∉ sd := fun hm => hd (List.mem_filter.2 ⟨mem_unique.2 hm, hside⟩)
        rw [List.countP_eq_zero.2]
        · omega
        · intro i _
          simp only [decide_eq_true_eq]
          intro he
          exact hnot (List.mem_of_getElem? he)
  have herr : (∀ d ∈ draws, domainFold dS dT test train d.1 d.2 = .error .valueError) → draws ≠ [] →
      draws.mapM (fun d => domainFold dS dT test train d.1 d.2) = .error .valueError := by
    intro h hne
    obtain ⟨d, hd⟩ := List.exists_mem_of_ne_nil draws hne
    exact mapM_error (fun d hd => .inr (h d hd)) ⟨d, hd, h d hd⟩
  by_cases hne : draws = []
  · subst hne
    exact .inl ⟨[], (0, 0), (0, 0), rfl, rfl, by simp, by simp⟩
  by_cases hSe : dS = []
  · exact .inr (herr (fun d _ => by simp [domainFold, underSampled, hSe]) hne)
  by_cases hTe : dT = []
  · exact .inr (herr (fun d _ => by simp [domainFold, underSampled, hSe, hTe]) hne)
  have hlenS : ∀ d ∈ draws, d.1.length = nS := by
    intro d hd
    have := (hdraws d hd).1
    rw [← hS] at this
    exact (hfacts _ _ this).2.2.1
  have hlenT : ∀ d ∈ draws, d.2.length = nT := by
    intro d hd
    have := (hdraws d hd).2
    rw [← hT] at this
    exact (hfacts _ _ this).2.2.1
  cases hb : bothSizes nS nT test train with
  | error e =>
    refine .inr (herr (fun d hd => ?_) hne)
    simp only [domainFold, underSampled, if_neg hSe, if_neg hTe, hlenS d hd, hlenT d hd, hb]
    rw [bothSizes_error hb]
  | ok st =>
    obtain ⟨s, t⟩ := st
    obtain ⟨b1, b2, b3, b4⟩ := bothSizes_ok hb
    left
    have hf : ∀ d ∈ draws, domainFold dS dT test train d.1 d.2 = .ok (joinSides (sliceSide d.1 s) (sliceSide d.2 t)) := by
      intro d hd
      simp only [domainFold, underSampled, if_neg hSe, if_neg hTe, hlenS d hd, hlenT d hd, hb]
    refine ⟨_, s, t, mapM_ok hf, by simp, fun _ => ⟨b3, b4⟩, ?_⟩
    intro f hfm
    obtain ⟨d, hd, rfl⟩ := List.mem_map.1 hfm
    have q1 := (hdraws d hd).1
    have q2 := (hdraws d hd).2
    rw [← hS] at q1
    rw [← hT] at q2
    obtain ⟨r1, r2, r3, r4⟩ := hfacts _ _ q1
    obtain ⟨w1, w2, w3, w4⟩ := hfacts _ _ q2
    refine ⟨?_, ?_⟩
    · apply joinSides_ok r1 w1
      · intro i hi
        obtain ⟨e, he, h⟩ := r2 i hi
        unfold srcAt; rw [h]; simpa using he
      · intro i hi
        obtain ⟨e, he, h⟩ := w2 i hi
        unfold tgtAt; rw [h]; simpa using he
      · rw [r3]; exact b1.2.2
      · rw [w3]; exact b2.2.2
    · intro e
      have hle : (underSize us (sd.count e) : ℚ) ≤ us * sd.count e := by
        unfold underSize
        have h0 : (0 : Int) ≤ ⌊(sd.count e : ℚ) * us⌋ := Int.floor_nonneg.2 (mul_nonneg (Nat.cast_nonneg _) hu0)
        have h1 : ((⌊(sd.count e : ℚ) * us⌋.toNat : Int) : ℚ) = ((⌊(sd.count e : ℚ) * us⌋ : Int) : ℚ) := by
          rw [Int.toNat_of_nonneg h0]
        have h2 := Int.floor_le ((sd.count e : ℚ) * us)
        have h3 : ((⌊(sd.count e : ℚ) * us⌋.toNat : Nat) : ℚ) = ((⌊(sd.count e : ℚ) * us⌋.toNat : Int) : ℚ) := by
          push_cast; rfl
        rw [h3, h1]; linarith
      refine le_trans ?_ hle
      have hcs := countP_slices (a := d.1) (fun i => decide (sd[i]? = some e)) s.2 s.1
      have hct := countP_slices (a := d.2) (fun i => decide (sd[i]? = some e)) t.2 t.1
      have hsum : ((joinSides (sliceSide d.1 s) (sliceSide d.2 t)).1 ++
          (joinSides (sliceSide d.1 s) (sliceSide d.2 t)).2).countP (fun i => decide (sd[i]? = some e)) ≤
          d.1.countP (fun i => decide (sd[i]? = some e)) + d.2.countP (fun i => decide (sd[i]? = some e)) := by
        simp only [joinSides, sliceSide, List.countP_append]
        omega
      have hfin : d.1.countP (fun i => decide (sd[i]? = some e)) + d.2.countP (fun i => decide (sd[i]? = some e))
          ≤ underSize us (sd.count e) := by
        by_cases he : 0 ≤ e
        · have := r4 e (by simpa using he)
          have h0 : d.2.countP (fun i => decide (sd[i]? = some e)) = 0 := by
            rw [List.countP_eq_zero]
            intro i hi
            obtain ⟨e', he', h⟩ := w2 i hi
            simp only [h, Option.some.injEq, decide_eq_true_eq]
            rintro rfl
            simp at he'; omega
          omega
        · have := w4 e (by simpa using he)
          have h0 : d.1.countP (fun i => decide (sd[i]? = some e)) = 0 := by
            rw [List.countP_eq_zero]
            intro i hi
            obtain ⟨e', he', h⟩ := r2 i hi
            simp only [h, Option.some.injEq, decide_eq_true_eq]
            rintro rfl
            simp at he'; omega
          omega
      exact_mod_cast hsum.trans hfin

example : domainShuffleSplit [(10 : Nat), 11, 12, 13, 14, 15] (.vec [1, 1, 1, 1, -2, -2]) (3 / 4) .none .none
    [([2, 0, 3], [4])] = .error .valueError := by decide +kernel
example : domainShuffleSplit [(10 : Nat), 11, 12, 13, 14, 15, 16] (.vec [1, 1, 1, 1, -2, -2, -2]) (3 / 4) .none .none
    [([2, 0, 3], [4, 6])] = .ok [([0, 3, 6], [2, 4])] := by decide +kernel
example : PoolDraw (3 / 4) [(-2, [4, 5, 6])] [6, 4] :=
  ⟨[[6, 4]], .cons ⟨by decide, by decide, by decide +kernel⟩ .nil, by decide⟩

end Skada

/-
Lemmas about names and wrapping in DA pipelines.
-/
import Verif.Model.Pipeline
import Mathlib.Data.List.Nodup
import Mathlib.Data.List.Count

namespace Skada

theorem lookup_cons_self' {γ : Type} {k : String} (b : γ) (d : List (String × γ)) : ((k, b) :: d).lookup k = some b := by
  simp

theorem lookup_cons_ne' {γ : Type} {k a : String} (h : k ≠ a) (b : γ) (d : List (String × γ)) :
    ((a, b) :: d).lookup k = d.lookup k := by
  rw [List.lookup_cons, beq_false_of_ne h]

theorem lookup_bump (c : List (String × Nat)) (m n : String) :
    (bump c m).lookup n = if n = m then some ((c.lookup n).getD 0 + 1) else c.lookup n := by
  induction c with
  | nil =>
    by_cases h : n = m
    · subst h; simp [bump]
    · simp [bump, lookup_cons_ne' h, h]
  | cons kv c ih =>
    obtain ⟨k, v⟩ := kv
    unfold bump
    by_cases hk : k = m
    · subst hk
      by_cases h : n = k
      · subst h; simp
      · simp [lookup_cons_ne' h, h]
    · rw [if_neg hk]
      by_cases h : n = k
      · subst h; simp [hk]
      · rw [lookup_cons_ne' h, lookup_cons_ne' h, ih]

theorem keys_bump (c : List (String × Nat)) (m : String) (h : (c.map Prod.fst).Nodup) :
    ((bump c m).map Prod.fst).Nodup ∧ ∀ k, k ∈ (bump c m).map Prod.fst ↔ k ∈ c.map Prod.fst ∨ k = m := by
  induction c with
  | nil => simp [bump]
  | cons kv c ih =>
    obtain ⟨k, v⟩ := kv
    simp only [List.map_cons, List.nodup_cons] at h
    obtain ⟨h1, h2⟩ := ih h.2
    unfold bump
    by_cases hk : k = m
    · subst hk
      refine ⟨by simpa using h, ?_⟩
      intro k'
      simp only [if_true, List.map_cons, List.mem_cons]
      constructor
      · rintro (h | h) <;> simp [h]
      · rintro ((h | h) | h) <;> simp [h]
    · rw [if_neg hk]
      simp only [List.map_cons, List.nodup_cons, List.mem_cons]
      refine ⟨⟨?_, h1⟩, ?_⟩
      · rw [h2]
        rintro (h' | h')
        · exact h.1 h'
        · exact hk h'
      · intro k'
        rw [h2]
        tauto

theorem lookup_foldl_bump (names : List String) (c : List (String × Nat)) (n : String) :
    (names.foldl bump c).lookup n
      = if names.count n = 0 then c.lookup n else some ((c.lookup n).getD 0 + names.count n) := by
  induction names generalizing c with
  | nil => simp
  | cons m names ih =>
    rw [List.foldl_cons, ih, lookup_bump, List.count_cons]
    by_cases h : n = m
    · subst h
      simp only [beq_self_eq_true, if_true, Option.getD_some]
      by_cases h0 : names.count n = 0
      · simp [h0]
      · simp [h0]; omega
    · simp [h, Ne.symm h]

theorem nodup_foldl_bump (names : List String) (c : List (String × Nat)) (h : (c.map Prod.fst).Nodup) :
    ((names.foldl bump c).map Prod.fst).Nodup := by
  induction names generalizing c with
  | nil => exact h
  | cons m names ih => exact ih _ (keys_bump c m h).1

theorem lookup_filter_val {γ : Type} (p : γ → Bool) (c : List (String × γ)) (h : (c.map Prod.fst).Nodup) (n : String) :
    (c.filter (fun kv => p kv.2)).lookup n = (c.lookup n).filter p := by
  induction c with
  | nil => rfl
  | cons kv c ih =>
    obtain ⟨k, v⟩ := kv
    simp only [List.map_cons, List.nodup_cons] at h
    have ih := ih h.2
    rw [List.filter_cons]
    by_cases hn : n = k
    · subst hn
      rw [lookup_cons_self']
      cases hp : p v with
      | true => simp [Option.filter, hp]
      | false =>
        have : c.lookup n = none := by
          rw [List.lookup_eq_none_iff]
          intro q hq
          rw [bne_iff_ne]
          intro hc
          exact h.1 (List.mem_map.2 ⟨q, hq, hc.symm⟩)
        simp [Option.filter, hp, ih, this]
    · rw [lookup_cons_ne' hn]
      split
      · rw [lookup_cons_ne' hn, ih]
      · exact ih

theorem lookup_nameCounts {names : List String} {n : String} (h : n ∈ names) :
    (nameCounts names).lookup n = if names.count n = 1 then none else some (names.count n) := by
  unfold nameCounts
  rw [lookup_filter_val (fun v => decide (v ≠ 1)) _ (nodup_foldl_bump names [] (by simp)), lookup_foldl_bump]
  have : names.count n ≠ 0 := by
    rw [Ne, List.count_eq_zero]; simpa using h
  rw [if_neg this]
  simp only [List.lookup_nil, Option.getD_none, Nat.zero_add]
  by_cases h1 : names.count n = 1
  · simp [h1]
  · simp [h1]

theorem lookup_decr (c : List (String × Nat)) (m n : String) :
    (decr c m).lookup n = if n = m then (c.lookup n).map (· - 1) else c.lookup n := by
  induction c with
  | nil => simp [decr]
  | cons kv c ih =>
    obtain ⟨k, v⟩ := kv
    unfold decr
    by_cases hk : k = m
    · subst hk
      by_cases h : n = k
      · subst h; simp
      · simp [lookup_cons_ne' h, h]
    · rw [if_neg hk]
      by_cases h : n = k
      · subst h; simp [hk]
      · rw [lookup_cons_ne' h, lookup_cons_ne' h, ih]

theorem length_numberNames (ns : List String) (c : List (String × Nat)) : (numberNames ns c).length = ns.length := by
  induction ns generalizing c with
  | nil => rfl
  | cons n ns ih =>
    unfold numberNames
    split <;> simp [ih]

theorem getElem_numberNames (ns : List String) (c : List (String × Nat)) (j : Nat) (n : String) (h : ns[j]? = some n) :
    (numberNames ns c)[j]? = some (match c.lookup n with
      | none => n
      | some k => n ++ ("-" ++ toString (k - (ns.take j).count n))) := by
  induction ns generalizing c j with
  | nil => simp at h
  | cons m ns ih =>
    unfold numberNames
    cases j with
    | zero =>
      simp only [List.getElem?_cons_zero, Option.some.injEq] at h
      subst h
      cases c.lookup m <;> simp
    | succ j =>
      simp only [List.getElem?_cons_succ] at h
      rw [List.take_succ_cons, List.count_cons]
      cases hm : c.lookup m with
      | none =>
        simp only [List.getElem?_cons_succ, ih c j h]
        by_cases hn : m = n
        · subst hn; simp [hm]
        · simp [hn]
      | some k =>
        simp only [List.getElem?_cons_succ, ih _ j h, lookup_decr]
        by_cases hn : m = n
        · subst hn
          simp only [if_true, hm, Option.map_some, beq_self_eq_true]
          congr 4
          omega
        · simp [hn, Ne.symm hn]

/-- The `i`-th automatic name. -/
theorem getElem_nameEstimators (vs : List StepVal) (i : Nat) (v : StepVal) (h : vs[i]? = some v) :
    (nameEstimators vs)[i]? = some (
      if (vs.map baseName).count (baseName v) = 1 then baseName v
      else baseName v ++ ("-" ++ toString (((vs.map baseName).take (i + 1)).count (baseName v)))) := by
  have hi : i < vs.length := (List.getElem?_eq_some_iff.1 h).1
  unfold nameEstimators
  simp only
  generalize hns : vs.map baseName = names
  have hl : names.length = vs.length := by rw [← hns]; simp
  have hn : names[i]? = some (baseName v) := by rw [← hns, List.getElem?_map, h]; rfl
  have hj : names.reverse[names.length - 1 - i]? = some (baseName v) := by
    rw [List.getElem?_reverse (by omega)]
    rw [show names.length - 1 - (names.length - 1 - i) = i by omega]
    exact hn
  rw [List.getElem?_reverse (by rw [length_numberNames, List.length_reverse]; omega), length_numberNames,
    List.length_reverse, getElem_numberNames _ _ _ _ hj, lookup_nameCounts (List.mem_of_getElem? hn)]
  by_cases h1 : names.count (baseName v) = 1
  · simp [h1]
  · simp only [h1, if_false]
    congr 4
    rw [List.take_reverse, List.count_reverse]
    have := List.count_append (a := baseName v) (l₁ := names.take (i + 1)) (l₂ := names.drop (i + 1))
    rw [List.take_append_drop] at this
    rw [show names.length - (names.length - 1 - i) = i + 1 by omega]
    omega

theorem length_nameEstimators (vs : List StepVal) : (nameEstimators vs).length = vs.length := by
  simp [nameEstimators, length_numberNames]

theorem toString_nat_inj {m n : Nat} (h : toString m = toString n) : m = n := by
  rw [Nat.toString_eq_ofList_toDigits, Nat.toString_eq_ofList_toDigits] at h
  have h2 := congrArg String.toList h
  rw [String.toList_ofList, String.toList_ofList] at h2
  have h3 := congrArg (Nat.ofDigitChars 10 · 0) h2
  simpa [Nat.ofDigitChars_ten_toDigits] using h3

theorem split_at {c : Char} {a b a' b' : List Char} (ha : c ∉ a) (hb : c ∉ b) (h : a ++ c :: a' = b ++ c :: b') :
    a = b ∧ a' = b' := by
  induction a generalizing b with
  | nil =>
    cases b with
    | nil => simpa using h
    | cons x b =>
      simp only [List.nil_append, List.cons_append, List.cons.injEq] at h
      exact absurd (by simp [h.1]) hb
  | cons y a ih =>
    cases b with
    | nil =>
      simp only [List.nil_append, List.cons_append, List.cons.injEq] at h
      exact absurd (by simp [h.1]) ha
    | cons x b =>
      simp only [List.cons_append, List.cons.injEq] at h
      obtain ⟨h1, h2⟩ := ih (by simp only [List.mem_cons, not_or] at ha; exact ha.2)
        (by simp only [List.mem_cons, not_or] at hb; exact hb.2) h.2
      exact ⟨by rw [h.1, h1], h2⟩

theorem suffix_inj {a b : String} {m n : Nat} (ha : '-' ∉ a.toList) (hb : '-' ∉ b.toList)
    (h : a ++ ("-" ++ toString m) = b ++ ("-" ++ toString n)) : a = b ∧ m = n := by
  have h2 := congrArg String.toList h
  simp only [String.toList_append] at h2
  have h3 : ("-" : String).toList = ['-'] := rfl
  rw [h3, List.cons_append, List.nil_append, List.cons_append, List.nil_append] at h2
  obtain ⟨h4, h5⟩ := split_at ha hb h2
  exact ⟨String.toList_injective h4, toString_nat_inj (String.toList_injective h5)⟩

theorem suffix_ne {a b : String} {m : Nat} (hb : '-' ∉ b.toList) : a ++ ("-" ++ toString m) ≠ b := by
  intro h
  apply hb
  rw [← h]
  simp [String.toList_append]

theorem nodup_of_getElem {α : Type} {l : List α} (h : ∀ (i j : Nat) a, l[i]? = some a → l[j]? = some a → i = j) :
    l.Nodup := by
  rw [List.nodup_iff_injective_getElem]
  intro ⟨i, hi⟩ ⟨j, hj⟩ he
  simp only at he
  have := h i j l[i] (List.getElem?_eq_getElem hi) (by rw [List.getElem?_eq_getElem hj, he])
  exact Fin.ext this

/-- The automatic names are distinct. -/
theorem nodup_nameEstimators (vs : List StepVal) (h : ∀ v ∈ vs, '-' ∉ (baseName v).toList) : (nameEstimators vs).Nodup := by
  have key : ∀ (i j : Nat) (v w : StepVal), i < j → vs[i]? = some v → vs[j]? = some w →
      (nameEstimators vs)[i]? ≠ (nameEstimators vs)[j]? := by
    intro i j v w hij hv hw he
    have hvm := h v (List.mem_of_getElem? hv)
    have hwm := h w (List.mem_of_getElem? hw)
    have cnt : baseName v = baseName w →
        ((vs.map baseName).take (i + 1)).count (baseName v) < ((vs.map baseName).take (j + 1)).count (baseName v) := by
      intro e
      have hnj : (vs.map baseName)[j]? = some (baseName v) := by rw [List.getElem?_map, hw, e]; rfl
      have hj : (vs.map baseName).take (j + 1) = (vs.map baseName).take j ++ [baseName v] := by
        rw [List.take_add_one, hnj]; rfl
      rw [hj, List.count_append, List.count_singleton_self]
      have : ((vs.map baseName).take (i + 1)).Sublist ((vs.map baseName).take j) :=
        (List.take_prefix_take_left (by omega)).sublist
      have := this.count_le (baseName v)
      omega
    rw [getElem_nameEstimators vs i v hv, getElem_nameEstimators vs j w hw, Option.some.injEq] at he
    by_cases e : baseName v = baseName w
    · have := cnt e
      have hc : (vs.map baseName).count (baseName v) ≠ 1 := by
        intro h1
        have h2 := (List.take_sublist (j + 1) (vs.map baseName)).count_le (baseName v)
        have h3 : 0 < ((vs.map baseName).take (i + 1)).count (baseName v) := by
          rw [List.count_pos_iff]
          have hni : (vs.map baseName)[i]? = some (baseName v) := by rw [List.getElem?_map, hv]; rfl
          rw [List.take_add_one, hni]
          simp
        omega
      rw [← e, if_neg hc, if_neg hc] at he
      have := (suffix_inj hvm hvm he).2
      omega
    · split at he
      · split at he
        · exact e he
        · exact suffix_ne hvm he.symm
      · split at he
        · exact suffix_ne hwm he
        · exact e (suffix_inj hvm hwm he).1
  apply nodup_of_getElem
  intro i j a hi hj
  have hil : i < vs.length := by rw [← length_nameEstimators]; exact (List.getElem?_eq_some_iff.1 hi).1
  have hjl : j < vs.length := by rw [← length_nameEstimators]; exact (List.getElem?_eq_some_iff.1 hj).1
  rcases Nat.lt_trichotomy i j with hlt | heq | hlt
  · exact absurd (hi.trans hj.symm) (key i j _ _ hlt (List.getElem?_eq_getElem hil) (List.getElem?_eq_getElem hjl))
  · exact heq
  · exact absurd (hj.trans hi.symm) (key j i _ _ hlt (List.getElem?_eq_getElem hjl) (List.getElem?_eq_getElem hil))

end Skada

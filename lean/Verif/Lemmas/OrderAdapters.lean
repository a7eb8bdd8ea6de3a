/-
Helper lemmas for C136: the building blocks of the adapters on samples in two orders.
-/
import Verif.Lemmas.OrderSteps
import Verif.Model.ShallowMethods

namespace Skada
namespace Order

open Spec Np

variable {α σ γ δ : Type}

theorem py_bind {γ' δ' : Type} {R : γ → γ' → Prop} {S : δ → δ' → Prop} {x : Py γ} {x' : Py γ'} (h : RelPy R x x') {f : γ → Py δ} {g : γ' → Py δ'}
    (hfg : ∀ a b, R a b → RelPy S (f a) (g b)) : RelPy S (x >>= f) (x' >>= g) := by
  rcases Sides.py_cases h with ⟨e, rfl, rfl⟩ | ⟨a, b, rfl, rfl, hab⟩
  · exact rfl
  · exact hfg a b hab

theorem py_imp {γ' : Type} {R S : γ → γ' → Prop} {x : Py γ} {x' : Py γ'} (h : RelPy R x x') (hi : ∀ a b, R a b → S a b) : RelPy S x x' := by
  rcases Sides.py_cases h with ⟨e, rfl, rfl⟩ | ⟨a, b, rfl, rfl, hab⟩
  · exact rfl
  · exact hi a b hab

theorem py_of_eq {x x' : Py γ} (h : x = x') : RelPy Eq x x' := by
  subst h
  exact Sides.py_refl (fun _ => rfl) _

/-- `check_X_domain` and what follows it. -/
theorem check_bind {l l' : List Nat} (hl : Reorder l l') {X X' : List α} (hX : Rows l l' X X') {sd sd' : SDArg} (hs : RowsSD l l' sd sd')
    (fl : Flags) {S : γ → γ → Prop} {f g : List α × List Int → Py γ}
    (h : ∀ s : Nat → Int, l ≠ [] → RelPy S (f (X, l.map s)) (g (X', l'.map s))) :
    RelPy S (checkXDomain X sd fl >>= f) (checkXDomain X' sd' fl >>= g) := by
  by_cases hn : l = []
  · obtain ⟨fx, rfl, rfl⟩ := hX
    have hn' : l' = [] := (reorder_nil hl).1 hn
    subst hn hn'
    exact rfl
  · refine py_bind (checkX_rows hl hX hs fl) ?_
    rintro ⟨a, s⟩ ⟨b, s'⟩ ⟨h1, h2, u, h3, h4⟩
    simp only at h1 h2 h3 h4
    subst h1 h2 h3 h4
    exact h u hn

theorem extract_map {l : List Nat} (hn : l ≠ []) (s : Nat → Int) :
    extractSourceIndices (l.map s) = .ok (l.map (fun i => decide (0 ≤ s i))) := by
  unfold extractSourceIndices
  simp [hn, Function.comp_def]

theorem splitX_map {l : List Nat} (hn : l ≠ []) (f : Nat → α) (s : Nat → Int) :
    RW.splitX (l.map f) (l.map s) =
      .ok ((l.filter (fun i => decide (0 ≤ s i))).map f, (l.filter (fun i => !decide (0 ≤ s i))).map f) := by
  unfold RW.splitX sourceTargetSplit
  simp only [extract_map hn, List.map_map]
  have h1 := boolIndex_rows l (fun i => decide (0 ≤ s i)) f
  have h2 := boolIndex_rows l (fun i => !decide (0 ≤ s i)) f
  have h3 : ((fun x => !x) ∘ fun i => decide (0 ≤ s i)) = fun i => !decide (0 ≤ s i) := rfl
  simp only [h3, List.mapM_cons, List.mapM_nil, h1, h2]
  rfl

theorem sourceIdx_map {l : List Nat} (hn : l ≠ []) (s : Nat → Int) :
    RW.sourceIdx (l.map s) = .ok (flatnonzero (l.map (fun i => decide (0 ≤ s i)))) := by
  unfold RW.sourceIdx
  rw [extract_map hn]

theorem idxAssign_map (l : List Nat) (m : Nat → Bool) (z h : Nat → γ) :
    idxAssign (l.map z) (flatnonzero (l.map m)) ((l.filter m).map h) = .ok (l.map (fun i => if m i then h i else z i)) := by
  unfold idxAssign
  have h1 : (flatnonzero (l.map m)).any (fun i => decide ((l.map z).length ≤ i)) = false := by
    rw [List.any_eq_false]
    intro i hi
    have := flatnonzero_lt hi
    simp only [List.length_map] at this ⊢
    simp [this]
  rw [h1, if_neg (by simp), if_pos (by simp [length_flatnonzero_rows]), putAll_rows]

theorem replicate_map (l : List Nat) (z : γ) : List.replicate l.length z = l.map (fun _ => z) := by
  rw [List.map_const']

theorem putMask_map (l : List Nat) (m : Nat → Bool) (z h : Nat → γ) :
    putMask (l.map m) (l.map z) ((l.filter m).map h) = l.map (fun i => if m i then h i else z i) := by
  induction l with
  | nil => rfl
  | cons i l ih => cases hm : m i <;> simp [putMask, hm, ih]

theorem count_filter (l : List Nat) (m : Nat → Bool) : (l.map m).count true = (l.filter m).length := by
  induction l with
  | nil => rfl
  | cons i l ih => cases hm : m i <;> simp [hm, ih]

theorem boolAssign_map (l : List Nat) (m : Nat → Bool) (z h : Nat → γ) :
    boolAssign (l.map z) (l.map m) ((l.filter m).map h) = .ok (l.map (fun i => if m i then h i else z i)) := by
  unfold boolAssign
  rw [if_neg (by simp), if_pos (by simp [count_filter]), putMask_map]

theorem filter_split (l : List Nat) (m : Nat → Bool) : (l.filter m).length + (l.filter (fun i => !m i)).length = l.length := by
  induction l with
  | nil => rfl
  | cons i l ih =>
    cases hm : m i <;> simp [hm] <;> omega

theorem mapM_one (f : γ → Py δ) (x : γ) : [x].mapM f = match f x with | .error e => .error e | .ok y => .ok [y] := by
  rw [List.mapM_cons, List.mapM_nil]
  cases f x <;> rfl

/-- `source_target_merge` of two complete halves. -/
theorem mergeN_map [Cell α] {l : List Nat} (hn : l ≠ []) (s : Nat → Int) (dt dt' : DType) (tl tl' : List Nat) (a b : Nat → α) :
    Map.mergeN ⟨dt, tl, (l.filter (fun i => decide (0 ≤ s i))).map a⟩ ⟨dt', tl', (l.filter (fun i => !decide (0 ≤ s i))).map b⟩ (l.map s) =
      if (l.filter (fun i => decide (0 ≤ s i))) = [] then
        .ok ⟨dt', tl', l.map (fun i => Cell.cast dt' (b i))⟩
      else if (l.filter (fun i => !decide (0 ≤ s i))) = [] then
        .ok ⟨dt, tl, l.map (fun i => Cell.cast dt (a i))⟩
      else if tl ≠ tl' then .error .valueError
      else .ok ⟨dt, tl, l.map (fun i => if decide (0 ≤ s i) then Cell.cast dt (a i) else Cell.cast dt (b i))⟩ := by
  have hlen := filter_split l (fun i => decide (0 ≤ s i))
  have hm : (l.map s).map (fun d => decide (0 ≤ d)) = l.map (fun i => decide (0 ≤ s i)) := by simp [Function.comp_def]
  have hm' : (l.map s).map (fun d => !decide (0 ≤ d)) = l.map (fun i => !decide (0 ≤ s i)) := by simp [Function.comp_def]
  have hm'' : (l.map s).map (fun d => decide (d < 0)) = l.map (fun i => !decide (0 ≤ s i)) := by
    simp only [List.map_map]
    refine List.map_congr_left (fun i _ => ?_)
    by_cases h : s i < 0
    · simp [h]
    · simp [h, not_lt.1 h]
  have key : ∀ (A B : NArr α), checkPair (some ⟨dt, tl, (l.filter (fun i => decide (0 ≤ s i))).map a⟩,
        some ⟨dt', tl', (l.filter (fun i => !decide (0 ≤ s i))).map b⟩) = .ok (A, B) →
      Map.mergeN ⟨dt, tl, (l.filter (fun i => decide (0 ≤ s i))).map a⟩ ⟨dt', tl', (l.filter (fun i => !decide (0 ≤ s i))).map b⟩ (l.map s) =
        mergePair (l.map s) (A, B) := by
    intro A B h
    have hne : l.map s ≠ [] := by simpa using hn
    simp only [Map.mergeN, sourceTargetMerge, List.length_cons, List.length_nil, pairUp, mapM_one, h, if_neg hne,
      extract_map hn]
    simp only [Nat.reduceAdd, lt_self_iff_false, ↓reduceIte, Nat.reduceMod, ne_eq, not_true_eq_false]
    cases mergePair (l.map s) (A, B) <;> rfl
  have hz : ∀ n, n = l.length → ∀ z : α, List.replicate n z = l.map (fun _ => z) := by
    rintro n rfl z
    exact replicate_map l z
  by_cases h1 : l.filter (fun i => decide (0 ≤ s i)) = []
  · rw [if_pos h1]
    have hall : l.filter (fun i => !decide (0 ≤ s i)) = l := by
      rw [List.filter_eq_self]
      intro i hi
      have := List.filter_eq_nil_iff.1 h1 i hi
      simpa using this
    rw [key (emptyArr α) ⟨dt', tl', l.map b⟩ (by simp [checkPair, normArr, h1, hall, hn, emptyArr])]
    have hz' := hz l.length rfl (Cell.zero tl' : α)
    have hba := boolAssign_map l (fun i => !decide (0 ≤ s i)) (fun _ => (Cell.zero tl' : α)) (fun i => Cell.cast dt' (b i))
    rw [hall] at hba
    have hc1 : (l.map (fun i => decide (0 ≤ s i))).count true = 0 := by rw [count_filter, h1]; rfl
    have hc2 : (l.map (fun i => !decide (0 ≤ s i))).count true = l.length := by rw [count_filter, hall]
    simp only [mergePair, fillPair, emptyArr, List.map_eq_nil_iff, hn, ↓reduceIte, List.length_map, Nat.sub_self, lt_self_iff_false, hm, hm',
      hc1, hc2, List.length_nil, ne_eq, not_true_eq_false, or_self, mergeArrays, hm'', false_and, hz']
    simp only [List.map_map, Function.comp_def] at hba ⊢
    rw [hba]
    have : ∀ i ∈ l, (if (!decide (0 ≤ s i)) = true then Cell.cast dt' (b i) else Cell.zero tl') = Cell.cast dt' (b i) := by
      intro i hi
      have := List.filter_eq_nil_iff.1 h1 i hi
      rw [if_pos (by simpa using this)]
    rw [List.map_congr_left this]
  · rw [if_neg h1]
    by_cases h2 : l.filter (fun i => !decide (0 ≤ s i)) = []
    · rw [if_pos h2]
      have hall : l.filter (fun i => decide (0 ≤ s i)) = l := by
        rw [List.filter_eq_self]
        intro i hi
        have := List.filter_eq_nil_iff.1 h2 i hi
        simpa using this
      rw [key ⟨dt, tl, l.map a⟩ (emptyArr α) (by simp [checkPair, normArr, h2, hall, hn, emptyArr])]
      have hz' := hz l.length rfl (Cell.zero tl : α)
      have hba := boolAssign_map l (fun i => decide (0 ≤ s i)) (fun _ => (Cell.zero tl : α)) (fun i => Cell.cast dt (a i))
      rw [hall] at hba
      have hc1 : (l.map (fun i => decide (0 ≤ s i))).count true = l.length := by rw [count_filter, hall]
      have hc2 : (l.map (fun i => !decide (0 ≤ s i))).count true = 0 := by rw [count_filter, h2]; rfl
      simp only [mergePair, fillPair, emptyArr, List.map_eq_nil_iff, hn, ↓reduceIte, List.length_map, Nat.sub_self, lt_self_iff_false, hm, hm',
        hc1, hc2, List.length_nil, ne_eq, not_true_eq_false, not_false_eq_true, or_self, mergeArrays, hm'', and_false, hz']
      simp only [List.map_map, Function.comp_def] at hba ⊢
      rw [hba]
      have : ∀ i ∈ l, (if decide (0 ≤ s i) = true then Cell.cast dt (a i) else Cell.zero tl) = Cell.cast dt (a i) := by
        intro i hi
        have := List.filter_eq_nil_iff.1 h2 i hi
        rw [if_pos (by simpa using this)]
      rw [List.map_congr_left this]
    · rw [if_neg h2]
      by_cases ht : tl ≠ tl'
      · rw [if_pos ht]
        simp [Map.mergeN, sourceTargetMerge, pairUp, checkPair, normArr, h1, h2, ht, mapM_one]
      · rw [if_neg ht]
        push Not at ht
        subst ht
        rw [key ⟨dt, tl, (l.filter (fun i => decide (0 ≤ s i))).map a⟩ ⟨dt', tl, (l.filter (fun i => !decide (0 ≤ s i))).map b⟩
          (by simp only [checkPair, normArr, List.map_eq_nil_iff, h1, h2, ↓reduceIte]; simp)]
        have hz' := hz _ hlen (Cell.zero tl : α)
        have hba := boolAssign_map l (fun i => decide (0 ≤ s i)) (fun _ => (Cell.zero tl : α)) (fun i => Cell.cast dt (a i))
        have hbb := boolAssign_map l (fun i => !decide (0 ≤ s i))
          (fun i => if decide (0 ≤ s i) then Cell.cast dt (a i) else (Cell.zero tl : α)) (fun i => Cell.cast dt (b i))
        simp only [mergePair, fillPair, List.map_eq_nil_iff, h1, h2, ↓reduceIte, List.length_map, hm, hm', count_filter,
          ne_eq, not_true_eq_false, not_false_eq_true, or_self, mergeArrays, hm'', and_self, hz', List.map_map, Function.comp_def] at hba hbb ⊢
        rw [hba]
        simp only
        rw [hbb]
        simp only
        congr 2
        refine List.map_congr_left (fun i _ => ?_)
        by_cases h : 0 ≤ s i <;> simp [h]

theorem mergeN_rows [Cell α] {l l' : List Nat} (hl : Reorder l l') (hn : l ≠ []) (s : Nat → Int) {A A' B B' : NArr α}
    (hA : RowsArr (l.filter (fun i => decide (0 ≤ s i))) (l'.filter (fun i => decide (0 ≤ s i))) A A')
    (hB : RowsArr (l.filter (fun i => !decide (0 ≤ s i))) (l'.filter (fun i => !decide (0 ≤ s i))) B B') :
    RelPy (RowsArr l l') (Map.mergeN A B (l.map s)) (Map.mergeN A' B' (l'.map s)) := by
  obtain ⟨dt, tl, r⟩ := A
  obtain ⟨dt', tl', r'⟩ := A'
  obtain ⟨du, ul, q⟩ := B
  obtain ⟨du', ul', q'⟩ := B'
  obtain ⟨h1, h2, a, h3, h4⟩ := hA
  obtain ⟨k1, k2, b, k3, k4⟩ := hB
  simp only at h1 h2 h3 h4 k1 k2 k3 k4
  subst h1 h2 h3 h4 k1 k2 k3 k4
  have hn' : l' ≠ [] := fun h => hn ((reorder_nil hl).2 h)
  rw [mergeN_map hn, mergeN_map hn']
  simp only [reorder_nil (reorder_filter hl _)]
  split
  · exact ⟨rfl, rfl, _, rfl, rfl⟩
  · split
    · exact ⟨rfl, rfl, _, rfl, rfl⟩
    · split
      · exact rfl
      · exact ⟨rfl, rfl, _, rfl, rfl⟩

theorem rowsOf_arr {l l' : List Nat} {x x' : Py (NArr α)} (h : RelPy (RowsArr l l') x x') : RelPy (Rows l l') (rowsOf x) (rowsOf x') := by
  rcases Sides.py_cases h with ⟨e, rfl, rfl⟩ | ⟨a, b, rfl, rfl, hab⟩
  · exact rfl
  · exact hab.2.2

theorem toRows_rows {K : Type} {l l' : List Nat} {p : Nat} {x x' : Py (List (Fin p → K))} (h : RelPy (Rows l l') x x') :
    RelPy (Rows l l') (Shallow.toRows x) (Shallow.toRows x') := by
  rcases Sides.py_cases h with ⟨e, rfl, rfl⟩ | ⟨a, b, rfl, rfl, hab⟩
  · exact rfl
  · exact rows_map hab _

theorem truthy_rows {l l' : List Nat} (hl : Reorder l l') {v v' : Param Num} (h : RowsParam l l' v v') : truthy v = truthy v' := by
  rcases h with ⟨a, a', ha, rfl, rfl⟩ | ⟨rfl, -⟩
  · simp only [truthy]
    have := rows_nil hl ha
    cases a <;> cases a' <;> simp_all
  · rfl

end Order
end Skada

/- Helper lemmas for the selectors. -/
import Verif.Model.Selectors
import Verif.Lemmas.SplitMerge
import Verif.Lemmas.Outputs

namespace Skada
open Np Spec

variable {α β σ : Type}

theorem domainsOf_domParam (sd : List Int) : domainsOf (domParam sd) = .ok sd := by
  unfold domainsOf domParam
  simp only [List.any_map, Function.comp_def, Num.isFinite, List.map_map]
  rw [if_neg (by simp)]
  congr 1
  conv_rhs => rw [← List.map_id sd]
  apply List.map_congr_left
  intro d _
  simp

theorem sourceMaskOf_domParam (sd : List Int) : sourceMaskOf (domParam sd) = extractSourceIndices sd := by
  unfold sourceMaskOf
  rw [domainsOf_domParam]

theorem domParam_ne_none (sd : List Int) : domParam sd ≠ .none := by simp [domParam]

theorem lookup_filter_key (p : String → Bool) (d : Dict) (k : String) (h : p k = true) :
    (d.filter (fun kv => p kv.1)).lookup k = d.lookup k := by
  induction d with
  | nil => rfl
  | cons kv d ih =>
    obtain ⟨k', v⟩ := kv
    rw [List.filter_cons]
    by_cases hk : k = k'
    · subst hk
      simp [h, List.lookup_cons_self]
    · have hb : (k == k') = false := by simpa using hk
      rw [List.lookup_cons, hb]
      cases hp : p k' <;> simp [ih, hb, List.lookup_cons]

theorem get_eq_of_lookup {d : Dict} {k : String} {v : Param Num} (h : d.lookup k = some v) : d.get k = v := by
  simp [Dict.get, h]

theorem has_of_lookup {d : Dict} {k : String} {v : Param Num} (h : d.lookup k = some v) : d.has k = true := by
  simp [Dict.has, h]

theorem lookup_cons_ne {γ : Type} {k a : String} (h : k ≠ a) (b : γ) (d : List (String × γ)) :
    ((a, b) :: d).lookup k = d.lookup k := by
  rw [List.lookup_cons, beq_false_of_ne h]

theorem lookup_put (d : Dict) (k k' : String) (v : Param Num) :
    (d.put k v).lookup k' = if k' = k then some v else d.lookup k' := by
  induction d with
  | nil =>
    simp only [Dict.put]
    by_cases h : k' = k
    · subst h; simp [List.lookup_cons_self]
    · rw [lookup_cons_ne h]; simp [h]
  | cons kv d ih =>
    obtain ⟨a, b⟩ := kv
    simp only [Dict.put]
    by_cases ha : a = k
    · subst ha
      simp only [if_true]
      by_cases h : k' = a
      · subst h; simp [List.lookup_cons_self]
      · rw [lookup_cons_ne h, lookup_cons_ne h]; simp [h]
    · simp only [ha, if_false]
      by_cases h : k' = a
      · subst h; simp [List.lookup_cons_self, ha]
      · rw [lookup_cons_ne h, lookup_cons_ne h, ih]

theorem lookup_eq_none_of_not_mem {γ : Type} {d : List (String × γ)} {k : String} (h : k ∉ d.map Prod.fst) :
    d.lookup k = none := by
  induction d with
  | nil => rfl
  | cons kv d ih =>
    obtain ⟨a, b⟩ := kv
    simp only [List.map_cons, List.mem_cons, not_or] at h
    rw [lookup_cons_ne h.1, ih h.2]

theorem lookup_update (d e : Dict) (k : String) (he : (e.map Prod.fst).Nodup) :
    (d.update e).lookup k = (e.lookup k).or (d.lookup k) := by
  unfold Dict.update
  induction e generalizing d with
  | nil => simp
  | cons kv e ih =>
    obtain ⟨a, b⟩ := kv
    simp only [List.map_cons, List.nodup_cons] at he
    rw [List.foldl_cons, ih _ he.2, lookup_put]
    by_cases h : k = a
    · subst h
      rw [lookup_eq_none_of_not_mem he.1]
      simp [List.lookup_cons_self]
    · rw [lookup_cons_ne h]
      simp [h]

theorem update_nil (d : Dict) : d.update [] = d := rfl

theorem update_append (d e f : Dict) : d.update (e ++ f) = (d.update e).update f := by
  simp [Dict.update, List.foldl_append]

theorem applyDomainMasks_sel {γ : Type} {X : List α} {y : Option (List β)} {p : List (String × Param γ)} {m : List Bool}
    (hX : X.length = m.length) (hy : ∀ l, y = some l → l.length = m.length) :
    applyDomainMasks X y p m = .ok (sel m X, y.map (sel m), p.map (fun kv => (kv.1, maskParam m kv.2))) := by
  unfold applyDomainMasks
  simp only [boolIndex_ok hX]
  cases y with
  | none => rfl
  | some l => simp only [boolIndex_ok (hy l rfl)]; rfl

theorem applyDomainMasks_error {γ : Type} {X : List α} {y : Option (List β)} {p : List (String × Param γ)}
    {m : List Bool} (hX : X.length ≠ m.length) : applyDomainMasks X y p m = .error .indexError := by
  unfold applyDomainMasks boolIndex
  rw [if_neg hX]

end Skada

/- Helper lemmas about `np.argmin` and `np.argmax`. -/
import Verif.Model.Np

namespace Skada
namespace Np

variable {α : Type _} [LinearOrder α]

theorem argminFrom_spec (l : List α) (k : Nat) :
    (argminFrom k l = none ∧ l = []) ∨
    ∃ (i : Nat) (y : α), argminFrom k l = some (k + i, y) ∧ l[i]? = some y ∧ (∀ z ∈ l, y ≤ z) ∧
      ∀ (j : Nat) (z : α), j < i → l[j]? = some z → y < z := by
  induction l generalizing k with
  | nil => left; simp [argminFrom]
  | cons x l ih =>
    right
    rcases ih (k + 1) with ⟨h, rfl⟩ | ⟨i, y, h, hi, hmin, hfirst⟩
    · exact ⟨0, x, by simp [argminFrom], by simp, by simp, by simp⟩
    · by_cases hxy : x ≤ y
      · refine ⟨0, x, by simp [argminFrom, h, hxy], by simp, ?_, by simp⟩
        intro z hz
        rcases List.mem_cons.1 hz with rfl | hz
        · exact le_rfl
        · exact le_trans hxy (hmin z hz)
      · refine ⟨i + 1, y, by simp [argminFrom, h, hxy]; omega, by simpa using hi, ?_, ?_⟩
        · intro z hz
          rcases List.mem_cons.1 hz with rfl | hz
          · exact le_of_lt (not_le.1 hxy)
          · exact hmin z hz
        · intro j z hj hz
          cases j with
          | zero => simp at hz; subst hz; exact not_le.1 hxy
          | succ j => exact hfirst j z (by omega) (by simpa using hz)

theorem argmin_nil : argmin ([] : List α) = .error .valueError := rfl

theorem argmin_spec {l : List α} (h : l ≠ []) :
    ∃ (i : Nat) (y : α), argmin l = .ok i ∧ l[i]? = some y ∧ (∀ z ∈ l, y ≤ z) ∧
      ∀ (j : Nat) (z : α), j < i → l[j]? = some z → y < z := by
  rcases argminFrom_spec l 0 with ⟨_, h'⟩ | ⟨i, y, h1, h2, h3, h4⟩
  · exact absurd h' h
  · exact ⟨i, y, by simp [argmin, h1], h2, h3, h4⟩

theorem argmaxFrom_spec (l : List α) (k : Nat) :
    (argmaxFrom k l = none ∧ l = []) ∨
    ∃ (i : Nat) (y : α), argmaxFrom k l = some (k + i, y) ∧ l[i]? = some y ∧ (∀ z ∈ l, z ≤ y) ∧
      ∀ (j : Nat) (z : α), j < i → l[j]? = some z → z < y := by
  induction l generalizing k with
  | nil => left; simp [argmaxFrom]
  | cons x l ih =>
    right
    rcases ih (k + 1) with ⟨h, rfl⟩ | ⟨i, y, h, hi, hmin, hfirst⟩
    · exact ⟨0, x, by simp [argmaxFrom], by simp, by simp, by simp⟩
    · by_cases hxy : y ≤ x
      · refine ⟨0, x, by simp [argmaxFrom, h, hxy], by simp, ?_, by simp⟩
        intro z hz
        rcases List.mem_cons.1 hz with rfl | hz
        · exact le_rfl
        · exact le_trans (hmin z hz) hxy
      · refine ⟨i + 1, y, by simp [argmaxFrom, h, hxy]; omega, by simpa using hi, ?_, ?_⟩
        · intro z hz
          rcases List.mem_cons.1 hz with rfl | hz
          · exact le_of_lt (not_le.1 hxy)
          · exact hmin z hz
        · intro j z hj hz
          cases j with
          | zero => simp at hz; subst hz; exact not_le.1 hxy
          | succ j => exact hfirst j z (by omega) (by simpa using hz)

theorem argmax_nil : argmax ([] : List α) = .error .valueError := rfl

theorem argmax_spec {l : List α} (h : l ≠ []) :
    ∃ (i : Nat) (y : α), argmax l = .ok i ∧ l[i]? = some y ∧ (∀ z ∈ l, z ≤ y) ∧
      ∀ (j : Nat) (z : α), j < i → l[j]? = some z → z < y := by
  rcases argmaxFrom_spec l 0 with ⟨_, h'⟩ | ⟨i, y, h1, h2, h3, h4⟩
  · exact absurd h' h
  · exact ⟨i, y, by simp [argmax, h1], h2, h3, h4⟩

end Np
end Skada

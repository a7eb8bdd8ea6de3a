/-
Lemmas about listing a whole data set several times.
-/
import Verif.Spec.Replicate
import Verif.Lemmas.Reweight
import Verif.Lemmas.Mapping

set_option linter.unusedSectionVars false

namespace Skada
namespace Copies
open Np Spec
variable {α β γ : Type}

theorem succ (k : Nat) (l : List α) : copies (k + 1) l = l ++ copies k l := by
  simp [copies, List.replicate_succ]

theorem zero (l : List α) : copies 0 l = [] := rfl

theorem length (k : Nat) (l : List α) : (copies k l).length = k * l.length := by
  simp [copies]

theorem ne_nil {k : Nat} (hk : 0 < k) {l : List α} (hl : l ≠ []) : copies k l ≠ [] := by
  rw [← List.length_pos_iff, length]
  exact Nat.mul_pos hk (List.length_pos_iff.2 hl)

theorem map (f : α → β) (k : Nat) (l : List α) : (copies k l).map f = copies k (l.map f) := by
  simp [copies, List.map_flatten]

theorem mem {k : Nat} (hk : 0 < k) {l : List α} {x : α} : x ∈ copies k l ↔ x ∈ l := by
  simp [copies, List.mem_replicate, hk.ne']

theorem filter (p : α → Bool) (k : Nat) (l : List α) : (copies k l).filter p = copies k (l.filter p) := by
  simp [copies, List.filter_flatten]

theorem countP (p : α → Bool) (k : Nat) (l : List α) : (copies k l).countP p = k * l.countP p := by
  rw [List.countP_eq_length_filter, filter, length, List.countP_eq_length_filter]

theorem zipWith (f : α → β → γ) (k : Nat) {a : List α} {b : List β} (h : a.length = b.length) :
    List.zipWith f (copies k a) (copies k b) = copies k (List.zipWith f a b) := by
  induction k with
  | zero => rfl
  | succ k ih => rw [succ, succ, succ, List.zipWith_append h, ih]

theorem flatten (k : Nat) (l : List (List α)) : (copies k l).flatten = copies k l.flatten := by
  induction k with
  | zero => rfl
  | succ k ih => rw [succ, succ, List.flatten_append, ih]

theorem sum {M : Type} [Semiring M] (k : Nat) (l : List M) : (copies k l).sum = (k : M) * l.sum := by
  induction k with
  | zero => simp [zero]
  | succ k ih => rw [succ, List.sum_append, ih, Nat.cast_succ, add_mul, one_mul, add_comm]

theorem source (k : Nat) {sd : List Int} {X : List α} (h : sd.length = X.length) :
    sourceRows (copies k sd) (copies k X) = copies k (sourceRows sd X) := by
  induction k with
  | zero => rfl
  | succ k ih => rw [succ, succ, succ, ← ih]; simp [sourceRows, List.zip_append h]

theorem target (k : Nat) {sd : List Int} {X : List α} (h : sd.length = X.length) :
    targetRows (copies k sd) (copies k X) = copies k (targetRows sd X) := by
  induction k with
  | zero => rfl
  | succ k ih => rw [succ, succ, succ, ← ih]; simp [targetRows, List.zip_append h]

theorem nSource (k : Nat) (sd : List Int) : nSource (copies k sd) = k * nSource sd := countP _ k sd
theorem nTarget (k : Nat) (sd : List Int) : nTarget (copies k sd) = k * nTarget sd := countP _ k sd

theorem ratio {K : Type} [Field K] [LinearOrder K] [IsStrictOrderedRing K] {k : Nat} (hk : 0 < k) (a : K) (n : Nat) :
    (k : K) * a / ((k * n : Nat) : K) = a / (n : K) := by
  have : (k : K) ≠ 0 := by exact_mod_cast hk.ne'
  push_cast
  rw [mul_div_mul_left _ _ this]

theorem mean {K : Type} [Field K] [LinearOrder K] [IsStrictOrderedRing K] {k : Nat} (hk : 0 < k) (l : List K) : RW.mean (copies k l) = RW.mean l := by
  rw [RW.mean, RW.mean, sum, length, ratio hk]

end Copies
end Skada

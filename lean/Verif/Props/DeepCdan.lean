/-
C97: the conditioning map of CDAN and its random numbers (skada/deep/_adversarial.py:206-380, 556-589, skada/deep/utils.py:39-63).
-/
import Verif.Model.DeepAdv
import Verif.Lemmas.Monad
import Mathlib.Tactic.Ring
import Mathlib.Tactic.FieldSimp

namespace Skada

open Np

variable {K : Type} [Field K] [LinearOrder K]

/-- Inner product of two rows. -/
def Spec.inner (a b : List K) : K := (List.zipWith (· * ·) a b).sum

open Spec

namespace Adv

omit [LinearOrder K] in
theorem outer_get (y x : List K) (a b : Nat) (ha : a < y.length) (hb : b < x.length) :
    (y.flatMap (fun u => x.map (fun v => u * v))).getD (a * x.length + b) 0 = y.getD a 0 * x.getD b 0 := by
  induction y generalizing a with
  | nil => simp at ha
  | cons u y ih =>
    rw [List.flatMap_cons]
    cases a with
    | zero =>
      rw [Nat.zero_mul, Nat.zero_add, List.getD_eq_getElem?_getD, List.getElem?_append_left (by simpa using hb)]
      simp [List.getD_eq_getElem?_getD, List.getElem?_eq_getElem hb]
    | succ a =>
      rw [List.getD_eq_getElem?_getD, List.getElem?_append_right (by simp [Nat.succ_mul]; omega), List.length_map, show (a + 1) * x.length + b - x.length = a * x.length + b by
        rw [Nat.succ_mul]; omega, ← List.getD_eq_getElem?_getD, ih a (by simpa using ha), List.getD_cons_succ]

omit [LinearOrder K] in
theorem outer_length (y x : List K) : (y.flatMap (fun u => x.map (fun v => u * v))).length = x.length * y.length := by
  induction y with
  | nil => simp
  | cons u y ih => rw [List.flatMap_cons, List.length_append, ih, List.length_map, List.length_cons, Nat.mul_succ, Nat.add_comm]

omit [LinearOrder K] in
theorem inner_append (a b c d : List K) (h : a.length = c.length) : inner (a ++ b) (c ++ d) = inner a c + inner b d := by
  unfold inner
  rw [List.zipWith_append h, List.sum_append]

omit [LinearOrder K] in
theorem inner_scale (u v : K) (x x' : List K) : inner (x.map (fun a => u * a)) (x'.map (fun a => v * a)) = u * v * inner x x' := by
  unfold inner
  induction x generalizing x' with
  | nil => simp
  | cons a x ih =>
    cases x' with
    | nil => simp
    | cons b x' => simp only [List.map_cons, List.zipWith_cons_cons, List.sum_cons, ih]; ring

omit [LinearOrder K] in
theorem outer_inner (y y' x x' : List K) (hx : x.length = x'.length) :
    inner (y.flatMap (fun u => x.map (fun v => u * v))) (y'.flatMap (fun u => x'.map (fun v => u * v))) = inner y y' * inner x x' := by
  induction y generalizing y' with
  | nil => simp [inner]
  | cons u y ih =>
    cases y' with
    | nil => simp [inner]
    | cons u' y' =>
      rw [List.flatMap_cons, List.flatMap_cons, inner_append _ _ _ _ (by simp [hx]), inner_scale, ih]
      simp only [inner, List.zipWith_cons_cons, List.sum_cons]
      ring

end Adv

omit [LinearOrder K] in
/-- C97.  Without the random layer the input of the domain classifier for row `i` holds at position `k * F + f` the product of the prediction for class `k`
and the feature `f`. -/
theorem C97_multilinear (root : Nat → K) (maxF F C : Nat) (hF : F * C ≤ maxF) (R0 R1 X Y : List (List K)) (hlen : X.length = Y.length)
    (hX : ∀ x ∈ X, x.length = F) (hY : ∀ y ∈ Y, y.length = C) :
    (Adv.cdanInput root maxF F C R0 R1 X Y).length = X.length ∧
    ∀ i < X.length, ∀ k < C, ∀ f < F, ((Adv.cdanInput root maxF F C R0 R1 X Y).getD i []).getD (k * F + f) 0 = (Y.getD i []).getD k 0 * (X.getD i []).getD f 0 := by
  unfold Adv.cdanInput Adv.multilinear
  rw [if_neg (by omega)]
  refine ⟨by simp [hlen], fun i hi k hk f hf => ?_⟩
  have hi' : i < Y.length := by omega
  have h1 := hX _ (List.getElem_mem hi)
  have h2 := hY _ (List.getElem_mem hi')
  simp only [List.getD_eq_getElem?_getD, List.getElem?_zipWith, List.getElem?_eq_getElem hi, List.getElem?_eq_getElem hi', Option.getD_some]
  have := Adv.outer_get Y[i] X[i] k f (by omega) (by omega)
  rw [h1] at this
  simpa only [List.getD_eq_getElem?_getD] using this

example : Adv.cdanInput (K := ℚ) (fun _ => 1) 6 3 2 [] [] [[1, 2, 3]] [[10, 20]] = [[10, 20, 30, 20, 40, 60]] := by decide +kernel

omit [LinearOrder K] in
/-- C97.  Inner products of the conditioned rows are the products of the inner products of predictions and features: two rows are close in the
conditioned space only if they are in both. -/
theorem C97_kernel (root : Nat → K) (maxF F C : Nat) (hF : F * C ≤ maxF) (R0 R1 X Y : List (List K)) (hlen : X.length = Y.length)
    (hX : ∀ x ∈ X, x.length = F) (i j : Nat) (hi : i < X.length) (hj : j < X.length) :
    inner ((Adv.cdanInput root maxF F C R0 R1 X Y).getD i []) ((Adv.cdanInput root maxF F C R0 R1 X Y).getD j []) =
      inner (Y.getD i []) (Y.getD j []) * inner (X.getD i []) (X.getD j []) := by
  unfold Adv.cdanInput Adv.multilinear
  rw [if_neg (by omega)]
  have hi' : i < Y.length := by omega
  have hj' : j < Y.length := by omega
  simp only [List.getD_eq_getElem?_getD, List.getElem?_zipWith, List.getElem?_eq_getElem hi, List.getElem?_eq_getElem hi', List.getElem?_eq_getElem hj,
    List.getElem?_eq_getElem hj', Option.getD_some]
  exact Adv.outer_inner _ _ _ _ ((hX _ (List.getElem_mem hi)).trans (hX _ (List.getElem_mem hj)).symm)

example : inner (K := ℚ) [10, 20, 30, 20, 40, 60] [10, 20, 30, 20, 40, 60] = inner [10, 20] [10, 20] * inner [1, 2, 3] [1, 2, 3] := by
  decide +kernel

omit [LinearOrder K] in
/-- C97.  With more than `max_features` products, entry `k` is the product of the two random projections, the first divided by `root max_features`. -/
theorem C97_random (root : Nat → K) (maxF F C : Nat) (hF : maxF < F * C) (R0 R1 X Y : List (List K)) (hlen : X.length = Y.length) (i k : Nat) (hi : i < X.length) (hk : k < maxF) :
    ((Adv.cdanInput root maxF F C R0 R1 X Y).getD i []).getD k 0 =
      (inner (X.getD i []) (R0.map (fun r => r.getD k 0)) / root maxF) * inner (Y.getD i []) (R1.map (fun r => r.getD k 0)) := by
  unfold Adv.cdanInput Adv.randomMap
  rw [if_pos hF]
  have hi' : i < Y.length := by omega
  simp only [List.getD_eq_getElem?_getD, List.getElem?_zipWith, List.getElem?_eq_getElem hi, List.getElem?_eq_getElem hi', Option.getD_some, Adv.mulRow,
    List.getElem?_map, List.getElem?_range hk, Option.map_some, inner, List.zipWith_map_right]

example : Adv.cdanInput (K := ℚ) (fun _ => 2) 4 3 2 [[1, 0, 0, 0], [0, 1, 0, 0], [0, 0, 1, 1]] [[1, 1, 1, 0], [0, 0, 0, 5]] [[1, 2, 3]] [[10, 20]] = [[5, 10, 15, 150]] := by
  decide +kernel

omit [LinearOrder K] in
/-- C97.  The default domain classifier has the right input size: every row has exactly the size that `CDAN` chose. -/
theorem C97_size (root : Nat → K) (maxF F C n : Nat) (R0 R1 X Y : List (List K)) (hX : ∀ x ∈ X, x.length = F) (hY : ∀ y ∈ Y, y.length = C)
    (hn : Adv.cdanSize maxF (some F) (some C) = .ok n) : n ≤ maxF ∧ ∀ row ∈ Adv.cdanInput root maxF F C R0 R1 X Y, row.length = n := by
  obtain rfl : min (F * C) maxF = n := by simpa [Adv.cdanSize] using hn
  refine ⟨Nat.min_le_right _ _, fun row hrow => ?_⟩
  rw [List.mem_iff_getElem] at hrow
  obtain ⟨i, hi, rfl⟩ := hrow
  by_cases h : F * C > maxF
  · simp only [Adv.cdanInput, if_pos h, Adv.randomMap, List.getElem_zipWith, List.length_zipWith, Adv.mulRow, List.length_map, List.length_range]
    omega
  · simp only [Adv.cdanInput, if_neg h, Adv.multilinear, List.getElem_zipWith, Adv.outer_length]
    rw [hX _ (List.getElem_mem _), hY _ (List.getElem_mem _)]
    omega

example : Adv.cdanSize 4 (some 3) (some 2) = .ok 4 ∧ Adv.cdanSize 4096 (some 3) (some 2) = .ok 6 := by decide

/-- C97.  Without a domain classifier, both sizes are required. -/
theorem C97_required (maxF : Nat) (f c : Option Nat) (h : f = none ∨ c = none) : Adv.cdanSize maxF f c = .error .valueError := by
  rcases f with _ | f <;> rcases c with _ | c <;> simp_all [Adv.cdanSize]

example : Adv.cdanSize 4096 (some 10) none = .error .valueError := C97_required _ _ _ (Or.inr rfl)

/-- C97, counterexample: documented for `check_generator` is a new generator for an integer, but the global generator is returned and reseeded: any two
global states become equal, so the random stream of the rest of the program is lost.  Only a given generator leaves it alone. -/
theorem C97_generator_counterexample (fresh n : Int) (g global global' : Adv.Gen) :
    (∃ after, Adv.checkGenerator fresh (.int n) global = .ok (.global, after) ∧ Adv.checkGenerator fresh (.int n) global' = .ok (.global, after)) ∧
    (∃ after, Adv.checkGenerator fresh .none global = .ok (.global, after) ∧ Adv.checkGenerator fresh .none global' = .ok (.global, after)) ∧
    Adv.checkGenerator fresh (.gen g) global = .ok (.given g, global) ∧ Adv.checkGenerator fresh .other global = .error .valueError :=
  ⟨⟨_, rfl, rfl⟩, ⟨_, rfl, rfl⟩, rfl, rfl⟩

example : Adv.checkGenerator 0 (.int 42) ⟨1, 5⟩ = Adv.checkGenerator 0 (.int 42) ⟨2, 9⟩ := rfl

namespace Adv

theorem cdanRuns_random (maxF F C : Nat) (hF : maxF < F * C) (seed : Int) (nets : List Nat) (g : Gen) (hg : g = ⟨seed, F * maxF + C * maxF⟩) :
    cdanRuns maxF F C seed nets g = List.replicate nets.length ⟨seed, F * maxF + C * maxF⟩ := by
  induction nets generalizing g with
  | nil => rfl
  | cons n nets ih =>
    have : (cdanRng maxF F C seed n g).2 = ⟨seed, F * maxF + C * maxF⟩ := by simp [cdanRng, hF, checkGenerator]
    rw [cdanRuns, ih _ this, List.length_cons, List.replicate_succ]
    congr 1
    simp [cdanRng, hF, checkGenerator, hg]

end Adv

/-- C97, counterexample to independent random draws in training: when the random layer is used, the global generator is in the same state at the beginning
of every forward pass from the second on, so dropout and all other draws of the network repeat in every batch. -/
theorem C97_repeat_counterexample (maxF F C : Nat) (hF : maxF < F * C) (seed : Int) (net : Nat) (nets : List Nat) (g : Adv.Gen) :
    ∃ s, Adv.cdanRuns maxF F C seed (net :: nets) g = g :: List.replicate nets.length s := by
  refine ⟨⟨seed, F * maxF + C * maxF⟩, ?_⟩
  have : (Adv.cdanRng maxF F C seed net g).2 = ⟨seed, F * maxF + C * maxF⟩ := by simp [Adv.cdanRng, hF, Adv.checkGenerator]
  rw [Adv.cdanRuns, this, Adv.cdanRuns_random maxF F C hF seed nets _ rfl]
  congr 1
  simp [Adv.cdanRng, hF, Adv.checkGenerator]

example : Adv.cdanRuns 4 3 2 42 [7, 7, 9] ⟨0, 0⟩ = [⟨0, 0⟩, ⟨42, 20⟩, ⟨42, 20⟩] := by decide

/-- C97.  Without the random layer every pass continues the random stream: the draws of different passes never overlap. -/
theorem C97_stream (maxF F C : Nat) (hF : F * C ≤ maxF) (seed : Int) (nets : List Nat) (g : Adv.Gen) :
    Adv.cdanRuns maxF F C seed nets g = (List.range nets.length).map (fun i => ⟨g.seed, g.used + (nets.take i).sum⟩) := by
  induction nets generalizing g with
  | nil => rfl
  | cons n nets ih =>
    have h : Adv.cdanRng maxF F C seed n g = (g, ⟨g.seed, g.used + n⟩) := by simp [Adv.cdanRng, not_lt.2 hF]
    rw [Adv.cdanRuns, h, ih, List.length_cons, List.range_succ_eq_map, List.map_cons, List.map_map]
    congr 1
    refine List.map_congr_left fun i _ => ?_
    simp [Nat.add_assoc]

example : Adv.cdanRuns 6 3 2 42 [7, 7, 9] ⟨0, 0⟩ = [⟨0, 0⟩, ⟨0, 7⟩, ⟨0, 14⟩] := by decide

end Skada

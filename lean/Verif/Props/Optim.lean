/-
C120: what `torch_minimize` returns and when it warns.
-/
import Verif.Model.Optim
import Mathlib.Tactic.Linarith
import Mathlib.Tactic.NormNum
import Mathlib.Analysis.Calculus.Deriv.Pow
import Mathlib.Analysis.Calculus.Deriv.Mul
import Mathlib.Analysis.Calculus.Deriv.Add

namespace Skada

namespace Spec

variable {T K : Type} [Field K] [LinearOrder K]

/-- A descent optimiser: the final point has as many arrays as the start, both were inside the domain of the loss, and its
loss is not above that of the start. -/
def Descends (opt : Optim.Lbfgs T K) : Prop :=
  ∀ c tol it x0 s, opt c tol it x0 = .ok s → s.final.length = x0.length ∧
    ∃ a b, c x0 = .ok a ∧ c s.final = .ok b ∧ b.1 ≤ a.1

/-- The optimiser that evaluates the start once and stops there (L-BFGS with `max_iter = 0`). -/
def stay : Optim.Lbfgs T K := fun c _ _ x0 => do
  let _ ← c x0
  return { final := x0, last := x0 }

/-- The optimiser that evaluates the start and one trial point and keeps the better one. -/
def tryOnce (move : List T → List T) : Optim.Lbfgs T K := fun c _ _ x0 => do
  let a ← c x0
  let b ← c (move x0)
  return { final := if b.1 ≤ a.1 then move x0 else x0, last := move x0 }

/-- No entry of the gradient is NaN and all are at most `tol` in absolute value. -/
def GradSmall (tol : K) (g : List (List (Option K))) : Prop := ∀ l ∈ g, ∀ v ∈ l, ∃ w, v = some w ∧ |w| ≤ tol

/-- Some entry of the gradient is NaN. -/
def HasNaN (g : List (List (Option K))) : Prop := ∃ l ∈ g, none ∈ l

end Spec

open Spec Optim

namespace Optim
section
variable {T K : Type} [LinearOrder K]

theorem stay_descends : Descends (stay : Lbfgs T K) := by
  intro c tol it x0 s h
  unfold stay at h
  cases hc : c x0 with
  | error e => rw [hc] at h; cases h
  | ok a =>
    rw [hc] at h
    cases h
    exact ⟨rfl, a, a, rfl, hc, le_refl _⟩

theorem tryOnce_descends (move : List T → List T) (hm : ∀ x, (move x).length = x.length) : Descends (tryOnce move : Lbfgs T K) := by
  intro c tol it x0 s h
  unfold tryOnce at h
  cases hc : c x0 with
  | error e => rw [hc] at h; cases h
  | ok a =>
    cases hb : c (move x0) with
    | error e => rw [hc] at h; simp only [bind, Except.bind, hb] at h; cases h
    | ok b =>
      rw [hc] at h
      simp only [bind, Except.bind, hb, pure, Except.pure, Except.ok.injEq] at h
      subst h
      by_cases hle : b.1 ≤ a.1
      · simp only [if_pos hle]
        exact ⟨hm x0, a, b, rfl, hb, hle⟩
      · simp only [if_neg hle]
        exact ⟨trivial, a, a, rfl, hc, le_refl _⟩

end

variable {T K : Type} [Field K] [LinearOrder K]

omit [Field K] [LinearOrder K] in
theorem toList_ofList (l : List T) : (Pack.ofList l).toList = l := by
  rcases l with _ | ⟨x, _ | ⟨y, l⟩⟩ <;> rfl

theorem minimize_ok {lbfgs : Lbfgs T K} {loss : List T → Py K} {grad : List T → List (List (Option K))} {x0 : Pack T} {tol : K}
    {maxIter : Nat} {out : Outcome T K} (h : torchMinimize lbfgs loss grad x0 tol maxIter = .ok out) :
    x0.toList.length ≠ 0 ∧ ∃ s, lbfgs (fun p => do let v ← loss p; return (v, grad p)) tol maxIter x0.toList = .ok s ∧
      out.x = Pack.ofList s.final ∧ loss s.final = .ok out.val ∧
      out.warned = (match gradMax (grad s.last) with | none => false | some g => decide (tol < g)) := by
  unfold torchMinimize at h
  by_cases h0 : x0.toList.length = 0
  · simp only [h0, if_true] at h
    cases h
  · refine ⟨h0, ?_⟩
    simp only [if_neg h0] at h
    cases hs : lbfgs (fun p => do let v ← loss p; return (v, grad p)) tol maxIter x0.toList with
    | error e => simp only [bind, Except.bind, pure, Except.pure] at h hs; rw [hs] at h; cases h
    | ok s =>
      cases hv : loss s.final with
      | error e => simp only [bind, Except.bind, pure, Except.pure] at h hs; rw [hs] at h; simp only [hv] at h; cases h
      | ok v =>
        simp only [bind, Except.bind, pure, Except.pure] at h hs
        rw [hs] at h
        simp only [hv] at h
        cases h
        exact ⟨s, rfl, rfl, hv, rfl⟩

theorem minimize_returns {lbfgs : Lbfgs T K} {loss : List T → Py K} {grad : List T → List (List (Option K))} {x0 : Pack T} {tol : K}
    {maxIter : Nat} {s : Stop T} {v : K} (h0 : x0.toList.length ≠ 0)
    (hs : lbfgs (fun p => do let v ← loss p; return (v, grad p)) tol maxIter x0.toList = .ok s) (hv : loss s.final = .ok v) :
    ∃ w, torchMinimize lbfgs loss grad x0 tol maxIter = .ok { x := Pack.ofList s.final, val := v, warned := w } := by
  unfold torchMinimize
  simp only [if_neg h0]
  simp only [bind, Except.bind, pure, Except.pure] at hs ⊢
  simp only [hs, hv]
  exact ⟨_, rfl⟩

theorem gradMax_none (g : List (List (Option K))) : gradMax g = none ↔ HasNaN g := by
  have key : ∀ l : List (Option K), l.foldr maxAbs (some (0 : K)) = none ↔ none ∈ l := by
    intro l
    induction l with
    | nil => simp
    | cons v l ih =>
      rw [List.foldr_cons]
      cases v with
      | none => simp [maxAbs]
      | some v =>
        cases hl : l.foldr maxAbs (some (0 : K)) with
        | none => simp [maxAbs, ih.1 hl]
        | some m =>
          have : none ∉ l := fun h => by rw [ih.2 h] at hl; cases hl
          simp [maxAbs, this]
  unfold gradMax HasNaN
  rw [key, List.mem_flatten]

theorem gradMax_le (g : List (List (Option K))) (tol m : K) (htol : 0 ≤ tol) (h : gradMax g = some m) : m ≤ tol ↔ GradSmall tol g := by
  have key : ∀ (l : List (Option K)) (m : K), l.foldr maxAbs (some (0 : K)) = some m → (m ≤ tol ↔ ∀ v ∈ l, ∃ w, v = some w ∧ |w| ≤ tol) := by
    intro l
    induction l with
    | nil => intro m hm; cases hm; simpa using htol
    | cons v l ih =>
      intro m hm
      rw [List.foldr_cons] at hm
      cases v with
      | none => cases hm
      | some v =>
        cases hl : l.foldr maxAbs (some (0 : K)) with
        | none => rw [hl] at hm; cases hm
        | some m' =>
          rw [hl] at hm
          cases hm
          rw [max_le_iff, ih m' hl, List.forall_mem_cons]
          refine and_congr_left fun _ => ?_
          exact ⟨fun h => ⟨v, rfl, h⟩, fun ⟨w, hw, h⟩ => by cases hw; exact h⟩
  unfold gradMax at h
  rw [key _ _ h]
  unfold GradSmall
  constructor
  · intro hall l hl v hv
    exact hall v (List.mem_flatten.2 ⟨l, hl, hv⟩)
  · intro hall v hv
    obtain ⟨l, hl, hv⟩ := List.mem_flatten.1 hv
    exact hall l hl v hv

end Optim

section C120
variable {T K : Type} [Field K] [LinearOrder K]

/-- **C120 (result)** Whatever the optimiser does: if `torch_minimize` returns, the reported value is the loss at the returned
arrays, the returned arrays are those the optimiser ended with, they come as a list unless there is exactly one, and with a
descent optimiser the value is not above the loss at `x0`.  An empty list of arrays is refused. -/
theorem C120_result (lbfgs : Lbfgs T K) (loss : List T → Py K) (grad : List T → List (List (Option K))) (x0 : Pack T) (tol : K)
    (maxIter : Nat) :
    (x0.toList = [] → torchMinimize lbfgs loss grad x0 tol maxIter = .error .valueError) ∧
    ∀ out, torchMinimize lbfgs loss grad x0 tol maxIter = .ok out →
      loss out.x.toList = .ok out.val ∧
      (∃ s, lbfgs (fun p => do let v ← loss p; return (v, grad p)) tol maxIter x0.toList = .ok s ∧ out.x.toList = s.final) ∧
      ((∃ x, out.x = .one x) ↔ out.x.toList.length = 1) ∧
      (Descends lbfgs → out.x.toList.length = x0.toList.length ∧ ∃ v0, loss x0.toList = .ok v0 ∧ out.val ≤ v0) := by
  refine ⟨fun h => ?_, fun out h => ?_⟩
  · unfold torchMinimize
    simp only [h, List.length_nil, if_true]
    rfl
  · obtain ⟨-, s, hs, hx, hv, -⟩ := minimize_ok h
    have hl : out.x.toList = s.final := by rw [hx, toList_ofList]
    refine ⟨by rw [hl]; exact hv, ⟨s, hs, hl⟩, ?_, fun hd => ?_⟩
    · rw [hl, hx]
      rcases s.final with _ | ⟨x, _ | ⟨y, l⟩⟩ <;> simp [Pack.ofList]
    · obtain ⟨hlen, a, b, ha, hb, hle⟩ := hd _ _ _ _ _ hs
      refine ⟨by rw [hl]; exact hlen, ?_⟩
      cases h0 : loss x0.toList with
      | error e => simp only [bind, Except.bind, h0] at ha; cases ha
      | ok v0 =>
        simp only [bind, Except.bind, pure, Except.pure, h0, Except.ok.injEq] at ha
        simp only [bind, Except.bind, pure, Except.pure, hv, Except.ok.injEq] at hb
        subst ha hb
        exact ⟨v0, rfl, hle⟩

/-- Two arrays, a descent step to the minimum of `(a - 1)² + b²` from `(3, 0)`. -/
example : ∃ out, torchMinimize (tryOnce (fun _ => [1, 0])) (fun p : List ℚ => match p with
      | [a, b] => .ok ((a - 1) ^ 2 + b ^ 2) | _ => .error .typeError)
      (fun p => match p with | [a, b] => [[some (2 * (a - 1))], [some (2 * b)]] | _ => []) (.many [3, 0]) (1 / 100) 10 = .ok out ∧
    out.x = .many [1, 0] ∧ out.val = 0 ∧ out.warned = false :=
  ⟨{ x := .many [1, 0], val := 0, warned := false }, by
    unfold torchMinimize tryOnce
    decide +kernel, rfl, rfl, rfl⟩

/-- **C120 (warning, partial)** If the optimiser evaluated the point it ended with last, no warning means that the gradient at
the solution is at most `tol` everywhere or contains NaN; with a finite gradient the warning is exact.
Missing for the full claim (*the warning appears exactly if the solution is not stationary to within `tol`*): see the
counterexamples. -/
theorem C120_warning_partial (lbfgs : Lbfgs T K) (loss : List T → Py K) (grad : List T → List (List (Option K))) (x0 : Pack T)
    (tol : K) (htol : 0 ≤ tol) (maxIter : Nat) (out : Outcome T K)
    (h : torchMinimize lbfgs loss grad x0 tol maxIter = .ok out)
    (hlast : ∀ s, lbfgs (fun p => do let v ← loss p; return (v, grad p)) tol maxIter x0.toList = .ok s → s.last = s.final) :
    (out.warned = false ↔ HasNaN (grad out.x.toList) ∨ GradSmall tol (grad out.x.toList)) ∧
    (¬ HasNaN (grad out.x.toList) → (out.warned = true ↔ ¬ GradSmall tol (grad out.x.toList))) := by
  obtain ⟨-, s, hs, hx, -, hw⟩ := minimize_ok h
  have hl : out.x.toList = s.final := by rw [hx, toList_ofList]
  rw [hlast s hs, ← hl] at hw
  have main : out.warned = false ↔ HasNaN (grad out.x.toList) ∨ GradSmall tol (grad out.x.toList) := by
    rw [hw]
    cases hg : gradMax (grad out.x.toList) with
    | none => simp [(gradMax_none _).1 hg]
    | some m =>
      have hn : ¬ HasNaN (grad out.x.toList) := fun hn => by rw [(gradMax_none _).2 hn] at hg; cases hg
      simp only [decide_eq_false_iff_not, not_lt, hn, false_or]
      exact gradMax_le _ _ _ htol hg
  refine ⟨main, fun hn => ?_⟩
  rw [← Bool.not_eq_false, main, not_or]
  exact ⟨fun h => h.2, fun h => ⟨hn, h⟩⟩

/-- The hypotheses hold for an optimiser that stays: at `x = 3` the gradient of `x²` is 6, which is reported. -/
example : ∃ out, torchMinimize (stay : Lbfgs ℚ ℚ) (fun p => match p with | [a] => .ok (a ^ 2) | _ => .error .typeError)
      (fun p => match p with | [a] => [[some (2 * a)]] | _ => []) (.one 3) (1 / 100) 0 = .ok out ∧ out.warned = true :=
  ⟨{ x := .one 3, val := 9, warned := true }, by unfold torchMinimize stay; decide +kernel, rfl⟩

/-- **C120 (missed warning, refuted)** The gradient looked at is the one of the last evaluation, not the one at the solution:
a descent optimiser on the smooth function `x + 5/2 x² + 4/3 x³`, started at 0, that tries the gradient step to -1, rejects it
(the loss is larger there) and returns 0.  The gradient at the solution is 1, no warning is given for `tol = 1/100`. -/
theorem C120_warning_counterexample :
    let f : ℝ → ℝ := fun x => x + 5 / 2 * x ^ 2 + 4 / 3 * x ^ 3
    let f' : ℝ → ℝ := fun x => 1 + 5 * x + 4 * x ^ 2
    (∀ x, HasDerivAt f (f' x) x) ∧
    ∃ opt : Lbfgs ℝ ℝ, Descends opt ∧ ∃ out,
      torchMinimize opt (fun p => match p with | [x] => .ok (f x) | _ => .error .typeError)
        (fun p => p.map (fun x => [some (f' x)])) (.one 0) (1 / 100) 100 = .ok out ∧
      out.x = .one 0 ∧ f' 0 = 1 ∧ out.warned = false := by
  intro f f'
  refine ⟨fun x => ?_, tryOnce (fun p => p.map (fun x => x - f' x)), tryOnce_descends _ (fun x => by simp),
    { x := .one 0, val := f 0, warned := false }, ?_, rfl, by simp [f'], rfl⟩
  · have h1 := hasDerivAt_id x
    have h2 := HasDerivAt.const_mul (5 / 2 : ℝ) (hasDerivAt_pow 2 x)
    have h3 := HasDerivAt.const_mul (4 / 3 : ℝ) (hasDerivAt_pow 3 x)
    refine HasDerivAt.congr_deriv (HasDerivAt.add (HasDerivAt.add h1 h2) h3) ?_
    simp only [f']
    ring
  · have e1 : (0 : ℝ) - f' 0 = -1 := by simp [f']
    have hf0 : f 0 = 0 := by simp [f]
    have hf1 : f (-1) = 1 / 6 := by simp only [f]; norm_num
    have hg1 : f' (-1) = 0 := by simp only [f']; norm_num
    have hn : ¬ ((1 : ℝ) / 6 ≤ 0) := by norm_num
    have hm : gradMax [[some (0 : ℝ)]] = some 0 := by simp [gradMax, maxAbs]
    have ht : ¬ ((1 : ℝ) / 100 < 0) := by norm_num
    simp only [torchMinimize, tryOnce, Pack.toList, List.length_singleton, one_ne_zero, if_false, bind, Except.bind, pure,
      Except.pure, List.map_cons, List.map_nil, e1, hf0, hf1, hn, hg1, hm, ht, decide_false, Pack.ofList]

/-- **C120 (NaN, refuted)** A NaN gradient never triggers the warning: for every loss whose gradient is NaN, and every
optimiser, no warning is given. -/
theorem C120_nan_counterexample (lbfgs : Lbfgs T K) (loss : List T → Py K) (grad : List T → List (List (Option K)))
    (hnan : ∀ p, HasNaN (grad p)) (x0 : Pack T) (tol : K) (maxIter : Nat) (out : Outcome T K)
    (h : torchMinimize lbfgs loss grad x0 tol maxIter = .ok out) : out.warned = false := by
  obtain ⟨-, s, -, -, -, hw⟩ := minimize_ok h
  rw [hw, (gradMax_none _).2 (hnan _)]

example : ∃ out, torchMinimize (stay : Lbfgs ℚ ℚ) (fun _ => .ok 5) (fun p => p.map (fun _ => [none])) (.one 3) 0 7 = .ok out :=
  ⟨{ x := .one 3, val := 5, warned := false }, by unfold torchMinimize stay; decide +kernel⟩

end C120

end Skada

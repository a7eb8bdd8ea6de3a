/-
C105: the batches and the loss of deep domain adaptation training.
-/
import Verif.Props.DeepTrain

namespace Skada
open Np Spec Deep

variable {σ K α P D F Y : Type} [Field K] [DecidableEq Y]

namespace Spec

/-- Training over given batches: in every epoch the batches `cut st` of positions into `items`, one step each. -/
def batchFit {β : Type} (items : List β) (begin : σ → Py σ) (cut : σ → List (List Nat)) (after : σ → σ) (step : List β → σ → Py σ) : Nat → σ → Py σ
  | 0, st => .ok st
  | n + 1, st => do
    let st ← begin st
    let st ← ((cut st).map (List.filterMap (fun i => items[i]?))).foldlM (fun st c => step c st) (after st)
    batchFit items begin cut after step n st

/-- Batches of `b` source and `b` target positions in turn. -/
def IsBalanced (sds : List Int) (b : Nat) (c : List Nat) : Prop :=
  c.length = 2 * b ∧ ∀ j < b, ∃ (p q : Nat) (dp dq : Int), c[2 * j]? = some p ∧ c[2 * j + 1]? = some q ∧ sds[p]? = some dp ∧ 0 ≤ dp ∧ sds[q]? = some dq ∧ dq < 0

/-- What a domain classifier, if there is one, says about the features. -/
def domainScores (clf : Option (σ → Option (List F) → Py (σ × List D))) (st : σ) (f : Option (List F)) : Py (σ × Option (List D)) :=
  match clf with
  | none => .ok (st, none)
  | some g => (g st f).map (fun r => (r.1, some r.2))

end Spec

omit [DecidableEq Y] in
theorem itemSteps_foldlM (T : Net σ K α P D F Y) (cs : List (List (Item K α Y))) (st : σ) :
    itemSteps T cs st = cs.foldlM (fun st c => itemStep T c st) st := by
  induction cs generalizing st with
  | nil => rfl
  | cons c cs ih => rw [itemSteps, List.foldlM_cons]; congr 1; funext st; exact ih st

/-- C105.  Training with the balanced loader: every epoch consists of `N / b` optimiser steps, where `N` is the number of rows of the side the mode asks for,
cut down to a multiple of `b`; every batch has `b` source rows and `b` target rows in turn; and over an epoch every source row is used equally often
up to one, and so is every target row. -/
theorem C105_batches (noLabel : Y) (s : DS K α Y) (l : List (Rec K α Y)) (hs : Holds noLabel s l) (T : Net σ K α P D F Y)
    (shs : σ → Nat → Nat → (Nat → List Nat) × (Nat → List Nat) × σ)
    (hP : ∀ st k m i, ((shs st k m).1 i).Perm (List.range k)) (hN : ∀ st k m i, ((shs st k m).2.1 i).Perm (List.range m))
    (mode : String) (hmode : mode ∈ ["max", "min", "source", "target"]) (b : Nat) (hb : 0 < b)
    (h1 : 0 < nSource (l.map Rec.d)) (h2 : 0 < nTarget (l.map Rec.d)) :
    ∃ (N : Nat) (cut : σ → List (List Nat)),
      epochSize mode (nSource (l.map Rec.d) - nSource (l.map Rec.d) % b) (nTarget (l.map Rec.d) - nTarget (l.map Rec.d) % b) = some N ∧ b ∣ N ∧
      (∀ st, (cut st).length = N / b ∧ (∀ c ∈ cut st, IsBalanced (l.map Rec.d) b c) ∧
        (∀ (i : Nat) (d : Int), (l.map Rec.d)[i]? = some d → 0 ≤ d →
          N / nSource (l.map Rec.d) ≤ (cut st).flatten.count i ∧ (cut st).flatten.count i ≤ (N + nSource (l.map Rec.d) - 1) / nSource (l.map Rec.d)) ∧
        (∀ (i : Nat) (d : Int), (l.map Rec.d)[i]? = some d → d < 0 →
          N / nTarget (l.map Rec.d) ≤ (cut st).flatten.count i ∧ (cut st).flatten.count i ≤ (N + nTarget (l.map Rec.d) - 1) / nTarget (l.map Rec.d))) ∧
      ∀ n st, T.fitBalanced shs mode b n s st =
        batchFit (ranked l) (fun st => T.epochBegin st s) cut (fun st => (shs st (nSource (l.map Rec.d)) (nTarget (l.map Rec.d))).2.2)
          (fun c st => do
            let st ← T.opt st (T.loss (collate c))
            T.batchEnd st (collate c)) n st := by
  have hsd : (iter s).map (fun a => a.d) = l.map Rec.d := by rw [hs.iter, ranked, rankedFrom_d]
  have hll : l.length = (l.map Rec.d).length := by simp
  unfold Net.fitBalanced
  rw [hsd]
  generalize l.map Rec.d = sds at *
  obtain ⟨o, ho, -⟩ := (C41_errors sds mode b).2 hb
  have ho' := ho
  unfold balancedInit at ho'
  simp only [bind_ok_iff] at ho'
  obtain ⟨_, -, _, -, ho'⟩ := ho'
  injection ho' with ho'
  have hpos : o.pos.length = nSource sds := by rw [← ho']; exact length_pos_idx sds
  have hneg : o.neg.length = nTarget sds := by rw [← ho']; exact length_neg_idx sds
  obtain ⟨N, -, -, -, -, hN1, ⟨q, hq⟩, -⟩ := C41_epoch sds b mode o (fun _ => List.range (nSource sds)) (fun _ => List.range (nTarget sds)) ho
    (fun _ => .refl _) (fun _ => .refl _) h1 h2 hmode
  have hep : ∀ st, ∃ r : List Nat, balancedIter o (shs st (nSource sds) (nTarget sds)).1 (shs st (nSource sds) (nTarget sds)).2.1 = .ok r ∧
      r.length = 2 * N ∧
      (∀ j, j < N → ∃ (p q : Nat) (dp dq : Int), r[2 * j]? = some p ∧ r[2 * j + 1]? = some q ∧ sds[p]? = some dp ∧ 0 ≤ dp ∧
        sds[q]? = some dq ∧ dq < 0) ∧
      (∀ (i : Nat) (d : Int), sds[i]? = some d → 0 ≤ d →
        N / nSource sds ≤ r.count i ∧ r.count i ≤ (N + nSource sds - 1) / nSource sds) ∧
      (∀ (i : Nat) (d : Int), sds[i]? = some d → d < 0 →
        N / nTarget sds ≤ r.count i ∧ r.count i ≤ (N + nTarget sds - 1) / nTarget sds) := by
    intro st
    obtain ⟨N', r, -, h3, h4, h5, -, h6, h7, h8⟩ := C41_epoch sds b mode o (shs st (nSource sds) (nTarget sds)).1
      (shs st (nSource sds) (nTarget sds)).2.1 ho (hP st _ _) (hN st _ _) h1 h2 hmode
    rw [hN1] at h5
    injection h5 with h5
    subst h5
    exact ⟨r, h3, h4, h6, h7, h8⟩
  choose r hr hl halt hcs hct using hep
  have hcut : ∀ st, chunks (2 * b) (r st).length (r st) = (List.range q).map (fun j => ((r st).drop (j * (2 * b))).take (2 * b)) := fun st =>
    chunks_full (2 * b) (by omega) q _ _ (by rw [hl, hq]; ring) (by rw [hl, hq]; nlinarith)
  have hflat : ∀ st, (chunks (2 * b) (r st).length (r st)).flatten = r st := fun st => chunks_flatten _ (by omega) _ _ le_rfl
  have hbal : ∀ st, ∀ c ∈ chunks (2 * b) (r st).length (r st), IsBalanced sds b c := by
    intro st c hc
    rw [hcut, List.mem_map] at hc
    obtain ⟨k, hk, rfl⟩ := hc
    rw [List.mem_range] at hk
    have hle : b * k + b ≤ N := by rw [hq, ← Nat.mul_succ]; exact Nat.mul_le_mul_left _ hk
    have e : k * (2 * b) = 2 * (b * k) := by ring
    refine ⟨by rw [List.length_take, List.length_drop, hl, e]; omega, fun j hj => ?_⟩
    obtain ⟨p, q, dp, dq, e1, e2, e3⟩ := halt st (b * k + j) (by omega)
    refine ⟨p, q, dp, dq, ?_, ?_, e3⟩
    · rw [List.getElem?_take, if_pos (by omega), List.getElem?_drop, ← e1, e]
      congr 1; ring
    · rw [List.getElem?_take, if_pos (by omega), List.getElem?_drop, ← e2, e]
      congr 1; ring
  have hmem : ∀ st, ∀ is ∈ chunks (2 * b) (r st).length (r st), ∀ i ∈ is, i < l.length := by
    intro st is his i hi
    rw [hll]
    obtain ⟨hlen, hb'⟩ := hbal st is his
    obtain ⟨m, hm⟩ := List.mem_iff_getElem?.1 hi
    have hm' := (List.getElem?_eq_some_iff.1 hm).1
    obtain ⟨p, q, dp, dq, e1, e2, e3, -, e5, -⟩ := hb' (m / 2) (by omega)
    rcases Nat.mod_two_eq_zero_or_one m with h | h
    · rw [show 2 * (m / 2) = m by omega, hm] at e1
      injection e1 with e1
      subst e1
      exact (List.getElem?_eq_some_iff.1 e3).1
    · rw [show 2 * (m / 2) + 1 = m by omega, hm] at e2
      injection e2 with e2
      subst e2
      exact (List.getElem?_eq_some_iff.1 e5).1
  refine ⟨N, fun st => chunks (2 * b) (r st).length (r st), hN1, ⟨q, hq⟩, fun st => ⟨?_, hbal st, ?_, ?_⟩, fun n st => ?_⟩
  · dsimp only
    rw [hcut, List.length_map, List.length_range, hq, Nat.mul_div_cancel_left _ hb]
  · dsimp only; rw [hflat]; exact hcs st
  · dsimp only; rw [hflat]; exact hct st
  · rw [ho, ok_bind]
    induction n generalizing st with
    | zero => rfl
    | succ n ih =>
      rw [epochs, batchFit]
      cases T.epochBegin st s with
      | error e => rfl
      | ok st' =>
        simp only [ok_bind, hpos, hneg, hr]
        rw [steps_items hs T _ (hmem st'), itemSteps_foldlM]
        simp only [hpos, hneg, hr, ok_bind] at ih
        congr 1
        funext st''
        exact ih st''

omit [DecidableEq Y] in
/-- C105 (loss).  The loss of such a step, for unweighted rows: the mean of `base loss(source predictions, source labels) + reg * adaptation loss`,
where the network sees the whole batch and the adaptation loss gets source labels, and predictions, domain predictions, features and positions
of either side apart. -/
theorem C105_loss (T : Net σ K α P D F Y) (ht : T.onTarget = false) (hM : OneRowEach T.module)
    (hl : T.module.layer = none → T.module.clf = none)
    (hc : ∀ g, T.module.clf = some g → ∀ st f st' d, g st (some f) = .ok (st', d) → d.length = f.length)
    (c : List (Item K α Y)) (hne : c ≠ []) (hw : ∀ a ∈ c, a.w = none) (st : σ) :
    T.loss (collate c) st = (do
      let (st, p, layers) ← T.module.base st (c.map (·.x)) none
      let f : Option (List F) := T.module.layer.bind layers
      let (st, d) ← domainScores T.module.clf st f
      let sd := c.map (·.d)
      let b ← T.crit (sourceRows sd p) (sourceRows sd (c.map (·.y)))
      let a ← T.adapt st ⟨sourceRows sd (c.map (·.y)), sourceRows sd p, targetRows sd p, d.map (sourceRows sd), d.map (targetRows sd),
        f.map (sourceRows sd), f.map (targetRows sd), some (sourceRows sd (c.map (·.i))), some (targetRows sd (c.map (·.i)))⟩
      return (st, lossMean (b.plus (T.reg * a)))) := by
  have hwn : c.mapM Item.w = none := by
    cases c with
    | nil => exact absurd rfl hne
    | cons a c => rw [List.mapM_cons, hw a (by simp)]; rfl
  unfold Net.loss forwardFit collate
  simp only [hwn, Option.map_none]
  cases hb : T.module.base st (c.map (·.x)) none with
  | error e => rfl
  | ok r =>
    obtain ⟨st', p, ls⟩ := r
    obtain ⟨hp, hf⟩ := hM _ _ _ _ _ _ hb
    simp only [ok_bind]
    have hfe : featuresOf T.module ls = .ok (T.module.layer.bind ls) := by
      unfold featuresOf
      cases hn : T.module.layer with
      | none => rfl
      | some n =>
        obtain ⟨f, hf, -⟩ := hf n hn
        simp only [Option.bind_some, layerOf, hf]
        rfl
    have hfl : ∀ f, T.module.layer.bind ls = some f → f.length = (c.map (·.d)).length := by
      intro f h
      cases hn : T.module.layer with
      | none => rw [hn] at h; simp at h
      | some n =>
        obtain ⟨f', h1, h2⟩ := hf n hn
        rw [hn, Option.bind_some, h1] at h
        injection h with h
        subst h
        simpa using h2
    rw [hfe]
    simp only [ok_bind]
    generalize hF : T.module.layer.bind ls = f at hfl ⊢
    have hdom : domainOf T.module st' f = domainScores T.module.clf st' f := rfl
    rw [← hdom]
    cases hD : domainOf T.module st' f with
    | error e => rfl
    | ok r =>
      obtain ⟨st2, d⟩ := r
      have hdl : ∀ l, d = some l → l.length = (c.map (·.d)).length := by
        intro l hl'
        subst hl'
        rw [hdom] at hD
        cases hg : T.module.clf with
        | none => rw [hg] at hD; simp [domainScores] at hD
        | some g =>
          rw [hg] at hD
          simp only [domainScores] at hD
          cases hgf : g st' f with
          | error e => rw [hgf] at hD; simp [Except.map] at hD
          | ok q =>
            rw [hgf] at hD
            simp only [Except.map, Except.ok.injEq, Prod.mk.injEq, Option.some.injEq] at hD
            cases f with
            | none =>
              cases hn : T.module.layer with
              | none => rw [hl hn] at hg; simp at hg
              | some n =>
                obtain ⟨f', h1, -⟩ := hf n hn
                rw [hn, Option.bind_some, h1] at hF
                simp at hF
            | some f =>
              rw [← hD.2, hc g hg _ _ _ _ hgf]
              exact hfl f rfl
      simp only [ok_bind, pure_ok]
      rw [ht, C43_value _ _ _ _ _ (by simpa using hp) (by simp) hdl hfl (by simp)]
      dsimp only [Option.map_some]
      generalize T.crit _ _ = q
      cases q with
      | error e => rfl
      | ok q =>
        simp only [ok_bind]
        generalize T.adapt _ _ = q'
        cases q' with
        | error e => rfl
        | ok q' => simp only [ok_bind, pure_ok, getLoss, lossMean_eq]

/-- C105 fails for small data: if the side that rules has fewer rows than the batch size, no step is made at all, and only the callbacks at the
beginning of the epochs run; nothing is raised.  In the default mode this needs both sides to be small. -/
theorem C105_small_counterexample (noLabel : Y) (s : DS K α Y) (l : List (Rec K α Y)) (hs : Holds noLabel s l) (T : Net σ K α P D F Y)
    (shs : σ → Nat → Nat → (Nat → List Nat) × (Nat → List Nat) × σ)
    (hP : ∀ st k m i, ((shs st k m).1 i).Perm (List.range k)) (hN : ∀ st k m i, ((shs st k m).2.1 i).Perm (List.range m))
    (mode : String) (b : Nat) (h1 : 0 < nSource (l.map Rec.d)) (h2 : 0 < nTarget (l.map Rec.d))
    (hsmall : mode = "max" ∧ nSource (l.map Rec.d) < b ∧ nTarget (l.map Rec.d) < b ∨
      mode = "min" ∧ (nSource (l.map Rec.d) < b ∨ nTarget (l.map Rec.d) < b) ∨
      mode = "source" ∧ nSource (l.map Rec.d) < b ∨ mode = "target" ∧ nTarget (l.map Rec.d) < b)
    (hbegin : ∀ st, T.epochBegin st s = .ok st) (hsh : ∀ st k m, (shs st k m).2.2 = st) (n : Nat) (st : σ) :
    T.fitBalanced shs mode b n s st = .ok st := by
  have hb : 0 < b := by omega
  have hmode : mode ∈ ["max", "min", "source", "target"] := by
    rcases hsmall with h | h | h | h <;> simp [h.1]
  obtain ⟨N, cut, hN1, -, hcut, hfit⟩ := C105_batches noLabel s l hs T shs hP hN mode hmode b hb h1 h2
  have hN0 : N = 0 := by
    have e1 : ∀ k, k < b → k - k % b = 0 := fun k hk => by rw [Nat.mod_eq_of_lt hk]; omega
    rcases hsmall with ⟨rfl, h3, h4⟩ | ⟨rfl, h3⟩ | ⟨rfl, h3⟩ | ⟨rfl, h3⟩
    · simp [epochSize, e1 _ h3, e1 _ h4] at hN1; exact hN1.symm
    · rcases h3 with h3 | h3 <;> simp [epochSize, e1 _ h3] at hN1 <;> exact hN1.symm
    · simp [epochSize, e1 _ h3] at hN1; exact hN1.symm
    · simp [epochSize, e1 _ h3] at hN1; exact hN1.symm
  rw [hfit]
  simp only [hsh]
  induction n generalizing st with
  | zero => rfl
  | succ n ih =>
    have h0 : cut st = [] := by
      have := (hcut st).1
      rw [hN0, Nat.zero_div] at this
      exact List.length_eq_zero_iff.1 this
    rw [batchFit, hbegin]
    simp only [ok_bind, h0, List.map_nil, List.foldlM_nil, pure_ok]
    exact ih st

/-- C105 (rejected uses).  Batch size 0, an empty side, and an unknown mode end in these exceptions. -/
theorem C105_errors (noLabel : Y) (s : DS K α Y) (l : List (Rec K α Y)) (hs : Holds noLabel s l) (T : Net σ K α P D F Y)
    (shs : σ → Nat → Nat → (Nat → List Nat) × (Nat → List Nat) × σ) (hbegin : ∀ st, T.epochBegin st s = .ok st) (mode : String) (b n : Nat) (st : σ) :
    T.fitBalanced shs mode 0 n s st = .error .zeroDivisionError ∧
    (0 < b → 0 < n → nSource (l.map Rec.d) = 0 ∨ nTarget (l.map Rec.d) = 0 → T.fitBalanced shs mode b n s st = .error .valueError) ∧
    (0 < b → 0 < n → 0 < nSource (l.map Rec.d) → 0 < nTarget (l.map Rec.d) → mode ∉ ["max", "min", "source", "target"] →
      T.fitBalanced shs mode b n s st = .error .attributeError) := by
  have hsd : (iter s).map (fun a => a.d) = l.map Rec.d := by rw [hs.iter, ranked, rankedFrom_d]
  unfold Net.fitBalanced
  rw [hsd]
  refine ⟨by rw [(C41_errors _ mode b).1]; rfl, ?_, ?_⟩
  · intro hb hn h
    obtain ⟨o, ho, -, h2⟩ := (C41_errors (l.map Rec.d) mode b).2 hb
    rw [ho]
    cases n with
    | zero => omega
    | succ n => simp only [ok_bind, epochs, hbegin, h2 h, err_bind]
  · intro hb hn h1 h2 hm
    obtain ⟨o, ho, h3, -⟩ := (C41_errors (l.map Rec.d) mode b).2 hb
    rw [ho]
    cases n with
    | zero => omega
    | succ n => simp only [ok_bind, epochs, hbegin, (h3 hm).2 h1 h2, err_bind]

/-- Three sources, two targets, batch size 2: one step on rows 0, 1, 2, 3. -/
example : (toyNet false).fitBalanced (fun θ k m => (fun _ => List.range k, fun _ => List.range m, θ)) "max" 2 1 (toyData 0 0) 1 =
    toyOpt 1 ((toyNet false).loss (collate [⟨1, 0, 0, none, 2⟩, ⟨5, -1, 0, none, 0⟩, ⟨2, 0, 1, none, 3⟩, ⟨7, -1, 1, none, 0⟩])) := by
  decide +kernel

example : ∃ (N : Nat) (cut : ℚ → List (List Nat)), epochSize "max" 2 2 = some N ∧ (∀ st, (cut st).length = N / 2) ∧
    (∀ st, ∀ c ∈ cut st, IsBalanced [0, -1, 0, -1, 1] 2 c) := by
  obtain ⟨N, cut, h1, -, h2, -⟩ := C105_batches (-1) _ _ (toy_holds 0 0) (toyNet false) (fun θ k m => (fun _ => List.range k, fun _ => List.range m, θ))
    (fun _ _ _ _ => .refl _) (fun _ _ _ _ => .refl _) "max" (by simp) 2 (by norm_num) (by simp [toyRecs, nSource]) (by simp [toyRecs, nTarget])
  exact ⟨N, cut, by simpa [toyRecs, nSource, nTarget] using h1, fun st => (h2 st).1, fun st => (h2 st).2.1⟩

example : (toyNet false).loss (collate [⟨1, 0, 0, none, 2⟩, ⟨5, -1, 0, none, 0⟩]) 1 = (do
    let b ← toyCrit [1] [2]
    return ((1 : ℚ), lossMean (b.plus (1 / 10 * (1 - 5))))) := by
  rw [C105_loss _ rfl toy_oneRow (fun _ => rfl) (fun g hg => by simp [toyNet, toyModule] at hg) _ (by simp) (by simp)]
  decide +kernel

example : (toyNet false).fitBalanced (fun θ k m => (fun _ => List.range k, fun _ => List.range m, θ)) "max" 4 100 (toyData 0 0) 1 = .ok 1 :=
  C105_small_counterexample (-1) _ _ (toy_holds 0 0) _ _ (fun _ _ _ _ => .refl _) (fun _ _ _ _ => .refl _) "max" 4
    (by simp [toyRecs, nSource]) (by simp [toyRecs, nTarget]) (by simp [toyRecs, nSource, nTarget]) (fun _ => rfl) (fun _ _ _ => rfl) 100 1

end Skada

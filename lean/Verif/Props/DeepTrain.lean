/-
Whole training runs of deep networks: C98 (`SourceOnly` and `TargetOnly` train on one side only), C99 (training does not see target labels),
C100 (the module in training and in prediction).
-/
import Verif.Lemmas.DeepTrain
import Verif.Props.Sampler

namespace Skada
open Np Spec Deep

variable {σ K α P D F Y : Type} [Field K] [DecidableEq Y]

/-! ### C98: baselines -/

namespace Spec

/-- The rows of the source or of the target. -/
def onSide (used : String) (l : List (Rec K α Y)) : List (Rec K α Y) :=
  if used = "source" then l.filter (fun r => decide (0 ≤ r.d)) else l.filter (fun r => decide (r.d < 0))

/-- Mean of a loss; NaN (`none`) for no entries. -/
def lossMean : Loss K → Option K
  | .scalar v => some v
  | .vec l => if l = [] then none else some (l.sum / (l.length : K))

/-- The loss of a batch in ordinary training: the mean loss of the predictions. -/
def meanLoss (net : σ → List α → Py (σ × List P)) (crit : List P → List Y → Py (Loss K)) (c : List (Rec K α Y)) (st : σ) : Py (σ × Option K) := do
  let (st, p) ← net st (c.map (·.x))
  let l ← crit p (c.map (·.y))
  return (st, lossMean l)

/-- The loss of a batch in weighted training: the mean of weight times loss over the rows. -/
def weightedMeanLoss (net : σ → List α → List K → Py (σ × List P)) (crit : List P → List Y → Py (List K)) (c : List (Rec K α Y)) (st : σ) :
    Py (σ × Option K) := do
  let (st, p) ← net st (c.map (·.x)) (c.filterMap Rec.w)
  let l ← crit p (c.map (·.y))
  return (st, lossMean (.vec (List.zipWith (· * ·) (c.filterMap Rec.w) l)))

/-- Ordinary training: one optimiser step per batch. -/
def plainSteps (opt : σ → (σ → Py (σ × Option K)) → Py σ) (loss : List (Rec K α Y) → σ → Py (σ × Option K)) : List (List (Rec K α Y)) → σ → Py σ
  | [], st => .ok st
  | c :: r, st => do
    let st ← opt st (loss c)
    plainSteps opt loss r st

/-- Ordinary training for `n` epochs on the given rows: shuffle, cut into `⌊rows / b⌋` batches of `b` rows, and leave the rest out. -/
def plainFit (opt : σ → (σ → Py (σ × Option K)) → Py σ) (loss : List (Rec K α Y) → σ → Py (σ × Option K))
    (shuffle : σ → Nat → List Nat × σ) (b : Nat) (rows : List (Rec K α Y)) : Nat → σ → Py σ
  | 0, st => .ok st
  | n + 1, st => do
    let (perm, st) := shuffle st rows.length
    let st ← plainSteps opt loss
      ((List.range (rows.length / b)).map (fun j => ((perm.drop (j * b)).take b).filterMap (fun q => rows[q]?))) st
    plainFit opt loss shuffle b rows n st

end Spec

/-- `SourceOnly` for "source", `TargetOnly` for "target". -/
def baseline (used : String) (M : Module σ K α P D F) (crit : List P → List Y → Py (Loss K)) (opt : σ → (σ → Py (σ × Option K)) → Py σ) :
    Net σ K α P D F Y :=
  if used = "source" then sourceOnly M crit opt else targetOnly M crit opt

omit [Field K] [DecidableEq Y] in
theorem onSide_eq (used : String) (l : List (Rec K α Y)) : onSide used l = l.filter (fun r => sideOf used r.d) := by
  unfold onSide sideOf; split_ifs <;> rfl

/-- C98.  Training with a domain-only loader depends on the rows of that side only: two data sets that agree on them (rows, labels, domains,
weights, order) give the same network, for every module, loss, optimiser, shuffle, batch size and number of epochs, or the same error. -/
theorem C98_independent (noLabel : Y) (s t : DS K α Y) (l l' : List (Rec K α Y)) (hs : Holds noLabel s l) (ht : Holds noLabel t l')
    (used : String) (hu : used = "source" ∨ used = "target") (hl : onSide used l = onSide used l') (M : Module σ K α P D F)
    (crit : List P → List Y → Py (Loss K)) (opt : σ → (σ → Py (σ × Option K)) → Py σ) (sh : σ → Nat → List Nat × σ) (b n : Nat) (st : σ) :
    (baseline used M crit opt).fitOnly sh used b n s st = (baseline used M crit opt).fitOnly sh used b n t st := by
  rw [onSide_eq, onSide_eq] at hl
  rw [fitOnly_eq hs _ _ _ hu, fitOnly_eq ht _ _ _ hu, hl]
  have : ∀ (st : σ), (baseline used M crit opt).epochBegin st s = (baseline used M crit opt).epochBegin st t := by
    intro st; unfold baseline; split_ifs <;> rfl
  simp only [this]

/-! #### The loss of a batch from one side -/

/-- One prediction per row, and a feature row for every row if a layer is named. -/
def OneRowEach (M : Module σ K α P D F) : Prop :=
  ∀ st X w st' p ls, M.base st X w = .ok (st', p, ls) → p.length = X.length ∧ ∀ n, M.layer = some n → ∃ f, ls n = some f ∧ f.length = X.length

theorem lossMean_eq (l : Loss K) : l.mean = lossMean l := by
  cases l with
  | scalar v => rfl
  | vec l => cases l <;> simp [Loss.mean, lossMean]

theorem splitOpt_ok {γ : Type} (a : Option (List γ)) (m : List Bool) (h : ∀ f, a = some f → f.length = m.length) : ∃ r, splitOpt a m = .ok r := by
  cases a with
  | none => exact ⟨_, rfl⟩
  | some f =>
    have hl := h f rfl
    refine ⟨(some (Np.sel m f), some (Np.sel (m.map (!·)) f)), ?_⟩
    unfold splitOpt Np.boolIndex
    simp [hl, ok_bind]

omit [DecidableEq Y] in
theorem criterion_side (used : String) (crit : List P → List Y → Py (Loss K)) (o : Out P D F) (y : List Y) (hd : ∀ d ∈ o.sd, sideOf used d = true)
    (h1 : o.yPred.length = o.sd.length) (h2 : ∀ f, o.features = some f → f.length = o.sd.length) (h3 : o.domainPred = none)
    (h4 : ∀ f, o.sampleIdx = some f → f.length = o.sd.length) (hy : y.length = o.sd.length) :
    criterion crit (fun _ => .ok 0) 0 (!decide (used = "source")) o y = crit o.yPred y := by
  have hpl : ∀ r : Py (Loss K), (do let b ← r; (pure (b.plus (0 * 0)) : Py (Loss K))) = r := by
    intro r; cases r with
    | error e => rfl
    | ok v => simp only [ok_bind, plus_zero, pure_ok]
  obtain ⟨⟨f1, f2⟩, hf⟩ := splitOpt_ok o.features (o.sd.map (fun d => decide (0 ≤ d))) (fun f hf => by rw [h2 f hf]; simp)
  obtain ⟨⟨i1, i2⟩, hi⟩ := splitOpt_ok o.sampleIdx (o.sd.map (fun d => decide (0 ≤ d))) (fun f hf => by rw [h4 f hf]; simp)
  unfold criterion
  simp only [hf, hi, h3]
  unfold sideOf at hd
  by_cases hu : used = "source"
  · rw [if_pos hu] at hd
    have hm : ∀ v ∈ o.sd.map (fun d => decide (0 ≤ d)), v = true := by
      intro v hv; obtain ⟨d, hd', rfl⟩ := List.mem_map.1 hv; exact hd d hd'
    have hn : ∀ v ∈ (o.sd.map (fun d => decide (0 ≤ d))).map (!·), v = false := by
      intro v hv; obtain ⟨b, hb, rfl⟩ := List.mem_map.1 hv; rw [hm b hb]; rfl
    rw [sel_all _ _ (by simpa using h1) hm, sel_none _ _ (by simpa using h1) hn, sel_all y _ (by simpa using hy) hm]
    simp only [ok_bind, splitOpt, hu, decide_true, Bool.not_true, Bool.false_eq_true, if_false]
    exact hpl _
  · rw [if_neg hu] at hd
    have hm : ∀ v ∈ o.sd.map (fun d => decide (0 ≤ d)), v = false := by
      intro v hv; obtain ⟨d, hd', rfl⟩ := List.mem_map.1 hv; simpa using hd d hd'
    have hn : ∀ v ∈ (o.sd.map (fun d => decide (0 ≤ d))).map (!·), v = true := by
      intro v hv; obtain ⟨b, hb, rfl⟩ := List.mem_map.1 hv; rw [hm b hb]; rfl
    rw [sel_none _ _ (by simpa using h1) hm, sel_all _ _ (by simpa using h1) hn, sel_all y _ (by simpa using hy) hn, sel_none y _ (by simpa using hy) hm]
    simp only [ok_bind, splitOpt, hu, decide_false, Bool.not_false, if_true]
    exact hpl _

omit [DecidableEq Y] in
theorem loss_side (used : String) (M : Module σ K α P D F) (hM : OneRowEach M) (hc : M.clf = none) (crit : List P → List Y → Py (Loss K))
    (opt : σ → (σ → Py (σ × Option K)) → Py σ) (c : List (Item K α Y))
    (hd : ∀ a ∈ c, sideOf used a.d = true) (st : σ) :
    (baseline used M crit opt).loss (collate c) st = (do
      let (st, p, _) ← M.base st (c.map (·.x)) ((c.mapM Item.w).map some)
      let l ← crit p (c.map (·.y))
      let v ← getLoss l (c.mapM Item.w) (c.map (·.d))
      return (st, v)) := by
  have hmod : (baseline used M crit opt).module = M := by unfold baseline; split_ifs <;> rfl
  unfold Net.loss forwardFit
  rw [hmod, show (collate c).w = c.mapM Item.w from rfl]
  cases hb : M.base st (c.map (·.x)) ((c.mapM Item.w).map some) with
  | error e => rw [show (collate c).X = c.map (·.x) from rfl, hb]; rfl
  | ok r =>
    obtain ⟨st', p, ls⟩ := r
    obtain ⟨h1, h2⟩ := hM st _ _ st' p ls hb
    obtain ⟨feats, hf, hfl⟩ : ∃ feats : Option (List F), featuresOf M ls = .ok feats ∧ ∀ f, feats = some f → f.length = c.length := by
      unfold featuresOf
      cases hn : M.layer with
      | none => exact ⟨none, rfl, by simp⟩
      | some n =>
        obtain ⟨f, hf, hfl⟩ := h2 n hn
        refine ⟨some f, by simp [layerOf, hf, Except.map], ?_⟩
        rintro g hg
        injection hg with hg
        rw [← hg, hfl]; simp
    have hX : (collate c).X = c.map (·.x) := rfl
    rw [hX, hb]
    simp only [ok_bind, hf, domainOf, hc, pure_ok]
    rw [List.length_map] at h1
    have hcr : ∀ o : Out P D F, criterion (baseline used M crit opt).crit ((baseline used M crit opt).adapt st') (baseline used M crit opt).reg
        (baseline used M crit opt).onTarget o (collate c).y = criterion crit (fun _ => .ok 0) 0 (!decide (used = "source")) o (collate c).y := by
      intro o; unfold baseline; split_ifs with h <;> simp [h, sourceOnly, targetOnly]
    rw [hcr, criterion_side used crit _ _ (by
        intro d hd'
        obtain ⟨a, ha, rfl⟩ := List.mem_map.1 (show d ∈ c.map (·.d) from hd')
        exact hd a ha) (by simp [collate, h1]) (by intro f hf; rw [hfl f hf]; simp [collate]) rfl
        (by intro f hf; injection hf with hf; rw [← hf]; simp [collate]) (by simp [collate])]
    rfl

/-- The predictions of the module with weights. -/
def weightedPredictions (M : Module σ K α P D F) (st : σ) (X : List α) (w : List K) : Py (σ × List P) :=
  (M.base st X (some (some w))).map (fun r => (r.1, r.2.1))

/-- The predictions of the module without weights. -/
def predictions (M : Module σ K α P D F) (st : σ) (X : List α) : Py (σ × List P) := (M.base st X none).map (fun r => (r.1, r.2.1))

omit [Field K] [DecidableEq Y] in
theorem ranked_get (B : List (Rec K α Y)) (q : Nat) : ∃ i, (ranked B)[q]? = B[q]?.map (fun r => ⟨r.x, r.d, i, r.w, r.y⟩) := by
  unfold ranked
  rw [getElem?_rankedFrom]
  cases hB : B[q]? with
  | none => exact ⟨0, rfl⟩
  | some r => exact ⟨_, rfl⟩

omit [Field K] [DecidableEq Y] in
theorem ranked_pick {γ : Type} (B : List (Rec K α Y)) (g : Item K α Y → γ) (g' : Rec K α Y → γ) (hg : ∀ r i, g ⟨r.x, r.d, i, r.w, r.y⟩ = g' r)
    (ps : List Nat) : (ps.filterMap (fun q => (ranked B)[q]?)).map g = (ps.filterMap (fun q => B[q]?)).map g' := by
  rw [List.map_filterMap, List.map_filterMap]
  apply List.filterMap_congr
  intro q _
  obtain ⟨i, hi⟩ := ranked_get B q
  rw [hi]
  cases B[q]? with
  | none => rfl
  | some r => simp [hg]

omit [Field K] [DecidableEq Y] in
theorem ranked_item (B : List (Rec K α Y)) (is : List Nat) (a : Item K α Y) (ha : a ∈ is.filterMap (fun q => (ranked B)[q]?)) :
    ∃ r ∈ B, a.w = r.w ∧ a.d = r.d := by
  obtain ⟨q, -, hq⟩ := List.mem_filterMap.1 ha
  obtain ⟨i, hi⟩ := ranked_get B q
  rw [hi] at hq
  obtain ⟨r, hr, rfl⟩ := Option.map_eq_some_iff.1 hq
  exact ⟨r, List.mem_of_getElem? hr, rfl, rfl⟩

omit [Field K] [DecidableEq Y] in
theorem ranked_ne (B : List (Rec K α Y)) (is : List Nat) (h0 : is ≠ []) (hlt : ∀ q ∈ is, q < B.length) : is.filterMap (fun q => (ranked B)[q]?) ≠ [] := by
  obtain ⟨q, is', rfl⟩ := List.exists_cons_of_ne_nil h0
  have hq : q < (ranked B).length := by unfold ranked; rw [length_rankedFrom]; exact hlt q (by simp)
  rw [List.filterMap_cons, List.getElem?_eq_getElem hq]; simp

omit [DecidableEq Y] in
theorem steps_plain (used : String) (M : Module σ K α P D F) (crit : List P → List Y → Py (Loss K))
    (opt : σ → (σ → Py (σ × Option K)) → Py σ) (B : List (Rec K α Y)) (loss : List (Rec K α Y) → σ → Py (σ × Option K))
    (hloss : ∀ is : List Nat, is ≠ [] → (∀ q ∈ is, q < B.length) →
      (baseline used M crit opt).loss (collate (is.filterMap (fun q => (ranked B)[q]?))) = loss (is.filterMap (fun q => B[q]?)))
    (iss : List (List Nat)) (hi : ∀ is ∈ iss, is ≠ [] ∧ ∀ q ∈ is, q < B.length) (st : σ) :
    itemSteps (baseline used M crit opt) (iss.map (List.filterMap (fun q => (ranked B)[q]?))) st =
      plainSteps opt loss (iss.map (List.filterMap (fun q => B[q]?))) st := by
  have hopt : (baseline used M crit opt).opt = opt := by unfold baseline; split_ifs <;> rfl
  have hend : ∀ st b, (baseline used M crit opt).batchEnd st b = .ok st := by intro st b; unfold baseline; split_ifs <;> rfl
  induction iss generalizing st with
  | nil => rfl
  | cons is iss ih =>
    obtain ⟨h0, hlt⟩ := hi is (by simp)
    rw [List.map_cons, List.map_cons, itemSteps, plainSteps, itemStep, hopt, hloss is h0 hlt]
    simp only [hend]
    generalize opt st _ = r
    cases r with
    | error e => rfl
    | ok st' => exact ih (fun js hj => hi js (by simp [hj])) st'

theorem fit_plain (noLabel : Y) (s : DS K α Y) (l : List (Rec K α Y)) (hs : Holds noLabel s l) (used : String)
    (hu : used = "source" ∨ used = "target") (hne : onSide used l ≠ []) (M : Module σ K α P D F)
    (crit : List P → List Y → Py (Loss K)) (opt : σ → (σ → Py (σ × Option K)) → Py σ) (sh : σ → Nat → List Nat × σ)
    (hsh : ∀ st k, (sh st k).1.Perm (List.range k)) (b : Nat) (hb : 0 < b) (loss : List (Rec K α Y) → σ → Py (σ × Option K))
    (hloss : ∀ is : List Nat, is ≠ [] → (∀ q ∈ is, q < (onSide used l).length) →
      (baseline used M crit opt).loss (collate (is.filterMap (fun q => (ranked (onSide used l))[q]?))) = loss (is.filterMap (fun q => (onSide used l)[q]?)))
    (n : Nat) (st : σ) :
    (baseline used M crit opt).fitOnly sh used b n s st = plainFit opt loss sh b (onSide used l) n st := by
  rw [fitOnly_eq hs _ _ _ hu, onSide_eq] at *
  set B := l.filter (fun r => sideOf used r.d) with hB
  have hBl : (ranked B).length = B.length := by unfold ranked; rw [length_rankedFrom]
  have hbeg : ∀ st, (baseline used M crit opt).epochBegin st s = .ok st := by intro st; unfold baseline; split_ifs <;> rfl
  unfold fullBatches
  rw [if_neg hb.ne']
  simp only [ok_bind, hbeg]
  have hrow : ∀ st, rowEpoch (baseline used M crit opt) sh b (B.length - B.length % b) (ranked B) st = plainSteps opt loss
      ((List.range (B.length / b)).map (fun j => (((sh st B.length).1.drop (j * b)).take b).filterMap (fun q => B[q]?))) (sh st B.length).2 := by
    intro st
    unfold rowEpoch drawn
    rw [hBl, if_neg (by rw [List.length_eq_zero_iff]; exact hne)]
    have hperm := hsh st B.length
    have hpl : (sh st B.length).1.length = B.length := by rw [hperm.length_eq]; simp
    have hlt : ∀ q ∈ (sh st B.length).1, q < B.length := fun q hq => by simpa using hperm.mem_iff.1 hq
    have hrg : ∀ q, q < B.length → (List.range B.length).getD q 0 = q := by
      intro q hq; rw [List.getD_eq_getElem?_getD, List.getElem?_eq_getElem (by simpa using hq)]; simp
    rw [onlyLoop_eq _ _ _ (by rw [hpl]; omega) (by simpa using hlt)]
    simp only [ok_bind]
    have hid : ((sh st B.length).1.take (B.length - B.length % b)).map (fun p => (List.range B.length).getD p 0) =
        (sh st B.length).1.take (B.length - B.length % b) := by
      conv_rhs => rw [← List.map_id ((sh st B.length).1.take (B.length - B.length % b))]
      apply List.map_congr_left
      intro q hq
      exact hrg q (hlt q (List.mem_of_mem_take hq))
    have hm : B.length - B.length % b = B.length / b * b := by
      have := Nat.div_add_mod B.length b
      rw [Nat.mul_comm] at this; omega
    have htl : ((sh st B.length).1.take (B.length - B.length % b)).length = B.length / b * b := by
      rw [List.length_take, hpl, ← hm]; omega
    have hfull : ∀ j, j < B.length / b → (((sh st B.length).1.take (B.length - B.length % b)).drop (j * b)).take b =
        ((sh st B.length).1.drop (j * b)).take b := by
      intro j hj
      have h2 : (j + 1) * b ≤ B.length / b * b := Nat.mul_le_mul_right _ hj
      rw [Nat.succ_mul] at h2
      rw [List.drop_take, List.take_take, Nat.min_eq_left (by omega)]
    rw [hid, chunks_full b hb (B.length / b) _ _ htl (by rw [htl]; exact Nat.le_mul_of_pos_right _ hb)]
    rw [steps_plain used M crit opt B loss hloss]
    · rw [List.map_map]
      rw [List.map_congr_left (g := fun j => (((sh st B.length).1.drop (j * b)).take b).filterMap (fun q => B[q]?)) (by
        intro j hj
        rw [Function.comp_apply, hfull j (by simpa using hj)])]
    · intro is his
      obtain ⟨j, hj, rfl⟩ := List.mem_map.1 his
      rw [List.mem_range] at hj
      refine ⟨?_, fun q hq => hlt q (List.mem_of_mem_take (List.mem_of_mem_drop (List.mem_of_mem_take hq)))⟩
      intro h
      have := congrArg List.length h
      rw [List.length_take, List.length_drop, htl, List.length_nil] at this
      have h2 : (j + 1) * b ≤ B.length / b * b := Nat.mul_le_mul_right _ hj
      rw [Nat.succ_mul] at h2
      omega
  induction n generalizing st with
  | zero => rfl
  | succ n ih =>
    rw [epochs, plainFit, hrow]
    dsimp only
    generalize plainSteps opt loss _ _ = r
    cases r with
    | error e => rfl
    | ok st' => exact ih st'

/-- C98.  `SourceOnly` is ordinary training on the source rows alone, and `TargetOnly` on the target rows: for unweighted data with rows on that side,
a module that gives one prediction (and one feature row) per row, and any loss, optimiser and shuffles. -/
theorem C98_plain (noLabel : Y) (s : DS K α Y) (l : List (Rec K α Y)) (hs : Holds noLabel s l) (used : String)
    (hu : used = "source" ∨ used = "target") (hw : ∀ r ∈ l, r.w = none) (hne : onSide used l ≠ []) (M : Module σ K α P D F) (hM : OneRowEach M)
    (hc : M.clf = none) (crit : List P → List Y → Py (Loss K)) (opt : σ → (σ → Py (σ × Option K)) → Py σ) (sh : σ → Nat → List Nat × σ)
    (hsh : ∀ st k, (sh st k).1.Perm (List.range k)) (b : Nat) (hb : 0 < b) (n : Nat) (st : σ) :
    (baseline used M crit opt).fitOnly sh used b n s st = plainFit opt (meanLoss (predictions M) crit) sh b (onSide used l) n st := by
  refine fit_plain noLabel s l hs used hu hne M crit opt sh hsh b hb _ (fun is h0 hlt => ?_) n st
  have hside : ∀ r ∈ onSide used l, sideOf used r.d = true := by
    intro r hr; rw [onSide_eq] at hr; exact (List.mem_filter.1 hr).2
  have hmem : ∀ r ∈ onSide used l, r ∈ l := by intro r hr; rw [onSide_eq] at hr; exact (List.mem_filter.1 hr).1
  generalize onSide used l = B at *
  funext st
  have hws : (is.filterMap (fun q => (ranked B)[q]?)).mapM Item.w = none := by
    obtain ⟨a, c', h⟩ := List.exists_cons_of_ne_nil (ranked_ne B is h0 hlt)
    obtain ⟨r, hr, h1, -⟩ := ranked_item B is a (by rw [h]; simp)
    rw [h, List.mapM_cons, h1, hw r (hmem r hr)]; rfl
  rw [loss_side used M hM hc crit opt _ (by
      intro a ha
      obtain ⟨r, hr, -, h2⟩ := ranked_item B is a ha
      rw [h2]; exact hside r hr) st, hws,
    ranked_pick B (fun a => a.x) (fun r => r.x) (fun _ _ => rfl), ranked_pick B (fun a => a.y) (fun r => r.y) (fun _ _ => rfl)]
  unfold meanLoss predictions
  simp only [Option.map_none, getLoss, lossMean_eq]
  cases M.base st ((is.filterMap (fun q => B[q]?)).map (fun r => r.x)) none with
  | error e => rfl
  | ok r => rfl

/-- C98.  `SourceOnly` with weights is weighted training on the source rows, if all source domains are positive and the loss gives a value per row: the
weights are handed to the module and the loss is the mean of weight times row loss. -/
theorem C98_weighted_partial (noLabel : Y) (s : DS K α Y) (l : List (Rec K α Y)) (hs : Holds noLabel s l) (hw : ∀ r ∈ l, r.w.isSome)
    (hd : ∀ r ∈ l, 0 ≤ r.d → 0 < r.d) (hne : onSide "source" l ≠ []) (M : Module σ K α P D F) (hM : OneRowEach M)
    (hc : M.clf = none) (crit : List P → List Y → Py (List K)) (hcrit : ∀ p y v, crit p y = .ok v → v.length = p.length)
    (opt : σ → (σ → Py (σ × Option K)) → Py σ) (sh : σ → Nat → List Nat × σ)
    (hsh : ∀ st k, (sh st k).1.Perm (List.range k)) (b : Nat) (hb : 0 < b) (n : Nat) (st : σ) :
    (baseline "source" M (fun p y => (crit p y).map Loss.vec) opt).fitOnly sh "source" b n s st =
      plainFit opt (weightedMeanLoss (weightedPredictions M) crit) sh b (onSide "source" l) n st := by
  refine fit_plain noLabel s l hs "source" (Or.inl rfl) hne M _ opt sh hsh b hb _ (fun is h0 hlt => ?_) n st
  have hside : ∀ r ∈ onSide "source" l, sideOf "source" r.d = true := by
    intro r hr; rw [onSide_eq] at hr; exact (List.mem_filter.1 hr).2
  have hmem : ∀ r ∈ onSide "source" l, r ∈ l := by intro r hr; rw [onSide_eq] at hr; exact (List.mem_filter.1 hr).1
  generalize onSide "source" l = B at *
  funext st
  have hws : ∀ L : List (Item K α Y), (∀ a ∈ L, a.w.isSome) → L.mapM Item.w = some (L.filterMap Item.w) := by
    intro L hL
    induction L with
    | nil => rfl
    | cons a L ih =>
      obtain ⟨w, hw⟩ := Option.isSome_iff_exists.1 (hL a (by simp))
      rw [List.mapM_cons, ih (fun a ha => hL a (by simp [ha])), hw, List.filterMap_cons_some hw]; rfl
  have hlen : ∀ L : List (Rec K α Y), (∀ r ∈ L, r.w.isSome) → (L.filterMap Rec.w).length = L.length := by
    intro L hL
    induction L with
    | nil => rfl
    | cons a L ih =>
      obtain ⟨w, hw⟩ := Option.isSome_iff_exists.1 (hL a (by simp))
      rw [List.filterMap_cons_some hw, List.length_cons, List.length_cons, ih (fun a ha => hL a (by simp [ha]))]
  have hpw : (is.filterMap (fun q => (ranked B)[q]?)).filterMap Item.w = (is.filterMap (fun q => B[q]?)).filterMap Rec.w := by
    rw [List.filterMap_filterMap, List.filterMap_filterMap]
    apply List.filterMap_congr
    intro q _
    obtain ⟨i, hi⟩ := ranked_get B q
    rw [hi]
    cases B[q]? <;> rfl
  rw [loss_side "source" M hM hc _ opt _ (by
      intro a ha
      obtain ⟨r, hr, -, h2⟩ := ranked_item B is a ha
      rw [h2]; exact hside r hr) st, hws _ (by
      intro a ha
      obtain ⟨r, hr, h1, -⟩ := ranked_item B is a ha
      rw [h1]; exact hw r (hmem r hr)), hpw,
    ranked_pick B (fun a => a.x) (fun r => r.x) (fun _ _ => rfl), ranked_pick B (fun a => a.y) (fun r => r.y) (fun _ _ => rfl),
    ranked_pick B (fun a => a.d) (fun r => r.d) (fun _ _ => rfl)]
  have hB : ∀ r ∈ is.filterMap (fun q => B[q]?), r ∈ B := by
    intro r hr
    obtain ⟨q, -, hq⟩ := List.mem_filterMap.1 hr
    exact List.mem_of_getElem? hq
  generalize is.filterMap (fun q => B[q]?) = c at *
  have hcl := hlen c (fun r hr => hw r (hmem r (hB r hr)))
  unfold weightedMeanLoss weightedPredictions
  rw [Option.map_some]
  cases hb : M.base st (c.map (fun r => r.x)) (some (some (c.filterMap Rec.w))) with
  | error e => rfl
  | ok r =>
    obtain ⟨st', p, ls⟩ := r
    have hp := (hM _ _ _ _ _ _ hb).1
    rw [List.length_map] at hp
    simp only [ok_bind, Except.map]
    cases hcr : crit p (c.map (fun r => r.y)) with
    | error e => rfl
    | ok v =>
      have hv := hcrit _ _ _ hcr
      simp only [ok_bind, getLoss]
      rw [sel_all _ _ (by simpa using hcl) (by
        intro b hb'
        rw [List.map_map] at hb'
        obtain ⟨r, hr, rfl⟩ := List.mem_map.1 hb'
        have h1 := hside r (hB r hr)
        have := hd r (hmem r (hB r hr)) (by simpa [sideOf] using h1)
        simpa using this)]
      simp only [ok_bind, weighted]
      rw [if_pos (by rw [hcl, hv, hp])]
      simp only [ok_bind, lossMean_eq]
      rfl

/-- A one-parameter network `x ↦ θ x`, squared error, and an optimiser that subtracts the loss. -/
def toyModule : Module ℚ ℚ ℚ ℚ Unit Unit := ⟨fun θ X _ => .ok (θ, X.map (θ * ·), fun _ => none), none, none⟩
/-- Mean squared error. -/
def toyCrit (p y : List ℚ) : Py (Loss ℚ) := .ok (.scalar ((List.zipWith (fun a b => (a - b) ^ 2) p y).sum / p.length))
/-- One step: `θ - loss / 10`. -/
def toyOpt (θ : ℚ) (loss : ℚ → Py (ℚ × Option ℚ)) : Py ℚ := do
  let (θ', v) ← loss θ
  match v with
  | some v => return θ' - v / 10
  | none => return θ'

theorem toy_oneRow : OneRowEach toyModule := by
  intro st X w st' p ls h
  injection h with h
  simp only [Prod.mk.injEq] at h
  obtain ⟨rfl, rfl, rfl⟩ := h
  exact ⟨by simp, by intro n hn; simp [toyModule] at hn⟩

/-- The records of the example: three source rows and two target rows. -/
def toyRecs (a b : ℚ) : List (Rec ℚ ℚ ℚ) := [⟨1, 2, 0, none⟩, ⟨5, a, -1, none⟩, ⟨2, 3, 0, none⟩, ⟨7, b, -1, none⟩, ⟨3, 1, 1, none⟩]

/-- The data set of the example. -/
def toyData (a b : ℚ) : DS ℚ ℚ ℚ := ⟨[1, 5, 2, 7, 3], [2, a, 3, b, 1], [0, -1, 0, -1, 1], [], [2, a, 3, b, 1].map (fun v => decide (v ≠ -1)), false, [0, 0, 1, 1, 0]⟩

theorem toy_holds (a b : ℚ) : Holds (-1) (toyData a b) (toyRecs a b) :=
  ⟨rfl, rfl, rfl, rfl, Or.inl ⟨rfl, rfl, by simp [toyRecs]⟩, by change [0, 0, 1, 1, 0] = ranksFrom [] [0, -1, 0, -1, 1]; decide +kernel⟩

example : (baseline "source" toyModule toyCrit toyOpt).fitOnly (fun θ k => ((List.range k).reverse, θ)) "source" 2 1 (toyData 0 0) 1 = .ok (3 / 4) := by
  decide +kernel

example (a b : ℚ) : (baseline "source" toyModule toyCrit toyOpt).fitOnly (fun θ k => ((List.range k).reverse, θ)) "source" 2 3 (toyData a b) 1 =
    (baseline "source" toyModule toyCrit toyOpt).fitOnly (fun θ k => ((List.range k).reverse, θ)) "source" 2 3 (toyData 0 0) 1 :=
  C98_independent (-1) _ _ _ _ (toy_holds a b) (toy_holds 0 0) _ (Or.inl rfl) (by simp [onSide, toyRecs]) _ _ _ _ _ _ _

example (a b : ℚ) : (baseline "target" toyModule toyCrit toyOpt).fitOnly (fun θ k => ((List.range k).reverse, θ)) "target" 2 3 (toyData a b) 1 =
    plainFit toyOpt (meanLoss (predictions toyModule) toyCrit) (fun θ k => ((List.range k).reverse, θ)) 2 [⟨5, a, -1, none⟩, ⟨7, b, -1, none⟩] 3 1 :=
  C98_plain (-1) _ _ (toy_holds a b) _ (Or.inr rfl) (by simp [toyRecs]) (by simp [onSide, toyRecs]) _ toy_oneRow rfl _ _ _
    (fun _ k => (List.range k).reverse_perm) 2 (by norm_num) 3 1

/-- A weighted source row in domain 1, another in domain 2, and a target row. -/
def toyWeighted : DS ℚ ℚ ℚ := ⟨[1, 5, 2], [2, 0, 3], [1, -1, 2], [3, 1, 1 / 2], [true, true, true], true, [0, 0, 0]⟩
/-- Squared errors row by row. -/
def toyRowCrit (p y : List ℚ) : Py (List ℚ) := if p.length = y.length then .ok (List.zipWith (fun a b => (a - b) ^ 2) p y) else .error .runtimeError

theorem toyWeighted_holds : Holds (-1) toyWeighted [⟨1, 2, 1, some 3⟩, ⟨5, 0, -1, some 1⟩, ⟨2, 3, 2, some (1 / 2)⟩] :=
  ⟨rfl, rfl, rfl, by decide +kernel, Or.inr ⟨by simp, rfl, rfl⟩, by change [0, 0, 0] = ranksFrom [] [1, -1, 2]; decide +kernel⟩

example : (baseline "source" toyModule (fun p y => (toyRowCrit p y).map Loss.vec) toyOpt).fitOnly (fun θ k => (List.range k, θ)) "source" 2 3 toyWeighted 1 =
    plainFit toyOpt (weightedMeanLoss (weightedPredictions toyModule) toyRowCrit) (fun θ k => (List.range k, θ)) 2
      [⟨1, 2, 1, some 3⟩, ⟨2, 3, 2, some (1 / 2)⟩] 3 1 :=
  C98_weighted_partial (-1) _ _ toyWeighted_holds (by simp) (by simp) (by simp [onSide]) _ toy_oneRow rfl _ (by
    intro p y v h
    unfold toyRowCrit at h
    split_ifs at h with hl
    injection h with h
    rw [← h, List.length_zipWith, hl, min_self]) _ _ (fun _ k => List.Perm.refl _) 2 (by norm_num) 3 1
example : (baseline "source" toyModule (fun p y => (toyRowCrit p y).map Loss.vec) toyOpt).fitOnly (fun θ k => (List.range k, θ)) "source" 2 1 toyWeighted 1 =
    .ok (33 / 40) := by decide +kernel

/-- C98, counterexample to training at all: with fewer rows on the side than the batch size, `fit` succeeds without a single step, whatever the
optimiser. -/
theorem C98_small_counterexample (noLabel : Y) (s : DS K α Y) (l : List (Rec K α Y)) (hs : Holds noLabel s l) (used : String)
    (hu : used = "source" ∨ used = "target") (hne : onSide used l ≠ []) (b : Nat) (hb : (onSide used l).length < b) (M : Module σ K α P D F)
    (crit : List P → List Y → Py (Loss K)) (opt : σ → (σ → Py (σ × Option K)) → Py σ) (sh : σ → Nat → List Nat × σ) (n : Nat) (st : σ) :
    (baseline used M crit opt).fitOnly sh used b n s st = .ok ((fun st => (sh st (onSide used l).length).2)^[n] st) := by
  rw [fitOnly_eq hs _ _ _ hu, onSide_eq] at *
  set B := l.filter (fun r => sideOf used r.d) with hB
  have hBl : (ranked B).length = B.length := by unfold ranked; rw [length_rankedFrom]
  have hbeg : ∀ st, (baseline used M crit opt).epochBegin st s = .ok st := by intro st; unfold baseline; split_ifs <;> rfl
  unfold fullBatches
  rw [if_neg (by omega), Nat.mod_eq_of_lt hb, Nat.sub_self]
  simp only [ok_bind, hbeg]
  induction n generalizing st with
  | zero => rfl
  | succ n ih =>
    rw [epochs, Function.iterate_succ_apply, ← ih]
    have : rowEpoch (baseline used M crit opt) sh b 0 (ranked B) st = .ok (sh st B.length).2 := by
      unfold rowEpoch drawn
      rw [hBl, if_neg (by rw [List.length_eq_zero_iff]; exact hne)]
      rfl
    rw [this]
    rfl

example : (baseline "source" toyModule toyCrit toyOpt).fitOnly (fun θ k => (List.range k, θ)) "source" 4 100 (toyData 0 0) 1 = .ok 1 := by
  rw [C98_small_counterexample (-1) _ _ (toy_holds 0 0) _ (Or.inl rfl) (by simp [onSide, toyRecs]) 4 (by simp [onSide, toyRecs])]
  exact congrArg _ (Function.iterate_fixed rfl _)

omit [DecidableEq Y] in
/-- C98, counterexample to weighted training on the target: weights are looked up for domains above 0 only, so the loss of a batch of target rows with
weights is never a number: it is NaN or an error. -/
theorem C98_weights_counterexample (M : Module σ K α P D F) (crit : List P → List Y → Py (Loss K)) (opt : σ → (σ → Py (σ × Option K)) → Py σ)
    (b : Batch K α Y) (w : List K) (hw : b.w = some w) (hwl : w.length = b.sd.length) (hd : ∀ d ∈ b.sd, d < 0) (st st' : σ) (v : Option K)
    (h : (baseline "target" M crit opt).loss b st = .ok (st', v)) : v = none := by
  unfold Net.loss at h
  rw [bind_ok_iff] at h
  obtain ⟨⟨st1, o⟩, -, h⟩ := h
  rw [bind_ok_iff] at h
  obtain ⟨l, -, h⟩ := h
  rw [bind_ok_iff] at h
  obtain ⟨v', hv, h⟩ := h
  injection h with h
  simp only [Prod.mk.injEq] at h
  obtain ⟨-, rfl⟩ := h
  rw [hw] at hv
  unfold getLoss at hv
  dsimp only at hv
  rw [sel_none w _ (by simpa using hwl) (by
    intro b' hb'
    obtain ⟨d, hd', rfl⟩ := List.mem_map.1 hb'
    have := hd d hd'
    simp; omega)] at hv
  simp only [ok_bind] at hv
  cases l with
  | scalar x => simpa [weighted, ok_bind, Loss.mean, pure_ok, eq_comm] using hv
  | vec x =>
    match x with
    | [] => simpa [weighted, ok_bind, Loss.mean, pure_ok, eq_comm] using hv
    | [a] => simpa [weighted, ok_bind, Loss.mean, pure_ok, eq_comm] using hv
    | a :: c :: x => simp [weighted] at hv

example : (baseline "target" toyModule toyCrit toyOpt).loss ⟨[5, 7], [-1, -1], [0, 1], some [1, 1], [2, 2]⟩ 1 = .ok (1, none) := by decide +kernel

/-- C98.  Errors: a batch size of 0 is a `ZeroDivisionError`, no rows on the side a `ValueError` (in the first epoch), and another side a
`ValueError`. -/
theorem C98_errors (noLabel : Y) (s : DS K α Y) (l : List (Rec K α Y)) (hs : Holds noLabel s l) (used : String) (M : Module σ K α P D F)
    (crit : List P → List Y → Py (Loss K)) (opt : σ → (σ → Py (σ × Option K)) → Py σ) (sh : σ → Nat → List Nat × σ) (b n : Nat) (st : σ) :
    (used ≠ "source" → used ≠ "target" → (baseline used M crit opt).fitOnly sh used b n s st = .error .valueError) ∧
    (used = "source" ∨ used = "target" → (baseline used M crit opt).fitOnly sh used 0 n s st = .error .zeroDivisionError) ∧
    (used = "source" ∨ used = "target" → 0 < b → onSide used l = [] → (baseline used M crit opt).fitOnly sh used b (n + 1) s st = .error .valueError) := by
  refine ⟨fun h1 h2 => ?_, fun hu => ?_, fun hu hb h0 => ?_⟩
  · unfold Net.fitOnly onlyInit
    rw [if_neg h1, if_neg h2]; rfl
  · rw [fitOnly_eq hs _ _ _ hu]; rfl
  · rw [onSide_eq] at h0
    have hbeg : ∀ st, (baseline used M crit opt).epochBegin st s = .ok st := by intro st; unfold baseline; split_ifs <;> rfl
    rw [fitOnly_eq hs _ _ _ hu, h0]
    unfold fullBatches
    rw [if_neg hb.ne']
    simp only [ok_bind, hbeg, epochs]
    rfl

example : (baseline "target" toyModule toyCrit toyOpt).fitOnly (fun θ k => (List.range k, θ)) "target" 2 5 (⟨[1], [2], [0], [], [true], false, [0]⟩ : DS ℚ ℚ ℚ) 1 =
    .error .valueError := by decide +kernel

/-! ### C99: target labels in training -/

namespace Spec

/-- The row without its label if it belongs to the target. -/
def hide (noLabel : Y) (r : Rec K α Y) : Rec K α Y := if r.d < 0 then { r with y := noLabel } else r

/-- The item without its label if it belongs to the target. -/
def hideItem (noLabel : Y) (a : Item K α Y) : Item K α Y := if a.d < 0 then { a with y := noLabel } else a

end Spec

omit [Field K] [DecidableEq Y] in
theorem hideItem_ranked (noLabel : Y) (b : List Int) (l : List (Rec K α Y)) :
    (rankedFrom b l).map (hideItem noLabel) = rankedFrom b (l.map (hide noLabel)) := by
  induction l generalizing b with
  | nil => rfl
  | cons r l ih =>
    simp only [rankedFrom, List.map_cons, ih, hide, hideItem]
    split_ifs <;> rfl

omit [Field K] [DecidableEq Y] in
theorem hideItem_collate (noLabel : Y) (c c' : List (Item K α Y)) (h : c.map (hideItem noLabel) = c'.map (hideItem noLabel)) :
    (collate c).X = (collate c').X ∧ (collate c).sd = (collate c').sd ∧ (collate c).idx = (collate c').idx ∧ (collate c).w = (collate c').w ∧
      (collate c).y.length = (collate c').y.length ∧
      Np.sel ((collate c).sd.map (fun d => decide (0 ≤ d))) (collate c).y = Np.sel ((collate c).sd.map (fun d => decide (0 ≤ d))) (collate c').y := by
  have key : ∀ {γ : Type} (g : Item K α Y → γ), (∀ a, g (hideItem noLabel a) = g a) → c.map g = c'.map g := by
    intro γ g hg
    have h1 : ∀ e : List (Item K α Y), e.map g = (e.map (hideItem noLabel)).map g := by
      intro e; rw [List.map_map]; exact List.map_congr_left (fun a _ => (hg a).symm)
    rw [h1 c, h1 c', h]
  have hx : ∀ a : Item K α Y, (hideItem noLabel a).x = a.x := by intro a; unfold hideItem; split_ifs <;> rfl
  have hd : ∀ a : Item K α Y, (hideItem noLabel a).d = a.d := by intro a; unfold hideItem; split_ifs <;> rfl
  have hi : ∀ a : Item K α Y, (hideItem noLabel a).i = a.i := by intro a; unfold hideItem; split_ifs <;> rfl
  have hw : ∀ a : Item K α Y, (hideItem noLabel a).w = a.w := by intro a; unfold hideItem; split_ifs <;> rfl
  refine ⟨key _ hx, key _ hd, key _ hi, ?_, ?_, ?_⟩
  · have h1 : ∀ e : List (Item K α Y), e.mapM (fun a => a.w) = (e.map (fun a => a.w)).mapM id := by
      intro e; induction e with
      | nil => rfl
      | cons a e ih => rw [List.mapM_cons, List.map_cons, List.mapM_cons, ih]; rfl
    change c.mapM (fun a => a.w) = c'.mapM (fun a => a.w)
    rw [h1, h1, key _ hw]
  · have := congrArg List.length h
    simpa [collate] using this
  · change Np.sel ((c.map (fun a => a.d)).map _) (c.map (fun a => a.y)) = Np.sel ((c.map (fun a => a.d)).map _) (c'.map (fun a => a.y))
    clear key
    induction c generalizing c' with
    | nil => cases c' with
      | nil => rfl
      | cons a c' => simp at h
    | cons a c ih =>
      cases c' with
      | nil => simp at h
      | cons a' c' =>
        rw [List.map_cons, List.map_cons, List.cons.injEq] at h
        have := ih c' h.2
        simp only [List.map_cons]
        by_cases hs : 0 ≤ a.d
        · have h1 := h.1
          have hd' : a'.d = a.d := by rw [← hd a', ← h1, hd]
          unfold hideItem at h1
          rw [if_neg (by omega), if_neg (by omega)] at h1
          rw [decide_eq_true hs, Np.sel, Np.sel, this, h1]
        · rw [decide_eq_false hs, Np.sel, Np.sel, this]

omit [DecidableEq Y] in
theorem loss_hide (noLabel : Y) (T : Net σ K α P D F Y) (hT : T.onTarget = false) (c c' : List (Item K α Y))
    (h : c.map (hideItem noLabel) = c'.map (hideItem noLabel)) : T.loss (collate c) = T.loss (collate c') := by
  obtain ⟨h1, h2, h3, h4, h5, h6⟩ := hideItem_collate noLabel c c' h
  funext st
  unfold Net.loss
  rw [← h1, ← h2, ← h3, ← h4, hT]
  cases hf : forwardFit T.module st (collate c).X (collate c).sd (collate c).w (some (collate c).idx) with
  | error e => rfl
  | ok r =>
    obtain ⟨st', o⟩ := r
    have hsd : o.sd = (collate c).sd := by
      unfold forwardFit at hf
      rw [bind_ok_iff] at hf
      obtain ⟨⟨st1, y, ls⟩, -, hf⟩ := hf
      rw [bind_ok_iff] at hf
      obtain ⟨fe, -, hf⟩ := hf
      rw [bind_ok_iff] at hf
      obtain ⟨⟨st2, dom⟩, -, hf⟩ := hf
      injection hf with hf
      simp only [Prod.mk.injEq] at hf
      rw [← hf.2]
    simp only [ok_bind]
    rw [C43_target_labels _ _ _ _ (collate c).y (collate c').y h5 (by rw [← sel_source, ← sel_source, hsd, h6])]

omit [Field K] in
theorem mapM_hide (noLabel : Y) (s t : DS K α Y) (l l' : List (Rec K α Y)) (hs : Holds noLabel s l) (ht : Holds noLabel t l')
    (hl : l.map (hide noLabel) = l'.map (hide noLabel)) (is : List Nat) :
    (∃ e, is.mapM (getItem s) = .error e ∧ is.mapM (getItem t) = .error e) ∨
      ∃ c c', is.mapM (getItem s) = .ok c ∧ is.mapM (getItem t) = .ok c' ∧ c.map (hideItem noLabel) = c'.map (hideItem noLabel) := by
  have hr : (ranked l).map (hideItem noLabel) = (ranked l').map (hideItem noLabel) := by
    unfold ranked; rw [hideItem_ranked, hideItem_ranked, hl]
  induction is with
  | nil => exact Or.inr ⟨[], [], rfl, rfl, rfl⟩
  | cons i is ih =>
    rw [List.mapM_cons, List.mapM_cons, hs.getItem, ht.getItem]
    have hi : ((ranked l)[i]?).map (hideItem noLabel) = ((ranked l')[i]?).map (hideItem noLabel) := by
      rw [← List.getElem?_map, ← List.getElem?_map, hr]
    cases h1 : (ranked l)[i]? with
    | none =>
      rw [h1] at hi
      have h2 : (ranked l')[i]? = none := by simpa using hi.symm
      rw [h2]
      exact Or.inl ⟨_, rfl, rfl⟩
    | some a =>
      rw [h1] at hi
      obtain ⟨a', h2, h3⟩ := Option.map_eq_some_iff.1 hi.symm
      rw [h2]
      simp only [ok_bind]
      rcases ih with ⟨e, e1, e2⟩ | ⟨c, c', e1, e2, e3⟩
      · rw [e1, e2]; exact Or.inl ⟨e, rfl, rfl⟩
      · rw [e1, e2]; exact Or.inr ⟨a :: c, a' :: c', rfl, rfl, by rw [List.map_cons, List.map_cons, h3, e3]⟩

theorem steps_hide (noLabel : Y) (T : Net σ K α P D F Y) (hT : T.onTarget = false)
    (hend : ∀ st c c', c.map (hideItem noLabel) = c'.map (hideItem noLabel) → T.batchEnd st (collate c) = T.batchEnd st (collate c'))
    (s t : DS K α Y) (l l' : List (Rec K α Y)) (hs : Holds noLabel s l) (ht : Holds noLabel t l')
    (hl : l.map (hide noLabel) = l'.map (hide noLabel)) (iss : List (List Nat)) (st : σ) : T.steps s iss st = T.steps t iss st := by
  induction iss generalizing st with
  | nil => rfl
  | cons is iss ih =>
    have : T.step s is st = T.step t is st := by
      unfold Net.step
      rcases mapM_hide noLabel s t l l' hs ht hl is with ⟨e, e1, e2⟩ | ⟨c, c', e1, e2, e3⟩
      · rw [e1, e2]
      · rw [e1, e2]
        simp only [ok_bind]
        rw [loss_hide noLabel T hT c c' e3]
        congr 1
        funext st
        exact hend st c c' e3
    rw [Net.steps, Net.steps, this]
    congr 1
    funext st
    exact ih st

/-- C99.  Target labels have no influence on training: for every network that is not trained on the target, with any module, base loss, adaptation
loss, optimiser, shuffles, loader settings and number of epochs, two data sets that differ in target labels only give the same result.  The callbacks
are asked not to look at target labels themselves. -/
theorem C99_no_leak (noLabel : Y) (T : Net σ K α P D F Y) (hT : T.onTarget = false)
    (hbeg : ∀ st s t l l', Holds noLabel s l → Holds noLabel t l' → l.map (hide noLabel) = l'.map (hide noLabel) → T.epochBegin st s = T.epochBegin st t)
    (hend : ∀ st c c', c.map (hideItem noLabel) = c'.map (hideItem noLabel) → T.batchEnd st (collate c) = T.batchEnd st (collate c'))
    (s t : DS K α Y) (l l' : List (Rec K α Y)) (hs : Holds noLabel s l) (ht : Holds noLabel t l')
    (hl : l.map (hide noLabel) = l'.map (hide noLabel)) (b n : Nat) (st : σ) :
    (∀ shs mode, T.fitBalanced shs mode b n s st = T.fitBalanced shs mode b n t st) ∧
    (∀ sh used, T.fitOnly sh used b n s st = T.fitOnly sh used b n t st) := by
  have hsd : (iter s).map (fun a => a.d) = (iter t).map (fun a => a.d) := by
    rw [hs.iter, ht.iter, ranked, ranked, rankedFrom_d, rankedFrom_d]
    have h1 : ∀ e : List (Rec K α Y), e.map (fun r => r.d) = (e.map (hide noLabel)).map (fun r => r.d) := by
      intro e; rw [List.map_map]; refine List.map_congr_left (fun a _ => ?_); simp only [Function.comp_apply, hide]; split_ifs <;> rfl
    rw [h1 l, h1 l', hl]
  have hb : ∀ st, T.epochBegin st s = T.epochBegin st t := fun st => hbeg st s t l l' hs ht hl
  have hst := steps_hide noLabel T hT hend s t l l' hs ht hl
  refine ⟨fun shs mode => ?_, fun sh used => ?_⟩
  · unfold Net.fitBalanced
    rw [hsd]
    simp only [hb, hst]
  · unfold Net.fitOnly
    rw [hsd]
    simp only [hb, hst]

/-- The example network with an adaptation loss (difference of mean predictions) and a balanced loader. -/
def toyNet (onTarget : Bool) : Net ℚ ℚ ℚ ℚ Unit Unit ℚ :=
  ⟨toyModule, toyCrit, fun _ a => .ok (a.yPredS.sum / a.yPredS.length - a.yPredT.sum / a.yPredT.length), 1 / 10, onTarget, toyOpt,
    fun st _ => .ok st, fun st _ => .ok st⟩

example (a b : ℚ) : (toyNet false).fitBalanced (fun θ k m => (fun _ => List.range k, fun _ => List.range m, θ)) "min" 2 5 (toyData a b) 1 =
    (toyNet false).fitBalanced (fun θ k m => (fun _ => List.range k, fun _ => List.range m, θ)) "min" 2 5 (toyData (-1) (-1)) 1 :=
  (C99_no_leak (-1) (toyNet false) rfl (fun _ _ _ _ _ _ _ _ => rfl) (fun _ _ _ _ => rfl) _ _ _ _ (toy_holds a b) (toy_holds (-1) (-1))
    (by simp [toyRecs, hide]) 2 5 1).1 _ _

example : (toyNet false).fitBalanced (fun θ k m => (fun _ => List.range k, fun _ => List.range m, θ)) "min" 2 1 (toyData 0 0) 1 = .ok (189 / 200) ∧
    (toyNet true).fitBalanced (fun θ k m => (fun _ => List.range k, fun _ => List.range m, θ)) "min" 2 1 (toyData 0 0) 1 ≠
    (toyNet true).fitBalanced (fun θ k m => (fun _ => List.range k, fun _ => List.range m, θ)) "min" 2 1 (toyData 1 1) 1 := by decide +kernel

/-! ### C100: the module in training and in prediction -/

section Forward
omit [Field K] [DecidableEq Y]

/-- C100.  If the base module treats `sample_weight=None` like no `sample_weight`, a module that can be trained gives the same predictions and features in
evaluation as in training (same state). -/
theorem C100_same (M : Module σ K α P D F) (st st' : σ) (X : List α) (sd : List Int) (idx : Option (List Nat)) (o : Out P D F)
    (hM : M.base st X (some none) = M.base st X none) (h : forwardFit M st X sd none idx = .ok (st', o)) :
    forwardEval M st X none = .ok o.yPred ∧ o.sd = sd ∧ o.sampleIdx = idx ∧ (M.layer = none → o.features = none) ∧
      (M.layer ≠ none → ∃ f, o.features = some f ∧ forwardFeatures M st X none = .ok (o.yPred, f)) ∧ (o.domainPred.isSome = M.clf.isSome) := by
  unfold forwardFit at h
  rw [bind_ok_iff] at h
  obtain ⟨⟨st1, y, ls⟩, hb, h⟩ := h
  rw [bind_ok_iff] at h
  obtain ⟨fe, hfe, h⟩ := h
  rw [bind_ok_iff] at h
  obtain ⟨⟨st2, dom⟩, hdom, h⟩ := h
  injection h with h
  simp only [Prod.mk.injEq] at h
  obtain ⟨-, rfl⟩ := h
  rw [Option.map_none] at hb
  unfold featuresOf at hfe
  refine ⟨?_, rfl, rfl, fun hl => ?_, fun hl => ?_, ?_⟩
  · unfold forwardEval; rw [hM, hb]; rfl
  · rw [hl] at hfe; injection hfe with hfe; exact hfe.symm
  · obtain ⟨n, hn⟩ := Option.ne_none_iff_exists'.1 hl
    rw [hn] at hfe
    dsimp only at hfe
    cases hls : layerOf ls n with
    | error e => rw [hls] at hfe; simp [Except.map] at hfe
    | ok f =>
      rw [hls] at hfe
      injection hfe with hfe
      refine ⟨f, hfe.symm, ?_⟩
      unfold forwardFeatures
      rw [hM, hb, hn]
      simp only [ok_bind, hls]
      rfl
  · unfold domainOf at hdom
    cases hc : M.clf with
    | none => rw [hc] at hdom; injection hdom with hdom; simp only [Prod.mk.injEq] at hdom; simp [← hdom.2]
    | some c =>
      rw [hc] at hdom
      cases hcl : c st1 fe with
      | error e => simp [hcl, Except.map] at hdom
      | ok r => simp only [hcl, Except.map] at hdom; injection hdom with hdom; simp only [Prod.mk.injEq] at hdom; simp [← hdom.2]

example : ∃ st' o, forwardFit toyModule 2 [1, 2] [0, -1] none none = .ok (st', o) := ⟨_, _, rfl⟩

/-- C100, counterexample: a base module without a parameter `sample_weight` (an ordinary torch module) is trained like any other, but every prediction
and every feature extraction is a `TypeError`, because evaluation always passes `sample_weight`.  Under CDAN the same module can predict. -/
theorem C100_keyword_counterexample (net : σ → List α → σ × List P) (feats : σ → List α → List F) (layer : String) (st : σ) (X : List α) (sd : List Int) :
    let M : Module σ K α P D F := ⟨fun st X w => match w with
      | none => .ok ((net st X).1, (net st X).2, fun n => if n = layer then some (feats st X) else none)
      | some _ => .error .typeError, some layer, none⟩
    forwardFit M st X sd none none = .ok ((net st X).1, ⟨(net st X).2, none, some (feats st X), sd, none⟩) ∧
      forwardEval M st X none = .error .typeError ∧ forwardFeatures M st X none = .error .typeError ∧ cdanEval M st X none = .ok (net st X).2 := by
  refine ⟨?_, rfl, rfl, rfl⟩
  simp [forwardFit, featuresOf, domainOf, layerOf, ok_bind, Except.map, pure_ok]

/-- C100.  Weights: under CDAN, weighted rows are a `TypeError` in training and in prediction; otherwise they are handed to the base module. -/
theorem C100_cdan_weights (M : Module σ K α P D F) (cond : List F → List P → List F) (st : σ) (X : List α) (sd : List Int) (idx : Option (List Nat))
    (w : List K) :
    cdanFit M cond st X sd (some w) idx = .error .typeError ∧ cdanEval M st X (some w) = .error .typeError ∧
      (∀ st' y ls, M.base st X (some (some w)) = .ok (st', y, ls) → forwardEval M st X (some w) = .ok y) := by
  refine ⟨rfl, rfl, fun st' y ls h => ?_⟩
  unfold forwardEval; rw [h]; rfl

/-- C100.  CDAN's module in training: its predictions are those of evaluation, the features are those of the layer, and the domain classifier sees the
features conditioned on the predictions. -/
theorem C100_cdan (M : Module σ K α P D F) (cond : List F → List P → List F) (st st' : σ) (X : List α) (sd : List Int) (idx : Option (List Nat)) (o : Out P D F)
    (h : cdanFit M cond st X sd none idx = .ok (st', o)) :
    cdanEval M st X none = .ok o.yPred ∧ o.sd = sd ∧ o.sampleIdx = idx ∧
      ∃ n st1 ls f, M.layer = some n ∧ M.base st X none = .ok (st1, o.yPred, ls) ∧ ls n = some f ∧ o.features = some f ∧
        ∀ c, M.clf = some c → ∃ dp, c st1 (some (cond f o.yPred)) = .ok (st', dp) ∧ o.domainPred = some dp := by
  unfold cdanFit at h
  dsimp only at h
  rw [bind_ok_iff] at h
  obtain ⟨⟨st1, y, ls⟩, hb, h⟩ := h
  cases hn : M.layer with
  | none => rw [hn] at h; simp at h
  | some n =>
    rw [hn] at h
    dsimp only at h
    rw [bind_ok_iff] at h
    obtain ⟨f, hf, h⟩ := h
    rw [bind_ok_iff] at h
    obtain ⟨⟨st2, dom⟩, hdom, h⟩ := h
    injection h with h
    simp only [Prod.mk.injEq] at h
    obtain ⟨rfl, rfl⟩ := h
    refine ⟨by unfold cdanEval; dsimp only; rw [hb]; rfl, rfl, rfl, n, st1, ls, f, rfl, hb, ?_, rfl, fun c hc => ?_⟩
    · unfold layerOf at hf
      cases hl : ls n with
      | none => rw [hl] at hf; simp at hf
      | some g => rw [hl] at hf; injection hf with hf; rw [hf]
    · unfold domainOf at hdom
      rw [hc] at hdom
      cases hcl : c st1 (some (cond f y)) with
      | error e => simp [hcl, Except.map] at hdom
      | ok r =>
        simp only [hcl, Except.map] at hdom
        injection hdom with hdom
        simp only [Prod.mk.injEq] at hdom
        exact ⟨r.2, by rw [hdom.1.symm], hdom.2.symm⟩

example : ∃ st' o, cdanFit (⟨fun θ X _ => .ok (θ, X.map (θ * ·), fun _ => some X), some "fc", some (fun θ f => .ok (θ, f.getD []))⟩ : Module ℚ ℚ ℚ ℚ ℚ ℚ)
    (List.zipWith (· * ·)) 2 [1, 3] [0, -1] none none = .ok (st', o) ∧ o.domainPred = some [2, 18] := ⟨_, _, rfl, by decide +kernel⟩

/-- C100.  A layer name that no layer has is a `KeyError` in the first training batch, not at construction; without a layer name features cannot be
extracted, and CDAN cannot be trained. -/
theorem C100_layer (M : Module σ K α P D F) (cond : List F → List P → List F) (st st' : σ) (X : List α) (sd : List Int) (idx : Option (List Nat)) (y : List P)
    (ls : String → Option (List F)) (h0 : M.base st X none = .ok (st', y, ls)) (h1 : M.base st X (some none) = .ok (st', y, ls)) :
    (∀ n, M.layer = some n → ls n = none → forwardFit M st X sd none idx = .error .keyError ∧ forwardFeatures M st X none = .error .keyError ∧
      cdanFit M cond st X sd none idx = .error .keyError) ∧
    (M.layer = none → forwardFeatures M st X none = .error .keyError ∧ cdanFit M cond st X sd none idx = .error .keyError) := by
  refine ⟨fun n hn hl => ⟨?_, ?_, ?_⟩, fun hn => ⟨?_, ?_⟩⟩
  · unfold forwardFit featuresOf; rw [Option.map_none, h0, hn]; simp [ok_bind, layerOf, hl, Except.map, err_bind]
  · unfold forwardFeatures; rw [h1, hn]; simp [ok_bind, layerOf, hl]
  · unfold cdanFit; rw [h0, hn]; simp [ok_bind, layerOf, hl, err_bind]
  · unfold forwardFeatures; rw [h1, hn]; rfl
  · unfold cdanFit; rw [h0, hn]; rfl

theorem chunks_flatten {β : Type} (b : Nat) (hb : 0 < b) (fuel : Nat) (l : List β) (hf : l.length ≤ fuel) : (chunks b fuel l).flatten = l := by
  induction fuel generalizing l with
  | zero =>
    have : l = [] := List.length_eq_zero_iff.1 (by omega)
    subst this; rfl
  | succ fuel ih =>
    cases l with
    | nil => rfl
    | cons x l =>
      rw [chunks, List.flatten_cons, ih _ (by rw [List.length_drop]; simp only [List.length_cons] at hf ⊢; omega), List.take_append_drop]

/-- C100.  For a module that works row by row in evaluation mode, predictions do not depend on the batch size. -/
theorem C100_batch_size (M : Module σ K α P D F) (st : σ) (f : α → P) (ls : String → Option (List F))
    (hM : ∀ X, M.base st X (some none) = .ok (st, X.map f, ls)) (b : Nat) (hb : 0 < b) (X : List α) : evalAll M st b X = .ok (X.map f) := by
  have : ∀ cs : List (List α), evalBatches M st cs = .ok (cs.flatten.map f) := by
    intro cs
    induction cs with
    | nil => rfl
    | cons c cs ih => rw [evalBatches, ih]; unfold forwardEval; rw [hM]; simp [ok_bind, pure_ok]
  unfold evalAll
  rw [this, chunks_flatten b hb _ _ le_rfl]

end Forward

example : evalAll toyModule 2 3 [1, 2, 3, 4] = .ok [2, 4, 6, 8] := by
  rw [C100_batch_size toyModule 2 (fun x => 2 * x) (fun _ => none) (fun _ => rfl) 3 (by norm_num)]
  norm_num

end Skada

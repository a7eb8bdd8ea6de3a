/-
C147, continued: how many folds a splitter gives in any program, what an integer `random_state` means in terms of a `RandomState` object, and how much the
functions of the library take from a shared generator.
-/
import Verif.Props.RngFolds

namespace Skada

open Np Spec Rng

variable {γ R : Type}

namespace Spec

/-- `n_splits` of the splitters that have it (`LeaveOneDomainOut` has `max_n_splits`). -/
def nSplits : Splitter → Option Nat
  | .sourceTarget n _ _ | .stratified n _ _ | .domain n _ _ _ => some n
  | .lodo _ _ _ => none

/-- What the user sees of the calls `next(name)` of a program, in order. -/
def nexts (name : Nat) (ops : List (Op γ R)) (obs : List (Obs R)) : List (Obs R) :=
  ((ops.zip obs).filter (fun p => match p.1 with
    | .next n => decide (n = name)
    | _ => false)).map Prod.snd

/-- The `random_state` that stands for the global generator (`none`) or for object number `k`. -/
def seedAs : Option Nat → Seed
  | none => .none
  | some k => .inst k

/-- What a call asks of its generator, as the user would: one permutation for the scorers, the subsampler (nothing if it keeps all rows) and
`_shuffle_arrays`; for KLIEP with candidates for `gamma` a shuffle of the target rows, then for every candidate and every fold a choice of centres among the
rows of the fold, and at last the choice of the centres. -/
def queriesOf : Call γ R → Option (Seed × List Query)
  | .dev s n _ => some (s, [.perm n])
  | .mixval s n _ => some (s, [.perm n])
  | .subsample s n keep _ => some (s, if n ≤ keep then [] else [.perm n])
  | .shuffleArrays s n _ => some (s, [.shuffle n])
  | .kliep s a _ _ => some (s, (match a.gammas with
      | none => []
      | some m => .shuffle a.n :: (List.range m).flatMap (fun _ => a.folds.map (fun rows => .choice rows.length (min rows.length a.nCenters) true))) ++
      [.choice a.n (min a.n a.nCenters) true])
  | _ => none

end Spec

/-! ### The number of folds -/

theorem poolDraw_length {us : ℚ} {doms : List (Int × List Nat)} {p : List Nat} (h : PoolDraw us doms p) :
    p.length = (doms.map (fun kv => underSize us kv.2.length)).sum := by
  obtain ⟨parts, h1, h2⟩ := h
  rw [h2.length_eq]
  clear h2
  induction h1 with
  | nil => rfl
  | cons h _ ih => simp [h.2.2, ih]

theorem domainBody_steady {np : Numpy γ} (hnp : LawfulNp np) {sd : List Int} (hsd : sd ≠ []) {us : ℚ} (h1 : us ≤ 1) {test train : Size}
    {dS dT : List (Int × List Nat)} (hext : extractDomainsIndicesSplit sd = .ok (dS, dT)) {g : γ}
    {f : Fold} (h : (domainBody np dS dT us test train g).1 = .ok f) (g' : γ) : ∃ f, (domainBody np dS dT us test train g').1 = .ok f := by
  obtain ⟨n1, n2⟩ := extract_nodup hsd hext
  unfold domainBody at h ⊢
  by_cases hS : dS = []
  · rw [if_pos hS] at h; cases h
  rw [if_neg hS] at h ⊢
  by_cases hT : dT = []
  · simp only [if_pos hT] at h; cases h
  simp only [if_neg hT] at h ⊢
  have key : ∀ g : γ,
      let ps := askAll np (dS.map (fun kv => Query.choice kv.2.length (underSize us kv.2.length) false)) g
      let pt := askAll np (dT.map (fun kv => Query.choice kv.2.length (underSize us kv.2.length) false)) ps.2
      let σ := np.ask (.shuffle (choose dS ps.1).length) pt.2
      let τ := np.ask (.shuffle (choose dT pt.1).length) σ.2
      domainFold dS dT test train (σ.1.map (fun i => (choose dS ps.1).getD i 0)) (τ.1.map (fun i => (choose dT pt.1).getD i 0)) =
        match bothSizes (dS.map (fun kv => underSize us kv.2.length)).sum (dT.map (fun kv => underSize us kv.2.length)).sum test train with
        | .error e => .error e
        | .ok sizes => .ok (joinSides (sliceSide (σ.1.map (fun i => (choose dS ps.1).getD i 0)) sizes.1)
            (sliceSide (τ.1.map (fun i => (choose dT pt.1).getD i 0)) sizes.2)) := by
    intro g ps pt σ τ
    have l1 := poolDraw_length (pool_good hnp h1 dS n1 g (hnp.shuffle _ pt.2))
    have l2 := poolDraw_length (pool_good hnp h1 dT n2 ps.2 (hnp.shuffle _ σ.2))
    unfold domainFold underSampled
    rw [if_neg hS, if_neg hT]
    simp only
    rw [l1, l2]
    rcases bothSizes (dS.map (fun kv => underSize us kv.2.length)).sum (dT.map (fun kv => underSize us kv.2.length)).sum test train with e | sizes <;> rfl
  have k1 := (key g).symm.trans h
  have k2 := key g'
  rcases hb : bothSizes (dS.map (fun kv => underSize us kv.2.length)).sum (dT.map (fun kv => underSize us kv.2.length)).sum test train with e | sizes
  · rw [hb] at k1; cases k1
  · rw [hb] at k2
    exact ⟨_, k2⟩

theorem stBody_steady {np : Numpy γ} (hnp : LawfulNp np) {sd : List Int} {test train : Size} {sizes : (Nat × Nat) × (Nat × Nat)}
    (hb : bothSizes (sourceIdx sd).length (targetIdx sd).length test train = .ok sizes) (g : γ) : ∃ f, (stBody np sd sizes g).1 = .ok f := by
  rw [length_sourceIdx, length_targetIdx] at hb
  obtain ⟨s, t⟩ := sizes
  obtain ⟨b1, b2, b3, b4⟩ := bothSizes_ok hb
  obtain ⟨f', hf, -⟩ := stFold_ok (sd := sd) (s := s) (t := t) (d := ((np.ask (.perm (sourceIdx sd).length) g).1,
      (np.ask (.perm (targetIdx sd).length) (np.ask (.perm (sourceIdx sd).length) g).2).1))
    ⟨by rw [← length_sourceIdx]; exact hnp.perm _ _, by rw [← length_targetIdx]; exact hnp.perm _ _⟩ b1.2.2 b2.2.2
  exact ⟨f', hf⟩

/-- The stages of a started splitter with `n_splits`: the same for all folds, without a further call of `check_random_state`, and they all succeed if one
of them can. -/
theorem start_steady {np : Numpy γ} (hnp : LawfulNp np) {c : SplitCall} {sd : List Int} (hc : DataOk c sd) {n : Nat} (hn : nSplits c.splitter = some n)
    {w : World γ} {rest : List (Stage γ)} {src : Src γ} (h : (start np c w).1 = .ok (rest, src)) :
    ∃ m : Draw γ (Py Fold), rest = List.replicate n (false, m) ∧ ((∃ g f, (m g).1 = .ok f) → ∀ g, ∃ f, (m g).1 = .ok f) := by
  obtain ⟨sp, seed, X, y, sda⟩ := c
  obtain ⟨h1, hX, hlen, hnz⟩ := hc
  simp only at h1 hX hlen hnz hn
  subst h1
  have hck := checkXDomain_vec hX hlen
  have hsd : sd ≠ [] := by rintro rfl; exact hX (List.length_eq_zero_iff.1 hlen.symm)
  cases sp with
  | sourceTarget n' test train =>
    cases hn
    simp only [start, hck] at h
    rcases hb : bothSizes (sourceIdx sd).length (targetIdx sd).length test train with e | sizes
    · rw [hb] at h; cases h
    rw [hb] at h; simp only at h
    rcases hr : checkRandomState np seed with e | s
    · rw [hr] at h; cases h
    rw [hr] at h; cases h
    exact ⟨_, rfl, fun _ g => stBody_steady hnp hb g⟩
  | lodo m test train => cases hn
  | stratified n' test train =>
    cases hn
    simp only [start] at h
    rcases hs : stratChecks X y (.vec sd) test train with e | ⟨groups, nTrain, nTest⟩
    · rw [hs] at h; cases h
    rw [hs] at h; simp only at h
    rcases hr : checkRandomState np seed with e | s
    · rw [hr] at h; cases h
    rw [hr] at h; cases h
    refine ⟨_, rfl, fun _ g => ?_⟩
    unfold stratChecks at hs
    rw [hck] at hs; simp only at hs
    by_cases hy : y.length = X.length
    swap
    · rw [if_pos hy] at hs; cases hs
    rw [if_neg (by simpa using hy)] at hs
    rcases hv : validateShuffleSplit X.length test train defaultTestSize with e | ⟨a, b⟩
    · rw [hv] at hs; cases hs
    rw [hv] at hs; simp only at hs
    by_cases g1 : (groupIdx (groupKeys y sd)).any (fun g => decide (g.length < 2)) = true
    · rw [if_pos g1] at hs; cases hs
    rw [if_neg g1] at hs
    by_cases g2 : a < (groupIdx (groupKeys y sd)).length
    · rw [if_pos g2] at hs; cases hs
    rw [if_neg g2] at hs
    by_cases g3 : b < (groupIdx (groupKeys y sd)).length
    · rw [if_pos g3] at hs; cases hs
    rw [if_neg g3] at hs
    cases hs
    obtain ⟨v1, v2, v3⟩ := validate_ok hv
    obtain ⟨f, hf, -⟩ := stratBody_ok hnp (hlen.trans hy.symm) v1 v2 (by omega) g
    exact ⟨f, hf⟩
  | domain n' us test train =>
    cases hn
    simp only [start] at h
    by_cases hus : 0 ≤ us ∧ us ≤ 1
    swap
    · rw [if_pos hus] at h; cases h
    rw [if_neg (by simpa using hus), hck] at h; simp only at h
    rcases he : extractDomainsIndicesSplit sd with e | ⟨dS, dT⟩
    · rw [he] at h; cases h
    rw [he] at h; simp only at h
    rcases hr : checkRandomState np seed with e | s
    · rw [hr] at h; cases h
    rw [hr] at h; cases h
    exact ⟨_, rfl, fun ⟨g0, f0, h0⟩ g => domainBody_steady hnp hsd hus.2 he h0 g⟩

theorem exec_its (np : Numpy γ) (o : Op γ R) (w : World γ) (name : Nat) (h1 : ∀ c, o ≠ .split name c) (h2 : o ≠ .next name) :
    (o.exec np w).2.its name = w.its name := by
  cases o with
  | draw k q => cases k <;> rfl
  | reseed k q => cases k <;> rfl
  | split n c' =>
    simp only [Op.exec]
    rw [Function.update_of_ne (fun e => h1 c' (by rw [e]))]
  | next n =>
    have e : name ≠ n := fun e => h2 (by rw [e])
    simp only [Op.exec]
    rcases hi : w.its n with _ | it0
    · rfl
    simp only
    rw [Function.update_of_ne e, next_its]
  | call cl =>
    simp only [Op.exec]
    rw [(call_local np cl).its w]

theorem nexts_cons_next (name : Nat) (o : Obs R) (ops : List (Op γ R)) (obs : List (Obs R)) :
    nexts name (.next name :: ops) (o :: obs) = o :: nexts name ops obs := by
  simp [nexts]

theorem nexts_cons_other {name : Nat} {p : Op γ R} (h : p ≠ .next name) (o : Obs R) (ops : List (Op γ R)) (obs : List (Obs R)) :
    nexts name (p :: ops) (o :: obs) = nexts name ops obs := by
  unfold nexts
  rw [List.zip_cons_cons, List.filter_cons_of_neg]
  cases p with
  | next n =>
    simp only [decide_eq_true_eq]
    rintro rfl
    exact h rfl
  | _ => simp

/-- A running generator object whose stages all succeed. -/
theorem nexts_running (np : Numpy γ) (name : Nat) (seed : Seed) (m : Draw γ (Py Fold)) (P : Fold → Prop) (hm : ∀ g, ∃ f, (m g).1 = .ok f ∧ P f) :
    ∀ (ops : List (Op γ R)) (w : World γ) (k : Nat), (∀ c, Op.split name c ∉ ops) →
      ((∃ src, w.its name = some (.running seed (List.replicate k (false, m)) src)) ∨ (k = 0 ∧ w.its name = some .done)) →
      ∃ fs : List Fold, (∀ f ∈ fs, P f) ∧ fs.length = min (nexts name ops (run np w ops).1).length k ∧
        nexts name ops (run np w ops).1 = fs.map (fun f => .got (.fold f)) ++
          List.replicate ((nexts name ops (run np w ops).1).length - k) (.got .stop) := by
  intro ops
  induction ops with
  | nil => intro w k _ _; exact ⟨[], by simp, by simp [nexts], by simp [nexts]⟩
  | cons o os ih =>
    intro w k hs hw
    have hs' : ∀ c, Op.split name c ∉ os := fun c hc => hs c (List.mem_cons_of_mem _ hc)
    by_cases ho : o = .next name
    swap
    · have := exec_its np o w name (fun c e => hs c (by rw [e]; exact List.mem_cons_self)) ho
      simp only [run]
      rw [nexts_cons_other ho]
      exact ih _ k hs' (by rw [this]; exact hw)
    subst ho
    simp only [run]
    rw [nexts_cons_next]
    -- after the last fold
    have hstop : k = 0 → ((Op.next name : Op γ R).exec np w).1 = .got .stop ∧ ((Op.next name : Op γ R).exec np w).2.its name = some .done := by
      rintro rfl
      rcases hw with ⟨src, hw⟩ | ⟨-, hw⟩
      · simp [Op.exec, hw, Iter.next, advance]
      · simp [Op.exec, hw, Iter.next]
    cases k with
    | zero =>
      obtain ⟨e1, e2⟩ := hstop rfl
      obtain ⟨fs, p1, p2, p3⟩ := ih _ 0 hs' (.inr ⟨rfl, e2⟩)
      have : fs = [] := List.length_eq_zero_iff.1 (by simpa using p2)
      subst this
      refine ⟨[], by simp, by simp, ?_⟩
      rw [e1]
      simp only [List.map_nil, List.nil_append, Nat.sub_zero, List.length_cons, List.replicate_succ] at p3 ⊢
      rw [← p3]
    | succ k =>
      obtain ⟨src, hw⟩ : ∃ src, w.its name = some (.running seed (List.replicate (k + 1) (false, m)) src) := by
        rcases hw with hw | ⟨h, -⟩
        · exact hw
        · omega
      have hrun : ∃ f, P f ∧ (src.run m w).1 = .ok f := by
        cases src with
        | glob => obtain ⟨f, h1, h2⟩ := hm w.glob; exact ⟨f, h2, h1⟩
        | own g => obtain ⟨f, h1, h2⟩ := hm g; exact ⟨f, h2, h1⟩
        | inst j => obtain ⟨f, h1, h2⟩ := hm (w.insts j); exact ⟨f, h2, h1⟩
      obtain ⟨f, hP, hf⟩ := hrun
      have hnext : (Iter.running seed (List.replicate (k + 1) (false, m)) src).next np w =
          (.fold f, .running seed (List.replicate k (false, m)) (src.run m w).2.1, (src.run m w).2.2) := by
        simp [Iter.next, List.replicate_succ, advance, hf]
      have e1 : ((Op.next name : Op γ R).exec np w).1 = .got (.fold f) := by
        simp only [Op.exec, hw, hnext]
      have e2 : ((Op.next name : Op γ R).exec np w).2.its name = some (.running seed (List.replicate k (false, m)) (src.run m w).2.1) := by
        simp only [Op.exec, hw, hnext, Function.update_self]
      obtain ⟨fs, p1, p2, p3⟩ := ih _ k hs' (.inl ⟨_, e2⟩)
      refine ⟨f :: fs, List.forall_mem_cons.2 ⟨hP, p1⟩, by simp only [List.length_cons, p2]; omega, ?_⟩
      rw [e1]
      simp only [List.map_cons, List.cons_append, List.length_cons, Nat.add_sub_add_right]
      rw [← p3]

/-- **C147, number of folds.**  A split of a splitter with `n_splits` whose first fold succeeds gives exactly `n_splits` folds, all of them correct, and
then stops for ever, whatever the `random_state` and whatever else the program does in between. -/
theorem C147_all_folds (np : Numpy γ) (hnp : LawfulNp np) (c : SplitCall) (sd : List Int) (hc : DataOk c sd) (n : Nat) (hn : nSplits c.splitter = some n)
    (name : Nat) (ops : List (Op γ R)) (hops : ∀ c', Op.split name c' ∉ ops) (w : World γ) (obs : List (Obs R))
    (hobs : obs = nexts name (.split name c :: ops) (run np w (.split name c :: ops)).1) (f₀ : Fold) (hfirst : obs.head? = some (.got (.fold f₀))) :
    ∃ fs : List Fold, fs.length = min obs.length n ∧ obs = fs.map (fun f => .got (.fold f)) ++ List.replicate (obs.length - n) (.got .stop) ∧
      ∀ f ∈ fs, FoldFor c sd f := by
  simp only [run] at hobs
  rw [nexts_cons_other (by intro h; cases h)] at hobs
  have hw : ((Op.split name c : Op γ R).exec np w).2.its name = some (.fresh c) := by
    simp only [Op.exec, Function.update_self]
  generalize ((Op.split name c : Op γ R).exec np w).2 = w at hw hobs
  induction ops generalizing w with
  | nil => subst hobs; simp [nexts] at hfirst
  | cons o os ih =>
    have hs' : ∀ c, Op.split name c ∉ os := fun c hc => hops c (List.mem_cons_of_mem _ hc)
    by_cases ho : o = .next name
    swap
    · have := exec_its np o w name (fun c e => hops c (by rw [e]; exact List.mem_cons_self)) ho
      simp only [run] at hobs
      rw [nexts_cons_other ho] at hobs
      exact ih hs' _ (by rw [this]; exact hw) hobs
    subst ho
    simp only [run] at hobs
    rw [nexts_cons_next] at hobs
    rcases hst : start np c w with ⟨e | ⟨rest, src⟩, w1⟩
    · exfalso
      have e1 : ((Op.next name : Op γ R).exec np w).1 = .got (.raised e) := by
        simp only [Op.exec, hw, Iter.next, hst]
      rw [hobs, e1] at hfirst
      cases hfirst
    have hst1 : (start np c w).1 = .ok (rest, src) := by rw [hst]
    obtain ⟨m, rfl, hm⟩ := start_steady hnp hc hn hst1
    have hgood := start_good hnp hc hst1
    cases n with
    | zero =>
      exfalso
      have e1 : ((Op.next name : Op γ R).exec np w).1 = .got .stop := by
        simp only [Op.exec, hw, Iter.next, hst, List.replicate_zero, advance]
      rw [hobs, e1] at hfirst
      cases hfirst
    | succ k =>
      have hsome : ∃ g f, (m g).1 = .ok f := by
        rcases hr : (src.run m w1).1 with e | f
        · exfalso
          have e1 : ((Op.next name : Op γ R).exec np w).1 = .got (.raised e) := by
            simp [Op.exec, hw, Iter.next, hst, List.replicate_succ, advance, hr]
          rw [hobs, e1] at hfirst
          cases hfirst
        · cases src with
          | glob => exact ⟨w1.glob, f, hr⟩
          | own g => exact ⟨g, f, hr⟩
          | inst j => exact ⟨w1.insts j, f, hr⟩
      have hall : ∀ g, ∃ f, (m g).1 = .ok f ∧ FoldFor c sd f := fun g => by
        obtain ⟨f, hf⟩ := hm hsome g
        exact ⟨f, hf, hgood (false, m) (by simp [List.replicate_succ]) g f hf⟩
      obtain ⟨f, hf⟩ : ∃ f, (src.run m w1).1 = .ok f := by
        cases src with
        | glob => exact hm hsome w1.glob
        | own g => exact hm hsome g
        | inst j => exact hm hsome (w1.insts j)
      have hP : FoldFor c sd f := by
        cases src with
        | glob => exact hgood (false, m) (by simp [List.replicate_succ]) _ f hf
        | own g => exact hgood (false, m) (by simp [List.replicate_succ]) _ f hf
        | inst j => exact hgood (false, m) (by simp [List.replicate_succ]) _ f hf
      have hnext : (Iter.fresh c : Iter γ).next np w =
          (.fold f, .running c.seed (List.replicate k (false, m)) (src.run m w1).2.1, (src.run m w1).2.2) := by
        simp [Iter.next, hst, List.replicate_succ, advance, hf]
      have e1 : ((Op.next name : Op γ R).exec np w).1 = .got (.fold f) := by
        simp only [Op.exec, hw, hnext]
      have e2 : ((Op.next name : Op γ R).exec np w).2.its name = some (.running c.seed (List.replicate k (false, m)) (src.run m w1).2.1) := by
        simp only [Op.exec, hw, hnext, Function.update_self]
      obtain ⟨fs, p1, p2, p3⟩ := nexts_running np name c.seed m (FoldFor c sd) hall os _ k hs' (.inl ⟨_, e2⟩)
      refine ⟨f :: fs, ?_, ?_, List.forall_mem_cons.2 ⟨hP, p1⟩⟩
      · rw [hobs]; simp only [List.length_cons, p2]; omega
      · rw [hobs, e1]
        simp only [List.map_cons, List.cons_append, List.length_cons, Nat.add_sub_add_right]
        rw [← p3]

/-! ### An integer is a new `RandomState` object -/

/-- The beginning of a splitter with `n_splits`: checks that do not depend on the `random_state`, then `check_random_state`. -/
theorem start_factor (np : Numpy γ) (c : SplitCall) {n : Nat} (hn : nSplits c.splitter = some n) : ∃ r : Py (Draw γ (Py Fold)), ∀ (seed : Seed) (w : World γ),
    start np { c with seed := seed } w = match r with
      | .error e => (.error e, w)
      | .ok m => match checkRandomState np seed with
        | .error e => (.error e, w)
        | .ok src => (.ok (List.replicate n (false, m), src), w) := by
  obtain ⟨sp, seed0, X, y, sda⟩ := c
  cases sp with
  | sourceTarget n' test train =>
    cases hn
    simp only [start]
    rcases checkXDomain X sda {} with e | ⟨X', sd⟩
    · exact ⟨.error e, fun _ _ => rfl⟩
    simp only
    rcases bothSizes (sourceIdx sd).length (targetIdx sd).length test train with e | sizes
    · exact ⟨.error e, fun _ _ => rfl⟩
    exact ⟨.ok (stBody np sd sizes), fun seed w => by rcases checkRandomState np seed with e | src <;> rfl⟩
  | lodo m test train => cases hn
  | stratified n' test train =>
    cases hn
    simp only [start]
    rcases stratChecks X y sda test train with e | ⟨groups, nTrain, nTest⟩
    · exact ⟨.error e, fun _ _ => rfl⟩
    exact ⟨.ok (stratBody np groups nTrain nTest), fun seed w => by rcases checkRandomState np seed with e | src <;> rfl⟩
  | domain n' us test train =>
    cases hn
    simp only [start]
    by_cases hus : ¬ (0 ≤ us ∧ us ≤ 1)
    · exact ⟨.error .valueError, fun seed w => by rw [if_pos hus]⟩
    rcases hx : checkXDomain X sda {} with e | ⟨X', sd⟩
    · exact ⟨.error e, fun _ _ => by rw [if_neg hus]⟩
    rcases hd : extractDomainsIndicesSplit sd with e | ⟨dS, dT⟩
    · exact ⟨.error e, fun _ _ => by rw [if_neg hus]; simp only [hd]⟩
    exact ⟨.ok (domainBody np dS dT us test train), fun seed w => by
      rw [if_neg hus]; simp only [hd]; rcases checkRandomState np seed with e | src <;> rfl⟩

theorem nexts_done (np : Numpy γ) (name : Nat) : ∀ (j : Nat) (w : World γ), w.its name = some .done →
    (run (R := R) np w (List.replicate j (.next name))).1 = List.replicate j (.got .stop)
  | 0, _, _ => rfl
  | j + 1, w, hw => by
    have e1 : (Op.next name : Op γ R).exec np w = (.got .stop, { w with its := Function.update w.its name (some .done) }) := by
      simp only [Op.exec, hw, Iter.next]
    simp only [List.replicate_succ, run, e1]
    rw [nexts_done np name j _ (Function.update_self ..)]

theorem run_own_inst (np : Numpy γ) (name k : Nat) (seed seed' : Seed) (m : Draw γ (Py Fold)) : ∀ (j n : Nat) (w w' : World γ) (g : γ),
    w.its name = some (.running seed (List.replicate n (false, m)) (.own g)) →
    w'.its name = some (.running seed' (List.replicate n (false, m)) (.inst k)) → w'.insts k = g →
    (run (R := R) np w (List.replicate j (.next name))).1 = (run np w' (List.replicate j (.next name))).1
  | 0, _, _, _, _, _, _, _ => rfl
  | j + 1, 0, w, w', g, h1, h2, h3 => by
    have e1 : ∀ (w : World γ) (s : Seed) (r : Src γ), w.its name = some (.running s (List.replicate 0 (false, m)) r) →
        (Op.next name : Op γ R).exec np w = (.got .stop, { w with its := Function.update w.its name (some .done) }) := by
      intro w s r h
      simp only [Op.exec, h, Iter.next, List.replicate_zero, advance]
    simp only [List.replicate_succ, run, e1 w _ _ h1, e1 w' _ _ h2]
    rw [nexts_done np name j _ (Function.update_self ..), nexts_done np name j _ (Function.update_self ..)]
  | j + 1, n + 1, w, w', g, h1, h2, h3 => by
    subst h3
    rcases hm : (m (w'.insts k)).1 with e | f
    · have e1 : (Op.next name : Op γ R).exec np w = (.got (.raised e), { w with its := Function.update w.its name (some .done) }) := by
        simp [Op.exec, h1, Iter.next, List.replicate_succ, advance, Src.run, hm]
      have e2 : (Op.next name : Op γ R).exec np w' = (.got (.raised e), { w' with
          insts := Function.update w'.insts k (m (w'.insts k)).2, its := Function.update w'.its name (some .done) }) := by
        simp [Op.exec, h2, Iter.next, List.replicate_succ, advance, Src.run, hm]
      simp only [List.replicate_succ, run, e1, e2]
      rw [nexts_done np name j _ (Function.update_self ..), nexts_done np name j _ (Function.update_self ..)]
    · have e1 : (Op.next name : Op γ R).exec np w = (.got (.fold f), { w with
          its := Function.update w.its name (some (.running seed (List.replicate n (false, m)) (.own (m (w'.insts k)).2))) }) := by
        simp [Op.exec, h1, Iter.next, List.replicate_succ, advance, Src.run, hm]
      have e2 : (Op.next name : Op γ R).exec np w' = (.got (.fold f), { w' with
          insts := Function.update w'.insts k (m (w'.insts k)).2,
          its := Function.update w'.its name (some (.running seed' (List.replicate n (false, m)) (.inst k))) }) := by
        simp [Op.exec, h2, Iter.next, List.replicate_succ, advance, Src.run, hm]
      simp only [List.replicate_succ, run, e1, e2]
      refine congrArg _ (run_own_inst np name k seed seed' m j n _ _ (m (w'.insts k)).2 ?_ ?_ ?_) <;> exact Function.update_self ..

/-- **C147, integers.**  For the splitters with `n_splits`, `random_state=s` gives what `random_state=np.random.RandomState(s)` gives with a new object. -/
theorem C147_int_is_object (np : Numpy γ) (c : SplitCall) (n : Nat) (hn : nSplits c.splitter = some n) (s : Int) (hs : 0 ≤ s ∧ s < 4294967296)
    (name k j : Nat) (w : World γ) :
    (run (R := R) np w (.split name { c with seed := .int s } :: List.replicate j (.next name))).1 =
      (run np w (.reseed (some k) s :: .split name { c with seed := .inst k } :: List.replicate j (.next name))).1.tail := by
  simp only [run, List.tail_cons]
  refine congrArg₂ _ rfl ?_
  obtain ⟨r, hr⟩ := start_factor np c hn
  cases j with
  | zero => rfl
  | succ j =>
  have i1 : ((Op.split name { c with seed := .int s } : Op γ R).exec np w).2.its name = some (.fresh { c with seed := .int s }) :=
    Function.update_self ..
  have i2 : ((Op.split name { c with seed := .inst k } : Op γ R).exec np ((Op.reseed (some k) s : Op γ R).exec np w).2).2.its name =
      some (.fresh { c with seed := .inst k }) := Function.update_self ..
  have i3 : ((Op.split name { c with seed := .inst k } : Op γ R).exec np ((Op.reseed (some k) s : Op γ R).exec np w).2).2.insts k = np.seeded s :=
    Function.update_self ..
  generalize ((Op.split name { c with seed := .int s } : Op γ R).exec np w).2 = w1 at i1
  generalize ((Op.split name { c with seed := .inst k } : Op γ R).exec np ((Op.reseed (some k) s : Op γ R).exec np w).2).2 = w2 at i2 i3
  have s1 := hr (.int s) w1
  have s2 := hr (.inst k) w2
  rcases r with e | m
  · have e1 : ∀ (w : World γ) (c' : SplitCall), w.its name = some (.fresh c') → start np c' w = (.error e, w) →
        (Op.next name : Op γ R).exec np w = (.got (.raised e), { w with its := Function.update w.its name (some .done) }) := by
      intro w c' h hs
      simp only [Op.exec, h, Iter.next, hs]
    simp only [List.replicate_succ, run, e1 w1 _ i1 s1, e1 w2 _ i2 s2]
    rw [nexts_done np name j _ (Function.update_self ..), nexts_done np name j _ (Function.update_self ..)]
  · simp only [checkRandomState, if_pos hs] at s1 s2
    -- the first `next` behaves as if the generator function had been started before
    have go : ∀ (w : World γ) (c' : SplitCall) (src : Src γ), w.its name = some (.fresh c') → start np c' w = (.ok (List.replicate n (false, m), src), w) →
        (run (R := R) np w (List.replicate (j + 1) (.next name))).1 =
          (run np { w with its := Function.update w.its name (some (.running c'.seed (List.replicate n (false, m)) src)) }
            (List.replicate (j + 1) (.next name))).1 := by
      intro w c' src h hs
      have a1 : (Iter.fresh c').next np w = advance np c'.seed (List.replicate n (false, m)) src w := by
        simp only [Iter.next, hs]
      have a2 : ∀ it, advance np c'.seed (List.replicate n (false, m)) src { w with its := Function.update w.its name it } =
          ((advance np c'.seed (List.replicate n (false, m)) src w).1, (advance np c'.seed (List.replicate n (false, m)) src w).2.1,
            { (advance np c'.seed (List.replicate n (false, m)) src w).2.2 with its := Function.update w.its name it }) := by
        intro it
        cases n with
        | zero => rfl
        | succ n =>
          cases src with
          | glob => rcases hm : (m w.glob).1 with e | f <;> simp [List.replicate_succ, advance, Src.run, hm]
          | own g => rcases hm : (m g).1 with e | f <;> simp [List.replicate_succ, advance, Src.run, hm]
          | inst i => rcases hm : (m (w.insts i)).1 with e | f <;> simp [List.replicate_succ, advance, Src.run, hm]
      have a3 : (Op.next name : Op γ R).exec np w = (Op.next name : Op γ R).exec np
          { w with its := Function.update w.its name (some (.running c'.seed (List.replicate n (false, m)) src)) } := by
        simp only [Op.exec, h, a1, Function.update_self]
        simp only [Iter.next]
        rw [a2]
        simp only [Function.update_idem, advance_its]
      simp only [List.replicate_succ, run]
      rw [a3]
    rw [go w1 _ _ i1 s1, go w2 _ _ i2 s2]
    exact run_own_inst np name k _ _ m (j + 1) n _ _ (np.seeded s) (Function.update_self ..) (Function.update_self ..) i3

/-! ### What the functions of the library take from a shared generator -/

theorem run_append_world (np : Numpy γ) : ∀ (a b : List (Op γ R)) (w : World γ), (run np w (a ++ b)).2 = (run np (run np w a).2 b).2
  | [], _, _ => rfl
  | o :: a, b, w => by simp only [List.cons_append, run]; exact run_append_world np a b _

theorem withRng_draw (np : Numpy γ) (k : Option Nat) (q : Query) {A : Type} (h : List Nat → Py A) (w : World γ) :
    withRng np (seedAs k) (fun g => (h (np.ask q g).1, (np.ask q g).2)) w =
      (h (match k with
        | none => (np.ask q w.glob).1
        | some k => (np.ask q (w.insts k)).1), (run (R := R) np w [.draw k q]).2) := by
  cases k <;> rfl

theorem forEach_draws (np : Numpy γ) {T A : Type} (f : T → World γ → Py A × World γ) (os : T → List (Op γ R))
    (hf : ∀ t w, ∃ a, f t w = (.ok a, (run np w (os t)).2)) : ∀ (ts : List T) (w : World γ), ∃ as, forEach f ts w = (.ok as, (run np w (ts.flatMap os)).2)
  | [], w => ⟨[], rfl⟩
  | t :: ts, w => by
    obtain ⟨a, ha⟩ := hf t w
    obtain ⟨as, has⟩ := forEach_draws np f os hf ts (run np w (os t)).2
    refine ⟨a :: as, ?_⟩
    simp only [forEach, andThen, ha, has, List.flatMap_cons]
    rw [run_append_world]

/-- **C147, shared generators.**  With `random_state=None` or a `RandomState` object, a call leaves this generator (and everything else) as the user
would by asking it for exactly the permutations and choices listed by `queriesOf`. -/
theorem C147_draws (np : Numpy γ) (w : World γ) (k : Option Nat) (c : Call γ R) (qs : List Query) (h : queriesOf c = some (seedAs k, qs)) :
    (c.exec np w).2 = (run (R := R) np w (qs.map (.draw k))).2 := by
  cases c with
  | dev s n K =>
    simp only [queriesOf, Option.some.injEq, Prod.mk.injEq] at h
    obtain ⟨rfl, rfl⟩ := h
    exact congrArg Prod.snd (withRng_draw (R := R) np k (.perm n) K w)
  | mixval s n K =>
    simp only [queriesOf, Option.some.injEq, Prod.mk.injEq] at h
    obtain ⟨rfl, rfl⟩ := h
    exact congrArg Prod.snd (withRng_draw (R := R) np k (.perm n) K w)
  | shuffleArrays s n K =>
    simp only [queriesOf, Option.some.injEq, Prod.mk.injEq] at h
    obtain ⟨rfl, rfl⟩ := h
    exact congrArg Prod.snd (withRng_draw (R := R) np k (.shuffle n) K w)
  | subsample s n keep K =>
    simp only [queriesOf, Option.some.injEq, Prod.mk.injEq] at h
    obtain ⟨rfl, rfl⟩ := h
    by_cases hk : n ≤ keep
    · simp only [Call.exec, if_pos hk, List.map_nil, run]
      cases k with
      | none => rfl
      | some k => simp [withRng, seedAs, checkRandomState, Src.run]
    · simp only [Call.exec, if_neg hk]
      exact congrArg Prod.snd (withRng_draw (R := R) np k (.perm n) (fun l => K (some l)) w)
  | kliep s a best K =>
    simp only [queriesOf, Option.some.injEq, Prod.mk.injEq] at h
    obtain ⟨rfl, rfl⟩ := h
    have hc : ∀ (n : Nat) (w : World γ), ∃ l, kliepCentres np (seedAs k) a.nCenters n w =
        (.ok l, (run (R := R) np w [.draw k (.choice n (min n a.nCenters) true)]).2) := fun n w =>
      ⟨_, withRng_draw (R := R) np k (.choice n (min n a.nCenters) true) (fun l => .ok l) w⟩
    rcases hg : a.gammas with _ | m
    · obtain ⟨l, hl⟩ := hc a.n w
      simp only [Call.exec, hg, andThen, hl, List.nil_append, List.map_cons, List.map_nil]
    · have hsh : withRng np (seedAs k) (fun g => (.ok (), (np.ask (.shuffle a.n) g).2)) w =
          ((.ok () : Py Unit), (run (R := R) np w [.draw k (.shuffle a.n)]).2) :=
        withRng_draw (R := R) np k (.shuffle a.n) (fun _ => .ok ()) w
      obtain ⟨ls, hls⟩ := forEach_draws (R := R) np (fun _ => forEach (fun train => kliepCentres np (seedAs k) a.nCenters train.length) a.folds)
        (fun _ : Nat => a.folds.flatMap (fun rows : List Nat => [Op.draw k (.choice rows.length (min rows.length a.nCenters) true)]))
        (fun _ w => forEach_draws np _ _ (fun rows w => hc rows.length w) a.folds w) (List.range m)
        (run (R := R) np w [.draw k (.shuffle a.n)]).2
      obtain ⟨l, hl⟩ := hc a.n (run (R := R) np (run (R := R) np w [.draw k (.shuffle a.n)]).2 ((List.range m).flatMap
        (fun _ => a.folds.flatMap (fun rows : List Nat => [Op.draw k (.choice rows.length (min rows.length a.nCenters) true)])))).2
      simp only [Call.exec, hg, andThen, kliepCv, hsh, hls, hl]
      rw [← run_append_world, ← run_append_world]
      congr 2
      simp only [List.map_append, List.map_cons, List.map_nil, List.map_flatMap, List.cons_append, List.nil_append, List.map_map]
      have hfm : a.folds.flatMap (fun rows : List Nat => [(Op.draw k (.choice rows.length (min rows.length a.nCenters) true) : Op γ R)]) =
          a.folds.map (Op.draw k ∘ fun rows => .choice rows.length (min rows.length a.nCenters) true) := by
        rw [List.map_eq_flatMap]
        rfl
      rw [hfm]
  | _ => simp [queriesOf] at h

/-- **C147, subspace alignment.**  With a shared generator the PCA of the targets goes on where the PCA of the sources stopped, as two requests of the
user would. -/
theorem C147_subspace (np : Numpy γ) (w : World γ) (k : Option Nat) (q₁ q₂ : Query) (K : List Nat → List Nat → Py (List Nat)) (a b : List Nat)
    (h : (run (R := List Nat) np w [.draw k q₁, .draw k q₂]).1 = [.drawn a, .drawn b]) :
    (Call.subspace (seedAs k) (np.ask q₁) (np.ask q₂) K).exec np w = (K a b, (run (R := List Nat) np w [.draw k q₁, .draw k q₂]).2) := by
  cases k with
  | none =>
    simp only [run, Op.exec, List.cons.injEq, Obs.drawn.injEq, and_true] at h
    obtain ⟨rfl, rfl⟩ := h
    rfl
  | some k =>
    simp only [run, Op.exec, List.cons.injEq, Obs.drawn.injEq, and_true, Function.update_self] at h
    obtain ⟨rfl, rfl⟩ := h
    simp [Call.exec, withRng, seedAs, checkRandomState, Src.run, run, Op.exec]

/-! ### Concrete cases -/

-- `LeaveOneDomainOut` is different: with an integer every domain starts from the seed again
/-- **C147 (`LeaveOneDomainOut`).**  `random_state=s` and `random_state=np.random.RandomState(s)` give other folds. -/
theorem C147_lodo_int_counterexample :
    ∃ (np : Numpy Nat) (w : World Nat) (c : SplitCall) (s : Int), (0 ≤ s ∧ s < 4294967296) ∧
      (run (R := Nat) np w (.split 0 { c with seed := .int s } :: List.replicate 2 (.next 0))).1 ≠
      (run np w (.reseed (some 0) s :: .split 0 { c with seed := .inst 0 } :: List.replicate 2 (.next 0))).1.tail :=
  ⟨rotNp, world5, ⟨.lodo 10 (.int 1) .none, .none, List.replicate 8 (), [], .vec [1, 1, -1, -1, 2, 2, -2, -2]⟩, 1, by decide, by decide +kernel⟩

example : nexts 0 prog147b (run rotNp world0 prog147b).1 =
    [.got (.fold ([1, 2, 3, 6, 4], [0, 5])), .got (.fold ([2, 3, 0, 5, 6], [1, 4])), .got .stop] := by decide +kernel

example : ∃ fs : List Fold, fs.length = min 3 2 ∧ nexts 0 prog147b (run lawNp world0 prog147b).1 = fs.map (fun f => .got (.fold f)) ++ [.got .stop] ∧
    ∀ f ∈ fs, FoldFor (cv (.inst 0)) [1, 1, 1, 1, -2, -2, -2] f :=
  C147_all_folds lawNp lawfulNp (cv (.inst 0)) _ ⟨rfl, by decide, rfl, fun _ _ _ h => by cases h⟩ 2 rfl 0 prog147b.tail
    (by intro c' h; simp [prog147b] at h) world0 _ rfl ([1, 2, 3, 6, 4], [0, 5]) (by decide +kernel)

example : (run (R := Nat) rotNp world0 (.split 0 (cv (.int 3)) :: List.replicate 3 (.next 0))).1 =
    (run rotNp world0 (.reseed (some 4) 3 :: .split 0 (cv (.inst 4)) :: List.replicate 3 (.next 0))).1.tail :=
  C147_int_is_object rotNp (cv .none) 2 rfl 3 (by decide) 0 4 3 world0

-- KLIEP with two candidates and two folds of three rows: six requests
example : queriesOf (Call.kliep (γ := Nat) (R := Nat) (.inst 0) ⟨5, 2, [[0, 1, 2], [2, 3, 4]], some 2⟩ (fun _ => 0) (fun _ _ => .ok 0)) =
    some (seedAs (some 0), [.shuffle 5, .choice 3 2 true, .choice 3 2 true, .choice 3 2 true, .choice 3 2 true, .choice 5 2 true]) := by decide +kernel

example : ((Call.kliep (R := Nat) (.inst 0) ⟨5, 2, [[0, 1, 2], [2, 3, 4]], some 2⟩ (fun _ => 0) (fun _ _ => .ok 0)).exec rotNp world0).2.insts 0 = 6 := by
  decide +kernel

example : (run (R := List Nat) rotNp world0 [.draw none (.perm 3), .draw none (.perm 3)]).1 = [.drawn [0, 1, 2], .drawn [1, 2, 0]] := by decide +kernel

end Skada

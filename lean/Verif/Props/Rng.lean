/-
C147: `random_state`.  An integer makes every result reproducible and independent of everything else in the program, and is invisible to everything else;
`None` and a `RandomState` object are shared, lazily consumed streams.
-/
import Verif.Lemmas.RngFolds

namespace Skada

open Spec Rng

variable {γ R : Type}

theorem inv_of_noIters {ch : Nat → List Chan} {w : World γ} (h : NoIters w) : Inv ch w := fun n it e => by
  rw [h n] at e; cases e

/-- **C147, main theorem.**  Choose any places `C` random numbers come from (the global generator, some `RandomState` objects, the operating system).  In
every program in which no operation uses places inside and outside `C` at once, the operations that stay inside `C` show exactly what they show in the
program that consists of them alone, started in any situation that agrees at these places; and the places are left in the same state.  Splits are consumed
one fold at a time, in any interleaving. -/
theorem C147_isolated (np : Numpy γ) (ch : Nat → List Chan) (C : Chan → Bool) (ops : List (Op γ R)) (w w' : World γ) (hw : NoIters w) (hw' : NoIters w')
    (hsame : ∀ c, C c = true → SameAt w w' c) (hn : WellNamed ch ops) (hp : ∀ o ∈ ops, inside ch C o = true ∨ outside ch C o = true) :
    seen ch C ops (run np w ops).1 = (run np w' (ops.filter (inside ch C))).1 ∧
    ∀ c, C c = true → SameAt (run np w ops).2 (run np w' (ops.filter (inside ch C))).2 c := by
  have h := run_keep (np := np) (ch := ch) (N := fun n => (ch n).all C) (C := C) (inside ch C) ops w w' (inv_of_noIters hw)
    ⟨hsame, fun n _ => (hw n).trans (hw' n).symm⟩ hn ?_ ?_
  · exact ⟨h.1, h.2.at_⟩
  · intro o _ ho
    refine ⟨ho, fun n e => ?_⟩
    cases o <;> simp only [opName, Option.some.injEq, reduceCtorEq] at e
    · subst e; exact ho
    · subst e; exact ho
  · intro o hm ho
    refine ⟨(hp o hm).resolve_left (by rw [ho]; decide), fun n e => ?_⟩
    cases o <;> simp only [opName, Option.some.injEq, reduceCtorEq] at e
    · subst e; exact ho
    · subst e; exact ho

/-- **C147, integers are reproducible.**  If two programs contain the same operations with an integer `random_state`, in the same order, these show the
same in both, whatever else the programs do and whatever was done before. -/
theorem C147_seeded (np : Numpy γ) (ch : Nat → List Chan) (ops ops' : List (Op γ R)) (w w' : World γ) (hw : NoIters w) (hw' : NoIters w')
    (hn : WellNamed ch ops) (hn' : WellNamed ch ops')
    (hsame : ops.filter (fun o => decide (opUses ch o = [])) = ops'.filter (fun o => decide (opUses ch o = []))) :
    ((ops.zip (run np w ops).1).filter (fun p => decide (opUses ch p.1 = []))).map Prod.snd =
      ((ops'.zip (run np w' ops').1).filter (fun p => decide (opUses ch p.1 = []))).map Prod.snd := by
  have key : ∀ o : Op γ R, inside ch (fun _ => false) o = decide (opUses ch o = []) := by
    intro o
    unfold inside
    rcases opUses ch o with _ | ⟨c, cs⟩
    · rfl
    · simp
  have hout : ∀ o : Op γ R, outside ch (fun _ => false) o = true := fun o => by simp [outside]
  have hk : inside (R := R) (γ := γ) ch (fun _ => false) = fun o => decide (opUses ch o = []) := funext key
  have h1 := (C147_isolated np ch (fun _ => false) ops w w hw hw (fun _ h => by cases h) hn (fun o _ => .inr (hout o))).1
  have h2 := (C147_isolated np ch (fun _ => false) ops' w' w hw' hw (fun _ h => by cases h) hn' (fun o _ => .inr (hout o))).1
  simp only [seen, key, hk] at h1 h2
  rw [h1, h2, hsame]

/-- **C147, integers are invisible.**  Leaving out all operations with an integer `random_state` changes neither what the others show nor the state of the
global generator, of any `RandomState` object or of the operating system. -/
theorem C147_untouched (np : Numpy γ) (ch : Nat → List Chan) (ops : List (Op γ R)) (w : World γ) (hw : NoIters w) (hn : WellNamed ch ops) :
    ((ops.zip (run np w ops).1).filter (fun p => decide (opUses ch p.1 ≠ []))).map Prod.snd =
      (run np w (ops.filter (fun o => decide (opUses ch o ≠ [])))).1 ∧
    ∀ c, SameAt (run np w ops).2 (run np w (ops.filter (fun o => decide (opUses ch o ≠ [])))).2 c := by
  have h := run_keep (np := np) (ch := ch) (N := fun n => decide (ch n ≠ [])) (C := fun _ => true) (fun o => decide (opUses ch o ≠ [])) ops w w
    (inv_of_noIters hw) (Agree.refl _ _ w) hn ?_ ?_
  · exact ⟨h.1, fun c => h.2.at_ c rfl⟩
  · intro o _ ho
    refine ⟨by simp [inside], fun n e => ?_⟩
    cases o <;> simp only [opName, Option.some.injEq, reduceCtorEq] at e
    · subst e; exact ho
    · subst e; exact ho
  · intro o _ ho
    have hu : opUses ch o = [] := by simpa using ho
    refine ⟨by simp [outside, hu], fun n e => ?_⟩
    cases o <;> simp only [opName, Option.some.injEq, reduceCtorEq] at e
    · subst e; exact ho
    · subst e; exact ho

/-- **C147, `np.random.seed`.**  After `np.random.seed(s)` a program that draws only from the global generator (`random_state=None`) and from integers shows
the same whatever happened before.  (The dataset generators are not covered, see `C147_blobs_counterexample`.) -/
theorem C147_np_random_seed (np : Numpy γ) (ch : Nat → List Chan) (s : Int) (ops : List (Op γ R)) (w w' : World γ) (hw : NoIters w) (hw' : NoIters w')
    (hn : WellNamed ch ops) (hin : ∀ o ∈ ops, ∀ c ∈ opUses ch o, c = .glob) :
    (run np w (.reseed none s :: ops)).1 = (run np w' (.reseed none s :: ops)).1 := by
  simp only [run]
  refine congrArg₂ _ rfl ?_
  have hins : ∀ o ∈ ops, inside ch (fun c => decide (c = .glob)) o = true := by
    intro o ho
    unfold inside
    rw [List.all_eq_true]
    exact fun c hc => by simpa using hin o ho c hc
  have hf : ops.filter (inside ch (fun c => decide (c = .glob))) = ops := List.filter_eq_self.mpr hins
  have key := fun v : World γ => fun hv : NoIters v => fun hs : SameAt v (Op.exec (R := R) np (.reseed none s) w').2 .glob =>
    (C147_isolated np ch (fun c => decide (c = .glob)) ops v (Op.exec (R := R) np (.reseed none s) w').2 hv hw'
      (fun c hc => by rw [show c = .glob by simpa using hc]; exact hs) hn (fun o ho => .inl (hins o ho))).1
  have h1 := key (Op.exec (R := R) np (.reseed none s) w).2 hw rfl
  have h2 := key (Op.exec (R := R) np (.reseed none s) w').2 hw' rfl
  rw [hf] at h1 h2
  have hlen : ∀ (ops : List (Op γ R)) (v : World γ), (run np v ops).1.length = ops.length := by
    intro ops
    induction ops with
    | nil => intro v; rfl
    | cons o os ih => intro v; simp [run, ih]
  have hall : ∀ v : World γ, seen ch (fun c => decide (c = .glob)) ops (run np v ops).1 = (run np v ops).1 := by
    intro v
    unfold seen
    rw [List.filter_eq_self.mpr, List.map_snd_zip (by rw [hlen])]
    rintro ⟨a, b⟩ hab
    exact hins a (List.of_mem_zip hab).1
  rw [hall] at h1
  exact h1

/-- **C147, the folds.**  With an integer `random_state`, the folds of `SourceTargetShuffleSplit` are those of the permutations drawn one after the other
from a generator with this seed (source before target in every fold), then the iteration stops. -/
theorem C147_source_target_folds (np : Numpy γ) (w : World γ) (name : Nat) (s : Int) (hs : 0 ≤ s ∧ s < 4294967296) (n : Nat) (test train : Size)
    (X : List Unit) (y : List ℚ) (sd : List Int) (folds : List Fold)
    (h : sourceTargetShuffleSplit X (.vec sd) test train (pairs np (sourceIdx sd).length (targetIdx sd).length n (np.seeded s)) = .ok folds) :
    (run (R := R) np w (.split name ⟨.sourceTarget n test train, .int s, X, y, .vec sd⟩ :: List.replicate (folds.length + 1) (.next name))).1 =
      .nothing :: folds.map (fun f => .got (.fold f)) ++ [.got .stop] := by
  unfold sourceTargetShuffleSplit at h
  rcases hc : checkXDomain X (.vec sd) {} with e | ⟨a, b⟩
  · rw [hc] at h; cases h
  rw [hc] at h; simp only at h
  obtain ⟨rfl, rfl⟩ := check_vec hc
  unfold stIterIndices at h
  rw [hc] at h; simp only at h
  rcases hb : bothSizes (sourceIdx b).length (targetIdx b).length test train with e | sizes
  · rw [hb] at h; cases h
  rw [hb] at h; simp only at h
  refine run_split hs name _ rfl w (List.replicate n (false, stBody np b sizes)) (np.seeded s) (fun w => ?_) folds ?_
  · simp only [start, hc, hb, checkRandomState, hs, and_self, if_true]
  · rw [outs_st]
    exact mapM_ok_map h

/-- **C147, `LeaveOneDomainOut`.**  With an integer `random_state` the order of the domains is drawn from a generator with this seed, and so are the
permutations for **every** target domain: each starts anew from the same seed, so target domains with the same numbers of rows get the same permutations. -/
theorem C147_leave_one_domain_out (np : Numpy γ) (w : World γ) (name : Nat) (s : Int) (hs : 0 ≤ s ∧ s < 4294967296) (maxSplits : Nat)
    (test train : Size) (X : List Unit) (y : List ℚ) (sd : List Int) (draw : Int → List Nat × List Nat) (folds : List Fold)
    (hdraw : ∀ t sds, Np.take sd (lodoSplitIdx sd (lodoDomains sd) t) = .ok sds →
      draw t = ((np.ask (.perm (sourceIdx sds).length) (np.seeded s)).1,
        (np.ask (.perm (targetIdx sds).length) (np.ask (.perm (sourceIdx sds).length) (np.seeded s)).2).1))
    (h : leaveOneDomainOut X (.vec sd) maxSplits test train (np.ask (.perm (lodoDomains sd).length) (np.seeded s)).1 draw = .ok folds) :
    (run (R := R) np w (.split name ⟨.lodo maxSplits test train, .int s, X, y, .vec sd⟩ :: List.replicate (folds.length + 1) (.next name))).1 =
      .nothing :: folds.map (fun f => .got (.fold f)) ++ [.got .stop] := by
  unfold leaveOneDomainOut at h
  rcases hc : checkXDomain X (.vec sd) {} with e | ⟨a, b⟩
  · rw [hc] at h; cases h
  rw [hc] at h; simp only at h
  obtain ⟨rfl, rfl⟩ := check_vec hc
  rcases ht : Np.take (lodoDomains b) (lodoOrder (lodoDomains b).length maxSplits (np.ask (.perm (lodoDomains b).length) (np.seeded s)).1) with e | ts
  · rw [ht] at h; cases h
  rw [ht] at h; simp only at h
  rcases hm : ts.mapM (fun t => lodoFold a b (lodoDomains b) test train t (draw t)) with e | fs
  · rw [hm] at h; cases h
  rw [hm] at h
  simp only [Except.ok.injEq] at h
  subst h
  refine run_split hs name _ rfl w (ts.map (fun t => (true, lodoBody np a b test train t)))
    (np.ask (.perm (lodoDomains b).length) (np.seeded s)).2 (fun w => ?_) fs.flatten ?_
  · simp only [start, hc, checkRandomState, hs, and_self, if_true, Src.run, ht]
  · rw [outs_again]
    have := mapM_ok_map hm
    clear hm ht
    induction ts generalizing fs with
    | nil =>
      cases fs with
      | nil => rfl
      | cons f fs => simp at this
    | cons t ts ih =>
      cases fs with
      | nil => simp at this
      | cons l fs =>
        simp only [List.map_cons, List.cons.injEq] at this
        obtain ⟨f, rfl, hf⟩ := lodoBody_ok (np := np) (g := np.seeded s) (fun sds => hdraw t sds) this.1
        simp only [List.map_cons, List.flatten_cons, List.cons_append, List.nil_append]
        rw [hf, ih fs this.2]

/-- **C147, comparable scores.**  With an integer `random_state` there is one permutation of the rows that DEV, MixVal and the subsampler use for every
estimator (`k`), in every situation, and the situation is left as it is: scores of different estimators are computed on the same rows. -/
theorem C147_same_rows (np : Numpy γ) (s : Int) (hs : 0 ≤ s ∧ s < 4294967296) (n : Nat) :
    ∃ π, ∀ (w : World γ) (k : List Nat → Py R) (keep : Nat) (k' : Option (List Nat) → Py R),
      (Call.dev (.int s) n k).exec np w = (k π, w) ∧ (Call.mixval (.int s) n k).exec np w = (k π, w) ∧
      (Call.subsample (.int s) n keep k').exec np w = (if n ≤ keep then k' none else k' (some π), w) := by
  refine ⟨(np.ask (.perm n) (np.seeded s)).1, fun w k keep k' => ?_⟩
  simp only [Call.exec, withRng, checkRandomState, hs, and_self, if_true, Src.run, true_and]
  by_cases h : n ≤ keep
  · simp [h]
  · simp [h]

theorem forEach_pure {T A : Type} {f : T → World γ → Py A × World γ} {g : T → A} (h : ∀ t w, f t w = (.ok (g t), w)) :
    ∀ (l : List T) (w : World γ), Rng.forEach f l w = (.ok (l.map g), w)
  | [], w => rfl
  | t :: ts, w => by
    simp only [Rng.forEach, andThen, h, forEach_pure h ts, List.map_cons]

/-- **C147, KLIEP.**  With an integer `random_state` the centres of every candidate for `gamma` and every fold depend only on the number of rows of the
fold: candidates are compared with the same centres, and folds of the same size choose the same positions.  Nothing else is changed. -/
theorem C147_kliep (np : Numpy γ) (s : Int) (hs : 0 ≤ s ∧ s < 4294967296) (nCenters : Nat) :
    ∃ centres : Nat → List Nat, ∀ (w : World γ) (n : Nat) (folds : List (List Nat)) (c : Nat) (best : List (List (List Nat)) → Nat)
      (k : Nat → List Nat → Py R),
      (Call.kliep (.int s) ⟨n, nCenters, folds, some c⟩ best k).exec np w =
        (k (best (List.replicate c (folds.map (fun train => centres train.length)))) (centres n), w) ∧
      (Call.kliep (.int s) ⟨n, nCenters, folds, none⟩ best k).exec np w = (k 0 (centres n), w) := by
  refine ⟨fun m => (np.ask (.choice m (min m nCenters) true) (np.seeded s)).1, fun w n folds c best k => ?_⟩
  have hcen : ∀ m (w : World γ), kliepCentres np (.int s) nCenters m w = (.ok (np.ask (.choice m (min m nCenters) true) (np.seeded s)).1, w) := by
    intro m w
    simp only [kliepCentres, withRng, checkRandomState, hs, and_self, if_true, Src.run]
  have hcv : kliepCv np (.int s) ⟨n, nCenters, folds, some c⟩ c w =
      (.ok (List.replicate c (folds.map (fun train => (np.ask (.choice train.length (min train.length nCenters) true) (np.seeded s)).1))), w) := by
    simp only [kliepCv, andThen, withRng, checkRandomState, hs, and_self, if_true, Src.run]
    rw [forEach_pure (g := fun _ => folds.map (fun train => (np.ask (.choice train.length (min train.length nCenters) true) (np.seeded s)).1))]
    · simp
    · intro t w
      exact forEach_pure (fun train w => hcen train.length w) folds w
  constructor
  · simp only [Call.exec, andThen, hcv, hcen]
  · simp only [Call.exec, andThen, hcen]

/-- **C147 (not as documented).**  The dataset generators document "int, RandomState instance or None"; a `RandomState` object is always a `TypeError`. -/
theorem C147_generator_counterexample (np : Numpy γ) (w : World γ) (j : Nat) (m : Draw γ (Py R)) (noise : Option (Draw γ R)) (k : R → Option R → Py R) :
    (Call.generate (.inst j) m).exec np w = (.error .typeError, w) ∧ (Call.blobs (.inst j) m noise k).exec np w = (.error .typeError, w) := ⟨rfl, rfl⟩

/-! ### A small generator for the examples: states are numbers, a permutation is a rotation -/

def rotNp : Numpy Nat where
  seeded s := s.toNat
  os i := 7 + 2 * i
  ask q g := match q with
    | .perm n => ((List.range n).rotate g, g + 1)
    | .choice n k _ => (((List.range n).rotate g).take k, g + 1)
    | .shuffle n => ((List.range n).rotate g, g + 1)
    | .approxMode counts n => (counts.map (fun c => c * n / counts.sum), g)

def world0 : World Nat := ⟨0, fun k => k, 0, fun _ => none⟩
def world5 : World Nat := ⟨5, fun k => k + 1, 3, fun _ => none⟩

/-- A cross-validation object with this `random_state` on four source and three target rows. -/
def cv (seed : Seed) : SplitCall := ⟨.sourceTarget 2 (.int 1) .none, seed, List.replicate 7 (), [], .vec [1, 1, 1, 1, -2, -2, -2]⟩

/-- **C147 (`None` is not reproducible).**  With `random_state=None` the same score of the same estimator computed twice may use other rows. -/
theorem C147_none_counterexample :
    ∃ (np : Numpy Nat) (w : World Nat) (o : Op Nat Nat), (run np w [o, o]).1 = [.value (.ok 0), .value (.ok 1)] :=
  ⟨rotNp, world0, .call (.dev .none 3 (fun π => .ok (π.headD 0))), by decide +kernel⟩

/-- **C147 (shared generators and laziness).**  Two splits with the same `RandomState` object give other folds when they are consumed in turn than when
they are consumed one after the other; with an integer this cannot happen (`C147_seeded`). -/
theorem C147_interleaved_counterexample :
    ∃ (np : Numpy Nat) (w : World Nat) (c : SplitCall) (f g : Fold), f ≠ g ∧
      (run (R := Nat) np w [.split 0 c, .split 1 c, .next 0, .next 0, .next 1]).1[3]? = some (.got (.fold f)) ∧
      (run (R := Nat) np w [.split 0 c, .split 1 c, .next 0, .next 1, .next 0]).1[4]? = some (.got (.fold g)) :=
  ⟨rotNp, world0, cv (.inst 0), ([3, 0, 1, 5, 6], [2, 4]), ([1, 2, 3, 4, 5], [0, 6]), by decide +kernel⟩

/-- **C147 (`np.random.seed` does not reach the dataset generators).**  `np.random.seed(0)` before each of two calls of `make_shifted_blobs` with noise and
`random_state=None`: the data differ. -/
theorem C147_blobs_counterexample :
    ∃ (np : Numpy Nat) (w : World Nat) (o : Op Nat Nat), (run np w [.reseed none 0, o, .reseed none 0, o]).1 =
      [.nothing, .value (.ok 7), .nothing, .value (.ok 9)] :=
  ⟨rotNp, world0, .call (.blobs .none (fun g => (.ok g, g + 1)) (some (fun g => (g, g + 1))) (fun b e => .ok (b + e.getD 0))), by decide +kernel⟩

/-! ### Concrete cases -/

/-- A program with two interleaved splits, one seeded (name 0), one on the global generator (name 1), and other consumers. -/
def prog147 : List (Op Nat Nat) :=
  [.split 0 (cv (.int 3)), .draw none (.perm 4), .split 1 (cv .none), .next 0, .next 1, .call (.dev (.int 1) 3 (fun π => .ok (π.headD 0))),
   .call (.mixval .none 3 (fun π => .ok (π.headD 0))), .next 0, .reseed (some 2) 8, .next 0, .next 1]

def names147 : Nat → List Chan := fun n => if n = 1 then [.glob] else []

theorem wellNamed147 : WellNamed names147 prog147 := by
  intro n c h
  simp only [prog147, List.mem_cons, Op.split.injEq, reduceCtorEq, List.mem_nil_iff, or_false, false_or] at h
  rcases h with ⟨rfl, rfl⟩ | ⟨rfl, rfl⟩ <;> rfl

-- the seeded operations of the program, alone and in another situation
example : seen names147 (fun _ => false) prog147 (run rotNp world0 prog147).1 =
    (run rotNp world5 (prog147.filter (inside names147 (fun _ => false)))).1 :=
  (C147_isolated rotNp names147 (fun _ => false) prog147 world0 world5 (fun _ => rfl) (fun _ => rfl) (fun _ h => by cases h) wellNamed147
    (fun o _ => .inr (by simp [outside]))).1

example : seen names147 (fun _ => false) prog147 (run rotNp world0 prog147).1 =
    [.nothing, .got (.fold ([0, 1, 2, 6, 4], [3, 5])), .value (.ok 1), .got (.fold ([2, 3, 0, 5, 6], [1, 4])), .got .stop] := by decide +kernel

-- and the others, without the seeded ones
example : (run rotNp world0 (prog147.filter (fun o => decide (opUses names147 o ≠ [])))).1 =
    [.drawn [0, 1, 2, 3], .nothing, .got (.fold ([2, 3, 0, 4, 5], [1, 6])), .value (.ok 0), .nothing, .got (.fold ([1, 2, 3, 4, 5], [0, 6]))] := by
  decide +kernel

example : ((prog147.zip (run rotNp world0 prog147).1).filter (fun p => decide (opUses names147 p.1 ≠ []))).map Prod.snd =
    (run rotNp world0 (prog147.filter (fun o => decide (opUses names147 o ≠ [])))).1 :=
  (C147_untouched rotNp names147 prog147 world0 (fun _ => rfl) wellNamed147).1

-- the hypotheses of the theorem about folds
example : sourceTargetShuffleSplit (List.replicate 7 ()) (.vec [1, 1, 1, 1, -2, -2, -2]) (.int 1) .none (pairs rotNp 4 3 2 (rotNp.seeded 3)) =
    .ok [([0, 1, 2, 6, 4], [3, 5]), ([2, 3, 0, 5, 6], [1, 4])] := by decide +kernel

-- `LeaveOneDomainOut` on two domains given as sources and as targets: the same permutations for both
example : leaveOneDomainOut (List.replicate 8 ()) (.vec [1, 1, -1, -1, 2, 2, -2, -2]) 10 (.int 1) .none [1, 0] (fun _ => ([1, 0], [0, 1])) =
    .ok [([0, 7], [1, 6]), ([4, 3], [5, 2])] := by decide +kernel

example : (run (R := Nat) rotNp world5 (.split 0 ⟨.lodo 10 (.int 1) .none, .int 1, List.replicate 8 (), [], .vec [1, 1, -1, -1, 2, 2, -2, -2]⟩ ::
      List.replicate 3 (.next 0))).1 =
    [.nothing, .got (.fold ([0, 7], [1, 6])), .got (.fold ([4, 3], [5, 2])), .got .stop] := by decide +kernel

-- programs after `np.random.seed`
example : (run (R := Nat) rotNp world0 [.reseed none 4, .draw none (.perm 3), .call (.mixval .none 3 (fun π => .ok (π.headD 0)))]).1 =
    (run rotNp world5 [.reseed none 4, .draw none (.perm 3), .call (.mixval .none 3 (fun π => .ok (π.headD 0)))]).1 :=
  C147_np_random_seed rotNp names147 4 _ world0 world5 (fun _ => rfl) (fun _ => rfl) (fun n c h => by simp at h)
    (by
      intro o ho c hc
      simp only [List.mem_cons, List.mem_nil_iff, or_false] at ho
      rcases ho with rfl | rfl <;> simpa [opUses, callUses, seedUses] using hc)

end Skada

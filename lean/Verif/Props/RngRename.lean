/-
C147, continued: it does not matter which shared generator plays which role.  In particular `random_state=None` after `np.random.seed(s)` is one object
`RandomState(s)` passed everywhere.
-/
import Verif.Props.RngCounts
import Verif.Spec.RngRename

namespace Skada

open Np Spec Rng

variable {γ R A B : Type}

namespace Rename

def srcAs : Option Nat → Src γ
  | none => .glob
  | some k => .inst k

def renSrc (ρ : Option Nat → Option Nat) : Src γ → Src γ
  | .glob => srcAs (ρ none)
  | .inst k => srcAs (ρ (some k))
  | .own g => .own g

def srcIn (U : Option Nat → Prop) : Src γ → Prop
  | .glob => U none
  | .inst k => U (some k)
  | .own _ => True

def seedIn (U : Option Nat → Prop) (s : Seed) : Prop := ∀ c, seedShared s = some c → U c

def renIter (ρ : Option Nat → Option Nat) : Iter γ → Iter γ
  | .fresh c => .fresh { c with seed := renSeed ρ c.seed }
  | .running s rest src => .running (renSeed ρ s) rest (renSrc ρ src)
  | .done => .done

def iterIn (U : Option Nat → Prop) : Iter γ → Prop
  | .fresh c => seedIn U c.seed
  | .running s _ src => seedIn U s ∧ srcIn U src
  | .done => True

def setShared (w : World γ) (c : Option Nat) (g : γ) : World γ :=
  match c with
  | none => { w with glob := g }
  | some k => { w with insts := Function.update w.insts k g }

structure Same (ρ : Option Nat → Option Nat) (U : Option Nat → Prop) (w w' : World γ) : Prop where
  val : ∀ c, U c → shared w' (ρ c) = shared w c
  made : w'.made = w.made
  its : ∀ n, w'.its n = (w.its n).map (renIter ρ)
  inU : ∀ n it, w.its n = some it → iterIn U it

variable {ρ : Option Nat → Option Nat} {U : Option Nat → Prop}

theorem shared_set (w : World γ) (c d : Option Nat) (g : γ) : shared (setShared w c g) d = if d = c then g else shared w d := by
  cases c <;> cases d <;> simp [shared, setShared, Function.update_apply]

theorem set_its (w : World γ) (c : Option Nat) (g : γ) : (setShared w c g).its = w.its := by cases c <;> rfl

theorem set_made (w : World γ) (c : Option Nat) (g : γ) : (setShared w c g).made = w.made := by cases c <;> rfl

theorem Same.set (hρ : ∀ a b, U a → U b → ρ a = ρ b → a = b) {w w' : World γ} (h : Same ρ U w w') {c : Option Nat} (hc : U c) (g : γ) :
    Same ρ U (setShared w c g) (setShared w' (ρ c) g) where
  val d hd := by
    rw [shared_set, shared_set]
    by_cases e : d = c
    · rw [if_pos e, e, if_pos rfl]
    · rw [if_neg e, if_neg (fun e' => e (hρ d c hd hc e')), h.val d hd]
  made := by rw [set_made, set_made, h.made]
  its n := by rw [set_its, set_its, h.its]
  inU n it e := h.inU n it (by rwa [set_its] at e)

theorem run_srcAs (c : Option Nat) (m : Draw γ A) (w : World γ) :
    (srcAs c : Src γ).run m w = ((m (shared w c)).1, srcAs c, setShared w c (m (shared w c)).2) := by cases c <;> rfl

theorem renSrc_as (c : Option Nat) : renSrc ρ (srcAs c : Src γ) = srcAs (ρ c) := by cases c <;> rfl

theorem src_cases (src : Src γ) : (∃ g, src = .own g) ∨ ∃ c, src = srcAs c := by
  rcases src with _ | g | k
  · exact .inr ⟨none, rfl⟩
  · exact .inl ⟨g, rfl⟩
  · exact .inr ⟨some k, rfl⟩

theorem srcIn_as {c : Option Nat} : srcIn U (srcAs c : Src γ) ↔ U c := by cases c <;> rfl

theorem Same.run (hρ : ∀ a b, U a → U b → ρ a = ρ b → a = b) {w w' : World γ} (h : Same ρ U w w') {src : Src γ} (hs : srcIn U src) (m : Draw γ A) :
    ((renSrc ρ src).run m w').1 = (src.run m w).1 ∧ ((renSrc ρ src).run m w').2.1 = renSrc ρ (src.run m w).2.1 ∧
      srcIn U (src.run m w).2.1 ∧ Same ρ U (src.run m w).2.2 ((renSrc ρ src).run m w').2.2 := by
  rcases src_cases src with ⟨g, rfl⟩ | ⟨c, rfl⟩
  · exact ⟨rfl, rfl, trivial, h⟩
  · have hc := srcIn_as.1 hs
    rw [renSrc_as, run_srcAs, run_srcAs, h.val c hc]
    exact ⟨rfl, (renSrc_as c).symm, hs, h.set hρ hc _⟩

theorem check_ren (np : Numpy γ) (s : Seed) : checkRandomState np (renSeed ρ s) = (checkRandomState np s).map (renSrc ρ) := by
  rcases s with _ | s | k | _
  · simp only [renSeed, seedShared, Option.map_some]
    rcases h : ρ none with _ | j <;> simp [checkRandomState, Except.map, renSrc, h, srcAs]
  · simp only [renSeed, seedShared, Option.map_none, checkRandomState]
    split_ifs <;> rfl
  · simp only [renSeed, seedShared, Option.map_some]
    rcases h : ρ (some k) with _ | j <;> simp [checkRandomState, Except.map, renSrc, h, srcAs]
  · rfl

theorem check_in {np : Numpy γ} {s : Seed} (hs : seedIn U s) {src : Src γ} (h : checkRandomState np s = .ok src) : srcIn U src := by
  rcases s with _ | s | k | _
  · cases h; exact hs none rfl
  · simp only [checkRandomState] at h
    split_ifs at h
    cases h; trivial
  · cases h; exact hs (some k) rfl
  · cases h

/-- Two computations do the same in corresponding situations. -/
def Ren (ρ : Option Nat → Option Nat) (U : Option Nat → Prop) (f f' : World γ → A × World γ) : Prop :=
  ∀ w w', Same ρ U w w' → (f' w').1 = (f w).1 ∧ Same ρ U (f w).2 (f' w').2

theorem Ren.const (a : A) : Ren ρ U (fun w : World γ => (a, w)) (fun w => (a, w)) := fun _ _ h => ⟨rfl, h⟩

theorem Ren.andThen {m m' : World γ → Py A × World γ} {f f' : A → World γ → Py B × World γ} (hm : Ren ρ U m m') (hf : ∀ a, Ren ρ U (f a) (f' a)) :
    Ren ρ U (Rng.andThen m f) (Rng.andThen m' f') := by
  intro w w' h
  obtain ⟨h1, h2⟩ := hm w w' h
  simp only [Rng.andThen, h1]
  rcases (m w).1 with e | a
  · exact ⟨rfl, h2⟩
  · exact hf a _ _ h2

theorem Ren.forEach {T : Type} {f f' : T → World γ → Py A × World γ} (hf : ∀ t, Ren ρ U (f t) (f' t)) :
    ∀ ts : List T, Ren ρ U (Rng.forEach f ts) (Rng.forEach f' ts)
  | [] => Ren.const _
  | t :: ts => (hf t).andThen (fun _ => (Ren.forEach hf ts).andThen (fun _ => Ren.const _))

theorem Ren.withRng (hρ : ∀ a b, U a → U b → ρ a = ρ b → a = b) (np : Numpy γ) {s : Seed} (hs : seedIn U s) (m : Draw γ (Py A)) :
    Ren ρ U (Rng.withRng np s m) (Rng.withRng np (renSeed ρ s) m) := by
  intro w w' h
  simp only [Rng.withRng, check_ren]
  rcases hc : checkRandomState np s with e | src
  · exact ⟨rfl, h⟩
  · obtain ⟨h1, _, _, h4⟩ := h.run hρ (check_in hs hc) m
    exact ⟨h1, h4⟩

theorem Ren.withNew (np : Numpy γ) (s : Seed) (m : Draw γ (Py A)) : Ren ρ U (Rng.withNew np s m) (Rng.withNew np s m) := by
  intro w w' h
  rcases s with _ | s | k | _
  · refine ⟨by simp only [Rng.withNew, h.made], ?_⟩
    exact ⟨fun c hc => by have := h.val c hc; cases c <;> rcases e : ρ _ <;> simpa [Rng.withNew, shared, e] using this,
      congrArg (· + 1) h.made, h.its, h.inU⟩
  · simp only [Rng.withNew]
    split_ifs
    · exact ⟨rfl, h⟩
    · exact ⟨rfl, h⟩
  · exact ⟨rfl, h⟩
  · exact ⟨rfl, h⟩

theorem Ren.call (hρ : ∀ a b, U a → U b → ρ a = ρ b → a = b) (np : Numpy γ) (c : Call γ R) (hs : ∀ s, callSeed c = some s → seedIn U s)
    (hb : isBlobsNone (.call c) = false) : Ren ρ U (c.exec np) ((renCall ρ c).exec np) := by
  cases c with
  | dev s n k => exact Ren.withRng hρ np (hs s rfl) _
  | mixval s n k => exact Ren.withRng hρ np (hs s rfl) _
  | subsample s n keep k => exact Ren.withRng hρ np (hs s rfl) _
  | domainSubsample s n keep a m => exact Ren.withRng hρ np (hs s rfl) _
  | stratSubsample s X y sd keep k => exact Ren.withRng hρ np (hs s rfl) _
  | subspace s a b k => exact Ren.withRng hρ np (hs s rfl) _
  | shuffleArrays s n k => exact Ren.withRng hρ np (hs s rfl) _
  | generate s m => exact Ren.withNew np s m
  | kliep s a best k =>
    have hs := hs s rfl
    simp only [renCall, Call.exec]
    refine Ren.andThen ?_ (fun b => Ren.andThen (Ren.withRng hρ np hs _) (fun cs => Ren.const _))
    rcases a.gammas with _ | c
    · exact Ren.const _
    · refine Ren.andThen (Ren.andThen (Ren.withRng hρ np hs _) (fun _ => ?_)) (fun l => Ren.const _)
      exact Ren.forEach (fun _ => Ren.forEach (fun _ => Ren.withRng hρ np hs _) _) _
  | blobs s m e k =>
    rcases s with _ | s | j | _
    · cases hb
    · have hi : seedIn U (.int s) := fun c h => by cases h
      exact Ren.andThen (Ren.withRng hρ np hi m) (fun b => Ren.withNew np (.int s) _)
    · exact fun w w' h => ⟨rfl, h⟩
    · exact fun w w' h => ⟨rfl, h⟩

/-- Two generator functions give the same and go on alike. -/
def RenIt (ρ : Option Nat → Option Nat) (U : Option Nat → Prop) (r r' : Got × Iter γ × World γ) : Prop :=
  r'.1 = r.1 ∧ r'.2.1 = renIter ρ r.2.1 ∧ iterIn U r.2.1 ∧ Same ρ U r.2.2 r'.2.2

theorem advance_ren (hρ : ∀ a b, U a → U b → ρ a = ρ b → a = b) (np : Numpy γ) {s : Seed} (hs : seedIn U s) (rest : List (Stage γ)) {src : Src γ}
    (hsrc : srcIn U src) {w w' : World γ} (h : Same ρ U w w') : RenIt ρ U (advance np s rest src w) (advance np (renSeed ρ s) rest (renSrc ρ src) w') := by
  rcases rest with _ | ⟨⟨again, m⟩, rest⟩
  · exact ⟨rfl, rfl, trivial, h⟩
  · have e : (if again then checkRandomState np (renSeed ρ s) else .ok (renSrc ρ src)) =
        (if again then checkRandomState np s else .ok src : Py (Src γ)).map (renSrc ρ) := by
      cases again
      · rfl
      · exact check_ren np s
    have i : ∀ src', (if again then checkRandomState np s else .ok src : Py (Src γ)) = .ok src' → srcIn U src' := by
      cases again
      · intro src' h; cases h; exact hsrc
      · exact fun src' h => check_in hs h
    simp only [advance, e]
    rcases hc : (if again then checkRandomState np s else .ok src : Py (Src γ)) with e | src'
    · exact ⟨rfl, rfl, trivial, h⟩
    · obtain ⟨h1, h2, h3, h4⟩ := h.run hρ (i _ hc) m
      simp only [Except.map, h1]
      rcases (src'.run m w).1 with e | f
      · exact ⟨rfl, rfl, trivial, h4⟩
      · exact ⟨rfl, by simp only [renIter, h2], ⟨hs, h3⟩, h4⟩

theorem start_ren (hρ : ∀ a b, U a → U b → ρ a = ρ b → a = b) (np : Numpy γ) (c : SplitCall) (hs : seedIn U c.seed) {w w' : World γ} (h : Same ρ U w w') :
    (start np { c with seed := renSeed ρ c.seed } w').1 = (start np c w).1.map (fun p => (p.1, renSrc ρ p.2)) ∧
      (∀ p, (start np c w).1 = .ok p → srcIn U p.2) ∧ Same ρ U (start np c w).2 (start np { c with seed := renSeed ρ c.seed } w').2 := by
  obtain ⟨sp, seed, X, y, sd⟩ := c
  cases sp with
  | sourceTarget n test train =>
    simp only [start]
    rcases checkXDomain X sd {} with e | ⟨X', sd'⟩
    · exact ⟨rfl, fun p hp => (by cases hp), h⟩
    dsimp only
    rcases bothSizes (sourceIdx sd').length (targetIdx sd').length test train with e | sizes
    · exact ⟨rfl, fun p hp => (by cases hp), h⟩
    dsimp only
    rw [check_ren]
    rcases hc : checkRandomState np seed with e | src
    · exact ⟨rfl, fun p hp => (by cases hp), h⟩
    · exact ⟨rfl, fun p hp => (by cases hp; exact check_in hs hc), h⟩
  | lodo maxSplits test train =>
    simp only [start]
    rcases checkXDomain X sd {} with e | ⟨X', sd'⟩
    · exact ⟨rfl, fun p hp => (by cases hp), h⟩
    dsimp only
    rw [check_ren]
    rcases hc : checkRandomState np seed with e | src
    · exact ⟨rfl, fun p hp => (by cases hp), h⟩
    obtain ⟨h1, h2, h3, h4⟩ := h.run hρ (check_in hs hc) (np.ask (.perm (lodoDomains sd').length))
    simp only [Except.map, h1, h2]
    rcases Np.take (lodoDomains sd') (lodoOrder (lodoDomains sd').length maxSplits (src.run (np.ask (.perm (lodoDomains sd').length)) w).1) with e | ts
    · exact ⟨rfl, fun p hp => (by cases hp), h4⟩
    · exact ⟨rfl, fun p hp => (by cases hp; exact h3), h4⟩
  | stratified n test train =>
    simp only [start]
    rcases stratChecks X y sd test train with e | ⟨groups, a, b⟩
    · exact ⟨rfl, fun p hp => (by cases hp), h⟩
    dsimp only
    rw [check_ren]
    rcases hc : checkRandomState np seed with e | src
    · exact ⟨rfl, fun p hp => (by cases hp), h⟩
    · exact ⟨rfl, fun p hp => (by cases hp; exact check_in hs hc), h⟩
  | domain n us test train =>
    simp only [start]
    by_cases hu : ¬ (0 ≤ us ∧ us ≤ 1)
    · simp only [if_pos hu]
      exact ⟨rfl, fun p hp => (by cases hp), h⟩
    simp only [if_neg hu]
    rcases checkXDomain X sd {} with e | ⟨X', sd'⟩
    · exact ⟨rfl, fun p hp => (by cases hp), h⟩
    dsimp only
    rcases extractDomainsIndicesSplit sd' with e | ⟨dS, dT⟩
    · exact ⟨rfl, fun p hp => (by cases hp), h⟩
    dsimp only
    rw [check_ren]
    rcases hc : checkRandomState np seed with e | src
    · exact ⟨rfl, fun p hp => (by cases hp), h⟩
    · exact ⟨rfl, fun p hp => (by cases hp; exact check_in hs hc), h⟩

theorem next_ren (hρ : ∀ a b, U a → U b → ρ a = ρ b → a = b) (np : Numpy γ) (it : Iter γ) (hi : iterIn U it) {w w' : World γ} (h : Same ρ U w w') :
    RenIt ρ U (it.next np w) ((renIter ρ it).next np w') := by
  rcases it with c | ⟨s, rest, src⟩ | _
  · obtain ⟨h1, h2, h3⟩ := start_ren hρ np c hi h
    simp only [Iter.next, renIter, h1]
    rcases hc : (start np c w).1 with e | ⟨rest, src⟩
    · exact ⟨rfl, rfl, trivial, h3⟩
    · exact advance_ren hρ np hi rest (h2 _ hc) h3
  · exact advance_ren hρ np hi.1 rest hi.2 h
  · exact ⟨rfl, rfl, trivial, h⟩

theorem Same.bind {w w' : World γ} (h : Same ρ U w w') (n : Nat) (it : Iter γ) (hi : iterIn U it) :
    Same ρ U { w with its := Function.update w.its n (some it) } { w' with its := Function.update w'.its n (some (renIter ρ it)) } where
  val c hc := by have := h.val c hc; cases c <;> rcases e : ρ _ <;> simpa [shared, e] using this
  made := h.made
  its m := by
    by_cases e : m = n
    · subst e; simp
    · simp [Function.update_of_ne e, h.its m]
  inU m it' e := by
    by_cases e' : m = n
    · subst e'
      simp only [Function.update_self, Option.some.injEq] at e
      exact e ▸ hi
    · simp only [Function.update_of_ne e'] at e
      exact h.inU m it' e

theorem exec_ren (hρ : ∀ a b, U a → U b → ρ a = ρ b → a = b) (np : Numpy γ) (o : Op γ R) (ho : ∀ c, opShared o = some c → U c)
    (hb : isBlobsNone o = false) : Ren ρ U (o.exec np) ((renOp ρ o).exec np) := by
  intro w w' h
  have drawE : ∀ (k : Option Nat) (q : Query) (w : World γ),
      (Op.draw k q : Op γ R).exec np w = (.drawn (np.ask q (shared w k)).1, setShared w k (np.ask q (shared w k)).2) := by
    intro k q w; cases k <;> rfl
  have seedE : ∀ (k : Option Nat) (s : Int) (w : World γ), (Op.reseed k s : Op γ R).exec np w = (.nothing, setShared w k (np.seeded s)) := by
    intro k q w; cases k <;> rfl
  cases o with
  | draw k q =>
    have hk := ho k rfl
    simp only [renOp, drawE, h.val k hk]
    exact ⟨trivial, h.set hρ hk _⟩
  | reseed k s =>
    simp only [renOp, seedE]
    exact ⟨trivial, h.set hρ (ho k rfl) _⟩
  | split n c => exact ⟨rfl, h.bind n (.fresh c) ho⟩
  | next n =>
    simp only [renOp, Op.exec, h.its n]
    rcases hi : w.its n with _ | it
    · exact ⟨rfl, h⟩
    · obtain ⟨h1, h2, h3, h4⟩ := next_ren hρ np it (h.inU n it hi) h
      simp only [Option.map_some, h1, h2]
      exact ⟨trivial, h4.bind n _ h3⟩
  | call c =>
    obtain ⟨h1, h2⟩ := Ren.call hρ np c (fun s e c' hc => ho c' (by simp [opShared, e, hc])) hb w w' h
    exact ⟨congrArg Obs.value h1, h2⟩

theorem run_ren (hρ : ∀ a b, U a → U b → ρ a = ρ b → a = b) (np : Numpy γ) : ∀ (ops : List (Op γ R)), (∀ o ∈ ops, ∀ c, opShared o = some c → U c) →
    (∀ o ∈ ops, isBlobsNone o = false) → Ren ρ U (fun w => run np w ops) (fun w => run np w (ops.map (renOp ρ)))
  | [], _, _ => fun _ _ h => ⟨rfl, h⟩
  | o :: ops, ho, hb => fun w w' h => by
    obtain ⟨h1, h2⟩ := exec_ren hρ np o (ho o List.mem_cons_self) (hb o List.mem_cons_self) w w' h
    obtain ⟨h3, h4⟩ := run_ren hρ np ops (fun o h => ho o (List.mem_cons_of_mem _ h)) (fun o h => hb o (List.mem_cons_of_mem _ h)) _ _ h2
    exact ⟨by simp only [List.map_cons, run, h1]; exact congrArg _ h3, h4⟩

end Rename

/-- **C147, renaming.**  A program without `make_shifted_blobs(random_state=None)` that uses the shared generators in `U` shows the same folds, scores,
samples and draws when every one of them, say `c`, is replaced by `ρ c` (in the `random_state` arguments, in draws of the user and in `np.random.seed`),
provided that different generators stay different and that `ρ c` begins in the state of `c`.  They also end in the same states. -/
theorem C147_renamed (np : Numpy γ) (ρ : Option Nat → Option Nat) (U : Option Nat → Prop) (hρ : ∀ a b, U a → U b → ρ a = ρ b → a = b)
    (ops : List (Op γ R)) (hU : ∀ o ∈ ops, ∀ c, opShared o = some c → U c) (hb : ∀ o ∈ ops, isBlobsNone o = false) (w w' : World γ)
    (hw : NoIters w) (hw' : NoIters w') (hm : w'.made = w.made) (h : ∀ c, U c → shared w' (ρ c) = shared w c) :
    (run np w' (ops.map (renOp ρ))).1 = (run np w ops).1 ∧
      ∀ c, U c → shared (run np w' (ops.map (renOp ρ))).2 (ρ c) = shared (run np w ops).2 c := by
  obtain ⟨h1, h2⟩ := Rename.run_ren hρ np ops hU hb w w' ⟨h, hm, fun n => by rw [hw n, hw' n]; rfl, fun n it e => by rw [hw n] at e; cases e⟩
  exact ⟨h1, h2.val⟩

/-- **C147, `None` is one shared object.**  `np.random.seed(s)` followed by a program that uses `random_state=None` (and integers) shows what
`rng = np.random.RandomState(s)` followed by the same program with `random_state=rng` instead of `None` shows, in the same situation. -/
theorem C147_none_is_object (np : Numpy γ) (s : Int) (k : Nat) (ops : List (Op γ R)) (hU : ∀ o ∈ ops, ∀ c, opShared o = some c → c = none)
    (hb : ∀ o ∈ ops, isBlobsNone o = false) (w : World γ) (hw : NoIters w) :
    (run np w (.reseed (some k) s :: ops.map (renOp (fun _ => some k)))).1 = (run np w (.reseed none s :: ops)).1 := by
  have := (C147_renamed np (fun _ => some k) (fun c => c = none) (fun a b ha hb _ => ha.trans hb.symm) ops hU hb
    ((Op.reseed none s : Op γ R).exec np w).2 ((Op.reseed (some k) s : Op γ R).exec np w).2 hw hw rfl
    (fun c hc => by subst hc; simp [shared, Op.exec])).1
  simp only [run, this]
  rfl

/-- **C147 (`make_shifted_blobs` is the exception).**  A program with `make_shifted_blobs(random_state=None)` does not have this property: passing the object
instead of `None` is an error there. -/
theorem C147_renamed_counterexample :
    ∃ (np : Numpy Nat) (w : World Nat) (o : Seed → Op Nat Nat), NoIters w ∧ (run np w [.reseed none 3, o .none, .draw none (.perm 3)]).1 ≠
        (run np w [.reseed (some 1) 3, o .none, .draw (some 1) (.perm 3)]).1 ∧
      (run np w [.reseed (some 1) 3, o (.inst 1)]).1 = [.nothing, .value (.error .typeError)] :=
  ⟨rotNp, world0, fun s => .call (.blobs s (fun g => (.ok g, g + 1)) none (fun b _ => .ok b)), fun _ => rfl, by decide +kernel, by decide +kernel⟩

/-! ### Concrete cases -/

/-- Two splits on `None` consumed in turn, KLIEP with two candidates, the scorer DEV with an integer, and the user's own draws. -/
def progNone : List (Op Nat Nat) :=
  [.split 0 (cv .none), .split 1 (cv .none), .next 0, .draw none (.perm 3), .next 1,
   .call (.kliep .none ⟨4, 2, [[0, 1], [2, 3]], some 2⟩ List.length (fun b cs => .ok (b + cs.sum))),
   .call (.dev (.int 1) 3 (fun π => .ok (π.headD 0))), .next 0, .call (.generate .none (fun g => (.ok g, g))), .next 1]

example : (run rotNp world5 (.reseed (some 2) 3 :: progNone.map (renOp (fun _ => some 2)))).1 = (run rotNp world5 (.reseed none 3 :: progNone)).1 :=
  C147_none_is_object rotNp 3 2 progNone (by
      intro o ho c hc
      simp only [progNone, List.mem_cons, List.mem_nil_iff, or_false] at ho
      rcases ho with rfl | rfl | rfl | rfl | rfl | rfl | rfl | rfl | rfl | rfl <;>
        simp_all [opShared, callSeed, seedShared, cv])
    (by
      intro o ho
      simp only [progNone, List.mem_cons, List.mem_nil_iff, or_false] at ho
      rcases ho with rfl | rfl | rfl | rfl | rfl | rfl | rfl | rfl | rfl | rfl <;> rfl) world5 (fun _ => rfl)

example : (run rotNp world5 (.reseed none 3 :: progNone)).1.take 6 =
    [.nothing, .nothing, .nothing, .got (.fold ([0, 1, 2, 6, 4], [3, 5])), .drawn [2, 0, 1], .got (.fold ([3, 0, 1, 6, 4], [2, 5]))] := by
  decide +kernel

-- two objects exchanged
example : (run (R := Nat) rotNp ⟨5, fun k => if k = 0 then 1 else if k = 1 then 0 else k, 0, fun _ => none⟩
      [.draw (some 1) (.perm 3), .split 0 (cv (.inst 0)), .next 0, .draw (some 1) (.perm 3)]).1 =
    (run rotNp world0 [.draw (some 0) (.perm 3), .split 0 (cv (.inst 1)), .next 0, .draw (some 0) (.perm 3)]).1 :=
  (C147_renamed rotNp (Equiv.swap (some 0) (some 1)) (fun c => c = some 0 ∨ c = some 1) (fun _ _ _ _ e => (Equiv.swap (some 0) (some 1)).injective e)
    [.draw (some 0) (.perm 3), .split 0 (cv (.inst 1)), .next 0, .draw (some 0) (.perm 3)]
    (by
      intro o ho c hc
      simp only [List.mem_cons, List.mem_nil_iff, or_false] at ho
      rcases ho with rfl | rfl | rfl | rfl <;> simp_all [opShared, seedShared, cv])
    (by
      intro o ho
      simp only [List.mem_cons, List.mem_nil_iff, or_false] at ho
      rcases ho with rfl | rfl | rfl | rfl <;> rfl)
    world0 ⟨5, fun k => if k = 0 then 1 else if k = 1 then 0 else k, 0, fun _ => none⟩ (fun _ => rfl) (fun _ => rfl) rfl
    (by rintro c (rfl | rfl) <;> simp [shared, world0])).1

end Skada

import Verif.Spec.Rng

namespace Skada.Rng

open Skada.Spec

variable {γ R A B : Type}

/-- Agreement at the places in `C` and on the generator objects with names in `N`. -/
structure Agree (N : Nat → Bool) (C : Chan → Bool) (w w' : World γ) : Prop where
  at_ : ∀ c, C c = true → SameAt w w' c
  its : ∀ n, N n = true → w.its n = w'.its n

theorem Agree.refl (N : Nat → Bool) (C : Chan → Bool) (w : World γ) : Agree N C w w :=
  ⟨fun c _ => by cases c <;> rfl, fun _ _ => rfl⟩

theorem sameAt_symm {w w' : World γ} {c : Chan} (h : SameAt w w' c) : SameAt w' w c := by
  cases c <;> exact Eq.symm h

theorem sameAt_trans {w w' w'' : World γ} {c : Chan} (h : SameAt w w' c) (h' : SameAt w' w'' c) : SameAt w w'' c := by
  cases c <;> exact Eq.trans h h'

theorem Agree.symm {N : Nat → Bool} {C : Chan → Bool} {w w' : World γ} (h : Agree N C w w') : Agree N C w' w :=
  ⟨fun c hc => sameAt_symm (h.at_ c hc), fun n hn => (h.its n hn).symm⟩

theorem Agree.trans {N : Nat → Bool} {C : Chan → Bool} {w w' w'' : World γ} (h : Agree N C w w') (h' : Agree N C w' w'') : Agree N C w w'' :=
  ⟨fun c hc => sameAt_trans (h.at_ c hc) (h'.at_ c hc), fun n hn => (h.its n hn).trans (h'.its n hn)⟩

/-- A computation that draws only from `us` and leaves the generator objects alone. -/
structure Local (us : List Chan) (m : World γ → A × World γ) : Prop where
  inn : ∀ N C w w', us.all C = true → Agree N C w w' → (m w).1 = (m w').1 ∧ Agree N C (m w).2 (m w').2
  out : ∀ N C w, us.all (fun c => !C c) = true → Agree N C (m w).2 w
  its : ∀ w, (m w).2.its = w.its

theorem Local.const (us : List Chan) (a : A) : Local us (fun w : World γ => (a, w)) :=
  ⟨fun _ _ _ _ _ h => ⟨rfl, h⟩, fun N C w _ => Agree.refl N C w, fun _ => rfl⟩

theorem Local.mono {us us' : List Chan} {m : World γ → A × World γ} (h : Local us m) (hs : us ⊆ us') : Local us' m := by
  refine ⟨fun N C w w' hu ha => h.inn N C w w' ?_ ha, fun N C w hu => h.out N C w ?_, h.its⟩
  · rw [List.all_eq_true] at hu ⊢
    exact fun c hc => hu c (hs hc)
  · rw [List.all_eq_true] at hu ⊢
    exact fun c hc => hu c (hs hc)

theorem Local.andThen {us : List Chan} {m : World γ → Py A × World γ} {f : A → World γ → Py B × World γ} (hm : Local us m)
    (hf : ∀ a, Local us (f a)) : Local us (andThen m f) := by
  refine ⟨fun N C w w' hu ha => ?_, fun N C w hu => ?_, fun w => ?_⟩
  · obtain ⟨h1, h2⟩ := hm.inn N C w w' hu ha
    unfold Rng.andThen
    rw [← h1]
    rcases (m w).1 with e | a
    · exact ⟨rfl, h2⟩
    · exact (hf a).inn N C _ _ hu h2
  · have h := hm.out N C w hu
    unfold Rng.andThen
    rcases (m w).1 with e | a
    · exact h
    · exact ((hf a).out N C _ hu).trans h
  · have h := hm.its w
    unfold Rng.andThen
    rcases (m w).1 with e | a
    · exact h
    · exact ((hf a).its _).trans h

theorem Local.forEach {T : Type} {us : List Chan} {f : T → World γ → Py A × World γ} (hf : ∀ t, Local us (f t)) :
    ∀ l : List T, Local us (forEach f l)
  | [] => Local.const us _
  | t :: ts => (hf t).andThen fun _ => (Local.forEach hf ts).andThen fun _ => Local.const us _

/-- The place a held generator draws from. -/
def srcUses : Src γ → List Chan
  | .glob => [.glob]
  | .inst k => [.inst k]
  | .own _ => []

theorem update_inst_same {w w' : World γ} {k : Nat} {m : Draw γ A} (hk : w.insts k = w'.insts k) (c : Chan) (h : SameAt w w' c) :
    SameAt { w with insts := Function.update w.insts k (m (w.insts k)).2 } { w' with insts := Function.update w'.insts k (m (w'.insts k)).2 } c := by
  cases c with
  | glob => exact h
  | os => exact h
  | inst j =>
    show Function.update w.insts k _ j = Function.update w'.insts k _ j
    by_cases hj : j = k
    · subst hj; simp [hk]
    · simp only [Function.update_of_ne hj]; exact h

theorem update_inst_out {w : World γ} {k : Nat} {g : γ} (c : Chan) (h : c ≠ .inst k) :
    SameAt { w with insts := Function.update w.insts k g } w c := by
  cases c with
  | glob => rfl
  | os => rfl
  | inst j =>
    show Function.update w.insts k _ j = w.insts j
    exact Function.update_of_ne (fun e => h (by rw [e])) _ _

theorem Src.run_local (src : Src γ) (m : Draw γ A) : Local (srcUses src) (fun w => (((src.run m w).1, (src.run m w).2.1), (src.run m w).2.2)) := by
  cases src with
  | own g => exact Local.const (srcUses (.own g)) ((m g).1, Src.own (m g).2)
  | glob =>
    refine ⟨fun N C w w' hu ha => ?_, fun N C w hu => ?_, fun w => rfl⟩
    · have hg : w.glob = w'.glob := ha.at_ .glob (by simpa [srcUses] using hu)
      refine ⟨by simp [Src.run, hg], ⟨fun c hc => ?_, ha.its⟩⟩
      cases c with
      | glob => simp [SameAt, Src.run, hg]
      | inst k => exact ha.at_ _ hc
      | os => exact ha.at_ _ hc
    · refine ⟨fun c hc => ?_, fun _ _ => rfl⟩
      cases c with
      | glob => simp [srcUses, hc] at hu
      | inst k => rfl
      | os => rfl
  | inst k =>
    refine ⟨fun N C w w' hu ha => ?_, fun N C w hu => ?_, fun w => rfl⟩
    · have hg : w.insts k = w'.insts k := ha.at_ (.inst k) (by simpa [srcUses] using hu)
      refine ⟨by simp [Src.run, hg], ⟨fun c hc => ?_, ha.its⟩⟩
      exact update_inst_same hg c (ha.at_ c hc)
    · refine ⟨fun c hc => ?_, fun _ _ => rfl⟩
      refine update_inst_out c ?_
      rintro rfl
      simp [srcUses, hc] at hu

theorem check_uses {np : Numpy γ} {seed : Seed} {src : Src γ} (h : checkRandomState np seed = .ok src) : srcUses src = seedUses seed := by
  cases seed with
  | none => cases h; rfl
  | inst k => cases h; rfl
  | other => cases h
  | int s =>
    have h' : (if 0 ≤ s ∧ s < 4294967296 then .ok (.own (np.seeded s)) else .error .valueError : Py (Src γ)) = .ok src := h
    split_ifs at h'
    cases h'
    rfl

theorem withRng_local (np : Numpy γ) (seed : Seed) (m : Draw γ (Py A)) : Local (seedUses seed) (withRng np seed m) := by
  unfold withRng
  rcases h : checkRandomState np seed with e | src
  · exact Local.const _ _
  · rw [← check_uses h]
    have := Src.run_local src m
    exact ⟨fun N C w w' hu ha => ⟨(Prod.mk.inj (this.inn N C w w' hu ha).1).1, (this.inn N C w w' hu ha).2⟩, this.out, this.its⟩

theorem withNew_local (np : Numpy γ) (seed : Seed) (m : Draw γ (Py A)) : Local (newUses seed) (withNew np seed m) := by
  cases seed with
  | none =>
    refine ⟨fun N C w w' hu ha => ?_, fun N C w hu => ?_, fun w => rfl⟩
    · have hg : w.made = w'.made := ha.at_ .os (by simpa [newUses] using hu)
      refine ⟨by simp [withNew, hg], ⟨fun c hc => ?_, ha.its⟩⟩
      cases c with
      | os => simp [SameAt, withNew, hg]
      | inst k => exact ha.at_ _ hc
      | glob => exact ha.at_ _ hc
    · refine ⟨fun c hc => ?_, fun _ _ => rfl⟩
      cases c with
      | os => simp [newUses, hc] at hu
      | inst k => rfl
      | glob => rfl
  | int s =>
    unfold withNew
    by_cases hs : 0 ≤ s ∧ s < 4294967296
    · simp only [hs, and_self, if_true]; exact Local.const _ _
    · simp only [hs, if_false]; exact Local.const _ _
  | inst k => exact Local.const _ _
  | other => exact Local.const _ _

theorem call_local (np : Numpy γ) (c : Call γ R) : Local (callUses c) (c.exec np) := by
  cases c with
  | dev => exact withRng_local np _ _
  | mixval => exact withRng_local np _ _
  | subsample => exact withRng_local np _ _
  | domainSubsample => exact withRng_local np _ _
  | stratSubsample => exact withRng_local np _ _
  | subspace => exact withRng_local np _ _
  | shuffleArrays => exact withRng_local np _ _
  | generate => exact withNew_local np _ _
  | kliep seed a best k =>
    refine Local.andThen ?_ fun _ => Local.andThen (withRng_local np _ _) fun _ => Local.const _ _
    rcases a.gammas with _ | c
    · exact Local.const _ _
    · exact Local.andThen (Local.andThen (withRng_local np _ _) fun _ => Local.forEach (fun _ => Local.forEach (fun _ => withRng_local np _ _) _) _)
        fun _ => Local.const _ _
  | blobs seed m noise k =>
    cases seed with
    | inst k => exact Local.const _ _
    | other => exact Local.const _ _
    | none =>
      exact Local.andThen ((withRng_local np .none m).mono (by simp [seedUses, callUses]))
        fun _ => (withNew_local np .none _).mono (by simp [newUses, callUses])
    | int s =>
      exact Local.andThen ((withRng_local np (.int s) m).mono (by simp [seedUses]))
        fun _ => (withNew_local np (.int s) _).mono (by simp [newUses])

/-! ### Generator objects -/

theorem srcUses_run (src : Src γ) (m : Draw γ A) (w : World γ) : srcUses (src.run m w).2.1 = srcUses src := by
  cases src <;> rfl

/-- What a generator object uses, at most. -/
def IterUses (us : List Chan) : Iter γ → Prop
  | .fresh c => seedUses c.seed = us
  | .running seed _ src => seedUses seed = us ∧ srcUses src = us
  | .done => True

theorem advance_local (np : Numpy γ) (seed : Seed) (rest : List (Stage γ)) (src : Src γ) (us : List Chan) (h1 : seedUses seed = us)
    (h2 : srcUses src = us) :
    Local us (fun w => (((advance np seed rest src w).1, (advance np seed rest src w).2.1), (advance np seed rest src w).2.2)) ∧
    ∀ w, IterUses us (advance np seed rest src w).2.1 := by
  cases rest with
  | nil => exact ⟨Local.const us (Got.stop, Iter.done), fun _ => trivial⟩
  | cons s rest =>
    obtain ⟨again, m⟩ := s
    unfold advance
    have key : ∀ src : Src γ, srcUses src = us →
        Local us (fun w => (((match (src.run m w).1 with
          | .ok f => (Got.fold f, Iter.running seed rest (src.run m w).2.1, (src.run m w).2.2)
          | .error e => (Got.raised e, Iter.done, (src.run m w).2.2)).1,
          (match (src.run m w).1 with
          | .ok f => (Got.fold f, Iter.running seed rest (src.run m w).2.1, (src.run m w).2.2)
          | .error e => (Got.raised e, Iter.done, (src.run m w).2.2)).2.1),
          (match (src.run m w).1 with
          | .ok f => (Got.fold f, Iter.running seed rest (src.run m w).2.1, (src.run m w).2.2)
          | .error e => (Got.raised e, Iter.done, (src.run m w).2.2)).2.2)) ∧
        ∀ w, IterUses us (match (src.run m w).1 with
          | .ok f => (Got.fold f, Iter.running seed rest (src.run m w).2.1, (src.run m w).2.2)
          | .error e => (Got.raised e, Iter.done, (src.run m w).2.2)).2.1 := by
      intro src hsrc
      have hl := Src.run_local src m
      rw [hsrc] at hl
      refine ⟨⟨fun N C w w' hu ha => ?_, fun N C w hu => ?_, fun w => ?_⟩, fun w => ?_⟩
      · obtain ⟨e1, e2⟩ := hl.inn N C w w' hu ha
        have ea : (src.run m w).1 = (src.run m w').1 := (Prod.mk.inj e1).1
        have eb : (src.run m w).2.1 = (src.run m w').2.1 := (Prod.mk.inj e1).2
        simp only at e2
        rw [← ea, ← eb]
        rcases (src.run m w).1 with e | f
        · exact ⟨rfl, e2⟩
        · exact ⟨rfl, e2⟩
      · have := hl.out N C w hu
        simp only at this ⊢
        rcases (src.run m w).1 with e | f
        · exact this
        · exact this
      · have := hl.its w
        simp only at this ⊢
        rcases (src.run m w).1 with e | f
        · exact this
        · exact this
      · rcases (src.run m w).1 with e | f
        · trivial
        · exact ⟨h1, (srcUses_run src m w).trans hsrc⟩
    cases again with
    | false => exact key src h2
    | true =>
      simp only [if_true]
      rcases hc : checkRandomState np seed with e | src'
      · exact ⟨Local.const us (Got.raised e, Iter.done), fun _ => trivial⟩
      · exact key src' ((check_uses hc).trans h1)

theorem start_local (np : Numpy γ) (c : SplitCall) :
    Local (seedUses c.seed) (start np c) ∧ ∀ w rest src, (start np c w).1 = .ok (rest, src) → srcUses src = seedUses c.seed := by
  unfold start
  rcases c with ⟨sp, seed, X, y, sd⟩
  cases sp with
  | sourceTarget n test train =>
    simp only
    rcases checkXDomain X sd {} with e | ⟨X', sd'⟩
    · exact ⟨Local.const _ _, fun w r s h => by cases h⟩
    simp only
    rcases bothSizes (sourceIdx sd').length (targetIdx sd').length test train with e | sizes
    · exact ⟨Local.const _ _, fun w r s h => by cases h⟩
    simp only
    rcases hc : checkRandomState np seed with e | src
    · exact ⟨Local.const _ _, fun w r s h => by cases h⟩
    exact ⟨Local.const _ _, fun w r s h => by cases h; exact check_uses hc⟩
  | stratified n test train =>
    simp only
    rcases stratChecks X y sd test train with e | ⟨gr, a, b⟩
    · exact ⟨Local.const _ _, fun w r s h => by cases h⟩
    simp only
    rcases hc : checkRandomState np seed with e | src
    · exact ⟨Local.const _ _, fun w r s h => by cases h⟩
    exact ⟨Local.const _ _, fun w r s h => by cases h; exact check_uses hc⟩
  | domain n us test train =>
    simp only
    by_cases hus : 0 ≤ us ∧ us ≤ 1
    · simp only [hus, and_self, not_true_eq_false, if_false]
      rcases checkXDomain X sd {} with e | ⟨X', sd'⟩
      · exact ⟨Local.const _ _, fun w r s h => by cases h⟩
      simp only
      rcases extractDomainsIndicesSplit sd' with e | ⟨dS, dT⟩
      · exact ⟨Local.const _ _, fun w r s h => by cases h⟩
      simp only
      rcases hc : checkRandomState np seed with e | src
      · exact ⟨Local.const _ _, fun w r s h => by cases h⟩
      exact ⟨Local.const _ _, fun w r s h => by cases h; exact check_uses hc⟩
    · simp only [hus, not_false_eq_true, if_true]
      exact ⟨Local.const _ _, fun w r s h => by cases h⟩
  | lodo maxSplits test train =>
    simp only
    rcases checkXDomain X sd {} with e | ⟨X', sd'⟩
    · exact ⟨Local.const _ _, fun w r s h => by cases h⟩
    simp only
    rcases hc : checkRandomState np seed with e | src
    · exact ⟨Local.const _ _, fun w r s h => by cases h⟩
    simp only
    have hl := Src.run_local src (np.ask (.perm (lodoDomains sd').length))
    rw [check_uses hc] at hl
    refine ⟨⟨fun N C w w' hu ha => ?_, fun N C w hu => ?_, fun w => ?_⟩, fun w rest s h => ?_⟩
    · obtain ⟨e1, e2⟩ := hl.inn N C w w' hu ha
      have ea : (src.run (np.ask (.perm (lodoDomains sd').length)) w).1 = (src.run (np.ask (.perm (lodoDomains sd').length)) w').1 := (Prod.mk.inj e1).1
      have eb : (src.run (np.ask (.perm (lodoDomains sd').length)) w).2.1 = (src.run (np.ask (.perm (lodoDomains sd').length)) w').2.1 :=
        (Prod.mk.inj e1).2
      simp only at e2
      rw [← ea, ← eb]
      rcases Np.take (lodoDomains sd') (lodoOrder (lodoDomains sd').length maxSplits (src.run (np.ask (.perm (lodoDomains sd').length)) w).1) with e | ts
      · exact ⟨rfl, e2⟩
      · exact ⟨rfl, e2⟩
    · have := hl.out N C w hu
      simp only at this
      rcases Np.take (lodoDomains sd') (lodoOrder (lodoDomains sd').length maxSplits (src.run (np.ask (.perm (lodoDomains sd').length)) w).1) with e | ts
      · exact this
      · exact this
    · have := hl.its w
      simp only at this
      rcases Np.take (lodoDomains sd') (lodoOrder (lodoDomains sd').length maxSplits (src.run (np.ask (.perm (lodoDomains sd').length)) w).1) with e | ts
      · exact this
      · exact this
    · revert h
      rcases Np.take (lodoDomains sd') (lodoOrder (lodoDomains sd').length maxSplits (src.run (np.ask (.perm (lodoDomains sd').length)) w).1) with e | ts
      · intro h; cases h
      · intro h; cases h; exact (srcUses_run _ _ _).trans (check_uses hc)

theorem next_local (np : Numpy γ) (it : Iter γ) (us : List Chan) (h : IterUses us it) :
    Local us (fun w => (((it.next np w).1, (it.next np w).2.1), (it.next np w).2.2)) ∧ ∀ w, IterUses us (it.next np w).2.1 := by
  cases it with
  | done => exact ⟨Local.const us (Got.stop, Iter.done), fun _ => trivial⟩
  | running seed rest src => exact advance_local np seed rest src us h.1 h.2
  | fresh c =>
    have hc : seedUses c.seed = us := h
    obtain ⟨hl, hs⟩ := start_local np c
    rw [hc] at hl
    unfold Iter.next
    refine ⟨⟨fun N C w w' hu ha => ?_, fun N C w hu => ?_, fun w => ?_⟩, fun w => ?_⟩
    · obtain ⟨e1, e2⟩ := hl.inn N C w w' hu ha
      simp only
      rw [← e1]
      rcases hst : (start np c w).1 with e | ⟨rest, src⟩
      · exact ⟨rfl, e2⟩
      · exact (advance_local np c.seed rest src us hc ((hs w rest src hst).trans hc)).1.inn N C _ _ hu e2
    · have := hl.out N C w hu
      simp only
      rcases hst : (start np c w).1 with e | ⟨rest, src⟩
      · exact this
      · exact ((advance_local np c.seed rest src us hc ((hs w rest src hst).trans hc)).1.out N C _ hu).trans this
    · have := hl.its w
      simp only
      rcases hst : (start np c w).1 with e | ⟨rest, src⟩
      · exact this
      · exact ((advance_local np c.seed rest src us hc ((hs w rest src hst).trans hc)).1.its _).trans this
    · simp only
      rcases hst : (start np c w).1 with e | ⟨rest, src⟩
      · trivial
      · exact (advance_local np c.seed rest src us hc ((hs w rest src hst).trans hc)).2 _

/-! ### Operations -/

/-- The generator objects use what their names say. -/
def Inv (ch : Nat → List Chan) (w : World γ) : Prop := ∀ n it, w.its n = some it → IterUses (ch n) it

theorem inv_exec {np : Numpy γ} {ch : Nat → List Chan} {w : World γ} (h : Inv ch w) (o : Op γ R)
    (ho : ∀ n c, o = .split n c → seedUses c.seed = ch n) : Inv ch (o.exec np w).2 := by
  cases o with
  | draw k q => cases k <;> exact h
  | reseed k q => cases k <;> exact h
  | split n c =>
    intro m it hm
    simp only [Op.exec] at hm
    by_cases e : m = n
    · subst e
      rw [Function.update_self] at hm
      cases hm
      exact ho m c rfl
    · rw [Function.update_of_ne e] at hm
      exact h m it hm
  | next n =>
    intro m it hm
    simp only [Op.exec] at hm
    rcases hit : w.its n with _ | it0
    · rw [hit] at hm; exact h m it hm
    · rw [hit] at hm
      simp only at hm
      have hn := next_local np it0 (ch n) (h n it0 hit)
      by_cases e : m = n
      · subst e
        rw [Function.update_self] at hm
        cases hm
        exact hn.2 w
      · rw [Function.update_of_ne e, show (it0.next np w).2.2.its = w.its from hn.1.its w] at hm
        exact h m it hm
  | call c =>
    intro m it hm
    simp only [Op.exec] at hm
    rw [(call_local np c).its w] at hm
    exact h m it hm

/-- The generator object an operation is about. -/
def opName : Op γ R → Option Nat
  | .split n _ | .next n => some n
  | _ => none

theorem exec_inside {np : Numpy γ} {ch : Nat → List Chan} {N : Nat → Bool} {C : Chan → Bool} {w w' : World γ} (h : Inv ch w) (o : Op γ R)
    (hin : inside ch C o = true) (hN : ∀ n, opName o = some n → N n = true) (ha : Agree N C w w') :
    (o.exec np w).1 = (o.exec np w').1 ∧ Agree N C (o.exec np w).2 (o.exec np w').2 := by
  cases o with
  | draw k q =>
    cases k with
    | none =>
      have := (Src.run_local (Src.glob (γ := γ)) (np.ask q)).inn N C w w' hin ha
      exact ⟨congrArg Obs.drawn (Prod.mk.inj this.1).1, this.2⟩
    | some k =>
      have := (Src.run_local (Src.inst (γ := γ) k) (np.ask q)).inn N C w w' hin ha
      exact ⟨congrArg Obs.drawn (Prod.mk.inj this.1).1, this.2⟩
  | reseed k s =>
    cases k with
    | none =>
      have := (Src.run_local (Src.glob (γ := γ)) (fun _ => ((), np.seeded s))).inn N C w w' hin ha
      exact ⟨rfl, this.2⟩
    | some k =>
      have := (Src.run_local (Src.inst (γ := γ) k) (fun _ => ((), np.seeded s))).inn N C w w' hin ha
      exact ⟨rfl, this.2⟩
  | split n c =>
    refine ⟨rfl, ⟨fun c hc => ?_, fun m hm => ?_⟩⟩
    · have := ha.at_ c hc
      cases c <;> exact this
    · show Function.update w.its n _ m = Function.update w'.its n _ m
      by_cases e : m = n
      · subst e; simp
      · simp only [Function.update_of_ne e]; exact ha.its m hm
  | next n =>
    have hn : w.its n = w'.its n := ha.its n (hN n rfl)
    simp only [Op.exec]
    rw [← hn]
    rcases hit : w.its n with _ | it0
    · exact ⟨rfl, ha⟩
    · have hl := (next_local np it0 (ch n) (h n it0 hit)).1.inn N C w w' hin ha
      obtain ⟨e1, e2⟩ := hl
      have ea : (it0.next np w).1 = (it0.next np w').1 := (Prod.mk.inj e1).1
      have eb : (it0.next np w).2.1 = (it0.next np w').2.1 := (Prod.mk.inj e1).2
      simp only at e2 ⊢
      refine ⟨by rw [ea], ⟨fun c hc => ?_, fun m hm => ?_⟩⟩
      · have := e2.at_ c hc
        cases c <;> exact this
      · show Function.update _ n _ m = Function.update _ n _ m
        by_cases e : m = n
        · subst e; simp [eb]
        · simp only [Function.update_of_ne e]; exact e2.its m hm
  | call c =>
    have := (call_local np c).inn N C w w' hin ha
    exact ⟨congrArg Obs.value this.1, this.2⟩

theorem exec_outside {np : Numpy γ} {ch : Nat → List Chan} {N : Nat → Bool} {C : Chan → Bool} {w : World γ} (h : Inv ch w) (o : Op γ R)
    (hN : ∀ n, opName o = some n → N n = false) (hout : outside ch C o = true) : Agree N C (o.exec np w).2 w := by
  cases o with
  | draw k q =>
    cases k with
    | none => exact (Src.run_local (Src.glob (γ := γ)) (np.ask q)).out N C w hout
    | some k => exact (Src.run_local (Src.inst (γ := γ) k) (np.ask q)).out N C w hout
  | reseed k s =>
    cases k with
    | none => exact (Src.run_local (Src.glob (γ := γ)) (fun _ => ((), np.seeded s))).out N C w hout
    | some k => exact (Src.run_local (Src.inst (γ := γ) k) (fun _ => ((), np.seeded s))).out N C w hout
  | split n c =>
    refine ⟨fun c hc => by cases c <;> rfl, fun m hm => ?_⟩
    refine Function.update_of_ne ?_ _ _
    rintro rfl
    exact absurd hm (by rw [hN m rfl]; decide)
  | next n =>
    simp only [Op.exec]
    rcases hit : w.its n with _ | it0
    · exact Agree.refl N C w
    · have hl := (next_local np it0 (ch n) (h n it0 hit)).1
      have e2 := hl.out N C w hout
      simp only at e2 ⊢
      refine ⟨fun c hc => ?_, fun m hm => ?_⟩
      · have := e2.at_ c hc
        cases c <;> exact this
      · show Function.update _ n _ m = _
        have e : m ≠ n := by
          rintro rfl
          exact absurd hm (by rw [hN m rfl]; decide)
        rw [Function.update_of_ne e]
        exact e2.its m hm
  | call c => exact (call_local np c).out N C w hout

theorem run_keep {np : Numpy γ} {ch : Nat → List Chan} {N : Nat → Bool} {C : Chan → Bool} (keep : Op γ R → Bool) (ops : List (Op γ R)) :
    ∀ w w' : World γ, Inv ch w → Agree N C w w' → WellNamed ch ops →
      (∀ o ∈ ops, keep o = true → inside ch C o = true ∧ ∀ n, opName o = some n → N n = true) →
      (∀ o ∈ ops, keep o = false → outside ch C o = true ∧ ∀ n, opName o = some n → N n = false) →
      ((ops.zip (run np w ops).1).filter (fun p => keep p.1)).map Prod.snd = (run np w' (ops.filter keep)).1 ∧
      Agree N C (run np w ops).2 (run np w' (ops.filter keep)).2 := by
  induction ops with
  | nil => intro w w' _ ha _ _ _; exact ⟨rfl, ha⟩
  | cons o os ih =>
    intro w w' hi ha hw hk hd
    have hi' : Inv ch (o.exec np w).2 := inv_exec hi o (fun n c e => hw n c (by rw [e]; exact List.mem_cons_self))
    have hw' : WellNamed ch os := fun n c hm => hw n c (List.mem_cons_of_mem _ hm)
    have hk' := fun o ho => hk o (List.mem_cons_of_mem _ ho)
    have hd' := fun o ho => hd o (List.mem_cons_of_mem _ ho)
    by_cases hin : keep o = true
    · obtain ⟨a1, a2⟩ := hk o List.mem_cons_self hin
      obtain ⟨e1, e2⟩ := exec_inside (np := np) hi o a1 a2 ha
      obtain ⟨i1, i2⟩ := ih _ _ hi' e2 hw' hk' hd'
      rw [List.filter_cons_of_pos hin]
      refine ⟨?_, i2⟩
      simp only [run, List.zip_cons_cons]
      rw [List.filter_cons_of_pos (by simpa using hin)]
      simp only [List.map_cons]
      rw [e1]
      exact congrArg _ i1
    · obtain ⟨a1, a2⟩ := hd o List.mem_cons_self (by simpa using hin)
      have e2 : Agree N C (o.exec np w).2 w' := (exec_outside (np := np) hi o a2 a1).trans ha
      obtain ⟨i1, i2⟩ := ih _ _ hi' e2 hw' hk' hd'
      rw [List.filter_cons_of_neg hin]
      refine ⟨?_, i2⟩
      simp only [run, List.zip_cons_cons]
      rw [List.filter_cons_of_neg (by simpa using hin)]
      exact i1

end Skada.Rng

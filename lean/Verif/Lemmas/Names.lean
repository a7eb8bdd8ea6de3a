/-
Lemmas for C138: fitting and evaluating pipelines when the classes are renamed.
-/
import Verif.Spec.Names
import Verif.Lemmas.OrderSteps

namespace Skada
open Np Spec

variable {α β σ γ δ : Type}

namespace Names

/-! ### Single labels -/

theorem rename_nat (f : Nat → Nat) (n : Nat) : rename f (.fin n) = .fin (f n) := by
  simp [rename]

theorem rename_isNan (f : Nat → Nat) (v : Num) : (rename f v).isNan = v.isNan := by
  cases v <;> simp only [rename]
  split <;> rfl

theorem rename_isFinite (f : Nat → Nat) (v : Num) : (rename f v).isFinite = v.isFinite := by
  cases v <;> simp only [rename]
  split <;> rfl

theorem rename_isIntegral (f : Nat → Nat) (v : Num) : (rename f v).isIntegral = v.isIntegral := by
  cases v <;> simp only [rename]
  split
  · next h => simp [Num.isIntegral, h.1]
  · rfl

theorem rename_eqNegOne (f : Nat → Nat) (v : Num) : (rename f v).eqNegOne = v.eqNegOne := by
  cases v <;> simp only [rename]
  split
  · next q h =>
    have h1 : ¬ ((f q.num.toNat : Nat) : ℚ) = -1 := by
      have : (0 : ℚ) ≤ ((f q.num.toNat : Nat) : ℚ) := Nat.cast_nonneg _
      intro e; rw [e] at this; norm_num at this
    have h2 : ¬ q = -1 := by
      rintro rfl; have := h.2; norm_num at this
    simp [Num.eqNegOne, h1, h2]
  · rfl

theorem rename_ltNegOne (f : Nat → Nat) (v : Num) : (rename f v).ltNegOne = v.ltNegOne := by
  cases v <;> simp only [rename]
  split
  · next q h =>
    have h1 : ¬ ((f q.num.toNat : Nat) : ℚ) < -1 := by
      have : (0 : ℚ) ≤ ((f q.num.toNat : Nat) : ℚ) := Nat.cast_nonneg _
      intro e; linarith
    have h2 : ¬ q < -1 := by
      intro e; linarith [h.2]
    simp [Num.ltNegOne, h1, h2]
  · rfl

theorem rename_mask (f : Nat → Nat) (t : YType) : rename f (maskLabel t) = maskLabel t := by
  cases t
  · rfl
  · simp only [maskLabel, rename]
    rw [if_neg]
    rintro ⟨-, h⟩
    norm_num at h

/-! ### Arrays of labels -/

theorem any_rename (f : Nat → Nat) {P : Num → Bool} (h : ∀ v, P (rename f v) = P v) (y : List Num) : (y.map (rename f)).any P = y.any P := by
  rw [List.any_map]
  congr 1
  exact funext h

theorem findYType_rename (f : Nat → Nat) (y : List Num) : findYType (y.map (rename f)) = findYType y := by
  unfold findYType
  rw [any_rename f (rename_isNan f), any_rename f (P := fun v => !v.isIntegral) (fun v => by rw [rename_isIntegral]),
    any_rename f (P := fun v => !v.isFinite) (fun v => by rw [rename_isFinite])]

theorem checkYMasking_rename (f : Nat → Nat) (y : List Num) : checkYMasking (y.map (rename f)) = checkYMasking y := by
  unfold checkYMasking
  rw [findYType_rename, any_rename f (rename_isNan f), any_rename f (rename_ltNegOne f), any_rename f (rename_eqNegOne f)]

theorem maskOf_rename (f : Nat → Nat) (t : YType) (y : List Num) : maskOf t (y.map (rename f)) = maskOf t y := by
  cases t <;> simp only [maskOf, List.map_map]
  · exact List.map_congr_left (fun v _ => rename_isNan f v)
  · exact List.map_congr_left (fun v _ => rename_eqNegOne f v)

theorem unmaskedOf_rename (f : Nat → Nat) (t : YType) (y : List Num) : unmaskedOf t (y.map (rename f)) = unmaskedOf t y := by
  cases t <;> simp only [unmaskedOf, List.map_map]
  · exact List.map_congr_left (fun v _ => rename_isFinite f v)
  · exact List.map_congr_left (fun v _ => by simp only [Function.comp, rename_eqNegOne])

theorem boolIndex_map (g : γ → δ) (a : List γ) (m : List Bool) : boolIndex (a.map g) m = (boolIndex a m).map (List.map g) := by
  simp only [boolIndex, List.length_map]
  split
  · simp only [Except.map, Sides.sel_map]
  · rfl

theorem zipWith_fill (g : γ → γ) {v : γ} (hv : g v = v) (m : List Bool) (a : List γ) :
    List.zipWith (fun b x => if b then v else x) m (a.map g) = (List.zipWith (fun b x => if b then v else x) m a).map g := by
  induction m generalizing a with
  | nil => rfl
  | cons b m ih =>
    cases a with
    | nil => rfl
    | cons x a =>
      simp only [List.map_cons, List.zipWith_cons_cons, ih]
      cases b <;> simp [hv]

theorem boolFill_map (g : γ → γ) {v : γ} (hv : g v = v) (a : List γ) (m : List Bool) :
    boolFill (a.map g) m v = (boolFill a m v).map (List.map g) := by
  simp only [boolFill, List.length_map]
  split
  · rfl
  · simp only [Except.map, zipWith_fill g hv]

theorem take_map (g : γ → δ) (a : List γ) (idx : List Nat) : take (a.map g) idx = (take a idx).map (List.map g) := by
  induction idx with
  | nil => rfl
  | cons i idx ih =>
    simp only [take, List.getElem?_map, ih]
    cases a[i]? with
    | none => rfl
    | some x =>
      simp only [Option.map_some]
      cases take a idx <;> rfl

theorem autoMask_rename (f : Nat → Nat) (y : Option (List Num)) (p : Dict) : autoMask (renameY f y) p = (autoMask y p).map (renameY f) := by
  cases y with
  | none => rfl
  | some y =>
    simp only [autoMask, renameY, Option.map_some, findYType_rename]
    split
    · rfl
    · cases findYType y with
      | error e => rfl
      | ok t =>
        simp only
        cases sourceMaskOf (p.get "sample_domain") with
        | error e => rfl
        | ok src =>
          simp only [boolFill_map (rename f) (rename_mask f t)]
          cases boolFill y (src.map (!·)) (maskLabel t) <;> rfl

theorem ownMask_rename (f : Nat → Nat) (s : Sel α σ) (y : Option (List Num)) (p : Dict) :
    s.ownMask (renameY f y) p = (s.ownMask y p).map (renameY f) := by
  unfold Sel.ownMask
  split
  · exact autoMask_rename f y p
  · rfl

/-- The parts of a triple with the labels renamed. -/
def onY (f : Nat → Nat) (r : List α × Option (List Num) × Dict) : List α × Option (List Num) × Dict := (r.1, renameY f r.2.1, r.2.2)

theorem masks_rename (f : Nat → Nat) (X : List α) (y : Option (List Num)) (p : Dict) (m : List Bool) :
    applyDomainMasks X (renameY f y) p m = (applyDomainMasks X y p m).map (onY f) := by
  unfold applyDomainMasks
  cases boolIndex X m with
  | error e => rfl
  | ok X' =>
    cases y with
    | none => rfl
    | some y =>
      simp only [renameY, Option.map_some, boolIndex_map]
      cases boolIndex y m <;> rfl

theorem removeMasked_rename (f : Nat → Nat) (X : List α) (y : List Num) (p : Dict) :
    Skada.removeMasked X (y.map (rename f)) p = (Skada.removeMasked X y p).map (fun r => (r.1, r.2.1.map (rename f), r.2.2)) := by
  unfold Skada.removeMasked
  rw [findYType_rename]
  cases findYType y with
  | error e => rfl
  | ok t =>
    have h := masks_rename f X (some y) p (unmaskedOf t y)
    simp only [renameY, Option.map_some] at h
    simp only [unmaskedOf_rename]
    rw [h]
    rcases applyDomainMasks X (some y) p (unmaskedOf t y) with e | ⟨a, _ | b, c⟩ <;> rfl

theorem selRemove_rename (f : Nat → Nat) (t : Bool) (X : List α) (y : Option (List Num)) (p : Dict) :
    Sel.removeMasked t X (renameY f y) p = (Sel.removeMasked t X y p).map (onY f) := by
  cases y with
  | none => rfl
  | some y =>
    simp only [Sel.removeMasked, renameY, Option.map_some]
    split
    · rfl
    · rw [removeMasked_rename]
      rcases Skada.removeMasked X y p with e | ⟨a, b, c⟩ <;> rfl

/-! ### Integral labels stay integral -/

theorem discrete_none : Discrete none := fun _ h => by cases h

theorem discrete_some {l : List Num} (h : ∀ v ∈ l, v.isIntegral = true) : Discrete (some l) := fun _ e => by cases e; exact h

theorem sel_mem {m : List Bool} {a : List γ} {x : γ} (h : x ∈ sel m a) : x ∈ a := by
  induction m generalizing a with
  | nil => simp [sel] at h
  | cons b m ih =>
    cases a with
    | nil => cases b <;> simp [sel] at h
    | cons z a =>
      cases b with
      | true =>
        rcases List.mem_cons.1 h with rfl | h
        · exact List.mem_cons_self
        · exact List.mem_cons_of_mem _ (ih h)
      | false => exact List.mem_cons_of_mem _ (ih h)

theorem boolIndex_mem {a r : List γ} {m : List Bool} (h : boolIndex a m = .ok r) {x : γ} (hx : x ∈ r) : x ∈ a := by
  unfold boolIndex at h
  split at h
  · cases h; exact sel_mem hx
  · cases h

theorem fill_mem {m : List Bool} {a : List γ} {v x : γ} (h : x ∈ List.zipWith (fun b x => if b then v else x) m a) : x = v ∨ x ∈ a := by
  induction m generalizing a with
  | nil => simp at h
  | cons b m ih =>
    cases a with
    | nil => simp at h
    | cons z a =>
      rw [List.zipWith_cons_cons] at h
      rcases List.mem_cons.1 h with rfl | h
      · cases b with
        | true => exact Or.inl rfl
        | false => exact Or.inr List.mem_cons_self
      · rcases ih h with h | h
        · exact Or.inl h
        · exact Or.inr (List.mem_cons_of_mem _ h)

theorem take_mem {a r : List γ} {idx : List Nat} (h : take a idx = .ok r) {x : γ} (hx : x ∈ r) : x ∈ a := by
  induction idx generalizing r with
  | nil => cases h; cases hx
  | cons i idx ih =>
    simp only [take] at h
    cases hi : a[i]? with
    | none => rw [hi] at h; cases h
    | some z =>
      rw [hi] at h
      cases h2 : take a idx with
      | error e => rw [h2] at h; cases h
      | ok r2 =>
        rw [h2] at h
        cases h
        rcases List.mem_cons.1 hx with rfl | hx
        · exact List.mem_of_getElem? hi
        · exact ih h2 hx

theorem findYType_discrete {l : List Num} (h : ∀ v ∈ l, v.isIntegral = true) : findYType l = .ok .discrete := by
  unfold findYType
  rw [if_neg, if_neg]
  · simp only [List.any_eq_true, not_exists, not_and]
    intro v hv
    rw [h v hv]; simp
  · simp only [List.any_eq_true, not_exists, not_and]
    intro v hv
    have := h v hv
    cases v <;> simp [Num.isNan, Num.isIntegral] at this ⊢

theorem autoMask_discrete {y y' : Option (List Num)} (h : Discrete y) {p : Dict} (hr : autoMask y p = .ok y') : Discrete y' := by
  cases y with
  | none => cases hr; exact h
  | some l =>
    have hl := h l rfl
    simp only [autoMask, findYType_discrete hl] at hr
    split at hr
    · cases hr; exact h
    · cases h1 : sourceMaskOf (p.get "sample_domain") with
      | error e => rw [h1] at hr; cases hr
      | ok src =>
        rw [h1] at hr
        simp only [boolFill] at hr
        split at hr
        · cases hr
        · next heq =>
          split at heq
          · cases heq
          · cases heq
            cases hr
            refine discrete_some (fun v hv => ?_)
            rcases fill_mem hv with rfl | hv
            · rfl
            · exact hl v hv

theorem ownMask_discrete {s : Sel α σ} {y y' : Option (List Num)} (h : Discrete y) {p : Dict} (hr : s.ownMask y p = .ok y') : Discrete y' := by
  unfold Sel.ownMask at hr
  split at hr
  · exact autoMask_discrete h hr
  · cases hr; exact h

theorem masks_discrete {X X' : List α} {y y' : Option (List Num)} (h : Discrete y) {p p' : Dict} {m : List Bool}
    (hr : applyDomainMasks X y p m = .ok (X', y', p')) : Discrete y' := by
  unfold applyDomainMasks at hr
  cases h1 : boolIndex X m with
  | error e => rw [h1] at hr; cases hr
  | ok X1 =>
    rw [h1] at hr
    cases y with
    | none => cases hr; exact discrete_none
    | some l =>
      simp only at hr
      cases h2 : boolIndex l m with
      | error e => rw [h2] at hr; cases hr
      | ok l2 =>
        rw [h2] at hr
        cases hr
        exact discrete_some (fun v hv => h l rfl v (boolIndex_mem h2 hv))

theorem selRemove_discrete {t : Bool} {X X' : List α} {y y' : Option (List Num)} (h : Discrete y) {p p' : Dict}
    (hr : Sel.removeMasked t X y p = .ok (X', y', p')) : Discrete y' := by
  cases y with
  | none => cases hr; exact discrete_none
  | some l =>
    simp only [Sel.removeMasked] at hr
    split at hr
    · cases hr; exact h
    · unfold Skada.removeMasked at hr
      rw [findYType_discrete (h l rfl)] at hr
      simp only at hr
      rcases h1 : applyDomainMasks X (some l) p (unmaskedOf .discrete l) with e | ⟨a, _ | b, c⟩
      · rw [h1] at hr; cases hr
      · rw [h1] at hr; cases hr; exact discrete_some (by simp)
      · rw [h1] at hr; cases hr; exact masks_discrete h h1

theorem routedCall_discrete {s : Sel α σ} {m : Method} {X : List α} {y : Option (List Num)} (h : Discrete y) {p : Dict} {call : Call α}
    (hr : s.routedCall m X y p = .ok call) : Discrete call.y := by
  unfold Sel.routedCall at hr
  cases h1 : prepareRouting s.final s.est.hasTransform (s.est.request m) p with
  | error e => rw [h1] at hr; cases hr
  | ok routed =>
    rw [h1] at hr
    simp only at hr
    rcases h2 : Sel.removeMasked s.est.hasTransform X y routed with e | ⟨a, b, c⟩
    · rw [h2] at hr; cases hr
    · rw [h2] at hr; cases hr; exact selRemove_discrete h h2

theorem takeCall_discrete {X : List α} {y : Option (List Num)} (h : Discrete y) {p : Dict} {idx : List Nat} {call : Call α}
    (hr : takeCall X y p idx = .ok call) : Discrete call.y := by
  unfold takeCall at hr
  cases h1 : take X idx with
  | error e => rw [h1] at hr; cases hr
  | ok X1 =>
    rw [h1] at hr
    cases y with
    | none =>
      simp only at hr
      cases h3 : takeParams idx p with
      | error e => rw [h3] at hr; cases hr
      | ok q => rw [h3] at hr; cases hr; exact discrete_none
    | some l =>
      simp only at hr
      cases h2 : take l idx with
      | error e => rw [h2] at hr; cases hr
      | ok l2 =>
        rw [h2] at hr
        simp only at hr
        cases h3 : takeParams idx p with
        | error e => rw [h3] at hr; cases hr
        | ok q => rw [h3] at hr; cases hr; exact discrete_some (fun v hv => h l rfl v (take_mem h2 hv))

/-! ### Containers -/

/-- A container with the classes renamed. -/
def renameCont (f : Nat → Nat) (c : Cont α) : Cont α := { c with labels := renameY f c.labels }

theorem mergeOut_rename (f : Nat → Nat) (c : Cont α) (y : Option (List Num)) (p : Dict) :
    (renameCont f c).mergeOut (renameY f y) p = onY f (c.mergeOut y p) := by
  rcases c with ⟨X, _ | l, m⟩ <;> rfl

theorem mergeIn_rename (f : Nat → Nat) (c : Cont α) (o : StepOut α) :
    (renameCont f c).mergeIn (renameOut f o) = (c.mergeIn o).map (renameCont f) := by
  cases o <;> rfl

theorem mergeOut_discrete {c : Cont α} (hc : Discrete c.labels) {y : Option (List Num)} (hy : Discrete y) {p : Dict} :
    Discrete (c.mergeOut y p).2.1 := by
  rcases c with ⟨X, _ | l, m⟩
  · exact hy
  · exact hc

theorem mergeIn_discrete {c c' : Cont α} (hc : Discrete c.labels) {o : StepOut α} (ho : DiscreteOut o) (h : c.mergeIn o = .ok c') :
    Discrete c'.labels := by
  cases o with
  | arr X => cases h; exact hc
  | pair X p => cases h; exact hc
  | triple X y p => cases h; exact ho X y p rfl
  | other => cases h

/-! ### Runs -/

/-- Runs that make the same calls with the classes renamed, and end in the same exception or in related results. -/
def NamesRun (f : Nat → Nat) (R : γ → δ → Prop) (r : Run α γ) (r' : Run α δ) : Prop := r'.1 = r.1.map (renameCall f) ∧ RelPy R r.2 r'.2

theorem run_cases {f : Nat → Nat} {R : γ → δ → Prop} {r : Run α γ} {r' : Run α δ} (h : NamesRun f R r r') :
    ∃ calls, (∃ e, r = (calls, .error e) ∧ r' = (calls.map (renameCall f), .error e)) ∨
      ∃ a b, r = (calls, .ok a) ∧ r' = (calls.map (renameCall f), .ok b) ∧ R a b := by
  obtain ⟨calls, x⟩ := r
  obtain ⟨calls', x'⟩ := r'
  obtain ⟨h1, h2⟩ := h
  simp only at h1 h2
  subst h1
  rcases Sides.py_cases h2 with ⟨e, rfl, rfl⟩ | ⟨a, b, rfl, rfl, hr⟩
  · exact ⟨calls, Or.inl ⟨e, rfl, rfl⟩⟩
  · exact ⟨calls, Or.inr ⟨a, b, rfl, rfl, hr⟩⟩

theorem invoke_rename {f : Nat → Nat} {Q : σ → σ → Prop} {e : Est α σ} (h : NameFree f Q e) (m : Method) (c : Call α)
    (hc : Discrete c.y) :
    RelPy (fun a b => Q a.1 b.1 ∧ b.2 = renameOut f a.2 ∧ DiscreteOut a.2) (e.invoke m c) (e.invoke m (renameCall f c)) := by
  cases m with
  | fit =>
    simp only [Est.invoke]
    rcases Sides.py_cases (h.fit c hc) with ⟨e, h1, h2⟩ | ⟨a, b, h1, h2, hr⟩
    · rw [h1, h2]; exact rfl
    · rw [h1, h2]; exact ⟨hr, rfl, fun _ _ _ h => by cases h⟩
  | fitTransform => exact h.fitTransform c hc

theorem routedCall_rename (f : Nat → Nat) (s : Sel α σ) (m : Method) (X : List α) (y : Option (List Num)) (p : Dict) :
    s.routedCall m X (renameY f y) p = (s.routedCall m X y p).map (renameCall f) := by
  unfold Sel.routedCall
  cases prepareRouting s.final s.est.hasTransform (s.est.request m) p with
  | error e => rfl
  | ok routed =>
    simp only [selRemove_rename]
    rcases Sel.removeMasked s.est.hasTransform X y routed with e | ⟨a, b, c⟩ <;> rfl

/-- What holds for the results of fitting a step on renamed data. -/
def NamesFit (f : Nat → Nat) (Q : σ → σ → Prop) (a b : (σ × StepOut α) × Option (List Num)) : Prop :=
  (Q a.1.1 b.1.1 ∧ b.1.2 = renameOut f a.1.2 ∧ DiscreteOut a.1.2) ∧ b.2 = renameY f a.2 ∧ Discrete a.2

theorem sharedFit_rename {f : Nat → Nat} {Q : σ → σ → Prop} {s : Sel α σ} (h : NameFree f Q s.est) (m : Method) (c : Cont α)
    (hc : Discrete c.labels) (y : Option (List Num)) (hy : Discrete y) (p : Dict) :
    NamesRun f (NamesFit f Q) (s.sharedFit m c y p) (s.sharedFit m (renameCont f c) (renameY f y) p) := by
  unfold Sel.sharedFit
  rw [ownMask_rename]
  cases h0 : s.ownMask y p with
  | error e => exact ⟨rfl, rfl⟩
  | ok y1 =>
    have hy1 := ownMask_discrete hy h0
    have hm := mergeOut_discrete hc hy1 (p := p)
    simp only [Except.map, mergeOut_rename]
    rcases h9 : c.mergeOut y1 p with ⟨X, y2, p2⟩
    rw [h9] at hm
    simp only at hm
    simp only [onY, routedCall_rename]
    cases h3 : s.routedCall m X y2 p2 with
    | error e => exact ⟨rfl, rfl⟩
    | ok call =>
      refine ⟨rfl, ?_⟩
      simp only [Except.map]
      rcases Sides.py_cases (invoke_rename h m call (routedCall_discrete hm h3)) with ⟨e, h1, h2⟩ | ⟨a, b, h1, h2, hr⟩
      · rw [h1, h2]; exact rfl
      · rw [h1, h2]; exact ⟨hr, rfl, hy1⟩

theorem sharedTransform_rename {f : Nat → Nat} {Q : σ → σ → Prop} {s : Sel α σ} (h : NameFree f Q s.est) {a b : σ} (hab : Q a b) (X : List α)
    (p : Dict) : RelPy (fun a b => b = renameOut f a ∧ DiscreteOut a) (s.sharedTransform a X p) (s.sharedTransform b X p) := by
  unfold Sel.sharedTransform
  cases prepareRouting s.final s.est.hasTransform s.est.transformReq p with
  | error e => exact rfl
  | ok routed => exact h.transform a b hab X routed

theorem sharedFitTransformOut_rename {f : Nat → Nat} {Q : σ → σ → Prop} {s : Sel α σ} (h : NameFree f Q s.est) (c : Cont α)
    (hc : Discrete c.labels) (y : Option (List Num)) (hy : Discrete y) (p : Dict) :
    NamesRun f (NamesFit f Q) (s.sharedFitTransformOut c y p) (s.sharedFitTransformOut (renameCont f c) (renameY f y) p) := by
  unfold Sel.sharedFitTransformOut
  split
  · exact sharedFit_rename h .fitTransform c hc y hy p
  · obtain ⟨calls, ⟨e, h1, h2⟩ | ⟨⟨⟨a1, a2⟩, a3⟩, ⟨⟨b1, b2⟩, b3⟩, h1, h2, ⟨hq, -⟩, hy1, hy2⟩⟩ := run_cases (sharedFit_rename h .fit c hc y hy p)
    · rw [h1, h2]; exact ⟨rfl, rfl⟩
    · rw [h1, h2]
      simp only at hq hy1 hy2
      subst hy1
      simp only [mergeOut_rename]
      rcases c.mergeOut a3 p with ⟨X, y2, p2⟩
      refine ⟨rfl, ?_⟩
      simp only [onY]
      cases routeParams s.est.transformReq p2 with
      | error e => exact rfl
      | ok tp =>
        simp only
        rcases Sides.py_cases (sharedTransform_rename h hq X tp) with ⟨e, h3, h4⟩ | ⟨o, o', h3, h4, ho⟩
        · rw [h3, h4]; exact rfl
        · rw [h3, h4]; exact ⟨⟨hq, ho⟩, rfl, hy2⟩

/-! ### `PerDomain` -/

theorem takeCall_rename (f : Nat → Nat) (X : List α) (y : Option (List Num)) (p : Dict) (idx : List Nat) :
    takeCall X (renameY f y) p idx = (takeCall X y p idx).map (renameCall f) := by
  unfold takeCall
  cases take X idx with
  | error e => rfl
  | ok X' =>
    cases y with
    | none =>
      simp only [renameY, Option.map_none]
      cases takeParams idx p <;> rfl
    | some y =>
      simp only [renameY, Option.map_some, take_map]
      cases take y idx with
      | error e => rfl
      | ok r =>
        simp only [Except.map]
        cases takeParams idx p <;> rfl

/-- What `PerDomain` keeps about one domain. -/
def NamesDom (f : Nat → Nat) (Q : σ → σ → Prop) (a b : Int × List Nat × σ × StepOut α) : Prop :=
  b.1 = a.1 ∧ b.2.1 = a.2.1 ∧ Q a.2.2.1 b.2.2.1 ∧ b.2.2.2 = renameOut f a.2.2.2

theorem perDomainLoop_rename {f : Nat → Nat} {Q : σ → σ → Prop} {s : Sel α σ} (h : NameFree f Q s.est) (m : Method) (X : List α)
    (y : Option (List Num)) (hy : Discrete y) (p : Dict) (sd ds : List Int) :
    NamesRun f (List.Forall₂ (NamesDom f Q)) (s.perDomainLoop m X y p sd ds) (s.perDomainLoop m X (renameY f y) p sd ds) := by
  induction ds with
  | nil => exact ⟨rfl, List.Forall₂.nil⟩
  | cons d ds ih =>
    simp only [Sel.perDomainLoop, takeCall_rename]
    cases h0 : takeCall X y p (domainIdx sd d) with
    | error e => exact ⟨rfl, rfl⟩
    | ok call =>
      simp only [Except.map]
      rcases Sides.py_cases (invoke_rename h m call (takeCall_discrete hy h0)) with
        ⟨e, h1, h2⟩ | ⟨⟨a1, a2⟩, ⟨b1, b2⟩, h1, h2, hr1, hr2, -⟩
      · rw [h1, h2]; exact ⟨rfl, rfl⟩
      · rw [h1, h2]
        simp only at hr1 hr2 ⊢
        obtain ⟨calls, ⟨e, h3, h4⟩ | ⟨a, b, h3, h4, hab⟩⟩ := run_cases ih
        · rw [h3, h4]; exact ⟨rfl, rfl⟩
        · rw [h3, h4]; exact ⟨rfl, List.Forall₂.cons ⟨rfl, rfl, hr1, hr2⟩ hab⟩

theorem perDomainFit_rename {f : Nat → Nat} {Q : σ → σ → Prop} {s : Sel α σ} (h : NameFree f Q s.est) (m : Method) (c : Cont α)
    (hc : Discrete c.labels) (y : Option (List Num)) (hy : Discrete y) (p : Dict) :
    NamesRun f (fun a b => List.Forall₂ (NamesDom f Q) a.1 b.1 ∧ b.2 = renameY f a.2 ∧ Discrete a.2)
      (s.perDomainFit m c y p) (s.perDomainFit m (renameCont f c) (renameY f y) p) := by
  unfold Sel.perDomainFit
  rw [ownMask_rename]
  cases h0 : s.ownMask y p with
  | error e => exact ⟨rfl, rfl⟩
  | ok y1 =>
    have hy1 := ownMask_discrete hy h0
    have hm := mergeOut_discrete hc hy1 (p := p)
    simp only [Except.map, mergeOut_rename]
    rcases h9 : c.mergeOut y1 p with ⟨X, y2, p2⟩
    rw [h9] at hm
    simp only at hm
    simp only [onY, routedCall_rename]
    split
    · exact ⟨rfl, rfl⟩
    · cases domainsOf (p2.get "sample_domain") with
      | error e => exact ⟨rfl, rfl⟩
      | ok sd =>
        simp only
        cases h1 : s.routedCall m X y2 p2 with
        | error e => exact ⟨rfl, rfl⟩
        | ok call =>
          simp only [Except.map, renameCall]
          obtain ⟨calls, ⟨e, h3, h4⟩ | ⟨a, b, h3, h4, hab⟩⟩ := run_cases (perDomainLoop_rename h m call.X call.y
            (routedCall_discrete hm h1) call.params sd (unique sd))
          · rw [h3, h4]; exact ⟨rfl, rfl⟩
          · rw [h3, h4]; exact ⟨rfl, hab, rfl, hy1⟩

theorem renameOut_noLabels (f : Nat → Nat) {o : StepOut α} (h : ∀ X y p, o = .triple X y p → y = none) : renameOut f o = o := by
  cases o with
  | triple X y p => rw [h X y p rfl]; rfl
  | _ => rfl

/-- `NoLabels` for the outputs of the loop. -/
theorem perDomainLoop_noLabels {s : Sel α σ} (h : NoLabels s.est) {X : List α} {y : Option (List Num)} {p : Dict} {sd ds : List Int}
    {calls : List (Call α)} {r : List (Int × List Nat × σ × StepOut α)} (hr : s.perDomainLoop .fitTransform X y p sd ds = (calls, .ok r)) :
    ∀ o ∈ r, ∀ X y p, o.2.2.2 = .triple X y p → y = none := by
  induction ds generalizing calls r with
  | nil => cases hr; simp
  | cons d ds ih =>
    simp only [Sel.perDomainLoop, Est.invoke] at hr
    cases h1 : takeCall X y p (domainIdx sd d) with
    | error e => rw [h1] at hr; cases hr
    | ok call =>
      rw [h1] at hr
      simp only at hr
      rcases h2 : s.est.fitTransform call with e | ⟨g, out⟩
      · rw [h2] at hr; cases hr
      · rw [h2] at hr
        simp only at hr
        rcases h3 : s.perDomainLoop .fitTransform X y p sd ds with ⟨calls2, e | r2⟩
        · rw [h3] at hr; cases hr
        · rw [h3] at hr
          simp only [Prod.mk.injEq, Except.ok.injEq] at hr
          obtain ⟨-, rfl⟩ := hr
          intro o ho
          rcases List.mem_cons.1 ho with rfl | ho
          · rintro X' y' p' rfl
            exact h _ _ _ _ _ h2
          · exact ih h3 o ho

theorem perDomainFit_noLabels {s : Sel α σ} (h : NoLabels s.est) {c : Cont α} {y y1 : Option (List Num)} {p : Dict} {calls : List (Call α)}
    {r : List (Int × List Nat × σ × StepOut α)} (hr : s.perDomainFit .fitTransform c y p = (calls, .ok (r, y1))) :
    ∀ o ∈ r, ∀ X y p, o.2.2.2 = .triple X y p → y = none := by
  unfold Sel.perDomainFit at hr
  cases h1 : s.ownMask y p with
  | error e => rw [h1] at hr; cases hr
  | ok y2 =>
    rw [h1] at hr
    simp only at hr
    rcases h2 : c.mergeOut y2 p with ⟨X, y3, p3⟩
    rw [h2] at hr
    simp only at hr
    cases h5 : (!p3.has "sample_domain") with
    | true => rw [h5, if_pos rfl] at hr; cases hr
    | false =>
      rw [h5, if_neg (by simp)] at hr
      cases h3 : domainsOf (p3.get "sample_domain") with
      | error e => rw [h3] at hr; cases hr
      | ok sd =>
        rw [h3] at hr
        simp only at hr
        cases h4 : s.routedCall .fitTransform X y3 p3 with
        | error e => rw [h4] at hr; cases hr
        | ok call =>
          rw [h4] at hr
          simp only at hr
          rcases h6 : s.perDomainLoop .fitTransform call.X call.y call.params sd (unique sd) with ⟨calls2, e | r2⟩
          · rw [h6] at hr; cases hr
          · rw [h6] at hr
            cases hr
            exact perDomainLoop_noLabels h h6

theorem noLabels_outs (f : Nat → Nat) {Q : σ → σ → Prop} {a b : List (Int × List Nat × σ × StepOut α)} (hab : List.Forall₂ (NamesDom f Q) a b)
    (h : ∀ o ∈ a, ∀ X y p, o.2.2.2 = .triple X y p → y = none) :
    b.map (fun o => (o.2.1, o.2.2.2)) = a.map (fun o => (o.2.1, o.2.2.2)) ∧
      List.Forall₂ (fun u v => u.1 = v.1 ∧ Q u.2 v.2) (a.map (fun o => (o.1, o.2.2.1))) (b.map (fun o => (o.1, o.2.2.1))) := by
  induction hab with
  | nil => exact ⟨rfl, List.Forall₂.nil⟩
  | @cons x z t t' hxz _ ih =>
    obtain ⟨i1, i2⟩ := ih (fun o ho => h o (List.mem_cons_of_mem _ ho))
    obtain ⟨h1, h2, h3, h4⟩ := hxz
    refine ⟨?_, List.Forall₂.cons ⟨h1.symm, h3⟩ i2⟩
    rw [List.map_cons, List.map_cons, i1, h2, h4, renameOut_noLabels f (h x List.mem_cons_self)]

theorem dom_fits {f : Nat → Nat} {Q : σ → σ → Prop} {a b : List (Int × List Nat × σ × StepOut α)} (hab : List.Forall₂ (NamesDom f Q) a b) :
    List.Forall₂ (fun u v => u.1 = v.1 ∧ Q u.2 v.2) (a.map (fun o => (o.1, o.2.2.1))) (b.map (fun o => (o.1, o.2.2.1))) := by
  induction hab with
  | nil => exact List.Forall₂.nil
  | cons hxz _ ih => exact List.Forall₂.cons ⟨hxz.1.symm, hxz.2.2.1⟩ ih

/-- The result of merging never has labels when none of the outputs has: both runs give the same, and renaming does not change it. -/
theorem perDomainFitTransformOut_rename [Cell α] {f : Nat → Nat} {Q : σ → σ → Prop} {s : Sel α σ} (h : NameFree f Q s.est) (hn : NoLabels s.est)
    (c : Cont α) (hc : Discrete c.labels) (y : Option (List Num)) (hy : Discrete y) (p : Dict) :
    NamesRun f (fun a b => (List.Forall₂ (fun u v => u.1 = v.1 ∧ Q u.2 v.2) a.1.1 b.1.1 ∧ b.1.2 = a.1.2) ∧
        b.2 = renameY f a.2 ∧ Discrete a.2)
      (s.perDomainFitTransformOut c y p) (s.perDomainFitTransformOut (renameCont f c) (renameY f y) p) := by
  unfold Sel.perDomainFitTransformOut
  split
  · obtain ⟨calls, ⟨e, h3, h4⟩ | ⟨⟨a, ya⟩, ⟨b, yb⟩, h3, h4, hab, hy1, hy2⟩⟩ :=
      run_cases (perDomainFit_rename h .fitTransform c hc y hy p)
    · rw [h3, h4]; exact ⟨rfl, rfl⟩
    · rw [h3, h4]
      simp only at hab hy1 hy2
      obtain ⟨k1, k2⟩ := noLabels_outs f hab (perDomainFit_noLabels hn h3)
      refine ⟨rfl, ?_⟩
      simp only [k1, renameCont]
      cases mergeStepOuts c.features.length (a.map (fun o => (o.2.1, o.2.2.2))) with
      | error e => exact rfl
      | ok out => exact ⟨⟨k2, rfl⟩, hy1, hy2⟩
  · rw [ownMask_rename]
    cases s.ownMask y p with
    | error e => exact ⟨rfl, rfl⟩
    | ok y1 => exact ⟨rfl, rfl⟩

/-! ### `SelectSource`, `SelectTarget` -/

theorem preFilter_rename (f : Nat → Nat) (side : Side) (c : Cont α) (y : Option (List Num)) (p : Dict) :
    preFilter side (renameCont f c) (renameY f y) p =
      (preFilter side c y p).map (fun r => (renameCont f r.1, renameY f r.2.1, r.2.2)) := by
  unfold preFilter
  rw [mergeOut_rename]
  rcases c.mergeOut y p with ⟨X, y2, p2⟩
  simp only [onY]
  cases side.mask (p2.get "sample_domain") with
  | error e => rfl
  | ok m =>
    simp only [masks_rename]
    rcases applyDomainMasks X y2 p2 m with e | ⟨a, b, d⟩ <;> rfl

theorem preFilter_discrete {side : Side} {c c' : Cont α} (hc : Discrete c.labels) {y y' : Option (List Num)} (hy : Discrete y) {p p' : Dict}
    (hr : preFilter side c y p = .ok (c', y', p')) : Discrete c'.labels ∧ Discrete y' := by
  unfold preFilter at hr
  have hm := mergeOut_discrete hc hy (p := p)
  rcases h0 : c.mergeOut y p with ⟨X, y2, p2⟩
  rw [h0] at hr hm
  simp only at hr hm
  cases h1 : side.mask (p2.get "sample_domain") with
  | error e => rw [h1] at hr; cases hr
  | ok m =>
    rw [h1] at hr
    simp only at hr
    rcases h2 : applyDomainMasks X y2 p2 m with e | ⟨a, b, d⟩
    · rw [h2] at hr; cases hr
    · rw [h2] at hr
      cases hr
      exact ⟨masks_discrete hm h2, masks_discrete hm h2⟩

theorem selectFit_rename {f : Nat → Nat} {Q : σ → σ → Prop} {s : Sel α σ} (h : NameFree f Q s.est) (side : Side) (c : Cont α)
    (hc : Discrete c.labels) (y : Option (List Num)) (hy : Discrete y) (p : Dict) :
    NamesRun f (fun a b => Q a.1 b.1) (s.selectFit side c y p) (s.selectFit side (renameCont f c) (renameY f y) p) := by
  unfold Sel.selectFit
  rw [preFilter_rename]
  rcases h0 : preFilter side c y p with e | ⟨c1, y1, p1⟩
  · exact ⟨rfl, rfl⟩
  · simp only [Except.map]
    obtain ⟨d1, d2⟩ := preFilter_discrete hc hy h0
    obtain ⟨calls, ⟨e, h3, h4⟩ | ⟨a, b, h3, h4, hab⟩⟩ := run_cases (sharedFit_rename h .fit c1 d1 y1 d2 p1)
    · rw [h3, h4]; exact ⟨rfl, rfl⟩
    · rw [h3, h4]; exact ⟨rfl, hab.1.1⟩

theorem selectFitTransform_rename {f : Nat → Nat} {Q : σ → σ → Prop} {s : Sel α σ} (h : NameFree f Q s.est) (side : Side) (c : Cont α)
    (hc : Discrete c.labels) (y : Option (List Num)) (hy : Discrete y) (p : Dict) :
    NamesRun f (fun a b => Q a.1 b.1 ∧ b.2 = renameCont f a.2 ∧ Discrete a.2.labels)
      (s.selectFitTransform side c y p) (s.selectFitTransform side (renameCont f c) (renameY f y) p) := by
  unfold Sel.selectFitTransform
  rw [preFilter_rename]
  rcases h0 : preFilter side c y p with e | ⟨c1, y1, p1⟩
  · exact ⟨rfl, rfl⟩
  · simp only [Except.map]
    obtain ⟨d1, d2⟩ := preFilter_discrete hc hy h0
    obtain ⟨calls, ⟨e, h3, h4⟩ | ⟨⟨⟨a1, a2⟩, a3⟩, ⟨⟨b1, b2⟩, b3⟩, h3, h4, ⟨q1, q2, q3⟩, -⟩⟩ :=
      run_cases (sharedFitTransformOut_rename h c1 d1 y1 d2 p1)
    · rw [h3, h4]; exact ⟨rfl, rfl⟩
    · rw [h3, h4]
      simp only at q1 q2 q3
      subst q2
      refine ⟨rfl, ?_⟩
      simp only [mergeIn_rename]
      cases h5 : c1.mergeIn a2 with
      | error e => exact rfl
      | ok c2 => exact ⟨q1, rfl, mergeIn_discrete d1 q3 h5⟩

/-! ### `SelectSourceTarget` -/

theorem checkXy_rename (f : Nat → Nat) (X : List α) (y : List Num) (sd : SDArg) (fl : Flags) (b : Bool := true) :
    checkXyDomain X (y.map (rename f)) sd fl b = (checkXyDomain X y sd fl b).map (fun r => (r.1, r.2.1.map (rename f), r.2.2)) := by
  unfold checkXyDomain
  simp only [List.map_eq_nil_iff, any_rename f (P := fun v => !v.isFinite) (fun v => by rw [rename_isFinite]), List.length_map,
    checkYMasking_rename, maskOf_rename]
  split
  · rfl
  · split
    · rfl
    · split
      · rfl
      · split
        · rfl
        · split
          · rfl
          · next l _ =>
            cases extractSourceIndices l with
            | error e => rfl
            | ok _ =>
              simp only
              cases checkFlags fl l <;> rfl

theorem sstCheck_rename (f : Nat → Nat) (X : List α) (y : Option (List Num)) (p : Dict) : sstCheck X (renameY f y) p = sstCheck X y p := by
  unfold sstCheck
  cases sdArg (p.get "sample_domain") with
  | error e => rfl
  | ok arg =>
    cases y with
    | none => rfl
    | some y =>
      simp only [renameY, Option.map_some, checkXy_rename]
      rcases checkXyDomain X y arg {} with e | ⟨a, b, c⟩ <;> rfl

theorem fitSide_rename {f : Nat → Nat} {Q : σ → σ → Prop} (s : SST α σ) {e : Est α σ} (h : NameFree f Q e) (m : Method) (X : List α)
    (y : Option (List Num)) (hy : Discrete y) (p : Dict) (mask : List Bool) :
    NamesRun f (fun a b => Q a.1 b.1 ∧ b.2 = renameOut f a.2 ∧ DiscreteOut a.2) (s.fitSide e m X y p mask) (s.fitSide e m X (renameY f y) p mask) := by
  unfold SST.fitSide
  split
  · exact ⟨rfl, rfl⟩
  · rw [masks_rename]
    rcases h0 : applyDomainMasks X y p mask with err | ⟨X', y', p'⟩
    · exact ⟨rfl, rfl⟩
    · simp only [Except.map, onY]
      cases prepareRouting s.final s.source.hasTransform (e.request m) p' with
      | error err => exact ⟨rfl, rfl⟩
      | ok routed =>
        simp only [selRemove_rename]
        rcases h1 : Sel.removeMasked s.source.hasTransform X' y' routed with err | ⟨a, b, c⟩
        · exact ⟨rfl, rfl⟩
        · exact ⟨rfl, invoke_rename h m ⟨a, b, c⟩ (selRemove_discrete (masks_discrete hy h0) h1)⟩

/-- What `SelectSourceTarget` keeps. -/
def NamesSST (f : Nat → Nat) (Q : σ → σ → Prop) (a b : SSTFit α σ) : Prop :=
  b.srcMask = a.srcMask ∧ (Q a.src b.src ∧ b.srcOut = renameOut f a.srcOut) ∧ Q a.tgt b.tgt ∧ b.tgtOut = renameOut f a.tgtOut

theorem sstFit_rename {f : Nat → Nat} {Q : σ → σ → Prop} {s : SST α σ} (hs : NameFree f Q s.source) (ht : NameFree f Q (s.target.getD s.source))
    (m : Method) (c : Cont α) (hc : Discrete c.labels) (y : Option (List Num)) (hy : Discrete y) (p : Dict) :
    NamesRun f (NamesSST f Q) (s.fit m c y p) (s.fit m (renameCont f c) (renameY f y) p) := by
  unfold SST.fit
  rw [mergeOut_rename]
  have hm := mergeOut_discrete hc hy (p := p)
  rcases h9 : c.mergeOut y p with ⟨X, y2, p2⟩
  rw [h9] at hm
  simp only at hm
  simp only [onY, sstCheck_rename]
  cases sstCheck X y2 p2 with
  | error e => exact ⟨rfl, rfl⟩
  | ok sd =>
    simp only
    obtain ⟨calls, ⟨e, h3, h4⟩ | ⟨a, b, h3, h4, hab⟩⟩ := run_cases (fitSide_rename s hs m X y2 hm (p2.put "sample_domain" (domParam sd))
      (sd.map (fun d => decide (0 ≤ d))))
    · rw [h3, h4]; exact ⟨rfl, rfl⟩
    · rw [h3, h4]
      simp only
      obtain ⟨calls2, ⟨e, h5, h6⟩ | ⟨a2, b2, h5, h6, hab2⟩⟩ := run_cases (fitSide_rename s ht m X y2 hm (p2.put "sample_domain" (domParam sd))
        ((sd.map (fun d => decide (0 ≤ d))).map (!·)))
      · rw [h5, h6]; exact ⟨by simp, rfl⟩
      · rw [h5, h6]; exact ⟨by simp, rfl, ⟨hab.1, hab.2.1⟩, hab2.1, hab2.2.1⟩

theorem fitSide_noLabels {s : SST α σ} {e : Est α σ} (h : NoLabels e) {X : List α} {y : Option (List Num)} {p : Dict} {mask : List Bool}
    {calls : List (Call α)} {g : σ} {o : StepOut α} (hr : s.fitSide e .fitTransform X y p mask = (calls, .ok (g, o))) :
    ∀ X y p, o = .triple X y p → y = none := by
  unfold SST.fitSide at hr
  by_cases hm : mask.count true = 0
  · rw [if_pos hm] at hr; cases hr
  · rw [if_neg hm] at hr
    rcases h1 : applyDomainMasks X y p mask with err | ⟨X', y', p'⟩
    · rw [h1] at hr; cases hr
    · rw [h1] at hr
      simp only at hr
      cases h2 : prepareRouting s.final s.source.hasTransform (e.request .fitTransform) p' with
      | error err => rw [h2] at hr; cases hr
      | ok routed =>
        rw [h2] at hr
        simp only at hr
        rcases h3 : Sel.removeMasked s.source.hasTransform X' y' routed with err | ⟨a, b, c⟩
        · rw [h3] at hr; cases hr
        · rw [h3] at hr
          simp only [Est.invoke, Prod.mk.injEq] at hr
          rintro X2 y2 p2 rfl
          exact h _ _ _ _ _ hr.2

theorem sstFit_noLabels {s : SST α σ} (hs : NoLabels s.source) (ht : NoLabels (s.target.getD s.source)) {c : Cont α} {y : Option (List Num)}
    {p : Dict} {calls : List (Call α)} {r : SSTFit α σ} (hr : s.fit .fitTransform c y p = (calls, .ok r)) :
    (∀ X y p, r.srcOut = .triple X y p → y = none) ∧ ∀ X y p, r.tgtOut = .triple X y p → y = none := by
  unfold SST.fit at hr
  rcases h0 : c.mergeOut y p with ⟨X, y2, p2⟩
  rw [h0] at hr
  simp only at hr
  cases h1 : sstCheck X y2 p2 with
  | error e => rw [h1] at hr; cases hr
  | ok sd =>
    rw [h1] at hr
    simp only at hr
    rcases h2 : s.fitSide s.source .fitTransform X y2 (p2.put "sample_domain" (domParam sd)) (sd.map (fun d => decide (0 ≤ d))) with
      ⟨calls1, e | ⟨g, o⟩⟩
    · rw [h2] at hr; cases hr
    · rw [h2] at hr
      simp only at hr
      rcases h3 : s.fitSide (s.target.getD s.source) .fitTransform X y2 (p2.put "sample_domain" (domParam sd))
          ((sd.map (fun d => decide (0 ≤ d))).map (!·)) with ⟨calls2, e | ⟨g2, o2⟩⟩
      · rw [h3] at hr; cases hr
      · rw [h3] at hr
        cases hr
        exact ⟨fitSide_noLabels hs h2, fitSide_noLabels ht h3⟩

theorem sstFitTransformOut_rename [Cell α] {f : Nat → Nat} {Q : σ → σ → Prop} {s : SST α σ} (hs : NameFree f Q s.source)
    (ht : NameFree f Q (s.target.getD s.source)) (ns : NoLabels s.source) (nt : NoLabels (s.target.getD s.source)) (c : Cont α)
    (hc : Discrete c.labels) (y : Option (List Num)) (hy : Discrete y) (p : Dict) :
    NamesRun f (fun a b => (Q a.1.1 b.1.1 ∧ Q a.1.2 b.1.2) ∧ b.2 = a.2)
      (s.fitTransformOut c y p) (s.fitTransformOut (renameCont f c) (renameY f y) p) := by
  unfold SST.fitTransformOut
  split
  · obtain ⟨calls, ⟨e, h3, h4⟩ | ⟨a, b, h3, h4, k1, ⟨k2, k3⟩, k4, k5⟩⟩ := run_cases (sstFit_rename hs ht .fitTransform c hc y hy p)
    · rw [h3, h4]; exact ⟨rfl, rfl⟩
    · rw [h3, h4]
      obtain ⟨n1, n2⟩ := sstFit_noLabels ns nt h3
      rw [renameOut_noLabels f n1] at k3
      rw [renameOut_noLabels f n2] at k5
      refine ⟨rfl, ?_⟩
      simp only [k1, k3, k5, renameCont]
      cases mergeStepOuts c.features.length [(flatnonzero a.srcMask, a.srcOut), (flatnonzero (a.srcMask.map (!·)), a.tgtOut)] with
      | error e => exact rfl
      | ok out => exact ⟨⟨k2, k4⟩, rfl⟩
  · obtain ⟨calls, ⟨e, h3, h4⟩ | ⟨a, b, h3, h4, -⟩⟩ := run_cases (sstFit_rename hs ht .fit c hc y hy p)
    · rw [h3, h4]; exact ⟨rfl, rfl⟩
    · rw [h3, h4]; exact ⟨rfl, rfl⟩

/-! ### Pipelines -/

/-- Merging outputs without labels gives an output without labels. -/
def Unlabelled (o : StepOut α) : Prop := ∀ X y p, o = .triple X y p → y = none

theorem mapM_mem {g : γ → Py δ} {l : List γ} {r : List δ} (h : l.mapM g = .ok r) : ∀ b ∈ r, ∃ a ∈ l, g a = .ok b := by
  induction l generalizing r with
  | nil => cases h; simp
  | cons x l ih =>
    rw [List.mapM_cons] at h
    cases h1 : g x with
    | error e => rw [h1] at h; cases h
    | ok b =>
      cases h2 : l.mapM g with
      | error e => rw [h1, h2] at h; cases h
      | ok bs =>
        rw [h1, h2] at h
        cases h
        intro c hc
        rcases List.mem_cons.1 hc with rfl | hc
        · exact ⟨x, List.mem_cons_self, h1⟩
        · obtain ⟨a, ha, hga⟩ := ih h2 c hc
          exact ⟨a, List.mem_cons_of_mem _ ha, hga⟩

theorem mergeSteps_noLabels {α β γ : Type} [Cell α] [Cell β] [Cell γ] {n : Nat} {cs : List (List Nat × Container α β γ)} (h : ∀ c ∈ cs, c.2.y = none)
    {acc acc' : MergeAcc α β γ} (ha : acc.y = none) (hr : mergeSteps n acc cs = .ok acc') : acc'.y = none := by
  induction cs generalizing acc with
  | nil => cases hr; exact ha
  | cons d cs ih =>
    simp only [mergeSteps] at hr
    cases h1 : mergeStep n acc d with
    | error e => rw [h1] at hr; cases hr
    | ok acc1 =>
      rw [h1] at hr
      refine ih (fun c hc => h c (List.mem_cons_of_mem _ hc)) ?_ hr
      unfold mergeStep at h1
      rw [h d List.mem_cons_self] at h1
      cases h2 : accScatter n acc.X d.1 d.2.X with
      | error e => rw [h2] at h1; cases h1
      | ok X' =>
        rw [h2] at h1
        simp only at h1
        cases h3 : accParams n d.1 acc.params d.2.params with
        | error e => rw [h3] at h1; cases h1
        | ok p' => rw [h3] at h1; cases h1; exact ha

theorem merge_noLabels [Cell α] {n : Nat} {outs : List (List Nat × StepOut α)} (h : ∀ o ∈ outs, Unlabelled o.2) {out : StepOut α}
    (hr : mergeStepOuts n outs = .ok out) : Unlabelled out := by
  have key : ∀ (cs : Py (StepOut α)), cs = (match outs.mapM StepOut.asCont with
      | .error e => (.error e : Py (StepOut α))
      | .ok cs => match mergeContainers n cs with
        | .error e => .error e
        | .ok acc => .ok (.triple ((acc.X.map NArr.rows).getD []) (acc.y.map NArr.rows)
            (acc.params.map (fun kv => (kv.1, .arr kv.2.rows))))) → cs = .ok out → Unlabelled out := by
    rintro cs rfl hc
    cases h1 : outs.mapM StepOut.asCont with
    | error e => rw [h1] at hc; cases hc
    | ok cs =>
      rw [h1] at hc
      simp only at hc
      have hcs : ∀ c ∈ cs, c.2.y = none := by
        intro c hm
        obtain ⟨⟨idx, o⟩, ho, hoc⟩ := mapM_mem h1 c hm
        have hu := h _ ho
        simp only [StepOut.asCont] at hoc
        cases o with
        | arr X => simp [StepOut.asContainer] at hoc
        | other => simp [StepOut.asContainer] at hoc
        | pair X p =>
          simp only [StepOut.asContainer] at hoc
          cases h2 : paramArrs p with
          | error e => rw [h2] at hoc; simp at hoc
          | ok q => rw [h2] at hoc; cases hoc; rfl
        | triple X y p =>
          simp only [StepOut.asContainer] at hoc
          cases h2 : paramArrs p with
          | error e => rw [h2] at hoc; simp at hoc
          | ok q => rw [h2, hu X y p rfl] at hoc; cases hoc; rfl
      cases h2 : mergeContainers n cs with
      | error e => rw [h2] at hc; cases hc
      | ok acc =>
        rw [h2] at hc
        cases hc
        have hacc : acc.y = none := by
          cases cs with
          | nil => cases h2
          | cons d cs => exact mergeSteps_noLabels hcs rfl h2
        intro X y p hE
        simp only [StepOut.triple.injEq, hacc] at hE
        exact hE.2.1.symm
  unfold mergeStepOuts at hr
  split at hr
  · cases hr
  · split at hr
    · cases hr
    · split at hr
      · cases hr
      · cases hr; intro X y p hE; cases hE
  · cases hr
  · exact key _ rfl hr

theorem perDomainOut_noLabels [Cell α] {s : Sel α σ} (hn : NoLabels s.est) {c : Cont α} {y y1 : Option (List Num)} {p : Dict}
    {calls : List (Call α)} {fs : List (Int × σ)} {o : StepOut α} (hr : s.perDomainFitTransformOut c y p = (calls, .ok ((fs, o), y1))) :
    Unlabelled o := by
  unfold Sel.perDomainFitTransformOut at hr
  cases hf : s.est.hasFitTransform with
  | true =>
    rw [hf, if_pos rfl] at hr
    rcases h1 : s.perDomainFit .fitTransform c y p with ⟨calls1, e | ⟨r, y2⟩⟩
    · rw [h1] at hr; cases hr
    · rw [h1] at hr
      simp only [Prod.mk.injEq] at hr
      cases h2 : mergeStepOuts c.features.length (r.map (fun o => (o.2.1, o.2.2.2))) with
      | error e => rw [h2] at hr; exact absurd hr.2 (by simp)
      | ok out =>
        rw [h2] at hr
        simp only [Except.ok.injEq, Prod.mk.injEq] at hr
        obtain ⟨-, ⟨-, rfl⟩, -⟩ := hr
        refine merge_noLabels (fun o ho => ?_) h2
        obtain ⟨q, hq, rfl⟩ := List.mem_map.1 ho
        exact perDomainFit_noLabels hn h1 q hq
  | false =>
    rw [hf, if_neg (by simp)] at hr
    cases h1 : s.ownMask y p with
    | error e => rw [h1] at hr; cases hr
    | ok y2 => rw [h1] at hr; cases hr

theorem sstOut_noLabels [Cell α] {s : SST α σ} (ns : NoLabels s.source) (nt : NoLabels (s.target.getD s.source)) {c : Cont α}
    {y : Option (List Num)} {p : Dict} {calls : List (Call α)} {fs : σ × σ} {o : StepOut α}
    (hr : s.fitTransformOut c y p = (calls, .ok (fs, o))) : Unlabelled o := by
  unfold SST.fitTransformOut at hr
  cases hf : s.source.hasFitTransform with
  | true =>
    rw [hf, if_pos rfl] at hr
    rcases h1 : s.fit .fitTransform c y p with ⟨calls1, e | r⟩
    · rw [h1] at hr; cases hr
    · rw [h1] at hr
      simp only [Prod.mk.injEq] at hr
      cases h2 : mergeStepOuts c.features.length [(flatnonzero r.srcMask, r.srcOut), (flatnonzero (r.srcMask.map (!·)), r.tgtOut)] with
      | error e => rw [h2] at hr; exact absurd hr.2 (by simp)
      | ok out =>
        rw [h2] at hr
        simp only [Except.ok.injEq, Prod.mk.injEq] at hr
        obtain ⟨-, -, rfl⟩ := hr
        obtain ⟨n1, n2⟩ := sstFit_noLabels ns nt h1
        refine merge_noLabels (fun o ho => ?_) h2
        simp only [List.mem_cons, List.not_mem_nil, or_false] at ho
        rcases ho with rfl | rfl
        · exact n1
        · exact n2
  | false =>
    rw [hf, if_neg (by simp)] at hr
    rcases h1 : s.fit .fit c y p with ⟨calls1, e | r⟩
    · rw [h1] at hr; cases hr
    · rw [h1] at hr; cases hr

theorem stepFit_rename {f : Nat → Nat} {Q : σ → σ → Prop} {st : Step α σ} (h : StepNames f Q st) (c : Cont α)
    (hc : Discrete c.labels) (y : Option (List Num)) (hy : Discrete y) (p : Dict) :
    NamesRun f (fun a b => FittedRel Q a.1 b.1 ∧ b.2 = renameY f a.2) (st.fit c y p) (st.fit (renameCont f c) (renameY f y) p) := by
  cases st with
  | shared s =>
    simp only [Step.fit]
    obtain ⟨calls, ⟨e, h3, h4⟩ | ⟨a, b, h3, h4, k1, k2⟩⟩ := run_cases (sharedFit_rename (s := s) h .fit c hc y hy p)
    · rw [h3, h4]; exact ⟨rfl, rfl⟩
    · rw [h3, h4]; exact ⟨rfl, k1.1, k2.1⟩
  | perDomain s =>
    simp only [Step.fit]
    obtain ⟨calls, ⟨e, h3, h4⟩ | ⟨a, b, h3, h4, k1, k2⟩⟩ := run_cases (perDomainFit_rename (s := s) h.1 .fit c hc y hy p)
    · rw [h3, h4]; exact ⟨rfl, rfl⟩
    · rw [h3, h4]; exact ⟨rfl, dom_fits k1, k2.1⟩
  | select side s =>
    simp only [Step.fit]
    obtain ⟨calls, ⟨e, h3, h4⟩ | ⟨a, b, h3, h4, k1⟩⟩ := run_cases (selectFit_rename (s := s) h side c hc y hy p)
    · rw [h3, h4]; exact ⟨rfl, rfl⟩
    · rw [h3, h4]; exact ⟨rfl, k1, rfl⟩
  | sourceTarget s =>
    simp only [Step.fit]
    obtain ⟨calls, ⟨e, h3, h4⟩ | ⟨a, b, h3, h4, -, k1, k2⟩⟩ := run_cases (sstFit_rename (s := s) h.1.1 h.2.1 .fit c hc y hy p)
    · rw [h3, h4]; exact ⟨rfl, rfl⟩
    · rw [h3, h4]; exact ⟨rfl, ⟨k1.1, k2.1⟩, rfl⟩

theorem unlabelled_discrete {o : StepOut α} (h : Unlabelled o) : DiscreteOut o := fun X y p e => by
  rw [h X y p e]; exact discrete_none

theorem stepFitTransform_rename [Cell α] {f : Nat → Nat} {Q : σ → σ → Prop} {st : Step α σ} (h : StepNames f Q st) (c : Cont α)
    (hc : Discrete c.labels) (y : Option (List Num)) (hy : Discrete y) (p : Dict) :
    NamesRun f (fun a b => FittedRel Q a.1 b.1 ∧ b.2.1 = renameCont f a.2.1 ∧ b.2.2 = renameY f a.2.2 ∧ Discrete a.2.1.labels ∧ Discrete a.2.2)
      (st.fitTransform c y p) (st.fitTransform (renameCont f c) (renameY f y) p) := by
  cases st with
  | shared s =>
    simp only [Step.fitTransform]
    obtain ⟨calls, ⟨e, h3, h4⟩ | ⟨⟨⟨a1, a2⟩, a3⟩, ⟨⟨b1, b2⟩, b3⟩, h3, h4, ⟨k1, k2, k5⟩, k3, k4⟩⟩ :=
      run_cases (sharedFitTransformOut_rename (s := s) h c hc y hy p)
    · rw [h3, h4]; exact ⟨rfl, rfl⟩
    · rw [h3, h4]
      simp only at k1 k2 k3 k4 k5
      subst k2
      refine ⟨rfl, ?_⟩
      simp only [mergeIn_rename]
      cases h6 : c.mergeIn a2 with
      | error e => exact rfl
      | ok c2 => exact ⟨k1, rfl, k3, mergeIn_discrete hc k5 h6, k4⟩
  | perDomain s =>
    simp only [Step.fitTransform]
    obtain ⟨calls, ⟨e, h3, h4⟩ | ⟨⟨⟨a1, a2⟩, a3⟩, ⟨⟨b1, b2⟩, b3⟩, h3, h4, ⟨k1, k2⟩, k3, k4⟩⟩ :=
      run_cases (perDomainFitTransformOut_rename (s := s) h.1 h.2 c hc y hy p)
    · rw [h3, h4]; exact ⟨rfl, rfl⟩
    · rw [h3, h4]
      simp only at k1 k2 k3 k4
      have k5 : DiscreteOut a2 := unlabelled_discrete (perDomainOut_noLabels h.2 h3)
      have hu : renameOut f a2 = a2 := renameOut_noLabels f (perDomainOut_noLabels h.2 h3)
      rw [← hu] at k2
      subst k2
      refine ⟨rfl, ?_⟩
      simp only [mergeIn_rename]
      cases h6 : c.mergeIn a2 with
      | error e => exact rfl
      | ok c2 => exact ⟨k1, rfl, k3, mergeIn_discrete hc k5 h6, k4⟩
  | select side s =>
    simp only [Step.fitTransform]
    obtain ⟨calls, ⟨e, h3, h4⟩ | ⟨a, b, h3, h4, k1, k2, k3⟩⟩ := run_cases (selectFitTransform_rename (s := s) h side c hc y hy p)
    · rw [h3, h4]; exact ⟨rfl, rfl⟩
    · rw [h3, h4]; exact ⟨rfl, k1, k2, rfl, k3, hy⟩
  | sourceTarget s =>
    simp only [Step.fitTransform]
    obtain ⟨calls, ⟨e, h3, h4⟩ | ⟨⟨a1, a2⟩, ⟨b1, b2⟩, h3, h4, k1, k2⟩⟩ :=
      run_cases (sstFitTransformOut_rename (s := s) h.1.1 h.2.1 h.1.2 h.2.2 c hc y hy p)
    · rw [h3, h4]; exact ⟨rfl, rfl⟩
    · rw [h3, h4]
      simp only at k1 k2
      have k5 : DiscreteOut a2 := unlabelled_discrete (sstOut_noLabels h.1.2 h.2.2 h3)
      have hu : renameOut f a2 = a2 := renameOut_noLabels f (sstOut_noLabels h.1.2 h.2.2 h3)
      rw [← hu] at k2
      subst k2
      refine ⟨rfl, ?_⟩
      simp only [mergeIn_rename]
      cases h6 : c.mergeIn a2 with
      | error e => exact rfl
      | ok c2 => exact ⟨k1, rfl, rfl, mergeIn_discrete hc k5 h6, hy⟩

theorem fitSteps_rename [Cell α] {f : Nat → Nat} {Q : σ → σ → Prop} (p : Dict) : (steps : List ((String → Bool) × Step α σ)) →
    (∀ st ∈ steps, StepNames f Q st.2) → ∀ (c : Cont α), Discrete c.labels → ∀ (y : Option (List Num)), Discrete y →
    NamesRun f (fun a b => List.Forall₂ (FittedRel Q) a.1 b.1 ∧ b.2 = renameY f a.2)
      (fitSteps steps c y p) (fitSteps steps (renameCont f c) (renameY f y) p)
  | [], _, c, _, y, _ => ⟨rfl, List.Forall₂.nil, rfl⟩
  | [(keep, st)], hst, c, hc, y, hy => by
    simp only [fitSteps]
    obtain ⟨calls, ⟨e, h3, h4⟩ | ⟨a, b, h3, h4, k1, k2⟩⟩ :=
      run_cases (stepFit_rename (hst _ List.mem_cons_self) c hc y hy (p.filter (fun kv => keep kv.1)))
    · rw [h3, h4]; exact ⟨rfl, rfl⟩
    · rw [h3, h4]; exact ⟨rfl, List.Forall₂.cons k1 List.Forall₂.nil, k2⟩
  | (keep, st) :: st2 :: rest, hst, c, hc, y, hy => by
    simp only [fitSteps]
    obtain ⟨calls, ⟨e, h3, h4⟩ | ⟨⟨a1, a2, a3⟩, ⟨b1, b2, b3⟩, h3, h4, k1, k2, k3, k6, k7⟩⟩ :=
      run_cases (stepFitTransform_rename (hst _ List.mem_cons_self) c hc y hy (p.filter (fun kv => keep kv.1)))
    · rw [h3, h4]; exact ⟨rfl, rfl⟩
    · rw [h3, h4]
      simp only at k1 k2 k3 k6 k7
      subst k2 k3
      simp only
      obtain ⟨calls2, ⟨e, h5, h6⟩ | ⟨a, b, h5, h6, k4, k5⟩⟩ :=
        run_cases (fitSteps_rename p (st2 :: rest) (fun s hs => hst s (List.mem_cons_of_mem _ hs)) a2 k6 a3 k7)
      · rw [h5, h6]; exact ⟨by simp, rfl⟩
      · rw [h5, h6]; exact ⟨by simp, List.Forall₂.cons k1 k4, k5⟩

/-! ### Evaluation -/

theorem transformQuery_rename {f : Nat → Nat} {Q : σ → σ → Prop} {e : Est α σ} (h : NameFree f Q e) {a b : σ} (hab : Q a b) (c : Call α) :
    e.transformQuery a c = e.transformQuery b c := by
  unfold Est.transformQuery
  rcases Sides.py_cases (h.transform a b hab c.X c.params) with ⟨e, h1, h2⟩ | ⟨o, o', h1, h2, rfl, -⟩
  · rw [h1, h2]
  · rw [h1, h2]; cases o <;> rfl

theorem perDomainOutputs_rename {f : Nat → Nat} {Q : σ → σ → Prop} {e : Est α σ} (h : NameFree f Q e) {l l' : List (Int × σ)}
    (hl : List.Forall₂ (fun u v => u.1 = v.1 ∧ Q u.2 v.2) l l') (X : List α) (y : Option (List Num)) (p : Dict) (sd ds : List Int) :
    perDomainOutputs l e.transformQuery X y p sd ds = perDomainOutputs l' e.transformQuery X y p sd ds := by
  induction ds with
  | nil => rfl
  | cons d ds ih =>
    simp only [perDomainOutputs, ih]
    rcases Order.lookup_fits hl d with ⟨h1, h2⟩ | ⟨a, b, h1, h2, hab⟩
    · rw [h1, h2]
    · rw [h1, h2]
      simp only
      cases takeCall X y p (domainIdx sd d) with
      | error e => rfl
      | ok call => simp only [transformQuery_rename h hab]

theorem stepTransform_rename [Cell α] {f : Nat → Nat} {Q : σ → σ → Prop} {st : Step α σ} (h : StepNames f Q st) {a b : Fitted σ}
    (hab : FittedRel Q a b) (X : List α) (p : Dict) : st.transform a X p = st.transform b X p := by
  have hone : ∀ (s : Sel α σ), NameFree f Q s.est → ∀ g g', Q g g' →
      (match s.sharedTransform g X p with
        | .error e => (.error e : Py (List α))
        | .ok (.arr X') => .ok X'
        | .ok _ => .error .typeError) =
      (match s.sharedTransform g' X p with
        | .error e => (.error e : Py (List α))
        | .ok (.arr X') => .ok X'
        | .ok _ => .error .typeError) := by
    intro s hs g g' hg
    rcases Sides.py_cases (sharedTransform_rename hs hg X p) with ⟨e, h1, h2⟩ | ⟨o, o', h1, h2, rfl, -⟩
    · rw [h1, h2]
    · rw [h1, h2]; cases o <;> rfl
  cases st with
  | shared s => cases a <;> cases b <;> first | exact hab.elim | exact hone s h _ _ hab | rfl
  | select side s => cases a <;> cases b <;> first | exact hab.elim | exact hone s h _ _ hab | rfl
  | perDomain s =>
    cases a <;> cases b <;> first | exact hab.elim | rfl | skip
    simp only [Step.transform, Sel.perDomainRoute]
    simp only [perDomainOutputs_rename h.1 hab]
  | sourceTarget s =>
    cases a <;> cases b <;> first | exact hab.elim | rfl | skip
    simp only [Step.transform, SST.route, SST.sideOutputs, transformQuery_rename h.1.1 hab.1, transformQuery_rename h.2.1 hab.2]

theorem stepsRoute_rename [Cell α] {f : Nat → Nat} {Q : σ → σ → Prop} {R : β → β → Prop} {req : Request} {query : σ → Call α → Py β}
    (hq : ∀ g g', Q g g' → ∀ c, Discrete c.y → RelPy R (query g c) (query g' (renameCall f c))) {keepL : String → Bool} {s : Sel α σ} {g g' : σ} (hg : Q g g')
    (y : Option (List Num)) (hy : Discrete y) (p : Dict) {steps steps' : List ((String → Bool) × Step α σ × Fitted σ)}
    (hs : List.Forall₂ (fun a b => a.1 = b.1 ∧ a.2.1 = b.2.1 ∧ StepNames f Q a.2.1 ∧ FittedRel Q a.2.2 b.2.2) steps steps') (X : List α) :
    RelPy R (stepsRoute steps (keepL, s, g) req query X y p) (stepsRoute steps' (keepL, s, g') req query X (renameY f y) p) := by
  induction hs generalizing X with
  | nil =>
    simp only [stepsRoute, Sel.sharedRoute]
    cases prepareRouting s.final s.est.hasTransform req (p.filter (fun kv => keepL kv.1)) with
    | error e => exact rfl
    | ok routed =>
      simp only [selRemove_rename]
      rcases h1 : Sel.removeMasked s.est.hasTransform X y routed with e | ⟨a, b, c⟩
      · exact rfl
      · exact hq g g' hg ⟨a, b, c⟩ (selRemove_discrete hy h1)
  | @cons a b t t' hab _ ih =>
    obtain ⟨ka, sa, fa⟩ := a
    obtain ⟨kb, sb, fb⟩ := b
    obtain ⟨h1, h2, h3, h4⟩ := hab
    simp only at h1 h2 h3 h4
    subst h1 h2
    simp only [stepsRoute, stepTransform_rename h3 h4]
    cases sa.transform fb X (p.filter (fun kv => ka kv.1)) with
    | error e => exact rfl
    | ok X' => exact ih X'

end Names
end Skada

/-
Lemmas for C146: training and evaluation on the heap, as seen through the abstraction.
-/
import Verif.Props.Hooks
import Verif.Props.DeepTrain
import Verif.Spec.Life

namespace Skada.NetLife
open Np Spec Hk

variable {Θ α β φ O : Type}

/-- The world as the user sees it. -/
def seen (n : Net O) : NetSeen O := ⟨n.base, n.layer, n.warm, n.module.isSome, n.opt⟩

/-- The world as the user sees it. -/
def lives (W : World Θ φ O) : Lives Θ O := ⟨(abs W.heap).nets, W.nets.map seen⟩

/-- The invariant of reachable worlds. -/
structure Ok (W : World Θ φ O) : Prop where
  heap : Inv W.heap
  bases : ∀ n ∈ W.nets, n.base < W.heap.bases.length
  modules : ∀ n ∈ W.nets, ∀ w, n.module = some w → (abs W.heap).wrappers[w]? = some (n.base, n.layer)

/-- Predictions of a batch. -/
def Code.out (C : Code Θ α β φ O) (θ : Θ) (x : List α) : List β := x.map (C.g θ)

/-- Features of a batch. -/
def Code.feat (C : Code Θ α β φ O) (θ : Θ) (n : String) (x : List α) : List φ := x.map (C.f θ n)

theorem exec_abs (C : Code Θ α β φ O) {H : Heap Θ (List φ)} (I : Inv H) (o : Hk.Op Θ (List α)) :
    Inv (C.exec H o).1 ∧ execNets C.out C.feat (abs H) o = (abs (C.exec H o).1, (C.exec H o).2) :=
  Hk.exec_refines C.out C.feat I o

theorem paramsOf_abs {H : Heap Θ (List φ)} {w b : Nat} {layer : Option String} {N : Network Θ} (hw : (abs H).wrappers[w]? = some (b, layer)) (hN : (abs H).nets[b]? = some N) :
    paramsOf H w = some N.params := by
  simp only [Hk.abs, List.getElem?_map, Option.map_eq_some_iff] at hw hN
  obtain ⟨W, h1, h2⟩ := hw
  obtain ⟨B, h3, rfl⟩ := hN
  cases h2
  simp [paramsOf, h1, h3, view]

theorem set_same {γ : Type} {l : List γ} {i : Nat} {a : γ} (h : l[i]? = some a) : l.set i a = l := by
  apply List.ext_getElem?
  intro j
  rw [List.getElem?_set]
  split
  · rename_i e
    subst e
    rw [h, if_pos (List.getElem?_eq_some_iff.1 h).1]
  · rfl

/-- Training, seen from outside. -/
theorem train_abs (C : Code Θ α β φ O) (batches : List (List α)) {H : Heap Θ (List φ)} (I : Inv H) (o : O) {w b : Nat} {layer : Option String} {N : Network Θ}
    (hw : (abs H).wrappers[w]? = some (b, layer)) (hN : (abs H).nets[b]? = some N) :
    Inv (train C H w o batches).1 ∧ (abs (train C H w o batches).1).wrappers = (abs H).wrappers ∧
      (abs (train C H w o batches).1).nets = (if batches = [] then (abs H).nets else if layerOk N.layers layer then
          (abs H).nets.set b { N with params := (trained C N.params o batches).1, traced := N.watched }
        else (abs H).nets.set b { N with traced := N.watched }) ∧
      (train C H w o batches).2 = (if batches = [] then (o, .ok ()) else if layerOk N.layers layer then ((trained C N.params o batches).2, .ok ())
        else (o, .error .keyError)) := by
  induction batches generalizing H o N with
  | nil => exact ⟨I, rfl, rfl, rfl⟩
  | cons x xs ih =>
    have hlt : b < (abs H).nets.length := (List.getElem?_eq_some_iff.1 hN).1
    obtain ⟨I1, h1⟩ := exec_abs C I (.forward w .fit true x)
    simp only [execNets, hw, hN, Bool.and_true] at h1
    obtain ⟨hA, hR⟩ := Prod.mk.inj h1
    rw [train]
    rcases hE : C.exec H (.forward w .fit true x) with ⟨H1, r⟩
    rw [hE] at I1 hA hR
    simp only at I1 hA hR
    by_cases hl : layerOk N.layers layer
    · have hr : ∃ v, r = .ok v := by
        rw [← hR]
        unfold answer
        rcases layer with _ | n
        · exact ⟨_, rfl⟩
        · simp only [hl n rfl, if_true]
          exact ⟨_, rfl⟩
      obtain ⟨v, rfl⟩ := hr
      have hw1 : (abs H1).wrappers[w]? = some (b, layer) := by rw [← hA]; exact hw
      have hN1 : (abs H1).nets[b]? = some { N with traced := N.watched } := by
        rw [← hA]
        exact List.getElem?_set_self hlt
      simp only [paramsOf_abs hw1 hN1]
      obtain ⟨I2, h2⟩ := exec_abs C I1 (.step w (fun _ => (C.upd x N.params o).1))
      simp only [execNets, hw1] at h2
      have hA2 := (Prod.mk.inj h2).1
      have hw2 : (abs (C.exec H1 (.step w (fun _ => (C.upd x N.params o).1))).1).wrappers[w]? = some (b, layer) := by rw [← hA2]; exact hw1
      have hnets : (abs (C.exec H1 (.step w (fun _ => (C.upd x N.params o).1))).1).nets =
          (abs H).nets.set b { N with params := (C.upd x N.params o).1, traced := N.watched } := by
        rw [← hA2, ← hA]
        simp only
        apply List.ext_getElem?
        intro i
        rw [List.getElem?_modify, List.getElem?_set, List.getElem?_set]
        by_cases h : b = i
        · subst h
          simp [hlt]
        · simp [h]
      have hN2 : (abs (C.exec H1 (.step w (fun _ => (C.upd x N.params o).1))).1).nets[b]? = some { N with params := (C.upd x N.params o).1, traced := N.watched } := by
        rw [hnets]
        exact List.getElem?_set_self hlt
      obtain ⟨a1, a2, a3, a4⟩ := ih I2 (C.upd x N.params o).2 hw2 hN2
      refine ⟨a1, ?_, ?_, ?_⟩
      · rw [a2, ← hA2, ← hA]
      · rw [a3, hnets]
        simp only [hl, if_true, reduceCtorEq, if_false]
        by_cases hx : xs = []
        · subst hx
          simp [trained]
        · simp [hx, trained]
      · rw [a4]
        simp only [hl, if_true, reduceCtorEq, if_false]
        by_cases hx : xs = []
        · subst hx
          simp [trained]
        · simp [hx, trained]
    · have hr : r = .error .keyError := by
        rw [← hR]
        unfold answer
        rcases layer with _ | n
        · exact absurd (by intro n h; cases h) hl
        · have : n ∉ N.layers := fun h => hl (by intro m hm; cases hm; exact h)
          simp only [this, if_false]
      subst hr
      simp only [reduceCtorEq, if_false, hl]
      exact ⟨I1, by rw [← hA], by rw [← hA], trivial⟩

/-- Evaluation, seen from outside. -/
theorem evaluate_abs (C : Code Θ α β φ O) (mode : Mode) (batches : List (List α)) {H : Heap Θ (List φ)} (I : Inv H) {w b : Nat} {layer : Option String} {N : Network Θ}
    (hw : (abs H).wrappers[w]? = some (b, layer)) (hN : (abs H).nets[b]? = some N) :
    Inv (evaluate C H w mode batches).1 ∧ (abs (evaluate C H w mode batches).1).wrappers = (abs H).wrappers ∧
      (abs (evaluate C H w mode batches).1).nets = (if batches = [] then (abs H).nets else (abs H).nets.set b { N with traced := false }) ∧
      (evaluate C H w mode batches).2 =
        (batches.mapM (fun x => answer C.out C.feat N layer mode x)).map (List.flatMap Option.toList) := by
  induction batches generalizing H N with
  | nil => exact ⟨I, rfl, rfl, rfl⟩
  | cons x xs ih =>
    have hlt : b < (abs H).nets.length := (List.getElem?_eq_some_iff.1 hN).1
    obtain ⟨I1, h1⟩ := exec_abs C I (.forward w mode false x)
    simp only [execNets, hw, hN, Bool.and_false] at h1
    obtain ⟨hA, hR⟩ := Prod.mk.inj h1
    rw [evaluate]
    rcases hE : C.exec H (.forward w mode false x) with ⟨H1, r⟩
    rw [hE] at I1 hA hR
    simp only at I1 hA hR
    rw [List.mapM_cons, hR]
    rcases r with e | r
    · exact ⟨I1, by rw [← hA], by rw [← hA]; simp, rfl⟩
    · have hw1 : (abs H1).wrappers[w]? = some (b, layer) := by rw [← hA]; exact hw
      have hN1 : (abs H1).nets[b]? = some { N with traced := false } := by
        rw [← hA]
        exact List.getElem?_set_self hlt
      obtain ⟨a1, a2, a3, a4⟩ := ih I1 hw1 hN1
      have hnets : (abs (evaluate C H1 w mode xs).1).nets = (abs H).nets.set b { N with traced := false } := by
        rw [a3, ← hA]
        by_cases hx : xs = []
        · simp [hx]
        · simp [hx]
      have hans : ∀ x, answer C.out C.feat { N with traced := false } layer mode x =
          answer C.out C.feat N layer mode x := by intro x; rfl
      simp only [hans] at a4
      rcases hV : evaluate C H1 w mode xs with ⟨H2, r2⟩
      rw [hV] at a1 a2 hnets a4
      simp only at a1 a2 hnets a4
      have hw' : (abs H2).wrappers = (abs H).wrappers := by rw [a2, ← hA]
      rcases r2 with e | r2
      · simp only [hV]
        refine ⟨a1, hw', by simpa using hnets, ?_⟩
        simp only [bind, Except.bind]
        rcases hm : List.mapM (fun x => answer C.out C.feat N layer mode x) xs with e' | l
        · rw [hm] at a4
          exact a4
        · rw [hm] at a4
          cases a4
      · simp only [hV]
        refine ⟨a1, hw', by simpa using hnets, ?_⟩
        simp only [bind, Except.bind]
        rcases hm : List.mapM (fun x => answer C.out C.feat N layer mode x) xs with e' | l
        · rw [hm] at a4
          cases a4
        · rw [hm] at a4
          simp only [Except.map, Except.ok.injEq] at a4
          rw [a4]
          rfl

end Skada.NetLife

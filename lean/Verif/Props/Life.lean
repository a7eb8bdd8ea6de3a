/-
Property C146: the life of nets: fitting, warm start, partial fits, clones, predictions and features.
-/
import Verif.Lemmas.Life

namespace Skada
open Np Spec NetLife

variable {Θ α β φ O : Type}

theorem NetLife.chunks_nil {γ : Type} {bs : Nat} {rows : List γ} : Deep.chunks bs rows.length rows = [] ↔ rows = [] := by
  cases rows <;> simp [Deep.chunks]

theorem NetLife.mapM_ok {γ δ : Type} (h : γ → Py δ) (k : γ → δ) (l : List γ) (hk : ∀ x, h x = .ok (k x)) : l.mapM h = .ok (l.map k) := by
  induction l with
  | nil => rfl
  | cons x l ih => rw [List.mapM_cons, hk, ih]; rfl

theorem NetLife.ok_set {W : World Θ φ O} {H : Hk.Heap Θ (List φ)} (hW : Ok W) (I : Hk.Inv H) (hb : (Hk.abs H).nets.length = (Hk.abs W.heap).nets.length)
    (hw : (Hk.abs H).wrappers = (Hk.abs W.heap).wrappers) {i : Nat} {n : Net O} (hn : W.nets[i]? = some n) (o : O) : Ok (⟨H, W.nets.set i { n with opt := o }⟩ : World Θ φ O) := by
  have hlen : H.bases.length = W.heap.bases.length := by simpa [Hk.abs] using hb
  have hm := List.mem_of_getElem? hn
  refine ⟨I, fun n' h => ?_, fun n' h w hw' => ?_⟩
  · simp only at h ⊢
    rw [hlen]
    rcases List.mem_or_eq_of_mem_set h with h | h
    · exact hW.bases n' h
    · rw [h]; exact hW.bases n hm
  · simp only at h ⊢
    rw [hw]
    rcases List.mem_or_eq_of_mem_set h with h | h
    · exact hW.modules n' h w hw'
    · subst h
      exact hW.modules n hm w hw'

theorem NetLife.ok_heap {W : World Θ φ O} {H : Hk.Heap Θ (List φ)} (hW : Ok W) (I : Hk.Inv H) (hb : (Hk.abs H).nets.length = (Hk.abs W.heap).nets.length)
    (hw : (Hk.abs H).wrappers = (Hk.abs W.heap).wrappers) : Ok ({ W with heap := H } : World Θ φ O) := by
  have hlen : H.bases.length = W.heap.bases.length := by simpa [Hk.abs] using hb
  exact ⟨I, fun n h => by simpa [hlen] using hW.bases n h, fun n h w hw' => by simpa [hw] using hW.modules n h w hw'⟩

theorem NetLife.network_of {W : World Θ φ O} (hW : Ok W) {n : Net O} (hm : n ∈ W.nets) : ∃ N, (Hk.abs W.heap).nets[n.base]? = some N := by
  have h : n.base < (Hk.abs W.heap).nets.length := by simpa [Hk.abs] using hW.bases n hm
  exact ⟨_, List.getElem?_eq_getElem h⟩

theorem NetLife.ensure_abs (C : Code Θ α β φ O) {W : World Θ φ O} (hW : Ok W) {i : Nat} {n : Net O} (hn : W.nets[i]? = some n) (again : Bool) :
    Ok (ensure C W i n again).1 ∧ lives (ensure C W i n again).1 = (started C (lives W) i (seen n) again).1 ∧
      seen (ensure C W i n again).2 = (started C (lives W) i (seen n) again).2 ∧ (ensure C W i n again).1.nets[i]? = some (ensure C W i n again).2 ∧
      ∃ w, (ensure C W i n again).2.module = some w := by
  have hm := List.mem_of_getElem? hn
  have hi : i < W.nets.length := (List.getElem?_eq_some_iff.1 hn).1
  unfold ensure started
  by_cases h : (n.module.isSome && !again) = true
  · have h' : ((seen n).started && !again) = true := h
    rw [if_pos h, if_pos h']
    have : n.module.isSome = true := by
      cases hs : n.module.isSome <;> simp [hs] at h ⊢
    exact ⟨hW, rfl, rfl, hn, Option.isSome_iff_exists.1 this⟩
  · have h' : ¬ ((seen n).started && !again) = true := h
    rw [if_neg h, if_neg h']
    obtain ⟨N, hN⟩ := NetLife.network_of hW hm
    obtain ⟨I1, h1⟩ := exec_abs C hW.heap (.wrap n.base n.layer)
    simp only [execNets, hN] at h1
    have hA := (Prod.mk.inj h1).1
    have hlen : (C.exec W.heap (.wrap n.base n.layer)).1.bases.length = W.heap.bases.length := by
      have := congrArg (fun S => S.nets.length) hA
      simpa [Hk.abs] using this.symm
    have hwl : (Hk.abs W.heap).wrappers.length = W.heap.wrappers.length := by simp [Hk.abs]
    refine ⟨⟨I1, fun n' hn' => ?_, fun n' hn' w hw => ?_⟩, ?_, rfl, ?_, _, rfl⟩
    · simp only [initNet] at hn' ⊢
      rw [hlen]
      rcases List.mem_or_eq_of_mem_set hn' with h | h
      · exact hW.bases n' h
      · rw [h]; exact hW.bases n hm
    · simp only [initNet] at hn' ⊢
      rw [← hA]
      rcases List.mem_or_eq_of_mem_set hn' with h | h
      · have := hW.modules n' h w hw
        simp only
        rw [List.getElem?_append_left (List.getElem?_eq_some_iff.1 this).1]
        exact this
      · subst h
        simp only [Option.some.injEq] at hw
        subst hw
        simp only
        rw [← hwl, List.getElem?_append_right le_rfl]
        simp
    · simp only [initNet, lives, ← hA, List.map_set]
      congr 1
      apply List.ext_getElem?
      intro j
      rw [List.getElem?_set, List.getElem?_modify]
      by_cases hj : n.base = j
      · have hlt := (List.getElem?_eq_some_iff.1 hN).1
        subst hj
        simp only [seen, if_true, hlt, hN]
        rfl
      · have : (seen n).network ≠ j := hj
        simp [hj, this]
    · simp only [initNet]
      exact List.getElem?_set_self hi

theorem NetLife.learn_eq (C : Code Θ α β φ O) (W : World Θ φ O) (i : Nat) {n : Net O} {w : Nat} (hw : n.module = some w) (batches : List (List α)) {H : Hk.Heap Θ (List φ)} {o : O}
    {r : Py Unit} (hT : train C W.heap w n.opt batches = (H, o, r)) :
    learn C W i n batches = (⟨H, W.nets.set i { n with opt := o }⟩, match (generalizing := false) r with | .error e => .error (.py e) | .ok _ => .ok .done) := by
  unfold learn
  split
  · rename_i h
    rw [hw] at h
    cases h
  · rename_i w' h
    rw [hw] at h
    cases h
    rw [hT]
    cases r <;> rfl

theorem NetLife.learn_abs (C : Code Θ α β φ O) {W : World Θ φ O} (hW : Ok W) {i w : Nat} {n : Net O} (hn : W.nets[i]? = some n) (hw : n.module = some w) (batches : List (List α)) :
    Ok (learn C W i n batches).1 ∧ learned C (lives W) i (seen n) batches = (lives (learn C W i n batches).1, (learn C W i n batches).2) := by
  have hm := List.mem_of_getElem? hn
  obtain ⟨N, hN⟩ := NetLife.network_of hW hm
  obtain ⟨a1, a2, a3, a4⟩ := train_abs C batches hW.heap n.opt (hW.modules n hm w hw) hN
  rcases hT : train C W.heap w n.opt batches with ⟨H, o, r⟩
  rw [hT] at a1 a2 a3 a4
  simp only at a1 a2 a3 a4
  have hlen : (Hk.abs H).nets.length = (Hk.abs W.heap).nets.length := by
    rw [a3]
    split_ifs <;> simp
  have hS : (lives W).networks[(seen n).network]? = some N := hN
  have hsame : W.nets.set i n = W.nets := set_same hn
  have hL := NetLife.learn_eq C W i hw batches hT
  rw [hL]
  unfold learned
  rw [hS]
  simp only
  by_cases hb : batches = []
  · simp only [hb, if_true, Prod.mk.injEq] at a3 a4 ⊢
    obtain ⟨rfl, rfl⟩ := a4
    refine ⟨NetLife.ok_set hW a1 hlen a2 hn _, ?_, rfl⟩
    simp only [lives, a3, hsame]
  · simp only [hb, if_false] at a3 a4 ⊢
    by_cases hl : layerOk N.layers n.layer
    · have hl' : layerOk N.layers (seen n).layer := hl
      simp only [hl, hl', if_true, Prod.mk.injEq] at a3 a4 ⊢
      obtain ⟨rfl, rfl⟩ := a4
      refine ⟨NetLife.ok_set hW a1 hlen a2 hn _, ?_, rfl⟩
      simp only [lives, a3, List.map_set]
      rfl
    · have hl' : ¬ layerOk N.layers (seen n).layer := hl
      simp only [hl, hl', if_false, Prod.mk.injEq] at a3 a4 ⊢
      obtain ⟨rfl, rfl⟩ := a4
      refine ⟨NetLife.ok_set hW a1 hlen a2 hn _, ?_, rfl⟩
      simp only [lives, a3, hsame]
      rfl

/-- The answer to the caller. -/
def NetLife.told (r : Py (List (List β × Option (List φ)))) : Except Err (List (List β × Option (List φ))) :=
  match r with
  | .error e => .error (.py e)
  | .ok rs => if rs.isEmpty then .error (.py .valueError) else .ok rs

theorem NetLife.ask_eq (C : Code Θ α β φ O) (W : World Θ φ O) {n : Net O} {w : Nat} (hw : n.module = some w) (mode : Hk.Mode) {bs : Nat} (hbs : bs ≠ 0) (rows : List α)
    {H : Hk.Heap Θ (List φ)} {r : Py (List (List β × Option (List φ)))} (hE : evaluate C W.heap w mode (Deep.chunks bs rows.length rows) = (H, r)) :
    ask C W n mode bs rows = ({ W with heap := H }, NetLife.told r) := by
  unfold ask
  split
  · rename_i h
    rw [hw] at h
    cases h
  · rename_i w' h
    rw [hw] at h
    cases h
    rw [if_neg hbs, hE]
    cases r <;> rfl

theorem NetLife.ask_abs (C : Code Θ α β φ O) {W : World Θ φ O} (hW : Ok W) {w : Nat} {n : Net O} (hm : n ∈ W.nets) (hw : n.module = some w) (mode : Hk.Mode) (bs : Nat) (rows : List α)
    {N : Network Θ} (hN : (Hk.abs W.heap).nets[n.base]? = some N) :
    Ok (ask C W n mode bs rows).1 ∧
      lives (ask C W n mode bs rows).1 = (if bs = 0 ∨ rows = [] then lives W else { lives W with networks := (lives W).networks.set n.base { N with traced := false } }) ∧
      (ask C W n mode bs rows).2 = (if bs = 0 ∨ rows = [] then .error (.py .valueError) else
        match mode, n.layer with
        | .plain, _ => .ok ((Deep.chunks bs rows.length rows).map (fun x => (x.map (C.g N.params), none)))
        | .fit, none => .ok ((Deep.chunks bs rows.length rows).map (fun x => (x.map (C.g N.params), none)))
        | .features, none => .error (.py .keyError)
        | _, some l => if l ∈ N.layers then .ok ((Deep.chunks bs rows.length rows).map (fun x => (x.map (C.g N.params), some (x.map (C.f N.params l))))) else .error (.py .keyError)) := by
  by_cases hbs : bs = 0
  · have h0 : ask C W n mode bs rows = (W, .error (.py .valueError)) := by
      unfold ask
      split
      · rename_i h
        rw [hw] at h
        cases h
      · rw [if_pos hbs]
    rw [h0]
    simp only [hbs, true_or, if_true]
    exact ⟨hW, trivial, trivial⟩
  · obtain ⟨a1, a2, a3, a4⟩ := evaluate_abs C mode (Deep.chunks bs rows.length rows) hW.heap (hW.modules n hm w hw) hN
    rcases hE : evaluate C W.heap w mode (Deep.chunks bs rows.length rows) with ⟨H, r⟩
    rw [hE] at a1 a2 a3 a4
    simp only at a1 a2 a3 a4
    have hlen : (Hk.abs H).nets.length = (Hk.abs W.heap).nets.length := by
      rw [a3]
      split_ifs <;> simp
    rw [NetLife.ask_eq C W hw mode hbs rows hE]
    simp only [hbs, false_or]
    by_cases hr : rows = []
    · have hc := NetLife.chunks_nil (bs := bs).2 hr
      rw [hc] at a3 a4
      simp only [if_true] at a3
      have : r = .ok [] := a4
      subst this
      simp only [hr, if_true]
      exact ⟨NetLife.ok_heap hW a1 hlen a2, by simp only [lives, a3], rfl⟩
    · have hc : Deep.chunks bs rows.length rows ≠ [] := fun h => hr (NetLife.chunks_nil.1 h)
      rw [if_neg hc] at a3
      simp only [hr, if_false]
      refine ⟨NetLife.ok_heap hW a1 hlen a2, by simp only [lives, a3], ?_⟩
      have good : ∀ k : List α → List β × Option (List φ), (∀ x, answer C.out C.feat N n.layer mode x = .ok (some (k x))) →
          r = .ok ((Deep.chunks bs rows.length rows).map k) ∧ ((Deep.chunks bs rows.length rows).map k).isEmpty = false := by
        intro k hk
        rw [NetLife.mapM_ok _ (fun x => some (k x)) _ hk] at a4
        refine ⟨?_, by simpa using hc⟩
        rw [a4]
        simp only [Except.map]
        congr 1
        induction Deep.chunks bs rows.length rows with
        | nil => rfl
        | cons x xs ih => simp [List.flatMap_cons, ih]
      have bad : (∀ x, answer C.out C.feat N n.layer mode x = .error .keyError) → r = .error .keyError := by
        intro hk
        rw [a4]
        obtain ⟨x, xs, he⟩ := List.exists_cons_of_ne_nil hc
        rw [he, List.mapM_cons, hk]
        rfl
      rcases hl : n.layer with _ | l
      · cases mode
        · obtain ⟨h1, h2⟩ := good (fun x => (x.map (C.g N.params), none)) (by intro x; rw [hl]; rfl)
          subst h1
          simp only [NetLife.told, h2]
          rfl
        · rw [bad (by intro x; rw [hl]; rfl)]
          rfl
        · obtain ⟨h1, h2⟩ := good (fun x => (x.map (C.g N.params), none)) (by intro x; rw [hl]; rfl)
          subst h1
          simp only [NetLife.told, h2]
          rfl
      · by_cases hmem : l ∈ N.layers
        · cases mode
          · obtain ⟨h1, h2⟩ := good (fun x => (x.map (C.g N.params), some (x.map (C.f N.params l)))) (by intro x; rw [hl]; simp [answer, hmem, Code.out, Code.feat])
            subst h1
            simp only [NetLife.told, h2, hmem, if_true]
            rfl
          · obtain ⟨h1, h2⟩ := good (fun x => (x.map (C.g N.params), some (x.map (C.f N.params l)))) (by intro x; rw [hl]; simp [answer, hmem, Code.out, Code.feat])
            subst h1
            simp only [NetLife.told, h2, hmem, if_true]
            rfl
          · obtain ⟨h1, h2⟩ := good (fun x => (x.map (C.g N.params), none)) (by intro x; rw [hl]; rfl)
            subst h1
            simp only [NetLife.told, h2]
            rfl
        · cases mode
          · rw [bad (by intro x; rw [hl]; simp [answer, hmem])]
            simp only [NetLife.told, hmem, if_false]
          · rw [bad (by intro x; rw [hl]; simp [answer, hmem])]
            simp only [NetLife.told, hmem, if_false]
          · obtain ⟨h1, h2⟩ := good (fun x => (x.map (C.g N.params), none)) (by intro x; rw [hl]; rfl)
            subst h1
            simp only [NetLife.told, h2]
            rfl

theorem NetLife.chunk_rows {γ : Type} (h : α → γ) (bs : Nat) (hbs : bs ≠ 0) (rows : List α) :
    (Deep.chunks bs rows.length rows).flatMap (fun x => x.map h) = rows.map h := by
  rw [List.flatMap_def, ← List.map_flatten, chunks_flatten bs (Nat.pos_of_ne_zero hbs) _ _ le_rfl]

theorem NetLife.exec_refines (C : Code Θ α β φ O) {W : World Θ φ O} (hW : Ok W) (op : NetLife.Op Θ α) :
    Ok (NetLife.exec C W op).1 ∧ execLives C (lives W) op = (lives (NetLife.exec C W op).1, (NetLife.exec C W op).2) := by
  have hnets : ∀ i : Nat, (lives W).nets[i]? = (W.nets[i]?).map seen := by intro i; simp [lives]
  cases op with
  | network θ layers =>
    obtain ⟨I1, h1⟩ := exec_abs C hW.heap (.new θ layers)
    simp only [execNets] at h1
    have hA := (Prod.mk.inj h1).1
    have hlen : (C.exec W.heap (.new θ layers)).1.bases.length = W.heap.bases.length + 1 := by
      have := congrArg (fun S => S.nets.length) hA
      simpa [Hk.abs] using this.symm
    refine ⟨⟨I1, fun n h => ?_, fun n h w hw => ?_⟩, ?_⟩
    · simp only [NetLife.exec] at h ⊢
      have := hW.bases n h
      omega
    · simp only [NetLife.exec] at h ⊢
      rw [← hA]
      exact hW.modules n h w hw
    · simp only [execLives, NetLife.exec, lives, ← hA]
  | net b layer warm =>
    simp only [execLives, NetLife.exec]
    have hb : (lives W).networks.length = W.heap.bases.length := by simp [lives, Hk.abs]
    rw [hb]
    by_cases h : b < W.heap.bases.length
    · simp only [h, if_true]
      refine ⟨⟨hW.heap, fun n hn => ?_, fun n hn w hw => ?_⟩, by simp [lives, seen]⟩
      · rcases List.mem_append.1 hn with hn | hn
        · exact hW.bases n hn
        · rw [List.mem_singleton.1 hn]; exact h
      · rcases List.mem_append.1 hn with hn | hn
        · exact hW.modules n hn w hw
        · rw [List.mem_singleton.1 hn] at hw
          cases hw
    · simp only [h, if_false]
      exact ⟨hW, trivial⟩
  | fit i batches =>
    simp only [execLives, NetLife.exec, hnets]
    rcases hn : W.nets[i]? with _ | n
    · exact ⟨hW, rfl⟩
    · obtain ⟨a1, a2, a3, a4, w, hw⟩ := NetLife.ensure_abs C hW hn (!n.warm)
      obtain ⟨b1, b2⟩ := NetLife.learn_abs C a1 a4 hw batches
      rw [a2, a3] at b2
      exact ⟨b1, b2⟩
  | partialFit i batches =>
    simp only [execLives, NetLife.exec, hnets]
    rcases hn : W.nets[i]? with _ | n
    · exact ⟨hW, rfl⟩
    · obtain ⟨a1, a2, a3, a4, w, hw⟩ := NetLife.ensure_abs C hW hn false
      obtain ⟨b1, b2⟩ := NetLife.learn_abs C a1 a4 hw batches
      rw [a2, a3] at b2
      exact ⟨b1, b2⟩
  | predict i bs rows =>
    simp only [execLives, NetLife.exec, hnets]
    rcases hn : W.nets[i]? with _ | n
    · exact ⟨hW, rfl⟩
    · have hm := List.mem_of_getElem? hn
      obtain ⟨N, hN⟩ := NetLife.network_of hW hm
      have hS : (lives W).networks[(seen n).network]? = some N := hN
      simp only [Option.map_some, hS]
      rcases hmod : n.module with _ | w
      · have h1 : ask C W n .plain bs rows = (W, .error .notInitialized) := by simp only [ask, hmod]
        rw [h1]
        simp only [seen, hmod, Option.isSome_none, if_true]
        exact ⟨hW, trivial⟩
      · obtain ⟨a1, a2, a3⟩ := NetLife.ask_abs C hW hm hmod .plain bs rows hN
        rcases hE : ask C W n .plain bs rows with ⟨W', r⟩
        rw [hE] at a1 a2 a3
        simp only at a1 a2 a3
        have hst : ¬ (seen n).started = false := by simp [seen, hmod]
        rw [if_neg hst]
        by_cases hz : bs = 0 ∨ rows = []
        · rw [if_pos hz] at a2 a3 ⊢
          subst a3
          exact ⟨a1, by rw [a2]⟩
        · rw [if_neg hz] at a2 a3 ⊢
          subst a3
          refine ⟨a1, ?_⟩
          simp only [a2, List.flatMap_map]
          rw [NetLife.chunk_rows _ _ (fun h => hz (.inl h))]
          rfl
  | features i bs rows =>
    simp only [execLives, NetLife.exec, hnets]
    rcases hn : W.nets[i]? with _ | n
    · exact ⟨hW, rfl⟩
    · obtain ⟨a1, a2, a3, a4, w, hw⟩ := NetLife.ensure_abs C hW hn false
      simp only [Option.map_some]
      rw [← a2]
      rcases hE : ensure C W i n false with ⟨W1, n1⟩
      rw [hE] at a1 a2 a3 a4 hw
      simp only at a1 a2 a3 a4 hw ⊢
      have hm1 := List.mem_of_getElem? a4
      have hbase : n1.base = n.base ∧ n1.layer = n.layer := by
        have h1 : (seen n1).network = n1.base := rfl
        have h2 : (seen n1).layer = n1.layer := rfl
        rw [← h1, ← h2, a3]
        unfold started
        split <;> exact ⟨rfl, rfl⟩
      obtain ⟨N, hN⟩ := NetLife.network_of a1 hm1
      have hS : (lives W1).networks[(seen n).network]? = some N := by
        have h : (seen n).network = n1.base := hbase.1.symm
        rw [h]
        exact hN
      simp only [hS]
      obtain ⟨b1, b2, b3⟩ := NetLife.ask_abs C a1 hm1 hw .features bs rows hN
      rcases hA : ask C W1 n1 .features bs rows with ⟨W', r⟩
      rw [hA] at b1 b2 b3
      simp only at b1 b2 b3
      by_cases hz : bs = 0 ∨ rows = []
      · rw [if_pos hz] at b2 b3 ⊢
        subst b3
        exact ⟨b1, by rw [b2]⟩
      · rw [if_neg hz] at b2 b3 ⊢
        have hnet : (seen n).network = n1.base := hbase.1.symm
        have hlay : (seen n).layer = n1.layer := hbase.2.symm
        rw [hnet, hlay, ← b2]
        rcases hl : n1.layer with _ | l
        · rw [hl] at b3
          subst b3
          exact ⟨b1, rfl⟩
        · rw [hl] at b3
          simp only at b3 ⊢
          by_cases hmem : l ∈ N.layers
          · simp only [hmem, if_true] at b3 ⊢
            subst b3
            refine ⟨b1, ?_⟩
            simp only [List.flatMap_map, Option.getD_some]
            rw [NetLife.chunk_rows _ _ (fun h => hz (.inl h))]
          · simp only [hmem, if_false] at b3 ⊢
            subst b3
            exact ⟨b1, rfl⟩
  | clone i =>
    simp only [execLives, NetLife.exec, hnets]
    rcases hn : W.nets[i]? with _ | n
    · exact ⟨hW, rfl⟩
    · have hm := List.mem_of_getElem? hn
      obtain ⟨N, hN⟩ := NetLife.network_of hW hm
      have hS : (lives W).networks[(seen n).network]? = some N := hN
      simp only [Option.map_some, hS]
      obtain ⟨I1, h1⟩ := exec_abs C hW.heap (.copy n.base)
      simp only [execNets, hN] at h1
      rcases hE : C.exec W.heap (.copy n.base) with ⟨H, r⟩
      rw [hE] at I1 h1
      simp only at I1 h1
      by_cases ht : N.traced = true
      · simp only [ht, if_true, Prod.mk.injEq] at h1 ⊢
        obtain ⟨hA, rfl⟩ := h1
        exact ⟨NetLife.ok_heap hW I1 (by rw [hA]) (by rw [hA]), by simp only [lives, hA], rfl⟩
      · simp only [ht, if_false, Prod.mk.injEq, Bool.false_eq_true] at h1 ⊢
        obtain ⟨hA, rfl⟩ := h1
        have hlen : H.bases.length = W.heap.bases.length + 1 := by
          have := congrArg (fun S => S.nets.length) hA
          simpa [Hk.abs] using this.symm
        refine ⟨⟨I1, fun n' h => ?_, fun n' h w hw => ?_⟩, ?_, rfl⟩
        · simp only at h ⊢
          rcases List.mem_append.1 h with h | h
          · have := hW.bases n' h
            omega
          · rw [List.mem_singleton.1 h]
            simp only
            omega
        · simp only at h ⊢
          rcases List.mem_append.1 h with h | h
          · rw [← hA]
            exact hW.modules n' h w hw
          · rw [List.mem_singleton.1 h] at hw
            cases hw
        · have hl : (Hk.abs W.heap).nets.length = W.heap.bases.length := by simp [Hk.abs]
          simp only [lives, ← hA, List.map_append, List.map_cons, List.map_nil, seen, hl, Option.isSome_none]

theorem NetLife.run_refines (C : Code Θ α β φ O) (ops : List (NetLife.Op Θ α)) {W : World Θ φ O} (hW : Ok W) :
    Ok (NetLife.run C W ops).1 ∧ runLives C (lives W) ops = (lives (NetLife.run C W ops).1, (NetLife.run C W ops).2) := by
  induction ops generalizing W with
  | nil => exact ⟨hW, rfl⟩
  | cons o os ih =>
    obtain ⟨a1, a2⟩ := NetLife.exec_refines C hW o
    obtain ⟨b1, b2⟩ := ih a1
    simp only [NetLife.run, runLives, a2]
    exact ⟨b1, by rw [b2]⟩

theorem NetLife.ok_nothing : Ok (nothing : World Θ φ O) := ⟨Hk.inv_empty, by simp [nothing], by simp [nothing]⟩

/-- C146. Whatever a program does with networks and nets (constructing, fitting with and without warm start, partial fits, predictions, features, clones, in any
order and with any sharing of networks), the caller sees what the machine `runLives` shows, which knows networks and nets only: no modules, no hooks, no stored
features, no batches in predictions. -/
theorem C146_refines (C : Code Θ α β φ O) (ops : List (NetLife.Op Θ α)) :
    (NetLife.run C nothing ops).2 = (runLives C ⟨[], []⟩ ops).2 ∧
      (NetLife.run C nothing ops).1.heap.bases.map (·.params) = (runLives C ⟨[], []⟩ ops).1.networks.map (·.params) := by
  obtain ⟨-, h⟩ := NetLife.run_refines C ops (NetLife.ok_nothing (Θ := Θ) (φ := φ) (O := O))
  have e : lives (nothing : World Θ φ O) = ⟨[], []⟩ := rfl
  rw [e] at h
  rw [h]
  exact ⟨rfl, by simp [lives, Hk.abs, Hk.view]⟩

theorem NetLife.watched_of (W : World Θ φ O) (hW : Ok W) {n : Net O} (hm : n ∈ W.nets) (hs : n.module.isSome = true) {N : Network Θ} (hN : (lives W).networks[n.base]? = some N)
    (hl : hasLayer N.layers n.layer = true) : N.watched = true := by
  obtain ⟨w, hw⟩ := Option.isSome_iff_exists.1 hs
  have h1 := hW.modules n hm w hw
  simp only [Hk.abs, List.getElem?_map, Option.map_eq_some_iff] at h1
  obtain ⟨V, hV, hV2⟩ := h1
  simp only [lives, Hk.abs, List.getElem?_map, Option.map_eq_some_iff] at hN
  obtain ⟨B, hB, rfl⟩ := hN
  have e1 : V.base = n.base := congrArg Prod.fst hV2
  have e2 : V.layer = n.layer := congrArg Prod.snd hV2
  rcases hn : n.layer with _ | l
  · rw [hn] at hl
    cases hl
  · rw [hn] at hl
    have hl' : l ∈ B.layers := of_decide_eq_true hl
    have := hW.heap.hooked V (List.mem_of_getElem? hV) B (by rw [e1]; exact hB) l (by rw [e2, hn]) hl'
    simp only [Hk.view]
    cases hh : B.hooks with
    | nil => rw [hh] at this; cases this
    | cons a b => rfl

/-- The net is built without warm start. -/
def coldOp : NetLife.Op Θ α → NetLife.Op Θ α
  | .net b layer _ => .net b layer false
  | o => o

/-- All nets without warm start. -/
def NetLife.cold (L : Lives Θ O) : Lives Θ O := { L with nets := L.nets.map (fun n => { n with warm := false }) }

theorem NetLife.started_cold [Subsingleton O] (C : Code Θ α β φ O) {L : Lives Θ O} {i : Nat} {n : NetSeen O} (hn : L.nets[i]? = some n)
    (hw : n.started = true → ∀ N, L.networks[n.network]? = some N → hasLayer N.layers n.layer = true → N.watched = true) (a a' : Bool) :
    started C (NetLife.cold L) i { n with warm := false } a' = (NetLife.cold (started C L i n a).1, { (started C L i n a).2 with warm := false }) := by
  have ho : ∀ o o' : O, o = o' := Subsingleton.elim
  have hset : L.nets.set i n = L.nets := set_same hn
  have hsame : n.started = true → L.networks.modify n.network (fun N => { N with watched := N.watched || hasLayer N.layers n.layer }) = L.networks := by
    intro hs
    apply List.ext_getElem?
    intro j
    rw [List.getElem?_modify]
    by_cases hj : n.network = j
    · subst hj
      rcases hN : L.networks[n.network]? with _ | N
      · simp
      · have := hw hs N hN
        rcases hh : hasLayer N.layers n.layer with _ | _
        · simp [hh]
        · simp only [if_true]
          rcases N with ⟨p, l, wt, t⟩
          simp only at this hh
          simp [this hh]
    · simp [hj]
  by_cases hs : n.started = true
  swap
  · have hs' : n.started = false := by simpa using hs
    simp only [started, hs', Bool.false_and, Bool.false_eq_true, if_false, NetLife.cold, List.map_set]
  · have e : ({ n with started := true, opt := C.o0 } : NetSeen O) = n := by
      rcases n with ⟨a1, a2, a3, a4, a5⟩
      simp only at hs
      subst hs
      rw [ho a5 C.o0]
    have e' : ({ n with warm := false, started := true, opt := C.o0 } : NetSeen O) = { n with warm := false } := by
      rcases n with ⟨a1, a2, a3, a4, a5⟩
      simp only at hs
      subst hs
      rw [ho a5 C.o0]
    have hset' : (L.nets.map (fun n => ({ n with warm := false } : NetSeen O))).set i { n with warm := false } = L.nets.map (fun n => { n with warm := false }) := by
      apply set_same
      rw [List.getElem?_map, hn]
      rfl
    have r1 : ∀ a, started C L i n a = (L, n) := by
      intro a
      unfold started
      split
      · rfl
      · rw [hsame hs, e, hset]
    have r2 : started C (NetLife.cold L) i { n with warm := false } a' = (NetLife.cold L, { n with warm := false }) := by
      unfold started
      split
      · rfl
      · simp only [NetLife.cold, hsame hs, e', hset']
    rw [r1, r2]

theorem NetLife.learned_cold (C : Code Θ α β φ O) (L : Lives Θ O) (i : Nat) (n : NetSeen O) (batches : List (List α)) :
    learned C (NetLife.cold L) i { n with warm := false } batches = (NetLife.cold (learned C L i n batches).1, (learned C L i n batches).2) := by
  unfold learned
  simp only [NetLife.cold]
  rcases L.networks[n.network]? with _ | N
  · rfl
  · simp only
    split_ifs
    · rfl
    · simp [List.map_set]
    · rfl

theorem NetLife.exec_cold [Subsingleton O] (C : Code Θ α β φ O) {W : World Θ φ O} (hW : Ok W) (o : NetLife.Op Θ α) :
    execLives C (NetLife.cold (lives W)) (coldOp o) = (NetLife.cold (execLives C (lives W) o).1, (execLives C (lives W) o).2) := by
  have hnets : ∀ i : Nat, (NetLife.cold (lives W)).nets[i]? = (W.nets[i]?).map (fun n => { seen n with warm := false }) := by
    intro i; simp only [lives, NetLife.cold, List.getElem?_map, Option.map_map]; rfl
  have hnets' : ∀ i : Nat, (lives W).nets[i]? = (W.nets[i]?).map seen := by intro i; simp [lives]
  have hst : ∀ (i : Nat) (n : Net O), W.nets[i]? = some n → ∀ a a', started C (NetLife.cold (lives W)) i { seen n with warm := false } a' =
      (NetLife.cold (started C (lives W) i (seen n) a).1, { (started C (lives W) i (seen n) a).2 with warm := false }) := by
    intro i n hn a a'
    exact NetLife.started_cold C (by rw [hnets', hn]; rfl) (fun hs N hN hl => NetLife.watched_of W hW (List.mem_of_getElem? hn) hs hN hl) a a'
  cases o with
  | network θ layers => rfl
  | net b layer warm =>
    simp only [coldOp, execLives, NetLife.cold]
    by_cases h : b < (lives W).networks.length
    · simp [h]
    · simp [h]
  | fit i batches =>
    simp only [coldOp, execLives, hnets, hnets']
    rcases hn : W.nets[i]? with _ | n
    · rfl
    · simp only [Option.map_some]
      rw [hst i n hn (!(seen n).warm) _, NetLife.learned_cold]
  | partialFit i batches =>
    simp only [coldOp, execLives, hnets, hnets']
    rcases hn : W.nets[i]? with _ | n
    · rfl
    · simp only [Option.map_some]
      rw [hst i n hn false _, NetLife.learned_cold]
  | predict i bs rows =>
    simp only [coldOp, execLives, hnets, hnets']
    rcases hn : W.nets[i]? with _ | n
    · rfl
    · simp only [Option.map_some]
      have e : (NetLife.cold (lives W)).networks = (lives W).networks := rfl
      rw [e]
      rcases (lives W).networks[(seen n).network]? with _ | N
      · rfl
      · simp only
        split_ifs <;> rfl
  | features i bs rows =>
    simp only [coldOp, execLives, hnets, hnets']
    rcases hn : W.nets[i]? with _ | n
    · rfl
    · simp only [Option.map_some]
      rw [hst i n hn false false]
      have e : (NetLife.cold (started C (lives W) i (seen n) false).1).networks = (started C (lives W) i (seen n) false).1.networks := rfl
      simp only [e]
      rcases (started C (lives W) i (seen n) false).1.networks[(seen n).network]? with _ | N
      · rfl
      · simp only
        split_ifs <;> rfl
  | clone i =>
    simp only [coldOp, execLives, hnets, hnets']
    rcases hn : W.nets[i]? with _ | n
    · rfl
    · simp only [Option.map_some]
      have e : (NetLife.cold (lives W)).networks = (lives W).networks := rfl
      rw [e]
      rcases (lives W).networks[(seen n).network]? with _ | N
      · rfl
      · simp only
        split_ifs
        · rfl
        · simp [NetLife.cold]

/-- C146 (warm start). With an optimiser that keeps no state, `warm_start` makes no difference: two programs that differ only in the `warm_start` of their nets show
the caller the same and leave the same parameters.  A fit without warm start does not start anew. -/
theorem C146_warm_start [Subsingleton O] (C : Code Θ α β φ O) (ops ops' : List (NetLife.Op Θ α)) (h : ops.map coldOp = ops'.map coldOp) :
    (NetLife.run C nothing ops).2 = (NetLife.run C nothing ops').2 ∧
      (NetLife.run C nothing ops).1.heap.bases.map (·.params) = (NetLife.run C nothing ops').1.heap.bases.map (·.params) := by
  have key : ∀ (ops : List (NetLife.Op Θ α)) (W : World Θ φ O), Ok W →
      (runLives C (NetLife.cold (lives W)) (ops.map coldOp)) = (NetLife.cold (runLives C (lives W) ops).1, (runLives C (lives W) ops).2) := by
    intro ops
    induction ops with
    | nil => intro W hW; rfl
    | cons o os ih =>
      intro W hW
      obtain ⟨a1, a2⟩ := NetLife.exec_refines C hW o
      have := ih _ a1
      simp only [List.map_cons, runLives, NetLife.exec_cold C hW o, a2, this]
  have e : NetLife.cold (lives (nothing : World Θ φ O)) = ⟨[], []⟩ := rfl
  have e' : lives (nothing : World Θ φ O) = ⟨[], []⟩ := rfl
  have k1 := key ops nothing NetLife.ok_nothing
  have k2 := key ops' nothing NetLife.ok_nothing
  rw [e, e'] at k1 k2
  rw [h, k2] at k1
  obtain ⟨h1, h2⟩ := Prod.mk.inj k1
  obtain ⟨r1, r2⟩ := C146_refines C ops
  obtain ⟨s1, s2⟩ := C146_refines C ops'
  rw [r1, s1, r2, s2]
  refine ⟨h2.symm, ?_⟩
  have h3 : (runLives C ⟨[], []⟩ ops').1.networks = (runLives C ⟨[], []⟩ ops).1.networks := by
    have := congrArg (fun L => L.networks) h1
    exact this
  rw [h3]

/-- C146 (a fit and its predictions). After any program `ops`, a fit of a net whose layer exists succeeds, and predictions then are those of its network with all
batches learned, starting from the parameters the network had, with a fresh optimiser unless the net is warm and was started before. -/
theorem C146_fit (C : Code Θ α β φ O) (ops : List (NetLife.Op Θ α)) (W : World Θ φ O) (hW : W = (NetLife.run C nothing ops).1) (i : Nat) (n : Net O) (hn : W.nets[i]? = some n)
    (B : Hk.Base Θ) (hB : W.heap.bases[n.base]? = some B) (hl : ∀ l, n.layer = some l → l ∈ B.layers) (batches : List (List α)) (bs : Nat) (hbs : bs ≠ 0) (rows : List α)
    (hr : rows ≠ []) :
    (NetLife.run C W [.fit i batches, .predict i bs rows]).2 =
      [.ok .done, .ok (.predictions (rows.map (C.g (batches.foldl (fun s x => C.upd x s.1 s.2) (B.params, if n.module.isSome && n.warm then n.opt else C.o0)).1)))] := by
  have hok : Ok W := hW ▸ (NetLife.run_refines C ops NetLife.ok_nothing).1
  have h := (NetLife.run_refines C [.fit i batches, .predict i bs rows] hok).2
  rw [← congrArg Prod.snd h]
  have hi : i < W.nets.length := (List.getElem?_eq_some_iff.1 hn).1
  have hL : (lives W).nets[i]? = some (seen n) := by simp [lives, hn]
  have hN : (lives W).networks[(seen n).network]? = some (Hk.view W.heap.dicts B) := by simp [lives, Hk.abs, seen, hB]
  have hlt := (List.getElem?_eq_some_iff.1 hN).1
  have hii : i < (lives W).nets.length := (List.getElem?_eq_some_iff.1 hL).1
  obtain ⟨L1, n1, hs, h1, h2, h3, h4, h5⟩ : ∃ L1 n1, started C (lives W) i (seen n) (!(seen n).warm) = (L1, n1) ∧ L1.nets[i]? = some n1 ∧ n1.network = n.base ∧ n1.layer = n.layer ∧
      (n1.started = true ∧ n1.opt = if n.module.isSome && n.warm then n.opt else C.o0) ∧
      ∃ N, L1.networks[n.base]? = some N ∧ N.params = B.params ∧ N.layers = B.layers := by
    by_cases hc : ((seen n).started && !!(seen n).warm) = true
    · have hc' : n.module.isSome && n.warm := by simpa [seen] using hc
      refine ⟨lives W, seen n, by unfold started; rw [if_pos hc], hL, rfl, rfl, ⟨?_, ?_⟩, _, hN, rfl, rfl⟩
      · simp only [Bool.and_eq_true] at hc
        exact hc.1
      · rw [if_pos hc']; rfl
    · have hc' : ¬ (n.module.isSome && n.warm) = true := by simpa [seen] using hc
      refine ⟨⟨(lives W).networks.modify (seen n).network (fun N => { N with watched := N.watched || hasLayer N.layers (seen n).layer }),
          (lives W).nets.set i { seen n with started := true, opt := C.o0 }⟩, { seen n with started := true, opt := C.o0 },
        by unfold started; rw [if_neg hc], List.getElem?_set_self hii, rfl, rfl, ⟨rfl, by rw [if_neg hc']⟩,
        { Hk.view W.heap.dicts B with watched := (Hk.view W.heap.dicts B).watched || hasLayer (Hk.view W.heap.dicts B).layers (seen n).layer }, ?_, rfl, rfl⟩
      simp only
      rw [List.getElem?_modify]
      have : (lives W).networks[n.base]? = some (Hk.view W.heap.dicts B) := hN
      rw [this]
      simp [seen]
  obtain ⟨N, g1, g2, g3⟩ := h5
  have gl : layerOk N.layers n1.layer := by
    intro l hl'
    rw [g3]
    exact hl l (by rw [← h3]; exact hl')
  have glt : n.base < L1.networks.length := (List.getElem?_eq_some_iff.1 g1).1
  have gi : i < L1.nets.length := (List.getElem?_eq_some_iff.1 h1).1
  have hlearn : ∃ L2 n2 N2, learned C L1 i n1 batches = (L2, .ok .done) ∧ L2.nets[i]? = some n2 ∧ n2.network = n.base ∧ n2.started = true ∧ L2.networks[n.base]? = some N2 ∧
      N2.params = (trained C N.params n1.opt batches).1 := by
    unfold learned
    rw [h2, g1]
    simp only
    by_cases hb : batches = []
    · rw [if_pos hb]
      exact ⟨_, n1, N, rfl, h1, h2, h4.1, g1, by rw [hb]; rfl⟩
    · rw [if_neg hb, if_pos gl]
      exact ⟨_, _, _, rfl, List.getElem?_set_self gi, rfl, h4.1, List.getElem?_set_self glt, rfl⟩
  obtain ⟨L2, n2, N2, k1, k2, k3, k4, k5, k6⟩ := hlearn
  have hE : execLives C (lives W) (.fit i batches) = (L2, .ok .done) := by
    simp only [execLives, hL, hs, k1]
  simp only [runLives, hE]
  have hz : ¬ (bs = 0 ∨ rows = []) := by
    rintro (h | h)
    · exact hbs h
    · exact hr h
  simp only [execLives, k2, k3, k5, k4, hz, if_false, Bool.true_eq_false, k6, g2, h4.2, trained]

/-- One clone, fit and prediction per fold; `k` is the number of nets so far. -/
def crossOps (i bs : Nat) : Nat → List (List (List α) × List α) → List (NetLife.Op Θ α)
  | _, [] => []
  | k, (batches, rows) :: folds => .clone i :: .fit k batches :: .predict k bs rows :: crossOps i bs (k + 1) folds

/-- C146 (cross-validation). After any program, if the net can be cloned: cloning, fitting and predicting fold by fold gives for every fold the predictions of
training from the current parameters of the net's network with a fresh optimiser, whatever the other folds are, and leaves that network as it is. -/
theorem C146_cross_validation (C : Code Θ α β φ O) (ops : List (NetLife.Op Θ α)) (W : World Θ φ O) (hW : W = (NetLife.run C nothing ops).1) (i : Nat) (n : Net O)
    (hn : W.nets[i]? = some n) (B : Hk.Base Θ) (hB : W.heap.bases[n.base]? = some B) (hl : ∀ l, n.layer = some l → l ∈ B.layers)
    (hc : (NetLife.exec C W (.clone i)).2 = .ok .done) (bs : Nat) (hbs : bs ≠ 0) (folds : List (List (List α) × List α)) (hr : ∀ f ∈ folds, f.2 ≠ []) :
    (NetLife.run C W (crossOps i bs W.nets.length folds)).2 = folds.flatMap (fun f =>
        [.ok .done, .ok .done, .ok (.predictions (f.2.map (C.g (f.1.foldl (fun s x => C.upd x s.1 s.2) (B.params, C.o0)).1)))]) ∧
      ∃ B', (NetLife.run C W (crossOps i bs W.nets.length folds)).1.heap.bases[n.base]? = some B' ∧ B'.params = B.params := by
  have hok : Ok W := hW ▸ (NetLife.run_refines C ops NetLife.ok_nothing).1
  have hlen : W.nets.length = (lives W).nets.length := by simp [lives]
  have hL : (lives W).nets[i]? = some (seen n) := by simp [lives, hn]
  have hN : (lives W).networks[(seen n).network]? = some (Hk.view W.heap.dicts B) := by simp [lives, Hk.abs, seen, hB]
  have ht : (Hk.view W.heap.dicts B).traced = false := by
    rw [← congrArg Prod.snd (NetLife.exec_refines C hok (.clone i)).2] at hc
    simp only [execLives, hL, hN] at hc
    cases hh : (Hk.view W.heap.dicts B).traced with
    | false => rfl
    | true =>
      rw [hh] at hc
      cases hc
  have hlk : layerOk (Hk.view W.heap.dicts B).layers (seen n).layer := hl
  generalize hbs' : Hk.view W.heap.dicts B = N at hN ht hlk
  have hp : N.params = B.params := by rw [← hbs']; rfl
  have key : ∀ (folds : List (List (List α) × List α)) (L : Lives Θ O), (∀ f ∈ folds, f.2 ≠ []) → L.nets[i]? = some (seen n) → L.networks[(seen n).network]? = some N →
      (runLives C L (crossOps i bs L.nets.length folds)).2 = folds.flatMap (fun f =>
        [.ok .done, .ok .done, .ok (.predictions (f.2.map (C.g (trained C N.params C.o0 f.1).1)))]) ∧
      (runLives C L (crossOps i bs L.nets.length folds)).1.networks[(seen n).network]? = some N := by
    intro folds
    induction folds with
    | nil => intro L _ h1 h2; exact ⟨rfl, h2⟩
    | cons f folds ih =>
      obtain ⟨batches, rows⟩ := f
      intro L hf h1 h2
      have hlt := (List.getElem?_eq_some_iff.1 h2).1
      have hi := (List.getElem?_eq_some_iff.1 h1).1
      have e1 : execLives C L (.clone i) =
          (⟨L.networks ++ [N], L.nets ++ [⟨L.networks.length, (seen n).layer, (seen n).warm, false, C.o0⟩]⟩, .ok .done) := by
        simp [execLives, h1, h2, ht]
      have e2 : ∃ n2 N2, execLives C ⟨L.networks ++ [N], L.nets ++ [⟨L.networks.length, (seen n).layer, (seen n).warm, false, C.o0⟩]⟩ (.fit L.nets.length batches) =
          (⟨L.networks ++ [N2], L.nets ++ [n2]⟩, .ok .done) ∧ n2.network = L.networks.length ∧ n2.started = true ∧ N2.params = (trained C N.params C.o0 batches).1 := by
        have hm : (L.networks ++ [N]).modify L.networks.length (fun M => { M with watched := M.watched || hasLayer M.layers (seen n).layer }) =
            L.networks ++ [{ N with watched := N.watched || hasLayer N.layers (seen n).layer }] := by
          apply List.ext_getElem?
          intro j
          rw [List.getElem?_modify]
          by_cases hj : L.networks.length = j
          · subst hj
            simp
          · rcases Nat.lt_or_ge j L.networks.length with h | h
            · simp [hj, List.getElem?_append_left h]
            · have h1 : ¬ j - L.networks.length = 0 := by omega
              rw [List.getElem?_append_right h, List.getElem?_append_right h]
              obtain ⟨m, hm⟩ := Nat.exists_eq_succ_of_ne_zero h1
              simp [hm]
        simp only [execLives, List.getElem?_append_right le_rfl, Nat.sub_self, List.getElem?_cons_zero, started, Bool.false_and, Bool.false_eq_true, if_false, hm,
          List.set_append_right _ _ le_rfl, List.set_cons_zero, learned]
        by_cases hb : batches = []
        · rw [if_pos hb]
          exact ⟨_, _, rfl, rfl, rfl, by rw [hb]; rfl⟩
        · rw [if_neg hb, if_pos hlk]
          exact ⟨_, _, rfl, rfl, rfl, rfl⟩
      obtain ⟨n2, N2, e2, e3, e4, e5⟩ := e2
      have hrow : rows ≠ [] := hf (batches, rows) (by simp)
      have hz : ¬ (bs = 0 ∨ rows = []) := by
        rintro (h | h)
        · exact hbs h
        · exact hrow h
      have e6 : execLives C ⟨L.networks ++ [N2], L.nets ++ [n2]⟩ (.predict L.nets.length bs rows) =
          (⟨L.networks ++ [{ N2 with traced := false }], L.nets ++ [n2]⟩, .ok (.predictions (rows.map (C.g (trained C N.params C.o0 batches).1)))) := by
        simp only [execLives, List.getElem?_append_right le_rfl, Nat.sub_self, List.getElem?_cons_zero, e3, e4, hz, if_false, Bool.true_eq_false, e5,
          List.set_append_right _ _ le_rfl, List.set_cons_zero]
      have hlen' : (L.nets ++ [n2]).length = L.nets.length + 1 := by simp
      obtain ⟨k1, k2⟩ := ih ⟨L.networks ++ [{ N2 with traced := false }], L.nets ++ [n2]⟩ (fun f hm => hf f (by simp [hm]))
        (by simp only; rw [List.getElem?_append_left hi]; exact h1) (by simp only; rw [List.getElem?_append_left hlt]; exact h2)
      simp only [hlen'] at k1 k2
      simp only [crossOps, runLives, e1, e2, e6, List.flatMap_cons, k1, k2]
      exact ⟨rfl, trivial⟩
  obtain ⟨k1, k2⟩ := key folds (lives W) hr hL hN
  have h := (NetLife.run_refines C (crossOps i bs W.nets.length folds) hok).2
  rw [← hlen, h] at k1 k2
  simp only at k1 k2
  refine ⟨by rw [k1, hp]; rfl, ?_⟩
  simp only [lives, Hk.abs, List.getElem?_map, Option.map_eq_some_iff, seen] at k2
  obtain ⟨B', h1, h2⟩ := k2
  exact ⟨B', h1, by rw [← hp, ← h2]; rfl⟩

/-- A network with one number as its parameter; training adds the sum of the batch plus the number of steps the optimiser remembers. -/
def lifeCode : Code Int Int Int Int Int :=
  ⟨fun θ x => θ * x, fun θ l x => θ + x + (l.length : Int), fun b θ o => (θ + b.sum + o, o + 1), 0⟩

/-- C146 (before a fit) fails in this way: predictions of a net that was never fitted are refused, but its features are given, those of the untrained network, and
from then on so are predictions. -/
theorem C146_unfitted_counterexample :
    (NetLife.run lifeCode nothing [.network 2 ["fc"], .net 0 (some "fc") false, .predict 0 2 [1, 2, 3], .features 0 2 [1, 2, 3], .predict 0 2 [1, 2, 3]]).2 =
      [.ok .done, .ok .done, .error .notInitialized, .ok (.features [5, 6, 7]), .ok (.predictions [2, 4, 6])] := by decide +kernel

/-- With an optimiser that keeps state, `warm_start` decides about that state only: without it the second fit gives 2 + 3 + 3, with it one more. -/
theorem C146_optimiser_counterexample :
    (NetLife.run lifeCode nothing [.network 2 ["fc"], .net 0 (some "fc") false, .fit 0 [[1, 2]], .fit 0 [[3]], .predict 0 1 [1]]).2 =
      [.ok .done, .ok .done, .ok .done, .ok .done, .ok (.predictions [8])] ∧
    (NetLife.run lifeCode nothing [.network 2 ["fc"], .net 0 (some "fc") true, .fit 0 [[1, 2]], .fit 0 [[3]], .predict 0 1 [1]]).2 =
      [.ok .done, .ok .done, .ok .done, .ok .done, .ok (.predictions [9])] := by decide +kernel

/-- `C146_fit` and `C146_cross_validation` on a net that has been fitted and has predicted: the folds start from the trained parameter 5; a clone directly after
a fit is refused. -/
example : (NetLife.run lifeCode nothing ([.network 2 ["fc"], .net 0 (some "fc") false, .fit 0 [[1, 2]], .clone 0, .predict 0 1 [1]] ++
      crossOps 0 2 1 [([[1], [2]], [1, 10]), ([], [7]), ([[4]], [1])] ++ [.predict 0 1 [1], .features 0 3 [1, 2], .features 1 1 [], .fit 4 [[1]]])).2 =
    [.ok .done, .ok .done, .ok .done, .error (.py .runtimeError), .ok (.predictions [5]),
      .ok .done, .ok .done, .ok (.predictions [9, 90]), .ok .done, .ok .done, .ok (.predictions [35]), .ok .done, .ok .done, .ok (.predictions [9]),
      .ok (.predictions [5]), .ok (.features [8, 9]), .error (.py .valueError), .error (.py .indexError)] := by decide +kernel

/-- Two nets around one network, one of them with a layer that does not exist: it can be made and asked for predictions once started, but a fit is a `KeyError`. -/
example : (NetLife.run lifeCode nothing [.network 2 ["fc"], .net 0 (some "fcc") true, .net 0 none true, .fit 0 [[1]], .predict 0 1 [1], .fit 1 [[1]], .predict 0 1 [1],
      .features 1 1 [1], .partialFit 1 [[1]], .predict 0 4 [1]]).2 =
    [.ok .done, .ok .done, .ok .done, .error (.py .keyError), .ok (.predictions [2]), .ok .done, .ok (.predictions [3]), .error (.py .keyError), .ok .done,
      .ok (.predictions [5])] := by decide +kernel

/-- `C146_warm_start` with a stateless optimiser. -/
example : (NetLife.run (⟨fun θ x => θ * x, fun θ _ x => θ + x, fun b θ _ => (θ + b.sum, ()), ()⟩ : Code Int Int Int Int Unit) nothing
      [.network 2 ["fc"], .net 0 (some "fc") false, .fit 0 [[1, 2]], .fit 0 [[3]], .predict 0 1 [1]]).2 =
    (NetLife.run (⟨fun θ x => θ * x, fun θ _ x => θ + x, fun b θ _ => (θ + b.sum, ()), ()⟩ : Code Int Int Int Int Unit) nothing
      [.network 2 ["fc"], .net 0 (some "fc") true, .fit 0 [[1, 2]], .fit 0 [[3]], .predict 0 1 [1]]).2 := (C146_warm_start _ _ _ rfl).1

end Skada

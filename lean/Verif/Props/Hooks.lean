/-
Property C145: wrapped networks, their hooks, sharing and cloning.
-/
import Verif.Lemmas.Hooks

namespace Skada
open Np Spec Hk

variable {Θ X Y F : Type}

theorem Hk.forward_refines (out : Θ → X → Y) (feat : Θ → String → X → F) {H : Heap Θ F} (I : Inv H) (w : Nat) (mode : Mode) (g : Bool) (x : X) :
    Inv (exec out (fun θ n x => some (feat θ n x)) H (.forward w mode g x)).1 ∧
      execNets out feat (abs H) (.forward w mode g x) =
        (abs (exec out (fun θ n x => some (feat θ n x)) H (.forward w mode g x)).1, (exec out (fun θ n x => some (feat θ n x)) H (.forward w mode g x)).2) := by
  rcases hW : H.wrappers[w]? with _ | W
  · have h1 : exec out (fun θ n x => some (feat θ n x)) H (.forward w mode g x) = (H, .error .indexError) := by
      simp [exec, forward, hW, Except.map]
    rw [h1]
    refine ⟨I, ?_⟩
    simp [execNets, abs, hW]
  · have hWm := List.mem_of_getElem? hW
    obtain ⟨B, hB⟩ : ∃ B, H.bases[W.base]? = some B := ⟨_, List.getElem?_eq_getElem (I.wrap W hWm).1⟩
    obtain ⟨I', hA⟩ := inv_fire feat I hB g x
    set D := fire (fun θ n x => some (feat θ n x)) B.params g x B.hooks H.dicts with hD
    have h1 : (forward out (fun θ n x => some (feat θ n x)) H w mode g x).1 = { H with dicts := D } := by
      unfold forward
      rw [hW]
      simp only [hB, ← hD]
      cases mode <;> rcases W.layer with _ | n <;> simp only <;> split <;> rfl
    have h2 : (forward out (fun θ n x => some (feat θ n x)) H w mode g x).2.map some = answer out feat (view H.dicts B) W.layer mode x := by
      have key : ∀ n, W.layer = some n → get (D.getD W.dict []) n = if n ∈ B.layers then some ⟨feat B.params n x, g⟩ else none := by
        intro n hn
        by_cases hl : n ∈ B.layers
        · rw [if_pos hl, hD, fire_get feat _ g x _ _ (I.bound _ B hB), if_pos (I.hooked W hWm B hB n hn hl)]
        · rw [if_neg hl]
          apply get_none
          intro e he hen
          have hm := I'.entries W hWm B hB e he
          have := I.named W hWm _ B hB _ hm rfl
          exact hl (hen ▸ this.2.2)
      unfold forward answer
      rw [hW]
      simp only [hB, ← hD]
      rcases hl : W.layer with _ | n
      · cases mode <;> rfl
      · have k := key n hl
        cases mode
        · simp only [k]
          by_cases hm : n ∈ B.layers <;> simp [hm, view, Except.map]
        · simp only [k]
          by_cases hm : n ∈ B.layers <;> simp [hm, view, Except.map]
        · rfl
    have h3 : exec out (fun θ n x => some (feat θ n x)) H (.forward w mode g x) = ({ H with dicts := D }, answer out feat (view H.dicts B) W.layer mode x) := by
      rw [← h1, ← h2]
      rfl
    rw [h3]
    refine ⟨I', ?_⟩
    rw [hA]
    simp [execNets, abs, hW, hB]

theorem Hk.exec_refines (out : Θ → X → Y) (feat : Θ → String → X → F) {H : Heap Θ F} (I : Inv H) (o : Op Θ X) :
    Inv (exec out (fun θ n x => some (feat θ n x)) H o).1 ∧
      execNets out feat (abs H) o =
        (abs (exec out (fun θ n x => some (feat θ n x)) H o).1, (exec out (fun θ n x => some (feat θ n x)) H o).2) := by
  cases o with
  | new θ layers =>
    refine ⟨inv_new I θ layers, ?_⟩
    simp [execNets, exec, abs, view, dirty]
  | wrap b layer =>
    rcases hB : H.bases[b]? with _ | B
    · have hlt : ¬ b < H.bases.length := by
        intro h
        rw [List.getElem?_eq_getElem h] at hB
        cases hB
      have h1 : exec out (fun θ n x => some (feat θ n x)) H (.wrap b layer) = (H, .error .indexError) := by
        simp [exec, Hk.wrap, hlt]
      rw [h1]
      exact ⟨I, by simp [execNets, abs, hB]⟩
    · have hlt : b < H.bases.length := (List.getElem?_eq_some_iff.1 hB).1
      have h1 : exec out (fun θ n x => some (feat θ n x)) H (.wrap b layer) = (Hk.wrap H b layer, .ok none) := by
        simp [exec, hlt]
      rw [h1]
      refine ⟨inv_wrap I hB layer, ?_⟩
      rw [abs_wrap hB]
      simp [execNets, abs, hB, view]
  | forward w mode g x => exact Hk.forward_refines out feat I w mode g x
  | step w f =>
    rcases hW : H.wrappers[w]? with _ | W
    · have h1 : exec out (fun θ n x => some (feat θ n x)) H (.step w f) = (H, .error .indexError) := by simp [exec, hW]
      rw [h1]
      exact ⟨I, by simp [execNets, abs, hW]⟩
    · have h1 : exec out (fun θ n x => some (feat θ n x)) H (.step w f) =
          ({ H with bases := H.bases.modify W.base (fun B => { B with params := f B.params }) }, .ok none) := by simp [exec, hW]
      rw [h1]
      refine ⟨(inv_step I W.base f).1, ?_⟩
      rw [(inv_step I W.base f).2]
      simp [execNets, abs, hW]
  | copy b =>
    rcases hB : H.bases[b]? with _ | B
    · have h1 : exec out (fun θ n x => some (feat θ n x)) H (.copy b) = (H, .error .indexError) := by simp [exec, copyBase, hB]
      rw [h1]
      exact ⟨I, by simp [execNets, abs, hB]⟩
    · rcases hc : copyBase H b with e | H'
      · have hd : dirty H.dicts B.hooks = true ∧ e = .runtimeError := by
          unfold copyBase at hc
          rw [hB] at hc
          simp only at hc
          split at hc
          · exact ⟨by assumption, by cases hc; rfl⟩
          · cases hc
        have h1 : exec out (fun θ n x => some (feat θ n x)) H (.copy b) = (H, .error .runtimeError) := by simp [exec, hc, hd.2]
        rw [h1]
        exact ⟨I, by simp [execNets, abs, hB, view, hd.1]⟩
      · obtain ⟨h2, h3, h4, -, -⟩ := inv_copy I hB hc
        have h1 : exec out (fun θ n x => some (feat θ n x)) H (.copy b) = (H', .ok none) := by simp [exec, hc]
        rw [h1]
        refine ⟨h2, ?_⟩
        rw [h3]
        simp [execNets, abs, hB, h4]
  | clone w =>
    rcases hW : H.wrappers[w]? with _ | W
    · have h1 : exec out (fun θ n x => some (feat θ n x)) H (.clone w) = (H, .error .indexError) := by simp [exec, Hk.clone, hW]
      rw [h1]
      exact ⟨I, by simp [execNets, abs, hW]⟩
    · have hWm := List.mem_of_getElem? hW
      obtain ⟨B, hB⟩ : ∃ B, H.bases[W.base]? = some B := ⟨_, List.getElem?_eq_getElem (I.wrap W hWm).1⟩
      rcases hc : copyBase H W.base with e | H'
      · have hd : dirty H.dicts B.hooks = true ∧ e = .runtimeError := by
          unfold copyBase at hc
          rw [hB] at hc
          simp only at hc
          split at hc
          · exact ⟨by assumption, by cases hc; rfl⟩
          · cases hc
        have h1 : exec out (fun θ n x => some (feat θ n x)) H (.clone w) = (H, .error .runtimeError) := by
          simp [exec, Hk.clone, hW, hc, hd.2, bind, Except.bind]
        rw [h1]
        exact ⟨I, by simp [execNets, abs, hW, hB, view, hd.1]⟩
      · obtain ⟨h2, h3, h4, h5, h6⟩ := inv_copy I hB hc
        have hlast : H'.bases.length - 1 = H.bases.length := by omega
        obtain ⟨B', hB'⟩ : ∃ B', H'.bases[H.bases.length]? = some B' := ⟨_, List.getElem?_eq_getElem (by omega)⟩
        have hv : view H'.dicts B' = view H.dicts B := by
          have := congrArg (fun S => S.nets[H.bases.length]?) h3
          simp [abs, hB'] at this
          exact this
        have I1 := inv_wrap h2 hB' W.layer
        have hnew : (⟨H.bases.length, H'.dicts.length, W.layer⟩ : Wrapper) ∈ (Hk.wrap H' H.bases.length W.layer).wrappers := by
          unfold Hk.wrap
          rw [hB']
          simp
        obtain ⟨I2, A2⟩ := inv_again I1 (b := H.bases.length) (d := H'.dicts.length) (layer := W.layer) (fun C hC n hn hl =>
          I1.hooked _ hnew C hC n hn hl)
        have h1 : exec out (fun θ n x => some (feat θ n x)) H (.clone w) =
            ({ Hk.wrap H' H.bases.length W.layer with
                bases := (Hk.wrap H' H.bases.length W.layer).bases.modify H.bases.length (fun B => register B H'.dicts.length W.layer) }, .ok none) := by
          simp [exec, Hk.clone, hW, hc, bind, Except.bind, hlast]
        rw [h1]
        refine ⟨I2, ?_⟩
        rw [A2, abs_wrap hB', h3, hv]
        simp only [view] at h4
        have hlay : B'.layers = B.layers := congrArg Network.layers hv
        simp [execNets, abs, hW, hB, view, h4, hlay]

theorem Hk.run_refines (out : Θ → X → Y) (feat : Θ → String → X → F) (ops : List (Op Θ X)) (H : Heap Θ F) (I : Inv H) :
    Inv (run out (fun θ n x => some (feat θ n x)) H ops).1 ∧ (run out (fun θ n x => some (feat θ n x)) H ops).2 = (runNets out feat (abs H) ops).2 ∧
      abs (run out (fun θ n x => some (feat θ n x)) H ops).1 = (runNets out feat (abs H) ops).1 := by
  induction ops generalizing H with
  | nil => exact ⟨I, rfl, rfl⟩
  | cons o os ih =>
    obtain ⟨I', h⟩ := Hk.exec_refines out feat I o
    have := ih _ I'
    simp only [run, runNets, h]
    exact ⟨this.1, by rw [this.2.1], this.2.2⟩

/-- C145. Whatever a program does with networks — making, wrapping, sharing, calling, training, cloning — and in whatever order: every call shows the prediction of
its network with the current parameters and the features of the named layer in this very call, never those of another wrapper or of an earlier call; a layer
that does not exist is a `KeyError` every time; a clone has its own parameters; cloning is refused exactly while the last call of a watched network recorded
gradients. (`feat` total: every forward pass runs every layer.) -/
theorem C145_refines (out : Θ → X → Y) (feat : Θ → String → X → F) (ops : List (Op Θ X)) :
    (run out (fun θ n x => some (feat θ n x)) empty ops).2 = (runNets out feat ⟨[], []⟩ ops).2 ∧
      (run out (fun θ n x => some (feat θ n x)) empty ops).1.bases.map (·.params) = (runNets out feat ⟨[], []⟩ ops).1.nets.map (·.params) := by
  obtain ⟨-, h1, h2⟩ := Hk.run_refines out feat ops empty inv_empty
  have e : abs (empty : Heap Θ F) = ⟨[], []⟩ := rfl
  rw [e] at h1 h2
  refine ⟨h1, ?_⟩
  rw [← h2]
  simp [abs, view]

theorem Hk.runNets_append (out : Θ → X → Y) (feat : Θ → String → X → F) (S : Networks Θ) (o1 o2 : List (Op Θ X)) :
    (runNets out feat S (o1 ++ o2)).1 = (runNets out feat (runNets out feat S o1).1 o2).1 := by
  induction o1 generalizing S with
  | nil => rfl
  | cons o os ih => simp only [List.cons_append, runNets, ih]

/-- Training as the user sees it: the parameters after all batches. -/
theorem Hk.runNets_batches (out : Θ → X → Y) (feat : Θ → String → X → F) (upd : X → Θ → Θ) (batches : List X) (S : Networks Θ) (w b : Nat) (layer : Option String)
    (N : Network Θ) (hw : S.wrappers[w]? = some (b, layer)) (hN : S.nets[b]? = some N) :
    (runNets out feat S (batches.flatMap (fun x => [Op.forward w .fit true x, Op.step w (upd x)]))).1 =
      ⟨S.nets.set b { N with params := batches.foldl (fun θ x => upd x θ) N.params, traced := if batches = [] then N.traced else N.watched }, S.wrappers⟩ := by
  induction batches generalizing S N with
  | nil =>
    have : S.nets.set b N = S.nets := by
      apply List.ext_getElem?
      intro i
      rw [List.getElem?_set]
      split
      · rename_i h
        subst h
        rw [hN]
        have := (List.getElem?_eq_some_iff.1 hN).1
        simp [this]
      · rfl
    simp only [List.flatMap_nil, runNets, List.foldl_nil, if_true]
    rw [this]
  | cons x xs ih =>
    have hlt : b < S.nets.length := (List.getElem?_eq_some_iff.1 hN).1
    rw [List.flatMap_cons, Hk.runNets_append]
    have h1 : (runNets out feat S [Op.forward w .fit true x, Op.step w (upd x)]).1 =
        ⟨S.nets.set b { N with params := upd x N.params, traced := N.watched }, S.wrappers⟩ := by
      simp only [runNets, execNets, hw, hN, Bool.and_true]
      congr 1
      apply List.ext_getElem?
      intro i
      rw [List.getElem?_modify, List.getElem?_set, List.getElem?_set]
      by_cases h : b = i
      · subst h
        simp [hlt]
      · simp [h]
    have h2 := ih ⟨S.nets.set b { N with params := upd x N.params, traced := N.watched }, S.wrappers⟩ { N with params := upd x N.params, traced := N.watched } hw (by simp [hlt])
    rw [h1, h2]
    simp

theorem Hk.runNets_fit (out : Θ → X → Y) (feat : Θ → String → X → F) (upd : X → Θ → Θ) (batches : List X) (S : Networks Θ) (b : Nat) (layer : Option String)
    (N : Network Θ) (hN : S.nets[b]? = some N) :
    (runNets out feat S (fitOps b S.wrappers.length layer upd batches)).1 =
      ⟨S.nets.set b { N with params := batches.foldl (fun θ x => upd x θ) N.params, watched := N.watched || hasLayer N.layers layer,
                             traced := if batches = [] then N.traced else N.watched || hasLayer N.layers layer }, S.wrappers ++ [(b, layer)]⟩ := by
  have hlt : b < S.nets.length := (List.getElem?_eq_some_iff.1 hN).1
  unfold fitOps
  simp only [runNets, execNets, hN]
  rw [Hk.runNets_batches out feat upd batches _ S.wrappers.length b layer { N with watched := N.watched || hasLayer N.layers layer } (by simp) (by simp [hlt])]
  simp

/-- C145 (fitting). A fit of a net continues from the current parameters of the network it was built with, whatever was done with this network before, and leaves the
trained parameters in it: for this net, for any other net built with the same network and for the user. All other networks stay as they are. -/
theorem C145_fit_continues (out : Θ → X → Y) (feat : Θ → String → X → F) (upd : X → Θ → Θ) (ops : List (Op Θ X)) (b : Nat) (layer : Option String) (batches : List X)
    (H : Heap Θ F) (hH : H = (run out (fun θ n x => some (feat θ n x)) empty ops).1) (hb : b < H.bases.length) :
    ((run out (fun θ n x => some (feat θ n x)) H (fitOps b H.wrappers.length layer upd batches)).1.bases.map (·.params)) =
      (H.bases.map (·.params)).modify b (fun θ => batches.foldl (fun θ x => upd x θ) θ) := by
  have I : Inv H := hH ▸ (Hk.run_refines out feat ops empty inv_empty).1
  obtain ⟨-, -, h⟩ := Hk.run_refines out feat (fitOps b H.wrappers.length layer upd batches) H I
  have hN : (abs H).nets[b]? = some (view H.dicts H.bases[b]) := by simp [abs, hb]
  have hw : (abs H).wrappers.length = H.wrappers.length := by simp [abs]
  rw [← hw, Hk.runNets_fit out feat upd batches (abs H) b layer _ hN, hw] at h
  have h' := congrArg (fun S => S.nets.map (·.params)) h
  have e : ∀ G : Heap Θ F, (abs G).nets.map (·.params) = G.bases.map (·.params) := by intro G; simp [abs, view]
  simp only [e, List.map_set] at h'
  rw [h']
  apply List.ext_getElem?
  intro i
  rw [List.getElem?_set, List.getElem?_modify]
  by_cases hi : b = i
  · subst hi
    simp [hb, view]
  · simp [hi]

/-- C145 (cloning after a fit) fails: after a fit with at least one batch of a net that uses an existing layer, neither the net nor the module can be cloned, a
`RuntimeError`; one call without gradients (a prediction of any net around this network) and cloning works again. -/
theorem C145_clone_counterexample (out : Θ → X → Y) (feat : Θ → String → X → F) (upd : X → Θ → Θ) (ops : List (Op Θ X)) (b : Nat) (n : String) (batches : List X)
    (H : Heap Θ F) (hH : H = (run out (fun θ n x => some (feat θ n x)) empty ops).1) (B : Base Θ) (hB : H.bases[b]? = some B) (hn : n ∈ B.layers) (hne : batches ≠ [])
    (x : X) (G G' : Heap Θ F) (hG : G = (run out (fun θ n x => some (feat θ n x)) H (fitOps b H.wrappers.length (some n) upd batches)).1)
    (hG' : G' = (exec out (fun θ n x => some (feat θ n x)) G (.forward H.wrappers.length .plain false x)).1) :
    (exec out (fun θ n x => some (feat θ n x)) G (.copy b)).2 = .error .runtimeError ∧
      (exec out (fun θ n x => some (feat θ n x)) G (.clone H.wrappers.length)).2 = .error .runtimeError ∧
      (exec out (fun θ n x => some (feat θ n x)) G' (.copy b)).2 = .ok none ∧
      (exec out (fun θ n x => some (feat θ n x)) G' (.clone H.wrappers.length)).2 = .ok none := by
  have I : Inv H := hH ▸ (Hk.run_refines out feat ops empty inv_empty).1
  have hb : b < H.bases.length := (List.getElem?_eq_some_iff.1 hB).1
  obtain ⟨I1, -, h⟩ := Hk.run_refines out feat (fitOps b H.wrappers.length (some n) upd batches) H I
  rw [← hG] at I1 h
  have hN : (abs H).nets[b]? = some (view H.dicts B) := by simp [abs, hB]
  have hbn : b < (abs H).nets.length := by simpa [abs] using hb
  have hw : (abs H).wrappers.length = H.wrappers.length := by simp [abs]
  rw [← hw, Hk.runNets_fit out feat upd batches (abs H) b (some n) _ hN] at h
  have hl : hasLayer (view H.dicts B).layers (some n) = true := by simp [hasLayer, view, hn]
  simp only [hne, if_false, hl, Bool.or_true] at h
  obtain ⟨I2, h2⟩ := Hk.exec_refines out feat I1 (.forward H.wrappers.length .plain false x)
  rw [← hG'] at I2 h2
  have hwl : (abs G).wrappers[H.wrappers.length]? = some (b, some n) := by
    rw [h]
    simp [← hw]
  have c1 := congrArg Prod.snd (Hk.exec_refines out feat I1 (.copy b)).2
  have c2 := congrArg Prod.snd (Hk.exec_refines out feat I1 (.clone H.wrappers.length)).2
  have c3 := congrArg Prod.snd (Hk.exec_refines out feat I2 (.copy b)).2
  have c4 := congrArg Prod.snd (Hk.exec_refines out feat I2 (.clone H.wrappers.length)).2
  simp only at c1 c2 c3 c4
  rw [← c1, ← c2, ← c3, ← c4]
  have hNG : (abs G).nets[b]? = some { view H.dicts B with params := batches.foldl (fun θ x => upd x θ) (view H.dicts B).params, watched := true, traced := true } := by
    rw [h]
    simp [hbn]
  have hG2 : abs G' = (execNets out feat (abs G) (.forward H.wrappers.length .plain false x)).1 := by rw [h2]
  have hbG : b < (abs G).nets.length := (List.getElem?_eq_some_iff.1 hNG).1
  have hN2 : (abs G').nets[b]? = some { view H.dicts B with params := batches.foldl (fun θ x => upd x θ) (view H.dicts B).params, watched := true, traced := false } := by
    rw [hG2]
    simp only [execNets, hwl, hNG, Bool.and_false]
    rw [List.getElem?_set_self hbG]
  have hwl2 : (abs G').wrappers[H.wrappers.length]? = some (b, some n) := by
    rw [hG2]
    simp [execNets, hwl, hNG]
  refine ⟨?_, ?_, ?_, ?_⟩
  · simp [execNets, hNG]
  · simp [execNets, hwl, hNG]
  · simp [execNets, hN2]
  · simp [execNets, hwl2, hN2]

/-- A network with one number as its parameter and two layers; training adds the batch. -/
def hookProgram (ops : List (Op Int Int)) : List (Py (Option (Int × Option Int))) :=
  (run (fun θ x => θ * x) (fun θ n x => if n = "fc" ∧ x < 0 then none else some (θ + x + (n.length : Int))) empty ops).2

/-- C145 (fitting) fails in two ways that surprise: a second fit on other data does not start anew (prediction 8 · 1 where a fresh network trained on the second batch
alone gives 7 · 1), and fitting one net changes the predictions of another that was built with the same network (from 3 to 8). -/
theorem C145_shared_counterexample :
    hookProgram ([.new 2 ["conv", "fc"]] ++ fitOps 0 0 (some "fc") (fun x θ => θ + x) [1] ++ [.forward 0 .plain false 1] ++ fitOps 0 1 (some "conv") (fun x θ => θ + x) [5] ++
      [.forward 0 .plain false 1, .forward 1 .plain false 1]) =
      [.ok none, .ok none, .ok (some (2, some 5)), .ok none, .ok (some (3, none)), .ok none, .ok (some (15, some 12)), .ok none, .ok (some (8, none)), .ok (some (8, none))] ∧
    hookProgram ([.new 2 ["conv", "fc"]] ++ fitOps 0 0 (some "conv") (fun x θ => θ + x) [5] ++ [.forward 0 .plain false 1]) =
      [.ok none, .ok none, .ok (some (10, some 11)), .ok none, .ok (some (7, none))] := by decide +kernel

/-- C145 fails for a layer that the forward pass does not run: the features of the previous call are shown (here those of the input 4 for the input −1), without an error. -/
theorem C145_stale_counterexample :
    hookProgram [.new 2 ["conv", "fc"], .wrap 0 (some "fc"), .forward 0 .features false (-1), .forward 0 .features false 4, .forward 0 .features false (-1)] =
      [.ok none, .ok none, .error .keyError, .ok (some (8, some 8)), .ok (some (-2, some 8))] := by decide +kernel

/-- A program with two wrappers, a clone and a wrong name: each shows its own layer; the clone keeps its parameters while the original is trained; cloning between
training calls is refused. -/
example : hookProgram [.new 2 ["conv", "fc"], .wrap 0 (some "fc"), .wrap 0 (some "conv"), .wrap 0 (some "fcc"), .clone 1, .forward 0 .fit true 1, .forward 1 .features false 3,
      .forward 2 .features false 3, .step 0 (fun θ => θ + 1), .forward 3 .features false 3, .forward 1 .fit true 3, .clone 3, .clone 0] =
    [.ok none, .ok none, .ok none, .ok none, .ok none, .ok (some (2, some 5)), .ok (some (6, some 9)), .error .keyError, .ok none, .ok (some (6, some 9)),
      .ok (some (9, some 10)), .ok none, .error .runtimeError] := by decide +kernel

/-- C145 (traces). Every fit leaves one more hook on the network; none is ever removed, and a clone inherits all of them and adds two. -/
theorem C145_hooks_grow (out : Θ → X → Y) (feat : Θ → String → X → Option F) (H : Heap Θ F) (b : Nat) (n : String) (B : Base Θ) (hB : H.bases[b]? = some B) (hn : n ∈ B.layers)
    (upd : X → Θ → Θ) (batches : List X) :
    ∃ B', (run out feat H (fitOps b H.wrappers.length (some n) upd batches)).1.bases[b]? = some B' ∧ B'.hooks.length = B.hooks.length + 1 := by
  have hlt : b < H.bases.length := (List.getElem?_eq_some_iff.1 hB).1
  have key : ∀ (batches : List X) (G : Heap Θ F) (w : Nat) (C : Base Θ), G.bases[b]? = some C →
      ∃ B', (run out feat G (batches.flatMap (fun x => [Op.forward w .fit true x, Op.step w (upd x)]))).1.bases[b]? = some B' ∧ B'.hooks.length = C.hooks.length := by
    intro batches
    induction batches with
    | nil => intro G w C hC; exact ⟨C, hC, rfl⟩
    | cons x xs ih =>
      intro G w C hC
      have hf : ∀ (G : Heap Θ F), (exec out feat G (.forward w .fit true x)).1.bases = G.bases := by
        intro G
        simp only [exec, forward]
        split
        · rfl
        · split
          · rfl
          · split
            · rfl
            · rfl
            · rfl
            · split <;> rfl
      obtain ⟨C', hC', hl⟩ : ∃ C', (exec out feat (exec out feat G (.forward w .fit true x)).1 (.step w (upd x))).1.bases[b]? = some C' ∧
          C'.hooks.length = C.hooks.length := by
        generalize hG : (exec out feat G (.forward w .fit true x)).1 = G1
        have hb1 : G1.bases[b]? = some C := by rw [← hG, hf]; exact hC
        simp only [exec]
        split
        · exact ⟨C, hb1, rfl⟩
        · rename_i W _
          simp only [List.getElem?_modify, hb1]
          by_cases e : W.base = b
          · exact ⟨{ C with params := upd x C.params }, by simp [e], rfl⟩
          · exact ⟨C, by simp [e], rfl⟩
      obtain ⟨B', h1, h2⟩ := ih _ w C' hC'
      refine ⟨B', ?_, h2.trans hl⟩
      rw [List.flatMap_cons]
      exact h1
  have hwr : (exec out feat H (.wrap b (some n))).1.bases[b]? = some (register B H.dicts.length (some n)) := by
    simp only [exec, Hk.wrap, hB]
    exact List.getElem?_set_self hlt
  obtain ⟨B', h1, h2⟩ := key batches _ H.wrappers.length _ hwr
  exact ⟨B', h1, by rw [h2]; simp [register, hn]⟩

/-- The hypotheses of the general statements above hold for the network of `hookProgram`. -/
example : (run (Y := Int) (F := Int) (fun θ x => θ * x) (fun θ n x => some (θ + x + (n.length : Int))) empty
      ([.new 2 ["conv", "fc"]] ++ fitOps 0 0 (some "fc") (fun x θ => θ + x) [1, 4])).1.bases.map (fun B => (B.params, B.hooks.length)) = [(7, 1)] := by decide +kernel

end Skada

/-
C142, continued: label propagation by optimal transport on data listed several times.
-/
import Verif.Props.ReplicateOt

set_option linter.unusedSectionVars false

namespace Skada
open Np Spec OT

variable {K : Type} [Field K] [LinearOrder K] [IsStrictOrderedRing K] {α : Type}

/-- A solver that treats copies alike: for data listed `k` times, with the weights shared out among the copies, every entry of the plan is shared out in equal
parts among the `k * k` pairs of copies. (For equal weights and entropic transport this is `Copies.entropic_copies` in ReplicateSinkhorn.lean.) -/
def Spec.SharesPlans (plan : List α → List α → List K → List K → List (List K)) : Prop :=
  ∀ (k : Nat) (S T : List α) (ws wt : List K), 0 < k → S.length = ws.length → T.length = wt.length →
    plan (copies k S) (copies k T) (copies k (ws.map (fun v => v / (k : K)))) (copies k (wt.map (fun v => v / (k : K)))) =
      copies k ((plan S T ws wt).map (fun g => copies k (g.map (fun v => v / ((k : K) * (k : K))))))

namespace Copies

theorem getD_block {γ : Type} (x : γ) (g : List γ) (r : Nat) (hr : r < g.length) : ∀ (a q : Nat), q < a → (copies a g).getD (q * g.length + r) x = g.getD r x
  | 0, q, h => absurd h (Nat.not_lt_zero q)
  | a + 1, 0, _ => by
    rw [Copies.succ, Nat.zero_mul, Nat.zero_add]
    simp [List.getD, List.getElem?_append_left hr]
  | a + 1, q + 1, h => by
    have ih := getD_block x g r hr a q (by omega)
    rw [Copies.succ, Nat.succ_mul]
    simp only [List.getD] at ih ⊢
    rw [List.getElem?_append_right (by omega), show q * g.length + g.length + r - g.length = q * g.length + r by omega]
    exact ih

theorem nTarget_take (sd : List Int) (r : Nat) (hr : r ≤ sd.length) : ∀ (a q : Nat), q < a →
    Spec.nTarget ((copies a sd).take (q * sd.length + r)) = q * Spec.nTarget sd + Spec.nTarget (sd.take r)
  | 0, q, h => absurd h (Nat.not_lt_zero q)
  | a + 1, 0, _ => by
    rw [Copies.succ, Nat.zero_mul, Nat.zero_mul, Nat.zero_add, Nat.zero_add, List.take_append_of_le_length hr]
  | a + 1, q + 1, h => by
    have ih := nTarget_take sd r hr a q (by omega)
    rw [Copies.succ, Nat.succ_mul, Nat.succ_mul, show q * sd.length + sd.length + r = sd.length + (q * sd.length + r) by omega, List.take_length_add_append]
    unfold Spec.nTarget at ih ⊢
    rw [List.countP_append, ih]
    omega

theorem nTarget_take_lt {sd : List Int} {r : Nat} {e : Int} (h : sd[r]? = some e) (he : e < 0) : Spec.nTarget (sd.take r) < Spec.nTarget sd := by
  obtain ⟨hr, rfl⟩ := List.getElem?_eq_some_iff.1 h
  have h1 : Spec.nTarget sd = Spec.nTarget (sd.take r) + Spec.nTarget (sd.drop r) := by
    conv_lhs => rw [← List.take_append_drop r sd]
    exact List.countP_append
  have h2 : 0 < Spec.nTarget (sd.drop r) := List.countP_pos_iff.2 ⟨sd[r], by rw [List.drop_eq_getElem_cons hr]; exact List.mem_cons_self, by simpa using he⟩
  omega

theorem massFrom_copies {a : Nat} (ha : 0 < a) (G : List (List K)) (ys : List Int) (c : Int) (m : Nat) (hG : G.length = ys.length)
    (hrow : ∀ g ∈ G, g.length = m) (q r : Nat) (hq : q < a) (hr : r < m) :
    massFrom (copies a (G.map (fun g => copies a (g.map (fun v => v / ((a : K) * (a : K))))))) (copies a ys) c (q * m + r) = massFrom G ys c r / (a : K) := by
  have ha' : (a : K) ≠ 0 := by exact_mod_cast ha.ne'
  unfold massFrom
  have hz := Copies.zipWith (fun (g : List K) (y : Int) => (g, y)) a (a := G.map (fun g => copies a (g.map (fun v => v / ((a : K) * (a : K)))))) (b := ys) (by simpa using hG)
  simp only [List.zip, hz, Copies.filter, Copies.map, Copies.sum]
  have key : ∀ (G : List (List K)) (ys : List Int), (∀ g ∈ G, g.length = m) →
      ((List.zipWith Prod.mk (G.map (fun g => copies a (g.map (fun v => v / ((a : K) * (a : K)))))) ys |>.filter (fun r => decide (r.2 = c))).map
        (fun p => p.1.getD (q * m + r) 0)).sum = ((List.zipWith Prod.mk G ys |>.filter (fun r => decide (r.2 = c))).map (fun p => p.1.getD r 0)).sum / ((a : K) * (a : K)) := by
    intro G
    induction G with
    | nil => intro ys _; simp
    | cons g G ih =>
      intro ys hg
      cases ys with
      | nil => simp
      | cons y ys =>
        have hgl : (g.map (fun v => v / ((a : K) * (a : K)))).length = m := by simpa using hg g (by simp)
        have h1 : (copies a (g.map (fun v => v / ((a : K) * (a : K))))).getD (q * m + r) 0 = g.getD r 0 / ((a : K) * (a : K)) := by
          have := getD_block (0 : K) (g.map (fun v => v / ((a : K) * (a : K)))) r (by rw [hgl]; exact hr) a q hq
          rw [hgl] at this
          rw [this]
          have hr' : r < g.length := by rw [hg g (by simp)]; exact hr
          simp [List.getD, hr']
        have ih' := ih ys (fun g' h => hg g' (by simp [h]))
        by_cases hy : y = c
        · simp only [List.map_cons, List.zipWith_cons_cons, hy, decide_true, List.filter_cons_of_pos, List.sum_cons, h1, ih', add_div]
        · simp only [List.map_cons, List.zipWith_cons_cons, hy, decide_false, Bool.false_eq_true, not_false_eq_true, List.filter_cons_of_neg, ih']
  have := key G ys hrow
  rw [this]
  field_simp

theorem sideWeights_copies {k : Nat} (hk : 0 < k) (n : Nat) (w : Option (List K)) :
    sideWeights (k * n) (w.map (copies k)) = copies k ((sideWeights n w).map (fun v => v / (k : K))) := by
  have hk' : (k : K) ≠ 0 := by exact_mod_cast hk.ne'
  cases w with
  | none =>
    simp only [Option.map_none, sideWeights, List.map_replicate]
    symm
    rw [List.eq_replicate_iff]
    refine ⟨by simp [Copies.length], fun v hv => ?_⟩
    rw [List.eq_of_mem_replicate ((Copies.mem hk).1 hv), Nat.cast_mul]
    rw [div_div, mul_comm]
  | some v =>
    simp only [Option.map_some, sideWeights, Copies.map, Copies.sum, List.map_map]
    congr 1
    apply List.map_congr_left
    intro x _
    simp only [Function.comp, div_div, mul_comm]

theorem winner_scale {f g : Int → K} {ys ys' : List Int} {c c' : Int} {a : K} (ha : 0 < a) (hys : ∀ x, x ∈ ys' ↔ x ∈ ys) (hfg : ∀ x, g x = f x / a)
    (h : Winner f ys c) (h' : Winner g ys' c') : c' = c := by
  obtain ⟨h1, h2, h3⟩ := h
  obtain ⟨h1', h2', h3'⟩ := h'
  have e : ∀ x y, g x ≤ g y ↔ f x ≤ f y := fun x y => by rw [hfg, hfg, div_le_div_iff_of_pos_right ha]
  have a1 := h2 c' ((hys c').1 h1')
  have a2 := (e c c').1 (h2' c ((hys c).2 h1))
  exact le_antisymm (h3' c ((hys c).2 h1) ((e c' c).2 a1)) (h3 c' ((hys c').1 h1') a2)

end Copies

/-- **C142, label propagation.**  If the solver treats copies alike, propagating labels on the data listed `a` times (with the weights listed `a` times, if
there are any) gives every copy of a sample the label of the sample. -/
theorem C142_label_propagation (plan : List α → List α → List K → List K → List (List K)) (hplan : SharesPlans plan) (X : List α) (y : List Int)
    (sd : List Int) (w : Option (List K)) (hy : y.length = X.length) (hlen : sd.length = X.length) (hw : ∀ v, w = some v → v.length = X.length)
    (hs : 0 < nSource sd) (a : Nat) (ha : 0 < a) (G : List (List K))
    (hG : G = plan (sourceRows sd X) (targetRows sd X) (sideWeights (sourceRows sd X).length (w.map (sourceRows sd)))
      (sideWeights (targetRows sd X).length (w.map (targetRows sd)))) (hrows : G.length = nSource sd) (hcols : ∀ g ∈ G, g.length = nTarget sd) :
    ∃ yout, otLabelProp plan X y (.vec sd) w = .ok (X, yout) ∧
      otLabelProp plan (copies a X) (copies a y) (.vec (copies a sd)) (w.map (copies a)) = .ok (copies a X, copies a yout) := by
  have hwc : ∀ v, w.map (copies a) = some v → v.length = (copies a X).length := by
    intro v h
    cases w with
    | none => simp at h
    | some u => simp at h; subst h; simp [Copies.length, hw u rfl]
  obtain ⟨yout, h1, h2, h3, h4⟩ := C36_discrete plan X y sd w hy hlen hw hs
  obtain ⟨yout', h1', h2', h3', h4'⟩ := C36_discrete plan (copies a X) (copies a y) (copies a sd) (w.map (copies a)) (by simp [Copies.length, hy])
    (by simp [Copies.length, hlen]) hwc (by rw [Copies.nSource]; exact Nat.mul_pos ha hs)
  refine ⟨yout, h1, ?_⟩
  rw [h1']
  suffices yout' = copies a yout by rw [this]
  have e1 : (w.map (copies a)).map (sourceRows (copies a sd)) = (w.map (sourceRows sd)).map (copies a) := by
    cases w with
    | none => rfl
    | some u => simp [Copies.source a (hlen.trans (hw u rfl).symm)]
  have e2 : (w.map (copies a)).map (targetRows (copies a sd)) = (w.map (targetRows sd)).map (copies a) := by
    cases w with
    | none => rfl
    | some u => simp [Copies.target a (hlen.trans (hw u rfl).symm)]
  have hls : (sourceRows sd X).length = (sideWeights (sourceRows sd X).length (w.map (sourceRows sd))).length := by
    cases w with
    | none => simp [sideWeights]
    | some u => simp [sideWeights, length_sourceRows hlen, length_sourceRows (hlen.trans (hw u rfl).symm)]
  have hlt : (targetRows sd X).length = (sideWeights (targetRows sd X).length (w.map (targetRows sd))).length := by
    cases w with
    | none => simp [sideWeights]
    | some u => simp [sideWeights, length_targetRows hlen, length_targetRows (hlen.trans (hw u rfl).symm)]
  rw [e1, e2, Copies.source a hlen, Copies.target a hlen, Copies.source a (hlen.trans hy.symm), Copies.length, Copies.length, Copies.sideWeights_copies ha,
    Copies.sideWeights_copies ha, hplan a _ _ _ _ ha hls hlt, ← hG] at h4'
  rw [← hG] at h4
  have hly : yout.length = sd.length := h2.trans hlen.symm
  have hly' : yout'.length = (copies a sd).length := by rw [h2', Copies.length, Copies.length, hlen]
  refine List.ext_getElem (by rw [hly', Copies.length, Copies.length, hly]) fun i hi hi' => ?_
  have hic : i < (copies a sd).length := by rw [← hly']; exact hi
  have hpos := Copies.pos_len hic
  have hr : i % sd.length < sd.length := Nat.mod_lt _ hpos
  have hq : i / sd.length < a := by
    rw [Copies.length] at hic
    exact Nat.div_lt_of_lt_mul (by rw [Nat.mul_comm]; exact hic)
  have hi0 : i = i / sd.length * sd.length + i % sd.length := (Nat.div_add_mod' i sd.length).symm
  rw [Copies.getElem_mod yout a i hi' (by rw [hly]; exact hr)]
  simp only [hly]
  have hsi : (copies a sd)[i]? = some sd[i % sd.length] := by
    rw [List.getElem?_eq_getElem hic, Copies.getElem_mod sd a i hic hr]
  have hsr : sd[i % sd.length]? = some sd[i % sd.length] := List.getElem?_eq_getElem hr
  have hyr : yout[i % sd.length]? = some (yout[i % sd.length]'(by rw [hly]; exact hr)) := List.getElem?_eq_getElem _
  have hyi : yout'[i]? = some yout'[i] := List.getElem?_eq_getElem hi
  rcases lt_or_ge sd[i % sd.length] 0 with hd | hd
  · obtain ⟨c, hc1, hc2⟩ := h4 _ _ hsr hd
    obtain ⟨c', hc1', hc2'⟩ := h4' _ _ hsi hd
    rw [hyr, Option.some.injEq] at hc1
    rw [hyi, Option.some.injEq] at hc1'
    rw [hc1, hc1']
    have ht : nTarget ((copies a sd).take i) = i / sd.length * nTarget sd + nTarget (sd.take (i % sd.length)) := by
      conv_lhs => rw [hi0]
      exact Copies.nTarget_take sd _ hr.le a _ hq
    rw [ht] at hc2'
    refine Copies.winner_scale (a := (a : K)) (by exact_mod_cast ha) (fun x => Copies.mem ha) (fun x => ?_) hc2 hc2'
    exact Copies.massFrom_copies ha G _ x (nTarget sd) (by rw [hrows, length_sourceRows (hlen.trans hy.symm)]) hcols _ _ hq (Copies.nTarget_take_lt hsr hd)
  · have g1 := h3 _ _ hsr hd
    have g2 := h3' _ _ hsi hd
    rw [hyr, Option.some.injEq] at g1
    rw [hyi, Option.some.injEq] at g2
    rw [g1, g2]

/-- A solver that treats copies alike: the mass between two samples is proportional to a kernel between them and to their weights. -/
def kernelPlan (k : α → α → K) (S T : List α) (ws wt : List K) : List (List K) :=
  List.zipWith (fun s u => List.zipWith (fun t v => k s t * u * v) T wt) S ws

theorem zipWith_copies {γ δ ε : Type} (f : γ → δ → ε) (k : Nat) (A : List γ) (B : List δ) (h : A.length = B.length) :
    List.zipWith f (copies k A) (copies k B) = copies k (List.zipWith f A B) := Copies.zipWith f k h

theorem kernelPlan_shares (k : α → α → K) : SharesPlans (kernelPlan k) := by
  intro c S T ws wt _ hS hT
  unfold kernelPlan
  have h1 : ∀ (s : α) (u : K), List.zipWith (fun t v => k s t * u * v) (copies c T) (copies c (wt.map (fun v => v / (c : K)))) =
      copies c (List.zipWith (fun t v => k s t * u * v) T (wt.map (fun v => v / (c : K)))) := fun s u => zipWith_copies _ c _ _ (by simpa using hT)
  simp only [h1]
  rw [zipWith_copies _ c _ _ (by simpa using hS), List.zipWith_map_right, List.map_zipWith]
  congr 1
  congr 1
  funext s u
  rw [List.zipWith_map_right, List.map_zipWith]
  congr 1
  congr 1
  funext t v
  rw [← mul_div_assoc (k s t), div_mul_div_comm]

/-- Two source samples of class 0 and 4 and two target samples, with weights; everything listed three times. -/
example : otLabelProp (kernelPlan (fun s t : ℚ => 1 / (1 + (s - t) ^ 2))) [0, 9, 10, 3] [0, -1, 4, -1] (.vec [1, -2, 1, -2]) (some [1, 2, 1, 1]) =
      .ok ([0, 9, 10, 3], [-1, 4, -1, 0]) ∧
    otLabelProp (kernelPlan (fun s t : ℚ => 1 / (1 + (s - t) ^ 2))) (copies 3 [0, 9, 10, 3]) (copies 3 [0, -1, 4, -1]) (.vec (copies 3 [1, -2, 1, -2]))
      (some (copies 3 [1, 2, 1, 1])) = .ok (copies 3 [0, 9, 10, 3], copies 3 [-1, 4, -1, 0]) ∧
    (kernelPlan (fun s t : ℚ => 1 / (1 + (s - t) ^ 2)) [0, 10] [9, 3] [1/2, 1/2] [2/3, 1/3]).map List.length = [2, 2] := by decide +kernel

/-- The plans used below: of two target samples the first is served by the samples of odd position. -/
def oddPlan (S T : List ℚ) (_ _ : List ℚ) : List (List ℚ) :=
  if S.length = 4 ∧ T.length = 2 then [[0, 1/4], [1/4, 0], [0, 1/4], [1/4, 0]] else S.map (fun _ => T.map (fun _ => 1 / ((S.length : ℚ) * (T.length : ℚ))))

/-- **C142 fails for label propagation when the solver does not treat copies alike.**  A target sample half-way between two source samples of class 0 and 1,
squared distance. Listed once, it gets the label 0; listed twice, a best plan may give one copy the label 1 and the other 0. Both plans are best plans. -/
theorem C142_label_propagation_counterexample :
    ∃ (plan : List ℚ → List ℚ → List ℚ → List ℚ → List (List ℚ)) (X : List ℚ) (y sd : List Int),
      (∀ ws wt, BestPlan (fun x y => (x - y) ^ 2) (sourceRows sd X) (targetRows sd X)
        (fun s t => ((plan (sourceRows sd X) (targetRows sd X) ws wt).getD s []).getD t 0)) ∧
      (∀ ws wt, BestPlan (fun x y => (x - y) ^ 2) (copies 2 (sourceRows sd X)) (copies 2 (targetRows sd X))
        (fun s t => ((plan (copies 2 (sourceRows sd X)) (copies 2 (targetRows sd X)) ws wt).getD s []).getD t 0)) ∧
      otLabelProp plan X y (.vec sd) none = .ok (X, [-1, -1, 0]) ∧
      otLabelProp plan (copies 2 X) (copies 2 y) (.vec (copies 2 sd)) none = .ok (copies 2 X, [-1, -1, 1, -1, -1, 0]) := by
  refine ⟨oddPlan, [0, 2, 1], [0, 1, -1], [1, 1, -2], fun ws wt => ?_, fun ws wt => ?_, by decide +kernel, by decide +kernel⟩
  · exact bestPlan_const _ [0, 2] [1] 1 (by decide +kernel) (fun s t => ((oddPlan [0, 2] [1] [] []).getD s []).getD t 0)
      ⟨by decide +kernel, by decide +kernel, by decide +kernel⟩
  · exact bestPlan_const _ [0, 2, 0, 2] [1, 1] 1 (by decide +kernel) (fun s t => ((oddPlan [0, 2, 0, 2] [1, 1] [] []).getD s []).getD t 0)
      ⟨by decide +kernel, by decide +kernel, by decide +kernel⟩

/-- What the continuous branch returns, entry by entry. -/
theorem otLabelPropReg_out (plan : List α → List α → List K → List K → List (List K)) (X : List α) (y : List K) (sd : List Int)
    (w : Option (List K)) (hX : X ≠ []) (hy : y.length = X.length) (hlen : sd.length = X.length) (hw : ∀ v, w = some v → v.length = X.length) :
    ∃ yout, otLabelPropReg plan X y (.vec sd) w = .ok (X, yout) ∧ yout.length = X.length ∧
      (∀ (i : Nat) (d : Int), sd[i]? = some d → 0 ≤ d → yout[i]? = some none) ∧
      (∀ (i : Nat) (d : Int), sd[i]? = some d → d < 0 → yout[i]? = some (some
        ((List.zipWith (fun g y => g.getD (nTarget (sd.take i)) 0 * y)
          (plan (sourceRows sd X) (targetRows sd X) (sideWeights (sourceRows sd X).length (w.map (sourceRows sd)))
            (sideWeights (targetRows sd X).length (w.map (targetRows sd)))) (sourceRows sd y)).sum /
          (sideWeights (targetRows sd X).length (w.map (targetRows sd))).getD (nTarget (sd.take i)) 0))) := by
  simp only [← propWeights_eq]
  have hsd : sd ≠ [] := RW.sd_ne hX hlen
  obtain ⟨o, ho1, ho2, ho3, ho4⟩ := assign_targets (sd := sd) (out := y.map (fun _ => (none : Option K)))
    (vals := (List.range (targetRows sd X).length).map (fun j =>
      some ((List.zipWith (fun g y => g.getD j 0 * y) (plan (sourceRows sd X) (targetRows sd X) (propWeights (sourceRows sd X).length (w.map (sourceRows sd)))
        (propWeights (targetRows sd X).length (w.map (targetRows sd)))) (sourceRows sd y)).sum /
        (propWeights (targetRows sd X).length (w.map (targetRows sd))).getD j 0)))
    (by simp; omega) (by simp [length_targetRows hlen])
  refine ⟨o, ?_, by simpa [hy] using ho2, fun i d hd h0 => ?_, fun i d hd h0 => ?_⟩
  · unfold otLabelPropReg
    rw [RW.check_ok hX hlen]
    simp only [ok_bind]
    rw [RW.splitX_ok hsd hlen, RW.splitX_ok hsd (by omega), splitY_ok hsd (fun v hv => by rw [hw v hv, hlen])]
    simp only [ok_bind]
    rw [ho1]
    rfl
  · rw [ho3 i d hd h0, List.getElem?_map]
    have : i < y.length := by
      by_contra h; rw [List.getElem?_eq_none (by omega)] at hd; simp at hd
    simp [this]
  · rw [ho4 i d hd h0, List.getElem?_map, List.getElem?_range (by rw [length_targetRows hlen]; exact Copies.nTarget_take_lt hd h0)]
    simp only [Option.map_some]

theorem Copies.weighted_copies {a : Nat} (ha : 0 < a) (G : List (List K)) (ys : List K) (m : Nat) (hG : G.length = ys.length)
    (hrow : ∀ g ∈ G, g.length = m) (q r : Nat) (hq : q < a) (hr : r < m) :
    (List.zipWith (fun g y => g.getD (q * m + r) 0 * y) (copies a (G.map (fun g => copies a (g.map (fun v => v / ((a : K) * (a : K))))))) (copies a ys)).sum =
      (List.zipWith (fun g y => g.getD r 0 * y) G ys).sum / (a : K) := by
  have ha' : (a : K) ≠ 0 := by exact_mod_cast ha.ne'
  rw [Copies.zipWith _ a (by simpa using hG), Copies.sum]
  have key : ∀ (G : List (List K)) (ys : List K), (∀ g ∈ G, g.length = m) →
      (List.zipWith (fun g y => g.getD (q * m + r) 0 * y) (G.map (fun g => copies a (g.map (fun v => v / ((a : K) * (a : K)))))) ys).sum =
        (List.zipWith (fun g y => g.getD r 0 * y) G ys).sum / ((a : K) * (a : K)) := by
    intro G
    induction G with
    | nil => intro ys _; simp
    | cons g G ih =>
      intro ys hg
      cases ys with
      | nil => simp
      | cons y ys =>
        have hgl : (g.map (fun v => v / ((a : K) * (a : K)))).length = m := by simpa using hg g (by simp)
        have h1 : (copies a (g.map (fun v => v / ((a : K) * (a : K))))).getD (q * m + r) 0 = g.getD r 0 / ((a : K) * (a : K)) := by
          have := getD_block (0 : K) (g.map (fun v => v / ((a : K) * (a : K)))) r (by rw [hgl]; exact hr) a q hq
          rw [hgl] at this
          rw [this]
          have hr' : r < g.length := by rw [hg g (by simp)]; exact hr
          simp [List.getD, hr']
        have ih' := ih ys (fun g' h => hg g' (by simp [h]))
        simp only [List.map_cons, List.zipWith_cons_cons, List.sum_cons, h1, ih', add_div, div_mul_eq_mul_div]
  rw [key G ys hrow]
  field_simp

/-- **C142, label propagation, continuous labels.**  The same for regression: every copy gets the value of the sample. -/
theorem C142_label_propagation_continuous (plan : List α → List α → List K → List K → List (List K)) (hplan : SharesPlans plan) (X : List α) (y : List K)
    (sd : List Int) (w : Option (List K)) (hX : X ≠ []) (hy : y.length = X.length) (hlen : sd.length = X.length)
    (hw : ∀ v, w = some v → v.length = X.length) (a : Nat) (ha : 0 < a) (G : List (List K))
    (hG : G = plan (sourceRows sd X) (targetRows sd X) (sideWeights (sourceRows sd X).length (w.map (sourceRows sd)))
      (sideWeights (targetRows sd X).length (w.map (targetRows sd)))) (hrows : G.length = nSource sd) (hcols : ∀ g ∈ G, g.length = nTarget sd) :
    ∃ yout, otLabelPropReg plan X y (.vec sd) w = .ok (X, yout) ∧
      otLabelPropReg plan (copies a X) (copies a y) (.vec (copies a sd)) (w.map (copies a)) = .ok (copies a X, copies a yout) := by
  have ha' : (a : K) ≠ 0 := by exact_mod_cast ha.ne'
  have hwc : ∀ v, w.map (copies a) = some v → v.length = (copies a X).length := by
    intro v h
    cases w with
    | none => simp at h
    | some u => simp at h; subst h; simp [Copies.length, hw u rfl]
  obtain ⟨yout, h1, h2, h3, h4⟩ := otLabelPropReg_out plan X y sd w hX hy hlen hw
  obtain ⟨yout', h1', h2', h3', h4'⟩ := otLabelPropReg_out plan (copies a X) (copies a y) (copies a sd) (w.map (copies a)) (Copies.ne_nil ha hX)
    (by simp [Copies.length, hy]) (by simp [Copies.length, hlen]) hwc
  refine ⟨yout, h1, ?_⟩
  rw [h1']
  suffices yout' = copies a yout by rw [this]
  have e1 : (w.map (copies a)).map (sourceRows (copies a sd)) = (w.map (sourceRows sd)).map (copies a) := by
    cases w with
    | none => rfl
    | some u => simp [Copies.source a (hlen.trans (hw u rfl).symm)]
  have e2 : (w.map (copies a)).map (targetRows (copies a sd)) = (w.map (targetRows sd)).map (copies a) := by
    cases w with
    | none => rfl
    | some u => simp [Copies.target a (hlen.trans (hw u rfl).symm)]
  have hls : (sourceRows sd X).length = (sideWeights (sourceRows sd X).length (w.map (sourceRows sd))).length := by
    cases w with
    | none => simp [sideWeights]
    | some u => simp [sideWeights, length_sourceRows hlen, length_sourceRows (hlen.trans (hw u rfl).symm)]
  have hlt : (targetRows sd X).length = (sideWeights (targetRows sd X).length (w.map (targetRows sd))).length := by
    cases w with
    | none => simp [sideWeights]
    | some u => simp [sideWeights, length_targetRows hlen, length_targetRows (hlen.trans (hw u rfl).symm)]
  rw [e1, e2, Copies.source a hlen, Copies.target a hlen, Copies.source a (hlen.trans hy.symm), Copies.length, Copies.length, Copies.sideWeights_copies ha,
    Copies.sideWeights_copies ha, hplan a _ _ _ _ ha hls hlt, ← hG] at h4'
  rw [← hG] at h4
  have hly : yout.length = sd.length := h2.trans hlen.symm
  have hly' : yout'.length = (copies a sd).length := by rw [h2', Copies.length, Copies.length, hlen]
  refine List.ext_getElem (by rw [hly', Copies.length, Copies.length, hly]) fun i hi hi' => ?_
  have hic : i < (copies a sd).length := by rw [← hly']; exact hi
  have hpos := Copies.pos_len hic
  have hr : i % sd.length < sd.length := Nat.mod_lt _ hpos
  have hq : i / sd.length < a := by
    rw [Copies.length] at hic
    exact Nat.div_lt_of_lt_mul (by rw [Nat.mul_comm]; exact hic)
  have hi0 : i = i / sd.length * sd.length + i % sd.length := (Nat.div_add_mod' i sd.length).symm
  rw [Copies.getElem_mod yout a i hi' (by rw [hly]; exact hr)]
  simp only [hly]
  have hsi : (copies a sd)[i]? = some sd[i % sd.length] := by
    rw [List.getElem?_eq_getElem hic, Copies.getElem_mod sd a i hic hr]
  have hsr : sd[i % sd.length]? = some sd[i % sd.length] := List.getElem?_eq_getElem hr
  have hyr : yout[i % sd.length]? = some (yout[i % sd.length]'(by rw [hly]; exact hr)) := List.getElem?_eq_getElem _
  have hyi : yout'[i]? = some yout'[i] := List.getElem?_eq_getElem hi
  rcases lt_or_ge sd[i % sd.length] 0 with hd | hd
  · have g1 := h4 _ _ hsr hd
    have g2 := h4' _ _ hsi hd
    rw [hyr, Option.some.injEq] at g1
    rw [hyi, Option.some.injEq] at g2
    have hrt := Copies.nTarget_take_lt hsr hd
    have ht : nTarget ((copies a sd).take i) = i / sd.length * nTarget sd + nTarget (sd.take (i % sd.length)) := by
      conv_lhs => rw [hi0]
      exact Copies.nTarget_take sd _ hr.le a _ hq
    have hwl : ((sideWeights (targetRows sd X).length (w.map (targetRows sd))).map (fun v => v / (a : K))).length = nTarget sd := by
      rw [List.length_map, ← hlt, length_targetRows hlen]
    have hwd := Copies.getD_block (0 : K) _ (nTarget (sd.take (i % sd.length))) (by rw [hwl]; exact hrt) a _ hq
    rw [hwl] at hwd
    have hwd' : ((sideWeights (targetRows sd X).length (w.map (targetRows sd))).map (fun v => v / (a : K))).getD (nTarget (sd.take (i % sd.length))) 0 =
        (sideWeights (targetRows sd X).length (w.map (targetRows sd))).getD (nTarget (sd.take (i % sd.length))) 0 / (a : K) := by
      have h : nTarget (sd.take (i % sd.length)) < (sideWeights (targetRows sd X).length (w.map (targetRows sd))).length := by
        rw [← hlt, length_targetRows hlen]; exact hrt
      simp only [List.getD, List.getElem?_map, List.getElem?_eq_getElem h, Option.map_some, Option.getD_some]
    rw [g1, g2, ht, Copies.weighted_copies ha G _ (nTarget sd) (by rw [hrows, length_sourceRows (hlen.trans hy.symm)]) hcols _ _ hq hrt, hwd, hwd',
      div_div_div_cancel_right₀ ha']
  · have g1 := h3 _ _ hsr hd
    have g2 := h3' _ _ hsi hd
    rw [hyr, Option.some.injEq] at g1
    rw [hyi, Option.some.injEq] at g2
    rw [g1, g2]

/-- Two source and two target samples with continuous labels, listed twice. -/
example : otLabelPropReg (kernelPlan (fun s t : ℚ => if s = t then (2 : ℚ) else 1)) [0, 9, 9, 0] [1, 5, 4, 5] (.vec [1, -2, 1, -2]) none =
      .ok ([0, 9, 9, 0], [none, some (9/2), none, some 3]) ∧
    otLabelPropReg (kernelPlan (fun s t : ℚ => if s = t then (2 : ℚ) else 1)) (copies 2 [0, 9, 9, 0]) (copies 2 [1, 5, 4, 5]) (.vec (copies 2 [1, -2, 1, -2])) none =
      .ok (copies 2 [0, 9, 9, 0], copies 2 [none, some (9/2), none, some 3]) := by decide +kernel

end Skada

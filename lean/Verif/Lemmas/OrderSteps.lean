/-
Lemmas for C136: selecting selectors, whole pipelines and their evaluation when the samples are reordered.
-/
import Verif.Lemmas.Order

namespace Skada
open Np Spec

variable {α β σ γ δ : Type}

namespace Order

/-! ### `SelectSource`, `SelectTarget` -/

theorem preFilter_rows {side : Side} {l0 l0' l l' : List Nat} (hl : Reorder l l') {c c' : Cont α} (hc : RowsCont l l' c c')
    {y y' : Option (List Num)} (hy : RowsOpt l0 l0' y y') {d d' : Dict} (hd : RowsDict l0 l0' d d') (hn : (d.map Prod.fst).Nodup)
    (ho : Over l0 l0' l l' y d c) :
    RelPy (fun a b => ∃ k k', Reorder k k' ∧ RowsCont k k' a.1 b.1 ∧ RowsOpt k k' a.2.1 b.2.1 ∧ RowsDict k k' a.2.2 b.2.2 ∧
        a.1.labels = a.2.1 ∧ (a.2.2.map Prod.fst).Nodup ∧ (y.isSome = true → a.2.1.isSome = true) ∧ (∀ kv ∈ d, kv.1 ∈ a.1.metadata.map Prod.fst))
      (preFilter side c y d) (preFilter side c' y' d') := by
  unfold preFilter
  have hm := mergeOut_rows hc hy hd hn ho
  have hsome : y.isSome = true → (c.mergeOut y d).2.1.isSome = true := by
    intro h
    simp only [Cont.mergeOut]
    cases c.labels
    · exact h
    · rfl
  have hkeys : ∀ kv ∈ d, kv.1 ∈ (c.mergeOut y d).2.2.map Prod.fst := by
    intro kv hkv
    exact mem_keys_update.2 (Or.inl (List.mem_map_of_mem hkv))
  rcases hx : c.mergeOut y d with ⟨X, y2, p⟩
  rcases hx' : c'.mergeOut y' d' with ⟨X', y2', p'⟩
  rw [hx, hx'] at hm
  rw [hx] at hsome hkeys
  obtain ⟨m1, m2, m3⟩ := hm
  simp only at m1 m2 m3 hsome hkeys
  simp only
  rcases Sides.py_cases (sideMask_rows hl (get m3 "sample_domain") side) with ⟨e, h1, h2⟩ | ⟨m, m', h1, h2, f, rfl, rfl⟩
  · rw [h1, h2]; exact rfl
  · rw [h1, h2]
    simp only
    obtain ⟨⟨a1, a2, a3⟩, ⟨b1, b2, b3⟩, h3, h4, ⟨r1, r2, r3⟩, r4, r5⟩ := masks m1 m2 m3 f
    rw [h3, h4]
    simp only at r1 r2 r3 r4 r5
    have hp : p = d.update c.metadata := (congrArg (fun t => t.2.2) hx).symm
    have hmd : ∀ kv ∈ c.metadata, kv.1 ∈ a3.map Prod.fst := by
      intro kv hkv
      rw [r5, hp]
      exact mem_keys_update.2 (Or.inr (List.mem_map_of_mem hkv))
    refine ⟨_, _, reorder_filter hl f, ⟨r1, r2, update_cover hc.metadata r3 hc.nodup hmd, nodup_update hc.nodup⟩, r2, r3, rfl, ?_,
      fun h => ?_, fun kv hkv => ?_⟩
    · simp only [r5, hp]; exact nodup_update hn
    · simp only [r4]; exact hsome h
    · exact mem_keys_update.2 (Or.inr (r5 ▸ hkeys kv hkv))

theorem over_same {l l' : List Nat} {y : Option (List Num)} {p : Dict} {c : Cont α} : Over l l' l l' y p c := Or.inl ⟨rfl, rfl⟩

theorem selectFit_rows {Q : σ → σ → Prop} {s : Sel α σ} (h : OrderFree Q s.est) {side : Side} {l0 l0' l l' : List Nat} (hl : Reorder l l')
    {c c' : Cont α} (hc : RowsCont l l' c c') {y y' : Option (List Num)} (hy : RowsOpt l0 l0' y y') {d d' : Dict} (hd : RowsDict l0 l0' d d')
    (hn : (d.map Prod.fst).Nodup) (ho : Over l0 l0' l l' y d c) :
    RowsRun (fun a b => Q a.1 b.1) (s.selectFit side c y d) (s.selectFit side c' y' d') := by
  unfold Sel.selectFit
  rcases Sides.py_cases (preFilter_rows (side := side) hl hc hy hd hn ho) with
    ⟨e, h1, h2⟩ | ⟨⟨a1, a2, a3⟩, ⟨b1, b2, b3⟩, h1, h2, k, k', hk, r1, r2, r3, -, r5, -⟩
  · rw [h1, h2]; exact ⟨List.Forall₂.nil, rfl⟩
  · rw [h1, h2]
    simp only at r1 r2 r3 r5 ⊢
    obtain ⟨calls, calls', hcalls, ⟨e, h3, h4⟩ | ⟨a, b, h3, h4, hr⟩⟩ := run_cases (sharedFit_rows h .fit hk hk r1 r2 r3 r5 over_same)
    · rw [h3, h4]; exact ⟨hcalls, rfl⟩
    · rw [h3, h4]; exact ⟨hcalls, hr.1⟩

/-- The output of a step that keeps labels. -/
theorem keeps_out {s : Sel α σ} (h : KeepsLabels s.est) {c : Cont α} {y : Option (List Num)} {d : Dict} {calls : List (Call α)} {f : σ}
    {o : StepOut α} {y1 : Option (List Num)} (hr : s.sharedFitTransformOut c y d = (calls, .ok ((f, o), y1))) (X : List α) (p : Dict) :
    o ≠ .triple X none p := by
  rintro rfl
  unfold Sel.sharedFitTransformOut at hr
  split at hr
  · unfold Sel.sharedFit at hr
    cases h1 : s.ownMask y d with
    | error e => simp [h1] at hr
    | ok y2 =>
      simp only [h1] at hr
      cases h2 : s.routedCall .fitTransform (c.mergeOut y2 d).1 (c.mergeOut y2 d).2.1 (c.mergeOut y2 d).2.2 with
      | error e => simp [h2] at hr
      | ok call =>
        simp only [h2, Est.invoke] at hr
        cases h3 : s.est.fitTransform call with
        | error e => simp [h3] at hr
        | ok r =>
          simp only [h3, Prod.mk.injEq, Except.ok.injEq] at hr
          obtain ⟨-, rfl, -⟩ := hr
          exact h.1 _ _ _ _ h3
  · rcases h1 : s.sharedFit .fit c y d with ⟨cs, _ | ⟨⟨f1, o1⟩, y2⟩⟩
    · simp [h1] at hr
    · simp only [h1] at hr
      cases h2 : routeParams s.est.transformReq (c.mergeOut y2 d).2.2 with
      | error e => simp [h2] at hr
      | ok tp =>
        simp only [h2] at hr
        unfold Sel.sharedTransform at hr
        cases h3 : prepareRouting s.final s.est.hasTransform s.est.transformReq tp with
        | error e => simp [h3] at hr
        | ok routed =>
          simp only [h3] at hr
          cases h4 : s.est.transform f1 (c.mergeOut y2 d).1 routed with
          | error e => simp [h4] at hr
          | ok out =>
            simp only [h4, Prod.mk.injEq, Except.ok.injEq] at hr
            obtain ⟨-, ⟨-, rfl⟩, -⟩ := hr
            exact h.2 _ _ _ _ _ h4

/-- `merge_in` of an output that is not `(X, None, params)` keeps labels and parameters. -/
theorem mergeIn_keeps {c c1 : Cont α} {o : StepOut α} (ho : ∀ X p, o ≠ .triple X none p) (h : c.mergeIn o = .ok c1) :
    (c.labels.isSome = true → c1.labels.isSome = true) ∧ ∀ k ∈ c.metadata.map Prod.fst, k ∈ c1.metadata.map Prod.fst := by
  cases o with
  | arr X => cases h; exact ⟨id, fun _ => id⟩
  | pair X p => cases h; exact ⟨id, fun k hk => mem_keys_update.2 (Or.inl hk)⟩
  | triple X y p =>
    cases h
    cases y with
    | none => exact absurd rfl (ho X p)
    | some y => exact ⟨fun _ => rfl, fun k hk => mem_keys_update.2 (Or.inl hk)⟩
  | other => cases h

theorem selectFitTransform_rows {Q : σ → σ → Prop} {s : Sel α σ} (h : OrderFree Q s.est) {side : Side} {l0 l0' l l' : List Nat}
    (hl : Reorder l l') {c c' : Cont α} (hc : RowsCont l l' c c') {y y' : Option (List Num)} (hy : RowsOpt l0 l0' y y') {d d' : Dict}
    (hd : RowsDict l0 l0' d d') (hn : (d.map Prod.fst).Nodup) (ho : Over l0 l0' l l' y d c) :
    RowsRun (fun a b => Q a.1 b.1 ∧ ∃ k k', Reorder k k' ∧ RowsCont k k' a.2 b.2 ∧ (KeepsLabels s.est →
        (y.isSome = true → a.2.labels.isSome = true) ∧ (∀ kv ∈ d, kv.1 ∈ a.2.metadata.map Prod.fst) ∧
        ∀ q ∈ c.metadata.map Prod.fst, q ∈ a.2.metadata.map Prod.fst))
      (s.selectFitTransform side c y d) (s.selectFitTransform side c' y' d') := by
  unfold Sel.selectFitTransform
  rcases Sides.py_cases (preFilter_rows (side := side) hl hc hy hd hn ho) with
    ⟨e, h1, h2⟩ | ⟨⟨a1, a2, a3⟩, ⟨b1, b2, b3⟩, h1, h2, k, k', hk, r1, r2, r3, r4, r5, r6, r7⟩
  · rw [h1, h2]; exact ⟨List.Forall₂.nil, rfl⟩
  · have hmd : ∀ q ∈ c.metadata.map Prod.fst, q ∈ a1.metadata.map Prod.fst := by
      unfold preFilter at h1
      simp only at h1
      split at h1
      · cases h1
      · split at h1
        · cases h1
        · simp only [Cont.mergeIn, Except.ok.injEq, Prod.mk.injEq] at h1
          obtain ⟨rfl, -⟩ := h1
          exact fun q hq => mem_keys_update.2 (Or.inl hq)
    rw [h1, h2]
    simp only at r1 r2 r3 r4 r5 r6 r7 ⊢
    obtain ⟨calls, calls', hcalls, ⟨e, h3, h4⟩ | ⟨⟨⟨f, o⟩, y1⟩, ⟨⟨f', o'⟩, y1'⟩, h3, h4, q1, q2, -⟩⟩ :=
      run_cases (sharedFitTransformOut_rows h hk hk r1 r2 r3 r5 over_same)
    · rw [h3, h4]; exact ⟨hcalls, rfl⟩
    · rw [h3, h4]
      refine ⟨hcalls, ?_⟩
      simp only at q1 q2 ⊢
      rcases Sides.py_cases (mergeIn_rows r1 q2) with ⟨e, h5, h6⟩ | ⟨q, q', h5, h6, hq⟩
      · rw [h5, h6]; exact rfl
      · rw [h5, h6]
        refine ⟨q1, k, k', hk, hq, fun hkeep => ?_⟩
        obtain ⟨t1, t2⟩ := mergeIn_keeps (keeps_out hkeep h3) h5
        exact ⟨fun hs => t1 (r4 ▸ r6 hs), fun kv hkv => t2 _ (r7 kv hkv), fun q hq => t2 _ (hmd q hq)⟩

/-! ### Validation -/

theorem checkFlags_perm (f : Flags) {sd sd' : List Int} (h : sd.Perm sd') : checkFlags f sd = checkFlags f sd' := by
  have h1 : ∀ s : List Int, Np.sel (s.map (fun d => decide (0 ≤ d))) s = s.filter (fun d => decide (0 ≤ d)) := fun s => Np.sel_map_self _ s
  have h2 : ∀ s : List Int, Np.sel ((s.map (fun d => decide (0 ≤ d))).map (!·)) s = s.filter (fun d => !decide (0 ≤ d)) := by
    intro s; rw [List.map_map]; exact Np.sel_map_self _ s
  unfold checkFlags
  simp only [h1, h2, unique_perm h, unique_perm (h.filter _)]

theorem sdArg_rows {l l' : List Nat} (hl : Reorder l l') {v v' : Param Num} (h : RowsParam l l' v v') :
    RelPy (RowsSD l l') (sdArg v) (sdArg v') := by
  rcases h with ⟨a, a', ha, rfl, rfl⟩ | ⟨rfl, hv⟩
  · simp only [sdArg]
    rcases Sides.py_cases (domainsOf_rows hl (v := .arr a) (v' := .arr a') (Or.inl ⟨a, a', ha, rfl, rfl⟩)) with ⟨e, h1, h2⟩ | ⟨s, s', h1, h2, hs⟩
    · rw [h1, h2]; exact rfl
    · rw [h1, h2]; exact hs
  · cases v with
    | arr a => exact absurd rfl (hv a)
    | none => exact trivial
    | scalar v =>
      simp only [sdArg]
      split
      · exact rfl
      · exact rfl
      · exact rfl

theorem checkXy_rows {l l' : List Nat} (hl : Reorder l l') {X X' : List α} (hX : Rows l l' X X') {y y' : List Num} (hy : Rows l l' y y')
    {sd sd' : SDArg} (hs : RowsSD l l' sd sd') (f : Flags) (b : Bool := true) :
    RelPy (fun a b => a.1 = X ∧ b.1 = X' ∧ a.2.1 = y ∧ b.2.1 = y' ∧ Rows l l' a.2.2 b.2.2) (checkXyDomain X y sd f b) (checkXyDomain X' y' sd' f b) := by
  unfold checkXyDomain
  simp only [rows_nil hl hX, rows_nil hl hy, rows_any hl hy, rows_length hl hX, rows_length hl hy]
  split
  · exact rfl
  · split
    · exact rfl
    · split
      · exact rfl
      · split
        · exact rfl
        · have key : ∀ s s' : List Int, Rows l l' s s' → RelPy (fun a b => a.1 = X ∧ b.1 = X' ∧ a.2.1 = y ∧ b.2.1 = y' ∧ Rows l l' a.2.2 b.2.2)
              (match extractSourceIndices s with
                | .error e => (.error e : Py (List α × List Num × List Int))
                | .ok _ => match checkFlags f s with
                  | .error e => .error e
                  | .ok _ => .ok (X, y, s))
              (match extractSourceIndices s' with
                | .error e => (.error e : Py (List α × List Num × List Int))
                | .ok _ => match checkFlags f s' with
                  | .error e => .error e
                  | .ok _ => .ok (X', y', s')) := by
            intro s s' hss
            rw [checkFlags_perm f (rows_perm hl hss)]
            rcases Sides.py_cases (extract_rows hl hss) with ⟨e, h1, h2⟩ | ⟨m, m', h1, h2, -⟩
            · rw [h1, h2]; exact rfl
            · rw [h1, h2]
              simp only
              cases checkFlags f s' with
              | error e => exact rfl
              | ok _ => exact ⟨rfl, rfl, rfl, rfl, hss⟩
          cases sd with
          | none => cases sd' with
            | none =>
              simp only [checkYMasking_perm (rows_perm hl hy)]
              cases f.allowAuto with
              | false => exact rfl
              | true =>
                simp only [Bool.not_true, Bool.false_eq_true, if_false]
                cases checkYMasking y' with
                | error e => exact rfl
                | ok t =>
                  simp only
                  refine key _ _ ?_
                  cases t
                  · exact rows_map (rows_map hy _) _
                  · exact rows_map (rows_map hy _) _
            | scalar _ => exact hs.elim
            | vec _ => exact hs.elim
          | scalar d => cases sd' with
            | none => exact hs.elim
            | scalar d' =>
              have hs : d = d' := hs
              subst hs
              refine key _ _ ⟨fun _ => d, ?_, ?_⟩
              · simp [← (rows_len hy).1, rows_length hl hy, List.map_const']
              · simp [← (rows_len hy).2, List.map_const']
            | vec _ => exact hs.elim
          | vec s => cases sd' with
            | none => exact hs.elim
            | scalar _ => exact hs.elim
            | vec s' => exact key s s' hs

theorem checkX_rows {l l' : List Nat} (hl : Reorder l l') {X X' : List α} (hX : Rows l l' X X') {sd sd' : SDArg} (hs : RowsSD l l' sd sd')
    (f : Flags) (ad : Option (List AllowedDomain) := none) :
    RelPy (fun a b => a.1 = X ∧ b.1 = X' ∧ Rows l l' a.2 b.2) (checkXDomain X sd f ad) (checkXDomain X' sd' f ad) := by
  unfold checkXDomain
  simp only [rows_nil hl hX, rows_length hl hX]
  split
  · exact rfl
  · have key : ∀ s s' : List Int, Rows l l' s s' → RelPy (fun a b => a.1 = X ∧ b.1 = X' ∧ Rows l l' a.2 b.2)
        (match extractSourceIndices s with
          | .error e => (.error e : Py (List α × List Int))
          | .ok _ => if X'.length ≠ s.length then .error .valueError
            else if (match ad with | none => false | some allow => (Np.unique s).any (fun d => !domainAllowed allow d)) then .error .valueError
            else match checkFlags f s with
              | .error e => .error e
              | .ok _ => .ok (X, s))
        (match extractSourceIndices s' with
          | .error e => (.error e : Py (List α × List Int))
          | .ok _ => if X'.length ≠ s'.length then .error .valueError
            else if (match ad with | none => false | some allow => (Np.unique s').any (fun d => !domainAllowed allow d)) then .error .valueError
            else match checkFlags f s' with
              | .error e => .error e
              | .ok _ => .ok (X', s')) := by
      intro s s' hss
      rw [checkFlags_perm f (rows_perm hl hss), rows_length hl hss, unique_perm (rows_perm hl hss)]
      rcases Sides.py_cases (extract_rows hl hss) with ⟨e, h1, h2⟩ | ⟨m, m', h1, h2, -⟩
      · rw [h1, h2]; exact rfl
      · rw [h1, h2]
        simp only
        generalize (match ad with | none => false | some allow => (Np.unique s').any (fun d => !domainAllowed allow d)) = bad
        by_cases hlen : X'.length ≠ s'.length
        · rw [if_pos hlen, if_pos hlen]; exact rfl
        · rw [if_neg hlen, if_neg hlen]
          cases bad with
          | true => exact rfl
          | false =>
            cases checkFlags f s' with
            | error e => exact rfl
            | ok _ => exact ⟨rfl, rfl, hss⟩
    cases sd with
    | none => cases sd' with
      | none =>
        cases f.allowAuto with
        | false => exact rfl
        | true =>
          simp only [Bool.not_true, Bool.false_eq_true, if_false]
          refine key _ _ ⟨fun _ => defaultTargetOnly, ?_, ?_⟩
          · simp [← (rows_len hX).1, rows_length hl hX, List.map_const']
          · simp [← (rows_len hX).2, List.map_const']
      | scalar _ => exact hs.elim
      | vec _ => exact hs.elim
    | scalar d => cases sd' with
      | none => exact hs.elim
      | scalar d' =>
        have hs : d = d' := hs
        subst hs
        refine key _ _ ⟨fun _ => d, ?_, ?_⟩
        · simp [← (rows_len hX).1, rows_length hl hX, List.map_const']
        · simp [← (rows_len hX).2, List.map_const']
      | vec _ => exact hs.elim
    | vec s => cases sd' with
      | none => exact hs.elim
      | scalar _ => exact hs.elim
      | vec s' => exact key s s' hs

theorem sstCheck_rows {l l' : List Nat} (hl : Reorder l l') {X X' : List α} (hX : Rows l l' X X') {y y' : Option (List Num)}
    (hy : RowsOpt l l' y y') {d d' : Dict} (h : RowsDict l l' d d') : RelPy (Rows l l') (sstCheck X y d) (sstCheck X' y' d') := by
  unfold sstCheck
  rcases Sides.py_cases (sdArg_rows hl (get h "sample_domain")) with ⟨e, h1, h2⟩ | ⟨s, s', h1, h2, hs⟩
  · rw [h1, h2]; exact rfl
  · rw [h1, h2]
    cases y with
    | none => cases y' with
      | some _ => exact hy.elim
      | none =>
        simp only
        rcases Sides.py_cases (checkX_rows hl hX hs {}) with ⟨e, h3, h4⟩ | ⟨⟨a1, a2⟩, ⟨b1, b2⟩, h3, h4, -, -, hr⟩
        · rw [h3, h4]; exact rfl
        · rw [h3, h4]; exact hr
    | some y => cases y' with
      | none => exact hy.elim
      | some y' =>
        simp only
        rcases Sides.py_cases (checkXy_rows hl hX hy hs {}) with ⟨e, h3, h4⟩ | ⟨⟨a1, a2, a3⟩, ⟨b1, b2, b3⟩, h3, h4, -, -, -, -, hr⟩
        · rw [h3, h4]; exact rfl
        · rw [h3, h4]; exact hr

/-! ### `SelectSourceTarget` -/

theorem domParam_rows {l l' : List Nat} {sd sd' : List Int} (h : Rows l l' sd sd') : RowsParam l l' (domParam sd) (domParam sd') :=
  Or.inl ⟨_, _, rows_map h _, rfl, rfl⟩

theorem count_rows {l l' : List Nat} (hl : Reorder l l') (m : Nat → Bool) : (l.map m).count true = (l'.map m).count true :=
  (hl.perm.map m).count_eq true

theorem fitSide_rows {Q : σ → σ → Prop} (s : SST α σ) {e : Est α σ} (h : OrderFree Q e) (m : Method) {l l' : List Nat} (hl : Reorder l l')
    {X X' : List α} (hX : Rows l l' X X') {y y' : Option (List Num)} (hy : RowsOpt l l' y y') {d d' : Dict} (hd : RowsDict l l' d d')
    (mk : Nat → Bool) :
    RowsRun (fun a b => Q a.1 b.1 ∧ (s.source.hasTransform = true → RowsOut (l.filter mk) (l'.filter mk) a.2 b.2))
      (s.fitSide e m X y d (l.map mk)) (s.fitSide e m X' y' d' (l'.map mk)) := by
  unfold SST.fitSide
  rw [count_rows hl]
  split
  · exact ⟨List.Forall₂.nil, rfl⟩
  · obtain ⟨⟨a1, a2, a3⟩, ⟨b1, b2, b3⟩, h1, h2, ⟨r1, r2, r3⟩, -, -⟩ := masks hX hy hd mk
    rw [h1, h2]
    simp only at r1 r2 r3 ⊢
    rcases Sides.py_cases (prepare (req := e.request m) (f := s.final) (t := s.source.hasTransform) r3) with
      ⟨e', h3, h4⟩ | ⟨q, q', h3, h4, hq⟩
    · rw [h3, h4]; exact ⟨List.Forall₂.nil, rfl⟩
    · rw [h3, h4]
      simp only
      rcases Sides.py_cases (selRemove (reorder_filter hl mk) (t := s.source.hasTransform) r1 r2 hq) with
        ⟨e', h5, h6⟩ | ⟨⟨c1, c2, c3⟩, ⟨d1, d2, d3⟩, h5, h6, k, k', hk, hr, hkl⟩
      · rw [h5, h6]; exact ⟨List.Forall₂.nil, rfl⟩
      · rw [h5, h6]
        have hc : RowsCall k k' (⟨c1, c2, c3⟩ : Call α) ⟨d1, d2, d3⟩ := ⟨hr.1, hr.2.1, hr.2.2⟩
        refine ⟨List.Forall₂.cons ⟨k, k', hk, hc⟩ List.Forall₂.nil, ?_⟩
        simp only
        rcases Sides.py_cases (invoke_rows h m hk hc) with ⟨e', h7, h8⟩ | ⟨u, u', h7, h8, hu⟩
        · rw [h7, h8]; exact rfl
        · rw [h7, h8]
          refine ⟨hu.1, fun ht => ?_⟩
          obtain ⟨rfl, rfl⟩ := hkl (Or.inl ht)
          exact hu.2

theorem not_rows (l : List Nat) (m : Nat → Bool) : (l.map m).map (!·) = l.map (fun i => !m i) := by rw [List.map_map]; rfl

theorem sstFit_rows {Q : σ → σ → Prop} {s : SST α σ} (h1 : OrderFree Q s.source) (h2 : OrderFree Q (s.target.getD s.source)) (m : Method)
    {l0 l0' l l' : List Nat} (hl : Reorder l l') {c c' : Cont α} (hc : RowsCont l l' c c') {y y' : Option (List Num)}
    (hy : RowsOpt l0 l0' y y') {d d' : Dict} (hd : RowsDict l0 l0' d d') (hn : (d.map Prod.fst).Nodup) (ho : Over l0 l0' l l' y d c) :
    RowsRun (fun a b => Q a.src b.src ∧ Q a.tgt b.tgt ∧ ∃ mk : Nat → Bool, a.srcMask = l.map mk ∧ b.srcMask = l'.map mk ∧
      (s.source.hasTransform = true → RowsOut (l.filter mk) (l'.filter mk) a.srcOut b.srcOut ∧
        RowsOut (l.filter (fun i => !mk i)) (l'.filter (fun i => !mk i)) a.tgtOut b.tgtOut)) (s.fit m c y d) (s.fit m c' y' d') := by
  unfold SST.fit
  have hm := mergeOut_rows hc hy hd hn ho
  rcases hx : c.mergeOut y d with ⟨X, y2, p⟩
  rcases hx' : c'.mergeOut y' d' with ⟨X', y2', p'⟩
  rw [hx, hx'] at hm
  obtain ⟨m1, m2, m3⟩ := hm
  simp only at m1 m2 m3
  simp only
  rcases Sides.py_cases (sstCheck_rows hl m1 m2 m3) with ⟨e, k1, k2⟩ | ⟨sd, sd', k1, k2, hs⟩
  · rw [k1, k2]; exact ⟨List.Forall₂.nil, rfl⟩
  · rw [k1, k2]
    have hp := put m3 (k := "sample_domain") (domParam_rows hs)
    obtain ⟨g, rfl, rfl⟩ := hs
    simp only [List.map_map] at hp ⊢
    obtain ⟨calls, calls', hcalls, ⟨e, k3, k4⟩ | ⟨⟨fs, os⟩, ⟨fs', os'⟩, k3, k4, hr⟩⟩ :=
      run_cases (fitSide_rows s h1 m hl m1 m2 hp ((fun d : Int => decide (0 ≤ d)) ∘ g))
    · rw [k3, k4]; exact ⟨hcalls, rfl⟩
    · rw [k3, k4]
      simp only
      obtain ⟨calls2, calls2', hcalls2, ⟨e, k5, k6⟩ | ⟨⟨ft, ot⟩, ⟨ft', ot'⟩, k5, k6, hr2⟩⟩ :=
        run_cases (fitSide_rows s h2 m hl m1 m2 hp ((fun x => !x) ∘ (fun d : Int => decide (0 ≤ d)) ∘ g))
      · rw [k5, k6]; exact ⟨List.rel_append hcalls hcalls2, rfl⟩
      · rw [k5, k6]
        exact ⟨List.rel_append hcalls hcalls2, hr.1, hr2.1, _, rfl, rfl, fun ht => ⟨hr.2 ht, hr2.2 ht⟩⟩

theorem sstFitTransformOut_rows [Cell α] {Q : σ → σ → Prop} {s : SST α σ} (h1 : OrderFree Q s.source)
    (h2 : OrderFree Q (s.target.getD s.source)) {l0 l0' l l' : List Nat} (hl : Reorder l l') {c c' : Cont α} (hc : RowsCont l l' c c')
    {y y' : Option (List Num)} (hy : RowsOpt l0 l0' y y') {d d' : Dict} (hd : RowsDict l0 l0' d d') (hn : (d.map Prod.fst).Nodup)
    (ho : Over l0 l0' l l' y d c) :
    RowsRun (fun a b => Q a.1.1 b.1.1 ∧ Q a.1.2 b.1.2 ∧ RowsOut l l' a.2 b.2) (s.fitTransformOut c y d) (s.fitTransformOut c' y' d') := by
  unfold SST.fitTransformOut
  split
  · rename_i hft
    obtain ⟨calls, calls', hcalls, ⟨e, k3, k4⟩ | ⟨a, b, k3, k4, q1, q2, mk, q3, q4, q5⟩⟩ :=
      run_cases (sstFit_rows h1 h2 .fitTransform hl hc hy hd hn ho)
    · rw [k3, k4]; exact ⟨hcalls, rfl⟩
    · rw [k3, k4]
      refine ⟨hcalls, ?_⟩
      obtain ⟨o1, o2⟩ := q5 (h1.transformer hft)
      simp only [q3, q4, not_rows, (rows_len hc.features).1, (rows_len hc.features).2]
      have hparts : List.Forall₂ (RowsPart RowsOut l l')
          [(Np.flatnonzero (l.map mk), a.srcOut), (Np.flatnonzero (l.map (fun i => !mk i)), a.tgtOut)]
          [(Np.flatnonzero (l'.map mk), b.srcOut), (Np.flatnonzero (l'.map (fun i => !mk i)), b.tgtOut)] :=
        List.Forall₂.cons ⟨mk, rfl, rfl, o1⟩ (List.Forall₂.cons ⟨_, rfl, rfl, o2⟩ List.Forall₂.nil)
      rcases Sides.py_cases (mergeStepOuts_rel hparts) with ⟨e, h3, h4⟩ | ⟨q, q', h3, h4, hq⟩
      · rw [h3, h4]; exact rfl
      · rw [h3, h4]; exact ⟨q1, q2, hq⟩
  · obtain ⟨calls, calls', hcalls, ⟨e, k3, k4⟩ | ⟨a, b, k3, k4, -⟩⟩ := run_cases (sstFit_rows h1 h2 .fit hl hc hy hd hn ho)
    · rw [k3, k4]; exact ⟨hcalls, rfl⟩
    · rw [k3, k4]; exact ⟨hcalls, rfl⟩

/-! ### Steps and pipelines -/

theorem stepFit_rows {Q : σ → σ → Prop} {st : Step α σ} (h : StepOrder Q st) {l0 l0' l l' : List Nat} (hl0 : Reorder l0 l0')
    (hl : Reorder l l') {c c' : Cont α} (hc : RowsCont l l' c c') {y y' : Option (List Num)} (hy : RowsOpt l0 l0' y y') {d d' : Dict}
    (hd : RowsDict l0 l0' d d') (hn : (d.map Prod.fst).Nodup) (ho : Over l0 l0' l l' y d c) :
    RowsRun (fun a b => FittedRel Q a.1 b.1 ∧ RowsOpt l0 l0' a.2 b.2) (st.fit c y d) (st.fit c' y' d') := by
  cases st with
  | shared s =>
    simp only [Step.fit]
    obtain ⟨calls, calls', hcalls, ⟨e, k1, k2⟩ | ⟨a, b, k1, k2, hr⟩⟩ := run_cases (sharedFit_rows h .fit hl0 hl hc hy hd hn ho)
    · rw [k1, k2]; exact ⟨hcalls, rfl⟩
    · rw [k1, k2]; exact ⟨hcalls, hr.1, hr.2.2.1⟩
  | perDomain s =>
    simp only [Step.fit]
    obtain ⟨calls, calls', hcalls, ⟨e, k1, k2⟩ | ⟨a, b, k1, k2, hr⟩⟩ := run_cases (perDomainFit_rows h.1 h.2 .fit hl0 hl hc hy hd hn ho)
    · rw [k1, k2]; exact ⟨hcalls, rfl⟩
    · rw [k1, k2]; exact ⟨hcalls, forall₂_maps hr.1 (fun a b hab => ⟨hab.1, hab.2.1⟩), hr.2.1⟩
  | select side s =>
    simp only [Step.fit]
    obtain ⟨calls, calls', hcalls, ⟨e, k1, k2⟩ | ⟨a, b, k1, k2, hr⟩⟩ := run_cases (selectFit_rows h (side := side) hl hc hy hd hn ho)
    · rw [k1, k2]; exact ⟨hcalls, rfl⟩
    · rw [k1, k2]; exact ⟨hcalls, hr, hy⟩
  | sourceTarget s =>
    simp only [Step.fit]
    obtain ⟨calls, calls', hcalls, ⟨e, k1, k2⟩ | ⟨a, b, k1, k2, hr⟩⟩ := run_cases (sstFit_rows h.1 h.2 .fit hl hc hy hd hn ho)
    · rw [k1, k2]; exact ⟨hcalls, rfl⟩
    · rw [k1, k2]; exact ⟨hcalls, ⟨hr.1, hr.2.1⟩, hy⟩

/-- After a step that is no `select` the container is aligned as before. -/
theorem stepFitTransform_rows [Cell α] {Q : σ → σ → Prop} {st : Step α σ} (h : StepOrder Q st) (hns : ∀ side s, st ≠ .select side s)
    {l0 l0' l l' : List Nat} (hl0 : Reorder l0 l0') (hl : Reorder l l') {c c' : Cont α} (hc : RowsCont l l' c c') {y y' : Option (List Num)}
    (hy : RowsOpt l0 l0' y y') {d d' : Dict} (hd : RowsDict l0 l0' d d') (hn : (d.map Prod.fst).Nodup) (ho : Over l0 l0' l l' y d c) :
    RowsRun (fun a b => FittedRel Q a.1 b.1 ∧ RowsCont l l' a.2.1 b.2.1 ∧ RowsOpt l0 l0' a.2.2 b.2.2 ∧ a.2.2.isSome = y.isSome ∧
        (Quiet st → (c.labels.isSome = true → a.2.1.labels.isSome = true) ∧ ∀ k ∈ c.metadata.map Prod.fst, k ∈ a.2.1.metadata.map Prod.fst))
      (st.fitTransform c y d) (st.fitTransform c' y' d') := by
  cases st with
  | shared s =>
    simp only [Step.fitTransform]
    obtain ⟨calls, calls', hcalls, ⟨e, k1, k2⟩ | ⟨⟨⟨f, o⟩, y1⟩, ⟨⟨f', o'⟩, y1'⟩, k1, k2, r1, r2, r3, r4⟩⟩ :=
      run_cases (sharedFitTransformOut_rows h hl0 hl hc hy hd hn ho)
    · rw [k1, k2]; exact ⟨hcalls, rfl⟩
    · rw [k1, k2]
      refine ⟨hcalls, ?_⟩
      simp only at r1 r2 r3 r4 ⊢
      rcases Sides.py_cases (mergeIn_rows hc r2) with ⟨e, k3, k4⟩ | ⟨q, q', k3, k4, hq⟩
      · rw [k3, k4]; exact rfl
      · rw [k3, k4]; exact ⟨r1, hq, r3, r4, fun hk => mergeIn_keeps (keeps_out hk k1) k3⟩
  | perDomain s =>
    simp only [Step.fitTransform]
    obtain ⟨calls, calls', hcalls, ⟨e, k1, k2⟩ | ⟨⟨⟨f, o⟩, y1⟩, ⟨⟨f', o'⟩, y1'⟩, k1, k2, r1, r2, r3, r4⟩⟩ :=
      run_cases (perDomainFitTransformOut_rows h.1 h.2 hl0 hl hc hy hd hn ho)
    · rw [k1, k2]; exact ⟨hcalls, rfl⟩
    · rw [k1, k2]
      refine ⟨hcalls, ?_⟩
      simp only at r1 r2 r3 r4 ⊢
      rcases Sides.py_cases (mergeIn_rows hc r2) with ⟨e, k3, k4⟩ | ⟨q, q', k3, k4, hq⟩
      · rw [k3, k4]; exact rfl
      · rw [k3, k4]; exact ⟨r1, hq, r3, r4, fun hk => hk.elim⟩
  | select side s => exact absurd rfl (hns side s)
  | sourceTarget s =>
    simp only [Step.fitTransform]
    obtain ⟨calls, calls', hcalls, ⟨e, k1, k2⟩ | ⟨⟨f, o⟩, ⟨f', o'⟩, k1, k2, r1, r2, r3⟩⟩ :=
      run_cases (sstFitTransformOut_rows h.1 h.2 hl hc hy hd hn ho)
    · rw [k1, k2]; exact ⟨hcalls, rfl⟩
    · rw [k1, k2]
      refine ⟨hcalls, ?_⟩
      simp only at r1 r2 r3 ⊢
      rcases Sides.py_cases (mergeIn_rows hc r3) with ⟨e, k3, k4⟩ | ⟨q, q', k3, k4, hq⟩
      · rw [k3, k4]; exact rfl
      · rw [k3, k4]; exact ⟨⟨r1, r2⟩, hq, hy, rfl, fun hk => hk.elim⟩

theorem fitSteps_rows [Cell α] {Q : σ → σ → Prop} {p p' : Dict} (hn : (p.map Prod.fst).Nodup) {l0 l0' : List Nat} (hl0 : Reorder l0 l0')
    (hp : RowsDict l0 l0' p p') : ∀ (steps : List ((String → Bool) × Step α σ)), (∀ st ∈ steps, StepOrder Q st.2) → SelectsOk p steps →
    ∀ {l l' : List Nat}, Reorder l l' → ∀ {c c' : Cont α}, RowsCont l l' c c' → ∀ {y y' : Option (List Num)}, RowsOpt l0 l0' y y' →
    Over l0 l0' l l' y p c → ((l = l0 ∧ l' = l0') ∨ ∀ st ∈ steps.dropLast, Quiet st.2) →
    RowsRun (fun a b => List.Forall₂ (FittedRel Q) a.1 b.1 ∧ RowsOpt l0 l0' a.2 b.2) (fitSteps steps c y p) (fitSteps steps c' y' p')
  | [], _, _, _, _, _, _, _, _, _, _, hy, _, _ => ⟨List.Forall₂.nil, List.Forall₂.nil, hy⟩
  | [(keep, st)], hst, _, l, l', hl, c, c', hc, y, y', hy, ho, _ => by
    simp only [fitSteps]
    have hnk : ((p.filter (fun kv => keep kv.1)).map Prod.fst).Nodup := hn.sublist (List.filter_sublist.map _)
    obtain ⟨calls, calls', hcalls, ⟨e, k1, k2⟩ | ⟨a, b, k1, k2, hr⟩⟩ :=
      run_cases (stepFit_rows (hst _ (List.mem_singleton.2 rfl)) hl0 hl hc hy (filterKey hp keep) hnk
        (over_sub ho (fun kv h => List.mem_of_mem_filter h)))
    · rw [k1, k2]; exact ⟨hcalls, rfl⟩
    · rw [k1, k2]; exact ⟨hcalls, List.Forall₂.cons hr.1 List.Forall₂.nil, hr.2⟩
  | (keep, st) :: st2 :: rest, hst, hsel, l, l', hl, c, c', hc, y, y', hy, ho, hq => by
    simp only [fitSteps]
    have hnk : ((p.filter (fun kv => keep kv.1)).map Prod.fst).Nodup := hn.sublist (List.filter_sublist.map _)
    have hok := over_sub ho (fun kv (h : kv ∈ p.filter (fun kv => keep kv.1)) => List.mem_of_mem_filter h)
    have hst2 : ∀ s ∈ st2 :: rest, StepOrder Q s.2 := fun s hs => hst s (List.mem_cons_of_mem _ hs)
    by_cases hs : ∃ side s, st = .select side s
    · obtain ⟨side, s, rfl⟩ := hs
      obtain ⟨hsel2, hsel3⟩ := hsel
      obtain ⟨hk, hquiet, hrest⟩ := hsel3 (by simp)
      simp only [Step.fitTransform]
      obtain ⟨calls, calls', hcalls, ⟨e, k1, k2⟩ | ⟨⟨f, c1⟩, ⟨f', c1'⟩, k1, k2, r1, k, k', hkk, r2, r3⟩⟩ :=
        run_cases (selectFitTransform_rows (hst _ (List.mem_cons_self ..)) (side := side) hl hc hy (filterKey hp keep) hnk hok)
      · rw [k1, k2]; exact ⟨hcalls, rfl⟩
      · rw [k1, k2]
        simp only at r1 r2 r3 ⊢
        obtain ⟨t1, t2, -⟩ := r3 hquiet
        have ho2 : Over l0 l0' k k' y p c1 := Or.inr ⟨t1, fun kv hkv => t2 kv (List.mem_filter.2 ⟨hkv, hk kv hkv⟩)⟩
        obtain ⟨calls2, calls2', hcalls2, ⟨e, k3, k4⟩ | ⟨a, b, k3, k4, hr⟩⟩ :=
          run_cases (fitSteps_rows hn hl0 hp (st2 :: rest) hst2 hsel2 hkk r2 hy ho2 (Or.inr hrest))
        · rw [k3, k4]; exact ⟨List.rel_append hcalls hcalls2, rfl⟩
        · rw [k3, k4]; exact ⟨List.rel_append hcalls hcalls2, List.Forall₂.cons r1 hr.1, hr.2⟩
    · have hns : ∀ side s, st ≠ .select side s := fun side s e => hs ⟨side, s, e⟩
      have hsel2 : SelectsOk p (st2 :: rest) := by
        cases st with
        | select side s => exact absurd rfl (hns side s)
        | shared s => exact hsel
        | perDomain s => exact hsel
        | sourceTarget s => exact hsel
      obtain ⟨calls, calls', hcalls, ⟨e, k1, k2⟩ | ⟨⟨f, c1, y1⟩, ⟨f', c1', y1'⟩, k1, k2, r1, r2, r3, r4, r5⟩⟩ :=
        run_cases (stepFitTransform_rows (hst _ (List.mem_cons_self ..)) hns hl0 hl hc hy (filterKey hp keep) hnk hok)
      · rw [k1, k2]; exact ⟨hcalls, rfl⟩
      · rw [k1, k2]
        simp only at r1 r2 r3 r4 r5 ⊢
        have hnext : Over l0 l0' l l' y1 p c1 ∧ ((l = l0 ∧ l' = l0') ∨ ∀ s ∈ (st2 :: rest).dropLast, Quiet s.2) := by
          rcases hq with hq | hq
          · exact ⟨Or.inl hq, Or.inl hq⟩
          · have hqs : Quiet st := hq (keep, st) (by simp [List.dropLast])
            refine ⟨?_, Or.inr (fun s hs => hq s (by simp only [List.dropLast] at hs ⊢; exact List.mem_cons_of_mem _ hs))⟩
            rcases ho with ho | ⟨o1, o2⟩
            · exact Or.inl ho
            · exact Or.inr ⟨fun h => (r5 hqs).1 (o1 (r4 ▸ h)), fun kv hkv => (r5 hqs).2 _ (o2 kv hkv)⟩
        obtain ⟨calls2, calls2', hcalls2, ⟨e, k3, k4⟩ | ⟨a, b, k3, k4, hr⟩⟩ :=
          run_cases (fitSteps_rows hn hl0 hp (st2 :: rest) hst2 hsel2 hl r2 r3 hnext.1 hnext.2)
        · rw [k3, k4]; exact ⟨List.rel_append hcalls hcalls2, rfl⟩
        · rw [k3, k4]; exact ⟨List.rel_append hcalls hcalls2, List.Forall₂.cons r1 hr.1, hr.2⟩

/-! ### Evaluation -/

/-- Outputs of a method of a fitted estimator, in two orders. -/
def RowsQOut (l l' : List Nat) : QOut β → QOut β → Prop
  | .arr a, .arr b => RowsArr l l' a b
  | .number v, .number w => v = w
  | _, _ => False

theorem transformQuery_rows {Q : σ → σ → Prop} {e : Est α σ} (h : OrderFree Q e) {l l' : List Nat} (hl : Reorder l l') {f f' : σ} (hf : Q f f')
    {c c' : Call α} (hc : RowsCall l l' c c') : RelPy (RowsQOut l l') (e.transformQuery f c) (e.transformQuery f' c') := by
  unfold Est.transformQuery
  rcases Sides.py_cases (h.transform l l' hl f f' hf c.X c'.X hc.X c.params c'.params hc.params) with ⟨e, h1, h2⟩ | ⟨o, o', h1, h2, ho⟩
  · rw [h1, h2]; exact rfl
  · rw [h1, h2]
    cases o <;> cases o' <;> first | exact ho.elim | exact ⟨rfl, rfl, ho⟩ | exact rfl

theorem lookup_fits {Q : σ → σ → Prop} {a b : List (Int × σ)} (h : RowsFits Q a b) (d : Int) :
    (a.lookup d = none ∧ b.lookup d = none) ∨ ∃ f f', a.lookup d = some f ∧ b.lookup d = some f' ∧ Q f f' := by
  induction h with
  | nil => exact Or.inl ⟨rfl, rfl⟩
  | @cons x y t t' hxy _ ih =>
    obtain ⟨kx, vx⟩ := x
    obtain ⟨ky, vy⟩ := y
    obtain ⟨rfl, hv⟩ := hxy
    simp only [List.lookup_cons]
    by_cases hk : d = kx
    · subst hk; simp only [beq_self_eq_true]; exact Or.inr ⟨_, _, rfl, rfl, hv⟩
    · rw [beq_false_of_ne hk]; exact ih

theorem perDomainOutputs_rows {Q : σ → σ → Prop} {ests ests' : List (Int × σ)} (he : RowsFits Q ests ests') {query : σ → Call α → Py (QOut β)}
    (hq : ∀ k k', Reorder k k' → ∀ f f', Q f f' → ∀ c c', RowsCall k k' c c' → RelPy (RowsQOut k k') (query f c) (query f' c'))
    {l l' : List Nat} (hl : Reorder l l') {X X' : List α} (hX : Rows l l' X X') {y y' : Option (List Num)} (hy : RowsOpt l l' y y') {d d' : Dict}
    (hd : RowsDict l l' d d') (sd : Nat → Int) (ds : List Int) :
    RelPy (List.Forall₂ (RowsPart RowsQOut l l')) (perDomainOutputs ests query X y d (l.map sd) ds)
      (perDomainOutputs ests' query X' y' d' (l'.map sd) ds) := by
  induction ds with
  | nil => exact List.Forall₂.nil
  | cons t ds ih =>
    simp only [perDomainOutputs, domainIdx_rows]
    rcases lookup_fits he t with ⟨h1, h2⟩ | ⟨f, f', h1, h2, hf⟩
    · rw [h1, h2]; exact rfl
    · rw [h1, h2]
      simp only
      rcases Sides.py_cases (takeCall_rows (fun i => decide (sd i = t)) hX hy hd) with ⟨e, h3, h4⟩ | ⟨a, b, h3, h4, hab⟩
      · rw [h3, h4]; exact rfl
      · rw [h3, h4]
        simp only
        rcases Sides.py_cases (hq _ _ (reorder_filter hl (fun i => decide (sd i = t))) f f' hf a b hab) with ⟨e, h5, h6⟩ | ⟨o, o', h5, h6, ho⟩
        · rw [h5, h6]; exact rfl
        · rw [h5, h6]
          simp only
          rcases Sides.py_cases ih with ⟨e, h7, h8⟩ | ⟨r, r', h7, h8, hr⟩
          · rw [h7, h8]; exact rfl
          · rw [h7, h8]; exact List.Forall₂.cons ⟨_, rfl, rfl, ho⟩ hr

theorem perDomainRoute_rows [Cell β] {Q : σ → σ → Prop} {s : Sel α σ} {req : Request} {ests ests' : List (Int × σ)} (he : RowsFits Q ests ests')
    {query : σ → Call α → Py (QOut β)}
    (hq : ∀ k k', Reorder k k' → ∀ f f', Q f f' → ∀ c c', RowsCall k k' c c' → RelPy (RowsQOut k k') (query f c) (query f' c'))
    {l l' : List Nat} (hl : Reorder l l') {X X' : List α} (hX : Rows l l' X X') {y y' : Option (List Num)} (hy : RowsOpt l l' y y') {d d' : Dict}
    (hd : RowsDict l l' d d') :
    RelPy (RowsArr l l') (s.perDomainRoute req ests query X y d) (s.perDomainRoute req ests' query X' y' d') := by
  unfold Sel.perDomainRoute
  rcases Sides.py_cases (prepare (req := req) (f := s.final) (t := s.est.hasTransform) hd) with ⟨e, h1, h2⟩ | ⟨a, b, h1, h2, hab⟩
  · rw [h1, h2]; exact rfl
  · rw [h1, h2]
    simp only [has hd]
    split
    · exact rfl
    · rcases Sides.py_cases (domainsOf_rows hl (get hd "sample_domain")) with ⟨e, h3, h4⟩ | ⟨sd, sd', h3, h4, hsd⟩
      · rw [h3, h4]; exact rfl
      · rw [h3, h4]
        simp only [unique_perm (rows_perm hl hsd)]
        obtain ⟨g, rfl, rfl⟩ := hsd
        rcases Sides.py_cases (perDomainOutputs_rows he hq hl hX hy hab g (Np.unique (l'.map g))) with ⟨e, h5, h6⟩ | ⟨o, o', h5, h6, ho⟩
        · rw [h5, h6]; exact rfl
        · rw [h5, h6]
          simp only [(rows_len hX).1, (rows_len hX).2, mergeQOuts]
          have hm : RelPy (List.Forall₂ (RowsPart RowsArr l l')) (o.mapM QOut.asArr) (o'.mapM QOut.asArr) := by
            refine mapM_rel (fun a b hab => ?_) ho
            obtain ⟨idx, u⟩ := a
            obtain ⟨idx', u'⟩ := b
            obtain ⟨m, i1, i2, hu⟩ := hab
            simp only at hu
            cases u <;> cases u' <;> first | exact hu.elim | exact rfl | skip
            exact ⟨m, i1, i2, hu⟩
          rcases Sides.py_cases hm with ⟨e, h7, h8⟩ | ⟨r, r', h7, h8, hr⟩
          · rw [h7, h8]; exact rfl
          · rw [h7, h8]; exact mergeOutputs_rel hr

theorem sideOutputs_rows {τ : Type} {T : τ → τ → Prop} (s : SST α σ) (isT : Bool) {query : τ → Call α → Py (QOut β)}
    {l l' : List Nat} (hl : Reorder l l') {X X' : List α} (hX : Rows l l' X X') {y y' : Option (List Num)} (hy : RowsOpt l l' y y') {d d' : Dict}
    (hd : RowsDict l l' d d')
    (hq : ∀ k k', Reorder k k' → ∀ f f', T f f' → ∀ c c', RowsCall k k' c c' → RelPy (RowsQOut k k') (query f c) (query f' c'))
    {es es' : List (τ × Request × List Bool)}
    (hes : List.Forall₂ (fun a b => T a.1 b.1 ∧ a.2.1 = b.2.1 ∧ ∃ m : Nat → Bool, a.2.2 = l.map m ∧ b.2.2 = l'.map m) es es') :
    RelPy (List.Forall₂ (RowsPart RowsArr l l')) (s.sideOutputs isT query X y d es) (s.sideOutputs isT query X' y' d' es') := by
  induction hes with
  | nil => exact List.Forall₂.nil
  | @cons a b t t' hab _ ih =>
    obtain ⟨ea, ra, ma⟩ := a
    obtain ⟨eb, rb, mb⟩ := b
    obtain ⟨hT, hr, m, h1, h2⟩ := hab
    simp only at hT hr h1 h2
    subst hr h1 h2
    simp only [SST.sideOutputs, count_rows hl]
    split
    · exact ih
    · obtain ⟨⟨a1, a2, a3⟩, ⟨b1, b2, b3⟩, h1, h2, ⟨r1, r2, r3⟩, -, -⟩ := masks hX hy hd m
      rw [h1, h2]
      simp only at r1 r2 r3 ⊢
      rcases Sides.py_cases (prepare (req := ra) (f := s.final) (t := s.source.hasTransform) r3) with ⟨e, h3, h4⟩ | ⟨q, q', h3, h4, hqq⟩
      · rw [h3, h4]; exact rfl
      · rw [h3, h4]
        simp only
        have hc : RowsCall (l.filter m) (l'.filter m) (⟨a1, if isT then none else a2, q⟩ : Call α) ⟨b1, if isT then none else b2, q'⟩ := by
          refine ⟨r1, ?_, hqq⟩
          cases isT
          · exact r2
          · exact trivial
        rcases Sides.py_cases (hq _ _ (reorder_filter hl m) ea eb hT _ _ hc) with ⟨e, h5, h6⟩ | ⟨o, o', h5, h6, ho⟩
        · rw [h5, h6]; exact rfl
        · rw [h5, h6]
          cases o with
          | number v => cases o' with
            | number w => exact rfl
            | arr _ => exact ho.elim
          | arr u => cases o' with
            | number w => exact ho.elim
            | arr u' =>
              simp only
              rcases Sides.py_cases ih with ⟨e, h7, h8⟩ | ⟨r, r', h7, h8, hr⟩
              · rw [h7, h8]; exact rfl
              · rw [h7, h8]; exact List.Forall₂.cons ⟨m, rfl, rfl, ho⟩ hr

theorem sstRoute_rows {τ : Type} {T : τ → τ → Prop} [Cell β] (s : SST α σ) (isT : Bool) (reqS reqT : Request) {fs fs' : τ × τ}
    (hf : T fs.1 fs'.1 ∧ T fs.2 fs'.2) {query : τ → Call α → Py (QOut β)}
    (hq : ∀ k k', Reorder k k' → ∀ f f', T f f' → ∀ c c', RowsCall k k' c c' → RelPy (RowsQOut k k') (query f c) (query f' c'))
    {l l' : List Nat} (hl : Reorder l l') {X X' : List α} (hX : Rows l l' X X') {y y' : Option (List Num)} (hy : RowsOpt l l' y y') {d d' : Dict}
    (hd : RowsDict l l' d d') :
    RelPy (RowsArr l l') (s.route isT reqS reqT fs query X y d) (s.route isT reqS reqT fs' query X' y' d') := by
  unfold SST.route
  rcases Sides.py_cases (sstCheck_rows hl hX hy hd) with ⟨e, k1, k2⟩ | ⟨sd, sd', k1, k2, hs⟩
  · rw [k1, k2]; exact rfl
  · rw [k1, k2]
    have hp := put hd (k := "sample_domain") (domParam_rows hs)
    obtain ⟨g, rfl, rfl⟩ := hs
    simp only [List.map_map] at hp ⊢
    rcases Sides.py_cases (sideOutputs_rows s isT hl hX hy hp hq (es := [(fs.1, reqS, l.map ((fun d : Int => decide (0 ≤ d)) ∘ g)),
        (fs.2, reqT, l.map ((fun x => !x) ∘ (fun d : Int => decide (0 ≤ d)) ∘ g))])
        (es' := [(fs'.1, reqS, l'.map ((fun d : Int => decide (0 ≤ d)) ∘ g)),
        (fs'.2, reqT, l'.map ((fun x => !x) ∘ (fun d : Int => decide (0 ≤ d)) ∘ g))])
        (List.Forall₂.cons ⟨hf.1, rfl, _, rfl, rfl⟩ (List.Forall₂.cons ⟨hf.2, rfl, _, rfl, rfl⟩ List.Forall₂.nil))) with
      ⟨e, h5, h6⟩ | ⟨o, o', h5, h6, ho⟩
    · rw [h5, h6]; exact rfl
    · rw [h5, h6]
      simp only [(rows_len hX).1, (rows_len hX).2]
      exact mergeOutputs_rel ho

theorem rowsOf_rows {l l' : List Nat} {a b : Py (NArr α)} (h : RelPy (RowsArr l l') a b) : RelPy (Rows l l') (rowsOf a) (rowsOf b) := by
  rcases Sides.py_cases h with ⟨e, rfl, rfl⟩ | ⟨q, q', rfl, rfl, hq⟩
  · exact rfl
  · exact hq.2.2

theorem stepTransform_rows [Cell α] {Q : σ → σ → Prop} {st : Step α σ} (h : StepOrder Q st) {f f' : Fitted σ} (hf : FittedRel Q f f')
    {l l' : List Nat} (hl : Reorder l l') {X X' : List α} (hX : Rows l l' X X') {d d' : Dict} (hd : RowsDict l l' d d') :
    RelPy (Rows l l') (st.transform f X d) (st.transform f' X' d') := by
  have hone : ∀ (s : Sel α σ), OrderFree Q s.est → ∀ g g', Q g g' → RelPy (Rows l l')
      (match s.sharedTransform g X d with
        | .error e => (.error e : Py (List α))
        | .ok (.arr X') => .ok X'
        | .ok _ => .error .typeError)
      (match s.sharedTransform g' X' d' with
        | .error e => (.error e : Py (List α))
        | .ok (.arr X') => .ok X'
        | .ok _ => .error .typeError) := by
    intro s hs g g' hg
    rcases Sides.py_cases (sharedTransform_rows hs hl hg hX hd) with ⟨e, h1, h2⟩ | ⟨o, o', h1, h2, ho⟩
    · rw [h1, h2]; exact rfl
    · rw [h1, h2]
      cases o <;> cases o' <;> first | exact ho.elim | exact ho | exact rfl
  cases st with
  | shared s =>
    cases f <;> cases f' <;> first | exact hf.elim | exact hone s h _ _ hf | exact rfl
  | select side s =>
    cases f <;> cases f' <;> first | exact hf.elim | exact hone s h _ _ hf | exact rfl
  | perDomain s =>
    cases f <;> cases f' <;> first | exact hf.elim | exact rfl | skip
    exact rowsOf_rows (perDomainRoute_rows hf (fun k k' hk f f' hf c c' hc => transformQuery_rows h.1 hk hf hc) hl hX (y := none) (y' := none) trivial hd)
  | sourceTarget s =>
    cases f <;> cases f' <;> first | exact hf.elim | exact rfl | skip
    refine rowsOf_rows (sstRoute_rows (T := fun a b => a.1 = b.1 ∧ OrderFree Q a.1 ∧ Q a.2 b.2) s true _ _
      ⟨⟨rfl, h.1, hf.1⟩, rfl, h.2, hf.2⟩ (fun k k' hk f f' hff c c' hc => ?_) hl hX (y := none) (y' := none) trivial hd)
    obtain ⟨e, f⟩ := f
    obtain ⟨e', f'⟩ := f'
    obtain ⟨h1, h2, h3⟩ := hff
    simp only at h1 h2 h3
    subst h1
    exact transformQuery_rows h2 hk h3 hc

theorem sharedRoute_rows {Q : σ → σ → Prop} {s : Sel α σ} {R : List Nat → List Nat → β → β → Prop} {req : Request} {query : σ → Call α → Py β}
    (hq : ∀ k k', Reorder k k' → ∀ f f', Q f f' → ∀ c c', RowsCall k k' c c' → RelPy (R k k') (query f c) (query f' c'))
    {f f' : σ} (hf : Q f f') {l l' : List Nat} (hl : Reorder l l') {X X' : List α} (hX : Rows l l' X X') {y y' : Option (List Num)}
    (hy : RowsOpt l l' y y') {d d' : Dict} (hd : RowsDict l l' d d') :
    RelPy (fun a b => ∃ k k', Reorder k k' ∧ R k k' a b ∧ (y = none → k = l ∧ k' = l'))
      (s.sharedRoute req query f X y d) (s.sharedRoute req query f' X' y' d') := by
  unfold Sel.sharedRoute
  rcases Sides.py_cases (prepare (req := req) (f := s.final) (t := s.est.hasTransform) hd) with ⟨e, h1, h2⟩ | ⟨a, b, h1, h2, hab⟩
  · rw [h1, h2]; exact rfl
  · rw [h1, h2]
    simp only
    rcases Sides.py_cases (selRemove hl (t := s.est.hasTransform) hX hy hab) with
      ⟨e, h3, h4⟩ | ⟨⟨c1, c2, c3⟩, ⟨d1, d2, d3⟩, h3, h4, k, k', hk, hr, hkl⟩
    · rw [h3, h4]; exact rfl
    · rw [h3, h4]
      simp only
      rcases Sides.py_cases (hq k k' hk f f' hf ⟨c1, c2, c3⟩ ⟨d1, d2, d3⟩ ⟨hr.1, hr.2.1, hr.2.2⟩) with ⟨e, h5, h6⟩ | ⟨o, o', h5, h6, ho⟩
      · rw [h5, h6]; exact rfl
      · rw [h5, h6]; exact ⟨k, k', hk, ho, fun h => hkl (Or.inr h)⟩

theorem stepsRoute_rows [Cell α] {Q : σ → σ → Prop} {R : List Nat → List Nat → β → β → Prop} {req : Request} {query : σ → Call α → Py β}
    (hq : ∀ k k', Reorder k k' → ∀ f f', Q f f' → ∀ c c', RowsCall k k' c c' → RelPy (R k k') (query f c) (query f' c'))
    {keepL : String → Bool} {s : Sel α σ} {f f' : σ} (hf : Q f f') {l l' : List Nat} (hl : Reorder l l') {y y' : Option (List Num)}
    (hy : RowsOpt l l' y y') {d d' : Dict} (hd : RowsDict l l' d d') {steps steps' : List ((String → Bool) × Step α σ × Fitted σ)}
    (hs : List.Forall₂ (fun a b => a.1 = b.1 ∧ a.2.1 = b.2.1 ∧ StepOrder Q a.2.1 ∧ FittedRel Q a.2.2 b.2.2) steps steps') {X X' : List α}
    (hX : Rows l l' X X') :
    RelPy (fun a b => ∃ k k', Reorder k k' ∧ R k k' a b ∧ (y = none → k = l ∧ k' = l'))
      (stepsRoute steps (keepL, s, f) req query X y d) (stepsRoute steps' (keepL, s, f') req query X' y' d') := by
  induction hs generalizing X X' with
  | nil => exact sharedRoute_rows hq hf hl hX hy (filterKey hd keepL)
  | @cons a b t t' hab _ ih =>
    obtain ⟨ka, sa, fa⟩ := a
    obtain ⟨kb, sb, fb⟩ := b
    obtain ⟨h1, h2, h3, h4⟩ := hab
    simp only at h1 h2 h3 h4
    subst h1 h2
    simp only [stepsRoute]
    rcases Sides.py_cases (stepTransform_rows h3 h4 hl hX (filterKey hd ka)) with ⟨e, k1, k2⟩ | ⟨o, o', k1, k2, ho⟩
    · rw [k1, k2]; exact rfl
    · rw [k1, k2]; exact ih ho

end Order
end Skada

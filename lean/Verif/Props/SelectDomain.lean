/-
Properties C15 and C58: `SelectSource`, `SelectTarget`, `SelectSourceTarget`.
-/
import Verif.Props.PerDomain

namespace Skada
open Np Spec

variable {α β σ : Type}

/-- The rows of one side, in order. -/
def Spec.sideRows (side : Side) (sd : List Int) (a : List α) : List α :=
  match side with
  | .source => sourceRows sd a
  | .target => targetRows sd a

/-- The mask of one side. -/
def sideMask (side : Side) (sd : List Int) : List Bool :=
  match side with
  | .source => sd.map (fun d => decide (0 ≤ d))
  | .target => (sd.map (fun d => decide (0 ≤ d))).map (!·)

theorem sel_sideMask (side : Side) (sd : List Int) (a : List α) : sel (sideMask side sd) a = sideRows side sd a := by
  cases side with
  | source => exact sel_source sd a
  | target => simp only [sideMask, sideRows]; rw [← sel_target, tgtMask_eq]

theorem length_sideMask (side : Side) (sd : List Int) : (sideMask side sd).length = sd.length := by
  cases side <;> simp [sideMask]

theorem side_mask_ok (side : Side) {sd : List Int} (hne : sd ≠ []) :
    side.mask (domParam sd) = .ok (sideMask side sd) := by
  unfold Side.mask
  rw [sourceMaskOf_domParam, extractSourceIndices_ok hne]
  cases side <;> rfl

theorem lookup_map_snd {γ δ : Type} (f : γ → δ) (p : List (String × γ)) (k : String) :
    (p.map (fun kv => (kv.1, f kv.2))).lookup k = (p.lookup k).map f := by
  induction p with
  | nil => rfl
  | cons kv p ih =>
    obtain ⟨a, b⟩ := kv
    rw [List.map_cons]
    by_cases h : k = a
    · subst h; simp [List.lookup_cons_self]
    · rw [lookup_cons_ne h, lookup_cons_ne h, ih]

theorem sideRows_map (side : Side) (sd : List Int) (f : α → β) (a : List α) :
    sideRows side sd (a.map f) = (sideRows side sd a).map f := by
  cases side <;>
  · simp only [sideRows, sourceRows, targetRows]
    rw [List.zip_map_right, List.filter_map, List.map_map, List.map_map]
    rfl

theorem maskParam_dom (side : Side) (sd : List Int) :
    maskParam (sideMask side sd) (domParam sd) = domParam (sideRows side sd sd) := by
  unfold domParam
  simp only [maskParam, List.length_map, length_sideMask, if_true]
  rw [sel_sideMask, sideRows_map]

theorem preFilter_ok (side : Side) {c : Cont α} {y y' : Option (List Num)} {params p : Dict} {X : List α}
    {sd : List Int} (hout : c.mergeOut y params = (X, y', p)) (hne : sd ≠ [])
    (hsd : p.lookup "sample_domain" = some (domParam sd)) (hX : X.length = sd.length)
    (hy : ∀ l, y' = some l → l.length = sd.length) :
    preFilter side c y params = .ok
      (⟨sideRows side sd X, y'.map (sideRows side sd),
          c.metadata.update (p.map (fun kv => (kv.1, maskParam (sideMask side sd) kv.2)))⟩,
        y'.map (sideRows side sd), p.map (fun kv => (kv.1, maskParam (sideMask side sd) kv.2))) := by
  unfold preFilter
  simp only [hout, get_eq_of_lookup hsd, side_mask_ok side hne]
  rw [applyDomainMasks_sel (by rw [length_sideMask, hX]) (by intro l hl; rw [length_sideMask, hy l hl])]
  simp only [sel_sideMask, Cont.mergeIn]
  cases y' with
  | none => rfl
  | some l => simp only [Option.map_some, sel_sideMask]

theorem source_sourceRows (sd : List Int) : ∀ d ∈ sourceRows sd sd, 0 ≤ d := by
  intro d hd
  unfold sourceRows at hd
  obtain ⟨⟨a, b⟩, hp, rfl⟩ := List.mem_map.1 hd
  obtain ⟨h1, h2⟩ := List.mem_filter.1 hp
  have : a = b := by
    obtain ⟨i, hi, he⟩ := List.getElem_of_mem h1
    simp only [List.getElem_zip, Prod.mk.injEq] at he
    rw [← he.1, ← he.2]
  subst this
  simpa using h2

theorem autoMask_allSource {y y' : Option (List Num)} {params : Dict} {sd : List Int}
    (hsd : params.lookup "sample_domain" = some (domParam sd)) (hall : ∀ d ∈ sd, 0 ≤ d)
    (h : autoMask y params = .ok y') : y' = y := by
  rcases autoMask_source (Or.inl (get_eq_of_lookup hsd)) h with ⟨rfl, rfl⟩ | ⟨a, b, rfl, rfl, rfl | ⟨t, -, h1, h2, h3⟩⟩
  · rfl
  · rfl
  · congr 1
    apply List.ext_getElem?
    intro i
    cases hs : sd[i]? with
    | none =>
      have : sd.length ≤ i := by simpa using hs
      rw [List.getElem?_eq_none (by omega), List.getElem?_eq_none (by omega)]
    | some d => rw [h3 i d hs, if_pos (hall d (List.mem_of_getElem? hs))]

theorem sel_sublist (m : List Bool) (a : List α) : (sel m a).Sublist a := by
  induction m generalizing a with
  | nil => cases a <;> simp [sel]
  | cons b m ih =>
    cases a with
    | nil => cases b <;> simp [sel]
    | cons x a =>
      cases b with
      | true => exact (ih a).cons_cons x
      | false => exact (ih a).cons x

theorem sel_zip (m : List Bool) (a : List α) (b : List β) (h : a.length = b.length) :
    (sel m a).zip (sel m b) = sel m (a.zip b) := by
  induction m generalizing a b with
  | nil => cases a <;> cases b <;> simp [sel]
  | cons c m ih =>
    cases a with
    | nil => cases b with
      | nil => cases c <;> simp [sel]
      | cons _ _ => simp at h
    | cons x a =>
      cases b with
      | nil => simp at h
      | cons y b => cases c <;> simp [sel, ih a b (by simpa using h)]

theorem sideRows_zip (side : Side) (sd : List Int) {a : List α} {b : List β} (h : a.length = b.length) :
    (sideRows side sd a).zip (sideRows side sd b) = sideRows side sd (a.zip b) := by
  simp only [← sel_sideMask]
  exact sel_zip _ a b h

/-- The rows of a call are, with their labels, rows of `X` with labels `y`, in order. -/
def Spec.FromRows (call : Call α) (X : List α) (y : Option (List Num)) : Prop :=
  call.X.Sublist X ∧ match call.y, y with
    | none, none => True
    | some l, some y => l.length = call.X.length ∧ (call.X.zip l).Sublist (X.zip y)
    | _, _ => False

theorem selRemoveMasked_rows {hasTr : Bool} {X X' : List α} {y y' : Option (List Num)} {p p' : Dict}
    (hy : ∀ l, y = some l → l.length = X.length)
    (h : Sel.removeMasked hasTr X y p = .ok (X', y', p')) :
    FromRows ⟨X', y', p'⟩ X y ∧ (hasTr = true ∨ p.has "sample_domain" = true → X' = X ∧ y' = y ∧ p' = p) := by
  unfold Sel.removeMasked at h
  cases y with
  | none =>
    simp only [Except.ok.injEq, Prod.mk.injEq] at h
    obtain ⟨rfl, rfl, rfl⟩ := h
    exact ⟨⟨List.Sublist.refl _, trivial⟩, fun _ => ⟨rfl, rfl, rfl⟩⟩
  | some l =>
    have hl := hy l rfl
    simp only at h
    split at h
    · simp only [Except.ok.injEq, Prod.mk.injEq] at h
      obtain ⟨rfl, rfl, rfl⟩ := h
      exact ⟨⟨List.Sublist.refl _, hl, List.Sublist.refl _⟩, fun _ => ⟨rfl, rfl, rfl⟩⟩
    · rename_i hno
      refine ⟨?_, ?_⟩
      · unfold Skada.removeMasked at h
        cases ht : findYType l with
        | error e => simp [ht] at h
        | ok t =>
          have hlen : (unmaskedOf t l).length = l.length := by cases t <;> simp [unmaskedOf]
          simp only [ht] at h
          rw [applyDomainMasks_sel (by rw [hlen, hl]) (by rintro _ ⟨⟩; exact hlen.symm)] at h
          simp only [Option.map_some, Except.ok.injEq, Prod.mk.injEq] at h
          obtain ⟨rfl, rfl, -⟩ := h
          refine ⟨sel_sublist _ _, ?_, ?_⟩
          · simp only; rw [length_sel (by rw [hlen]), length_sel (by rw [hlen, hl])]
          · simp only; rw [sel_zip _ _ _ hl.symm]; exact sel_sublist _ _
      · intro h'
        simp only [Bool.or_eq_true] at hno
        exact absurd h' hno

theorem sharedFit_calls {s : Sel α σ} {m : Method} {c : Cont α} {y : Option (List Num)} {params : Dict} {call : Call α}
    (h : call ∈ (s.sharedFit m c y params).1) :
    ∃ y' , s.ownMask y params = .ok y' ∧
      s.routedCall m (c.mergeOut y' params).1 (c.mergeOut y' params).2.1 (c.mergeOut y' params).2.2 = .ok call := by
  unfold Sel.sharedFit at h
  split at h
  · simp at h
  · rename_i y' hy'
    refine ⟨y', hy', ?_⟩
    simp only at h
    split at h
    · simp at h
    · rename_i call' hcall
      simp only [List.mem_singleton] at h
      rw [h]
      exact hcall

theorem sharedFitTransformOut_calls {s : Sel α σ} {c : Cont α} {y : Option (List Num)} {params : Dict} :
    ∃ m, (s.sharedFitTransformOut c y params).1 = (s.sharedFit m c y params).1 := by
  unfold Sel.sharedFitTransformOut
  split
  · exact ⟨_, rfl⟩
  · refine ⟨.fit, ?_⟩
    split
    · rename_i heq; rw [heq]
    · rename_i heq; rw [heq]

/-- C15 (`SelectSource`, `SelectTarget`). Whatever container the step is given — it hands out `X`, labels `y'` and
parameters `p` — and whether it is fitted by `fit` or `fit_transform`: every call to the base estimator contains only
rows of the selected side, with their own labels; and all of them, with all their labels, if the base estimator is a
transformer.  (`SelectTarget` cannot be constructed with `mask_target_labels=True`.) -/
theorem C15_select_side (s : Sel α σ) (side : Side) (c : Cont α) (y y' : Option (List Num)) (params p : Dict)
    (X : List α) (sd : List Int) (hmask : side = .target → s.mask = false)
    (hout : c.mergeOut y params = (X, y', p)) (hne : sd ≠ [])
    (hsd : p.lookup "sample_domain" = some (domParam sd)) (hX : X.length = sd.length)
    (hy : ∀ l, y' = some l → l.length = sd.length) :
    ∀ call, call ∈ (s.selectFit side c y params).1 ∨ call ∈ (s.selectFitTransform side c y params).1 →
      FromRows call (sideRows side sd X) (y'.map (sideRows side sd)) ∧
      (s.est.hasTransform = true → call.X = sideRows side sd X ∧ call.y = y'.map (sideRows side sd)) := by
  intro call hcall
  have hpf := preFilter_ok side hout hne hsd hX hy
  have : ∃ m, call ∈ (s.sharedFit m
      ⟨sideRows side sd X, y'.map (sideRows side sd),
          c.metadata.update (p.map (fun kv => (kv.1, maskParam (sideMask side sd) kv.2)))⟩
        (y'.map (sideRows side sd)) (p.map (fun kv => (kv.1, maskParam (sideMask side sd) kv.2)))).1 := by
    rcases hcall with h | h
    · unfold Sel.selectFit at h
      simp only [hpf] at h
      refine ⟨.fit, ?_⟩
      split at h
      · rename_i heq; rw [heq]; exact h
      · rename_i heq; rw [heq]; exact h
    · unfold Sel.selectFitTransform at h
      simp only [hpf] at h
      obtain ⟨m, hm⟩ := sharedFitTransformOut_calls (s := s)
        (c := ⟨sideRows side sd X, y'.map (sideRows side sd),
          c.metadata.update (p.map (fun kv => (kv.1, maskParam (sideMask side sd) kv.2)))⟩)
        (y := y'.map (sideRows side sd)) (params := p.map (fun kv => (kv.1, maskParam (sideMask side sd) kv.2)))
      refine ⟨m, ?_⟩
      rw [← hm]
      split at h
      · rename_i heq; rw [heq]; exact h
      · rename_i heq; rw [heq]; exact h
  obtain ⟨m, hm⟩ := this
  obtain ⟨y'', hy'', hc⟩ := sharedFit_calls hm
  have e : y'' = y'.map (sideRows side sd) := by
    unfold Sel.ownMask at hy''
    split at hy''
    · rename_i hmk
      cases side with
      | target => rw [hmask rfl] at hmk; cases hmk
      | source =>
        refine autoMask_allSource (sd := sourceRows sd sd) ?_ (source_sourceRows sd) hy''
        rw [lookup_map_snd, hsd, Option.map_some, maskParam_dom]
        rfl
    · simp only [Except.ok.injEq] at hy''; exact hy''.symm
  subst e
  unfold Sel.routedCall at hc
  split at hc
  · cases hc
  · rename_i routed hroute
    split at hc
    · cases hc
    · rename_i X' y'' r' hrm
      simp only [Except.ok.injEq] at hc
      subst hc
      have hmo : (Cont.mergeOut ⟨sideRows side sd X, y'.map (sideRows side sd),
          c.metadata.update (p.map (fun kv => (kv.1, maskParam (sideMask side sd) kv.2)))⟩
          (y'.map (sideRows side sd)) (p.map (fun kv => (kv.1, maskParam (sideMask side sd) kv.2)))).2.1
          = y'.map (sideRows side sd) := by
        simp only [Cont.mergeOut]
        cases y' <;> rfl
      rw [hmo] at hrm
      simp only [Cont.mergeOut] at hrm
      obtain ⟨h1, h2⟩ := selRemoveMasked_rows (by
        intro l hl
        cases y' with
        | none => cases hl
        | some l' =>
          simp only [Option.map_some, Option.some.injEq] at hl
          rw [← hl]
          simp only [← sel_sideMask]
          rw [length_sel (by rw [length_sideMask, hy l' rfl]), length_sel (by rw [length_sideMask, hX])]) hrm
      exact ⟨h1, fun ht => ⟨(h2 (Or.inl ht)).1, (h2 (Or.inl ht)).2.1⟩⟩

example : ((⟨exEst false [], true, true⟩ : Sel Num (Option (List Num))).selectFit .source
      (Cont.fromInput (.array [.fin 10, .fin 11, .fin 12])) (some [.fin 0, .fin 1, .fin 2])
      [("sample_domain", domParam [2, -1, 2])]).1.map (fun c => (c.X, c.y))
    = [([.fin 10, .fin 12], some [.fin 0, .fin 2])] := by decide +kernel

example : ((⟨exEst false [], false, true⟩ : Sel Num (Option (List Num))).selectFit .target
      (Cont.fromInput (.array [.fin 10, .fin 11, .fin 12])) (some [.fin 0, .fin 1, .fin 2])
      [("sample_domain", domParam [2, -1, 2])]).1.map (fun c => (c.X, c.y))
    = [([.fin 11], some [.fin 1])] := by decide +kernel

/-! ### `SelectSourceTarget` -/

theorem sstCheck_ok {X : List α} {y : Option (List Num)} {p : Dict} {sd : List Int} (hne : sd ≠ [])
    (hsd : p.lookup "sample_domain" = some (domParam sd)) (hX : X.length = sd.length)
    (hy : ∀ l, y = some l → l.length = sd.length) : sstCheck X y p = .ok sd := by
  have hXn : X ≠ [] := by rintro rfl; exact hne (List.length_eq_zero_iff.1 hX.symm)
  have harg : sdArg (domParam sd) = .ok (.vec sd) := by
    have := domainsOf_domParam sd
    unfold domParam at this ⊢
    simp only [sdArg, this]
  unfold sstCheck
  simp only [get_eq_of_lookup hsd, harg]
  cases y with
  | none => simp [checkXDomain, hXn, extractSourceIndices, hne, hX, checkFlags_default]
  | some l =>
    have hl := hy l rfl
    have hln : l ≠ [] := by rintro rfl; exact hne (List.length_eq_zero_iff.1 hl.symm)
    simp [checkXyDomain, hXn, hln, extractSourceIndices, hne, hX, hl, checkFlags_default]

theorem sideMask_count_zero (side : Side) (sd : List Int) :
    (sideMask side sd).count true = 0 ↔ sideRows side sd sd = [] := by
  rw [← List.length_eq_zero_iff, ← sel_sideMask, length_sel (length_sideMask side sd)]

theorem sideRows_length (side : Side) {sd : List Int} {a : List α} (h : a.length = sd.length) :
    (sideRows side sd a).length = (sideMask side sd).count true := by
  rw [← sel_sideMask, length_sel (by rw [length_sideMask, h])]

theorem fitSide_spec {s : SST α σ} {e : Est α σ} {m : Method} {X : List α} {y : Option (List Num)} {p : Dict}
    {sd : List Int} (side : Side) (hX : X.length = sd.length) (hy : ∀ l, y = some l → l.length = sd.length) :
    (∀ call ∈ (s.fitSide e m X y p (sideMask side sd)).1,
      FromRows call (sideRows side sd X) (y.map (sideRows side sd)) ∧
      (s.source.hasTransform = true → call.X = sideRows side sd X ∧ call.y = y.map (sideRows side sd))) ∧
    (∀ r, (s.fitSide e m X y p (sideMask side sd)).2 = .ok r →
      ∃ call, (s.fitSide e m X y p (sideMask side sd)).1 = [call]) ∧
    (∀ call ∈ (s.fitSide e m X y p (sideMask side sd)).1,
      e.invoke m call = (s.fitSide e m X y p (sideMask side sd)).2) ∧
    (sideRows side sd sd = [] → s.fitSide e m X y p (sideMask side sd) = ([], .error .valueError)) := by
  refine ⟨?_, ?_, ?_, ?_⟩
  · intro call hcall
    unfold SST.fitSide at hcall
    split at hcall
    · simp at hcall
    · rw [applyDomainMasks_sel (by rw [length_sideMask, hX]) (by intro l hl; rw [length_sideMask, hy l hl])] at hcall
      simp only [sel_sideMask] at hcall
      split at hcall
      · simp at hcall
      · split at hcall
        · simp at hcall
        · rename_i X'' y'' r hrm
          simp only [List.mem_singleton] at hcall
          subst hcall
          have e1 : Option.map (sel (sideMask side sd)) y = y.map (sideRows side sd) := by
            cases y <;> simp [sel_sideMask]
          rw [e1] at hrm
          obtain ⟨h1, h2⟩ := selRemoveMasked_rows (by
            intro l hl
            cases y with
            | none => cases hl
            | some l' =>
              simp only [Option.map_some, Option.some.injEq] at hl
              rw [← hl, sideRows_length side (hy l' rfl), sideRows_length side hX]) hrm
          exact ⟨h1, fun ht => ⟨(h2 (Or.inl ht)).1, (h2 (Or.inl ht)).2.1⟩⟩
  · intro r hr
    unfold SST.fitSide at hr ⊢
    split at hr
    · cases hr
    · rename_i hc
      rw [if_neg hc]
      split at hr
      · cases hr
      · split at hr
        · cases hr
        · split at hr
          · cases hr
          · exact ⟨_, rfl⟩
  · intro call hcall
    unfold SST.fitSide at hcall ⊢
    split at hcall
    · simp at hcall
    · rename_i hc
      rw [if_neg hc]
      split at hcall
      · simp at hcall
      · split at hcall
        · simp at hcall
        · split at hcall
          · simp at hcall
          · simp only [List.mem_singleton] at hcall
            rw [hcall]
  · intro h
    unfold SST.fitSide
    rw [if_pos ((sideMask_count_zero side sd).2 h)]

/-- C15 (`SelectSourceTarget`, fitting). If fitting returns, it made two calls: one to the source estimator, made of
source rows with their labels, and one to the target estimator (a copy of the source estimator if none was given), made
of target rows with their labels; all rows of the side if the source estimator is a transformer. If a side has no row,
fitting raises an exception: `ValueError` if there is no source row, and also if there is no target row and the source
fit succeeds; in no case is the target estimator given a source row or vice versa. -/
theorem C15_source_target_fit (s : SST α σ) (m : Method) (c : Cont α) (y y' : Option (List Num)) (params p : Dict)
    (X : List α) (sd : List Int)
    (hout : c.mergeOut y params = (X, y', p)) (hne : sd ≠ [])
    (hsd : p.lookup "sample_domain" = some (domParam sd)) (hX : X.length = sd.length)
    (hy : ∀ l, y' = some l → l.length = sd.length) :
    (∀ r, (s.fit m c y params).2 = .ok r → ∃ cs ct, (s.fit m c y params).1 = [cs, ct] ∧
      s.source.invoke m cs = .ok (r.src, r.srcOut) ∧ (s.target.getD s.source).invoke m ct = .ok (r.tgt, r.tgtOut) ∧
      FromRows cs (sourceRows sd X) (y'.map (sourceRows sd)) ∧ FromRows ct (targetRows sd X) (y'.map (targetRows sd)) ∧
      (s.source.hasTransform = true → cs.X = sourceRows sd X ∧ cs.y = y'.map (sourceRows sd) ∧
        ct.X = targetRows sd X ∧ ct.y = y'.map (targetRows sd))) ∧
    ((∀ d ∈ sd, d < 0) → s.fit m c y params = ([], .error .valueError)) ∧
    ((∀ d ∈ sd, 0 ≤ d) → (∀ r, (s.fit m c y params).2 ≠ .ok r) ∧
      ((∀ call, ∃ o, s.source.invoke m call = .ok o) → ∀ call, (s.fit m c y params).1 = [call] →
        (s.fit m c y params).2 = .error .valueError)) := by
  have hchk := sstCheck_ok hne hsd hX hy
  have h1 := fun (e : Est α σ) =>
    fitSide_spec (s := s) (e := e) (m := m) (p := p.put "sample_domain" (domParam sd)) .source hX hy
  have h2 := fun (e : Est α σ) =>
    fitSide_spec (s := s) (e := e) (m := m) (p := p.put "sample_domain" (domParam sd)) .target hX hy
  have hfit : s.fit m c y params =
      match s.fitSide s.source m X y' (p.put "sample_domain" (domParam sd)) (sideMask .source sd) with
      | (calls, .error e) => (calls, .error e)
      | (calls, .ok (fs, outs)) =>
        match s.fitSide (s.target.getD s.source) m X y' (p.put "sample_domain" (domParam sd)) (sideMask .target sd) with
        | (calls', .error e) => (calls ++ calls', .error e)
        | (calls', .ok (ft, outt)) => (calls ++ calls', .ok ⟨sideMask .source sd, fs, outs, ft, outt⟩) := by
    unfold SST.fit
    simp only [hout, hchk]
    rfl
  rw [hfit]
  have hs := h1 s.source
  have ht := h2 (s.target.getD s.source)
  generalize s.fitSide s.source m X y' (p.put "sample_domain" (domParam sd)) (sideMask .source sd) = rs at hs
  generalize s.fitSide (s.target.getD s.source) m X y' (p.put "sample_domain" (domParam sd)) (sideMask .target sd) = rt at ht
  obtain ⟨calls, res⟩ := rs
  obtain ⟨calls', res'⟩ := rt
  obtain ⟨a1, a2, a4, a3⟩ := hs
  obtain ⟨b1, b2, b4, b3⟩ := ht
  simp only at a1 a2 a4 b1 b2 b4
  refine ⟨?_, ?_, ?_⟩
  · intro r hr
    cases res with
    | error e => cases hr
    | ok v =>
      obtain ⟨fs, outs⟩ := v
      cases res' with
      | error e => cases hr
      | ok v' =>
        obtain ⟨ft, outt⟩ := v'
        simp only [Except.ok.injEq] at hr
        subst hr
        obtain ⟨cs, hcs⟩ := a2 _ rfl
        obtain ⟨ct, hct⟩ := b2 _ rfl
        subst hcs hct
        have hsi := a4 cs (by simp)
        have hti := b4 ct (by simp)
        obtain ⟨p1, p2⟩ := a1 cs (by simp)
        obtain ⟨q1, q2⟩ := b1 ct (by simp)
        exact ⟨cs, ct, rfl, hsi, hti, p1, q1, fun h => ⟨(p2 h).1, (p2 h).2, (q2 h).1, (q2 h).2⟩⟩
  · intro hall
    have : sideRows .source sd sd = [] := by
      simp only [sideRows, sourceRows, List.map_eq_nil_iff, List.filter_eq_nil_iff]
      rintro ⟨a, b⟩ hab
      have := hall a (List.of_mem_zip hab).1
      simpa using this
    have h := a3 this
    simp only [Prod.mk.injEq] at h
    obtain ⟨rfl, rfl⟩ := h
    rfl
  · intro hall
    have : sideRows .target sd sd = [] := by
      simp only [sideRows, targetRows, List.map_eq_nil_iff, List.filter_eq_nil_iff]
      rintro ⟨a, b⟩ hab
      have := hall a (List.of_mem_zip hab).1
      simpa using this
    have h := b3 this
    simp only [Prod.mk.injEq] at h
    obtain ⟨rfl, rfl⟩ := h
    cases res with
    | error e =>
      refine ⟨(by intro r hr; cases hr), ?_⟩
      intro htot call hc
      obtain ⟨o, ho⟩ := htot call
      simp only at hc
      rw [a4 call (by simp [hc])] at ho
      cases ho
    | ok v => exact ⟨(by intro r hr; cases hr), fun _ _ _ => rfl⟩

/-- Three rows, one of them target. -/
example :
    let s : SST Num (Option (List Num)) := ⟨exEst false [], none, true⟩
    (s.fit .fit (Cont.fromInput (.array [.fin 10, .fin 11, .fin 12])) (some [.fin 0, .fin 1, .fin 2])
      [("sample_domain", domParam [2, -1, 2])]).1.map (fun c => (c.X, c.y))
    = [([.fin 10, .fin 12], some [.fin 0, .fin 2]), ([.fin 11], some [.fin 1])] := by decide +kernel

/-- The rows of one side as a call. -/
def Spec.sideCall (side : Side) (sd : List Int) (X : List α) (y : Option (List Num)) (p : Dict) : Call α :=
  ⟨sideRows side sd X, y.map (sideRows side sd), p⟩

theorem take_sideMask (side : Side) {sd : List Int} {a : List α} (h : a.length = sd.length) :
    take a (flatnonzero (sideMask side sd)) = .ok (sideRows side sd a) := by
  rw [take_flatnonzero (by rw [length_sideMask, h]), sel_sideMask]

theorem mem_sideMask {side : Side} {sd : List Int} {i : Nat} : i ∈ flatnonzero (sideMask side sd) ↔
    ∃ d, sd[i]? = some d ∧ (side = .source ↔ 0 ≤ d) := by
  rw [mem_flatnonzero]
  cases side with
  | source =>
    simp only [sideMask, List.getElem?_map]
    cases sd[i]? <;> simp
  | target =>
    simp only [sideMask, List.getElem?_map]
    cases sd[i]? <;> simp

theorem sideRows_eq_of_written {side : Side} {sd : List Int} {a r : List α} (ha : a.length = sd.length)
    (hr : r.length = (flatnonzero (sideMask side sd)).length)
    (h : ∀ (k i : Nat), (flatnonzero (sideMask side sd))[k]? = some i → a[i]? = r[k]?) : sideRows side sd a = r := by
  have h1 := take_sideMask side ha
  have : take a (flatnonzero (sideMask side sd)) = .ok r := by
    rw [take_ok_iff, List.forall₂_iff_get]
    refine ⟨hr.symm, ?_⟩
    intro k hk hk'
    have := h k (flatnonzero (sideMask side sd))[k] (List.getElem?_eq_getElem hk)
    rw [List.getElem?_eq_getElem (l := r) hk'] at this
    simpa using this
  rw [this] at h1
  simpa using h1.symm

theorem sideOutputs_ok {τ : Type} {s : SST α σ} {isT : Bool} {query : τ → Call α → Py (QOut β)} {X : List α}
    {y : Option (List Num)} {params : Dict} {sd : List Int} (hX : X.length = sd.length)
    (hy : ∀ l, y = some l → l.length = sd.length) (l : List (τ × Request × Side)) (out : Side → NArr β)
    (h : ∀ q ∈ l, sideRows q.2.2 sd sd ≠ [] → ∃ routed,
      prepareRouting s.final s.source.hasTransform q.2.1
        (params.map (fun kv => (kv.1, maskParam (sideMask q.2.2 sd) kv.2))) = .ok routed ∧
      query q.1 (sideCall q.2.2 sd X (if isT then none else y) routed) = .ok (.arr (out q.2.2))) :
    s.sideOutputs isT query X y params (l.map (fun q => (q.1, q.2.1, sideMask q.2.2 sd)))
      = .ok ((l.filter (fun q => decide (sideRows q.2.2 sd sd ≠ []))).map
          (fun q => (flatnonzero (sideMask q.2.2 sd), out q.2.2))) := by
  induction l with
  | nil => rfl
  | cons q l ih =>
    obtain ⟨e, req, side⟩ := q
    have ih := ih (fun q hq => h q (by simp [hq]))
    rw [List.map_cons]
    unfold SST.sideOutputs
    by_cases h0 : sideRows side sd sd = []
    · rw [if_pos ((sideMask_count_zero side sd).2 h0), ih, List.filter_cons, if_neg (by simp [h0])]
    · rw [if_neg (fun hc => h0 ((sideMask_count_zero side sd).1 hc))]
      obtain ⟨routed, hr, hq⟩ := h (e, req, side) (by simp) h0
      rw [applyDomainMasks_sel (by rw [length_sideMask, hX]) (by intro l hl; rw [length_sideMask, hy l hl])]
      simp only at hr
      simp only [hr, sel_sideMask]
      have e1 : Option.map (sel (sideMask side sd)) y = y.map (sideRows side sd) := by
        cases y <;> simp [sel_sideMask]
      have e2 : (if isT = true then none else y.map (sideRows side sd))
          = Option.map (sideRows side sd) (if isT = true then none else y) := by cases isT <;> rfl
      rw [e1, e2]
      simp only [sideCall] at hq
      rw [hq]
      simp only [ih]
      rw [List.filter_cons, if_pos (by simp [h0])]
      rfl

/-- C15 (`SelectSourceTarget`, querying). The fitted source estimator is asked about the source rows, the fitted target
estimator about the target rows, and the answers are put at the positions of these rows; a side without rows is
skipped (estimators return one row per sample, with a common dtype and row shape). -/
theorem C15_source_target_route_partial {τ : Type} [Cell β] (s : SST α σ) (isT : Bool) (reqS reqT : Request) (fs ft : τ)
    (query : τ → Call α → Py (QOut β)) (X : List α) (y : Option (List Num)) (params : Dict) (sd : List Int)
    (hsd : params.lookup "sample_domain" = some (domParam sd)) (hne : sd ≠ []) (hX : X.length = sd.length)
    (hy : ∀ l, y = some l → l.length = sd.length) (dt : DType) (tl : List Nat) (out : Side → List β)
    (hq : ∀ side, sideRows side sd sd ≠ [] → ∃ routed,
      prepareRouting s.final s.source.hasTransform (match side with | .source => reqS | .target => reqT)
        ((params.put "sample_domain" (domParam sd)).map (fun kv => (kv.1, maskParam (sideMask side sd) kv.2))) = .ok routed ∧
      query (match side with | .source => fs | .target => ft) (sideCall side sd X (if isT then none else y) routed)
        = .ok (.arr ⟨dt, tl, out side⟩))
    (hout : ∀ side, (out side).length = (sideRows side sd X).length ∧ ∀ r ∈ out side, Cell.cast dt r = r) :
    ∃ rows, s.route isT reqS reqT (fs, ft) query X y params = .ok ⟨dt, tl, rows⟩ ∧ rows.length = X.length ∧
      sourceRows sd rows = out .source ∧ targetRows sd rows = out .target := by
  let l : List (τ × Request × Side) := [(fs, reqS, .source), (ft, reqT, .target)]
  let outs : List (List Nat × NArr β) := (l.filter (fun q => decide (sideRows q.2.2 sd sd ≠ []))).map
          (fun q => (flatnonzero (sideMask q.2.2 sd), ⟨dt, tl, out q.2.2⟩))
  have hso := sideOutputs_ok (s := s) (isT := isT) (query := query) (params := params.put "sample_domain" (domParam sd))
    hX hy l (fun side => ⟨dt, tl, out side⟩) (by
      intro q hql hne
      simp only [l, List.mem_cons, List.not_mem_nil, or_false] at hql
      rcases hql with rfl | rfl
      · exact hq .source hne
      · exact hq .target hne)
  have hlen : ∀ side, (flatnonzero (sideMask side sd)).length = (sideRows side sd X).length := fun side =>
    (take_ok_iff.1 (take_sideMask side hX)).length_eq
  have hfit : Fit X.length dt tl outs := by
    intro p hp
    obtain ⟨q, -, rfl⟩ := List.mem_map.1 hp
    refine ⟨?_, ?_, rfl, rfl, (hout _).2⟩
    · intro i hi
      obtain ⟨d, hd, -⟩ := mem_sideMask.1 hi
      rw [hX]
      exact (List.getElem?_eq_some_iff.1 hd).1
    · exact (hout _).1.trans (hlen _).symm
  have hdis : (outs.flatMap Prod.fst).Nodup := by
    rw [List.nodup_flatMap]
    refine ⟨?_, ?_⟩
    · intro p hp
      obtain ⟨q, -, rfl⟩ := List.mem_map.1 hp
      exact nodup_flatnonzero _
    · rw [List.pairwise_map]
      refine List.Pairwise.filter _ ?_
      simp only [l, List.pairwise_cons, List.mem_cons, List.not_mem_nil, or_false, Function.onFun, forall_eq,
        List.Pairwise.nil, and_true, implies_true, IsEmpty.forall_iff]
      rw [List.disjoint_left]
      intro i hi hj
      obtain ⟨d, hd, h1⟩ := mem_sideMask.1 hi
      obtain ⟨d', hd', h2⟩ := mem_sideMask.1 hj
      rw [hd] at hd'
      simp only [Option.some.injEq] at hd'
      subst hd'
      simp at h1 h2
      omega
  have hne' : outs ≠ [] := by
    obtain ⟨d, sd', rfl⟩ := List.exists_cons_of_ne_nil hne
    intro h0
    simp only [outs, List.map_eq_nil_iff, List.filter_eq_nil_iff, l, List.mem_cons, List.not_mem_nil, or_false,
      forall_eq_or_imp, forall_eq, decide_eq_true_eq, not_not] at h0
    obtain ⟨h1, h2⟩ := h0
    simp only [sideRows, sourceRows, targetRows, List.zip_cons_cons, List.filter_cons] at h1 h2
    by_cases hd : 0 ≤ d
    · simp [hd] at h1
    · have hd' : d < 0 := by omega
      simp [hd'] at h2
  obtain ⟨rows, hrows, hsc⟩ := C10_scatter_partial X.length dt tl outs hne' hfit hdis
  have hside : ∀ q ∈ l, sideRows q.2.2 sd rows = out q.2.2 := by
    intro q hql
    by_cases h0 : sideRows q.2.2 sd sd = []
    · have e1 : (sideRows q.2.2 sd X).length = 0 := by
        rw [sideRows_length _ hX, (sideMask_count_zero q.2.2 sd).2 h0]
      have e2 : (sideRows q.2.2 sd rows).length = 0 := by
        rw [sideRows_length _ (hsc.length.trans hX), (sideMask_count_zero q.2.2 sd).2 h0]
      rw [List.length_eq_zero_iff.1 e2]
      exact (List.length_eq_zero_iff.1 ((hout _).1.trans e1)).symm
    · apply sideRows_eq_of_written (hsc.length.trans hX) ((hout _).1.trans (hlen _).symm)
      intro k i hki
      exact hsc.written (flatnonzero (sideMask q.2.2 sd), out q.2.2)
        (List.mem_map.2 ⟨(flatnonzero (sideMask q.2.2 sd), ⟨dt, tl, out q.2.2⟩),
          List.mem_map.2 ⟨q, List.mem_filter.2 ⟨hql, by simp [h0]⟩, rfl⟩, rfl⟩) k i hki
  refine ⟨rows, ?_, hsc.length, ?_, ?_⟩
  · unfold SST.route
    simp only [sstCheck_ok hne hsd hX hy]
    have := hso
    simp only [l, List.map_cons, List.map_nil] at this
    simp only [sideMask] at this
    rw [this]
    exact hrows
  · exact hside (fs, reqS, .source) (by simp [l])
  · exact hside (ft, reqT, .target) (by simp [l])

/-- A mixed batch through `transform` of a `SelectSourceTarget`; the estimator adds its state. -/
example : (⟨exEst true [], none, false⟩ : SST Num (Option (List Num))).call (SST.view ["transform"] ["transform"])
      "transform" [] [] (some [.fin 1], some [.fin 2])
      (fun (e : Option (List Num)) c => .ok (.arr ⟨.float, [], c.X.map (fun x => match e, x with
        | some [Num.fin b], Num.fin a => Num.fin (a + b)
        | _, x => x)⟩))
      [.fin 10, .fin 20, .fin 30] none [("sample_domain", domParam [-3, 1, -3])]
    = .ok ⟨.float, [], [.fin 12, .fin 21, .fin 32]⟩ := by decide +kernel

/-- C15 is false for `SelectSourceTarget.predict`: whatever the estimators offer, the method does not exist, because
its availability is tested on an attribute `base_estimator` which this selector does not have (skada/base.py:300). -/
theorem C15_counterexample {τ : Type} [Cell β] (s : SST α σ) (ms mt : List String) (reqS reqT : Request) (fitted : τ × τ)
    (query : τ → Call α → Py (QOut β)) (X : List α) (y : Option (List Num)) (params : Dict) :
    s.call (SST.view ms mt) "predict" reqS reqT fitted query X y params = .error .attributeError := by
  rfl

/-- C58 is false for `SelectSourceTarget`: no call of `score` (a method that returns numbers) ever returns. -/
theorem C58_counterexample_source_target {τ : Type} [Cell β] (s : SST α σ) (v : SelView) (reqS reqT : Request) (fitted : τ × τ)
    (query : τ → Call α → Py (QOut β)) (X : List α) (y : Option (List Num)) (params : Dict)
    (hnum : ∀ e c v, query e c = .ok v → ∃ q, v = .number q) :
    ∀ r, s.call v "score" reqS reqT fitted query X y params ≠ .ok r := by
  have key : ∀ p l r, s.sideOutputs false query X y p l = .ok r → r = [] := by
    intro p l
    induction l with
    | nil => intro r hr; simp only [SST.sideOutputs, Except.ok.injEq] at hr; exact hr.symm
    | cons q l ih =>
      obtain ⟨e, req, mask⟩ := q
      intro r hr
      unfold SST.sideOutputs at hr
      split at hr
      · exact ih r hr
      · split at hr
        · cases hr
        · split at hr
          · cases hr
          · split at hr
            · cases hr
            · cases hr
            · rename_i out hq
              obtain ⟨q, hq'⟩ := hnum _ _ _ hq
              cases hq'
  intro r hr
  unfold SST.call at hr
  split at hr
  · cases hr
  · unfold SST.route at hr
    split at hr
    · cases hr
    · simp only at hr
      split at hr
      · cases hr
      · rename_i outs houts
        have : outs = [] := key _ _ _ houts
        subst this
        cases hr

/-- C15 (constructor). `SelectSourceTarget(source, target)` keeps its two estimators; a missing target estimator is always
accepted.  It raises `TypeError` exactly when there is a target estimator that does not transform although the source estimator
does, and otherwise `ValueError` exactly when `mask_target_labels=True`. -/
theorem C15_source_target_init (e : Est α σ) (t : Option (Est α σ)) (mask : Bool) :
    (SST.init e t mask = .error .typeError ↔ ∃ t', t = some t' ∧ e.hasTransform = true ∧ t'.hasTransform = false) ∧
    (SST.init e t mask = .error .valueError ↔
      mask = true ∧ ∀ t', t = some t' → e.hasTransform = true → t'.hasTransform = true) ∧
    ∀ s, SST.init e t mask = .ok s → s.source = e ∧ s.target = t ∧ mask = false := by
  unfold SST.init
  cases t with
  | none => cases mask <;> simp
  | some t =>
    cases mask <;> cases h1 : e.hasTransform <;> cases h2 : t.hasTransform <;> simp [h2]

example : (SST.init (exEst true []) none false).toOption.map SST.final = some false ∧
    (SST.init (exEst true []) (some (exEst false [])) true).toOption.map SST.final = none := by decide +kernel

/-- The error message ("must both be transformers, or neither should be") is not what is checked: a transformer for the target
side next to a source estimator without `transform` is accepted. -/
theorem C15_source_target_init_counterexample (e t : Est α σ) (he : e.hasTransform = false) (ht : t.hasTransform = true) :
    SST.init e (some t) false = .ok ⟨e, some t, false⟩ := by
  simp [SST.init, he, ht]

example : (exEst false []).hasTransform = false ∧ (exEst true []).hasTransform = true := by decide +kernel

end Skada

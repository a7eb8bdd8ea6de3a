/-
C137: the answer about a sample does not depend on the other samples asked about, and what `allow_source` changes.
-/
import Verif.Props.Order
import Verif.Lemmas.Batch
import Verif.Lemmas.Mapping

namespace Skada
open Np Spec

variable {α β σ : Type}

/-! ### Pipelines -/

/-- C137 (pipelines). A fitted pipeline of any selectors around transformers that treat each sample by itself, with a predictor that answers
sample by sample: if it answers a batch, it answers every part of the batch, with the same answer for each sample. -/
theorem C137_predict [Cell α] {γ : Type} (steps : List ((String → Bool) × Step α σ × Fitted σ)) (hs : ∀ st ∈ steps, StepBatch st.2.1)
    (keep : String → Bool) (s : Sel α σ) (f : σ) (req : Request) (query : σ → Call α → Py (List γ)) (hq : QueryBatch query)
    (l l' : List Nat) (hl : Part l l') (X X' : List α) (hX : Rows l l' X X') (p p' : Dict) (hp : RowsDict l l' p p') :
    Whenever (Rows l l') (stepsRoute steps (keep, s, f) req query X none p) (stepsRoute steps (keep, s, f) req query X' none p') :=
  Batch.stepsRoute_part hq hl hp hs hX

/-- C137 (`PerDomain` at the end). The same for a predictor inside `PerDomain`, if the predictors of all domains answer with arrays of one
type and shape. -/
theorem C137_perDomain [Cell β] (dt : DType) (tl : List Nat) (s : Sel α σ) (req : Request) (ests : List (Int × σ))
    (query : σ → Call α → Py (QOut β)) (hq : ArrayBatch dt tl query) (l l' : List Nat) (hl : Part l l') (X X' : List α) (hX : Rows l l' X X')
    (p p' : Dict) (hp : RowsDict l l' p p') :
    Whenever (fun a b => a.dtype = b.dtype ∧ a.tail = b.tail ∧ Rows l l' a.rows b.rows)
      (s.perDomainRoute req ests query X none p) (s.perDomainRoute req ests query X' none p') :=
  Batch.when_imp (Batch.perDomainRoute_part hq hl hX hp) (fun _ _ h => ⟨h.1.trans h.2.2.1.symm, h.2.1.trans h.2.2.2.1.symm, h.2.2.2.2⟩)

/-- C137 (`SelectSourceTarget` at the end). The same for two predictors, one per side. -/
theorem C137_sourceTarget [Cell β] {τ : Type} (dt : DType) (tl : List Nat) (s : SST α σ) (isTransform : Bool) (reqS reqT : Request)
    (fitted : τ × τ) (query : τ → Call α → Py (QOut β)) (hq : ArrayBatch dt tl query) (l l' : List Nat) (hl : Part l l') (X X' : List α)
    (hX : Rows l l' X X') (p p' : Dict) (hp : RowsDict l l' p p') :
    Whenever (fun a b => a.dtype = b.dtype ∧ a.tail = b.tail ∧ Rows l l' a.rows b.rows)
      (s.route isTransform reqS reqT fitted query X none p) (s.route isTransform reqS reqT fitted query X' none p') :=
  Batch.when_imp (Batch.sstRoute_part s isTransform reqS reqT fitted (fun l l' hl _ => hq l l' hl _) (fun l l' hl _ => hq l l' hl _) hl hX hp)
    (fun _ _ h => ⟨h.1.trans h.2.2.1.symm, h.2.1.trans h.2.2.2.1.symm, h.2.2.2.2⟩)

namespace Batch

theorem rows_of_idx {γ : Type} [Inhabited γ] {idx : List Nat} {a a' : List γ} (hi : ∀ i ∈ idx, i < a.length) (h : take a idx = .ok a') :
    Rows (List.range a.length) idx a a' := by
  refine ⟨fun i => a.getD i default, ?_, Order.take_total hi h⟩
  refine List.ext_getElem (by simp) (fun i h1 h2 => ?_)
  simp [List.getD, List.getElem?_eq_getElem h1]

theorem part_range {idx : List Nat} {n : Nat} (hi : ∀ i ∈ idx, i < n) (hn : idx ≠ []) : Part (List.range n) idx :=
  ⟨fun i h => List.mem_range.2 (hi i h), hn⟩

end Batch

/-- C137 (what a user sees). `predict(X, sample_domain=sd)` answers `out`; then `predict(X[idx], sample_domain=sd[idx])` answers `out[idx]`,
for every non-empty array `idx` of positions, with or without repetitions, and with any `allow_source`. -/
theorem C137_user [Cell α] [Inhabited α] {γ : Type} (steps : List ((String → Bool) × Step α σ × Fitted σ))
    (hs : ∀ st ∈ steps, StepBatch st.2.1) (keep : String → Bool) (s : Sel α σ) (f : σ) (req : Request) (query : σ → Call α → Py (List γ))
    (hq : QueryBatch query) (X X' : List α) (sd sd' : List Int) (hsd : sd.length = X.length) (allow : Num) (idx : List Nat) (hne : idx ≠ [])
    (hX' : take X idx = .ok X') (hsd' : take sd idx = .ok sd') (out : List γ)
    (h : stepsRoute steps (keep, s, f) req query X none [("sample_domain", domParam sd), ("allow_source", .scalar allow)] = .ok out) :
    ∃ out', stepsRoute steps (keep, s, f) req query X' none [("sample_domain", domParam sd'), ("allow_source", .scalar allow)] = .ok out' ∧
      take out idx = .ok out' := by
  have hi : ∀ i ∈ idx, i < X.length := by
    have key : ∀ (idx : List Nat) (X' : List α), take X idx = .ok X' → ∀ i ∈ idx, i < X.length := by
      intro idx
      induction idx with
      | nil => intro _ _ i hi; simp at hi
      | cons j idx ih =>
        intro X' hX' i hi
        simp only [take] at hX'
        cases hj : X[j]? with
        | none => rw [hj] at hX'; cases hX'
        | some x =>
          rw [hj] at hX'
          cases ht : take X idx with
          | error e => rw [ht] at hX'; cases hX'
          | ok r =>
            rcases List.mem_cons.1 hi with rfl | hi
            · exact (List.getElem?_eq_some_iff.1 hj).1
            · exact ih r ht i hi
    exact key idx X' hX'
  have hp : RowsDict (List.range X.length) idx [("sample_domain", domParam sd), ("allow_source", .scalar allow)]
      [("sample_domain", domParam sd'), ("allow_source", .scalar allow)] := by
    refine List.Forall₂.cons ⟨rfl, Order.domParam_rows ?_⟩ (List.Forall₂.cons ⟨rfl, Or.inr ⟨rfl, by simp⟩⟩ List.Forall₂.nil)
    have := Batch.rows_of_idx (fun i h => hsd ▸ hi i h) hsd'
    rw [hsd] at this
    exact this
  obtain ⟨out', h1, h2⟩ := C137_predict steps hs keep s f req query hq (List.range X.length) idx (Batch.part_range hi hne) X X'
    (Batch.rows_of_idx hi hX') _ _ hp out h
  exact ⟨out', h1, Order.take_of_rows hi h2⟩

/-! ### Adapters that treat each sample by itself -/

namespace Batch

theorem truthy_part {l l' : List Nat} (hl : Part l l') {v v' : Param Num} (h : RowsParam l l' v v') : truthy v = truthy v' := by
  rcases h with ⟨a, a', ha, rfl, rfl⟩ | ⟨rfl, -⟩
  · obtain ⟨h1, h2⟩ := rows_ne hl ha
    simp only [truthy]
    cases a <;> cases a' <;> simp_all
  · rfl

/-- `check_X_domain` and what follows it. -/
theorem check_bind_part {l l' : List Nat} (hl : Part l l') {X X' : List α} (hX : Rows l l' X X') {sd sd' : SDArg} (hs : RowsSD l l' sd sd')
    (fl : Flags) {γ : Type} {S : γ → γ → Prop} {f g : List α × List Int → Py γ}
    (h : ∀ s : Nat → Int, checkXDomain X sd fl = .ok (X, l.map s) → Whenever S (f (X, l.map s)) (g (X', l'.map s))) :
    Whenever S (checkXDomain X sd fl >>= f) (checkXDomain X' sd' fl >>= g) := by
  rcases when_cases (checkX_part hl hX hs fl) with ⟨e, h1⟩ | ⟨⟨a1, a2⟩, ⟨b1, b2⟩, h1, h2, r1, r2, s, r3, r4⟩
  · rw [h1]; exact when_err
  · simp only at r1 r2 r3 r4
    subst r1 r2 r3 r4
    rw [h1, h2]
    exact h s h1

theorem mergeN_same [Cell α] {l : List Nat} (hn : l ≠ []) (s : Nat → Int) (dt : DType) (tl : List Nat) (a b : Nat → α) :
    Map.mergeN ⟨dt, tl, (l.filter (fun i => decide (0 ≤ s i))).map a⟩ ⟨dt, tl, (l.filter (fun i => !decide (0 ≤ s i))).map b⟩ (l.map s) =
      .ok ⟨dt, tl, l.map (fun i => if decide (0 ≤ s i) then Cell.cast dt (a i) else Cell.cast dt (b i))⟩ := by
  rw [Order.mergeN_map hn]
  split
  · rename_i h
    refine congrArg _ (congrArg _ (List.map_congr_left (fun i hi => ?_)))
    rw [if_neg (by simpa using List.filter_eq_nil_iff.1 h i hi)]
  · split
    · rename_i h
      refine congrArg _ (congrArg _ (List.map_congr_left (fun i hi => ?_)))
      rw [if_pos (by simpa using List.filter_eq_nil_iff.1 h i hi)]
    · rw [if_neg (by simp)]

theorem mergeN_part [Cell α] {l l' : List Nat} (hl : Part l l') (s : Nat → Int) (dt : DType) (tl : List Nat) {a a' b b' : List α}
    (ha : Rows (l.filter (fun i => decide (0 ≤ s i))) (l'.filter (fun i => decide (0 ≤ s i))) a a')
    (hb : Rows (l.filter (fun i => !decide (0 ≤ s i))) (l'.filter (fun i => !decide (0 ≤ s i))) b b') :
    Whenever (fun a b => Rows l l' a.rows b.rows) (Map.mergeN ⟨dt, tl, a⟩ ⟨dt, tl, b⟩ (l.map s)) (Map.mergeN ⟨dt, tl, a'⟩ ⟨dt, tl, b'⟩ (l'.map s)) := by
  obtain ⟨fa, rfl, rfl⟩ := ha
  obtain ⟨fb, rfl, rfl⟩ := hb
  rw [mergeN_same (part_ne hl), mergeN_same hl.ne]
  exact when_ok rfl ⟨_, rfl, rfl⟩

theorem rowsOf_arr_part {l l' : List Nat} {x x' : Py (NArr α)} (h : Whenever (fun a b => Rows l l' a.rows b.rows) x x') :
    Whenever (Rows l l') (rowsOf x) (rowsOf x') := by
  rcases when_cases h with ⟨e, rfl⟩ | ⟨a, b, rfl, rfl, hab⟩
  · exact when_err
  · exact when_ok rfl hab

theorem toRows_part {K : Type} {l l' : List Nat} {p : Nat} {x x' : Py (List (Fin p → K))} (h : Whenever (Rows l l') x x') :
    Whenever (Rows l l') (Shallow.toRows x) (Shallow.toRows x') := by
  rcases when_cases h with ⟨e, rfl⟩ | ⟨a, b, rfl, rfl, hab⟩
  · exact when_err
  · exact when_ok rfl (Order.rows_map hab _)

theorem baseTransform_part {l l' : List Nat} (hl : Part l l') {X X' : List α} (hX : Rows l l' X X') {p p' : Dict} (hp : RowsDict l l' p p') :
    Whenever (RowsOut l l') (baseTransform X p) (baseTransform X' p') := by
  unfold baseTransform
  rcases when_cases (sdArg_part hl (Order.get hp "sample_domain")) with ⟨e, h1⟩ | ⟨s, s', h1, h2, hs⟩
  · rw [h1]; exact when_err
  · rw [h1, h2]
    simp only [truthy_part hl (Order.get hp "allow_source")]
    rcases when_cases (checkX_part hl hX hs { allowSource := truthy (p'.get "allow_source") }) with ⟨e, h3⟩ |
      ⟨⟨a1, a2⟩, ⟨b1, b2⟩, h3, h4, r1, r2, -⟩
    · rw [h3]; exact when_err
    · rw [h3, h4]
      simp only at r1 r2
      subst r1 r2
      exact when_ok rfl hX

end Batch

/-- C137 (reweighting). The step of every reweighting method: at prediction time the rows pass unchanged. -/
theorem C137_reweightEst {φ : Type} (wrap : φ → σ) (fit : List α → Option (List Num) → SDArg → Py φ)
    (weights : φ → List α → Option (List Num) → SDArg → Py (List (Option ℚ))) : BatchFree (reweightEst wrap fit weights) :=
  fun _ _ hl _ _ _ hX _ _ hp => Batch.baseTransform_part hl hX hp

/-- C137 (label propagation). The steps of `OTLabelProp` and `JCPOTLabelProp`. -/
theorem C137_labelEst (state : σ) (prop : List α → List Int → SDArg → Py (List α × List Int)) : BatchFree (Shallow.labelEst state prop) :=
  fun _ _ hl _ _ _ hX _ _ hp => Batch.baseTransform_part hl hX hp

/-- C137 (mapping and subspace adapters in general). -/
theorem C137_mapEst {φ : Type} (wrap : φ → σ) (unwrap : σ → φ) (fit : List α → Option (List Num) → SDArg → Py φ)
    (tr : φ → List α → SDArg → Bool → Py (List α)) (htr : TransformBatch (fun f => tr (unwrap f))) : BatchFree (mapEst wrap unwrap fit tr) := by
  intro l l' hl f X X' hX p p' hp
  simp only [mapEst]
  rcases Batch.when_cases (Batch.sdArg_part hl (Order.get hp "sample_domain")) with ⟨e, h1⟩ | ⟨s, s', h1, h2, hs⟩
  · rw [h1]; exact Batch.when_err
  · rw [h1, h2]
    simp only [Batch.truthy_part hl (Order.get hp "allow_source")]
    rcases Batch.when_cases (htr f l l' hl X X' hX s s' hs (truthy (p'.get "allow_source"))) with ⟨e, h3⟩ | ⟨a, b, h3, h4, hr⟩ <;> beta_reduce at *
    · rw [h3]; exact Batch.when_err
    · rw [h3, h4]; exact Batch.when_ok rfl hr

namespace Batch

/-- Without `allow_source` only target samples are accepted. -/
theorem check_targets {l : List Nat} {X X' : List α} {sd : SDArg} {s : Nat → Int}
    (h : checkXDomain X sd { allowSource := false } = .ok (X', l.map s)) : ∀ i ∈ l, s i < 0 := by
  have key : checkFlags { allowSource := false } (l.map s) = .ok () := by
    unfold checkXDomain at h
    split at h
    · cases h
    · simp only at h
      split at h
      · cases h
      · split at h
        · cases h
        · split at h
          · cases h
          · split at h
            · cases h
            · split at h
              · cases h
              · rename_i hf
                injection h with h
                injection h with h1 h2
                subst h2
                exact hf
  intro i hi
  by_contra hc
  have hmem : s i ∈ Np.unique (Np.sel ((l.map s).map (fun d => decide (0 ≤ d))) (l.map s)) := by
    rw [Np.mem_unique, Np.sel_map_self]
    exact List.mem_filter.2 ⟨List.mem_map.2 ⟨i, hi, rfl⟩, by simpa using hc⟩
  have hpos : 0 < (Np.unique (Np.sel ((l.map s).map (fun d => decide (0 ≤ d))) (l.map s))).length := List.length_pos_of_mem hmem
  unfold checkFlags at key
  rw [if_pos (by rw [Bool.and_eq_true]; exact ⟨rfl, decide_eq_true hpos⟩)] at key
  cases key

theorem when_self {γ : Type} {R : γ → γ → Prop} (x : Py γ) (h : ∀ a, R a a) : Whenever R x x := fun a ha => ⟨a, ha, h a⟩

end Batch

section Adapters
variable {K : Type} [Field K] {d : Nat}

/-- C137 (CORAL). -/
theorem C137_coral (wrap : Map.Coral K d → σ) (unwrap : σ → Map.Coral K d) (cov : List (Fin d → K) → Matrix (Fin d) (Fin d) K)
    (sqrtM invsqrtM : Matrix (Fin d) (Fin d) K → Matrix (Fin d) (Fin d) K) (b : Bool) :
    BatchFree (Shallow.coralEst wrap unwrap cov sqrtM invsqrtM b) := by
  refine C137_mapEst wrap unwrap _ _ ?_
  intro F0 l l' hl X X' hX sd sd' hs as
  beta_reduce
  generalize unwrap F0 = F
  refine Batch.toRows_part (Batch.rowsOf_arr_part ?_)
  refine Batch.check_bind_part hl (Order.rows_map hX _) hs _ (fun s _ => ?_)
  obtain ⟨f, rfl, rfl⟩ := hX
  simp only [List.map_map, Order.splitN_map (Batch.part_ne hl), Order.splitN_map hl.ne]
  have hsrc : ∀ k : List Nat, (if 0 < (k.map (Shallow.vecRow d ∘ f)).length then
        (⟨.float, [d], ((if b = true then k.map (Shallow.vecRow d ∘ f) else (k.map (Shallow.vecRow d ∘ f)).map (fun x => x - F.meanSource)).map
          ((fun x => Matrix.vecMul x F.covTargetSqrt) ∘ fun x => Matrix.vecMul x F.covSourceInvSqrt))⟩ : NArr (Fin d → K))
      else ⟨.float, [d], k.map (Shallow.vecRow d ∘ f)⟩) =
      ⟨.float, [d], k.map (fun i => Matrix.vecMul (Matrix.vecMul (if b then Shallow.vecRow d (f i) else Shallow.vecRow d (f i) - F.meanSource)
        F.covSourceInvSqrt) F.covTargetSqrt)⟩ := by
    intro k
    cases k with
    | nil => simp
    | cons i k => cases b <;> simp
  have htgt : ∀ k : List Nat, (if 0 < (k.map (Shallow.vecRow d ∘ f)).length ∧ b = false then
        (⟨.float, [d], (k.map (Shallow.vecRow d ∘ f)).map (fun x => x - F.meanTarget)⟩ : NArr (Fin d → K))
      else ⟨.float, [d], k.map (Shallow.vecRow d ∘ f)⟩) =
      ⟨.float, [d], k.map (fun i => if b then Shallow.vecRow d (f i) else Shallow.vecRow d (f i) - F.meanTarget)⟩ := by
    intro k
    cases k with
    | nil => simp
    | cons i k => cases b <;> simp
  show Whenever _ (Map.mergeN (if _ then _ else _) (if _ then _ else _) _) (Map.mergeN (if _ then _ else _) (if _ then _ else _) _)
  dsimp only
  rw [hsrc, hsrc, htgt, htgt]
  exact Batch.mergeN_part hl s _ _ ⟨_, rfl, rfl⟩ ⟨_, rfl, rfl⟩

/-- C137 (optimal-transport mapping). For a fitted transport that moves each sample by itself, as `ot.da.LinearTransport` does. (The other
transports of POT treat the array of all training source samples in a way of its own.) -/
theorem C137_ot (wrap : (NArr (List Num) → Py (NArr (List Num))) → σ) (unwrap : σ → NArr (List Num) → Py (NArr (List Num)))
    (ot : NArr (List Num) → Option (List Num) → NArr (List Num) → Option (List Num) → Py (NArr (List Num) → Py (NArr (List Num))))
    (tl : List Nat) (hT : ∀ f, ∃ t : List Num → List Num, ∀ X, X ≠ [] → unwrap f ⟨.float, tl, X⟩ = .ok ⟨.float, tl, X.map t⟩) :
    BatchFree (otEst wrap unwrap ot tl) := by
  refine C137_mapEst wrap unwrap _ _ ?_
  intro F0 l l' hl X X' hX sd sd' hs as
  obtain ⟨t, ht⟩ := hT F0
  beta_reduce
  generalize unwrap F0 = F at ht ⊢
  refine Batch.rowsOf_arr_part ?_
  refine Batch.check_bind_part hl hX hs _ (fun s _ => ?_)
  obtain ⟨f, rfl, rfl⟩ := hX
  have key : ∀ k : List Nat, k ≠ [] → (do
      let (Xs, Xt) ← Map.splitN ⟨.float, tl, k.map f⟩ (k.map s)
      let Xs ← if 0 < Xs.rows.length then F Xs else pure Xs
      Map.mergeN Xs Xt (k.map s)) = Map.mergeN ⟨.float, tl, (k.filter (fun i => decide (0 ≤ s i))).map (fun i => t (f i))⟩
        ⟨.float, tl, (k.filter (fun i => !decide (0 ≤ s i))).map f⟩ (k.map s) := by
    intro k hk
    rw [Order.splitN_map hk]
    generalize k.filter (fun i => decide (0 ≤ s i)) = ks
    cases ks with
    | nil => rfl
    | cons i ks =>
      show (if 0 < ((i :: ks).map f).length then F ⟨.float, tl, (i :: ks).map f⟩ >>= fun Xs =>
          Map.mergeN Xs ⟨.float, tl, (k.filter (fun i => !decide (0 ≤ s i))).map f⟩ (k.map s)
        else pure ⟨.float, tl, (i :: ks).map f⟩ >>= fun Xs =>
          Map.mergeN Xs ⟨.float, tl, (k.filter (fun i => !decide (0 ≤ s i))).map f⟩ (k.map s)) = _
      rw [if_pos (by simp), ht _ (by simp), List.map_map]
      rfl
  show Whenever _ (do
      let (Xs, Xt) ← Map.splitN ⟨.float, tl, l.map f⟩ (l.map s)
      let Xs ← if 0 < Xs.rows.length then F Xs else pure Xs
      Map.mergeN Xs Xt (l.map s)) (do
      let (Xs, Xt) ← Map.splitN ⟨.float, tl, l'.map f⟩ (l'.map s)
      let Xs ← if 0 < Xs.rows.length then F Xs else pure Xs
      Map.mergeN Xs Xt (l'.map s))
  rw [key l (Batch.part_ne hl), key l' hl.ne]
  exact Batch.mergeN_part hl s _ _ ⟨_, rfl, rfl⟩ ⟨_, rfl, rfl⟩

/-- C137 (subspace alignment). -/
theorem C137_subspaceAlignment (wrap : (Σ p, Subsp.Pca K d p × Subsp.Pca K d p) → σ) (unwrap : σ → Σ p, Subsp.Pca K d p × Subsp.Pca K d p)
    (pca : ∀ p, List (Fin d → K) → Subsp.Pca K d p) (n : Option Nat) : BatchFree (Shallow.saEst wrap unwrap pca n) := by
  refine C137_mapEst wrap unwrap _ _ ?_
  intro F0 l l' hl X X' hX sd sd' hs as
  beta_reduce
  generalize unwrap F0 = F
  refine Batch.toRows_part (Batch.rowsOf_arr_part ?_)
  refine Batch.check_bind_part hl (Order.rows_map hX _) hs _ (fun s _ => ?_)
  obtain ⟨f, rfl, rfl⟩ := hX
  simp only [List.map_map, Order.splitX_map (Batch.part_ne hl), Order.splitX_map hl.ne]
  exact Batch.mergeN_part hl s _ _ (Order.rows_map ⟨_, rfl, rfl⟩ _) (Order.rows_map ⟨_, rfl, rfl⟩ _)

/-- C137 (transfer subspace learning). -/
theorem C137_transferSubspace {p : Nat} (wrap : Matrix (Fin d) (Fin p) K → σ) (unwrap : σ → Matrix (Fin d) (Fin p) K)
    (opt : List (Fin d → K) → List Num → List (Fin d → K) → Matrix (Fin d) (Fin p) K) : BatchFree (Shallow.tslEst wrap unwrap opt) := by
  refine C137_mapEst wrap unwrap _ _ ?_
  intro F0 l l' hl X X' hX sd sd' hs as
  beta_reduce
  generalize unwrap F0 = F
  refine Batch.toRows_part (Batch.rowsOf_arr_part ?_)
  refine Batch.check_bind_part hl (Order.rows_map hX _) hs _ (fun s _ => ?_)
  obtain ⟨f, rfl, rfl⟩ := hX
  simp only [List.map_map, Order.splitX_map (Batch.part_ne hl), Order.splitX_map hl.ne]
  exact Batch.mergeN_part hl s _ _ (Order.rows_map ⟨_, rfl, rfl⟩ _) (Order.rows_map ⟨_, rfl, rfl⟩ _)

end Adapters

namespace Batch

/-- The loop over domains, seen from one sample: the mapping of its domain if the loop comes to it, nothing else. -/
theorem mongeLoop_part [Cell α] (maps : List (Int × (α → α))) (dt : DType) (tl : List Nat) {l l' : List Nat} (f : Nat → α) (s : Nat → Int) :
    ∀ (ds : List Int) (o o' : Nat → α), (∀ i ∈ l', o i = o' i) → Whenever (Rows l l')
      (Map.mongeLoop maps ⟨dt, tl, l.map f⟩ (ds.map (fun d => (d, flatnonzero (l.map (fun i => decide (s i = d)))))) (l.map o))
      (Map.mongeLoop maps ⟨dt, tl, l'.map f⟩ ((ds.filter (fun d => l'.any (fun i => decide (s i = d)))).map
        (fun d => (d, flatnonzero (l'.map (fun i => decide (s i = d)))))) (l'.map o'))
  | [], o, o', h => when_ok rfl ⟨o, rfl, List.map_congr_left (fun i hi => (h i hi).symm)⟩
  | d :: ds, o, o', h => by
    simp only [List.map_cons, Map.mongeLoop, List.filter_cons]
    cases hlk : Map.lookup maps d with
    | error e => exact when_err
    | ok g =>
      show Whenever _ (take (l.map f) (flatnonzero (l.map (fun i => decide (s i = d)))) >>= _) _
      rw [Order.take_rows]
      show Whenever _ (idxAssign (l.map o) (flatnonzero (l.map (fun i => decide (s i = d)))) (((l.filter (fun i => decide (s i = d))).map f).map _)
        >>= _) _
      rw [List.map_map, Order.idxAssign_map]
      split
      · simp only [List.map_cons, Map.mongeLoop, hlk]
        show Whenever _ _ (take (l'.map f) (flatnonzero (l'.map (fun i => decide (s i = d)))) >>= _)
        rw [Order.take_rows]
        show Whenever _ _ (idxAssign (l'.map o') (flatnonzero (l'.map (fun i => decide (s i = d))))
          (((l'.filter (fun i => decide (s i = d))).map f).map _) >>= _)
        rw [List.map_map, Order.idxAssign_map]
        exact mongeLoop_part maps dt tl f s ds _ _ (fun i hi => by rw [h i hi])
      · rename_i hno
        refine mongeLoop_part maps dt tl f s ds _ _ (fun i hi => ?_)
        have : ¬ s i = d := fun hd => hno (List.any_eq_true.2 ⟨i, hi, by simpa using hd⟩)
        simp [this, h i hi]

end Batch

/-- C137 (linear Monge mappings). The step of `MultiLinearMongeAlignment`: the mapping of a sample is that of its domain. -/
theorem C137_monge {K γ δ : Type} [Cell (List K)] (wrap : List (Int × (List K → List K)) → σ) (unwrap : σ → List (Int × (List K → List K)))
    (covMean : List (List K) → γ) (bary : List γ → δ) (mapping : γ → δ → List K → List K) (d : Nat) :
    BatchFree (Shallow.mongeEst wrap unwrap covMean bary mapping d) := by
  refine C137_mapEst wrap unwrap _ _ ?_
  intro F0 l l' hl X X' hX sd sd' hs as
  beta_reduce
  generalize unwrap F0 = F
  refine Batch.rowsOf_arr_part ?_
  refine Batch.check_bind_part hl hX hs _ (fun s _ => ?_)
  obtain ⟨f, rfl, rfl⟩ := hX
  simp only [Order.domIdx_map (Batch.part_ne hl), Order.domIdx_map hl.ne]
  rw [Batch.unique_part hl]
  exact Batch.when_bind (Batch.mongeLoop_part F .float [d] f s _ f f (fun _ _ => rfl)) (fun _ _ h => Batch.when_ok rfl h)

/-- C137 (kernel embeddings). `TCA` and `TJM`, fitted with at least one source sample, asked about target samples (no `allow_source`): the
samples are embedded one by one. With `allow_source` this is false (`C137_kernel_counterexample`). -/
theorem C137_kernel_partial {K : Type} [Field K] [DecidableEq α] {p : Nat} (k : α → α → K) (F : Subsp.Embedding α K p) (hF : F.Xs ≠ [])
    (l l' : List Nat) (hl : Part l l') (X X' : List α) (hX : Rows l l' X X') (sd sd' : SDArg) (hs : RowsSD l l' sd sd') :
    Whenever (Rows l l') (Subsp.kernelTransform k F X sd false) (Subsp.kernelTransform k F X' sd' false) := by
  refine Batch.check_bind_part hl hX hs _ (fun s h => ?_)
  have ht := Batch.check_targets h
  obtain ⟨f, rfl, rfl⟩ := hX
  have key : ∀ k0 : List Nat, k0 ≠ [] → (∀ i ∈ k0, s i < 0) → RW.splitX (k0.map f) (k0.map s) = .ok ([], k0.map f) := by
    intro k0 hk0 hneg
    rw [Order.splitX_map hk0, List.filter_eq_nil_iff.2 (fun i hi => by simpa using hneg i hi),
      List.filter_eq_self.2 (fun i hi => by simpa using hneg i hi)]
    rfl
  simp only [key l (Batch.part_ne hl) ht, key l' hl.ne (fun i hi => ht i (hl.sub i hi))]
  show Whenever _ (if [] = F.Xs ∧ _ then _ else _) (if [] = F.Xs ∧ _ then _ else _)
  rw [if_neg (fun h => hF h.1.symm), if_neg (fun h => hF h.1.symm)]
  refine Batch.when_ok rfl ?_
  simp only [Subsp.gram, List.map_map, Order.zipWith_maps]
  exact ⟨_, rfl, rfl⟩

/-- C137 (MMD location-scale mapping). `MMDLSConSMapping`, asked about target samples (no `allow_source`). With `allow_source` this is false
(`C137_mmdls_counterexample`). -/
theorem C137_mmdls_partial {K : Type} [Field K] [LinearOrder K] {d : Nat} {γ : Type} [DecidableEq γ] (dist : (Fin d → K) → (Fin d → K) → K)
    (F : Map.MmdLs K d γ) (l l' : List Nat) (hl : Part l l') (X X' : List (Fin d → K)) (hX : Rows l l' X X') (sd sd' : SDArg)
    (hs : RowsSD l l' sd sd') (dt : DType) (tl : List Nat) :
    Whenever (fun a b => Rows l l' a.rows b.rows) (Map.mmdlsTransform dist F ⟨dt, tl, X⟩ none sd false)
      (Map.mmdlsTransform dist F ⟨dt, tl, X'⟩ none sd' false) := by
  refine Batch.check_bind_part hl hX hs _ (fun s h => ?_)
  have ht := Batch.check_targets h
  obtain ⟨f, rfl, rfl⟩ := hX
  have key : ∀ k0 : List Nat, k0 ≠ [] → (∀ i ∈ k0, s i < 0) → (do
      let m ← extractSourceIndices (k0.map s)
      let Xs ← boolIndex (k0.map f) m
      let Xt ← boolIndex (k0.map f) (m.map (!·))
      if Xs.length = 0 then Map.mergeN ⟨dt, tl, Xs⟩ ⟨dt, tl, Xt⟩ (k0.map s)
      else do
        let (W, B) ←
          if F.Xs = Xs then pure (F.W, F.B)
          else do
            let idx ← Xs.mapM (Map.nearest dist F.Xs)
            let W ← take F.W idx
            let B ← take F.B idx
            pure (W, B)
        Map.mergeN ⟨.float, tl, Map.scaleShift W B Xs⟩ ⟨dt, tl, Xt⟩ (k0.map s)) = .ok ⟨dt, tl, k0.map (fun i => Cell.cast dt (f i))⟩ := by
    intro k0 hk0 hneg
    have h1 : k0.filter (fun i => decide (0 ≤ s i)) = [] := List.filter_eq_nil_iff.2 (fun i hi => by simpa using hneg i hi)
    rw [Order.extract_map hk0]
    show (boolIndex (k0.map f) (k0.map (fun i => decide (0 ≤ s i))) >>= _) = _
    rw [Order.boolIndex_rows, h1]
    show (boolIndex (k0.map f) ((k0.map (fun i => decide (0 ≤ s i))).map (!·)) >>= fun Xt => Map.mergeN ⟨dt, tl, []⟩ ⟨dt, tl, Xt⟩ (k0.map s)) = _
    rw [List.map_map]
    have h2 := Order.boolIndex_rows k0 (fun i => !decide (0 ≤ s i)) f
    simp only [Function.comp_def, h2]
    have h3 := Order.mergeN_map hk0 s dt dt tl tl f f
    rw [if_pos h1, h1] at h3
    exact h3
  have e1 := key l (Batch.part_ne hl) ht
  have e2 := key l' hl.ne (fun i hi => ht i (hl.sub i hi))
  intro a ha
  refine ⟨_, e2, ?_⟩
  have := ha.symm.trans e1
  injection this with this
  subst this
  exact ⟨_, rfl, rfl⟩

/-! ### `allow_source` -/

namespace Batch

theorem check_allow {X : List α} {sd : SDArg} {r : List α × List Int} (h : checkXDomain X sd { allowSource := false } = .ok r) :
    checkXDomain X sd { allowSource := true } = .ok r := by
  have h1 : ∀ l, checkFlags { allowSource := true } l = .ok () := fun l => by simp [checkFlags]
  unfold checkXDomain at h ⊢
  split at h
  · cases h
  · rename_i hX
    rw [if_neg hX]
    simp only at h ⊢
    split at h
    · cases h
    · rename_i l hl
      rw [hl]
      simp only [h1]
      split at h
      · cases h
      · rename_i m hm
        split at h
        · cases h
        · rename_i hlen
          rw [if_neg hlen]
          simp only [Bool.false_eq_true, if_false] at h ⊢
          split at h
          · cases h
          · exact h

theorem bind_allow {γ : Type} {X : List α} {sd : SDArg} {f : List α × List Int → Py γ} {r : γ}
    (h : (checkXDomain X sd { allowSource := false } >>= f) = .ok r) : (checkXDomain X sd { allowSource := true } >>= f) = .ok r := by
  cases hc : checkXDomain X sd { allowSource := false } with
  | error e => rw [hc] at h; cases h
  | ok a => rw [check_allow hc]; rw [hc] at h; exact h

theorem mapEst_allow {φ : Type} (wrap : φ → σ) (unwrap : σ → φ) (fit : List α → Option (List Num) → SDArg → Py φ)
    (tr : φ → List α → SDArg → Bool → Py (List α)) (htr : ∀ f X sd r, tr f X sd false = .ok r → tr f X sd true = .ok r) :
    AllowSame (mapEst wrap unwrap fit tr) := by
  intro f X sd r h
  have h1 : Dict.get [("sample_domain", domParam sd)] "sample_domain" = domParam sd := by simp [Dict.get]
  have h2 : Dict.get [("sample_domain", domParam sd)] "allow_source" = .none := rfl
  have h3 : Dict.get [("sample_domain", domParam sd), ("allow_source", .scalar (.fin 1))] "sample_domain" = domParam sd := by simp [Dict.get]
  have h4 : Dict.get [("sample_domain", domParam sd), ("allow_source", .scalar (.fin 1))] "allow_source" = .scalar (.fin 1) := by
    simp [Dict.get, List.lookup]
  have h5 : truthy (.scalar (.fin 1)) = true := by simp [truthy]
  simp only [mapEst, h1, h2, h3, h4, h5, Sides.sdArg_domParam] at h ⊢
  simp only [show truthy .none = false from rfl] at h
  cases ht : tr (unwrap f) X (.vec sd) false with
  | error e => rw [ht] at h; cases h
  | ok a => rw [ht] at h; rw [htr _ _ _ _ ht]; exact h

theorem toRows_allow {K : Type} {p : Nat} {x x' : Py (List (Fin p → K))} (hx : ∀ r, x = .ok r → x' = .ok r) {r : List (List K)}
    (h : Shallow.toRows x = .ok r) : Shallow.toRows x' = .ok r := by
  cases hc : x with
  | error e => rw [hc] at h; cases h
  | ok a => rw [hx a hc]; rw [hc] at h; exact h

theorem rowsOf_allow {x x' : Py (NArr α)} (hx : ∀ r, x = .ok r → x' = .ok r) {r : List α} (h : rowsOf x = .ok r) : rowsOf x' = .ok r := by
  cases hc : x with
  | error e => rw [hc] at h; cases h
  | ok a => rw [hx a hc]; rw [hc] at h; exact h

end Batch

/-- C137 (`allow_source`). The `transform` that reweighting and label propagation inherit: with `allow_source=False` (0) source samples are
refused, with any other number, such as `True` (1), all samples pass. -/
theorem C137_allow_source (X : List α) (sd : List Int) (v : Num) (hX : X ≠ []) (hl : sd.length = X.length) :
    baseTransform X [("sample_domain", domParam sd), ("allow_source", .scalar v)] =
      if v = .fin 0 ∧ ∃ d ∈ sd, 0 ≤ d then .error .valueError else .ok (.arr X) := by
  have h3 : Dict.get [("sample_domain", domParam sd), ("allow_source", .scalar v)] "sample_domain" = domParam sd := by simp [Dict.get]
  have h4 : Dict.get [("sample_domain", domParam sd), ("allow_source", .scalar v)] "allow_source" = .scalar v := by
    simp [Dict.get, List.lookup]
  simp only [baseTransform, h3, h4, Sides.sdArg_domParam, truthy]
  by_cases hs : ∃ d ∈ sd, 0 ≤ d
  · by_cases hv : v = .fin 0
    · rw [if_pos ⟨hv, hs⟩]
      have := Map.check_source_refused hX hl (List.countP_pos_iff.2 (by simpa using hs))
      simp only [hv, ne_eq, not_true_eq_false, decide_false, this]
    · rw [if_neg (fun h => hv h.1)]
      have := (C08_check_domain_code X sd { allowSource := true } hX hl.symm).2 (by simp [Spec.CodeViolates])
      simp only [hv, ne_eq, not_false_eq_true, decide_true, this]
  · rw [if_neg (fun h => hs h.2)]
    have hz : nSource sd = 0 := by
      rw [nSource, List.countP_eq_zero]
      intro d hd
      simp only [decide_eq_true_eq]
      exact fun h => hs ⟨d, hd, h⟩
    rw [Map.check_noSource hX hl hz]

/-- C137 (`allow_source` changes nothing for targets). For every adapter: what it answers without `allow_source`, it answers with it. -/
theorem C137_allow_same {φ : Type} (wrapR : φ → σ) (fit : List α → Option (List Num) → SDArg → Py φ)
    (weights : φ → List α → Option (List Num) → SDArg → Py (List (Option ℚ))) (state : σ)
    (prop : List α → List Int → SDArg → Py (List α × List Int)) :
    AllowSame (reweightEst wrapR fit weights) ∧ AllowSame (Shallow.labelEst state prop) := by
  have key : ∀ (X : List α) (sd : List Int) (r : StepOut α), baseTransform X [("sample_domain", domParam sd)] = .ok r →
      baseTransform X [("sample_domain", domParam sd), ("allow_source", .scalar (.fin 1))] = .ok r := by
    intro X sd r h
    have h1 : Dict.get [("sample_domain", domParam sd)] "sample_domain" = domParam sd := by simp [Dict.get]
    have h2 : Dict.get [("sample_domain", domParam sd)] "allow_source" = .none := rfl
    have h3 : Dict.get [("sample_domain", domParam sd), ("allow_source", .scalar (.fin 1))] "sample_domain" = domParam sd := by simp [Dict.get]
    have h4 : Dict.get [("sample_domain", domParam sd), ("allow_source", .scalar (.fin 1))] "allow_source" = .scalar (.fin 1) := by
      simp [Dict.get, List.lookup]
    have h5 : truthy (.scalar (.fin 1)) = true := by simp [truthy]
    simp only [baseTransform, h1, h2, h3, h4, h5, Sides.sdArg_domParam] at h ⊢
    simp only [show truthy .none = false from rfl] at h
    cases hc : checkXDomain X (.vec sd) { allowSource := false } with
    | error e => rw [hc] at h; cases h
    | ok a => rw [hc] at h; rw [Batch.check_allow hc]; exact h
  exact ⟨fun _ X sd r h => key X sd r h, fun _ X sd r h => key X sd r h⟩

/-- C137 (`allow_source`, mapping adapters). -/
theorem C137_allow_same_mapping {K γ δ : Type} [Field K] [LinearOrder K] {d : Nat} [Cell (List K)]
    (wrapC : Map.Coral K d → σ) (unwrapC : σ → Map.Coral K d) (cov : List (Fin d → K) → Matrix (Fin d) (Fin d) K)
    (sqrtM invsqrtM : Matrix (Fin d) (Fin d) K → Matrix (Fin d) (Fin d) K) (b : Bool)
    (wrapO : (NArr (List Num) → Py (NArr (List Num))) → σ) (unwrapO : σ → NArr (List Num) → Py (NArr (List Num)))
    (ot : NArr (List Num) → Option (List Num) → NArr (List Num) → Option (List Num) → Py (NArr (List Num) → Py (NArr (List Num))))
    (tl : List Nat) (wrapM : List (Int × (List K → List K)) → σ) (unwrapM : σ → List (Int × (List K → List K)))
    (covMean : List (List K) → γ) (bary : List γ → δ) (mapping : γ → δ → List K → List K)
    (wrapL : Map.MmdLs K d ℚ → σ) (unwrapL : σ → Map.MmdLs K d ℚ) (dist : (Fin d → K) → (Fin d → K) → K)
    (opt : List (Fin d → K) → List (Fin d → K) → List ℚ → List (Fin d → K) × List (Fin d → K)) :
    AllowSame (Shallow.coralEst wrapC unwrapC cov sqrtM invsqrtM b) ∧ AllowSame (otEst wrapO unwrapO ot tl) ∧
      AllowSame (Shallow.mongeEst wrapM unwrapM covMean bary mapping d) ∧ AllowSame (Shallow.mmdlsEst wrapL unwrapL dist opt) := by
  refine ⟨Batch.mapEst_allow _ _ _ _ ?_, Batch.mapEst_allow _ _ _ _ ?_, Batch.mapEst_allow _ _ _ _ ?_, Batch.mapEst_allow _ _ _ _ ?_⟩
  · exact fun f X sd r h => Batch.toRows_allow (fun _ h => Batch.rowsOf_allow (fun _ h => Batch.bind_allow h) h) h
  · exact fun f X sd r h => Batch.rowsOf_allow (fun _ h => Batch.bind_allow h) h
  · exact fun f X sd r h => h
  · exact fun f X sd r h => Batch.toRows_allow (fun _ h => Batch.rowsOf_allow (fun _ h => Batch.bind_allow h) h) h

/-- C137 (`allow_source`, subspace adapters). -/
theorem C137_allow_same_subspace {K : Type} [Field K] [LinearOrder K] {d p : Nat}
    (wrapS : (Σ p, Subsp.Pca K d p × Subsp.Pca K d p) → σ) (unwrapS : σ → Σ p, Subsp.Pca K d p × Subsp.Pca K d p)
    (pca : ∀ p, List (Fin d → K) → Subsp.Pca K d p) (n : Option Nat)
    (wrapT : Matrix (Fin d) (Fin p) K → σ) (unwrapT : σ → Matrix (Fin d) (Fin p) K)
    (opt : List (Fin d → K) → List Num → List (Fin d → K) → Matrix (Fin d) (Fin p) K)
    (wrapK : Subsp.Embedding (List K) K p → σ) (unwrapK : σ → Subsp.Embedding (List K) K p)
    (k : List K → List K → K) (eig : List (List K) → Nat → Nat → Py (List (Fin p → K))) :
    AllowSame (Shallow.saEst wrapS unwrapS pca n) ∧ AllowSame (Shallow.tslEst wrapT unwrapT opt) ∧
      AllowSame (Shallow.kernelEst wrapK unwrapK k eig) := by
  refine ⟨Batch.mapEst_allow _ _ _ _ ?_, Batch.mapEst_allow _ _ _ _ ?_, Batch.mapEst_allow _ _ _ _ ?_⟩
  · exact fun f X sd r h => Batch.toRows_allow (fun _ h => Batch.rowsOf_allow (fun _ h => Batch.bind_allow h) h) h
  · exact fun f X sd r h => Batch.toRows_allow (fun _ h => Batch.rowsOf_allow (fun _ h => Batch.bind_allow h) h) h
  · exact fun f X sd r h => Batch.toRows_allow (fun _ h => Batch.bind_allow h) h

/-! ### Examples, and where other samples do matter -/

/-- The fitted steps of the example of C136. -/
def batchDemo : List ((String → Bool) × Step Num ℚ × Fitted ℚ) :=
  List.zipWith (fun st f => (st.1, st.2, f)) orderDemo [.one 15, .perDomain [(-2, -8), (1, -24), (3, -13)]]

/-- The estimator of the examples of C136 treats each sample by itself. -/
theorem sumEst_batchFree (hasTr : Bool) (req : Request) : BatchFree (sumEst hasTr req) :=
  fun _ _ _ _ _ _ hX _ _ _ => Batch.when_ok rfl (Order.rows_map hX _)

example : (∀ st ∈ batchDemo, StepBatch st.2.1) ∧ QueryBatch orderQuery ∧
    take [Num.fin 6, .fin 3] [1, 1, 0] = .ok [Num.fin 3, .fin 3, .fin 6] ∧ take [(1 : Int), -2] [1, 1, 0] = .ok [-2, -2, 1] ∧
    stepsRoute batchDemo (fun _ => true, orderLast, 24) [] orderQuery [.fin 6, .fin 3] none [("sample_domain", domParam [1, -2]), ("allow_source", .scalar (.fin 1))] =
      .ok [39, 20] ∧
    stepsRoute batchDemo (fun _ => true, orderLast, 24) [] orderQuery [.fin 3, .fin 3, .fin 6] none
      [("sample_domain", domParam [-2, -2, 1]), ("allow_source", .scalar (.fin 1))] = .ok [20, 20, 39] := by
  refine ⟨?_, ?_, by decide +kernel, by decide +kernel, by decide +kernel, by decide +kernel⟩
  · intro st hst
    simp only [batchDemo, orderDemo, List.zipWith_cons_cons, List.zipWith_nil_left, List.mem_cons, List.not_mem_nil, or_false] at hst
    rcases hst with rfl | rfl <;> exact sumEst_batchFree _ _
  · exact fun l l' _ f c c' hc => Batch.when_ok rfl (Order.rows_map hc.X _)

/-- A predictor of numbers for the examples. -/
def batchQuery (dt : ℚ → DType) : ℚ → Call Num → Py (QOut Num) :=
  fun f c => .ok (.arr ⟨dt f, [], c.X.map (fun x => .fin (Shallow.labelNum x + f))⟩)

example : ArrayBatch .float [] (batchQuery (fun _ => .float)) ∧
    (Sel.perDomainRoute ⟨sumEst false [], true, true⟩ [] [(-2, 10), (-1, 1 / 2)] (batchQuery (fun _ => .float)) [.fin 3, .fin 4, .fin 5] none
      [("sample_domain", domParam [-2, -1, -2])]) = .ok ⟨.float, [], [.fin 13, .fin (9 / 2), .fin 15]⟩ ∧
    (SST.route ⟨sumEst false [], none, true⟩ false [] [] (10, 1 / 2) (batchQuery (fun _ => .float)) [.fin 3, .fin 4, .fin 5] none
      [("sample_domain", domParam [2, -1, 3])]) = .ok ⟨.float, [], [.fin 13, .fin (9 / 2), .fin 15]⟩ := by
  refine ⟨fun l l' _ f c c' hc => Batch.when_ok rfl ⟨rfl, rfl, rfl, rfl, Order.rows_map hc.X _⟩, by decide +kernel, by decide +kernel⟩

/-- C137 (counterexample: `PerDomain` and types). The predictions are put into an array of the type of the first domain's predictions
(skada/_utils.py:179-206): next to a sample of domain -2, whose predictor answers with integers, the sample 4 of domain -1 gets 4, and
alone 9/2. -/
theorem C137_perDomain_counterexample :
    let query := batchQuery (fun f => if f = 10 then .int else .float)
    let s : Sel Num ℚ := ⟨sumEst false [], true, true⟩
    s.perDomainRoute [] [(-2, 10), (-1, 1 / 2)] query [.fin 3, .fin 4] none [("sample_domain", domParam [-2, -1])] =
      .ok ⟨.int, [], [.fin 13, .fin 4]⟩ ∧
    s.perDomainRoute [] [(-2, 10), (-1, 1 / 2)] query [.fin 4] none [("sample_domain", domParam [-1])] = .ok ⟨.float, [], [.fin (9 / 2)]⟩ := by
  decide +kernel

/-- C137 (counterexample: kernel embeddings). Sample 5 of the training targets gets 10 among the training samples, and 50 alone
(skada/_subspace.py:362-371, 522-532). -/
theorem C137_kernel_counterexample :
    let F : Subsp.Embedding Int ℚ 1 := ⟨[1, 2], [5, 7], [fun _ => 1, fun _ => 1, fun _ => 0, fun _ => 1]⟩
    let k : Int → Int → ℚ := fun x y => x * y
    (Subsp.kernelTransform k F [5, 1, 7, 2] (.vec [-2, 1, -2, 1]) true).map (fun r => r.map (fun v => v 0)) = .ok [10, 20, 50, 70] ∧
    (Subsp.kernelTransform k F [5] (.vec [-2]) true).map (fun r => r.map (fun v => v 0)) = .ok [50] := by
  decide +kernel

/-- Target samples only: the answers are the same in a batch and alone. -/
example : let F : Subsp.Embedding Int ℚ 1 := ⟨[1, 2], [5, 7], [fun _ => 1, fun _ => 1, fun _ => 0, fun _ => 1]⟩
    let k : Int → Int → ℚ := fun x y => x * y
    F.Xs ≠ [] ∧ (Subsp.kernelTransform k F [5, 8] (.vec [-2, -3]) false).map (fun r => r.map (fun v => v 0)) = .ok [50, 80] ∧
    (Subsp.kernelTransform k F [8] (.vec [-3]) false).map (fun r => r.map (fun v => v 0)) = .ok [80] ∧
    (Subsp.kernelTransform k F [5, 8] (.vec [-2, 3]) false).map (fun r => r.map (fun v => v 0)) = .error .valueError := by
  decide +kernel

/-- A fitted transport as asked for in `C137_ot`: a translation. -/
example : let unwrap : ℚ → NArr (List Num) → Py (NArr (List Num)) := fun q A => .ok { A with rows := A.rows.map (List.map (fun x => .fin (Shallow.labelNum x + q))) }
    ∀ f, ∃ t : List Num → List Num, ∀ X, X ≠ [] → unwrap f ⟨.float, [2], X⟩ = .ok ⟨.float, [2], X.map t⟩ :=
  fun f => ⟨List.map (fun x => .fin (Shallow.labelNum x + f)), fun _ _ => rfl⟩

/-- C137 (counterexample: MMD location-scale mapping). Two equal training source samples with labels 0 and 1: asked together the second gets the
mapping of its own class, alone that of the first (skada/_mapping.py:1161-1178). -/
theorem C137_mmdls_counterexample :
    let v : ℚ → Fin 1 → ℚ := fun q _ => q
    let fit : Py (Map.MmdLs ℚ 1 ℚ) := Map.mmdlsFit (fun _ _ _ => ([v 1, v 2], [v 0, v 0])) [v 3, v 3, v 9] [0, 1, 0] (.vec [1, 1, -2])
    let ask : List (Fin 1 → ℚ) → List Int → Py (List ℚ) := fun X sd => do
      let F ← fit
      let r ← Map.mmdlsTransform (fun a b => (a 0 - b 0) * (a 0 - b 0)) F ⟨.float, [1], X⟩ none (.vec sd) true
      return r.rows.map (fun x => x 0)
    ask [v 3, v 3] [1, 1] = .ok [3, 6] ∧ ask [v 3] [1] = .ok [3] := by
  decide +kernel

end Skada

/-
Properties C13, C14 and C58: training and prediction of `PerDomain`.
-/
import Verif.Props.Selectors
import Verif.Props.Outputs

namespace Skada
open Np Spec

variable {α β σ : Type}

/-- Keyword parameters restricted to the rows of domain `d`. -/
def Spec.domainParams (d : Int) (sd : List Int) (p : Dict) : Dict :=
  p.map (fun kv => (kv.1, match kv.2 with
    | .arr r => .arr (domainRows d sd r)
    | v => v))

/-- What belongs to domain `d`. -/
def Spec.domainCall (d : Int) (sd : List Int) (X : List α) (y : Option (List Num)) (p : Dict) : Call α :=
  ⟨domainRows d sd X, y.map (domainRows d sd), domainParams d sd p⟩

/-- Data, labels and parameters have one row per domain label. -/
def Spec.Aligned (sd : List Int) (X : List α) (y : Option (List Num)) (p : Dict) : Prop :=
  X.length = sd.length ∧ (∀ l, y = some l → l.length = sd.length) ∧
    ∀ kv ∈ p, ∃ r, kv.2 = .arr r ∧ r.length = sd.length

theorem take_domainIdx {sd : List Int} {a : List α} (h : a.length = sd.length) (d : Int) :
    take a (domainIdx sd d) = .ok (domainRows d sd a) := by
  unfold domainIdx
  rw [take_flatnonzero (by simpa using h.symm), sel_map]
  rfl

theorem takeParams_domainIdx {sd : List Int} {p : Dict} (h : ∀ kv ∈ p, ∃ r, kv.2 = .arr r ∧ r.length = sd.length)
    (d : Int) : takeParams (domainIdx sd d) p = .ok (domainParams d sd p) := by
  induction p with
  | nil => rfl
  | cons kv p ih =>
    obtain ⟨k, v⟩ := kv
    obtain ⟨r, hr, hl⟩ := h (k, v) (by simp)
    simp only at hr
    subst hr
    unfold takeParams
    simp only [take_domainIdx hl, ih (fun kv hkv => h kv (by simp [hkv]))]
    rfl

theorem takeCall_domainIdx {sd : List Int} {X : List α} {y : Option (List Num)} {p : Dict} (h : Aligned sd X y p)
    (d : Int) : takeCall X y p (domainIdx sd d) = .ok (domainCall d sd X y p) := by
  obtain ⟨h1, h2, h3⟩ := h
  unfold takeCall
  simp only [take_domainIdx h1]
  cases y with
  | none => simp only [takeParams_domainIdx h3]; rfl
  | some l => simp only [take_domainIdx (h2 l rfl), takeParams_domainIdx h3]; rfl

theorem mem_domainIdx {sd : List Int} {d : Int} {i : Nat} : i ∈ domainIdx sd d ↔ sd[i]? = some d := by
  unfold domainIdx
  rw [mem_flatnonzero, List.getElem?_map]
  cases sd[i]? <;> simp

theorem length_domainRows {sd : List Int} {a : List α} (h : a.length = sd.length) (d : Int) :
    (domainRows d sd a).length = (domainIdx sd d).length :=
  ((take_ok_iff.1 (take_domainIdx h d)).length_eq).symm

theorem domainRows_eq_of_written {sd : List Int} {a r : List α} {d : Int} (ha : a.length = sd.length)
    (hr : r.length = (domainIdx sd d).length)
    (h : ∀ (k i : Nat), (domainIdx sd d)[k]? = some i → a[i]? = r[k]?) : domainRows d sd a = r := by
  have h1 := take_domainIdx ha d
  have : take a (domainIdx sd d) = .ok r := by
    rw [take_ok_iff, List.forall₂_iff_get]
    refine ⟨hr.symm, ?_⟩
    intro k hk hk'
    have := h k (domainIdx sd d)[k] (List.getElem?_eq_getElem hk)
    rw [List.getElem?_eq_getElem (l := r) hk'] at this
    simpa using this
  rw [this] at h1
  simpa using h1.symm

theorem ext_of_domainRows {sd : List Int} {a b : List α} (ha : a.length = sd.length) (hb : b.length = sd.length)
    (h : ∀ d ∈ sd, domainRows d sd a = domainRows d sd b) : a = b := by
  apply List.ext_getElem?
  intro i
  by_cases hi : i < sd.length
  · have hd : sd[i] ∈ sd := List.getElem_mem hi
    have h1 := take_ok_iff.1 (take_domainIdx ha sd[i])
    have h2 := take_ok_iff.1 (take_domainIdx hb sd[i])
    rw [h _ hd] at h1
    have hm : i ∈ domainIdx sd sd[i] := mem_domainIdx.2 (List.getElem?_eq_getElem hi)
    obtain ⟨k, hk, hki⟩ := List.getElem_of_mem hm
    have e1 := (List.forall₂_iff_get.1 h1).2 k hk (by rw [← h1.length_eq]; exact hk)
    have e2 := (List.forall₂_iff_get.1 h2).2 k hk (by rw [← h2.length_eq]; exact hk)
    simp only [List.get_eq_getElem, hki] at e1 e2
    rw [e1, e2]
  · rw [List.getElem?_eq_none (by omega), List.getElem?_eq_none (by omega)]

/-! ### C13 -/

theorem perDomainOutputs_ok {ests : List (Int × σ)} {query : σ → Call α → Py (QOut β)} {X : List α}
    {y : Option (List Num)} {routed : Dict} {sd : List Int} (hal : Aligned sd X y routed) (out : Int → QOut β)
    (ds : List Int) (h : ∀ d ∈ ds, ∃ e, ests.lookup d = some e ∧ query e (domainCall d sd X y routed) = .ok (out d)) :
    perDomainOutputs ests query X y routed sd ds = .ok (ds.map (fun d => (domainIdx sd d, out d))) := by
  induction ds with
  | nil => rfl
  | cons d ds ih =>
    obtain ⟨e, he, hq⟩ := h d (by simp)
    unfold perDomainOutputs
    simp only [he, takeCall_domainIdx hal, hq, ih (fun d hd => h d (by simp [hd]))]
    rfl

theorem mergeQOuts_arr [Cell β] (n : Nat) (outs : List (List Nat × NArr β)) :
    mergeQOuts n (outs.map (fun o => (o.1, QOut.arr o.2))) = mergeOutputs n outs := by
  unfold mergeQOuts
  have : (outs.map (fun o => (o.1, QOut.arr o.2))).mapM QOut.asArr = .ok outs := by
    induction outs with
    | nil => rfl
    | cons o outs ih => rw [List.map_cons, List.mapM_cons, ih]; rfl
  rw [this]

/-- Merging one array per domain of the batch: the rows of each domain are at their positions. -/
theorem merge_domains [Cell β] {sd : List Int} {X : List α} (hX : X.length = sd.length) (hne : sd ≠ []) (dt : DType)
    (tl : List Nat) (out : Int → List β)
    (hout : ∀ d ∈ sd, (out d).length = (domainRows d sd X).length ∧ ∀ r ∈ out d, Cell.cast dt r = r) :
    ∃ rows, mergeOutputs X.length ((unique sd).map (fun d => (domainIdx sd d, (⟨dt, tl, out d⟩ : NArr β))))
        = .ok ⟨dt, tl, rows⟩ ∧ rows.length = X.length ∧ ∀ d ∈ sd, domainRows d sd rows = out d := by
  let outs : List (List Nat × NArr β) := (unique sd).map (fun d => (domainIdx sd d, ⟨dt, tl, out d⟩))
  have hfit : Fit X.length dt tl outs := by
    intro p hp
    obtain ⟨d, hd, rfl⟩ := List.mem_map.1 hp
    rw [mem_unique] at hd
    refine ⟨?_, ?_, rfl, rfl, (hout d hd).2⟩
    · intro i hi
      rw [hX]
      exact (List.getElem?_eq_some_iff.1 (mem_domainIdx.1 hi)).1
    · exact (hout d hd).1.trans (length_domainRows hX d)
  have hdis : (outs.flatMap Prod.fst).Nodup := by
    rw [List.nodup_flatMap]
    refine ⟨?_, ?_⟩
    · intro p hp
      obtain ⟨d, -, rfl⟩ := List.mem_map.1 hp
      exact nodup_flatnonzero _
    · rw [List.pairwise_map]
      refine (nodup_unique sd).imp ?_
      intro a b hab
      rw [Function.onFun, List.disjoint_left]
      intro i hi hj
      rw [mem_domainIdx] at hi hj
      rw [hi] at hj
      exact hab (by simpa using hj)
  have hne' : outs ≠ [] := by
    simp only [outs, ne_eq, List.map_eq_nil_iff, unique_eq_nil]
    exact hne
  obtain ⟨rows, hrows, hsc⟩ := C10_scatter_partial X.length dt tl outs hne' hfit hdis
  refine ⟨rows, hrows, hsc.length, ?_⟩
  intro d hd
  apply domainRows_eq_of_written (by rw [hsc.length, hX])
    ((hout d hd).1.trans (length_domainRows hX d))
  intro k i hki
  exact hsc.written (domainIdx sd d, out d)
    (List.mem_map.2 ⟨(domainIdx sd d, ⟨dt, tl, out d⟩), List.mem_map.2 ⟨d, mem_unique.2 hd, rfl⟩, rfl⟩) k i hki

/-- Rows whose parts are made from the domains of `X` one by one are made from `X` row by row. -/
theorem rows_of_domains {sd : List Int} {X : List α} (hX : X.length = sd.length) (m : Int → α → β) {rows : List β}
    (hl : rows.length = sd.length) (h : ∀ d ∈ sd, domainRows d sd rows = (domainRows d sd X).map (m d)) :
    rows = List.zipWith m sd X := by
  apply ext_of_domainRows (sd := sd) hl (by simp [hX])
  intro d hd
  rw [h d hd]
  clear h hl hd rows
  induction sd generalizing X with
  | nil => simp [domainRows]
  | cons e sd ih =>
    cases X with
    | nil => simp at hX
    | cons x X =>
      have := ih (X := X) (by simpa using hX)
      unfold domainRows at this ⊢
      simp only [List.zip_cons_cons, List.filter_cons, List.zipWith_cons_cons]
      by_cases h : e = d
      · subst h; simp [this]
      · simp [h, this]

/-- C13. A fitted `PerDomain` selector asks, for every domain of the batch, the estimator fitted for that domain, with
the rows of that domain only, and puts its answers at the positions of these rows (estimators return one row per
sample, with a common dtype and row shape). -/
theorem C13_routing [Cell β] (s : Sel α σ) (req : Request) (ests : List (Int × σ))
    (query : σ → Call α → Py (QOut β)) (X : List α) (y : Option (List Num)) (params routed : Dict) (sd : List Int)
    (hsd : params.lookup "sample_domain" = some (domParam sd)) (hne : sd ≠ [])
    (hroute : prepareRouting s.final s.est.hasTransform req params = .ok routed)
    (hal : Aligned sd X y routed) (dt : DType) (tl : List Nat) (out : Int → List β)
    (hq : ∀ d ∈ sd, ∃ e, ests.lookup d = some e ∧
      query e (domainCall d sd X y routed) = .ok (.arr ⟨dt, tl, out d⟩))
    (hout : ∀ d ∈ sd, (out d).length = (domainRows d sd X).length ∧ ∀ r ∈ out d, Cell.cast dt r = r) :
    ∃ rows, s.perDomainRoute req ests query X y params = .ok ⟨dt, tl, rows⟩ ∧ rows.length = X.length ∧
      ∀ d ∈ sd, domainRows d sd rows = out d := by
  obtain ⟨rows, hrows, hlen, hdom⟩ := merge_domains hal.1 hne dt tl out hout
  refine ⟨rows, ?_, hlen, hdom⟩
  unfold Sel.perDomainRoute
  simp only [hroute, has_of_lookup hsd, Bool.not_true, Bool.false_eq_true, if_false, get_eq_of_lookup hsd,
    domainsOf_domParam]
  rw [perDomainOutputs_ok hal (fun d => .arr ⟨dt, tl, out d⟩) _ (fun d hd => hq d (mem_unique.1 hd))]
  simp only
  rw [← hrows, ← mergeQOuts_arr, List.map_map]
  rfl

/-- C13 (row by row). If the estimators answer each row on its own, the answer for row `i` is the answer of the
estimator of the domain of row `i`. -/
theorem C13_rowwise [Cell β] (s : Sel α σ) (req : Request) (est : Int → σ) (domains : List Int)
    (query : σ → Call α → Py (QOut β)) (X : List α) (params routed : Dict) (sd : List Int)
    (hsd : params.lookup "sample_domain" = some (domParam sd)) (hne : sd ≠ []) (hseen : ∀ d ∈ sd, d ∈ domains)
    (hroute : prepareRouting s.final s.est.hasTransform req params = .ok routed)
    (hal : Aligned sd X none routed) (dt : DType) (tl : List Nat) (f : σ → α → β)
    (hq : ∀ e c, query e c = .ok (.arr ⟨dt, tl, c.X.map (f e)⟩)) (hf : ∀ e x, Cell.cast dt (f e x) = f e x) :
    s.perDomainRoute req (domains.map (fun d => (d, est d))) query X none params
      = .ok ⟨dt, tl, List.zipWith (fun d x => f (est d) x) sd X⟩ := by
  obtain ⟨rows, h1, h2, h3⟩ := C13_routing s req (domains.map (fun d => (d, est d))) query X none params routed sd hsd hne
    hroute hal dt tl (fun d => (domainRows d sd X).map (f (est d)))
    (fun d hd => ⟨est d, by
        have := hseen d hd
        clear hseen
        induction domains with
        | nil => simp at this
        | cons a l ih =>
          rw [List.map_cons, List.lookup_cons]
          by_cases h : d = a
          · subst h; simp
          · rw [beq_false_of_ne h]
            exact ih (by simpa [h] using this), hq _ _⟩)
    (fun d hd => ⟨by simp, by
      intro r hr
      obtain ⟨x, -, rfl⟩ := List.mem_map.1 hr
      exact hf _ _⟩)
  rw [h1]
  have hX := hal.1
  rw [rows_of_domains hX (fun d x => f (est d) x) (by rw [h2, hX]) h3]

/-- C13 (unseen domains). A batch with a row of a domain that was not seen in `fit` is never answered; if the
estimators themselves do not fail, the exception is `ValueError`. -/
theorem C13_unseen [Cell β] (s : Sel α σ) (req : Request) (ests : List (Int × σ))
    (query : σ → Call α → Py (QOut β)) (X : List α) (y : Option (List Num)) (params : Dict) (sd : List Int)
    (hsd : params.lookup "sample_domain" = some (domParam sd))
    (hun : ∃ d ∈ sd, ests.lookup d = none) :
    (∀ r, s.perDomainRoute req ests query X y params ≠ .ok r) ∧
    (∀ routed, prepareRouting s.final s.est.hasTransform req params = .ok routed → Aligned sd X y routed →
      (∀ e c, ∃ o, query e c = .ok o) → s.perDomainRoute req ests query X y params = .error .valueError) := by
  obtain ⟨d0, hd0, hno⟩ := hun
  have key : ∀ routed ds, d0 ∈ ds → ∀ r, perDomainOutputs ests query X y routed sd ds ≠ .ok r := by
    intro routed ds hmem
    induction ds with
    | nil => simp at hmem
    | cons d ds ih =>
      intro r hr
      unfold perDomainOutputs at hr
      rcases List.mem_cons.1 hmem with rfl | hmem'
      · rw [hno] at hr; cases hr
      · split at hr
        · cases hr
        · split at hr
          · cases hr
          · split at hr
            · cases hr
            · split at hr
              · cases hr
              · rename_i r' hr'
                exact ih hmem' r' hr'
  have key2 : ∀ routed ds, d0 ∈ ds → Aligned sd X y routed → (∀ e c, ∃ o, query e c = .ok o) →
      perDomainOutputs ests query X y routed sd ds = .error .valueError := by
    intro routed ds hmem hal htot
    induction ds with
    | nil => simp at hmem
    | cons d ds ih =>
      unfold perDomainOutputs
      cases he : ests.lookup d with
      | none => rfl
      | some e =>
        obtain ⟨o, ho⟩ := htot e (domainCall d sd X y routed)
        simp only [takeCall_domainIdx hal, ho]
        rcases List.mem_cons.1 hmem with rfl | hmem'
        · rw [hno] at he; cases he
        · rw [ih hmem']
  constructor
  · intro r hr
    unfold Sel.perDomainRoute at hr
    split at hr
    · cases hr
    · rename_i routed hroute
      simp only [has_of_lookup hsd, Bool.not_true, Bool.false_eq_true, if_false, get_eq_of_lookup hsd,
        domainsOf_domParam] at hr
      split at hr
      · cases hr
      · rename_i outs ho
        exact key routed _ (mem_unique.2 hd0) outs ho
  · intro routed hroute hal htot
    unfold Sel.perDomainRoute
    simp only [hroute, has_of_lookup hsd, Bool.not_true, Bool.false_eq_true, if_false, get_eq_of_lookup hsd,
      domainsOf_domParam]
    rw [key2 routed _ (mem_unique.2 hd0) hal htot]

/-- A three-domain batch in mixed order; the estimator of domain `d` adds `d`. -/
example : (⟨exEst false [], true, true⟩ : Sel Num (Option (List Num))).perDomainRoute [] [(1, some [.fin 1]), (-3, some [.fin (-3)]), (2, none)]
      (fun (e : Option (List Num)) c => .ok (.arr ⟨.float, [], c.X.map (fun x => match e, x with
        | some [Num.fin b], Num.fin a => Num.fin (a + b)
        | _, x => x)⟩))
      [.fin 10, .fin 11, .fin 12, .fin 13] none [("sample_domain", domParam [-3, 1, 2, -3])]
    = .ok ⟨.float, [], [.fin 7, .fin 12, .fin 12, .fin 10]⟩ := by decide +kernel

/-- Domain `5` was not seen. -/
example : (⟨exEst false [], true, true⟩ : Sel Num (Option (List Num))).perDomainRoute [] [(1, none)]
      (fun _ c => .ok (.arr ⟨.float, [], c.X⟩)) [.fin 10, .fin 11] none [("sample_domain", domParam [1, 5])]
    = .error .valueError := by decide +kernel

/-! ### C14 -/

/-- No label is a mask: class labels other than `-1`, or finite regression targets. -/
def Spec.NoneMasked (l : List Num) : Prop :=
  (∀ v ∈ l, IsInt v ∧ v ≠ .fin (-1)) ∨ ((∀ v ∈ l, ∃ q, v = .fin q) ∧ ∃ v ∈ l, ¬ IsInt v)

/-- Some label is a mask: `-1` among class labels, or NaN among regression targets. -/
def Spec.SomeMasked (l : List Num) : Prop :=
  ((∀ v ∈ l, IsInt v) ∧ .fin (-1) ∈ l) ∨ ((∀ v ∈ l, v ≠ .pinf ∧ v ≠ .ninf) ∧ .nan ∈ l)

theorem sel_all_true (X : List α) {m : List Bool} (hl : m.length = X.length) (h : ∀ b ∈ m, b = true) : sel m X = X := by
  induction m generalizing X with
  | nil => cases X with
    | nil => rfl
    | cons _ _ => simp at hl
  | cons b m ih =>
    cases X with
    | nil => simp at hl
    | cons x X =>
      have := h b (by simp)
      subst this
      simp [sel, ih X (by simpa using hl) (fun b hb => h b (by simp [hb]))]

theorem removeMasked_none {X : List α} {l : List Num} {p : Dict} (hX : X.length = l.length) (h : NoneMasked l) :
    Skada.removeMasked X l p = .ok (X, l, p) := by
  have key : ∃ t, findYType l = .ok t ∧ ∀ b ∈ unmaskedOf t l, b = true := by
    rcases h with h | ⟨h, hn⟩
    · refine ⟨.discrete, findYType_int (fun v hv => (h v hv).1), ?_⟩
      intro b hb
      obtain ⟨v, hv, rfl⟩ := List.mem_map.1 hb
      obtain ⟨⟨z, rfl⟩, h2⟩ := h v hv
      simpa [Num.eqNegOne] using h2
    · refine ⟨.continuous, findYType_cont (fun v hv => ?_) hn, ?_⟩
      · obtain ⟨q, rfl⟩ := h v hv; simp
      · intro b hb
        obtain ⟨v, hv, rfl⟩ := List.mem_map.1 hb
        obtain ⟨q, rfl⟩ := h v hv
        rfl
  obtain ⟨t, ht, hall⟩ := key
  have hlen : (unmaskedOf t l).length = l.length := by cases t <;> simp [unmaskedOf]
  unfold Skada.removeMasked
  simp only [ht]
  rw [applyDomainMasks_sel (by rw [hlen, hX]) (by rintro _ ⟨⟩; exact hlen.symm)]
  simp only [Option.map_some, sel_all_true X (by rw [hlen, hX]) hall, sel_all_true l hlen hall]
  congr 3
  conv_rhs => rw [← List.map_id p]
  apply List.map_congr_left
  rintro ⟨k, v⟩ _
  cases v with
  | arr r =>
    simp only [id_eq, maskParam]
    split
    · rename_i hr; rw [sel_all_true r hr.symm hall]
    · rfl
  | scalar _ => rfl
  | none => rfl

theorem removeMasked_some {X X' : List α} {l l' : List Num} {p p' : Dict} (h : SomeMasked l)
    (hr : Skada.removeMasked X l p = .ok (X', l', p')) : X'.length < X.length := by
  have key : ∃ t, findYType l = .ok t ∧ false ∈ unmaskedOf t l := by
    rcases h with ⟨h, hm⟩ | ⟨h, hm⟩
    · refine ⟨.discrete, findYType_int h, List.mem_map.2 ⟨_, hm, ?_⟩⟩
      simp [Num.eqNegOne]
    · refine ⟨.continuous, findYType_cont h ⟨.nan, hm, ?_⟩, List.mem_map.2 ⟨_, hm, rfl⟩⟩
      rintro ⟨z, hz⟩
      cases hz
  obtain ⟨t, ht, hf⟩ := key
  unfold Skada.removeMasked at hr
  simp only [ht] at hr
  by_cases hX : X.length = (unmaskedOf t l).length
  · rw [applyDomainMasks_sel hX (by rintro _ ⟨⟩; cases t <;> simp [unmaskedOf])] at hr
    simp only [Option.map_some, Except.ok.injEq, Prod.mk.injEq] at hr
    rw [← hr.1, length_sel hX.symm, hX]
    rw [List.count_lt_length_iff]
    exact ⟨false, hf, by simp⟩
  · rw [applyDomainMasks_error hX] at hr
    cases hr

theorem perDomainLoop_calls {s : Sel α σ} {m : Method} {X : List α} {y : Option (List Num)} {routed : Dict}
    {sd : List Int} (hal : Aligned sd X y routed) (ds : List Int) :
    (s.perDomainLoop m X y routed sd ds).1 <+: ds.map (fun d => domainCall d sd X y routed) ∧
    ∀ r, (s.perDomainLoop m X y routed sd ds).2 = .ok r →
      (s.perDomainLoop m X y routed sd ds).1 = ds.map (fun d => domainCall d sd X y routed) ∧
      List.Forall₂ (fun d o => o.1 = d ∧ o.2.1 = domainIdx sd d ∧
        s.est.invoke m (domainCall d sd X y routed) = .ok (o.2.2.1, o.2.2.2)) ds r := by
  induction ds with
  | nil =>
    refine ⟨by simp [Sel.perDomainLoop], ?_⟩
    intro r hr
    simp only [Sel.perDomainLoop, Except.ok.injEq] at hr
    subst hr
    exact ⟨rfl, .nil⟩
  | cons d ds ih =>
    unfold Sel.perDomainLoop
    simp only [takeCall_domainIdx hal]
    cases hi : s.est.invoke m (domainCall d sd X y routed) with
    | error e =>
      simp only
      exact ⟨by simp [List.cons_prefix_cons], by intro r hr; cases hr⟩
    | ok o =>
      obtain ⟨f, out⟩ := o
      simp only
      generalize s.perDomainLoop m X y routed sd ds = run at ih
      obtain ⟨calls, res⟩ := run
      cases res with
      | error e =>
        simp only at ih ⊢
        refine ⟨by simpa [List.cons_prefix_cons] using ih.1, by intro r hr; cases hr⟩
      | ok r' =>
        simp only at ih ⊢
        refine ⟨by simpa [List.cons_prefix_cons] using ih.1, ?_⟩
        intro r hr
        obtain ⟨h1, h2⟩ := ih.2 r' rfl
        simp only [Except.ok.injEq] at hr
        subst hr
        exact ⟨by rw [h1]; rfl, .cons ⟨rfl, rfl, hi⟩ h2⟩

/-- C14, partial: the cases in which `PerDomain._fit` does not drop rows — the base estimator is a transformer, or it
asks for `sample_domain`, or no label is masked.  Then each domain's estimator is given exactly the rows, labels and
parameters of its domain, in order of the domain labels.  In the remaining case fitting fails, see `C14_counterexample`. -/
theorem C14_fit_partial (s : Sel α σ) (m : Method) (X : List α) (y y' : Option (List Num)) (params routed : Dict)
    (sd : List Int) (hsd : params.lookup "sample_domain" = some (domParam sd))
    (hmask : s.ownMask y params = .ok y')
    (hroute : prepareRouting s.final s.est.hasTransform (s.est.request m) params = .ok routed)
    (hal : Aligned sd X y' routed)
    (hkeep : s.est.hasTransform = true ∨ routed.has "sample_domain" = true ∨ ∀ l, y' = some l → NoneMasked l) :
    let run := s.perDomainFit m (Cont.fromInput (.array X)) y params
    run.1 <+: (unique sd).map (fun d => domainCall d sd X y' routed) ∧
    ∀ r, run.2 = .ok r → run.1 = (unique sd).map (fun d => domainCall d sd X y' routed) ∧ r.2 = y' ∧
      List.Forall₂ (fun d o => o.1 = d ∧ o.2.1 = domainIdx sd d ∧
        s.est.invoke m (domainCall d sd X y' routed) = .ok (o.2.2.1, o.2.2.2)) (unique sd) r.1 := by
  have hcall : s.routedCall m X y' params = .ok ⟨X, y', routed⟩ := by
    unfold Sel.routedCall
    simp only [hroute]
    unfold Sel.removeMasked
    cases y' with
    | none => rfl
    | some l =>
      simp only
      rcases hkeep with h | h | h
      · simp [h]
      · simp [h]
      · rw [removeMasked_none (by rw [hal.1, hal.2.1 l rfl]) (h l rfl)]
        simp
  have hrun : s.perDomainFit m (Cont.fromInput (.array X)) y params
      = ((s.perDomainLoop m X y' routed sd (unique sd)).1,
         match (s.perDomainLoop m X y' routed sd (unique sd)).2 with
          | .error e => .error e
          | .ok r => .ok (r, y')) := by
    unfold Sel.perDomainFit
    simp only [hmask, Cont.fromInput, Cont.mergeOut, update_nil, has_of_lookup hsd, Bool.not_true, Bool.false_eq_true,
      if_false, get_eq_of_lookup hsd, domainsOf_domParam, hcall]
    generalize s.perDomainLoop m X y' routed sd (unique sd) = q
    obtain ⟨calls, res⟩ := q
    cases res <;> rfl
  obtain ⟨h1, h2⟩ := perDomainLoop_calls (s := s) (m := m) hal (unique sd)
  simp only [hrun]
  refine ⟨h1, ?_⟩
  intro r hr
  cases hres : (s.perDomainLoop m X y' routed sd (unique sd)).2 with
  | error e => simp [hres] at hr
  | ok r' =>
    simp only [hres, Except.ok.injEq] at hr
    subst hr
    obtain ⟨h3, h4⟩ := h2 r' hres
    exact ⟨h3, rfl, h4⟩

/-- C14 is false whenever a masked label is dropped: the rows are removed from the data but not from `sample_domain`
(skada/base.py:471-478), so the positions of the last row's domain reach beyond the data, and `fit` never
returns.  This is the situation of every classifier or regressor in a `PerDomain` with default settings, fitted
on data with target rows. -/
theorem C14_counterexample (s : Sel α σ) (m : Method) (X : List α) (y : Option (List Num)) (l : List Num)
    (params routed : Dict) (sd : List Int) (hsd : params.lookup "sample_domain" = some (domParam sd))
    (hmask : s.ownMask y params = .ok (some l))
    (hroute : prepareRouting s.final s.est.hasTransform (s.est.request m) params = .ok routed)
    (hX : X.length = sd.length) (htr : s.est.hasTransform = false)
    (hno : routed.has "sample_domain" = false) (hsome : SomeMasked l) :
    ∀ r, (s.perDomainFit m (Cont.fromInput (.array X)) y params).2 ≠ .ok r := by
  intro r hr
  unfold Sel.perDomainFit at hr
  rw [htr] at hroute
  simp only [hmask, Cont.fromInput, Cont.mergeOut, update_nil, has_of_lookup hsd, Bool.not_true, Bool.false_eq_true,
    if_false, get_eq_of_lookup hsd, domainsOf_domParam, Sel.routedCall, hroute, Sel.removeMasked, htr, hno,
    Bool.or_self] at hr
  cases hrm : Skada.removeMasked X l routed with
  | error e => simp [hrm] at hr
  | ok v =>
    obtain ⟨X', l', p'⟩ := v
    have hlt := removeMasked_some hsome hrm
    simp only [hrm] at hr
    have hpos : 0 < sd.length := by omega
    have hlast : sd[sd.length - 1]? = some (sd[sd.length - 1]'(by omega)) := List.getElem?_eq_getElem (by omega)
    generalize sd[sd.length - 1]'(by omega) = d0 at hlast
    have key : ∀ ds, d0 ∈ ds → ∀ r, (s.perDomainLoop m X' (some l') p' sd ds).2 ≠ .ok r := by
      intro ds hmem
      induction ds with
      | nil => simp at hmem
      | cons d ds ih =>
        intro r hr
        unfold Sel.perDomainLoop at hr
        split at hr
        · cases hr
        · rename_i call hc
          split at hr
          · cases hr
          · split at hr
            · cases hr
            · rename_i calls r' heq
              rcases List.mem_cons.1 hmem with rfl | hmem'
              · unfold takeCall at hc
                rw [take_error ⟨sd.length - 1, mem_domainIdx.2 hlast, by omega⟩] at hc
                cases hc
              · exact ih hmem' r' (by rw [heq])
    split at hr
    · cases hr
    · rename_i calls r' heq
      exact key _ (mem_unique.2 (List.mem_of_getElem? hlast)) r' (by rw [heq])

/-- Fitting per domain without masks. -/
example : ((⟨exEst false [], true, true⟩ : Sel Num (Option (List Num))).perDomainFit .fit
      (Cont.fromInput (.array [.fin 10, .fin 11, .fin 12])) (some [.fin 0, .fin 1, .fin 2])
      [("sample_domain", domParam [2, 1, 2])]).1.map (fun c => (c.X, c.y))
    = [([.fin 11], some [.fin 1]), ([.fin 10, .fin 12], some [.fin 0, .fin 2])] := by decide +kernel

/-- The default settings with one target row: `IndexError`, after the target estimator was fitted on a *source* row. -/
example :
    let run := (Sel.perDomainFit (⟨exEst false [], true, true⟩ : Sel Num (Option (List Num))) .fit
      (Cont.fromInput (.array [.fin 10, .fin 11, .fin 12])) (some [.fin 0, .fin 1, .fin 2])
      [("sample_domain", domParam [-2, 1, 1])])
    run.1.map (fun c => (c.X, c.y)) = [([.fin 11], some [.fin 1])] ∧ run.2.map Prod.snd = .error .indexError := by
  decide +kernel

/-! ### C58 -/

/-- C58 is false for `PerDomain`: no call of `score` (a method that returns numbers) ever returns, because the
per-domain numbers are merged like arrays. -/
theorem C58_counterexample_per_domain [Cell β] (s : Sel α σ) (req : Request) (ests : List (Int × σ))
    (query : σ → Call α → Py (QOut β)) (X : List α) (y : Option (List Num)) (params : Dict)
    (hnum : ∀ e c v, query e c = .ok v → ∃ q, v = .number q) :
    ∀ r, s.perDomainRoute req ests query X y params ≠ .ok r := by
  intro r hr
  unfold Sel.perDomainRoute at hr
  split at hr
  · cases hr
  · split at hr
    · cases hr
    · split at hr
      · cases hr
      · rename_i sd hsd
        split at hr
        · cases hr
        · rename_i routed _ _ _ _ outs houts
          cases hu : unique sd with
          | nil =>
            rw [hu] at houts
            simp only [perDomainOutputs, Except.ok.injEq] at houts
            subst houts
            cases hr
          | cons d ds =>
            rw [hu] at houts
            unfold perDomainOutputs at houts
            split at houts
            · cases houts
            · split at houts
              · cases houts
              · split at houts
                · cases houts
                · rename_i v hv
                  split at houts
                  · cases houts
                  · simp only [Except.ok.injEq] at houts
                    obtain ⟨q, rfl⟩ := hnum _ _ _ hv
                    subst houts
                    unfold mergeQOuts at hr
                    rw [List.mapM_cons] at hr
                    cases hr

end Skada

/-
C102: the memory and the pseudo-labels of SPA.  C103: `predict_proba` of a net.  C104: lists of callbacks given to `CAN` and `SPA`.
-/
import Verif.Model.DeepNet
import Verif.Props.DeepDataset
import Verif.Props.DeepNap
import Verif.Props.DeepTrain

namespace Skada
open Np Spec Deep

/-! ### C103: probabilities -/

namespace Spec

/-- A probability vector with positive entries. -/
def IsProb (r : List ℝ) : Prop := (∀ p ∈ r, 0 < p) ∧ r.sum = 1

/-- The rows of the data set a prediction is about: all rows, or the target rows. -/
def asked {K α : Type} (allow : Bool) (l : List (Rec K α Int)) : List (Rec K α Int) := l.filter (fun r => allow || decide (r.d < 0))

end Spec

section Proba
variable {α : Type}

theorem predictRows_ok {K : Type} {noLabel : Int} {s : DS K α Int} {l : List (Rec K α Int)} (Hs : Holds noLabel s l) (allow : Bool) :
    ∃ t, predictRows noLabel s allow = .ok t ∧ t.X = (asked allow l).map Rec.x := by
  cases allow with
  | true => exact ⟨s, rfl, by simp [asked, Hs.X]⟩
  | false =>
    obtain ⟨t, h, Ht⟩ := selectMask_ok Hs (fun r => decide (r.d < 0)) true
    refine ⟨t, ?_, by simpa [asked] using Ht.X⟩
    unfold predictRows selectTarget
    rw [Hs.sd, List.map_map]
    exact h

theorem softmaxRow_sum_pos (r : List ℝ) (h : r ≠ []) : 0 < (r.map Real.exp).sum :=
  List.sum_pos _ (fun x hx => by obtain ⟨v, -, rfl⟩ := List.mem_map.1 hx; exact Real.exp_pos v) (by simpa using h)

theorem softmaxRow_prob (r : List ℝ) (h : r ≠ []) : IsProb (softmaxRow Real.exp r) := by
  have hs := softmaxRow_sum_pos r h
  constructor
  · intro p hp
    obtain ⟨v, -, rfl⟩ := List.mem_map.1 hp
    exact div_pos (Real.exp_pos v) hs
  · have : softmaxRow Real.exp r = (r.map Real.exp).map (fun x => x / (r.map Real.exp).sum) := by
      unfold softmaxRow; rw [List.map_map]; rfl
    rw [this]
    simp only [div_eq_mul_inv]
    rw [List.sum_map_mul_right, List.map_id', mul_inv_cancel₀ hs.ne']

theorem softmaxRow_lt (r : List ℝ) (h : r ≠ []) (a b : ℝ) : Real.exp a / (r.map Real.exp).sum < Real.exp b / (r.map Real.exp).sum ↔ a < b := by
  rw [div_lt_div_iff_of_pos_right (softmaxRow_sum_pos r h), Real.exp_lt_exp]

theorem softmaxRow_isClass (r : List ℝ) (c : Nat) : IsClass (softmaxRow Real.exp r) c ↔ IsClass r c := by
  by_cases h : r = []
  · subst h; rfl
  have hlt := softmaxRow_lt r h
  have hget : ∀ j : Nat, (softmaxRow Real.exp r)[j]? = r[j]?.map (fun v => Real.exp v / (r.map Real.exp).sum) := fun j => by simp [softmaxRow]
  constructor
  · rintro ⟨v, h1, h2, h3⟩
    rw [hget] at h1
    obtain ⟨u, hu, rfl⟩ := Option.map_eq_some_iff.1 h1
    refine ⟨u, hu, fun w hw => ?_, fun j w hj hw => ?_⟩
    · have := h2 _ (List.mem_map.2 ⟨w, hw, rfl⟩)
      by_contra hcon
      exact absurd this (not_le.2 ((hlt _ _).2 (not_le.1 hcon)))
    · exact (hlt _ _).1 (h3 j _ hj (by rw [hget, hw]; rfl))
  · rintro ⟨v, h1, h2, h3⟩
    refine ⟨_, by rw [hget, h1]; rfl, fun w hw => ?_, fun j w hj hw => ?_⟩
    · obtain ⟨u, hu, rfl⟩ := List.mem_map.1 hw
      have := h2 u hu
      by_contra hcon
      exact absurd ((hlt _ _).1 (not_le.1 hcon)) (not_lt.2 this)
    · rw [hget] at hw
      obtain ⟨u, hu, rfl⟩ := Option.map_eq_some_iff.1 hw
      exact (hlt _ _).2 (h3 j u hj hu)

theorem isClass_unique {K : Type} [Field K] [LinearOrder K] {r : List K} {a b : Nat} (ha : IsClass r a) (hb : IsClass r b) : a = b := by
  obtain ⟨v, h1, h2, h3⟩ := ha
  obtain ⟨w, g1, g2, g3⟩ := hb
  rcases Nat.lt_trichotomy a b with h | h | h
  · exact absurd (g3 a v h h1) (not_lt.2 (h2 w (List.mem_of_getElem? g1)))
  · exact h
  · exact absurd (h3 b w h g1) (not_lt.2 (g2 v (List.mem_of_getElem? h1)))

theorem flatMap_chunks_map {β γ : Type} (f : β → γ) (b : Nat) (hb : 0 < b) (l : List β) :
    (chunks b l.length l).flatMap (fun c => c.map f) = l.map f := by
  rw [List.flatMap_def, ← List.map_flatten, chunks_flatten b hb _ _ le_rfl]

/-- The result of `predict_proba` when the non-linearity works row by row. -/
theorem netProba_rows {K : Type} [Field K] (ex : K → K) (criteria : Nat) (crit : CritKind) (arg : NonlinArg K) (g : List K → List K)
    (hg : getNonlin ex criteria crit arg = .ok (List.map g)) (b : Nat) (hb : 0 < b) {noLabel : Int} (net : α → List K) {s : DS K α Int}
    {l : List (Rec K α Int)} (Hs : Holds noLabel s l) (allow : Bool) :
    netProba ex criteria crit arg b noLabel net s allow =
      if asked allow l = [] then .error .valueError else .ok ((asked allow l).map (fun r => g (net r.x))) := by
  obtain ⟨t, h, ht⟩ := predictRows_ok Hs allow
  unfold netProba
  rw [h, hg]
  simp only [ok_bind, ht, List.map_eq_nil_iff]
  by_cases hw : asked allow l = []
  · rw [if_pos hw, if_pos hw]
  · rw [if_neg hw, if_neg hw]
    have := flatMap_chunks_map (fun x : α => g (net x)) b hb ((asked allow l).map Rec.x)
    simp only [List.map_map] at this ⊢
    exact congrArg Except.ok this

theorem map_id_fun {K : Type} : (id : List (List K) → List (List K)) = List.map (fun r => r) := by funext l; simp

/-- C103.  With the default `predict_nonlinearity='auto'` and the default criterion (cross-entropy), for every batch size, `predict_proba` gives
for every wanted row (the target rows, or all rows with `allow_source`) a probability vector: entry `j` is `exp v_j / Σ_k exp v_k` of the
network's outputs `v`.  `predict` gives the first class of largest network output. -/
theorem C103_probabilities (b : Nat) (hb : 0 < b) {noLabel : Int} (net : α → List ℝ) (hnet : ∀ x, net x ≠ []) {s : DS ℝ α Int}
    {l : List (Rec ℝ α Int)} (Hs : Holds noLabel s l) (allow : Bool) (hw : asked allow l ≠ []) :
    ∃ (P : List (List ℝ)) (p : List Nat), netProba Real.exp 1 .crossEntropy .auto b noLabel net s allow = .ok P ∧
      List.Forall₂ (fun r row => IsProb row ∧ row = (net r.x).map (fun v => Real.exp v / ((net r.x).map Real.exp).sum)) (asked allow l) P ∧
      netPredict Real.exp 1 .crossEntropy .auto b noLabel net s allow = .ok p ∧
      List.Forall₂ (fun r c => IsClass (net r.x) c) (asked allow l) p := by
  have h := netProba_rows Real.exp 1 .crossEntropy .auto (softmaxRow Real.exp) rfl b hb net Hs allow
  rw [if_neg hw] at h
  obtain ⟨p, hp, hp'⟩ := mapM_argmax ((asked allow l).map (fun r => softmaxRow Real.exp (net r.x))) (fun r hr => by
    obtain ⟨q, -, rfl⟩ := List.mem_map.1 hr
    simpa [softmaxRow] using hnet q.x)
  refine ⟨_, p, h, ?_, ?_, ?_⟩
  · rw [List.forall₂_map_right_iff]
    exact List.forall₂_same.2 fun r _ => ⟨softmaxRow_prob _ (hnet _), rfl⟩
  · unfold netPredict
    rw [h]
    exact hp
  · rw [List.forall₂_map_left_iff] at hp'
    exact hp'.imp fun r c hc => (softmaxRow_isClass _ _).1 hc

/-- Two target rows and a source row; the outputs are the features. -/
example : ∃ s, (Deep.new (-1) [[1, 2], [3, 0], [0, 0]] (some [0, -1, -1]) (.vec [1, -2, -2]) none : Py (DS ℝ (List ℝ) Int)) = .ok s ∧
    Holds (-1) s [⟨[1, 2], 0, 1, none⟩, ⟨[3, 0], -1, -2, none⟩, ⟨[0, 0], -1, -2, none⟩] ∧
    asked false ([⟨[1, 2], 0, 1, none⟩, ⟨[3, 0], -1, -2, none⟩, ⟨[0, 0], -1, -2, none⟩] : List (Rec ℝ (List ℝ) Int)) ≠ [] := by
  obtain ⟨s, h1, h2⟩ := new_ok (-1) ([⟨[1, 2], 0, 1, none⟩, ⟨[3, 0], -1, -2, none⟩, ⟨[0, 0], -1, -2, none⟩] : List (Rec ℝ (List ℝ) Int)) none
    (holdsW_unweighted ([⟨[1, 2], 0, 1, none⟩, ⟨[3, 0], -1, -2, none⟩, ⟨[0, 0], -1, -2, none⟩] : List (Rec ℝ (List ℝ) Int)))
  exact ⟨s, h1, h2, by simp [asked]⟩

/-- C103.  The result does not depend on the batch size, for every setting except a callable that mixes rows. -/
theorem C103_batch_size {K : Type} [Field K] (ex : K → K) (criteria : Nat) (crit : CritKind) (arg : NonlinArg K)
    (hrow : ∀ f, arg = .fn f → ∃ g : List K → List K, f = List.map g) (b b' : Nat) (hb : 0 < b) (hb' : 0 < b') {noLabel : Int} (net : α → List K)
    {s : DS K α Int} {l : List (Rec K α Int)} (Hs : Holds noLabel s l) (allow : Bool) :
    netProba ex criteria crit arg b noLabel net s allow = netProba ex criteria crit arg b' noLabel net s allow := by
  by_cases ho : arg = .other
  · subst ho; rfl
  have : ∃ g : List K → List K, getNonlin ex criteria crit arg = .ok (List.map g) := by
    cases arg with
    | none => exact ⟨fun r => r, by rw [← map_id_fun]; rfl⟩
    | auto =>
      change ∃ g : List K → List K, Except.ok (inferNonlin ex criteria crit) = .ok (List.map g)
      unfold inferNonlin
      by_cases h1 : criteria = 1
      · cases crit with
        | crossEntropy => exact ⟨softmaxRow ex, by rw [if_neg (by simpa using h1)]⟩
        | other => exact ⟨fun r => r, by rw [if_neg (by simpa using h1), ← map_id_fun]⟩
      · exact ⟨fun r => r, by rw [if_pos h1, ← map_id_fun]⟩
    | fn f => obtain ⟨g, rfl⟩ := hrow f rfl; exact ⟨g, rfl⟩
    | other => exact absurd rfl ho
  obtain ⟨g, hg⟩ := this
  rw [netProba_rows ex criteria crit arg g hg b hb net Hs allow, netProba_rows ex criteria crit arg g hg b' hb' net Hs allow]

/-- C103 (negation).  With `None`, with several criteria, and with 'auto' and a criterion other than cross-entropy the "probabilities" are the
outputs of the network as they are. -/
theorem C103_raw_counterexample {K : Type} [Field K] (ex : K → K) (criteria : Nat) (crit : CritKind) (arg : NonlinArg K)
    (h : arg = .none ∨ arg = .auto ∧ (crit ≠ .crossEntropy ∨ criteria ≠ 1)) (b : Nat) (hb : 0 < b) {noLabel : Int} (net : α → List K)
    {s : DS K α Int} {l : List (Rec K α Int)} (Hs : Holds noLabel s l) (allow : Bool) (hw : asked allow l ≠ []) :
    netProba ex criteria crit arg b noLabel net s allow = .ok ((asked allow l).map (fun r => net r.x)) := by
  have hg : getNonlin ex criteria crit arg = .ok (List.map (fun r => r)) := by
    rw [← map_id_fun]
    rcases h with rfl | ⟨rfl, h⟩
    · rfl
    · change Except.ok (inferNonlin ex criteria crit) = .ok id
      unfold inferNonlin
      by_cases h1 : criteria = 1
      · rw [if_neg (by simpa using h1)]
        cases crit with
        | crossEntropy => exact absurd h1 (by simpa using h)
        | other => rfl
      · rw [if_pos h1]
  rw [netProba_rows ex criteria crit arg _ hg b hb net Hs allow, if_neg hw]

/-- A margin loss instead of cross-entropy: `predict_proba` returns `[2, -1]`. -/
example : ¬ IsProb [2, -1] := fun h => absurd (h.1 (-1) (by simp)) (by norm_num)

/-- C103 (negation).  A callable that mixes rows (here: division by the largest absolute output of the batch) is applied batch by batch, so that the
result depends on the batch size: 2 rows in one batch, or one by one. -/
theorem C103_mixing_counterexample : ∃ (f : List (List ℚ) → List (List ℚ)) (s : DS ℚ ℚ Int),
    Deep.new (-1) [1, 2] (some [-1, -1]) (.vec [-2, -2]) none = .ok s ∧
    netProba (fun x => x) 1 .crossEntropy (.fn f) 2 (-1) (fun x => [x]) s false = .ok [[1 / 2], [1]] ∧
    netProba (fun x => x) 1 .crossEntropy (.fn f) 1 (-1) (fun x => [x]) s false = .ok [[1], [1]] :=
  ⟨fun rows => rows.map (List.map (fun v => v / rows.flatten.foldr max 0)), ⟨[1, 2], [-1, -1], [-2, -2], [], [false, false], false, [0, 1]⟩,
    by decide +kernel, by decide +kernel, by decide +kernel⟩

/-- C103.  A `predict_nonlinearity` that is not callable is a `TypeError`, whatever the data; without a wanted row every other setting is a `ValueError`. -/
theorem C103_errors {K : Type} [Field K] (ex : K → K) (criteria : Nat) (crit : CritKind) (arg : NonlinArg K) (b : Nat) {noLabel : Int} (net : α → List K)
    {s : DS K α Int} {l : List (Rec K α Int)} (Hs : Holds noLabel s l) (allow : Bool) :
    (arg = .other → netProba ex criteria crit arg b noLabel net s allow = .error .typeError) ∧
    (arg ≠ .other → asked allow l = [] → netProba ex criteria crit arg b noLabel net s allow = .error .valueError) := by
  obtain ⟨t, h, ht⟩ := predictRows_ok Hs allow
  unfold netProba
  rw [h]
  constructor
  · rintro rfl; rfl
  · intro ho hw
    simp only [ok_bind, ht, hw]
    cases arg <;> first | rfl | exact absurd rfl ho

end Proba

/-! ### C102: the memory of SPA -/

section BankProps
variable {α : Type} {d c : Nat}

/-- C102.  At the beginning of training the memory has one row per target row of the data; the remembered outputs are uniform
distributions, the remembered features have length one (for a draw that is not zero).  An empty data set is a `ValueError`. -/
theorem C102_begin (draw : Nat → Fin d → ℝ) {noLabel : Int} {s : DS ℝ α Int} {l : List (Rec ℝ α Int)} (Hs : Holds noLabel s l) (hc : 0 < c) :
    (l = [] → (Bank.begin Real.sqrt draw noLabel s : Py (Bank ℝ d c)) = .error .valueError) ∧
    (l ≠ [] → ∃ m : Bank ℝ d c, Bank.begin Real.sqrt draw noLabel s = .ok m ∧
      m.features.length = (l.filter (fun r => decide (r.d < 0))).length ∧ m.outputs.length = (l.filter (fun r => decide (r.d < 0))).length ∧
      (∀ o ∈ m.outputs, (∀ j, o j = 1 / (c : ℝ)) ∧ ∑ j, o j = 1) ∧
      (∀ (i : Nat) (v : Fin d → ℝ), m.features[i]? = some v → draw i ≠ 0 → ∑ j, v j ^ 2 = 1)) := by
  constructor
  · rintro rfl
    unfold Bank.begin
    rw [if_pos (by rw [Hs.X]; rfl)]
  · intro hl
    obtain ⟨t, h, Ht⟩ := predictRows_ok Hs false
    have hsel : selectTarget noLabel s true = .ok t := h
    refine ⟨⟨(List.range t.X.length).map (fun i j => draw i j / Real.sqrt (∑ k, draw i k ^ 2)), List.replicate t.X.length (fun _ => 1 / (c : ℝ))⟩, ?_, ?_, ?_, ?_, ?_⟩
    · unfold Bank.begin
      rw [if_neg (by rw [Hs.X]; simpa using hl), hsel]
      rfl
    · simp [Ht, asked]
    · simp [Ht, asked]
    · intro o ho
      obtain rfl := List.eq_of_mem_replicate ho
      refine ⟨fun _ => rfl, ?_⟩
      have : (c : ℝ) ≠ 0 := by exact_mod_cast hc.ne'
      simp [this]
    · intro i v hv hd
      simp only [List.getElem?_map, Option.map_eq_some_iff] at hv
      obtain ⟨i', hi', rfl⟩ := hv
      obtain ⟨-, rfl⟩ : i < t.X.length ∧ i = i' := by
        rw [List.getElem?_eq_some_iff] at hi'
        obtain ⟨h1, h2⟩ := hi'
        exact ⟨by simpa using h1, by simpa using h2⟩
      have hpos : 0 < ∑ k, draw i k ^ 2 := by
        obtain ⟨k, hk⟩ := Function.ne_iff.1 hd
        exact Finset.sum_pos' (fun _ _ => sq_nonneg _) ⟨k, Finset.mem_univ _, lt_of_le_of_ne (sq_nonneg _) (Ne.symm (pow_ne_zero 2 hk))⟩
      simp only [div_pow, Real.sq_sqrt hpos.le]
      rw [← Finset.sum_div, div_self hpos.ne']

/-- What is known of the memory after any number of batches: remembered outputs do not distinguish classes. -/
theorem Bank.run_constant {K : Type} [Field K] (momentum : K) (bs : List (BankBatch K d c)) (m : Bank K d c) (hlen : m.outputs.length = m.features.length)
    (hl : ∀ b ∈ bs, b.idx.length = b.sd.length) (hi : ∀ b ∈ bs, ∀ i ∈ targetRows b.sd b.idx, i < m.features.length)
    (hconst : ∀ o ∈ m.outputs, ∀ j k, o j = o k) :
    ∃ m', Bank.run momentum m bs = .ok m' ∧ m'.features.length = m.features.length ∧ m'.outputs.length = m.features.length ∧
      ∀ o ∈ m'.outputs, ∀ j k, o j = o k := by
  induction bs generalizing m with
  | nil => exact ⟨m, rfl, rfl, hlen, hconst⟩
  | cons b bs ih =>
    obtain ⟨f, h1, h2, h3⟩ := bankStep_ok momentum m.features (b.sd, b.idx, b.feats) (hl b (by simp)) (hi b (by simp))
    obtain ⟨o, g1, g2, g3⟩ := bankStep_ok momentum m.outputs (b.sd, b.idx, b.outs) (hl b (by simp)) (fun i h => by rw [hlen]; exact hi b (by simp) i h)
    simp only at h1 g1
    have hstep : Bank.step momentum m b = .ok ⟨f, o⟩ := by
      unfold Bank.step
      rw [h1, g1]
      rfl
    obtain ⟨m', e1, e2, e3, e4⟩ := ih ⟨f, o⟩ (by simp [g2, h2, hlen]) (fun b hb => hl b (by simp [hb]))
      (fun b hb i h => by rw [h2]; exact hi b (by simp [hb]) i h) (fun v hv j k => by
        obtain ⟨i, hi⟩ := List.mem_iff_getElem?.1 hv
        have := g3 i
        simp only at hi
        rw [hi] at this
        split at this
        · obtain ⟨u, hu, rfl⟩ := Option.map_eq_some_iff.1 this.symm
          simp only
          rw [hconst u (List.mem_of_getElem? hu) j k]
        · exact hconst v (List.mem_of_getElem? this.symm) j k)
    refine ⟨m', ?_, by rw [e2, h2], by rw [e3, h2], e4⟩
    unfold Bank.run
    rw [hstep]
    exact e1

/-- C102 (negation).  The pseudo-labels are constant: whatever the data, the network, its outputs, the momentum, and the batches of the training so
far, every target row gets the pseudo-label 0.  (The new outputs never enter the memory, so the remembered outputs stay the same for all classes and
the first class is the first maximum.)  The pseudo-label loss is a weighted mean of the cross-entropies with class 0. -/
theorem C102_pseudo_counterexample (draw : Nat → Fin d → ℝ) {noLabel : Int} {s : DS ℝ α Int} {l : List (Rec ℝ α Int)} (Hs : Holds noLabel s l) (hl : l ≠ [])
    (momentum : ℝ) (bs : List (BankBatch ℝ d c)) (hb : ∀ b ∈ bs, b.idx.length = b.sd.length)
    (hi : ∀ b ∈ bs, ∀ i ∈ targetRows b.sd b.idx, i < (l.filter (fun r => decide (r.d < 0))).length)
    (ce : (Fin c → ℝ) → Nat → ℝ) (topk : List (Option ℝ) → Nat → List Nat) (htop : ∀ l k, k ≤ l.length → IsTopK l k (topk l k)) (tiny : ℝ)
    (Xt : List (Fin d → ℝ)) (Yt : List (Fin c → ℝ)) (batch : List Nat) (kk : Nat) (hc : 0 < c) (hlen : Yt.length = Xt.length)
    (hbatch : ∀ i ∈ batch, i < (l.filter (fun r => decide (r.d < 0))).length)
    (hk : kk ≤ ((List.range (l.filter (fun r => decide (r.d < 0))).length).filter (fun i => decide (i ∉ batch))).length) :
    ∃ (m : Bank ℝ d c) (w : (Fin d → ℝ) → ℝ), (Bank.begin Real.sqrt draw noLabel s >>= fun m => Bank.run momentum m bs) = .ok m ∧
      Bank.nap Real.sqrt ce topk tiny m Xt Yt batch kk =
        .ok (((Xt.zip Yt).map (fun q => w q.1 * ce q.2 0)).sum / ((Xt.map w).sum + tiny)) := by
  obtain ⟨m, h1, h2, h3, h4, -⟩ := (C102_begin (c := c) draw Hs hc).2 hl
  obtain ⟨m', g1, g2, g3, g4⟩ := Bank.run_constant momentum bs m (h3.trans h2.symm) hb (fun b hb i h => by rw [h2]; exact hi b hb i h)
    (fun o ho j k => by rw [(h4 o ho).1 j, (h4 o ho).1 k])
  obtain ⟨nb, p, hp, hnap⟩ := C90_nap ce topk htop tiny Xt Yt m'.features m'.outputs batch kk hc hlen (by rw [g2, g3])
    (by rw [g2, h2]; exact hbatch) (by rw [g2, h2]; exact hk)
  have hconst : ∀ x j k, nbMean m'.outputs (nb x) j = nbMean m'.outputs (nb x) k := by
    intro x j k
    unfold nbMean
    congr 2
    refine List.map_congr_left fun i _ => ?_
    rw [List.getD_eq_getElem?_getD]
    cases hget : m'.outputs[i]? with
    | none => rfl
    | some v => exact g4 v (List.mem_of_getElem? hget) j k
  have hzero : ∀ x, (p x : Nat) = 0 := by
    intro x
    by_contra hne
    have := (hp x).2.2 ⟨0, hc⟩ (by rw [Fin.lt_def]; exact Nat.pos_of_ne_zero hne)
    rw [hconst x ⟨0, hc⟩ (p x)] at this
    exact lt_irrefl _ this
  refine ⟨m', fun x => nbMean m'.outputs (nb x) (p x), by rw [h1]; exact g1, ?_⟩
  unfold Bank.nap
  rw [hnap]
  simp only [hzero]

/-- Three target rows, one source row, two classes, one batch with the first two target rows, one neighbour: the hypotheses hold. -/
example (ce : (Fin 2 → ℝ) → Nat → ℝ) : ∃ (topk : List (Option ℝ) → Nat → List Nat) (s : DS ℝ ℝ Int) (m : Bank ℝ 1 2) (w : (Fin 1 → ℝ) → ℝ),
    (Deep.new (-1) [0, 1, 2, 3] (some [0, -1, -1, -1]) (.vec [1, -2, -2, -2]) none : Py (DS ℝ ℝ Int)) = .ok s ∧
    (Bank.begin Real.sqrt (fun _ _ => 1) (-1) s >>= fun m => Bank.run (1 / 2) m [⟨[1, -2, -2], [0, 0, 1], [![1], ![1]], [![0, 1], ![0, 1]]⟩]) = .ok m ∧
    Bank.nap Real.sqrt ce topk 1 m [![5]] [![0, 1]] [0, 1] 1 = .ok ((w ![5] * ce ![0, 1] 0 + 0) / (w ![5] + 0 + 1)) := by
  obtain ⟨topk, ht⟩ := DL.exists_topk
  obtain ⟨s, h1, h2⟩ := new_ok (-1) ([⟨0, 0, 1, none⟩, ⟨1, -1, -2, none⟩, ⟨2, -1, -2, none⟩, ⟨3, -1, -2, none⟩] : List (Rec ℝ ℝ Int)) none
    (holdsW_unweighted ([⟨0, 0, 1, none⟩, ⟨1, -1, -2, none⟩, ⟨2, -1, -2, none⟩, ⟨3, -1, -2, none⟩] : List (Rec ℝ ℝ Int)))
  obtain ⟨m, w, h3, h4⟩ := C102_pseudo_counterexample (d := 1) (c := 2) (fun _ _ => 1) h2 (by simp) (1 / 2)
    [⟨[1, -2, -2], [0, 0, 1], [![1], ![1]], [![0, 1], ![0, 1]]⟩] (by simp) (by simp [targetRows]; omega) ce topk ht 1 [![5]] [![0, 1]] [0, 1] 1 (by norm_num) rfl
    (by simp) (by simp; decide)
  exact ⟨topk, s, m, w, h1, h3, by simpa using h4⟩

/-- C102 (negation).  Nothing the network computes enters the memory: two trainings on batches with the same domains and sample indices leave the same
memory, whatever the features and outputs. -/
theorem C102_blind_counterexample {K : Type} [Field K] (momentum : K) (m : Bank K d c) (bs cs : List (BankBatch K d c))
    (h : bs.map (fun b => (b.sd, b.idx)) = cs.map (fun b => (b.sd, b.idx))) : Bank.run momentum m bs = Bank.run momentum m cs := by
  induction bs generalizing cs m with
  | nil =>
    cases cs with
    | nil => rfl
    | cons c cs => simp at h
  | cons b bs ih =>
    cases cs with
    | nil => simp at h
    | cons b' cs =>
      obtain ⟨sd, idx, f, o⟩ := b
      obtain ⟨sd', idx', f', o'⟩ := b'
      simp only [List.map_cons, List.cons.injEq, Prod.mk.injEq] at h
      obtain ⟨⟨rfl, rfl⟩, h⟩ := h
      unfold Bank.run
      show (Bank.step momentum m ⟨sd, idx, f, o⟩ >>= fun m => Bank.run momentum m bs) = (Bank.step momentum m ⟨sd, idx, f, o⟩ >>= fun m => Bank.run momentum m cs)
      congr 1
      funext m
      exact ih m cs h

end BankProps

/-! ### C104: lists of callbacks -/

theorem build_heap (ops : List (Maker × CBArg)) (heap : List (List CB)) (r : Nat) (hr : r < heap.length) :
    (build heap ops).1[r]? = some (heap.getD r [] ++ (ops.filter (fun o => decide (o.2 = .list r))).flatMap (fun o => o.1.own)) := by
  induction ops generalizing heap with
  | nil => simp [build, List.getD_eq_getElem?_getD, List.getElem?_eq_getElem hr]
  | cons o ops ih =>
    obtain ⟨m, a⟩ := o
    show (build (m.callbacks heap a).1 ops).1[r]? = _
    cases a with
    | none =>
      rw [ih _ (by simp [Maker.callbacks]; omega)]
      simp [Maker.callbacks, List.getD_eq_getElem?_getD, List.getElem?_append_left hr]
    | one c =>
      rw [ih _ (by simp [Maker.callbacks]; omega)]
      simp [Maker.callbacks, List.getD_eq_getElem?_getD, List.getElem?_append_left hr]
    | list q =>
      rw [ih _ (by simpa [Maker.callbacks] using hr)]
      by_cases hq : q = r
      · subst hq
        simp [Maker.callbacks, List.getD_eq_getElem?_getD, hr]
      · simp [Maker.callbacks, List.getD_eq_getElem?_getD, hq]

theorem build_length (ops : List (Maker × CBArg)) (heap : List (List CB)) : (build heap ops).2.length = ops.length := by
  induction ops generalizing heap with
  | nil => rfl
  | cons o ops ih => obtain ⟨m, a⟩ := o; show (build (m.callbacks heap a).1 ops).2.length + 1 = _; rw [ih]; rfl

theorem build_append (ops ops' : List (Maker × CBArg)) (heap : List (List CB)) :
    build heap (ops ++ ops') = ((build (build heap ops).1 ops').1, (build heap ops).2 ++ (build (build heap ops).1 ops').2) := by
  induction ops generalizing heap with
  | nil => rfl
  | cons o ops ih =>
    obtain ⟨m, a⟩ := o
    show ((build (m.callbacks heap a).1 (ops ++ ops')).1, (m.callbacks heap a).2 :: (build (m.callbacks heap a).1 (ops ++ ops')).2) = _
    rw [ih]
    rfl

/-- C104.  A net constructed without `callbacks` has exactly the callbacks its method needs; with a single callback it has this one first.  This stays
so through all later constructions that are not given the net's own list. -/
theorem C104_fresh (heap : List (List CB)) (before later : List (Maker × CBArg)) (m : Maker) :
    (∃ n, (build heap (before ++ (m, .none) :: later)).2[before.length]? = some n ∧
      ((∀ o ∈ later, o.2 ≠ .list n) → (build heap (before ++ (m, .none) :: later)).1[n]? = some m.own)) ∧
    ∀ c, ∃ n, (build heap (before ++ (m, .one c) :: later)).2[before.length]? = some n ∧
      ((∀ o ∈ later, o.2 ≠ .list n) → (build heap (before ++ (m, .one c) :: later)).1[n]? = some (c :: m.own)) := by
  have key : ∀ (a : CBArg) (l : List CB), m.callbacks (build heap before).1 a = ((build heap before).1 ++ [l], (build heap before).1.length) →
      ∃ n, (build heap (before ++ (m, a) :: later)).2[before.length]? = some n ∧
        ((∀ o ∈ later, o.2 ≠ .list n) → (build heap (before ++ (m, a) :: later)).1[n]? = some l) := by
    intro a l h
    refine ⟨(build heap before).1.length, ?_, fun hn => ?_⟩
    · rw [build_append]
      simp only
      rw [List.getElem?_append_right (by rw [build_length]), build_length, Nat.sub_self]
      show some (m.callbacks _ a).2 = _
      rw [h]
    · rw [build_append]
      show (build (m.callbacks _ a).1 later).1[_]? = _
      rw [h, build_heap _ _ _ (by simp)]
      rw [List.filter_eq_nil_iff.2 (fun o ho => by simpa using hn o ho)]
      simp [List.getD_eq_getElem?_getD]
  exact ⟨key .none _ rfl, fun c => key (.one c) _ rfl⟩

/-- C104 (negation).  A list given by the user is extended in place: after any program the list object holds its first contents followed by the
callbacks of *all* nets constructed with it, and all these nets share it. -/
theorem C104_shared_counterexample (heap : List (List CB)) (r : Nat) (hr : r < heap.length) (ops : List (Maker × CBArg)) :
    (build heap ops).1[r]? = some (heap.getD r [] ++ (ops.filter (fun o => decide (o.2 = .list r))).flatMap (fun o => o.1.own)) ∧
    ∀ (i : Nat) (m : Maker), ops[i]? = some (m, .list r) → (build heap ops).2[i]? = some r := by
  refine ⟨build_heap ops heap r hr, ?_⟩
  induction ops generalizing heap with
  | nil => intro i m h; simp at h
  | cons o ops ih =>
    intro i m h
    obtain ⟨m', a⟩ := o
    show ((m'.callbacks heap a).2 :: (build (m'.callbacks heap a).1 ops).2)[i]? = some r
    cases i with
    | zero =>
      simp only [List.getElem?_cons_zero, Option.some.injEq, Prod.mk.injEq] at h
      obtain ⟨rfl, rfl⟩ := h
      rfl
    | succ i =>
      rw [List.getElem?_cons_succ] at h ⊢
      refine ih _ ?_ i m h
      cases a <;> simp only [Maker.callbacks, List.length_append, List.length_set] <;> omega

theorem epochBegin_spa (cbs : List CB) (n : Nat) : Deep.epochBegin .spa cbs n = .ok (n + cbs.count .epochs) := by
  induction cbs generalizing n with
  | nil => rfl
  | cons c cs ih =>
    unfold Deep.epochBegin
    cases c <;> simp only [CB.epochBegin, ok_bind, ih, List.count_cons] <;> (simp; try omega)

theorem epochsBegin_spa (cbs : List CB) (e n : Nat) : epochsBegin .spa cbs e n = .ok (n + e * cbs.count .epochs) := by
  induction e generalizing n with
  | zero => simp [epochsBegin]
  | succ e ih =>
    unfold epochsBegin
    rw [epochBegin_spa]
    simp only [ok_bind, ih]
    congr 1
    ring

/-- C104.  The counter of an SPA net advances in every epoch by the number of `CountEpochs` callbacks of its list, so with one of them after `e` epochs
it is `e`.  The weight of the pseudo-label term (`n_epochs / max_epochs`) then grows from 0 to 1. -/
theorem C104_epochs (cbs : List CB) (e m : Nat) (hm : m ≠ 0) :
    epochsBegin .spa cbs e 0 = .ok (e * cbs.count .epochs) ∧
    (cbs.count .epochs = 1 → epochsBegin .spa cbs e 0 = .ok e ∧ (Adv.schedulerNap e m : Py ℚ) = .ok ((e : ℚ) / m)) := by
  refine ⟨by rw [epochsBegin_spa]; simp, fun h => ⟨by rw [epochsBegin_spa, h]; simp, ?_⟩⟩
  simp [Adv.schedulerNap, hm]

/-- C104 (negation).  `k` SPA nets are constructed with the same list of callbacks.  Every one of them counts every epoch `k` times: at the end of
training (`m` epochs of `max_epochs = m`) the weight of the pseudo-label term is `k` and not 1. -/
theorem C104_count_counterexample (heap : List (List CB)) (r : Nat) (hr : r < heap.length) (hown : CB.epochs ∉ heap.getD r []) (k m : Nat) (hm : m ≠ 0) :
    ∃ cbs, (build heap (List.replicate k (.spa, .list r))).1[r]? = some cbs ∧ (build heap (List.replicate k (.spa, .list r))).2 = List.replicate k r ∧
      epochsBegin .spa cbs m 0 = .ok (m * k) ∧ (Adv.schedulerNap (m * k) m : Py ℚ) = .ok (k : ℚ) := by
  have h := C104_shared_counterexample heap r hr (List.replicate k (.spa, .list r))
  refine ⟨_, h.1, ?_, ?_, ?_⟩
  · apply List.ext_getElem?
    intro i
    rcases Nat.lt_or_ge i k with hi | hi
    · rw [h.2 i .spa (by simp [hi])]; simp [hi]
    · rw [List.getElem?_eq_none (by rw [build_length]; simpa using hi), List.getElem?_eq_none (by simpa using hi)]
  · rw [epochsBegin_spa, List.count_append, List.count_eq_zero_of_not_mem hown]
    have : ∀ k, (((List.replicate k ((.spa, .list r) : Maker × CBArg)).filter (fun o => decide (o.2 = .list r))).flatMap (fun o => o.1.own)).count .epochs = k := by
      intro k
      induction k with
      | zero => rfl
      | succ k ih =>
        rw [List.replicate_succ, List.filter_cons_of_pos (by simp), List.flatMap_cons, List.count_append, ih]
        show 1 + k = k + 1
        omega
    rw [this]; simp
  · have : (m : ℚ) ≠ 0 := by exact_mod_cast hm
    simp [Adv.schedulerNap, hm]

/-- The user's list holds one callback of their own; three nets. -/
example : build [[.user 0]] (List.replicate 3 (.spa, .list 0)) = ([[.user 0, .bank, .epochs, .bank, .epochs, .bank, .epochs]], [0, 0, 0]) := by decide

/-- C104 (negation).  A CAN net and then an SPA net are constructed with the same list: training the CAN net fails with an `AttributeError` in the
first epoch. -/
theorem C104_mixed_counterexample (heap : List (List CB)) (r : Nat) (hr : r < heap.length) (e n : Nat) :
    ∃ cbs, (build heap [(.can, .list r), (.spa, .list r)]).1[r]? = some cbs ∧ (build heap [(.can, .list r), (.spa, .list r)]).2 = [r, r] ∧
      epochsBegin .can cbs (e + 1) n = .error .attributeError := by
  refine ⟨_, build_heap _ _ _ hr, rfl, ?_⟩
  have key : ∀ (a : List CB) (b : List CB) (n : Nat), Deep.epochBegin .can (a ++ .epochs :: b) n = .error .attributeError := by
    intro a b
    induction a with
    | nil => intro n; rfl
    | cons c a ih =>
      intro n
      rw [List.cons_append]
      unfold Deep.epochBegin
      cases c <;> first | rfl | (simp only [CB.epochBegin, ok_bind]; exact ih n)
  unfold epochsBegin
  have : heap.getD r [] ++ ([(Maker.can, CBArg.list r), (.spa, .list r)].filter (fun o => decide (o.2 = .list r))).flatMap (fun o => o.1.own) =
      (heap.getD r [] ++ [.centroids, .bank]) ++ .epochs :: [] := by simp [Maker.own]
  rw [this, key]
  rfl

/-- C104.  A CAN net that was not mixed with SPA in this way can be trained: without `CountEpochs` in the list every epoch begins without error. -/
theorem C104_can (cbs : List CB) (h : CB.epochs ∉ cbs) (e n : Nat) : epochsBegin .can cbs e n = .ok n := by
  have key : ∀ (cbs : List CB), CB.epochs ∉ cbs → ∀ n, Deep.epochBegin .can cbs n = .ok n := by
    intro cbs
    induction cbs with
    | nil => intro _ n; rfl
    | cons c cs ih =>
      intro hc n
      unfold Deep.epochBegin
      simp only [List.mem_cons, not_or] at hc
      cases c <;> first | exact absurd rfl hc.1 | (simp only [CB.epochBegin, ok_bind]; exact ih hc.2 n)
  induction e generalizing n with
  | zero => rfl
  | succ e ih => unfold epochsBegin; rw [key cbs h]; exact ih n

end Skada

/-
C93: spherical k-means (skada/deep/utils.py:101-337).
-/
import Verif.Props.DeepMMD
import Verif.Model.SphKMeans
import Verif.Lemmas.Arg
import Verif.Lemmas.Monad
import Verif.Lemmas.Np

namespace Skada

namespace Spec

variable {d : Nat}

/-- Euclidean norm. -/
noncomputable def nrm (x : Fin d → ℝ) : ℝ := Real.sqrt (∑ j, x j ^ 2)

/-- Half of one minus the cosine of the angle of `x` and `c`; norms are bounded below by `e`, so that a zero vector has distance 1/2. -/
noncomputable def cosDist (e : ℝ) (x c : Fin d → ℝ) : ℝ := 1 / 2 * (1 - (∑ j, x j * c j) / (max (nrm x) e * max (nrm c) e))

/-- A row divided by its norm. -/
noncomputable def unit (x : Fin d → ℝ) : Fin d → ℝ := fun j => x j / nrm x

end Spec

open Spec Np

variable {d : Nat}

namespace SKM

theorem nrm_nonneg (x : Fin d → ℝ) : 0 ≤ nrm x := Real.sqrt_nonneg _

theorem nrm_sq (x : Fin d → ℝ) : nrm x ^ 2 = ∑ j, x j ^ 2 := Real.sq_sqrt (Finset.sum_nonneg fun _ _ => sq_nonneg _)

theorem nrm_eq_zero (x : Fin d → ℝ) : nrm x = 0 ↔ x = 0 := by
  unfold nrm
  rw [Real.sqrt_eq_zero (Finset.sum_nonneg fun _ _ => sq_nonneg _), Finset.sum_eq_zero_iff_of_nonneg fun _ _ => sq_nonneg _]
  constructor
  · intro h; funext j; exact pow_eq_zero_iff two_ne_zero |>.1 (h j (Finset.mem_univ j))
  · rintro rfl j _; simp

theorem nrm_unit {x : Fin d → ℝ} (hx : x ≠ 0) : nrm (unit x) = 1 := by
  have h : nrm x ≠ 0 := fun h => hx ((nrm_eq_zero x).1 h)
  have : ∑ j, unit x j ^ 2 = 1 := by
    simp only [unit, div_pow]
    rw [← Finset.sum_div, ← nrm_sq, div_self (pow_ne_zero 2 h)]
  unfold nrm
  rw [this, Real.sqrt_one]

theorem normalize_eq {x : Fin d → ℝ} (hx : x ≠ 0) : normalize Real.sqrt (some x) = some (unit x) := by
  unfold normalize
  dsimp only
  rw [if_neg (show Real.sqrt (∑ j, x j ^ 2) ≠ 0 from fun h => hx ((nrm_eq_zero x).1 h))]
  rfl

theorem dis_eq (e : ℝ) (x c : Fin d → ℝ) : dis Real.sqrt e (some x) (some c) = some (cosDist e x c) := rfl

theorem inner_le (x y : Fin d → ℝ) : ∑ j, x j * y j ≤ nrm x * nrm y := Real.sum_mul_le_sqrt_mul_sqrt _ _ _

theorem nanArgmin_some (l : List ℝ) (hl : l ≠ []) : ∃ i, nanArgmin (l.map some) = .ok i ∧ i < l.length ∧ (∀ z ∈ l, l.getD i 0 ≤ z) ∧
    ∀ j < i, l.getD i 0 < l.getD j 0 := by
  obtain ⟨i, y, h1, h2, h3, h4⟩ := argmin_spec hl
  have hi : i < l.length := (List.getElem?_eq_some_iff.1 h2).1
  have hy : l.getD i 0 = y := by rw [List.getD_eq_getElem?_getD, h2]; rfl
  refine ⟨i, ?_, hi, fun z hz => hy ▸ h3 z hz, fun j hj => ?_⟩
  · unfold nanArgmin
    rw [if_neg (by simpa using hl)]
    have hf : (l.map some).findIdx? (fun x : Option ℝ => x.isNone) = none := by
      rw [List.findIdx?_eq_none_iff]
      intro x hx
      obtain ⟨z, -, rfl⟩ := List.mem_map.1 hx
      rfl
    rw [hf]
    simp only [List.map_map, Function.comp_def, Option.getD_some, List.map_id']
    exact h1
  · rw [hy]
    refine h4 j _ hj ?_
    rw [List.getD_eq_getElem?_getD, List.getElem?_eq_getElem (hj.trans hi)]; rfl

/-- Assignment to finite centres. -/
theorem assign_eq (e : ℝ) (cs : List (Fin d → ℝ)) (hcs : cs ≠ []) : ∃ lab : (Fin d → ℝ) → Nat,
    (∀ xs : List (Fin d → ℝ), assign Real.sqrt e (cs.map some) (xs.map some) = .ok (xs.map lab)) ∧
    (∀ x, lab x < cs.length) ∧ (∀ x, ∀ c ∈ cs, cosDist e x (cs.getD (lab x) 0) ≤ cosDist e x c) ∧
    ∀ x, ∀ k < lab x, cosDist e x (cs.getD (lab x) 0) < cosDist e x (cs.getD k 0) := by
  have h : ∀ x : Fin d → ℝ, ∃ i, nanArgmin ((cs.map some).map (fun c => dis Real.sqrt e (some x) c)) = .ok i ∧ i < cs.length ∧
      (∀ c ∈ cs, cosDist e x (cs.getD i 0) ≤ cosDist e x c) ∧ ∀ k < i, cosDist e x (cs.getD i 0) < cosDist e x (cs.getD k 0) := by
    intro x
    obtain ⟨i, h1, h2, h3, h4⟩ := nanArgmin_some (cs.map (cosDist e x)) (by simpa using hcs)
    rw [List.length_map] at h2
    have hget : ∀ k < cs.length, (cs.map (cosDist e x)).getD k 0 = cosDist e x (cs.getD k 0) := by
      intro k hk
      simp [List.getD_eq_getElem?_getD, List.getElem?_eq_getElem hk]
    refine ⟨i, ?_, h2, fun c hc => ?_, fun k hk => ?_⟩
    · rw [← h1, List.map_map, List.map_map]; rfl
    · rw [← hget i h2]; exact h3 _ (List.mem_map_of_mem hc)
    · rw [← hget i h2, ← hget k (hk.trans h2)]; exact h4 k hk
  choose lab hl using h
  refine ⟨lab, fun xs => ?_, fun x => (hl x).2.1, fun x => (hl x).2.2.1, fun x => (hl x).2.2.2⟩
  unfold assign
  induction xs with
  | nil => rfl
  | cons x xs ih => rw [List.map_cons, List.mapM_cons, (hl x).1, ih]; rfl

theorem sumRows_some (l : List (Fin d → ℝ)) : sumRows (l.map some) = some l.sum := by
  induction l with
  | nil => rfl
  | cons x l ih => rw [List.map_cons]; simp only [sumRows, ih, Option.map_some, List.sum_cons]

/-- The centres after an update, without NaN. -/
noncomputable def newCs (nC m : Nat) (xs : List (Fin d → ℝ)) (lab : (Fin d → ℝ) → Nat) : List (Fin d → ℝ) :=
  (List.range m).map (fun k => if k < nC ∧ k ∈ xs.map lab then (xs.filter (fun x => decide (lab x = k))).sum else 0)

theorem update_eq (nC m : Nat) (xs : List (Fin d → ℝ)) (lab : (Fin d → ℝ) → Nat) :
    update nC m (xs.map some) (xs.map lab) = (newCs nC m xs lab).map some := by
  unfold update newCs
  rw [List.map_map]
  refine List.map_congr_left fun k _ => ?_
  simp only [Function.comp]
  split_ifs with h
  · rw [← sumRows_some]
    congr 1
    clear h
    induction xs with
    | nil => rfl
    | cons x xs ih =>
      simp only [List.map_cons, List.zip_cons_cons, List.filter_cons]
      by_cases hk : lab x = k
      · simp only [hk, decide_true, if_true, List.map_cons]; rw [ih]
      · simp only [hk, decide_false, Bool.false_eq_true, if_false]; exact ih
  · rfl

theorem sumOpt_some (l : List ℝ) : sumOpt (l.map some) = some l.sum := by
  induction l with
  | nil => rfl
  | cons x l ih => rw [List.map_cons]; simp only [sumOpt, ih, Option.map_some, List.sum_cons]

theorem inertia_eq (e : ℝ) (xs cs : List (Fin d → ℝ)) (lab : (Fin d → ℝ) → Nat) (h : ∀ x ∈ xs, lab x < cs.length) :
    inertia Real.sqrt e (xs.map some) (cs.map some) (xs.map lab) = some ((xs.map (fun x => cosDist e x (cs.getD (lab x) 0))).sum) := by
  unfold inertia
  rw [← sumOpt_some, List.zipWith_map, List.zipWith_self, List.map_map]
  congr 1
  refine List.map_congr_left fun x hx => ?_
  have : (cs.map some).getD (lab x) none = some (cs.getD (lab x) 0) := by
    simp [List.getD_eq_getElem?_getD, List.getElem?_eq_getElem (h x hx)]
  rw [this, dis_eq]; rfl

theorem newCs_length (nC m : Nat) (xs : List (Fin d → ℝ)) (lab : (Fin d → ℝ) → Nat) : (newCs nC m xs lab).length = m := by simp [newCs]

/-- Splitting a sum over rows by label. -/
theorem sum_by_label (xs : List (Fin d → ℝ)) (lab : (Fin d → ℝ) → Nat) (m : Nat) (h : ∀ x ∈ xs, lab x < m) (F : (Fin d → ℝ) → Nat → ℝ) :
    (xs.map (fun x => F x (lab x))).sum = ∑ k ∈ Finset.range m, ((xs.filter (fun x => decide (lab x = k))).map (fun x => F x k)).sum := by
  induction xs with
  | nil => simp
  | cons x xs ih =>
    rw [List.map_cons, List.sum_cons, ih fun y hy => h y (by simp [hy])]
    have : ∀ k, (((x :: xs).filter (fun x => decide (lab x = k))).map (fun x => F x k)).sum =
        (if lab x = k then F x k else 0) + ((xs.filter (fun x => decide (lab x = k))).map (fun x => F x k)).sum := by
      intro k
      rw [List.filter_cons]
      by_cases hk : lab x = k <;> simp [hk]
    simp only [this, Finset.sum_add_distrib]
    rw [Finset.sum_ite_eq, if_pos (Finset.mem_range.2 (h x (by simp)))]

/-- The sum of the cosine distances of unit rows to one centre. -/
theorem sum_cosDist (e : ℝ) (he : e ≤ 1) (L : List (Fin d → ℝ)) (hL : ∀ x ∈ L, nrm x = 1) (c : Fin d → ℝ) :
    (L.map (fun x => cosDist e x c)).sum = 1 / 2 * ((L.length : ℝ) - (∑ j, L.sum j * c j) / max (nrm c) e) := by
  induction L with
  | nil => simp
  | cons x L ih =>
    rw [List.map_cons, List.sum_cons, ih fun y hy => hL y (by simp [hy])]
    unfold cosDist
    rw [hL x (by simp), max_eq_left he, one_mul, List.sum_cons, List.length_cons]
    have : ∑ j, (x + L.sum) j * c j = ∑ j, x j * c j + ∑ j, L.sum j * c j := by
      rw [← Finset.sum_add_distrib]; exact Finset.sum_congr rfl fun j _ => by simp [add_mul]
    rw [this, add_div]
    push_cast
    ring

/-- Replacing a centre by the sum of its rows does not increase their distances. -/
theorem sum_best (e : ℝ) (he0 : 0 < e) (he : e ≤ 1) (L : List (Fin d → ℝ)) (hL : ∀ x ∈ L, nrm x = 1) (hS : L.sum = 0 ∨ e ≤ nrm L.sum)
    (c : Fin d → ℝ) : (L.map (fun x => cosDist e x L.sum)).sum ≤ (L.map (fun x => cosDist e x c)).sum := by
  rw [sum_cosDist e he L hL, sum_cosDist e he L hL]
  have hpos : 0 < max (nrm c) e := lt_of_lt_of_le he0 (le_max_right _ _)
  have h1 : (∑ j, L.sum j * c j) / max (nrm c) e ≤ nrm L.sum := by
    rw [div_le_iff₀ hpos]
    exact (inner_le _ _).trans (mul_le_mul_of_nonneg_left (le_max_left _ _) (nrm_nonneg _))
  have h2 : nrm L.sum ≤ (∑ j, L.sum j * L.sum j) / max (nrm L.sum) e := by
    have hsq : ∑ j, L.sum j * L.sum j = nrm L.sum ^ 2 := by rw [nrm_sq]; exact Finset.sum_congr rfl fun j _ => by ring
    rw [hsq]
    rcases hS with h | h
    · have : nrm L.sum = 0 := (nrm_eq_zero _).2 h
      rw [this]; simp
    · have : 0 < nrm L.sum := he0.trans_le h
      rw [max_eq_left h, le_div_iff₀ this]; ring_nf; rfl
  linarith

theorem update_descent (e : ℝ) (he0 : 0 < e) (he : e ≤ 1) (nC : Nat) (xs cs : List (Fin d → ℝ)) (hx : ∀ x ∈ xs, nrm x = 1)
    (hsum : ∀ L : List (Fin d → ℝ), L.Sublist xs → L.sum = 0 ∨ e ≤ nrm L.sum) (hm : cs.length ≤ nC) (lab : (Fin d → ℝ) → Nat)
    (hl : ∀ x ∈ xs, lab x < cs.length) :
    (xs.map (fun x => cosDist e x ((newCs nC cs.length xs lab).getD (lab x) 0))).sum ≤ (xs.map (fun x => cosDist e x (cs.getD (lab x) 0))).sum := by
  rw [sum_by_label xs lab cs.length hl (fun x k => cosDist e x ((newCs nC cs.length xs lab).getD k 0)),
    sum_by_label xs lab cs.length hl (fun x k => cosDist e x (cs.getD k 0))]
  refine Finset.sum_le_sum fun k hk => ?_
  rw [Finset.mem_range] at hk
  have hget : (newCs nC cs.length xs lab).getD k 0 = if k < nC ∧ k ∈ xs.map lab then (xs.filter (fun x => decide (lab x = k))).sum else 0 := by
    simp [newCs, List.getD_eq_getElem?_getD, hk]
  by_cases hmem : k ∈ xs.map lab
  · rw [hget, if_pos ⟨by omega, hmem⟩]
    exact sum_best e he0 he _ (fun x hx' => hx x (List.mem_of_mem_filter hx')) (hsum _ List.filter_sublist) _
  · have : xs.filter (fun x => decide (lab x = k)) = [] := by
      rw [List.filter_eq_nil_iff]
      intro x hx' hk'
      exact hmem (List.mem_map.2 ⟨x, hx', by simpa using hk'⟩)
    rw [this]; simp

/-- What a finished run on finite data gives. -/
structure Good (e : ℝ) (nC : Nat) (xs : List (Fin d → ℝ)) (last : Nat) (r : Run ℝ d) (v : ℝ) (cs : List (Fin d → ℝ)) (lab : (Fin d → ℝ) → Nat) : Prop where
  inertia : r.inertia = some v
  centers : r.centers = cs.map some
  value : v = (xs.map (fun x => cosDist e x (cs.getD (lab x) 0))).sum
  lab_lt : ∀ x, lab x < cs.length
  iter : r.nIter ≤ last
  conv : r.nIter < last → ∀ x, ∀ c ∈ cs, cosDist e x (cs.getD (lab x) 0) ≤ cosDist e x c

/-- The loop on finite data: it succeeds, and (if no cluster sum is tiny) its inertia is at most the cost of any assignment to the centres it
starts from. -/
theorem loop_good (e rtol tol : ℝ) (nC : Nat) (xs : List (Fin d → ℝ)) (fuel it : Nat) (cs : List (Fin d → ℝ)) (hcs : cs ≠ []) (last : Option (List Nat × Nat)) :
    ∃ r v cs' lab, loop Real.sqrt e rtol tol nC (xs.map some) (fuel + 1) it (cs.map some) last = .ok r ∧ Good e nC xs (it + fuel) r v cs' lab ∧ it ≤ r.nIter ∧
      cs'.length = cs.length ∧
      (0 < e → e ≤ 1 → (∀ x ∈ xs, nrm x = 1) → (∀ L : List (Fin d → ℝ), L.Sublist xs → L.sum = 0 ∨ e ≤ nrm L.sum) → cs.length ≤ nC →
        ∀ f : (Fin d → ℝ) → (Fin d → ℝ), (∀ x ∈ xs, f x ∈ cs) → v ≤ (xs.map (fun x => cosDist e x (f x))).sum) := by
  induction fuel generalizing it cs last with
  | zero =>
    obtain ⟨lab, h1, h2, h3, -⟩ := assign_eq e cs hcs
    have hnear : ∀ f : (Fin d → ℝ) → (Fin d → ℝ), (∀ x ∈ xs, f x ∈ cs) →
        (xs.map (fun x => cosDist e x (cs.getD (lab x) 0))).sum ≤ (xs.map (fun x => cosDist e x (f x))).sum :=
      fun f hf => List.sum_le_sum fun x hx => h3 x _ (hf x hx)
    rw [loop, h1]
    simp only [ok_bind, List.length_map, update_eq]
    split_ifs with hcl
    · exact ⟨_, _, cs, lab, rfl, ⟨inertia_eq e xs cs lab fun x _ => h2 x, rfl, rfl, h2, by simp, fun _ => h3⟩, le_rfl, rfl, fun _ _ _ _ _ f hf => hnear f hf⟩
    · refine ⟨_, _, newCs nC cs.length xs lab, lab, by rw [loop], ⟨inertia_eq e xs _ lab fun x _ => by rw [newCs_length]; exact h2 x, rfl, rfl,
        fun x => by rw [newCs_length]; exact h2 x, by simp, fun h => absurd h (by simp)⟩, le_rfl, newCs_length _ _ _ _, fun he0 he hx hsum hm f hf => ?_⟩
      exact (update_descent e he0 he nC xs cs hx hsum hm lab fun x _ => h2 x).trans (hnear f hf)
  | succ fuel ih =>
    obtain ⟨lab, h1, h2, h3, -⟩ := assign_eq e cs hcs
    have hnear : ∀ f : (Fin d → ℝ) → (Fin d → ℝ), (∀ x ∈ xs, f x ∈ cs) →
        (xs.map (fun x => cosDist e x (cs.getD (lab x) 0))).sum ≤ (xs.map (fun x => cosDist e x (f x))).sum :=
      fun f hf => List.sum_le_sum fun x hx => h3 x _ (hf x hx)
    rw [loop, h1]
    simp only [ok_bind, List.length_map, update_eq]
    split_ifs with hcl
    · exact ⟨_, _, cs, lab, rfl, ⟨inertia_eq e xs cs lab fun x _ => h2 x, rfl, rfl, h2, by simp, fun _ => h3⟩, le_rfl, rfl, fun _ _ _ _ _ f hf => hnear f hf⟩
    · have hne : newCs nC cs.length xs lab ≠ [] := by
        intro h; have := congrArg List.length h; rw [newCs_length] at this; exact hcs (List.length_eq_zero_iff.1 this)
      obtain ⟨r, v, cs', lab', g1, g2, g3, g4, g5⟩ := ih (it + 1) (newCs nC cs.length xs lab) hne (some (xs.map lab, it))
      refine ⟨r, v, cs', lab', g1, ?_, by omega, by rw [g4, newCs_length], fun he0 he hx hsum hm f hf => ?_⟩
      · rw [show it + (fuel + 1) = it + 1 + fuel by omega]; exact g2
      · refine (g5 he0 he hx hsum (by rw [newCs_length]; exact hm) (fun x => (newCs nC cs.length xs lab).getD (lab x) 0) fun x hx' => ?_).trans
          ((update_descent e he0 he nC xs cs hx hsum hm lab fun x _ => h2 x).trans (hnear f hf))
        rw [List.getD_eq_getElem?_getD, List.getElem?_eq_getElem (by rw [newCs_length]; exact h2 x)]
        exact List.getElem_mem _

theorem normalized (data : List (Fin d → ℝ)) (h : ∀ x ∈ data, x ≠ 0) :
    data.map (fun x => normalize Real.sqrt (some x)) = (data.map unit).map some := by
  rw [List.map_map]; exact List.map_congr_left fun x hx => normalize_eq (h x hx)

end SKM

/-- C93.  Distances are between 0 and 1. -/
theorem C93_dissimilarity (e : ℝ) (he : 0 < e) (x c : Fin d → ℝ) : ∃ v, SKM.dis Real.sqrt e (some x) (some c) = some v ∧ 0 ≤ v ∧ v ≤ 1 := by
  refine ⟨_, rfl, ?_⟩
  have hp : 0 < max (nrm x) e * max (nrm c) e := mul_pos (lt_of_lt_of_le he (le_max_right _ _)) (lt_of_lt_of_le he (le_max_right _ _))
  have hle : nrm x * nrm c ≤ max (nrm x) e * max (nrm c) e :=
    mul_le_mul (le_max_left _ _) (le_max_left _ _) (SKM.nrm_nonneg _) ((SKM.nrm_nonneg x).trans (le_max_left _ _))
  have h1 : (∑ j, x j * c j) / (max (nrm x) e * max (nrm c) e) ≤ 1 := by
    rw [div_le_one hp]; exact (SKM.inner_le x c).trans hle
  have h2 : -1 ≤ (∑ j, x j * c j) / (max (nrm x) e * max (nrm c) e) := by
    rw [le_div_iff₀ hp]
    have := SKM.inner_le (-x) c
    have hn : nrm (-x) = nrm x := by simp [nrm]
    rw [hn] at this
    simp only [Pi.neg_apply, neg_mul, Finset.sum_neg_distrib] at this
    linarith
  show 0 ≤ 1 / 2 * (1 - (∑ j, x j * c j) / (max (nrm x) e * max (nrm c) e)) ∧ 1 / 2 * (1 - (∑ j, x j * c j) / (max (nrm x) e * max (nrm c) e)) ≤ 1
  constructor <;> linarith

example : SKM.dis Real.sqrt 1 (some ![(1 : ℝ)]) (some ![-1]) = some 1 := by
  simp [SKM.dis, DL.cosine]; norm_num

/-- C93.  `predict` gives each row the first of its nearest centres. -/
theorem C93_predict (e : ℝ) (r : SKM.Run ℝ d) (cs : List (Fin d → ℝ)) (hr : r.centers = cs.map some) (hcs : cs ≠ []) (data : List (Fin d → ℝ)) :
    ∃ lab, SKM.predict Real.sqrt e r data = .ok (data.map lab) ∧ ∀ x, lab x < cs.length ∧ (∀ c ∈ cs, cosDist e x (cs.getD (lab x) 0) ≤ cosDist e x c) ∧
      ∀ k < lab x, cosDist e x (cs.getD (lab x) 0) < cosDist e x (cs.getD k 0) := by
  obtain ⟨lab, h1, h2, h3, h4⟩ := SKM.assign_eq e cs hcs
  refine ⟨lab, ?_, fun x => ⟨h2 x, h3 x, h4 x⟩⟩
  unfold SKM.predict
  rw [hr, h1]

example : ∃ lab, SKM.predict Real.sqrt 1 ⟨some 0, [some ![(1 : ℝ)], some ![-1]], 1⟩ [![2], ![-3]] = .ok ([![(2 : ℝ)], ![-3]].map lab) ∧ lab ![2] = 0 := by
  obtain ⟨lab, h, h'⟩ := C93_predict 1 ⟨some 0, [some ![(1 : ℝ)], some ![-1]], 1⟩ [![1], ![-1]] rfl (by simp) [![2], ![-3]]
  refine ⟨lab, h, ?_⟩
  obtain ⟨h1, h2, -⟩ := h' ![2]
  by_contra hne
  have h3 : lab ![2] = 1 := by simp at h1; omega
  have := h2 ![1] (by simp)
  rw [h3] at this
  simp [cosDist, nrm] at this
  norm_num at this

/-- C93.  With given initial centres and no zero row, `fit` succeeds with at most `max_iter` iterations; `inertia_` is the cost of an assignment
of the (normalised) rows to `cluster_centers_`.  If it stops before `max_iter`, that assignment is the nearest one. -/
theorem C93_fit (e rtol tol : ℝ) (nClusters maxIter : Nat) (hmax : 0 < maxIter) (c0 : List (Fin d → ℝ)) (hc0 : c0 ≠ []) (perms : List (List Nat))
    (data : List (Fin d → ℝ)) (hdata : ∀ x ∈ data, x ≠ 0) :
    ∃ r v, ∃ cs : List (Fin d → ℝ), SKM.fit Real.sqrt e rtol tol nClusters maxIter (some (c0.map some)) perms data = .ok r ∧ r.inertia = some v ∧ r.centers = cs.map some ∧
      cs.length = c0.length ∧ 1 ≤ r.nIter ∧ r.nIter ≤ maxIter ∧
      ∃ f : (Fin d → ℝ) → (Fin d → ℝ), (∀ x, f x ∈ cs) ∧ v = ((data.map unit).map (fun x => cosDist e x (f x))).sum ∧
        (r.nIter < maxIter → ∀ x, ∀ c ∈ cs, cosDist e x (f x) ≤ cosDist e x c) := by
  obtain ⟨m, rfl⟩ : ∃ m, maxIter = m + 1 := ⟨maxIter - 1, by omega⟩
  obtain ⟨r, v, cs, lab, h1, h2, -, h4, -⟩ := SKM.loop_good e rtol tol nClusters (data.map unit) m 0 c0 hc0 none
  refine ⟨{ r with nIter := r.nIter + 1 }, v, cs, ?_, h2.inertia, h2.centers, h4, by simp, ?_, fun x => cs.getD (lab x) 0, fun x => ?_, h2.value, fun h => h2.conv ?_⟩
  · unfold SKM.fit
    simp only [SKM.normalized data hdata, h1]
    rfl
  · have := h2.iter; simp; omega
  · have := h2.lab_lt x
    simp [List.getD_eq_getElem?_getD, List.getElem?_eq_getElem this]
  · simp at h; omega

example : ∃ r v, ∃ cs : List (Fin 2 → ℝ), SKM.fit Real.sqrt 1 0 0 1 5 (some ([![(1 : ℝ), 0]].map some)) [] [![3, 4], ![0, 1]] = .ok r ∧ r.inertia = some v ∧ r.centers = cs.map some ∧
    cs.length = 1 ∧ 1 ≤ r.nIter ∧ r.nIter ≤ 5 := by
  obtain ⟨r, v, cs, h1, h2, h3, h4, h5, h6, -⟩ := C93_fit 1 0 0 1 5 (by simp) [![(1 : ℝ), 0]] (by simp) [] [![3, 4], ![0, 1]] (by simp)
  exact ⟨r, v, cs, h1, h2, h3, h4, h5, h6⟩

/-- C93 (stopping).  Let `new k` be the sum of the (normalised) rows whose first nearest initial centre is number `k`, zero for `k` beyond
`n_clusters`.  If every initial centre is within `tol + rtol * |new|` of it in every coordinate, `fit` gives the initial centres back after one
iteration; otherwise it runs longer if it may. -/
theorem C93_stop (e rtol tol : ℝ) (nClusters maxIter : Nat) (hmax : 0 < maxIter) (c0 : List (Fin d → ℝ)) (hc0 : c0 ≠ []) (perms : List (List Nat))
    (data : List (Fin d → ℝ)) (hdata : ∀ x ∈ data, x ≠ 0) :
    ∃ lab : (Fin d → ℝ) → Nat, (∀ x, lab x < c0.length ∧ (∀ c ∈ c0, cosDist e x (c0.getD (lab x) 0) ≤ cosDist e x c) ∧
        ∀ k < lab x, cosDist e x (c0.getD (lab x) 0) < cosDist e x (c0.getD k 0)) ∧
      let new : Nat → Fin d → ℝ := fun k => if k < nClusters then ((data.map unit).filter (fun x => decide (lab x = k))).sum else 0
      ∃ r, SKM.fit Real.sqrt e rtol tol nClusters maxIter (some (c0.map some)) perms data = .ok r ∧
        ((∀ k (hk : k < c0.length) j, |c0[k] j - new k j| ≤ tol + rtol * |new k j|) → r.centers = c0.map some ∧ r.nIter = 1) ∧
        ((∃ k, ∃ hk : k < c0.length, ∃ j, tol + rtol * |new k j| < |c0[k] j - new k j|) → 1 < maxIter → 1 < r.nIter) := by
  obtain ⟨lab, h1, h2, h3, h4⟩ := SKM.assign_eq e c0 hc0
  refine ⟨lab, fun x => ⟨h2 x, h3 x, h4 x⟩, ?_⟩
  intro new
  have hnew : SKM.newCs nClusters c0.length (data.map unit) lab = (List.range c0.length).map new := by
    unfold SKM.newCs
    refine List.map_congr_left fun k _ => ?_
    simp only [new]
    by_cases hk : k < nClusters
    · by_cases hm : k ∈ (data.map unit).map lab
      · rw [if_pos ⟨hk, hm⟩, if_pos hk]
      · rw [if_neg (fun h => hm h.2), if_pos hk]
        have : (data.map unit).filter (fun x => decide (lab x = k)) = [] := by
          rw [List.filter_eq_nil_iff]
          intro x hx hk'
          exact hm (List.mem_map.2 ⟨x, hx, by simpa using hk'⟩)
        rw [this, List.sum_nil]
    · rw [if_neg (fun h => hk h.1), if_neg hk]
  have hclose : SKM.close rtol tol (c0.map some) ((SKM.newCs nClusters c0.length (data.map unit) lab).map some) = true ↔
      ∀ k (hk : k < c0.length) j, |c0[k] j - new k j| ≤ tol + rtol * |new k j| := by
    rw [hnew]
    simp only [SKM.close, List.all_eq_true, id]
    constructor
    · intro h k hk j
      have := h (SKM.closeVec rtol tol (some c0[k]) (some (new k))) (by
        rw [List.mem_iff_getElem]
        exact ⟨k, by simpa using hk, by simp⟩)
      simp only [SKM.closeVec, List.all_eq_true, decide_eq_true_eq] at this
      exact this j (List.mem_finRange j)
    · intro h b hb
      obtain ⟨k, hk, rfl⟩ := List.mem_iff_getElem.1 hb
      simp only [List.length_zipWith, List.length_map, List.length_range, min_self] at hk
      simp only [List.getElem_zipWith, List.getElem_map, List.getElem_range, SKM.closeVec, List.all_eq_true, decide_eq_true_eq]
      exact fun j _ => h k hk j
  obtain ⟨m, rfl⟩ : ∃ m, maxIter = m + 1 := ⟨maxIter - 1, by omega⟩
  by_cases hc : SKM.close rtol tol (c0.map some) ((SKM.newCs nClusters c0.length (data.map unit) lab).map some) = true
  · refine ⟨⟨SKM.inertia Real.sqrt e ((data.map unit).map some) (c0.map some) ((data.map unit).map lab), c0.map some, 1⟩, ?_, fun _ => ⟨rfl, rfl⟩,
      fun ⟨k, hk, j, h⟩ => absurd (hclose.1 hc k hk j) (not_le.2 h)⟩
    unfold SKM.fit
    simp only [SKM.normalized data hdata, SKM.loop, h1, ok_bind, List.length_map, SKM.update_eq, hc, if_true]
    rfl
  · have hne : SKM.newCs nClusters c0.length (data.map unit) lab ≠ [] := by
      intro h; have := congrArg List.length h; rw [SKM.newCs_length] at this; exact hc0 (List.length_eq_zero_iff.1 this)
    rcases m with _ | m
    · obtain ⟨r, v, cs, hr, -⟩ := C93_fit e rtol tol nClusters 1 (by omega) c0 hc0 perms data hdata
      exact ⟨r, hr, fun h => absurd (hclose.2 h) hc, fun _ h => absurd h (by omega)⟩
    · obtain ⟨r, v, cs', lab', g1, g2, g3, g4, g5⟩ := SKM.loop_good e rtol tol nClusters (data.map unit) m 1 _ hne (some ((data.map unit).map lab, 0))
      refine ⟨{ r with nIter := r.nIter + 1 }, ?_, fun h => absurd (hclose.2 h) hc, fun _ _ => by simp; omega⟩
      unfold SKM.fit
      simp only [SKM.normalized data hdata]
      rw [SKM.loop, h1]
      simp only [ok_bind, List.length_map, SKM.update_eq, hc, g1]
      rfl

/-- One centre at the sum of the two rows: done after one of five iterations, even with zero tolerance. -/
example : ∃ r, SKM.fit Real.sqrt 1 0 0 1 5 (some ([![(2 : ℝ)]].map some)) [] [![2], ![3]] = .ok r ∧ r.centers = [some ![2]] ∧ r.nIter = 1 := by
  have hu2 : unit ![(2 : ℝ)] = ![1] := by funext j; fin_cases j; simp [unit, nrm]
  have hu3 : unit ![(3 : ℝ)] = ![1] := by funext j; fin_cases j; simp [unit, nrm]
  obtain ⟨lab, hlab, r, h1, h2, -⟩ := C93_stop 1 0 0 1 5 (by simp) [![(2 : ℝ)]] (by simp) [] [![2], ![3]] (by simp)
  have hl : ∀ x, lab x = 0 := fun x => by have := (hlab x).1; simpa using this
  obtain ⟨h3, h4⟩ := h2 (by
    intro k hk j
    obtain rfl : k = 0 := by simpa using hk
    fin_cases j
    simp [hl, hu2, hu3]; norm_num)
  exact ⟨r, h1, h3, h4⟩

/-- C93.  `fit` does not end worse than it began: `inertia_` is at most the cost of any assignment of the rows to the initial centres.  This
needs at most `n_clusters` initial centres, and sums of rows that are zero or of norm at least `e`. -/
theorem C93_descent (e rtol tol : ℝ) (he0 : 0 < e) (he : e ≤ 1) (nClusters maxIter : Nat) (hmax : 0 < maxIter) (c0 : List (Fin d → ℝ)) (hc0 : c0 ≠ [])
    (hn : c0.length ≤ nClusters) (perms : List (List Nat)) (data : List (Fin d → ℝ)) (hdata : ∀ x ∈ data, x ≠ 0)
    (hsum : ∀ L : List (Fin d → ℝ), L.Sublist (data.map unit) → L.sum = 0 ∨ e ≤ nrm L.sum) (f : (Fin d → ℝ) → (Fin d → ℝ)) (hf : ∀ x, f x ∈ c0) :
    ∃ r v, SKM.fit Real.sqrt e rtol tol nClusters maxIter (some (c0.map some)) perms data = .ok r ∧ r.inertia = some v ∧
      v ≤ ((data.map unit).map (fun x => cosDist e x (f x))).sum := by
  obtain ⟨m, rfl⟩ : ∃ m, maxIter = m + 1 := ⟨maxIter - 1, by omega⟩
  obtain ⟨r, v, cs, lab, h1, h2, -, -, h5⟩ := SKM.loop_good e rtol tol nClusters (data.map unit) m 0 c0 hc0 none
  refine ⟨{ r with nIter := r.nIter + 1 }, v, ?_, h2.inertia, h5 he0 he ?_ hsum hn f fun x _ => hf x⟩
  · unfold SKM.fit
    simp only [SKM.normalized data hdata, h1]
    rfl
  · intro x hx
    obtain ⟨y, hy, rfl⟩ := List.mem_map.1 hx
    exact SKM.nrm_unit (hdata y hy)

example : ∃ r v, SKM.fit Real.sqrt 1 0 0 1 5 (some ([![(1 : ℝ)]].map some)) [] [![2], ![-3]] = .ok r ∧ r.inertia = some v ∧ v ≤ 1 := by
  have hu2 : unit ![(2 : ℝ)] = ![1] := by funext j; fin_cases j; simp [unit, nrm]
  have hu3 : unit ![(-3 : ℝ)] = ![-1] := by funext j; fin_cases j; simp [unit, nrm]
  obtain ⟨r, v, h1, h2, h3⟩ := C93_descent 1 0 0 one_pos le_rfl 1 5 (by simp) [![(1 : ℝ)]] (by simp) (by simp) [] [![2], ![-3]] (by simp)
    (by
      intro L hL
      rw [← List.mem_sublists] at hL
      have hL' : L = [] ∨ L = [![1]] ∨ L = [![-1]] ∨ L = [![1], ![-1]] := by
        rw [List.map_cons, List.map_cons, List.map_nil, hu2, hu3] at hL
        simpa [List.sublists] using hL
      rcases hL' with rfl | rfl | rfl | rfl <;> simp [nrm]) (fun _ => ![1]) (by simp)
  refine ⟨r, v, h1, h2, h3.trans ?_⟩
  simp [hu2, hu3, cosDist, nrm]
  norm_num

namespace SKM

theorem restarts_best (run : List (Vec ℝ d) → Py (Run ℝ d)) (inits : List (List (Vec ℝ d))) (h : ∀ c ∈ inits, ∃ r v, run c = .ok r ∧ r.inertia = some v)
    (b : Run ℝ d) (w : ℝ) (hb : b.inertia = some w) :
    ∃ r v, restarts run inits (some b) = .ok (some r) ∧ r.inertia = some v ∧ (r = b ∨ ∃ c ∈ inits, run c = .ok r) ∧ v ≤ w ∧
      ∀ c ∈ inits, ∀ r' v', run c = .ok r' → r'.inertia = some v' → v ≤ v' := by
  induction inits generalizing b w with
  | nil => exact ⟨b, w, rfl, hb, Or.inl rfl, le_rfl, by simp⟩
  | cons c inits ih =>
    obtain ⟨r1, v1, hr1, hv1⟩ := h c (by simp)
    simp only [restarts, hr1, ok_bind, hv1, hb, ltNan]
    have h' : ∀ c ∈ inits, ∃ r v, run c = .ok r ∧ r.inertia = some v := fun c hc => h c (by simp [hc])
    by_cases hlt : v1 < w
    · simp only [hlt, decide_true, if_true]
      obtain ⟨r, v, g1, g2, g3, g4, g5⟩ := ih h' r1 v1 hv1
      refine ⟨r, v, g1, g2, Or.inr ?_, g4.trans hlt.le, fun c' hc' r' v' hr' hv' => ?_⟩
      · rcases g3 with rfl | ⟨c', hc', hrc⟩
        · exact ⟨c, by simp, hr1⟩
        · exact ⟨c', by simp [hc'], hrc⟩
      · rcases List.mem_cons.1 hc' with rfl | hc'
        · rw [hr1] at hr'; cases hr'; rw [hv1] at hv'; cases hv'; exact g4
        · exact g5 c' hc' r' v' hr' hv'
    · simp only [hlt, decide_false, Bool.false_eq_true, if_false]
      obtain ⟨r, v, g1, g2, g3, g4, g5⟩ := ih h' b w hb
      refine ⟨r, v, g1, g2, ?_, g4, fun c' hc' r' v' hr' hv' => ?_⟩
      · rcases g3 with rfl | ⟨c', hc', hrc⟩
        · exact Or.inl rfl
        · exact Or.inr ⟨c', by simp [hc'], hrc⟩
      · rcases List.mem_cons.1 hc' with rfl | hc'
        · rw [hr1] at hr'; cases hr'; rw [hv1] at hv'; cases hv'; exact g4.trans (not_lt.1 hlt)
        · exact g5 c' hc' r' v' hr' hv'

end SKM

/-- The initial centres of one restart: the first `n_clusters` rows of a shuffle, normalised. -/
noncomputable def Spec.startRows (nClusters : Nat) (data : List (Fin d → ℝ)) (perm : List Nat) : List (Fin d → ℝ) :=
  (perm.take nClusters).map (fun i => unit (unit (data.getD i 0)))

/-- C93.  Without initial centres, `fit` is the best of its `n_init` restarts: it gives the result that `fit` with the initial centres of one of
them would give, and none of the others has a smaller inertia. -/
theorem C93_restarts (e rtol tol : ℝ) (nClusters maxIter : Nat) (hmax : 0 < maxIter) (hn : 0 < nClusters) (perms : List (List Nat)) (hperms : perms ≠ [])
    (data : List (Fin d → ℝ)) (hdata : ∀ x ∈ data, x ≠ 0) (hne : data ≠ []) (hp : ∀ p ∈ perms, p.Perm (List.range data.length)) :
    ∃ r v, SKM.fit Real.sqrt e rtol tol nClusters maxIter none perms data = .ok r ∧ r.inertia = some v ∧
      (∃ p ∈ perms, SKM.fit Real.sqrt e rtol tol nClusters maxIter (some ((startRows nClusters data p).map some)) [] data = .ok r) ∧
      ∀ p ∈ perms, ∃ r' v', SKM.fit Real.sqrt e rtol tol nClusters maxIter (some ((startRows nClusters data p).map some)) [] data = .ok r' ∧ r'.inertia = some v' ∧
        v ≤ v' := by
  have hinit : ∀ p ∈ perms, SKM.initCentroids Real.sqrt nClusters ((data.map unit).map some) p = (startRows nClusters data p).map some := by
    intro p hpp
    unfold SKM.initCentroids startRows
    rw [List.map_map (l := List.take nClusters p)]
    refine List.map_congr_left fun i hi => ?_
    have hi' : i < data.length := by simpa using (hp p hpp).subset (List.mem_of_mem_take hi)
    have : ((data.map unit).map some).getD i none = some (unit (data.getD i 0)) := by
      simp [List.getD_eq_getElem?_getD, List.getElem?_eq_getElem hi']
    rw [this, SKM.normalize_eq]
    · rfl
    · intro h0
      have hx : data.getD i 0 ≠ 0 := by
        rw [List.getD_eq_getElem?_getD, List.getElem?_eq_getElem hi']; exact hdata _ (List.getElem_mem _)
      have := SKM.nrm_unit hx
      rw [h0, (SKM.nrm_eq_zero 0).2 rfl] at this
      exact zero_ne_one this
  have hpne : ∀ p ∈ perms, startRows nClusters data p ≠ [] := by
    intro p hpp h
    have hlen := (hp p hpp).length_eq
    have := congrArg List.length h
    simp [startRows] at this
    rcases this with h | h
    · omega
    · rw [h] at hlen; simp at hlen; exact hne (List.length_eq_zero_iff.1 hlen.symm)
  have hfit : ∀ p ∈ perms, ∃ r v, SKM.loop Real.sqrt e rtol tol nClusters ((data.map unit).map some) maxIter 0 ((startRows nClusters data p).map some) none = .ok r ∧
      r.inertia = some v := by
    intro p hpp
    obtain ⟨m, rfl⟩ : ∃ m, maxIter = m + 1 := ⟨maxIter - 1, by omega⟩
    obtain ⟨r, v, cs, lab, h1, h2, -⟩ := SKM.loop_good e rtol tol nClusters (data.map unit) m 0 _ (hpne p hpp) none
    exact ⟨r, v, h1, h2.inertia⟩
  have hsome : ∀ p ∈ perms, ∀ r, SKM.loop Real.sqrt e rtol tol nClusters ((data.map unit).map some) maxIter 0 ((startRows nClusters data p).map some) none = .ok r →
      SKM.fit Real.sqrt e rtol tol nClusters maxIter (some ((startRows nClusters data p).map some)) [] data = .ok { r with nIter := r.nIter + 1 } := by
    intro p _ r hr
    unfold SKM.fit
    simp only [SKM.normalized data hdata, hr]
    rfl
  obtain ⟨p0, ps, rfl⟩ : ∃ p0 ps, perms = p0 :: ps := List.exists_cons_of_ne_nil hperms
  have hmap : (p0 :: ps).map (SKM.initCentroids Real.sqrt nClusters ((data.map unit).map some)) = (p0 :: ps).map (fun p => (startRows nClusters data p).map some) :=
    List.map_congr_left hinit
  obtain ⟨r0, v0, h0, hv0⟩ := hfit p0 (by simp)
  obtain ⟨r, v, g1, g2, g3, g4, g5⟩ := SKM.restarts_best
    (fun cs => SKM.loop Real.sqrt e rtol tol nClusters ((data.map unit).map some) maxIter 0 cs none) (ps.map (fun p => (startRows nClusters data p).map some))
    (by intro c hc; obtain ⟨p, hpp, rfl⟩ := List.mem_map.1 hc; exact hfit p (by simp [hpp])) r0 v0 hv0
  refine ⟨{ r with nIter := r.nIter + 1 }, v, ?_, g2, ?_, fun p hpp => ?_⟩
  · unfold SKM.fit
    simp only [SKM.normalized data hdata, hmap]
    rw [List.map_cons]
    simp only [SKM.restarts, h0, ok_bind, g1]
  · rcases g3 with rfl | ⟨c, hc, hrc⟩
    · exact ⟨p0, by simp, hsome p0 (by simp) _ h0⟩
    · obtain ⟨p, hpp, rfl⟩ := List.mem_map.1 hc
      exact ⟨p, by simp [hpp], hsome p (by simp [hpp]) _ hrc⟩
  · obtain ⟨r', v', hr', hv'⟩ := hfit p hpp
    refine ⟨_, v', hsome p hpp r' hr', hv', ?_⟩
    rcases List.mem_cons.1 hpp with rfl | hpp
    · rw [h0] at hr'; cases hr'; rw [hv0] at hv'; cases hv'; exact g4
    · exact g5 _ (List.mem_map_of_mem hpp) r' v' hr' hv'

example : ∃ r v, SKM.fit Real.sqrt 1 0 0 1 5 none [[0, 1, 2], [2, 0, 1]] [![(2 : ℝ)], ![3], ![-3]] = .ok r ∧ r.inertia = some v := by
  obtain ⟨r, v, h1, h2, -⟩ := C93_restarts 1 0 0 1 5 (by simp) (by simp) [[0, 1, 2], [2, 0, 1]] (by simp) [![(2 : ℝ)], ![3], ![-3]] (by simp) (by simp)
    (by decide)
  exact ⟨r, v, h1, h2⟩

namespace SKM

theorem nanArgmin_head (l : List (Option ℝ)) : nanArgmin (none :: l) = .ok 0 := by simp [nanArgmin, List.findIdx?_cons]

theorem sumRows_none {l : List (Vec ℝ d)} (h : none ∈ l) : sumRows l = none := by
  induction l with
  | nil => simp at h
  | cons x l ih => cases x with
    | none => rfl
    | some x => simp only [sumRows, ih (by simpa using h), Option.map_none]

theorem sumOpt_none {l : List (Option ℝ)} (h : none ∈ l) : sumOpt l = none := by
  induction l with
  | nil => simp at h
  | cons x l ih => cases x with
    | none => rfl
    | some x => simp only [sumOpt, ih (by simpa using h), Option.map_none]

theorem assign_cons (e : ℝ) (cs : List (Vec ℝ d)) (hcs : cs ≠ []) (X : List (Vec ℝ d)) :
    ∃ lab : Vec ℝ d → Nat, assign Real.sqrt e cs X = .ok (X.map lab) ∧ (∀ x, lab x < cs.length) ∧ lab none = 0 ∧ (cs.head? = some none → ∀ x, lab x = 0) := by
  have h : ∀ x : Vec ℝ d, ∃ i, nanArgmin (cs.map (fun c => dis Real.sqrt e x c)) = .ok i ∧ i < cs.length ∧ (x = none → i = 0) ∧ (cs.head? = some none → i = 0) := by
    intro x
    obtain ⟨c, cs, rfl⟩ := List.exists_cons_of_ne_nil hcs
    by_cases h0 : dis Real.sqrt e x c = none
    · exact ⟨0, by rw [List.map_cons, h0, nanArgmin_head], by simp, fun _ => rfl, fun _ => rfl⟩
    · have hx : x ≠ none := by rintro rfl; exact h0 rfl
      have hc : c ≠ none := by rintro rfl; cases x <;> exact h0 rfl
      unfold nanArgmin
      rw [if_neg (by simp)]
      cases hf : ((c :: cs).map (fun c => dis Real.sqrt e x c)).findIdx? (fun x : Option ℝ => x.isNone) with
      | some i =>
        refine ⟨i, rfl, ?_, fun h => absurd h hx, fun h => absurd (by simpa using h) hc⟩
        have := (List.findIdx?_eq_some_iff_getElem.1 hf).1
        simpa using this
      | none =>
        obtain ⟨i, y, h1, h2, -⟩ := argmin_spec (l := (((c :: cs).map (fun c => dis Real.sqrt e x c)).map (fun x : Option ℝ => x.getD 0))) (by simp)
        refine ⟨i, h1, ?_, fun h => absurd h hx, fun h => absurd (by simpa using h) hc⟩
        have := (List.getElem?_eq_some_iff.1 h2).1
        simpa using this
  choose lab hl using h
  refine ⟨lab, ?_, fun x => (hl x).2.1, (hl none).2.2.1 rfl, fun h x => (hl x).2.2.2 h⟩
  unfold assign
  induction X with
  | nil => rfl
  | cons x X ih => rw [List.mapM_cons, (hl x).1, ih]; rfl

theorem update_head (nC m : Nat) (hn : 0 < nC) (hm : 0 < m) (X : List (Vec ℝ d)) (lab : Vec ℝ d → Nat) (hX : none ∈ X) (hl : lab none = 0) :
    ∃ t, update nC m X (X.map lab) = none :: t := by
  obtain ⟨m, rfl⟩ : ∃ k, m = k + 1 := ⟨m - 1, by omega⟩
  unfold update
  rw [List.range_succ_eq_map, List.map_cons]
  have h0 : 0 ∈ X.map lab := List.mem_map.2 ⟨none, hX, hl⟩
  rw [if_pos ⟨hn, h0⟩, sumRows_none]
  · exact ⟨_, rfl⟩
  refine List.mem_map.2 ⟨(none, 0), List.mem_filter.2 ⟨?_, by simp⟩, rfl⟩
  rw [List.zip_map_right, List.mem_map]
  refine ⟨(none, none), ?_, by simp [hl]⟩
  obtain ⟨i, hi, hg⟩ := List.getElem_of_mem hX
  refine List.mem_iff_getElem.2 ⟨i, by simpa using hi, by simp [hg]⟩

theorem loop_nan (e rtol tol : ℝ) (nC : Nat) (hn : 0 < nC) (X : List (Vec ℝ d)) (hX : none ∈ X) (fuel it : Nat) (cs : List (Vec ℝ d)) (hcs : cs ≠ []) (last : Option (List Nat × Nat)) :
    ∃ r t, loop Real.sqrt e rtol tol nC X (fuel + 1) it cs last = .ok r ∧ r.inertia = none ∧ r.centers = none :: t ∧ r.nIter = it + fuel := by
  induction fuel generalizing it cs last with
  | zero =>
    obtain ⟨lab, h1, h2, h3, h4⟩ := assign_cons e cs hcs X
    obtain ⟨t, ht⟩ := update_head nC cs.length hn (List.length_pos_of_ne_nil hcs) X lab hX h3
    rw [loop, h1]
    simp only [ok_bind]
    have hcl : close rtol tol cs (update nC cs.length X (X.map lab)) = false := by
      rw [ht]
      obtain ⟨c, cs, rfl⟩ := List.exists_cons_of_ne_nil hcs
      unfold close
      cases c <;> simp [closeVec]
    rw [hcl, if_neg (by simp)]
    refine ⟨_, t, by rw [loop], ?_, ht, rfl⟩
    apply sumOpt_none
    obtain ⟨i, hi, hg⟩ := List.getElem_of_mem hX
    refine List.mem_iff_getElem.2 ⟨i, by simpa using hi, ?_⟩
    simp [hg, dis]
  | succ fuel ih =>
    obtain ⟨lab, h1, h2, h3, h4⟩ := assign_cons e cs hcs X
    obtain ⟨t, ht⟩ := update_head nC cs.length hn (List.length_pos_of_ne_nil hcs) X lab hX h3
    rw [loop, h1]
    simp only [ok_bind]
    have hcl : close rtol tol cs (update nC cs.length X (X.map lab)) = false := by
      rw [ht]
      obtain ⟨c, cs, rfl⟩ := List.exists_cons_of_ne_nil hcs
      unfold close
      cases c <;> simp [closeVec]
    rw [hcl, if_neg (by simp)]
    obtain ⟨r, t', g1, g2, g3, g4⟩ := ih (it + 1) (update nC cs.length X (X.map lab)) (by rw [ht]; simp) (some (X.map lab, it))
    exact ⟨r, t', g1, g2, g3, by omega⟩

end SKM

/-- C93, counterexample to a useful fit on all data: with one all-zero row, `fit` never converges (`n_iter_ = max_iter`), `inertia_` is NaN, and
`predict` puts every row into cluster 0. -/
theorem C93_zero_row_counterexample (e rtol tol : ℝ) (nClusters maxIter : Nat) (hn : 0 < nClusters) (hmax : 0 < maxIter) (c0 : List (SKM.Vec ℝ d)) (hc0 : c0 ≠ [])
    (perms : List (List Nat)) (data : List (Fin d → ℝ)) (hzero : 0 ∈ data) :
    ∃ r, SKM.fit Real.sqrt e rtol tol nClusters maxIter (some c0) perms data = .ok r ∧ r.inertia = none ∧ r.nIter = maxIter ∧
      ∀ new, SKM.predict Real.sqrt e r new = .ok (List.replicate new.length 0) := by
  obtain ⟨m, rfl⟩ : ∃ m, maxIter = m + 1 := ⟨maxIter - 1, by omega⟩
  have hX : none ∈ data.map (fun x => SKM.normalize Real.sqrt (some x)) := by
    refine List.mem_map.2 ⟨0, hzero, ?_⟩
    simp [SKM.normalize]
  obtain ⟨r, t, h1, h2, h3, h4⟩ := SKM.loop_nan e rtol tol nClusters hn _ hX m 0 c0 hc0 none
  refine ⟨{ r with nIter := r.nIter + 1 }, ?_, h2, by simp [h4], fun new => ?_⟩
  · unfold SKM.fit
    simp only [h1]
    rfl
  · unfold SKM.predict
    obtain ⟨lab, g1, -, -, g4⟩ := SKM.assign_cons e r.centers (by rw [h3]; simp) (new.map some)
    show SKM.assign Real.sqrt e r.centers (new.map some) = _
    rw [g1]
    congr 1
    rw [List.map_map, List.eq_replicate_iff]
    refine ⟨by simp, fun b hb => ?_⟩
    obtain ⟨x, -, rfl⟩ := List.mem_map.1 hb
    exact g4 (by rw [h3]; rfl) _

example : ∃ r, SKM.fit Real.sqrt 1 0 0 2 300 (some [some ![(1 : ℝ)], some ![-1]]) [] [![2], 0, ![-3]] = .ok r ∧ r.inertia = none ∧ r.nIter = 300 ∧
    SKM.predict Real.sqrt 1 r [![2], ![-3]] = .ok [0, 0] := by
  obtain ⟨r, h1, h2, h3, h4⟩ := C93_zero_row_counterexample 1 0 0 2 300 (by simp) (by simp) [some ![(1 : ℝ)], some ![-1]] (by simp) [] [![2], 0, ![-3]] (by simp)
  exact ⟨r, h1, h2, h3, h4 _⟩

/-- C93, counterexample to the best of the restarts: with one all-zero row all restarts end in NaN, so that none is better than the first, and the
result is that of the first whatever the others are. -/
theorem C93_zero_row_restarts_counterexample (e rtol tol : ℝ) (nClusters maxIter : Nat) (hn : 0 < nClusters) (hmax : 0 < maxIter) (p : List Nat)
    (perms : List (List Nat)) (hp : ∀ q ∈ p :: perms, q ≠ []) (data : List (Fin d → ℝ)) (hzero : 0 ∈ data) :
    ∃ r, SKM.fit Real.sqrt e rtol tol nClusters maxIter none (p :: perms) data = .ok r ∧
      SKM.fit Real.sqrt e rtol tol nClusters maxIter none [p] data = .ok r ∧ r.inertia = none := by
  obtain ⟨m, rfl⟩ : ∃ m, maxIter = m + 1 := ⟨maxIter - 1, by omega⟩
  have hX : none ∈ data.map (fun x => SKM.normalize Real.sqrt (some x)) := by
    refine List.mem_map.2 ⟨0, hzero, ?_⟩
    simp [SKM.normalize]
  have hne : ∀ q ∈ p :: perms, SKM.initCentroids Real.sqrt nClusters (data.map (fun x => SKM.normalize Real.sqrt (some x))) q ≠ [] := by
    intro q hq h
    unfold SKM.initCentroids at h
    rw [List.map_eq_nil_iff, List.take_eq_nil_iff] at h
    rcases h with h | h
    · omega
    · exact hp q hq h
  obtain ⟨r, t, h1, h2, -, -⟩ := SKM.loop_nan e rtol tol nClusters hn _ hX m 0 _ (hne p (by simp)) none
  have hrest : ∀ ps : List (List Nat), (∀ q ∈ ps, q ∈ p :: perms) →
      SKM.restarts (fun cs => SKM.loop Real.sqrt e rtol tol nClusters (data.map (fun x => SKM.normalize Real.sqrt (some x))) (m + 1) 0 cs none)
        (ps.map (SKM.initCentroids Real.sqrt nClusters (data.map (fun x => SKM.normalize Real.sqrt (some x))))) (some r) = .ok (some r) := by
    intro ps
    induction ps with
    | nil => intro _; rfl
    | cons q ps ih =>
      intro hq
      obtain ⟨r', t', g1, g2, -, -⟩ := SKM.loop_nan e rtol tol nClusters hn _ hX m 0 _ (hne q (hq q (by simp))) none
      rw [List.map_cons, SKM.restarts, g1]
      simp only [ok_bind, h2, g2, SKM.ltNan, Bool.false_eq_true, if_false]
      exact ih (fun q' hq' => hq q' (by simp [hq']))
  refine ⟨{ r with nIter := r.nIter + 1 }, ?_, ?_, h2⟩
  · unfold SKM.fit
    simp only [List.map_cons, SKM.restarts, h1, ok_bind]
    rw [hrest perms (fun q hq => by simp [hq])]
    rfl
  · unfold SKM.fit
    simp only [List.map_cons, List.map_nil, SKM.restarts, h1, ok_bind]

example : ∃ r, SKM.fit Real.sqrt 1 0 0 2 300 none [[0, 1, 2], [2, 1, 0]] [![(2 : ℝ)], 0, ![-3]] = .ok r ∧
    SKM.fit Real.sqrt 1 0 0 2 300 none [[0, 1, 2]] [![(2 : ℝ)], 0, ![-3]] = .ok r ∧ r.inertia = none :=
  C93_zero_row_restarts_counterexample 1 0 0 2 300 (by simp) (by simp) _ _ (by simp) _ (by simp)

/-- C93.  Errors: no iterations (`max_iter = 0`), no restarts (`n_init = 0`), no initial centres for at least one row. -/
theorem C93_errors (e rtol tol : ℝ) (nClusters maxIter : Nat) (perms : List (List Nat)) (data : List (Fin d → ℝ)) :
    (∀ c0, SKM.fit Real.sqrt e rtol tol nClusters 0 (some c0) perms data = .error .unboundLocalError) ∧
    (perms ≠ [] → SKM.fit Real.sqrt e rtol tol nClusters 0 none perms data = .error .unboundLocalError) ∧
    SKM.fit Real.sqrt e rtol tol nClusters maxIter none [] data = .error .typeError ∧
    (0 < maxIter → data ≠ [] → SKM.fit Real.sqrt e rtol tol nClusters maxIter (some []) perms data = .error .indexError) := by
  refine ⟨fun c0 => rfl, fun h => ?_, rfl, fun h h' => ?_⟩
  · obtain ⟨p, ps, rfl⟩ := List.exists_cons_of_ne_nil h
    rfl
  · obtain ⟨m, rfl⟩ : ∃ m, maxIter = m + 1 := ⟨maxIter - 1, by omega⟩
    obtain ⟨x, xs, rfl⟩ := List.exists_cons_of_ne_nil h'
    rfl

/-- C93, counterexample: when `max_iter` is exhausted, `inertia_` need not be the sum of the distances to the closest centres.  Rows 1, 1, -1, equal
initial centres 1 and 1, one iteration: the centres are 1 and 0, the last row is at distance 1/2 of the second one, but counts 1. -/
theorem C93_stale_counterexample : ∃ r, SKM.fit Real.sqrt (1 / 2) 0 0 2 1 (some [some ![(1 : ℝ)], some ![1]]) [] [![1], ![1], ![-1]] = .ok r ∧
    r.inertia = some 1 ∧ r.centers = [some ![1], some 0] ∧ r.nIter = 1 ∧
    cosDist (1 / 2) ![(1 : ℝ)] ![1] + cosDist (1 / 2) ![(1 : ℝ)] ![1] + cosDist (1 / 2) ![-1] (0 : Fin 1 → ℝ) = 1 / 2 := by
  have h1 : SKM.normalize Real.sqrt (some ![(1 : ℝ)]) = some ![1] := by
    rw [SKM.normalize_eq (by simp)]; congr 1; funext j; fin_cases j; simp [unit, nrm]
  have h2 : SKM.normalize Real.sqrt (some ![(-1 : ℝ)]) = some ![-1] := by
    rw [SKM.normalize_eq (by simp)]; congr 1; funext j; fin_cases j; simp [unit, nrm]
  have d1 : SKM.dis Real.sqrt (1 / 2) (some ![(1 : ℝ)]) (some ![1]) = some 0 := by simp [SKM.dis, DL.cosine]; norm_num
  have d2 : SKM.dis Real.sqrt (1 / 2) (some ![(-1 : ℝ)]) (some ![1]) = some 1 := by simp [SKM.dis, DL.cosine]; norm_num
  have hs : (![(1 : ℝ)] + (![1] + (![-1] + 0)) : Fin 1 → ℝ) = ![1] := by funext j; fin_cases j; simp
  have a1 : SKM.nanArgmin [some (0 : ℝ), some 0] = .ok 0 := by simp [SKM.nanArgmin, List.findIdx?_cons, argmin, argminFrom]
  have a2 : SKM.nanArgmin [some (1 : ℝ), some 1] = .ok 0 := by simp [SKM.nanArgmin, List.findIdx?_cons, argmin, argminFrom]
  have ha : SKM.assign Real.sqrt (1 / 2) [some ![(1 : ℝ)], some ![1]] [some ![1], some ![1], some ![-1]] = .ok [0, 0, 0] := by
    simp only [SKM.assign, List.mapM_cons, List.mapM_nil, List.map_cons, List.map_nil, d1, d2, a1, a2]
    rfl
  have hu : SKM.update 2 2 [some ![(1 : ℝ)], some ![1], some ![-1]] [0, 0, 0] = [some ![1], some 0] := by
    have : SKM.update 2 2 [some ![(1 : ℝ)], some ![1], some ![-1]] [0, 0, 0] = [some (![(1 : ℝ)] + (![1] + (![-1] + 0))), some 0] := rfl
    rw [this, hs]
  have hc : SKM.close (0 : ℝ) 0 [some ![(1 : ℝ)], some ![1]] [some ![1], some 0] = false := by
    simp [SKM.close, SKM.closeVec, List.finRange_succ]
  refine ⟨⟨SKM.inertia Real.sqrt (1 / 2) [some ![1], some ![1], some ![-1]] [some ![1], some 0] [0, 0, 0], [some ![1], some 0], 1⟩, ?_, ?_, rfl, rfl, ?_⟩
  · simp only [SKM.fit, List.map_cons, List.map_nil, h1, h2, SKM.loop, ha, ok_bind, List.length_cons, List.length_nil, hu, hc]
    rfl
  · simp only [SKM.inertia, List.zipWith_cons_cons, List.zipWith_nil_left, List.getD_cons_zero, d1, d2, SKM.sumOpt, Option.map_some]
    norm_num
  · simp [cosDist, nrm]
    norm_num

end Skada

/-
Property C141, optimal transport: if the target samples are the source samples in some order, label propagation and JDOT recover the labelling.
-/
import Verif.Spec.NoShift
import Verif.Props.OT
import Verif.Props.Jdot
import Verif.Props.NoShift

set_option linter.unusedSectionVars false

namespace Skada
open Np Spec

namespace NoShift
open OT
variable {K : Type} [Field K] [LinearOrder K] [IsStrictOrderedRing K] {α : Type}

theorem count_fin [DecidableEq α] (l : List α) (x : α) : ∑ i : Fin l.length, (if x = l[i] then (1 : K) else 0) = (l.count x : K) := by
  rw [← List.sum_ofFn]
  have : (List.ofFn fun i : Fin l.length => if x = l[i] then (1 : K) else 0) = l.map (fun z => if x = z then (1 : K) else 0) := by
    apply List.ext_getElem <;> simp
  rw [this]
  induction l with
  | nil => simp
  | cons z l ih =>
    rw [List.map_cons, List.sum_cons, ih (by apply List.ext_getElem <;> simp), List.count_cons]
    by_cases h : x = z
    · subst h; simp [add_comm]
    · rw [if_neg h, if_neg (by simpa using Ne.symm h)]; simp

end NoShift

/-- A plan of least total cost `c` between the samples `S` and `T` with equal weights on each side. -/
def Spec.BestPlan {K α : Type} [Field K] [LinearOrder K] (c : α → α → K) (S T : List α) (P : Fin S.length → Fin T.length → K) : Prop :=
  Coupling (fun _ => 1 / (S.length : K)) (fun _ => 1 / (T.length : K)) P ∧
    ∀ Q, Coupling (fun _ => 1 / (S.length : K)) (fun _ => 1 / (T.length : K)) Q → ∑ s, ∑ t, c S[s] T[t] * P s t ≤ ∑ s, ∑ t, c S[s] T[t] * Q s t

namespace NoShift
open OT
variable {K : Type} [Field K] [LinearOrder K] [IsStrictOrderedRing K] {α : Type}

/-- Mass only moves between equal samples: a plan without cost exists, so no optimal plan pays anything. -/
theorem supported {S T : List α} (hn : T.Perm S) (M : Fin S.length → Fin T.length → K) (hz : ∀ s t, S[s] = T[t] → M s t = 0)
    (hp : ∀ s t, S[s] ≠ T[t] → 0 < M s t) (P : Fin S.length → Fin T.length → K)
    (hP : Coupling (fun _ => 1 / (S.length : K)) (fun _ => 1 / (T.length : K)) P)
    (hbest : ∀ Q, Coupling (fun _ => 1 / (S.length : K)) (fun _ => 1 / (T.length : K)) Q → inner M P ≤ inner M Q) :
    inner M P = 0 ∧ ∀ s t, P s t ≠ 0 → S[s] = T[t] := by
  classical
  have hlen := hn.length_eq
  have h0 : ∀ s t, 0 ≤ M s t := fun s t => by
    by_cases h : S[s] = T[t]
    · exact (hz s t h).ge
    · exact (hp s t h).le
  have hcnt : ∀ x ∈ S, (S.count x : K) ≠ 0 := fun x hx => by exact_mod_cast (List.count_pos_iff.2 hx).ne'
  let Q : Fin S.length → Fin T.length → K := fun s t => 1 / ((S.length : K) * (S.count S[s] : K)) * (if S[s] = T[t] then 1 else 0)
  have hQ : Coupling (fun _ => 1 / (S.length : K)) (fun _ => 1 / (T.length : K)) Q := by
    refine ⟨fun s t => ?_, fun s => ?_, fun t => ?_⟩
    · simp only [Q]; split_ifs <;> positivity
    · simp only [Q]
      rw [← Finset.mul_sum, count_fin, hn.count_eq]
      have := hcnt S[s] (List.getElem_mem s.2)
      field_simp
    · have hmem : T[t] ∈ S := hn.mem_iff.1 (List.getElem_mem t.2)
      have : ∀ s, Q s t = 1 / ((S.length : K) * (S.count T[t] : K)) * (if T[t] = S[s] then 1 else 0) := by
        intro s
        simp only [Q]
        by_cases h : S[s] = T[t]
        · rw [if_pos h, if_pos h.symm, h]
        · rw [if_neg h, if_neg (Ne.symm h), mul_zero, mul_zero]
      simp only [this]
      rw [← Finset.mul_sum, count_fin]
      have := hcnt _ hmem
      have hl' : (T.length : K) = (S.length : K) := by rw [hlen]
      rw [show (1 : K) / (T.length : K) = 1 / (S.length : K) by rw [hl']]
      field_simp
  have hQ0 : inner M Q = 0 := by
    unfold OT.inner
    refine Finset.sum_eq_zero fun s _ => Finset.sum_eq_zero fun t _ => ?_
    simp only [Q]
    by_cases h : S[s] = T[t]
    · rw [hz s t h, zero_mul]
    · rw [if_neg h, mul_zero, mul_zero]
  have hnn : ∀ s t, 0 ≤ M s t * P s t := fun s t => mul_nonneg (h0 s t) (hP.nonneg s t)
  have hle : inner M P ≤ 0 := by rw [← hQ0]; exact hbest Q hQ
  have heq : inner M P = 0 := le_antisymm hle (Finset.sum_nonneg fun s _ => Finset.sum_nonneg fun t _ => hnn s t)
  refine ⟨heq, fun s t hne => ?_⟩
  by_contra hst
  have h1 := (Finset.sum_eq_zero_iff_of_nonneg fun s _ => Finset.sum_nonneg fun t _ => hnn s t).1 heq s (Finset.mem_univ _)
  have h2 := (Finset.sum_eq_zero_iff_of_nonneg fun t _ => hnn s t).1 h1 t (Finset.mem_univ _)
  rcases mul_eq_zero.1 h2 with h | h
  · exact (hp s t hst).ne' h
  · exact hne h

end NoShift

section
open OT Map
variable {K : Type} [Field K] [LinearOrder K] [IsStrictOrderedRing K] {α β E : Type}

/-- C141 (label propagation, classes). If the class is a function of the sample (for instance because no sample occurs twice) and the plan is
one of least cost between the samples with equal weights, for any cost that is zero exactly between equal samples, every target sample is
given its true class. -/
theorem C141_otLabelProp (plan : List α → List α → List K → List K → List (List K)) (c : α → α → K) (hc0 : ∀ x, c x x = 0)
    (hcp : ∀ x y, x ≠ y → 0 < c x y) (X : List α) (y : List Int) (sd : List Int) (hX : X ≠ []) (hy : y.length = X.length)
    (hlen : sd.length = X.length) (hn : NoShift sd X) (g : α → Int) (hg : sourceRows sd y = (sourceRows sd X).map g)
    (P : Fin (sourceRows sd X).length → Fin (targetRows sd X).length → K)
    (hplan : plan (sourceRows sd X) (targetRows sd X) (List.replicate (nSource sd) (1 / (nSource sd : K)))
      (List.replicate (nTarget sd) (1 / (nTarget sd : K))) = List.ofFn (fun s => List.ofFn (P s)))
    (hbest : BestPlan c (sourceRows sd X) (targetRows sd X) P) :
    ∃ yout, otLabelProp plan X y (.vec sd) none = .ok (X, yout) ∧ yout.length = X.length ∧
      ∀ (i : Nat) (d : Int) (x : α), sd[i]? = some d → X[i]? = some x → yout[i]? = some (if 0 ≤ d then -1 else g x) := by
  obtain ⟨hs, ht⟩ := NoShift.nonempty hX hlen hn
  obtain ⟨yout, h1, h2, h3, h4⟩ := C36_discrete plan X y sd none hy hlen (by simp) hs
  refine ⟨yout, h1, h2, ?_⟩
  have hsl := length_sourceRows (a := X) hlen
  have htl := length_targetRows (a := X) hlen
  obtain ⟨hP, hbest⟩ := hbest
  obtain ⟨-, hsup⟩ := NoShift.supported hn (fun s t => c (sourceRows sd X)[s] (targetRows sd X)[t]) (fun s t h => by rw [h, hc0])
    (fun s t h => hcp _ _ h) P hP hbest
  intro i d x hd hx
  by_cases h0 : 0 ≤ d
  · rw [if_pos h0]; exact h3 i d hd h0
  rw [if_neg h0]
  obtain ⟨cl, hcl, hwin⟩ := h4 i d hd (not_le.1 h0)
  rw [Option.map_none, Option.map_none, sideWeights, sideWeights, hsl, htl, hplan] at hwin
  have hat := Map.at_target hlen hd (not_le.1 h0)
  rw [hx] at hat
  obtain ⟨hj, hjx⟩ := List.getElem?_eq_some_iff.1 hat.symm
  let t : Fin (targetRows sd X).length := ⟨nTarget (sd.take i), hj⟩
  have hmass : ∀ k, massFrom (List.ofFn (fun s => List.ofFn (P s))) (sourceRows sd y) k (nTarget (sd.take i)) =
      ∑ s : Fin (sourceRows sd X).length, if g (sourceRows sd X)[s] = k then P s t else 0 := by
    intro k
    rw [← classMass_eq, hg, classMass, ← List.sum_ofFn]
    congr 1
    apply List.ext_getElem
    · simp
    · intro m hm1 hm2
      simp [List.getD_eq_getElem?_getD, t, hj]
  simp only [hmass] at hwin
  have hcol := hP.col t
  have htpos : (0 : K) < 1 / ((targetRows sd X).length : K) := by
    rw [htl]; have : (0 : K) < (nTarget sd : K) := by exact_mod_cast ht
    positivity
  have htrue : (∑ s : Fin (sourceRows sd X).length, if g (sourceRows sd X)[s] = g x then P s t else 0) = 1 / ((targetRows sd X).length : K) := by
    rw [← hcol]
    refine Finset.sum_congr rfl fun s _ => ?_
    by_cases hz : P s t = 0
    · simp [hz]
    · rw [if_pos]; rw [hsup s t hz]; exact congrArg g hjx
  have hxs : x ∈ sourceRows sd X := hn.mem_iff.1 (hjx ▸ List.getElem_mem hj)
  have hge := hwin.2.1 (g x) (by rw [hg]; exact List.mem_map_of_mem hxs)
  beta_reduce at hge
  rw [htrue] at hge
  have hpos := lt_of_lt_of_le htpos hge
  obtain ⟨s, -, hs'⟩ := Finset.exists_ne_zero_of_sum_ne_zero hpos.ne'
  rw [hcl]
  congr 1
  by_cases hk : g (sourceRows sd X)[s] = cl
  · rw [if_pos hk] at hs'
    rw [← hk, hsup s t hs']
    exact congrArg g hjx
  · rw [if_neg hk] at hs'
    exact absurd rfl hs'

/-- Sources 1, 2 with classes 5, 7, targets 2, 1: the plan that pairs equal samples is best, and the targets get the classes 7, 5. -/
example : BestPlan (fun x y : ℚ => (x - y) ^ 2) [1, 2] [2, 1] (fun s t => if s.val = t.val then 0 else 1 / 2) ∧
    otLabelProp (fun _ _ _ _ => [[0, (1 / 2 : ℚ)], [1 / 2, 0]]) ([2, 1, 2, 1] : List ℚ) [-1, 5, 7, -1] (.vec [-1, 1, 2, -3]) none =
      .ok ([2, 1, 2, 1], ([7, -1, -1, 5] : List Int)) := by
  refine ⟨⟨⟨?_, ?_, ?_⟩, fun Q hQ => ?_⟩, by decide +kernel⟩
  · intro s t; split_ifs <;> norm_num
  · decide +kernel
  · decide +kernel
  · have : ∑ s : Fin [(1 : ℚ), 2].length, ∑ t : Fin [(2 : ℚ), 1].length,
        ([(1 : ℚ), 2][s] - [(2 : ℚ), 1][t]) ^ 2 * (if s.val = t.val then (0 : ℚ) else 1 / 2) = 0 := by decide +kernel
    exact this.trans_le (Finset.sum_nonneg fun s _ => Finset.sum_nonneg fun t _ => mul_nonneg (sq_nonneg _) (hQ.nonneg s t))

/-- C141 (label propagation, numbers). The same with continuous labels: every target sample is given exactly the number that belongs to it. -/
theorem C141_otLabelPropReg (plan : List α → List α → List K → List K → List (List K)) (c : α → α → K) (hc0 : ∀ x, c x x = 0)
    (hcp : ∀ x y, x ≠ y → 0 < c x y) (X : List α) (y : List K) (sd : List Int) (hX : X ≠ []) (hy : y.length = X.length)
    (hlen : sd.length = X.length) (hn : NoShift sd X) (g : α → K) (hg : sourceRows sd y = (sourceRows sd X).map g)
    (P : Fin (sourceRows sd X).length → Fin (targetRows sd X).length → K)
    (hplan : plan (sourceRows sd X) (targetRows sd X) (List.replicate (nSource sd) (1 / (nSource sd : K)))
      (List.replicate (nTarget sd) (1 / (nTarget sd : K))) = List.ofFn (fun s => List.ofFn (P s)))
    (hbest : BestPlan c (sourceRows sd X) (targetRows sd X) P) :
    ∃ yout, otLabelPropReg plan X y (.vec sd) none = .ok (X, yout) ∧ yout.length = X.length ∧
      ∀ (i : Nat) (d : Int) (x : α), sd[i]? = some d → X[i]? = some x → yout[i]? = some (if 0 ≤ d then none else some (g x)) := by
  obtain ⟨hs, ht⟩ := NoShift.nonempty hX hlen hn
  have hsl := length_sourceRows (a := X) hlen
  have htl := length_targetRows (a := X) hlen
  obtain ⟨hP, hbest⟩ := hbest
  have hcolG : ∀ j, ((List.ofFn (fun s => List.ofFn (P s))).map (fun g => g.getD j 0)).sum =
      (List.replicate (nTarget sd) (1 / (nTarget sd : K))).getD j 0 := by
    intro j
    rw [List.map_ofFn, List.sum_ofFn]
    by_cases hj : j < (targetRows sd X).length
    · have := hP.col ⟨j, hj⟩
      simp only [Function.comp_def, List.getD_eq_getElem?_getD, List.getElem?_ofFn, hj, dif_pos, Option.getD_some]
      rw [this]
      simp [← htl, hj]
    · simp [List.getD_eq_getElem?_getD, hj, ← htl]
  have hpos : ∀ j, j < nTarget sd → (0 : K) < (List.replicate (nTarget sd) (1 / (nTarget sd : K))).getD j 0 := by
    intro j hj
    have : (0 : K) < (nTarget sd : K) := by exact_mod_cast ht
    simp [List.getD_eq_getElem?_getD, hj]
    exact ht
  obtain ⟨yout, h1, h2, h3, h4⟩ := C36_continuous plan X y sd none hX hy hlen (by simp) (List.ofFn (fun s => List.ofFn (P s)))
    (List.replicate (nTarget sd) (1 / (nTarget sd : K))) (by simp [sideWeights, htl]) (by rw [← hplan, Option.map_none, sideWeights, hsl])
    (by rw [hg]; simp) (by
      intro r hr v hv
      obtain ⟨s, rfl⟩ := (List.mem_ofFn' _ _).1 hr
      obtain ⟨t, rfl⟩ := (List.mem_ofFn' _ _).1 hv
      exact hP.nonneg s t) hcolG hpos
  refine ⟨yout, h1, h2, ?_⟩
  obtain ⟨-, hsup⟩ := NoShift.supported hn (fun s t => c (sourceRows sd X)[s] (targetRows sd X)[t]) (fun s t h => by rw [h, hc0])
    (fun s t h => hcp _ _ h) P hP hbest
  intro i d x hd hx
  by_cases h0 : 0 ≤ d
  · rw [if_pos h0]; exact h3 i d hd h0
  rw [if_neg h0, (h4 i d hd (not_le.1 h0)).1]
  have hat := Map.at_target hlen hd (not_le.1 h0)
  rw [hx] at hat
  obtain ⟨hj, hjx⟩ := List.getElem?_eq_some_iff.1 hat.symm
  let t : Fin (targetRows sd X).length := ⟨nTarget (sd.take i), hj⟩
  have hp := hpos (nTarget (sd.take i)) (htl ▸ hj)
  congr 2
  rw [barycentre, div_eq_iff (by rw [hcolG]; exact hp.ne'), List.map_ofFn, hg, List.sum_ofFn, Finset.mul_sum]
  have : List.zipWith (· * ·) (List.ofFn ((fun r : List K => r.getD (nTarget (sd.take i)) 0) ∘ fun s => List.ofFn (P s))) ((sourceRows sd X).map g) =
      List.ofFn (fun s : Fin (sourceRows sd X).length => P s t * g (sourceRows sd X)[s]) := by
    apply List.ext_getElem
    · simp
    · intro m hm1 hm2
      simp [List.getD_eq_getElem?_getD, t, hj]
  rw [this, List.sum_ofFn]
  refine Finset.sum_congr rfl fun s _ => ?_
  have hPt : ((fun r : List K => r.getD (nTarget (sd.take i)) 0) ∘ fun s => List.ofFn (P s)) s = P s t := by
    simp [List.getD_eq_getElem?_getD, t, hj]
  rw [hPt]
  by_cases hz : P s t = 0
  · simp [hz]
  · rw [hsup s t hz, mul_comm]; congr 2

example : otLabelPropReg (fun _ _ _ _ => [[0, 1 / 2], [1 / 2, 0]]) ([2, 1, 2, 1] : List ℚ) ([0, 5, 7, 0] : List ℚ) (.vec [-1, 1, 2, -3]) none =
    .ok ([2, 1, 2, 1], [some 7, none, none, some 5]) := by decide +kernel

theorem NoShift.jdot_iterations {S T : List α} (hn : T.Perm S) (hT : T ≠ [])
    (solve : (Fin S.length → Fin T.length → K) → (Fin S.length → K) → (Fin T.length → K) → Sol K S.length T.length)
    (hs : Solves solve (fun _ => 1 / (S.length : K)) (fun _ => 1 / (T.length : K))) (R : Regressor α E K) (alpha : K) (ha : 0 ≤ alpha) (ha1 : alpha < 1)
    (Mf : Fin S.length → Fin T.length → K) (hz : ∀ s t, S[s] = T[t] → Mf s t = 0) (hp : ∀ s t, S[s] ≠ T[t] → 0 < Mf s t) (g : α → K)
    (hR : ∀ e, R.fit T (T.map g) none = .ok e → ∀ x ∈ T, R.predict e x = g x) (i : Nat) (Ml : Fin S.length → Fin T.length → K)
    (hMl : i = 0 ∨ ((∀ s t, 0 ≤ Ml s t) ∧ ∀ s t, S[s] = T[t] → Ml s t = 0)) (rs : List (Iter E K S.length T.length))
    (h : Iterations (regBodyE solve R alpha Mf (fun t => T[t]) (fun s => g S[s]) none (fun _ => 1 / (S.length : K)) (fun _ => 1 / (T.length : K))) i Ml rs) :
    ∀ r ∈ rs, R.fit T (T.map g) none = .ok r.est ∧ r.sol.value = 0 := by
  induction rs generalizing i Ml with
  | nil => simp
  | cons r rs ih =>
    obtain ⟨h1, h2⟩ := h
    obtain ⟨b1, -, b3, b4⟩ := regBody_ok h1
    have hcost : (∀ s t, S[s] = T[t] → jdotCost alpha Mf Ml i s t = 0) ∧ ∀ s t, S[s] ≠ T[t] → 0 < jdotCost alpha Mf Ml i s t := by
      have h1a : 0 < 1 - alpha := by linarith
      rcases hMl with rfl | ⟨m1, m2⟩
      · exact ⟨fun s t h => by simp [jdotCost, hz s t h], fun s t h => by simp only [jdotCost, gt_iff_lt, lt_irrefl, if_false]; exact mul_pos h1a (hp s t h)⟩
      · constructor <;> intro s t h <;> unfold jdotCost <;> split_ifs
        · rw [hz s t h, m2 s t h, mul_zero, mul_zero, add_zero]
        · rw [hz s t h, mul_zero]
        · exact add_pos_of_pos_of_nonneg (mul_pos h1a (hp s t h)) (mul_nonneg ha (m1 s t))
        · exact mul_pos h1a (hp s t h)
    obtain ⟨c1, c2, c3⟩ := hs (jdotCost alpha Mf Ml i)
    rw [← b1] at c1 c2 c3
    obtain ⟨hval, hsup⟩ := NoShift.supported hn _ hcost.1 hcost.2 r.sol.plan c1 (fun Q hQ => by rw [← c2]; exact c3 Q hQ)
    have hTn : (0 : K) < (T.length : K) := by exact_mod_cast List.length_pos_iff.2 hT
    have hlab : List.ofFn (transported (fun s => g S[s]) r.sol.plan (fun _ => 1 / (T.length : K))) = T.map g := by
      have : transported (fun s => g S[s]) r.sol.plan (fun _ => 1 / (T.length : K)) = fun t => g T[t] := by
        funext t
        unfold transported
        rw [div_eq_iff (by positivity), ← c1.col t, Finset.mul_sum]
        refine Finset.sum_congr rfl fun s _ => ?_
        by_cases hz : r.sol.plan s t = 0
        · simp [hz]
        · beta_reduce; rw [hsup _ _ hz]
      rw [this]
      apply List.ext_getElem <;> simp
    have hX' : List.ofFn (fun t : Fin T.length => T[t]) = T := List.ofFn_getElem (xs := T)
    rw [hX', hlab] at b4
    have b4' : R.fit T (T.map g) none = .ok r.est := b4
    intro r' hr'
    rcases List.mem_cons.1 hr' with rfl | hr'
    · exact ⟨b4', by rw [c2]; exact hval⟩
    · refine ih (i + 1) r.Ml (Or.inr ⟨fun s t => ?_, fun s t hst => ?_⟩) h2 r' hr'
      · rw [b3]; exact sq_nonneg _
      · rw [b3]
        simp only [sqDist]
        have hpr : R.predict r.est T[t] = g T[t] := hR _ b4' _ (List.getElem_mem t.2)
        rw [hpr, hst, sub_self, zero_pow two_ne_zero]

/-- C141 (JDOT regression). If the labels are a function of the sample and the base regressor reproduces the labels it is trained on, every
successful `JDOTRegressor.fit` on samples without shift has trained its base regressor on the target samples with exactly their own labels,
and the plan costs nothing. -/
theorem C141_jdot_regressor (solve : ∀ ns nt, (Fin ns → Fin nt → K) → (Fin ns → K) → (Fin nt → K) → Sol K ns nt) (dist : α → α → K)
    (hc0 : ∀ x, dist x x = 0) (hcp : ∀ x y, x ≠ y → 0 < dist x y) (R : Regressor α E K) (num : β → K) (alpha : K) (ha : 0 ≤ alpha) (ha1 : alpha < 1)
    (n : Nat) (tol : K) (undef : Py (JdotOut E K)) (X : List α) (y : List β) (sd : List Int) (hX : X ≠ []) (hy : y.length = X.length)
    (hlen : sd.length = X.length) (hn : NoShift sd X) (g : α → K) (hg : (sourceRows sd y).map num = (sourceRows sd X).map g)
    (hR : ∀ e, R.fit (targetRows sd X) ((targetRows sd X).map g) none = .ok e → ∀ x ∈ targetRows sd X, R.predict e x = g x)
    (hs : Solves (solve (sourceRows sd X).length (targetRows sd X).length) (fun _ => 1 / ((sourceRows sd X).length : K))
      (fun _ => 1 / ((targetRows sd X).length : K)))
    (hp : ∃ x ∈ X, ∃ x' ∈ X, x ≠ x') (f : JdotOut E K) (h : jdotRegressorFit solve dist R num alpha n tol undef X (some y) none sd = .ok f) :
    R.fit (targetRows sd X) ((targetRows sd X).map g) none = .ok f.est ∧ f.value = 0 := by
  obtain ⟨hns, hnt⟩ := NoShift.nonempty hX hlen hn
  have hsl := length_sourceRows (a := X) hlen
  have htl := length_targetRows (a := X) hlen
  have hsd : sd ≠ [] := RW.sd_ne hX hlen
  have hT : targetRows sd X ≠ [] := by rw [← List.length_pos_iff, htl]; exact hnt
  have hnn : ∀ x y, 0 ≤ dist x y := fun x y => by
    by_cases h : x = y
    · rw [h, hc0]
    · exact (hcp x y h).le
  have hmem : ∀ x ∈ X, x ∈ sourceRows sd X := by
    intro x hx
    obtain ⟨i, hi, rfl⟩ := List.mem_iff_getElem.1 hx
    have hxi : X[i]? = some X[i] := List.getElem?_eq_getElem hi
    have hdi : sd[i]? = some sd[i] := List.getElem?_eq_getElem (hlen ▸ hi)
    by_cases h0 : 0 ≤ sd[i]
    · have := Map.at_source hlen hdi h0
      rw [hxi] at this
      exact List.mem_of_getElem? this.symm
    · have := Map.at_target hlen hdi (not_le.1 h0)
      rw [hxi] at this
      exact hn.mem_iff.1 (List.mem_of_getElem? this.symm)
  have hsum : (0 : K) < ∑ s, ∑ t, crossDist dist (sourceRows sd X) (targetRows sd X) s t := by
    obtain ⟨x, hx, x', hx', hne⟩ := hp
    obtain ⟨s, hs', rfl⟩ := List.mem_iff_getElem.1 (hmem x hx)
    obtain ⟨t, ht', rfl⟩ := List.mem_iff_getElem.1 (hn.mem_iff.2 (hmem x' hx'))
    refine Finset.sum_pos' (fun s _ => Finset.sum_nonneg fun t _ => hnn _ _) ⟨⟨s, hs'⟩, Finset.mem_univ _, ?_⟩
    exact Finset.sum_pos' (fun t _ => hnn _ _) ⟨⟨t, ht'⟩, Finset.mem_univ _, hcp _ _ hne⟩
  have hTn : (0 : K) < ((targetRows sd X).length : K) := by exact_mod_cast List.length_pos_iff.2 hT
  have hSn : (0 : K) < ((sourceRows sd X).length : K) := by rw [hsl]; exact_mod_cast hns
  have hprop : Proper (crossDist dist (sourceRows sd X) (targetRows sd X)) (weightFn ((none : Option (List K)).map (sourceRows sd)))
      (weightFn ((none : Option (List K)).map (targetRows sd))) ∧
      ∀ t : Fin (targetRows sd X).length, marginal (weightFn ((none : Option (List K)).map (targetRows sd))) t ≠ 0 := by
    refine ⟨⟨by rw [hsl]; exact hns, by rw [htl]; exact hnt, hsum.ne', by simp [weightFn], by simp [weightFn]⟩, fun t => ?_⟩
    simp only [marginal, weightFn, Option.map_none]
    positivity
  rw [regressor_unfold solve dist R num alpha n tol undef X y none sd hsd hlen.symm (by omega) (by simp), if_pos hprop] at h
  obtain ⟨sol, hr, -, hval⟩ := JdotOut_of_ok h
  obtain ⟨rs, r, h1, -, -, -, h5, h6, h7, -⟩ := loopE_spec _ _ _ _ _ _ _ _ _ _ _ _ hr
  simp only [Option.toList_none, List.nil_append] at h5
  have hyv : (fun s : Fin (sourceRows sd X).length => ((sourceRows sd y).map num).getD s 0) = fun s => g (sourceRows sd X)[s] := by
    funext s
    rw [hg]
    simp [List.getD_eq_getElem?_getD]
  rw [hyv] at h1
  have hpos : (0 : K) < (∑ s, ∑ t, crossDist dist (sourceRows sd X) (targetRows sd X) s t) /
      (((sourceRows sd X).length : K) * ((targetRows sd X).length : K)) := by positivity
  have := NoShift.jdot_iterations hn hT (solve _ _) hs R alpha ha ha1 (normalised (crossDist dist (sourceRows sd X) (targetRows sd X)))
    (fun s t hst => by simp only [normalised, crossDist]; rw [hst, hc0, zero_div])
    (fun s t hst => div_pos (hcp _ _ hst) hpos) g hR 0 _ (Or.inl rfl) rs h1 r (List.mem_of_getLast? h5)
  rw [h6, hval, h7]
  exact this

theorem NoShift.kept_clean [LinearOrder β] {S T : List α} (hn : T.Perm S) (hT : T ≠ []) (P : Fin S.length → Fin T.length → K)
    (hcol : ∀ t, ∑ s, P s t = 1 / (T.length : K)) (hsup : ∀ s t, P s t ≠ 0 → S[s] = T[t]) (g : α → β) (thr : K) (h0 : 0 ≤ thr) (h1 : thr < 1)
    (kept : List (α × β × K))
    (h : AboveThreshold thr (weightedRows (fun t : Fin T.length => T[t]) P (fun s => g S[s]) (unique (S.map g))) kept) :
    kept = T.map (fun x => (x, g x, 1)) := by
  have hTn : (0 : K) < (T.length : K) := by exact_mod_cast List.length_pos_iff.2 hT
  have hw : ∀ (t : Fin T.length) (c : β), (T.length : K) * (∑ s, if g S[s] = c then P s t else 0) = if g T[t] = c then 1 else 0 := by
    intro t c
    have : ∀ s, (if g S[s] = c then P s t else 0) = if g T[t] = c then P s t else 0 := by
      intro s
      by_cases hz : P s t = 0
      · simp [hz]
      · rw [hsup s t hz]
    simp only [this]
    by_cases hc : g T[t] = c
    · simp only [if_pos hc, hcol]; field_simp
    · simp only [if_neg hc, Finset.sum_const_zero, mul_zero]
  have hrows : weightedRows (fun t : Fin T.length => T[t]) P (fun s => g S[s]) (unique (S.map g)) =
      (T.map (fun x => (unique (S.map g)).map (fun c => (x, c, if g x = c then (1 : K) else 0)))).flatten := by
    unfold weightedRows
    simp only [hw]
    congr 1
    apply List.ext_getElem <;> simp
  rw [hrows] at h
  obtain ⟨m, ⟨r, hr, hrm⟩, hmax, rfl⟩ := h
  have hmem : ∀ x ∈ T, g x ∈ unique (S.map g) := fun x hx => mem_unique.2 (List.mem_map_of_mem (hn.mem_iff.1 hx))
  have hm : m = 1 := by
    obtain ⟨x, l, rfl⟩ := List.exists_cons_of_ne_nil hT
    have hge := hmax (x, g x, 1) (by
      simp only [List.mem_flatten, List.mem_map]
      exact ⟨_, ⟨x, by simp, rfl⟩, List.mem_map.2 ⟨g x, hmem x (by simp), by simp⟩⟩)
    simp only [List.mem_flatten, List.mem_map] at hr
    obtain ⟨_, ⟨z, -, rfl⟩, hr⟩ := hr
    obtain ⟨c, -, rfl⟩ := List.mem_map.1 hr
    rw [← hrm] at hge ⊢
    dsimp only at hge ⊢
    split_ifs at hge ⊢ with hc
    · rfl
    · exact absurd hge (by norm_num)
  subst hm
  rw [mul_one, List.filter_flatten, List.map_map]
  have hone : ∀ x ∈ T, ((List.filter fun r : α × β × K => decide (thr < r.2.2)) ∘
      fun x => (unique (S.map g)).map (fun c => (x, c, if g x = c then (1 : K) else 0))) x = [(x, g x, 1)] := by
    intro x hx
    simp only [Function.comp_apply]
    have hnd : (unique (S.map g)).Nodup := nodup_unique _
    have hin := hmem x hx
    generalize unique (S.map g) = l at hnd hin
    have hoff : ∀ l : List β, g x ∉ l → (l.map (fun c => (x, c, if g x = c then (1 : K) else 0))).filter (fun r => decide (thr < r.2.2)) = [] := by
      intro l hl
      rw [List.filter_eq_nil_iff]
      intro r hr
      obtain ⟨c, hc, rfl⟩ := List.mem_map.1 hr
      have : g x ≠ c := fun h => hl (h ▸ hc)
      simp [this, h0]
    induction l with
    | nil => simp at hin
    | cons c l ih =>
      obtain ⟨n1, n2⟩ := List.nodup_cons.1 hnd
      by_cases hc : g x = c
      · subst hc
        rw [List.map_cons, List.filter_cons, hoff l n1]
        simp [h1]
      · rw [List.map_cons, List.filter_cons, ih n2 (by simpa [hc] using hin)]
        simp [hc, h0]
  rw [List.map_congr_left hone]
  rw [← List.flatMap_def]
  exact List.flatMap_pure_eq_map (fun x => (x, g x, (1 : K))) T

theorem NoShift.jdot_cls_iterations [LinearOrder β] {S T : List α} (hn : T.Perm S) (hT : T ≠ [])
    (solve : (Fin S.length → Fin T.length → K) → (Fin S.length → K) → (Fin T.length → K) → Sol K S.length T.length)
    (hs : Solves solve (fun _ => 1 / (S.length : K)) (fun _ => 1 / (T.length : K))) (C : Classifier α β E K) (metric : String)
    (alpha thr : K) (ha : 0 ≤ alpha) (ha1 : alpha < 1) (h0 : 0 ≤ thr) (ht1 : thr < 1)
    (Mf : Fin S.length → Fin T.length → K) (hz : ∀ s t, S[s] = T[t] → Mf s t = 0) (hp : ∀ s t, S[s] ≠ T[t] → 0 < Mf s t) (g : α → β)
    (cost : E → β → α → K) (hcost : CostOf C metric (unique (S.map g)) cost) (hnn : ∀ e c x, 0 ≤ cost e c x)
    (hC : ∀ e, C.fit (T.map (fun x => (x, g x, 1))) = .ok e → ∀ x ∈ T, cost e (g x) x = 0) (i : Nat) (Ml : Fin S.length → Fin T.length → K)
    (hMl : i = 0 ∨ ((∀ s t, 0 ≤ Ml s t) ∧ ∀ s t, S[s] = T[t] → Ml s t = 0)) (rs : List (Iter E K S.length T.length))
    (h : Iterations (clsBodyE solve C metric alpha thr Mf (fun t => T[t]) (fun s => g S[s]) (unique (S.map g))
      (fun _ => 1 / (S.length : K)) (fun _ => 1 / (T.length : K))) i Ml rs) :
    ∀ r ∈ rs, C.fit (T.map (fun x => (x, g x, 1))) = .ok r.est ∧ r.sol.value = 0 := by
  induction rs generalizing i Ml with
  | nil => simp
  | cons r rs ih =>
    obtain ⟨h1, h2⟩ := h
    obtain ⟨b1, -, b3, m, bm, b4, -⟩ := clsBody_ok hcost h1
    have hc : (∀ s t, S[s] = T[t] → jdotCost alpha Mf Ml i s t = 0) ∧ ∀ s t, S[s] ≠ T[t] → 0 < jdotCost alpha Mf Ml i s t := by
      have h1a : 0 < 1 - alpha := by linarith
      rcases hMl with rfl | ⟨m1, m2⟩
      · exact ⟨fun s t h => by simp [jdotCost, hz s t h], fun s t h => by simp only [jdotCost, gt_iff_lt, lt_irrefl, if_false]; exact mul_pos h1a (hp s t h)⟩
      · constructor <;> intro s t h <;> unfold jdotCost <;> split_ifs
        · rw [hz s t h, m2 s t h, mul_zero, mul_zero, add_zero]
        · rw [hz s t h, mul_zero]
        · exact add_pos_of_pos_of_nonneg (mul_pos h1a (hp s t h)) (mul_nonneg ha (m1 s t))
        · exact mul_pos h1a (hp s t h)
    obtain ⟨c1, c2, c3⟩ := hs (jdotCost alpha Mf Ml i)
    rw [← b1] at c1 c2 c3
    obtain ⟨hval, hsup⟩ := NoShift.supported hn _ hc.1 hc.2 r.sol.plan c1 (fun Q hQ => by rw [← c2]; exact c3 Q hQ)
    have hab := data_above (fun t : Fin T.length => T[t]) r.sol.plan (fun s => g S[s]) (unique (S.map g)) thr m bm
    rw [labelMass_eq] at hab
    rw [NoShift.kept_clean hn hT r.sol.plan c1.col hsup g thr h0 ht1 _ hab] at b4
    intro r' hr'
    rcases List.mem_cons.1 hr' with rfl | hr'
    · exact ⟨b4, by rw [c2]; exact hval⟩
    · refine ih (i + 1) r.Ml (Or.inr ⟨fun s t => ?_, fun s t hst => ?_⟩) h2 r' hr'
      · rw [b3]; exact hnn _ _ _
      · rw [b3]
        have hpr : cost r.est (g T[t]) T[t] = 0 := hC _ b4 _ (List.getElem_mem t.2)
        beta_reduce
        rw [hst]
        exact hpr

/-- C141 (JDOT classification). If the class is a function of the sample and the base classifier has no loss on the data it is trained on, every
successful `JDOTClassifier.fit` on samples without shift has trained its base classifier on the target samples, each once, with exactly its own
class and weight one, and the plan costs nothing. -/
theorem C141_jdot_classifier [LinearOrder β] (solve : ∀ ns nt, (Fin ns → Fin nt → K) → (Fin ns → K) → (Fin nt → K) → Sol K ns nt) (dist : α → α → K)
    (hc0 : ∀ x, dist x x = 0) (hcp : ∀ x y, x ≠ y → 0 < dist x y) (C : Classifier α β E K) (metric : String) (alpha thr : K) (ha : 0 ≤ alpha) (ha1 : alpha < 1)
    (h0 : 0 ≤ thr) (ht1 : thr < 1)
    (n : Nat) (tol : K) (undef : Py (JdotOut E K)) (X : List α) (y : List β) (sd : List Int) (hX : X ≠ []) (hy : y.length = X.length)
    (hlen : sd.length = X.length) (hn : NoShift sd X) (g : α → β) (hg : sourceRows sd y = (sourceRows sd X).map g)
    (cost : E → β → α → K) (hcost : CostOf C metric (unique (sourceRows sd y)) cost) (hnn' : ∀ e c x, 0 ≤ cost e c x)
    (hC : ∀ e, C.fit ((targetRows sd X).map (fun x => (x, g x, 1))) = .ok e → ∀ x ∈ targetRows sd X, cost e (g x) x = 0)
    (hs : Solves (solve (sourceRows sd X).length (targetRows sd X).length) (fun _ => 1 / ((sourceRows sd X).length : K))
      (fun _ => 1 / ((targetRows sd X).length : K)))
    (hp : ∃ x ∈ X, ∃ x' ∈ X, x ≠ x') (f : JdotOut E K) (h : jdotClassifierFit solve dist C metric alpha thr n tol undef X (some y) none sd = .ok f) :
    C.fit ((targetRows sd X).map (fun x => (x, g x, 1))) = .ok f.est ∧ f.value = 0 := by
  obtain ⟨hns, hnt⟩ := NoShift.nonempty hX hlen hn
  have hsl := length_sourceRows (a := X) hlen
  have htl := length_targetRows (a := X) hlen
  have hsd : sd ≠ [] := RW.sd_ne hX hlen
  have hT : targetRows sd X ≠ [] := by rw [← List.length_pos_iff, htl]; exact hnt
  have hnn : ∀ x y, 0 ≤ dist x y := fun x y => by
    by_cases h : x = y
    · rw [h, hc0]
    · exact (hcp x y h).le
  have hmem : ∀ x ∈ X, x ∈ sourceRows sd X := by
    intro x hx
    obtain ⟨i, hi, rfl⟩ := List.mem_iff_getElem.1 hx
    have hxi : X[i]? = some X[i] := List.getElem?_eq_getElem hi
    have hdi : sd[i]? = some sd[i] := List.getElem?_eq_getElem (hlen ▸ hi)
    by_cases h0 : 0 ≤ sd[i]
    · have := Map.at_source hlen hdi h0
      rw [hxi] at this
      exact List.mem_of_getElem? this.symm
    · have := Map.at_target hlen hdi (not_le.1 h0)
      rw [hxi] at this
      exact hn.mem_iff.1 (List.mem_of_getElem? this.symm)
  have hsum : (0 : K) < ∑ s, ∑ t, crossDist dist (sourceRows sd X) (targetRows sd X) s t := by
    obtain ⟨x, hx, x', hx', hne⟩ := hp
    obtain ⟨s, hs', rfl⟩ := List.mem_iff_getElem.1 (hmem x hx)
    obtain ⟨t, ht', rfl⟩ := List.mem_iff_getElem.1 (hn.mem_iff.2 (hmem x' hx'))
    refine Finset.sum_pos' (fun s _ => Finset.sum_nonneg fun t _ => hnn _ _) ⟨⟨s, hs'⟩, Finset.mem_univ _, ?_⟩
    exact Finset.sum_pos' (fun t _ => hnn _ _) ⟨⟨t, ht'⟩, Finset.mem_univ _, hcp _ _ hne⟩
  have hTn : (0 : K) < ((targetRows sd X).length : K) := by exact_mod_cast List.length_pos_iff.2 hT
  have hSn : (0 : K) < ((sourceRows sd X).length : K) := by rw [hsl]; exact_mod_cast hns
  have hprop : Proper (crossDist dist (sourceRows sd X) (targetRows sd X)) (weightFn ((none : Option (List K)).map (sourceRows sd)))
      (weightFn ((none : Option (List K)).map (targetRows sd))) :=
    ⟨by rw [hsl]; exact hns, by rw [htl]; exact hnt, hsum.ne', by simp [weightFn], by simp [weightFn]⟩
  have hl : (sourceRows sd y).length = (sourceRows sd X).length := by rw [hg, List.length_map]
  rw [classifier_unfold solve dist C metric alpha thr n tol undef X y none sd hsd hlen.symm (by omega) (by simp) hl, if_pos hprop] at h
  obtain ⟨sol, hr, -, hval⟩ := JdotOut_of_ok h
  obtain ⟨rs, r, h1, -, -, -, h5, h6, h7, -⟩ := loopE_spec _ _ _ _ _ _ _ _ _ _ _ _ hr
  simp only [Option.toList_none, List.nil_append] at h5
  have hyv : (fun s : Fin (sourceRows sd X).length => (sourceRows sd y)[s]) = fun s => g (sourceRows sd X)[s] := by
    funext s
    simp [hg]
  rw [hyv, hg] at h1
  rw [hg] at hcost
  have hpos : (0 : K) < (∑ s, ∑ t, crossDist dist (sourceRows sd X) (targetRows sd X) s t) /
      (((sourceRows sd X).length : K) * ((targetRows sd X).length : K)) := by positivity
  have := NoShift.jdot_cls_iterations hn hT (solve _ _) hs C metric alpha thr ha ha1 h0 ht1 (normalised (crossDist dist (sourceRows sd X) (targetRows sd X)))
    (fun s t hst => by simp only [normalised, crossDist]; rw [hst, hc0, zero_div])
    (fun s t hst => div_pos (hcp _ _ hst) hpos) g cost hcost hnn' hC 0 _ (Or.inl rfl) rs h1 r (List.mem_of_getLast? h5)
  rw [h6, hval, h7]
  exact this

/-- An exact solver for two samples with equal weights on each side: the cheaper of the two pairings. -/
def demoPairing (ns nt : Nat) (M : Fin ns → Fin nt → ℚ) (_ : Fin ns → ℚ) (_ : Fin nt → ℚ) : Sol ℚ ns nt :=
  let straight : Bool := decide ((∑ s, ∑ t, if s.val = t.val then M s t else 0) ≤ ∑ s, ∑ t, if s.val = t.val then 0 else M s t)
  let T : Fin ns → Fin nt → ℚ := fun s t => if decide (s.val = t.val) = straight then 1 / 2 else 0
  ⟨T, OT.inner M T⟩

/-- A base regressor that learns by heart. -/
def demoMemory : Regressor ℚ (List (ℚ × ℚ)) ℚ := ⟨fun X y _ => .ok (X.zip y), fun e x => ((e.find? (fun p => decide (p.1 = x))).map Prod.snd).getD 0⟩

example : Solves (demoPairing 2 2) (fun _ => 1 / ((2 : Nat) : ℚ)) (fun _ => 1 / ((2 : Nat) : ℚ)) := by
  intro M
  have hval : (demoPairing 2 2 M (fun _ => 1 / ((2 : Nat) : ℚ)) (fun _ => 1 / ((2 : Nat) : ℚ))).value =
      OT.inner M (demoPairing 2 2 M (fun _ => 1 / ((2 : Nat) : ℚ)) (fun _ => 1 / ((2 : Nat) : ℚ))).plan := rfl
  rw [hval]
  obtain ⟨p, hp⟩ : ∃ b : Bool, decide (M 0 0 + M 1 1 ≤ M 0 1 + M 1 0) = b := ⟨_, rfl⟩
  have hplan : (demoPairing 2 2 M (fun _ => 1 / ((2 : Nat) : ℚ)) (fun _ => 1 / ((2 : Nat) : ℚ))).plan =
      fun s t => if decide (s.val = t.val) = p then 1 / 2 else 0 := by
    rw [← hp]
    simp [demoPairing, Fin.sum_univ_two]
  rw [hplan]
  refine ⟨⟨fun s t => ?_, fun s => ?_, fun t => ?_⟩, rfl, ?_⟩
  · split_ifs <;> norm_num
  · rw [Fin.sum_univ_two]
    fin_cases s <;> cases p <;> norm_num
  · rw [Fin.sum_univ_two]
    fin_cases t <;> cases p <;> norm_num
  · intro T hT
    have r0 := hT.row 0
    have r1 := hT.row 1
    have c0 := hT.col 0
    have n00 := hT.nonneg 0 0
    have n01 := hT.nonneg 0 1
    simp only [Fin.sum_univ_two] at r0 r1 c0
    have e01 : T 0 1 = 1 / 2 - T 0 0 := by push_cast at r0; linarith
    have e10 : T 1 0 = 1 / 2 - T 0 0 := by push_cast at c0; linarith
    have e11 : T 1 1 = T 0 0 := by push_cast at r1; linarith
    rw [e01] at n01
    simp only [OT.inner, Fin.sum_univ_two, e01, e10, e11]
    cases p
    · have h := not_le.1 (of_decide_eq_false hp)
      norm_num
      nlinarith
    · have h := of_decide_eq_true hp
      norm_num
      nlinarith

/-- Sources 1, 2 with labels 5, 7, targets 2, 1: the base regressor is trained on the targets with the labels 7, 5. -/
example : (jdotRegressorFit demoPairing (fun x y : ℚ => (x - y) ^ 2) demoMemory id (1 / 2) 10 (1 / 100) (.error .valueError) [2, 1, 2, 1]
      (some [0, 5, 7, 0]) none [-1, 1, 2, -3]).map (fun f => (f.est, f.value, f.lossOt.length)) = .ok ([(2, 7), (1, 5)], 0, 2) := by
  decide +kernel

/-- The scores of the classes 5 and 7 from what was learned by heart. -/
def demoScores (e : List (ℚ × Int × ℚ)) (x : ℚ) : List ℚ :=
  if ((e.find? (fun p => decide (p.1 = x))).map (fun p => p.2.1)) = some 5 then [1, -1] else [-1, 1]

/-- A base classifier that learns by heart. -/
def demoRecall : Classifier ℚ Int (List (ℚ × Int × ℚ)) ℚ := ⟨fun d => .ok d, fun e => ⟨none, none, some (fun x => .multi (demoScores e x))⟩⟩

/-- Sources 1, 2 with classes 5, 7, targets 2, 1: the base classifier is trained on the targets with the classes 7, 5 and weight one. -/
example : (jdotClassifierFit demoPairing (fun x y : ℚ => (x - y) ^ 2) demoRecall "hinge" (1 / 2) (1 / 10) 10 (1 / 100) (.error .valueError)
      [2, 1, 2, 1] (some [-1, 5, 7, -1]) none [-1, 1, 2, -3]).map (fun f => (f.est, f.value)) = .ok ([(2, 7, 1), (1, 5, 1)], 0) := by
  decide +kernel

/-- This classifier has a cost that is never negative and vanishes on the data it was trained on. -/
example : CostOf demoRecall "hinge" [5, 7] (fun e c x => hingeCost (oneHot [5, 7] c) (.multi (demoScores e x))) ∧
    (∀ e c x, 0 ≤ hingeCost (oneHot [5, 7] c) (.multi (demoScores e x))) ∧
    ∀ e, demoRecall.fit ([2, 1].map (fun x => (x, (if x = 1 then 5 else 7 : Int), 1))) = .ok e →
      ∀ x ∈ ([2, 1] : List ℚ), hingeCost (oneHot [5, 7] (if x = 1 then 5 else 7 : Int)) (.multi (demoScores e x)) = 0 := by
  refine ⟨fun e c x => ?_, fun e c x => ?_, ?_⟩
  · have h : (oneHot [5, 7] c : List ℚ) = [if (5 : Int) = c then 1 else 0, if (7 : Int) = c then 1 else 0] := by simp [oneHot, RW.indicator, eq_comm]
    beta_reduce
    rw [h]
    generalize (if (5 : Int) = c then (1 : ℚ) else 0) = u
    generalize (if (7 : Int) = c then (1 : ℚ) else 0) = v
    unfold demoRecall demoScores clsCost
    dsimp only
    split_ifs <;> first | rfl | simp_all
  · refine List.sum_nonneg fun v hv => ?_
    obtain ⟨i, hi, rfl⟩ := List.mem_iff_getElem.1 hv
    simp [hinge]
  · intro e he
    cases he
    decide +kernel

end
end Skada

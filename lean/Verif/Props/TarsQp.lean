import Mathlib.LinearAlgebra.Matrix.ToLinearEquiv
import Verif.Props.KmmQp

/-!
# C127: MMD target shift solves the program it documents
-/

set_option linter.unusedSectionVars false

namespace Skada
open FW RW Spec QP

variable {K : Type} [Field K] [LinearOrder K] [IsStrictOrderedRing K] {α β : Type}

namespace Spec

/-- The labelled source rows `S` with weights `u`. -/
def weighted (S : List (α × β)) (u : Fin S.length → K) : List (K × α) := List.ofFn (fun i => (u i, S[i].1))

/-- `Ω` smooths weights over the labels: `Ω (L + reg I) = L`, where `L` is the kernel matrix of the labels. -/
def LabelSmoother (l : β → β → K) (reg : K) (S : List (α × β)) (Ω : Matrix (Fin S.length) (Fin S.length) K) : Prop :=
  let L : Matrix (Fin S.length) (Fin S.length) K := fun i j => l S[i].2 S[j].2
  Ω * (L + reg • 1) = L

/-- Admissible weights of `MMDTarSReweight`, up to `δ`: between 0 and 10, with a sum between `m (1 - eps)` and `m (1 + eps)`. -/
def TarsAdmissible {m : Nat} (δ eps : K) (v : Fin m → K) : Prop :=
  (∀ i, 0 ≤ v i + δ ∧ v i ≤ 10 + δ) ∧ (m : K) * (1 - eps) ≤ ∑ i, v i + δ ∧ ∑ i, v i ≤ (m : K) * (1 + eps) + δ

end Spec

namespace QP

theorem quad_congr {m c : Nat} (B : Matrix (Fin m) (Fin c) K) (G : Matrix (Fin m) (Fin m) K) (x : Fin c → K) :
    x ⬝ᵥ ((B.transpose * G * B).mulVec x) = (B.mulVec x) ⬝ᵥ (G.mulVec (B.mulVec x)) := by
  rw [← Matrix.mulVec_mulVec, ← Matrix.mulVec_mulVec, Matrix.dotProduct_mulVec, Matrix.vecMul_transpose]

theorem quad_sum {c : Nat} (Q : Fin c → Fin c → K) (x : Fin c → K) :
    ∑ i, ∑ j, x i * Q i j * x j = x ⬝ᵥ (Matrix.mulVec Q x) := by
  simp only [dotProduct, Matrix.mulVec, Finset.mul_sum]
  exact Finset.sum_congr rfl fun i _ => Finset.sum_congr rfl fun j _ => by ring

theorem forall_rows {n : Nat} {rows : List (Fin n → K)} {v : List K} {P : (Fin n → K) → K → Prop} :
    (∀ (k : Nat) row r, rows[k]? = some row → v[k]? = some r → P row r) ↔ ∀ p ∈ rows.zip v, P p.1 p.2 := by
  constructor
  · intro h p hp
    obtain ⟨k, hk⟩ := List.mem_iff_getElem?.1 hp
    rw [List.getElem?_zip_eq_some] at hk
    exact h k _ _ hk.1 hk.2
  · intro h k row r h1 h2
    refine h (row, r) (List.mem_iff_getElem?.2 ⟨k, ?_⟩)
    rw [List.getElem?_zip_eq_some]
    exact ⟨h1, h2⟩

theorem zip_ofFn_replicate {n m : Nat} (f : Fin m → (Fin n → K)) (a : K) :
    (List.ofFn f).zip (List.replicate m a) = List.ofFn (fun i => (f i, a)) := by
  apply List.ext_getElem <;> simp

theorem tars_feasible_iff {m c : Nat} (δ eps : K) (R : Matrix (Fin m) (Fin c) K) (x : Fin c → K) :
    QPFeasible δ (some (List.ofFn (fun i => fun j => -R i j) ++ [fun j => -∑ i, R i j] ++ List.ofFn (fun i => R i) ++ [fun j => ∑ i, R i j]))
      (some (List.replicate m 0 ++ [-((m : K) * (1 - eps))] ++ List.replicate m 10 ++ [(m : K) * (1 + eps)])) none none none none x ↔
      TarsAdmissible δ eps (fun i => ∑ j, R i j * x j) := by
  have hsum : ∑ j, (∑ i, R i j) * x j = ∑ i, ∑ j, R i j * x j := by
    simp only [Finset.sum_mul]
    exact Finset.sum_comm
  have hneg : ∀ f : Fin c → K, ∑ j, (-f j) * x j = -∑ j, f j * x j := by
    intro f
    rw [← Finset.sum_neg_distrib]
    exact Finset.sum_congr rfl fun j _ => by ring
  have hz : (List.ofFn (fun i => fun j => -R i j) ++ [fun j => -∑ i, R i j] ++ List.ofFn (fun i => R i) ++ [fun j => ∑ i, R i j]).zip
      (List.replicate m 0 ++ [-((m : K) * (1 - eps))] ++ List.replicate m 10 ++ [(m : K) * (1 + eps)])
      = List.ofFn (fun i => ((fun j => -R i j : Fin c → K), (0 : K))) ++ [((fun j => -∑ i, R i j), -((m : K) * (1 - eps)))] ++
        List.ofFn (fun i => (R i, (10 : K))) ++ [((fun j => ∑ i, R i j), (m : K) * (1 + eps))] := by
    rw [List.zip_append (by simp), List.zip_append (by simp), List.zip_append (by simp), zip_ofFn_replicate, zip_ofFn_replicate]
    rfl
  have key : (∀ (k : Nat) row r,
      (List.ofFn (fun i => fun j => -R i j) ++ [fun j => -∑ i, R i j] ++ List.ofFn (fun i => R i) ++ [fun j => ∑ i, R i j])[k]? = some row →
      (List.replicate m 0 ++ [-((m : K) * (1 - eps))] ++ List.replicate m 10 ++ [(m : K) * (1 + eps)])[k]? = some r →
      ∑ i, row i * x i ≤ r + δ) ↔ TarsAdmissible δ eps (fun i => ∑ j, R i j * x j) := by
    rw [forall_rows (P := fun row r => ∑ i, row i * x i ≤ r + δ), hz]
    simp only [List.mem_append, List.mem_ofFn, List.mem_singleton, or_imp, forall_and, forall_eq, forall_exists_index,
      forall_apply_eq_imp_iff, hneg, hsum]
    unfold TarsAdmissible
    constructor
    · rintro ⟨⟨⟨h1, h2⟩, h3⟩, h4⟩
      exact ⟨fun i => ⟨by linarith [h1 i], h3 i⟩, by linarith, h4⟩
    · rintro ⟨h1, h2, h3⟩
      exact ⟨⟨⟨fun i => by linarith [(h1 i).1], by linarith⟩, fun i => (h1 i).2⟩, h3⟩
  constructor
  · intro h
    exact key.1 (h.ineq _ _ rfl rfl)
  · intro h
    refine ⟨?_, by simp, by simp, by simp⟩
    intro rows v hr hv
    cases hr; cases hv
    exact key.2 h

theorem mmdSq_weighted (k : α → α → K) (hsym : ∀ x y, k x y = k y x) (S : List (α × β)) (Xt : List α) (hs : S ≠ []) (ht : Xt ≠ [])
    (u : Fin S.length → K) :
    mmdSq k (weighted S u) Xt = 2 / (S.length : K) ^ 2 * (1 / 2 * (∑ i, ∑ j, u i * k S[i].1 S[j].1 * u j)
      - ((S.length : K) / (Xt.length : K)) * ∑ i, u i * (Xt.map (fun t => k t S[i].1)).sum)
      + pairSum k (Xt.map (fun t => (1, t))) (Xt.map (fun t => (1, t))) / (Xt.length : K) ^ 2 := by
  have hn : (S.length : K) ≠ 0 := by
    have : 0 < S.length := List.length_pos_iff.2 hs
    exact_mod_cast this.ne'
  have hm : (Xt.length : K) ≠ 0 := by
    have : 0 < Xt.length := List.length_pos_iff.2 ht
    exact_mod_cast this.ne'
  unfold mmdSq weighted
  rw [pairSum_ofFn, pairSum_ofFn_left]
  simp only [List.length_ofFn]
  congr 1
  have hq : ∑ i, ∑ j, u i * u j * k S[i].1 S[j].1 = ∑ i, ∑ j, u i * k S[i].1 S[j].1 * u j :=
    Finset.sum_congr rfl fun i _ => Finset.sum_congr rfl fun j _ => by ring
  have hk : ∀ i : Fin S.length, (Xt.map (fun t => k t S[i].1)).sum = (Xt.map (fun t => k S[i].1 t)).sum := by
    intro i
    congr 1
    exact List.map_congr_left fun t _ => hsym _ _
  simp only [hk]
  rw [hq]
  field_simp

/-- The heart of C127, for any matrix `R`. -/
theorem tars_core {c : Nat} (ε δ : K) (minimize : ∀ n, Call K n → Py (Result K n)) (hm : ∀ n, SolverOk ε δ (minimize n))
    (k : α → α → K) (hsym : ∀ x y, k x y = k y x) (hpsd : ∀ l : List (K × α), 0 ≤ pairSum k l l)
    (sqrt : K → K) (tol : K) (maxIter : Nat) (S : List (α × β)) (Xt : List α) (hs : S ≠ []) (ht : Xt ≠ [])
    (omega : Matrix (Fin S.length) (Fin S.length) K) (R : Matrix (Fin S.length) (Fin c) K) (v a : List K)
    (h : tarsProgram minimize k sqrt tol maxIter S Xt omega R = .ok (v, a, [])) :
    ∃ x : Fin c → K, a = List.ofFn x ∧ v = List.ofFn (R.mulVec x) ∧
      TarsAdmissible δ (10 / (4 * sqrt S.length)) (R.mulVec x) ∧
      ∀ z : Fin c → K, TarsAdmissible 0 (10 / (4 * sqrt S.length)) (R.mulVec z) →
        mmdSq k (weighted S (omega.transpose.mulVec (R.mulVec x))) Xt ≤
          mmdSq k (weighted S (omega.transpose.mulVec (R.mulVec z))) Xt
            + (2 * ε + 1 / 1000000000000 * ∑ j, z j ^ 2) / (S.length : K) ^ 2 := by
  have hn : (0 : K) < (S.length : K) := by
    have : 0 < S.length := List.length_pos_iff.2 hs
    exact_mod_cast this
  set G : Matrix (Fin S.length) (Fin S.length) K := fun i j => k S[i].1 S[j].1 with hG
  set P := R.transpose * (omega * G * omega.transpose) * R + (1 / 1000000000000 : K) • (1 : Matrix (Fin c) (Fin c) K) with hP
  set q : Fin c → K := fun j => -((S.length : K) / (Xt.length : K)) * ∑ i, (∑ l, (Xt.map (fun t => k t S[l].1)).sum * omega i l) * R i j with hq
  have hPB : P = (omega.transpose * R).transpose * G * (omega.transpose * R) + (1 / 1000000000000 : K) • (1 : Matrix (Fin c) (Fin c) K) := by
    rw [hP, Matrix.transpose_mul, Matrix.transpose_transpose]
    simp only [Matrix.mul_assoc]
  have hmv : ∀ x : Fin c → K, omega.transpose.mulVec (R.mulVec x) = (omega.transpose * R).mulVec x := fun x => by
    rw [Matrix.mulVec_mulVec]
  have hquad : ∀ x : Fin c → K, ∑ i, ∑ j, x i * P i j * x j =
      (∑ i, ∑ j, (omega.transpose.mulVec (R.mulVec x)) i * k S[i].1 S[j].1 * (omega.transpose.mulVec (R.mulVec x)) j)
        + 1 / 1000000000000 * ∑ j, x j ^ 2 := by
    intro x
    have e1 := quad_sum P x
    rw [e1]
    have e2 := quad_sum (fun i j => k S[i].1 S[j].1) (omega.transpose.mulVec (R.mulVec x))
    rw [e2, hPB, Matrix.add_mulVec, dotProduct_add, quad_congr, hmv, Matrix.smul_mulVec, Matrix.one_mulVec]
    congr 1
    simp only [dotProduct, Pi.smul_apply, smul_eq_mul, Finset.mul_sum]
    exact Finset.sum_congr rfl fun j _ => by ring
  set κ : Fin S.length → K := fun l => (Xt.map (fun t => k t S[l].1)).sum with hκ
  have hlin : ∀ x : Fin c → K, ∑ j, x j * q j = -((S.length : K) / (Xt.length : K)) *
      ∑ l, (omega.transpose.mulVec (R.mulVec x)) l * κ l := by
    intro x
    have e1 : ∑ l, (omega.transpose.mulVec (R.mulVec x)) l * κ l = (omega.mulVec κ) ⬝ᵥ (R.mulVec x) := by
      have e : (omega.mulVec κ) ⬝ᵥ (R.mulVec x) = κ ⬝ᵥ (omega.transpose.mulVec (R.mulVec x)) := by
        rw [Matrix.dotProduct_mulVec κ, Matrix.vecMul_transpose]
      rw [e]
      exact Finset.sum_congr rfl fun l _ => mul_comm _ _
    have e2 : ∑ j, x j * q j = -((S.length : K) / (Xt.length : K)) * ((Matrix.vecMul (omega.mulVec κ) R) ⬝ᵥ x) := by
      simp only [hq, dotProduct, Matrix.vecMul, Finset.mul_sum]
      refine Finset.sum_congr rfl fun j _ => ?_
      simp only [Finset.sum_mul, Finset.mul_sum, Matrix.mulVec, dotProduct]
      refine Finset.sum_congr rfl fun i _ => Finset.sum_congr rfl fun l _ => ?_
      ring
    rw [e1, e2, Matrix.dotProduct_mulVec]
  have hobj : ∀ x : Fin c → K, mmdSq k (weighted S (omega.transpose.mulVec (R.mulVec x))) Xt =
      2 / (S.length : K) ^ 2 * (qpObjective P (some q) x - 1 / 2 * (1 / 1000000000000 * ∑ j, x j ^ 2))
      + pairSum k (Xt.map (fun t => (1, t))) (Xt.map (fun t => (1, t))) / (Xt.length : K) ^ 2 := by
    intro x
    rw [mmdSq_weighted k hsym S Xt hs ht]
    simp only [qpObjective, Option.elim]
    rw [hquad, hlin]
    ring
  have hsymP : ∀ i j, P i j = P j i := by
    have hGt : G.transpose = G := by
      ext i j
      exact hsym _ _
    have : P.transpose = P := by
      rw [hPB]
      generalize omega.transpose * R = B
      simp [Matrix.transpose_mul, hGt, Matrix.mul_assoc]
    intro i j
    exact congrFun (congrFun this.symm i) j
  have hpsdP : ∀ d : Fin c → K, 0 ≤ ∑ i, ∑ j, P i j * d i * d j := by
    intro d
    have e : ∑ i, ∑ j, P i j * d i * d j = ∑ i, ∑ j, d i * P i j * d j :=
      Finset.sum_congr rfl fun i _ => Finset.sum_congr rfl fun j _ => by ring
    rw [e, hquad]
    have h1 := hpsd (weighted S (omega.transpose.mulVec (R.mulVec d)))
    unfold weighted at h1
    rw [pairSum_ofFn] at h1
    have h2 : (0 : K) ≤ ∑ j, d j ^ 2 := Finset.sum_nonneg fun j _ => sq_nonneg _
    have h3 : ∑ i : Fin S.length, ∑ j : Fin S.length, (omega.transpose.mulVec (R.mulVec d)) i * (omega.transpose.mulVec (R.mulVec d)) j * k S[i].1 S[j].1
        = ∑ i : Fin S.length, ∑ j : Fin S.length, (omega.transpose.mulVec (R.mulVec d)) i * k S[i].1 S[j].1 * (omega.transpose.mulVec (R.mulVec d)) j :=
      Finset.sum_congr rfl fun i _ => Finset.sum_congr rfl fun j _ => by ring
    simp only [] at h1
    rw [h3] at h1
    positivity
  unfold tarsProgram at h
  simp only [bind, Except.bind, pure, Except.pure] at h
  cases ho : qpSolveAll (minimize c) "scipy" P (some q)
      (some (List.ofFn (fun i => fun j => -R i j) ++ [fun j => -∑ i, R i j] ++ List.ofFn (fun i => R i) ++ [fun j => ∑ i, R i j]))
      (some (List.replicate S.length 0 ++ [-((S.length : K) * (1 - 10 / (4 * sqrt S.length)))] ++ List.replicate S.length 10 ++
        [(S.length : K) * (1 + 10 / (4 * sqrt S.length))])) none none none none none tol maxIter false false with
  | error e =>
    erw [ho] at h
    cases h
  | ok out =>
    erw [ho] at h
    simp only [Except.ok.injEq, Prod.mk.injEq] at h
    obtain ⟨hv, ha, hw⟩ := h
    obtain ⟨hfe, -, hopt⟩ := C125_optimal ε δ (minimize c) (hm c) P (some q) _ _ none none none none none tol maxIter false false
      (by simp) (by simp) (by simp) (by simp) hsymP hpsdP out ho hw
    rw [tars_feasible_iff] at hfe
    refine ⟨out.x, ha.symm, hv.symm, hfe, fun z hz => ?_⟩
    have := hopt z ((tars_feasible_iff _ _ _ _).2 hz)
    rw [hobj, hobj]
    have h3 : (0 : K) < 2 / (S.length : K) ^ 2 := by positivity
    have h4 := mul_le_mul_of_nonneg_left this h3.le
    have h5 : (0 : K) ≤ ∑ j, out.x j ^ 2 := Finset.sum_nonneg fun j _ => sq_nonneg _
    have h6 : (2 * ε + 1 / 1000000000000 * ∑ j, z j ^ 2) / (S.length : K) ^ 2
        = 2 / (S.length : K) ^ 2 * (ε + 1 / 2 * (1 / 1000000000000 * ∑ j, z j ^ 2)) := by ring
    have h7 : 0 ≤ 2 / (S.length : K) ^ 2 * (1 / 2 * (1 / 1000000000000 * ∑ j, out.x j ^ 2)) := by positivity
    rw [h6]
    linarith

/-- A run of the program with a solver that knows the answer (for the example below). -/
theorem program_oracle {c : Nat} (minimize : ∀ n, Call K n → Py (Result K n)) (p : Fin c → K) (hp : minimize c = oracle p)
    (k : α → α → K) (sqrt : K → K) (tol : K) (maxIter : Nat) (S : List (α × β)) (Xt : List α)
    (omega : Matrix (Fin S.length) (Fin S.length) K) (R : Matrix (Fin S.length) (Fin c) K)
    (hadm : TarsAdmissible 0 (10 / (4 * sqrt S.length)) (fun i => ∑ j, R i j * p j))
    (G : Matrix (Fin S.length) (Fin S.length) K) (hG : G = fun i j => k S[i].1 S[j].1)
    (hst : ∀ z : Fin c → K, TarsAdmissible 0 (10 / (4 * sqrt S.length)) (fun i => ∑ j, R i j * z j) →
      0 ≤ ∑ i, qpJac (R.transpose * (omega * G * omega.transpose) * R
          + (1 / 1000000000000 : K) • (1 : Matrix (Fin c) (Fin c) K))
        (some (fun j => -((S.length : K) / (Xt.length : K)) * ∑ i, (∑ l, (Xt.map (fun t => k t S[l].1)).sum * omega i l) * R i j)) p i
        * (z i - p i)) :
    tarsProgram minimize k sqrt tol maxIter S Xt omega R = .ok (List.ofFn (fun i => ∑ j, R i j * p j), List.ofFn p, []) := by
  subst hG
  set P := R.transpose * (omega * _ * omega.transpose) * R + (1 / 1000000000000 : K) • (1 : Matrix (Fin c) (Fin c) K) with hP
  set q : Fin c → K := fun j => -((S.length : K) / (Xt.length : K)) * ∑ i, (∑ l, (Xt.map (fun t => k t S[l].1)).sum * omega i l) * R i j with hq
  have hor := fun x => feasible_iff 0 P (some q)
      (some (List.ofFn (fun i => fun j => -R i j) ++ [fun j => -∑ i, R i j] ++ List.ofFn (fun i => R i) ++ [fun j => ∑ i, R i j]))
      (some (List.replicate S.length 0 ++ [-((S.length : K) * (1 - 10 / (4 * sqrt S.length)))] ++ List.replicate S.length 10 ++
        [(S.length : K) * (1 + 10 / (4 * sqrt S.length))])) none none none none none tol maxIter false (by simp) (by simp) (by simp) (by simp) x
  have ho : qpSolveAll (minimize c) "scipy" P (some q)
      (some (List.ofFn (fun i => fun j => -R i j) ++ [fun j => -∑ i, R i j] ++ List.ofFn (fun i => R i) ++ [fun j => ∑ i, R i j]))
      (some (List.replicate S.length 0 ++ [-((S.length : K) * (1 - 10 / (4 * sqrt S.length)))] ++ List.replicate S.length 10 ++
        [(S.length : K) * (1 + 10 / (4 * sqrt S.length))])) none none none none none tol maxIter false false
      = .ok ⟨p, qpFunc P (some q) p, none, []⟩ := by
    unfold qpSolveAll qpScipy
    rw [if_pos rfl, hp]
    change (oracle p (theCall P (some q)
      (some (List.ofFn (fun i => fun j => -R i j) ++ [fun j => -∑ i, R i j] ++ List.ofFn (fun i => R i) ++ [fun j => ∑ i, R i j]))
      (some (List.replicate S.length 0 ++ [-((S.length : K) * (1 - 10 / (4 * sqrt S.length)))] ++ List.replicate S.length 10 ++
        [(S.length : K) * (1 + 10 / (4 * sqrt S.length))])) none none none none none tol maxIter false) >>= _) = _
    unfold oracle
    rw [if_pos]
    · rfl
    · exact ⟨(hor p).2 ((tars_feasible_iff _ _ _ _).2 hadm), fun z hz => hst z ((tars_feasible_iff _ _ _ _).1 ((hor z).1 hz))⟩
  unfold tarsProgram
  simp only [bind, Except.bind, pure, Except.pure]
  erw [ho]

theorem smoother_det (l : β → β → K) (hpsd : ∀ s : List (K × β), 0 ≤ pairSum l s s) (reg : K) (hreg : 0 < reg)
    (S : List (α × β)) (L : Matrix (Fin S.length) (Fin S.length) K) (hL : L = fun i j => l S[i].2 S[j].2) :
    (L + reg • (1 : Matrix (Fin S.length) (Fin S.length) K)).det ≠ 0 := by
  intro h0
  obtain ⟨v, hv, hv0⟩ := Matrix.exists_mulVec_eq_zero_iff.2 h0
  have h1 : v ⬝ᵥ (Matrix.mulVec (L + reg • 1) v) = 0 := by rw [hv0, dotProduct_zero]
  rw [Matrix.add_mulVec, dotProduct_add, Matrix.smul_mulVec, Matrix.one_mulVec, dotProduct_smul, smul_eq_mul] at h1
  have h2 : 0 ≤ v ⬝ᵥ L.mulVec v := by
    have e := quad_sum L v
    have h3 := hpsd (List.ofFn fun i => (v i, S[i].2))
    rw [pairSum_ofFn] at h3
    rw [← e]
    refine h3.trans_eq (Finset.sum_congr rfl fun i _ => Finset.sum_congr rfl fun j _ => ?_)
    rw [hL]
    show v i * v j * l S[i].2 S[j].2 = v i * l S[i].2 S[j].2 * v j
    ring
  have h4 : 0 < v ⬝ᵥ v := by
    obtain ⟨i, hi⟩ := Function.ne_iff.1 hv
    refine Finset.sum_pos' (fun j _ => mul_self_nonneg _) ⟨i, Finset.mem_univ _, ?_⟩
    exact mul_self_pos.2 hi
  nlinarith

theorem omega_ok (l : β → β → K) (hpsd : ∀ s : List (K × β), 0 ≤ pairSum l s s) (reg : K) (hreg : 0 < reg)
    (S : List (α × β)) : ∃ Ω, tarsOmega l reg S = .ok Ω ∧ LabelSmoother l reg S Ω := by
  set L : Matrix (Fin S.length) (Fin S.length) K := fun i j => l S[i].2 S[j].2 with hL
  have hdet := smoother_det l hpsd reg hreg S L hL
  refine ⟨L * (L + reg • 1)⁻¹, ?_, ?_⟩
  · unfold tarsOmega
    rw [if_neg hdet]
  · unfold LabelSmoother
    exact Matrix.nonsing_inv_mul_cancel_right _ _ (isUnit_iff_ne_zero.2 hdet)

theorem smoother_unique {l : β → β → K} {reg : K} {S : List (α × β)} {A B : Matrix (Fin S.length) (Fin S.length) K}
    (hpsd : ∀ s : List (K × β), 0 ≤ pairSum l s s) (hreg : 0 < reg)
    (hA : LabelSmoother l reg S A) (hB : LabelSmoother l reg S B) : A = B := by
  unfold LabelSmoother at hA hB
  set L : Matrix (Fin S.length) (Fin S.length) K := fun i j => l S[i].2 S[j].2 with hL
  have hu := isUnit_iff_ne_zero.2 (smoother_det l hpsd reg hreg S L hL)
  have e : A * (L + reg • 1) = B * (L + reg • 1) := hA.trans hB.symm
  rw [← Matrix.mul_nonsing_inv_cancel_right (L + reg • 1) A hu, e, Matrix.mul_nonsing_inv_cancel_right _ _ hu]

theorem zip_fst_snd (S : List (α × β)) : (S.map Prod.fst).zip (S.map Prod.snd) = S := by
  induction S with
  | nil => rfl
  | cons p S ih => simp [ih]

theorem mulVec_indicator [DecidableEq β] {m : Nat} (classes : List β) (hn : classes.Nodup) (y : Fin m → β) (hy : ∀ i, y i ∈ classes)
    (coef : β → K) (i : Fin m) :
    Matrix.mulVec (fun i (j : Fin classes.length) => if y i = classes[j] then (1 : K) else 0) (fun j => coef classes[j]) i = coef (y i) := by
  obtain ⟨n, hlt, hj⟩ := List.getElem_of_mem (hy i)
  simp only [Matrix.mulVec, dotProduct]
  rw [Finset.sum_eq_single (⟨n, hlt⟩ : Fin classes.length)]
  · simp [hj]
  · intro b _ hb
    rw [if_neg, zero_mul]
    intro h
    apply hb
    apply Fin.ext
    rw [← hj] at h
    exact ((List.Nodup.getElem_inj_iff hn).1 h).symm
  · simp

end QP

section

/-! ### C127 -/

/-- **C127 (classes)** `MMDTarSReweight` for class labels, with symmetric positive semidefinite kernels on data and labels and
`reg > 0`: if no warning was issued, all `m` source rows of a class carry one weight, the weights are between 0 and 10 with
a sum between `m (1 - eps)` and `m (1 + eps)`, `eps = 10 / (4 √m)` (up to the solver's `δ`), and among all such weights
none brings the label-smoothed source mean closer to the target mean in the kernel space, up to the solver's `ε` and the
`1e-12` added to the diagonal. -/
theorem C127_classes [LinearOrder β] (ε δ : K) (minimize : ∀ n, Call K n → Py (Result K n)) (hm : ∀ n, SolverOk ε δ (minimize n))
    (k : α → α → K) (hsym : ∀ x y, k x y = k y x) (hpsd : ∀ s : List (K × α), 0 ≤ pairSum k s s)
    (l : β → β → K) (lpsd : ∀ s : List (K × β), 0 ≤ pairSum l s s)
    (sqrt : K → K) (reg tol : K) (hreg : 0 < reg) (maxIter : Nat) (S : List (α × β)) (Xt : List α) (hs : S ≠ []) (ht : Xt ≠ [])
    (v a : List K)
    (h : tarsDiscrete minimize k l sqrt reg tol maxIter (S.map Prod.fst) Xt (S.map Prod.snd) = .ok (v, a, [])) :
    ∃ (Ω : Matrix (Fin S.length) (Fin S.length) K) (coef : β → K), LabelSmoother l reg S Ω ∧
      v = S.map (fun p => coef p.2) ∧ a = (Np.unique (S.map Prod.snd)).map coef ∧
      TarsAdmissible δ (10 / (4 * sqrt S.length)) (fun i : Fin S.length => coef S[i].2) ∧
      ∀ coef' : β → K, TarsAdmissible 0 (10 / (4 * sqrt S.length)) (fun i : Fin S.length => coef' S[i].2) →
        mmdSq k (weighted S (Ω.transpose.mulVec fun i => coef S[i].2)) Xt ≤
          mmdSq k (weighted S (Ω.transpose.mulVec fun i => coef' S[i].2)) Xt
            + (2 * ε + 1 / 1000000000000 * ((Np.unique (S.map Prod.snd)).map (fun c => coef' c ^ 2)).sum) / (S.length : K) ^ 2 := by
  obtain ⟨Ω, ho, hsm⟩ := omega_ok (α := α) l lpsd reg hreg S
  unfold tarsDiscrete at h
  rw [if_neg (by simp [hs, ht]), zip_fst_snd] at h
  unfold tarsOnClasses at h
  rw [ho] at h
  simp only [] at h
  set classes := Np.unique (S.map Prod.snd) with hc
  have hnd : classes.Nodup := Np.nodup_unique _
  have hmem : ∀ i : Fin S.length, S[i].2 ∈ classes := fun i => by
    rw [hc, Np.mem_unique]
    exact List.mem_map.2 ⟨_, List.getElem_mem _, rfl⟩
  obtain ⟨x, ha, hv, had, hopt⟩ := tars_core ε δ minimize hm k hsym hpsd sqrt tol maxIter S Xt hs ht Ω _ v a h
  obtain ⟨coef, hcoef⟩ : ∃ coef : β → K, x = fun j => coef classes[j] := by
    refine ⟨fun c => if hj : ∃ j : Fin classes.length, classes[j] = c then x hj.choose else 0, ?_⟩
    funext j
    have hj : ∃ j' : Fin classes.length, classes[j'] = classes[j] := ⟨j, rfl⟩
    simp only [hj, dif_pos]
    congr 1
    apply Fin.ext
    exact ((List.Nodup.getElem_inj_iff hnd).1 hj.choose_spec).symm
  have hmv : ∀ f : β → K, Matrix.mulVec (fun (i : Fin S.length) (j : Fin classes.length) => if S[i].2 = classes[j] then (1 : K) else 0)
      (fun j => f classes[j]) = fun i => f S[i].2 := fun f => by
    funext i
    exact mulVec_indicator classes hnd (fun i : Fin S.length => S[i].2) hmem f i
  rw [hcoef, hmv] at had hv
  refine ⟨Ω, coef, hsm, ?_, ?_, had, fun coef' hc' => ?_⟩
  · rw [hv]
    apply List.ext_getElem <;> simp
  · rw [ha, hcoef]
    apply List.ext_getElem <;> simp
  · have := hopt (fun j => coef' classes[j]) (by rw [hmv]; exact hc')
    rw [hcoef, hmv, hmv] at this
    refine this.trans_eq ?_
    congr 4
    have : classes.map (fun c => coef' c ^ 2) = List.ofFn (fun j : Fin classes.length => coef' classes[j] ^ 2) := by
      apply List.ext_getElem <;> simp
    rw [this, List.sum_ofFn]

/-- **C127 (continuous)** The same for continuous labels, where the admissible weights are those obtained by smoothing any vector over
the labels. -/
theorem C127_continuous (ε δ : K) (minimize : ∀ n, Call K n → Py (Result K n)) (hm : ∀ n, SolverOk ε δ (minimize n))
    (k : α → α → K) (hsym : ∀ x y, k x y = k y x) (hpsd : ∀ s : List (K × α), 0 ≤ pairSum k s s)
    (l : β → β → K) (lpsd : ∀ s : List (K × β), 0 ≤ pairSum l s s)
    (sqrt : K → K) (reg tol : K) (hreg : 0 < reg) (maxIter : Nat) (S : List (α × β)) (Xt : List α) (hs : S ≠ []) (ht : Xt ≠ [])
    (v a : List K)
    (h : tarsContinuous minimize k l sqrt reg tol maxIter (S.map Prod.fst) Xt (S.map Prod.snd) = .ok (v, a, [])) :
    ∃ (Ω : Matrix (Fin S.length) (Fin S.length) K) (x : Fin S.length → K), LabelSmoother l reg S Ω ∧
      a = List.ofFn x ∧ v = List.ofFn (Ω.mulVec x) ∧
      TarsAdmissible δ (10 / (4 * sqrt S.length)) (Ω.mulVec x) ∧
      ∀ z : Fin S.length → K, TarsAdmissible 0 (10 / (4 * sqrt S.length)) (Ω.mulVec z) →
        mmdSq k (weighted S (Ω.transpose.mulVec (Ω.mulVec x))) Xt ≤
          mmdSq k (weighted S (Ω.transpose.mulVec (Ω.mulVec z))) Xt
            + (2 * ε + 1 / 1000000000000 * ∑ j, z j ^ 2) / (S.length : K) ^ 2 := by
  obtain ⟨Ω, ho, hsm⟩ := omega_ok (α := α) l lpsd reg hreg S
  unfold tarsContinuous at h
  rw [if_neg (by simp [hs, ht]), zip_fst_snd] at h
  unfold tarsOnValues at h
  rw [ho] at h
  obtain ⟨x, ha, hv, had, hopt⟩ := tars_core ε δ minimize hm k hsym hpsd sqrt tol maxIter S Xt hs ht Ω _ v a h
  exact ⟨Ω, x, hsm, ha, hv, had, hopt⟩

/-- **C127 (empty sides)** Without source rows or without target rows `fit` raises `ValueError`, whatever the solver, the kernels and the
parameters, and with discrete as with continuous labels. -/
theorem C127_empty [LinearOrder β] (minimize : ∀ n, Call K n → Py (Result K n)) (k : α → α → K) (l : β → β → K) (sqrt : K → K) (reg tol : K)
    (maxIter : Nat) (S : List (α × β)) (Xt : List α) (h : S = [] ∨ Xt = []) :
    tarsDiscrete minimize k l sqrt reg tol maxIter (S.map Prod.fst) Xt (S.map Prod.snd) = .error .valueError ∧
      tarsContinuous minimize k l sqrt reg tol maxIter (S.map Prod.fst) Xt (S.map Prod.snd) = .error .valueError :=
  ⟨if_pos (by simpa using h), if_pos (by simpa using h)⟩

/-- **C127 (smoothing)** The smoothing matrix exists and is unique, so the inversion in `fit` cannot fail: with data on both sides, the
only errors are those of the solver. -/
theorem C127_errors [LinearOrder β] (minimize : ∀ n, Call K n → Py (Result K n)) (k : α → α → K) (l : β → β → K)
    (lpsd : ∀ s : List (K × β), 0 ≤ pairSum l s s) (sqrt : K → K) (reg tol : K) (hreg : 0 < reg) (maxIter : Nat) (S : List (α × β)) (Xt : List α)
    (hs : S ≠ []) (ht : Xt ≠ []) :
    (∃! Ω, LabelSmoother l reg S Ω) ∧
    (∀ e, tarsDiscrete minimize k l sqrt reg tol maxIter (S.map Prod.fst) Xt (S.map Prod.snd) = .error e →
      ∃ n call, minimize n call = .error e) ∧
    (∀ e, tarsContinuous minimize k l sqrt reg tol maxIter (S.map Prod.fst) Xt (S.map Prod.snd) = .error e →
      ∃ n call, minimize n call = .error e) := by
  obtain ⟨Ω, ho, hsm⟩ := omega_ok (α := α) l lpsd reg hreg S
  have key : ∀ {c : Nat} (R : Matrix (Fin S.length) (Fin c) K) e,
      tarsProgram minimize k sqrt tol maxIter S Xt Ω R = .error e → ∃ n call, minimize n call = .error e := by
    intro c R e h
    unfold tarsProgram qpSolveAll qpScipy at h
    simp only [bind, Except.bind, pure, Except.pure, if_true] at h
    split at h
    · rename_i e' he'
      split at he'
      · rename_i e'' he''
        cases he'; cases h
        exact ⟨_, _, he''⟩
      · cases he'
    · cases h
  refine ⟨⟨Ω, hsm, fun Ω' h' => smoother_unique lpsd hreg h' hsm⟩, fun e h => ?_, fun e h => ?_⟩
  · unfold tarsDiscrete at h
    rw [if_neg (by simp [hs, ht]), zip_fst_snd] at h
    unfold tarsOnClasses at h
    rw [ho] at h
    exact key _ e h
  · unfold tarsContinuous at h
    rw [if_neg (by simp [hs, ht]), zip_fst_snd] at h
    unfold tarsOnValues at h
    rw [ho] at h
    exact key _ e h

theorem const_psd (s : List (ℚ × Int)) : 0 ≤ pairSum (fun _ _ : Int => (1 : ℚ)) s s := by
  have : pairSum (fun _ _ : Int => (1 : ℚ)) s s = (s.map (fun p => p.1)).sum * (s.map (fun p => p.1)).sum := by
    unfold pairSum
    rw [← List.sum_map_mul_right]
    congr 1
    refine List.map_congr_left fun p _ => ?_
    rw [← List.sum_map_mul_left]
    congr 1
    refine List.map_congr_left fun q _ => ?_
    ring
  rw [this]
  exact mul_self_nonneg _

/-- Four source rows of one class, one target row, and a solver meeting the contract that succeeds: all weights are `9 / 4`. -/
example : (∀ n, SolverOk 0 0 (oracle (fun _ : Fin n => (9 / 4 : ℚ)))) ∧
    tarsDiscrete (fun n => oracle (fun _ : Fin n => (9 / 4 : ℚ))) (fun x y : ℚ => x * y) (fun _ _ : Int => 1) (fun _ => 2) 1 (1 / 1000000) 1000
      (([(1, 7), (1, 7), (2, 7), (2, 7)] : List (ℚ × Int)).map Prod.fst) [100] (([(1, 7), (1, 7), (2, 7), (2, 7)] : List (ℚ × Int)).map Prod.snd)
      = .ok ([9 / 4, 9 / 4, 9 / 4, 9 / 4], [9 / 4], []) := by
  refine ⟨fun n => oracle_ok _, ?_⟩
  unfold tarsDiscrete
  rw [if_neg (by simp), zip_fst_snd]
  have hu : Np.unique (([(1, 7), (1, 7), (2, 7), (2, 7)] : List (ℚ × Int)).map Prod.snd) = [7] := by decide +kernel
  rw [hu]
  unfold tarsOnClasses
  obtain ⟨Ω, ho, hsm⟩ := omega_ok (fun _ _ : Int => (1 : ℚ)) const_psd 1 one_pos ([(1, 7), (1, 7), (2, 7), (2, 7)] : List (ℚ × Int))
  have hΩ : Ω = fun _ _ => 1 / 5 := by
    refine smoother_unique const_psd one_pos hsm ?_
    unfold LabelSmoother
    funext i j
    revert i j
    decide +kernel
  rw [ho, hΩ]
  simp only []
  refine (program_oracle _ (fun _ => 9 / 4) rfl _ _ _ _ _ _ _ _ ?_ _ rfl ?_).trans ?_
  rotate_left 2
  · decide +kernel
  · unfold TarsAdmissible
    decide +kernel
  · intro z hz
    have h1 := hz.2.2
    have h2 : ∀ z : Fin 1 → ℚ, ∑ i : Fin 4, ∑ j : Fin 1, (if ([(1, 7), (1, 7), (2, 7), (2, 7)] : List (ℚ × Int))[i].2 = [7][j] then (1 : ℚ) else 0) * z j
      = 4 * z 0 := by
      intro z
      simp [Fin.sum_univ_four]
      ring
    have h3 : 4 * z 0 ≤ 9 := by
      rw [← h2]
      refine h1.trans ?_
      norm_num
    refine Finset.sum_nonneg fun i _ => mul_nonneg_of_nonpos_of_nonpos ?_ ?_
    · revert i
      decide +kernel
    · have : i = 0 := (Subsingleton.elim (α := Fin 1) i 0)
      rw [this]
      linarith

end

end Skada

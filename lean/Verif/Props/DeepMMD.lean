/-
C87: the maximum mean discrepancy loss of DAN.
-/
import Verif.Props.DeepCoral
import Verif.Lemmas.Kernel

namespace Skada

namespace Spec

/-- Euclidean distance. -/
noncomputable def eucl {d : Nat} (x y : Fin d → ℝ) : ℝ := Real.sqrt (∑ j, (x j - y j) ^ 2)

/-- `∑_σ exp (-‖x - y‖ / σ)`. -/
noncomputable def expKernel {d : Nat} (sigmas : List ℝ) (x y : Fin d → ℝ) : ℝ := (sigmas.map (fun s => Real.exp (-(eucl x y / s)))).sum

/-- `∑_σ exp (-‖x - y‖² / σ)`, the multi-bandwidth Gaussian kernel. -/
noncomputable def gaussKernel {d : Nat} (sigmas : List ℝ) (x y : Fin d → ℝ) : ℝ :=
  (sigmas.map (fun s => Real.exp (-(eucl x y ^ 2 / s)))).sum

/-- Average of `k x y` over all pairs of rows. -/
noncomputable def pairMean {d : Nat} (k : (Fin d → ℝ) → (Fin d → ℝ) → ℝ) (X Y : List (Fin d → ℝ)) : ℝ :=
  ((X ×ˢ Y).map (fun p => k p.1 p.2)).sum / ((X.length : ℝ) * (Y.length : ℝ))

/-- The share of the rows of `X` equal to `x`. -/
noncomputable def share {d : Nat} (X : List (Fin d → ℝ)) (x : Fin d → ℝ) : ℝ :=
  (@List.countP (Fin d → ℝ) (fun z => @decide (z = x) (Classical.propDecidable _)) X : ℝ) / (X.length : ℝ)

end Spec

open Spec

section Mmd
variable {d : Nat}

namespace DL

theorem dist_eq (x y : Fin d → ℝ) : dist Real.sqrt x y = eucl x y := rfl

theorem eucl_eq_norm (x y : Fin d → ℝ) : eucl x y = ‖(WithLp.toLp 2 x : EuclideanSpace ℝ (Fin d)) - WithLp.toLp 2 y‖ := by
  rw [EuclideanSpace.norm_eq]
  simp [eucl]

theorem eucl_nonneg (x y : Fin d → ℝ) : 0 ≤ eucl x y := Real.sqrt_nonneg _

theorem eucl_comm (x y : Fin d → ℝ) : eucl x y = eucl y x := by
  rw [eucl_eq_norm, eucl_eq_norm, norm_sub_rev]

theorem eucl_self (x : Fin d → ℝ) : eucl x x = 0 := by rw [eucl_eq_norm]; simp

theorem kernel_eq (sg : List ℝ) (x y : Fin d → ℝ) : kernel Real.sqrt Real.exp sg x y = expKernel sg x y := by
  unfold kernel expKernel
  congr 1
  refine List.map_congr_left fun s _ => ?_
  rw [dist_eq]
  congr 2
  ring

theorem sum_product {α β : Type} (f : α → β → ℝ) (X : List α) (Y : List β) :
    ((X ×ˢ Y).map (fun p => f p.1 p.2)).sum = (X.map (fun x => (Y.map (fun y => f x y)).sum)).sum := by
  induction X with
  | nil => simp
  | cons x X ih => rw [List.product_cons, List.map_append, List.sum_append, ih, List.map_cons, List.sum_cons, List.map_map]; rfl

theorem meanKernel_eq (k : (Fin d → ℝ) → (Fin d → ℝ) → ℝ) (X Y : List (Fin d → ℝ)) : meanKernel k X Y = pairMean k X Y := by
  unfold meanKernel pairMean
  rw [sum_product]

theorem sum_share (f : (Fin d → ℝ) → ℝ) (X : List (Fin d → ℝ)) (s : Finset (Fin d → ℝ)) (hs : ∀ x ∈ X, x ∈ s) :
    (X.map f).sum / (X.length : ℝ) = ∑ x ∈ s, share X x * f x := by
  classical
  have h1 : (X.map f).sum = ∑ x ∈ s, (X.countP (fun z => decide (z = x)) : ℝ) * f x := by
    rw [Finset.sum_list_map_count]
    rw [Finset.sum_subset (s₁ := X.toFinset) (s₂ := s) (fun x hx => hs x (List.mem_toFinset.1 hx))]
    · refine Finset.sum_congr rfl fun x _ => ?_
      rw [nsmul_eq_mul, List.count]
      congr 2
    · intro x _ hx
      rw [List.count_eq_zero_of_not_mem (fun h => hx (List.mem_toFinset.2 h)), zero_nsmul]
  rw [h1, Finset.sum_div]
  refine Finset.sum_congr rfl fun x _ => ?_
  have : share X x = (X.countP (fun z => decide (z = x)) : ℝ) / (X.length : ℝ) := by
    unfold share
    congr 3
    funext z
    exact decide_eq_decide.2 Iff.rfl
  rw [this]
  ring

theorem pairMean_share (k : (Fin d → ℝ) → (Fin d → ℝ) → ℝ) (X Y : List (Fin d → ℝ)) (s : Finset (Fin d → ℝ)) (hX : ∀ x ∈ X, x ∈ s)
    (hY : ∀ y ∈ Y, y ∈ s) : pairMean k X Y = ∑ x ∈ s, ∑ y ∈ s, share X x * share Y y * k x y := by
  rw [← meanKernel_eq]
  unfold meanKernel
  rw [mul_comm, ← div_div]
  have h1 : (X.map (fun x => (Y.map (fun y => k x y)).sum)).sum / (Y.length : ℝ) =
      (X.map (fun x => ∑ y ∈ s, share Y y * k x y)).sum := by
    rw [← RWsum X (fun x => (Y.map (fun y => k x y)).sum) (Y.length : ℝ)]
    congr 1
    exact List.map_congr_left fun x _ => sum_share (fun y => k x y) Y s hY
  rw [h1, sum_share _ X s hX]
  refine Finset.sum_congr rfl fun x _ => ?_
  rw [Finset.mul_sum]
  exact Finset.sum_congr rfl fun y _ => by ring
where
  RWsum {α : Type} (l : List α) (f : α → ℝ) (c : ℝ) : (l.map (fun x => f x / c)).sum = (l.map f).sum / c := by
    induction l with
    | nil => simp
    | cons a l ih => simp only [List.map_cons, List.sum_cons, ih]; ring

/-- The squared RKHS distance as a quadratic form in the difference of the empirical distributions. -/
theorem mmd_quadratic (k : (Fin d → ℝ) → (Fin d → ℝ) → ℝ) (hk : ∀ x y, k x y = k y x) (X Y : List (Fin d → ℝ)) (s : Finset (Fin d → ℝ))
    (hX : ∀ x ∈ X, x ∈ s) (hY : ∀ y ∈ Y, y ∈ s) :
    pairMean k X X + pairMean k Y Y - 2 * pairMean k X Y =
      ∑ x : s, ∑ y : s, (share X x - share Y x) * (share X y - share Y y) * k x y := by
  rw [pairMean_share k X X s hX hX, pairMean_share k Y Y s hY hY, pairMean_share k X Y s hX hY]
  have hsym : ∑ x ∈ s, ∑ y ∈ s, share X x * share Y y * k x y = ∑ x ∈ s, ∑ y ∈ s, share Y x * share X y * k x y := by
    rw [Finset.sum_comm]
    exact Finset.sum_congr rfl fun x _ => Finset.sum_congr rfl fun y _ => by rw [hk]; ring
  have h2 : 2 * ∑ x ∈ s, ∑ y ∈ s, share X x * share Y y * k x y =
      ∑ x ∈ s, ∑ y ∈ s, share X x * share Y y * k x y + ∑ x ∈ s, ∑ y ∈ s, share Y x * share X y * k x y := by
    rw [← hsym]; ring
  rw [h2, ← Finset.sum_add_distrib, ← Finset.sum_add_distrib, ← Finset.sum_sub_distrib]
  rw [Finset.univ_eq_attach, ← Finset.sum_attach s]
  refine Finset.sum_congr rfl fun x _ => ?_
  rw [← Finset.sum_add_distrib, ← Finset.sum_add_distrib, ← Finset.sum_sub_distrib, ← Finset.sum_attach s]
  exact Finset.sum_congr rfl fun y _ => by ring

theorem expKernel_symm (sg : List ℝ) (x y : Fin d → ℝ) : expKernel sg x y = expKernel sg y x := by
  unfold expKernel; rw [eucl_comm]

theorem expKernel_bounds (sg : List ℝ) (h : ∀ s ∈ sg, 0 < s) (x y : Fin d → ℝ) :
    0 ≤ expKernel sg x y ∧ expKernel sg x y ≤ sg.length := by
  unfold expKernel
  induction sg with
  | nil => simp
  | cons s sg ih =>
    obtain ⟨h1, h2⟩ := ih fun s hs => h s (List.mem_cons_of_mem _ hs)
    have h3 : Real.exp (-(eucl x y / s)) ≤ 1 := by
      rw [Real.exp_le_one_iff, neg_nonpos]
      exact div_nonneg (eucl_nonneg x y) (h s List.mem_cons_self).le
    have h4 := Real.exp_pos (-(eucl x y / s))
    simp only [List.map_cons, List.sum_cons, List.length_cons]
    push_cast
    exact ⟨by linarith, by linarith⟩

theorem expKernel_psd (sg : List ℝ) (hsg : ∀ s ∈ sg, 0 < s) (S : Finset (Fin d → ℝ)) :
    Ker.PSD (fun x y : S => expKernel sg (x : Fin d → ℝ) y) := by
  induction sg with
  | nil => exact ⟨fun _ _ => rfl, fun c => by simp [expKernel]⟩
  | cons s l ih =>
    have h1 := ih fun s hs => hsg s (List.mem_cons_of_mem _ hs)
    have h2 := Ker.psd_laplace (fun x : S => (WithLp.toLp 2 (x : Fin d → ℝ) : EuclideanSpace ℝ (Fin d)))
      (b := 1 / s) (one_div_nonneg.2 (hsg s List.mem_cons_self).le)
    refine (h2.add h1).congr' ?_
    intro x y
    simp only [expKernel, List.map_cons, List.sum_cons, ← eucl_eq_norm]
    congr 3
    ring

theorem share_of_not_mem {X : List (Fin d → ℝ)} {x : Fin d → ℝ} (h : x ∉ X) : share X x = 0 := by
  unfold share
  rw [List.countP_eq_zero.2 (fun z hz => by
    simp only [decide_eq_true_eq]
    exact fun e => h (e ▸ hz))]
  simp

theorem pairMean_bounds (k : (Fin d → ℝ) → (Fin d → ℝ) → ℝ) (L : ℝ) (h : ∀ x y, 0 ≤ k x y ∧ k x y ≤ L) (X Y : List (Fin d → ℝ))
    (hX : X ≠ []) (hY : Y ≠ []) : 0 ≤ pairMean k X Y ∧ pairMean k X Y ≤ L := by
  unfold pairMean
  have hn : (0 : ℝ) < X.length := by exact_mod_cast List.length_pos_iff.2 hX
  have hm : (0 : ℝ) < Y.length := by exact_mod_cast List.length_pos_iff.2 hY
  have hlen : ((X ×ˢ Y).length : ℝ) = (X.length : ℝ) * Y.length := by rw [List.length_product]; push_cast; rfl
  have hb : ∀ l : List ((Fin d → ℝ) × (Fin d → ℝ)), 0 ≤ (l.map (fun p => k p.1 p.2)).sum ∧
      (l.map (fun p => k p.1 p.2)).sum ≤ l.length * L := by
    intro l
    induction l with
    | nil => simp
    | cons p l ih =>
      obtain ⟨h1, h2⟩ := ih
      obtain ⟨h3, h4⟩ := h p.1 p.2
      simp only [List.map_cons, List.sum_cons, List.length_cons]
      push_cast
      exact ⟨by linarith, by linarith⟩
  obtain ⟨h1, h2⟩ := hb (X ×ˢ Y)
  rw [hlen] at h2
  refine ⟨div_nonneg h1 (by positivity), ?_⟩
  rw [div_le_iff₀ (by positivity)]
  linarith

theorem dan_some (pow2 : Nat → ℝ) (eps : ℝ) (sg : List ℝ) (h : ∀ s ∈ sg, 0 < s) (Xs Xt : List (Fin d → ℝ)) (hs : Xs ≠ []) (ht : Xt ≠ []) :
    dan Real.sqrt Real.exp pow2 eps (some sg) Xs Xt =
      some (pairMean (expKernel sg) Xs Xs + pairMean (expKernel sg) Xt Xt - 2 * pairMean (expKernel sg) Xs Xt) := by
  unfold dan
  simp only [Option.getD_some]
  rw [if_neg (fun h0 => (h 0 h0).ne' rfl)]
  unfold mmd
  rw [if_neg (by simp [hs, ht]), meanKernel_eq, meanKernel_eq, meanKernel_eq]
  have : kernel (d := d) Real.sqrt Real.exp sg = expKernel sg := by funext x y; exact kernel_eq sg x y
  rw [this]

end DL

/-- C87.  For positive bandwidths the DAN loss is the maximum mean discrepancy `mean k(s,s') + mean k(t,t') - 2 mean k(s,t)` of the two
batches for the kernel `∑_σ exp(-‖x - y‖ / σ)`; it is symmetric, between 0 and twice the number of bandwidths. -/
theorem C87_dan (pow2 : Nat → ℝ) (eps : ℝ) (sg : List ℝ) (hsg : ∀ s ∈ sg, 0 < s) (Xs Xt : List (Fin d → ℝ)) (hs : Xs ≠ []) (ht : Xt ≠ []) :
    ∃ v, DL.dan Real.sqrt Real.exp pow2 eps (some sg) Xs Xt = some v ∧ DL.dan Real.sqrt Real.exp pow2 eps (some sg) Xt Xs = some v ∧
      v = pairMean (expKernel sg) Xs Xs + pairMean (expKernel sg) Xt Xt - 2 * pairMean (expKernel sg) Xs Xt ∧
      0 ≤ v ∧ v ≤ 2 * sg.length := by
  classical
  refine ⟨_, DL.dan_some pow2 eps sg hsg Xs Xt hs ht, ?_, rfl, ?_, ?_⟩
  · rw [DL.dan_some pow2 eps sg hsg Xt Xs ht hs]
    have hs1 : ∀ x ∈ Xs, x ∈ (Xs ++ Xt).toFinset := fun x hx => by simp [hx]
    have hs2 : ∀ x ∈ Xt, x ∈ (Xs ++ Xt).toFinset := fun x hx => by simp [hx]
    rw [DL.mmd_quadratic _ (DL.expKernel_symm sg) Xs Xt _ hs1 hs2, DL.mmd_quadratic _ (DL.expKernel_symm sg) Xt Xs _ hs2 hs1]
    congr 1
    exact Finset.sum_congr rfl fun x _ => Finset.sum_congr rfl fun y _ => by ring
  · have hs1 : ∀ x ∈ Xs, x ∈ (Xs ++ Xt).toFinset := fun x hx => by simp [hx]
    have hs2 : ∀ x ∈ Xt, x ∈ (Xs ++ Xt).toFinset := fun x hx => by simp [hx]
    rw [DL.mmd_quadratic _ (DL.expKernel_symm sg) Xs Xt _ hs1 hs2]
    exact (DL.expKernel_psd sg hsg _).2 _
  · obtain ⟨_, h1⟩ := DL.pairMean_bounds _ _ (DL.expKernel_bounds sg hsg) Xs Xs hs hs
    obtain ⟨_, h2⟩ := DL.pairMean_bounds _ _ (DL.expKernel_bounds sg hsg) Xt Xt ht ht
    obtain ⟨h3, _⟩ := DL.pairMean_bounds _ _ (DL.expKernel_bounds sg hsg) Xs Xt hs ht
    linarith

/-- Two one-point batches at distance 3, bandwidth 1: the loss is `2 - 2 e⁻³`. -/
example (pow2 : Nat → ℝ) : DL.dan Real.sqrt Real.exp pow2 0 (some [1]) [![0]] [![3]] = some (1 + 1 - 2 * Real.exp (-3)) := by
  rw [DL.dan_some pow2 0 [1] (by simp) [![0]] [![3]] (by simp) (by simp)]
  have h : Real.sqrt (3 ^ 2) = 3 := Real.sqrt_sq (by norm_num)
  have h' : Real.sqrt ((-3) ^ 2) = 3 := by rw [show ((-3 : ℝ)) ^ 2 = 3 ^ 2 by norm_num]; exact h
  simp [pairMean, expKernel, eucl, SProd.sprod, List.product, h]

/-- C87.  The loss vanishes exactly when the two batches have the same empirical distribution: every point makes up the same share of
both.  In particular it is zero on batches that are equal up to order and positive on batches that differ. -/
theorem C87_zero_iff (pow2 : Nat → ℝ) (eps : ℝ) (sg : List ℝ) (hsg : ∀ s ∈ sg, 0 < s) (hne : sg ≠ []) (Xs Xt : List (Fin d → ℝ))
    (hs : Xs ≠ []) (ht : Xt ≠ []) :
    DL.dan Real.sqrt Real.exp pow2 eps (some sg) Xs Xt = some 0 ↔ ∀ x, share Xs x = share Xt x := by
  classical
  rw [DL.dan_some pow2 eps sg hsg Xs Xt hs ht]
  have hs1 : ∀ x ∈ Xs, x ∈ (Xs ++ Xt).toFinset := fun x hx => by simp [hx]
  have hs2 : ∀ x ∈ Xt, x ∈ (Xs ++ Xt).toFinset := fun x hx => by simp [hx]
  rw [DL.mmd_quadratic _ (DL.expKernel_symm sg) Xs Xt _ hs1 hs2, Option.some_inj]
  constructor
  · intro h x
    by_cases hx : x ∈ (Xs ++ Xt).toFinset
    swap
    · have h1 : x ∉ Xs := fun h => hx (hs1 x h)
      have h2 : x ∉ Xt := fun h => hx (hs2 x h)
      rw [DL.share_of_not_mem h1, DL.share_of_not_mem h2]
    obtain ⟨s, l, rfl⟩ := List.exists_cons_of_ne_nil hne
    have hp1 := Ker.psd_laplace (fun x : (Xs ++ Xt).toFinset => (WithLp.toLp 2 (x : Fin d → ℝ) : EuclideanSpace ℝ (Fin d)))
      (b := 1 / s) (one_div_nonneg.2 (hsg s List.mem_cons_self).le)
    have hp2 := DL.expKernel_psd l (fun s hs => hsg s (List.mem_cons_of_mem _ hs)) (Xs ++ Xt).toFinset
    set c : (Xs ++ Xt).toFinset → ℝ := fun x => share Xs x - share Xt x with hc
    have hsplit : ∑ x : (Xs ++ Xt).toFinset, ∑ y : (Xs ++ Xt).toFinset, c x * c y * expKernel (s :: l) (x : Fin d → ℝ) (y : Fin d → ℝ) =
        ∑ x : (Xs ++ Xt).toFinset, ∑ y : (Xs ++ Xt).toFinset, c x * c y * Real.exp (-(1 / s *
          ‖(WithLp.toLp 2 (x : Fin d → ℝ) : EuclideanSpace ℝ (Fin d)) - WithLp.toLp 2 (y : Fin d → ℝ)‖)) +
        ∑ x : (Xs ++ Xt).toFinset, ∑ y : (Xs ++ Xt).toFinset, c x * c y * expKernel l (x : Fin d → ℝ) (y : Fin d → ℝ) := by
      rw [← Finset.sum_add_distrib]
      refine Finset.sum_congr rfl fun x _ => ?_
      rw [← Finset.sum_add_distrib]
      refine Finset.sum_congr rfl fun y _ => ?_
      rw [← DL.eucl_eq_norm]
      simp only [expKernel, List.map_cons, List.sum_cons]
      rw [show eucl (x : Fin d → ℝ) y / s = 1 / s * eucl (x : Fin d → ℝ) y by ring]
      ring
    have h' := hsplit.symm.trans h
    have hz : ∑ x : (Xs ++ Xt).toFinset, ∑ y : (Xs ++ Xt).toFinset, c x * c y * Real.exp (-(1 / s *
          ‖(WithLp.toLp 2 (x : Fin d → ℝ) : EuclideanSpace ℝ (Fin d)) - WithLp.toLp 2 (y : Fin d → ℝ)‖)) = 0 :=
      le_antisymm (by have := hp2.2 c; linarith) (hp1.2 c)
    have hinj : Function.Injective
        (fun x : (Xs ++ Xt).toFinset => (WithLp.toLp 2 (x : Fin d → ℝ) : EuclideanSpace ℝ (Fin d))) := fun x y hxy =>
      Subtype.ext (WithLp.toLp_injective 2 hxy)
    have := Ker.laplace_strict _ hinj (one_div_pos.2 (hsg s List.mem_cons_self)) hz ⟨x, hx⟩
    simp only [hc] at this
    linarith
  · intro h
    simp [h]

/-- Doubling every row leaves the empirical distribution unchanged. -/
example (pow2 : Nat → ℝ) : DL.dan Real.sqrt Real.exp pow2 0 (some [1, 2]) [![0], ![1]] [![1], ![1], ![0], ![0]] = some 0 := by
  rw [C87_zero_iff pow2 0 [1, 2] (by simp) (by simp) _ _ (by simp) (by simp)]
  intro x
  unfold share
  simp only [List.countP_cons, List.countP_nil, List.length_cons, List.length_nil]
  push_cast
  ring

/-- C87.  The loss does not depend on the order of the rows and is unchanged when the same vector is added to all rows of both batches. -/
theorem C87_invariant (pow2 : Nat → ℝ) (eps : ℝ) (sg : List ℝ) (hsg : ∀ s ∈ sg, 0 < s) (Xs Xt Xs' Xt' : List (Fin d → ℝ)) (a : Fin d → ℝ)
    (hps : Xs'.Perm (Xs.map (fun x => x + a))) (hpt : Xt'.Perm (Xt.map (fun x => x + a))) (hs : Xs ≠ []) (ht : Xt ≠ []) :
    DL.dan Real.sqrt Real.exp pow2 eps (some sg) Xs' Xt' = DL.dan Real.sqrt Real.exp pow2 eps (some sg) Xs Xt := by
  have hne : ∀ X X' : List (Fin d → ℝ), X'.Perm (X.map (fun x => x + a)) → X ≠ [] → X' ≠ [] := by
    rintro X X' hp hX rfl
    exact hX (List.map_eq_nil_iff.1 hp.symm.eq_nil)
  rw [DL.dan_some pow2 eps sg hsg Xs Xt hs ht, DL.dan_some pow2 eps sg hsg Xs' Xt' (hne _ _ hps hs) (hne _ _ hpt ht)]
  have key : ∀ X X' Y Y' : List (Fin d → ℝ), X'.Perm (X.map (fun x => x + a)) → Y'.Perm (Y.map (fun x => x + a)) →
      pairMean (expKernel sg) X' Y' = pairMean (expKernel sg) X Y := by
    intro X X' Y Y' hX hY
    rw [← DL.meanKernel_eq, ← DL.meanKernel_eq]
    unfold DL.meanKernel
    rw [hX.length_eq, hY.length_eq, List.length_map, List.length_map, (hX.map _).sum_eq, List.map_map]
    congr 3
    funext x
    simp only [Function.comp_def]
    rw [(hY.map _).sum_eq, List.map_map]
    congr 2
    funext y
    simp [expKernel, eucl]
  rw [key _ _ _ _ hps hps, key _ _ _ _ hpt hpt, key _ _ _ _ hps hpt]

theorem DL.medianLow_nonneg (l : List ℝ) (h : ∀ x ∈ l, 0 ≤ x) : 0 ≤ DL.medianLow l := by
  unfold DL.medianLow
  rw [List.getD_eq_getElem?_getD]
  rcases hx : (l.insertionSort (· ≤ ·))[(l.length - 1) / 2]? with _ | x
  · simp
  · exact h x ((List.mem_insertionSort (· ≤ ·)).1 (List.mem_of_getElem? hx))

/-- C87.  With the default bandwidths (`sigmas=None`, `eps > 0`) the loss is a number for non-empty batches: it equals the loss for 33
explicit positive bandwidths, `2^(i/2 - 8)` times the median of the pairwise source distances plus `eps`. -/
theorem C87_default (eps : ℝ) (heps : 0 < eps) (Xs Xt : List (Fin d → ℝ)) :
    ∃ sg : List ℝ, sg.length = 33 ∧ (∀ s ∈ sg, 0 < s) ∧
      (∃ m, 0 ≤ m ∧ (Xs ≠ [] → ∃ x ∈ Xs, ∃ y ∈ Xs, m = eucl x y) ∧
        ∀ i (h : i < sg.length), sg[i] = 2 ^ (((i : ℕ) : ℝ) / 2 - 8) * (m + eps)) ∧
      DL.dan Real.sqrt Real.exp (fun i => (2 : ℝ) ^ ((i : ℝ) / 2)) eps none Xs Xt =
        DL.dan Real.sqrt Real.exp (fun i => (2 : ℝ) ^ ((i : ℝ) / 2)) eps (some sg) Xs Xt := by
  have hd : ∀ v ∈ DL.pairDists Real.sqrt Xs, 0 ≤ v := by
    intro v hv
    unfold DL.pairDists at hv
    simp only [List.mem_flatMap, List.mem_map] at hv
    obtain ⟨x, _, y, _, rfl⟩ := hv
    exact DL.eucl_nonneg x y
  have hm := DL.medianLow_nonneg _ hd
  refine ⟨DL.defaultSigmas Real.sqrt (fun i => (2 : ℝ) ^ ((i : ℝ) / 2)) eps Xs, by simp [DL.defaultSigmas], ?_,
    ⟨DL.medianLow (DL.pairDists Real.sqrt Xs), hm, ?_, ?_⟩, rfl⟩
  · intro s hs
    unfold DL.defaultSigmas at hs
    obtain ⟨i, _, rfl⟩ := List.mem_map.1 hs
    have : (0 : ℝ) < 2 ^ ((i : ℝ) / 2) := Real.rpow_pos_of_pos (by norm_num) _
    positivity
  · intro hne
    have hl : 0 < (DL.pairDists Real.sqrt Xs).length := by
      obtain ⟨x, l, rfl⟩ := List.exists_cons_of_ne_nil hne
      simp [DL.pairDists]
    have hlt : ((DL.pairDists Real.sqrt Xs).length - 1) / 2 < ((DL.pairDists Real.sqrt Xs).insertionSort (· ≤ ·)).length := by
      rw [List.length_insertionSort]; omega
    have hmem : DL.medianLow (DL.pairDists Real.sqrt Xs) ∈ DL.pairDists Real.sqrt Xs := by
      unfold DL.medianLow
      rw [List.getD_eq_getElem?_getD, List.getElem?_eq_getElem hlt, Option.getD_some]
      exact (List.mem_insertionSort (· ≤ ·)).1 (List.getElem_mem hlt)
    unfold DL.pairDists at hmem
    simp only [List.mem_flatMap, List.mem_map] at hmem
    obtain ⟨x, hx, y, hy, h⟩ := hmem
    exact ⟨x, hx, y, hy, h.symm⟩
  · intro i h
    simp only [DL.defaultSigmas, List.getElem_map, List.getElem_range]
    rw [Real.rpow_sub (by norm_num)]
    norm_num
    left
    ring

/-- C87.  An empty batch gives NaN; so does a zero bandwidth. -/
theorem C87_nan (pow2 : Nat → ℝ) (eps : ℝ) (sg : List ℝ) (Xs Xt : List (Fin d → ℝ)) (h : Xs = [] ∨ Xt = [] ∨ (0 : ℝ) ∈ sg) :
    DL.dan Real.sqrt Real.exp pow2 eps (some sg) Xs Xt = none := by
  unfold DL.dan
  simp only [Option.getD_some]
  split_ifs with h0
  · rfl
  · unfold DL.mmd
    rw [if_pos (by tauto)]

/-- C87.  The kernel is not the multi-bandwidth Gaussian kernel the documentation announces: the distance is not squared. -/
theorem C87_gaussian_counterexample (pow2 : Nat → ℝ) :
    ∃ Xs Xt : List (Fin 1 → ℝ), DL.dan Real.sqrt Real.exp pow2 0 (some [1]) Xs Xt ≠
      some (pairMean (gaussKernel [1]) Xs Xs + pairMean (gaussKernel [1]) Xt Xt - 2 * pairMean (gaussKernel [1]) Xs Xt) := by
  refine ⟨[![0]], [![2]], ?_⟩
  rw [DL.dan_some pow2 0 [1] (by simp) [![0]] [![2]] (by simp) (by simp)]
  have h : Real.sqrt (2 ^ 2) = 2 := Real.sqrt_sq (by norm_num)
  simp [pairMean, expKernel, gaussKernel, eucl, SProd.sprod, List.product, h]
  norm_num

end Mmd

end Skada

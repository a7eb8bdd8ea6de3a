/-
C101: source centroids and the clustering of the target in CAN.
-/
import Verif.Model.Centroids
import Verif.Props.DeepTrain
import Verif.Props.SphKMeans

namespace Skada
open Np Spec Deep

variable {α : Type} {d : Nat}

namespace Spec

/-- Sum of the feature rows with label `c`, each divided by its norm (at least `e`). -/
noncomputable def classSum (e : ℝ) (fs : List (Fin d → ℝ)) (ys : List Int) (c : Int) : Fin d → ℝ :=
  (((fs.zip ys).filter (fun p => decide (p.2 = c))).map (fun p => fun j => p.1 j / max (nrm p.1) e)).sum

end Spec

theorem classCentroid_eq (e : ℝ) (fs : List (Fin d → ℝ)) (ys : List Int) (hl : fs.length = ys.length) (c : Nat) :
    Centroids.classCentroid Real.sqrt e fs ys c = .ok (if (c : Int) ∈ ys then some (classSum e fs ys c) else none) := by
  unfold Centroids.classCentroid
  have hm : (true ∈ ys.map (fun y => decide (y = (c : Int)))) ↔ (c : Int) ∈ ys := by
    rw [List.mem_map]
    constructor
    · rintro ⟨y, hy, h⟩
      have : y = (c : Int) := by simpa using h
      exact this ▸ hy
    · intro h; exact ⟨c, h, by simp⟩
  have hsel : Np.sel (ys.map (fun y => decide (y = (c : Int)))) fs = ((fs.zip ys).filter (fun p => decide (p.2 = (c : Int)))).map Prod.fst := by
    induction fs generalizing ys with
    | nil => cases ys <;> simp_all [Np.sel]
    | cons f fs ih =>
      cases ys with
      | nil => simp at hl
      | cons y ys =>
        have := ih ys (by simpa using hl)  (by
          rw [List.mem_map]
          constructor
          · rintro ⟨y, hy, h⟩
            have : y = (c : Int) := by simpa using h
            exact this ▸ hy
          · intro h; exact ⟨c, h, by simp⟩)
        rw [List.map_cons, List.zip_cons_cons, List.filter_cons]
        by_cases h : y = (c : Int)
        · rw [decide_eq_true h, Np.sel, this]; simp
        · rw [decide_eq_false h, Np.sel, this]; simp
  by_cases h : (c : Int) ∈ ys
  · rw [if_pos h]
    simp only [hm.2 h, if_true]
    unfold Np.boolIndex
    rw [if_pos (by simpa using hl), hsel]
    unfold classSum
    simp only [Except.map, List.map_map]
    rfl
  · rw [if_neg h]
    simp only [mt hm.1 h, if_false]

/-- C101, general form: there is one centroid for every class among `0, …, n - 1` that occurs, where `n` is the number of distinct labels; the others
are ignored. -/
theorem sourceCentroids_eq (e : ℝ) (fs : List (Fin d → ℝ)) (ys : List Int) (hl : fs.length = ys.length) :
    Centroids.sourceCentroids Real.sqrt e fs ys =
      (let cs := ((List.range (unique ys).length).filter (fun c : Nat => decide ((c : Int) ∈ ys))).map (fun c : Nat => classSum e fs ys (c : Int))
       if cs = [] then .error .runtimeError else .ok cs) := by
  unfold Centroids.sourceCentroids
  have hmm : ∀ l : List Nat, l.mapM (Centroids.classCentroid Real.sqrt e fs ys) =
      .ok (l.map (fun c : Nat => if (c : Int) ∈ ys then some (classSum e fs ys (c : Int)) else none)) := by
    intro l
    induction l with
    | nil => rfl
    | cons c l ih => rw [List.mapM_cons, ih, classCentroid_eq e fs ys hl]; rfl
  have hf : ∀ l : List Nat, (l.map (fun c : Nat => if (c : Int) ∈ ys then some (classSum e fs ys (c : Int)) else none)).filterMap id =
      (l.filter (fun c : Nat => decide ((c : Int) ∈ ys))).map (fun c : Nat => classSum e fs ys (c : Int)) := by
    intro l
    induction l with
    | nil => rfl
    | cons c l ih =>
      by_cases h : (c : Int) ∈ ys
      · rw [List.map_cons, if_pos h, List.filterMap_cons_some (by rfl), ih, List.filter_cons, if_pos (by simpa using h), List.map_cons]
      · rw [List.map_cons, if_neg h, List.filterMap_cons_none (by rfl), ih, List.filter_cons, if_neg (by simpa using h)]
  rw [hmm]
  simp only [ok_bind, hf, List.isEmpty_iff]

theorem unique_exact (ys : List Int) (C : Nat) (h : ∀ c : Int, c ∈ ys ↔ 0 ≤ c ∧ c < C) : (unique ys).length = C := by
  have hp : (unique ys).Perm ((List.range C).map (fun n : Nat => (n : Int))) := by
    refine (List.perm_ext_iff_of_nodup (Np.nodup_unique _) ((List.nodup_range).map (fun a b h => by simpa using h))).2 fun c => ?_
    rw [mem_unique, h, List.mem_map]
    constructor
    · rintro ⟨h1, h2⟩; exact ⟨c.toNat, by rw [List.mem_range]; omega, by omega⟩
    · rintro ⟨n, hn, rfl⟩; rw [List.mem_range] at hn; omega
  rw [hp.length_eq]; simp

/-- C101.  If the source labels are exactly `0, …, C-1`, there are `C` centroids, and number `c` is the sum of the normalised features of class `c`. -/
theorem C101_centroids_partial (e : ℝ) (fs : List (Fin d → ℝ)) (ys : List Int) (hl : fs.length = ys.length) (C : Nat) (hC : 0 < C)
    (h : ∀ c : Int, c ∈ ys ↔ 0 ≤ c ∧ c < C) :
    Centroids.sourceCentroids Real.sqrt e fs ys = .ok ((List.range C).map (fun c : Nat => classSum e fs ys (c : Int))) := by
  rw [sourceCentroids_eq e fs ys hl, unique_exact ys C h]
  have hf : (List.range C).filter (fun c => decide (((c : Nat) : Int) ∈ ys)) = List.range C := by
    rw [List.filter_eq_self]
    intro c hc
    rw [List.mem_range] at hc
    rw [decide_eq_true_iff, h]; omega
  dsimp only
  rw [hf, if_neg (by simp; omega)]

example : Centroids.sourceCentroids Real.sqrt 1 [![(3 : ℝ)], ![4], ![-5]] [1, 0, 1] = .ok ([0, 1].map (fun c : Nat => classSum 1 [![(3 : ℝ)], ![4], ![-5]] [1, 0, 1] (c : Int))) :=
  C101_centroids_partial 1 _ _ rfl 2 (by norm_num) (by intro c; simp; omega)

/-- C101, counterexample: the classes are taken to be `0, …, n-1` for `n` distinct labels.  With labels `1, …, C` the last class gets no centroid, centroid
number `c` belongs to class `c + 1`, and there is one centre less than classes; with labels outside `0, …, n-1` the epoch fails. -/
theorem C101_labels_counterexample (e : ℝ) (fs : List (Fin d → ℝ)) (ys : List Int) (hl : fs.length = ys.length) :
    (∀ C : Nat, 1 < C → (∀ c : Int, c ∈ ys ↔ 1 ≤ c ∧ c ≤ C) →
      Centroids.sourceCentroids Real.sqrt e fs ys = .ok ((List.range (C - 1)).map (fun c : Nat => classSum e fs ys ((c : Int) + 1)))) ∧
    ((∀ c ∈ ys, c < 0 ∨ (unique ys).length ≤ c) → Centroids.sourceCentroids Real.sqrt e fs ys = .error .runtimeError) := by
  refine ⟨fun C hC h => ?_, fun h => ?_⟩
  · have hlen : (unique ys).length = C := by
      have hp : (unique ys).Perm ((List.range C).map (fun n : Nat => (n : Int) + 1)) := by
        refine (List.perm_ext_iff_of_nodup (Np.nodup_unique _) ((List.nodup_range).map (fun a b h => by simpa using h))).2 fun c => ?_
        rw [mem_unique, h, List.mem_map]
        constructor
        · rintro ⟨h1, h2⟩; exact ⟨(c - 1).toNat, by rw [List.mem_range]; omega, by omega⟩
        · rintro ⟨n, hn, rfl⟩; rw [List.mem_range] at hn; omega
      rw [hp.length_eq]; simp
    rw [sourceCentroids_eq e fs ys hl, hlen]
    obtain ⟨C', rfl⟩ : ∃ C', C = C' + 1 := ⟨C - 1, by omega⟩
    have hf : (List.range (C' + 1)).filter (fun c => decide (((c : Nat) : Int) ∈ ys)) = (List.range C').map (fun c => c + 1) := by
      rw [List.range_succ_eq_map, List.filter_cons, if_neg (by rw [decide_eq_true_iff, h]; simp), List.filter_eq_self.2]
      intro c hc
      obtain ⟨n, hn, rfl⟩ := List.mem_map.1 hc
      rw [List.mem_range] at hn
      rw [decide_eq_true_iff, h]; push_cast; omega
    dsimp only
    rw [hf, List.map_map, Nat.add_sub_cancel, if_neg (by simp; omega)]
    congr 1
  · rw [sourceCentroids_eq e fs ys hl]
    have hf : (List.range (unique ys).length).filter (fun c => decide (((c : Nat) : Int) ∈ ys)) = [] := by
      rw [List.filter_eq_nil_iff]
      intro c hc
      rw [List.mem_range] at hc
      rw [decide_eq_true_iff]
      intro hm
      rcases h _ hm with h1 | h1 <;> omega
    dsimp only
    rw [hf]
    simp

example : Centroids.sourceCentroids Real.sqrt 1 [![(3 : ℝ)], ![4]] [1, 2] = .ok [classSum 1 [![(3 : ℝ)], ![4]] [1, 2] 1] := by
  rw [(C101_labels_counterexample 1 _ _ rfl).1 2 (by norm_num) (by intro c; simp; omega)]
  simp
example : Centroids.sourceCentroids Real.sqrt 1 [![(3 : ℝ)], ![4]] [5, 7] = .error .runtimeError :=
  (C101_labels_counterexample 1 _ _ rfl).2 (by decide +kernel)

/-! ### The callback -/

/-- The callback in terms of the records of the data set. -/
theorem epochBegin_eq (e eCos rtol tol : ℝ) (maxIter : Nat) (feat : α → Fin d → ℝ) (s : DS ℝ α Int) (l : List (Rec ℝ α Int)) (hs : Holds (-1) s l) :
    Centroids.epochBegin Real.sqrt e eCos rtol tol maxIter feat s = (do
      let fs ← Centroids.predictFeatures feat ((l.filter (fun r => decide (0 ≤ r.d))).map (·.x))
      let ft ← Centroids.predictFeatures feat ((l.filter (fun r => decide (r.d < 0))).map (·.x))
      let cs ← Centroids.sourceCentroids Real.sqrt e fs ((l.filter (fun r => decide (0 ≤ r.d))).map (·.y))
      SKM.fit Real.sqrt eCos rtol tol (unique ((l.filter (fun r => decide (0 ≤ r.d))).map (·.y))).length maxIter (some (cs.map some)) [] ft) := by
  obtain ⟨t1, h1, g1⟩ := selectMask_ok hs (fun r => decide (0 ≤ r.d)) true
  obtain ⟨t2, h2, g2⟩ := selectMask_ok hs (fun r => decide (r.d < 0)) true
  simp only [if_true] at g1 g2
  unfold Centroids.epochBegin selectSource selectTarget
  rw [hs.sd, List.map_map, List.map_map]
  have e1 : ((fun d : Int => decide (0 ≤ d)) ∘ Rec.d) = fun r : Rec ℝ α Int => decide (0 ≤ r.d) := rfl
  have e2 : ((fun d : Int => decide (d < 0)) ∘ Rec.d) = fun r : Rec ℝ α Int => decide (r.d < 0) := rfl
  rw [e1, e2, h1, h2]
  simp only [ok_bind]
  rw [g1.X, g2.X, g1.y]

/-- C101.  The callback does not look at target labels, so C99 applies to networks that use it. -/
theorem C101_no_leak (e eCos rtol tol : ℝ) (maxIter : Nat) (feat : α → Fin d → ℝ) (s t : DS ℝ α Int) (l l' : List (Rec ℝ α Int)) (hs : Holds (-1) s l)
    (ht : Holds (-1) t l') (hl : l.map (hide (-1)) = l'.map (hide (-1))) :
    Centroids.epochBegin Real.sqrt e eCos rtol tol maxIter feat s = Centroids.epochBegin Real.sqrt e eCos rtol tol maxIter feat t := by
  have hd : ∀ r : Rec ℝ α Int, (hide (-1) r).d = r.d := by intro r; unfold hide; split_ifs <;> rfl
  have hx : ∀ r : Rec ℝ α Int, (hide (-1) r).x = r.x := by intro r; unfold hide; split_ifs <;> rfl
  have key : ∀ (p : Int → Bool) (l : List (Rec ℝ α Int)), (l.filter (fun r => p r.d)).map (fun r => r.x) =
      ((l.map (hide (-1))).filter (fun r => p r.d)).map (fun r => r.x) := by
    intro p l
    rw [List.filter_map, List.map_map]
    simp only [Function.comp_def, hd, hx]
  have keyy : ∀ (l : List (Rec ℝ α Int)), (l.filter (fun r => decide (0 ≤ r.d))).map (fun r => r.y) =
      ((l.map (hide (-1))).filter (fun r => decide (0 ≤ r.d))).map (fun r => r.y) := by
    intro l
    rw [List.filter_map, List.map_map]
    simp only [Function.comp_def, hd]
    refine List.map_congr_left fun r hr => ?_
    have := (List.mem_filter.1 hr).2
    have : 0 ≤ r.d := by simpa using this
    unfold hide; rw [if_neg (by omega)]
  rw [epochBegin_eq _ _ _ _ _ _ s l hs, epochBegin_eq _ _ _ _ _ _ t l' ht, key (fun d => decide (0 ≤ d)) l, key (fun d => decide (d < 0)) l, keyy l,
    key (fun d => decide (0 ≤ d)) l', key (fun d => decide (d < 0)) l', keyy l', hl]

/-- C101.  Without source rows or without target rows the epoch fails with a `ValueError`. -/
theorem C101_empty (e eCos rtol tol : ℝ) (maxIter : Nat) (feat : α → Fin d → ℝ) (s : DS ℝ α Int) (l : List (Rec ℝ α Int)) (hs : Holds (-1) s l)
    (h : (∀ r ∈ l, r.d < 0) ∨ (∀ r ∈ l, 0 ≤ r.d)) : Centroids.epochBegin Real.sqrt e eCos rtol tol maxIter feat s = .error .valueError := by
  rw [epochBegin_eq _ _ _ _ _ _ s l hs]
  rcases h with h | h
  · rw [show l.filter (fun r => decide (0 ≤ r.d)) = [] from List.filter_eq_nil_iff.2 fun r hr => by have := h r hr; simp; omega]
    rfl
  · rw [show l.filter (fun r => decide (r.d < 0)) = [] from List.filter_eq_nil_iff.2 fun r hr => by have := h r hr; simp; omega]
    have h2 : Centroids.predictFeatures feat (List.map (fun r : Rec ℝ α Int => r.x) []) = .error .valueError := rfl
    rw [h2]
    unfold Centroids.predictFeatures
    split_ifs <;> rfl

/-- A small data set for the examples: two source rows with classes 1 and 0, two target rows whose labels are `a` and `b`. -/
def centRecs (a b : Int) : List (Rec ℝ ℝ Int) := [⟨2, 1, 1, none⟩, ⟨2, a, -1, none⟩, ⟨-4, 0, 1, none⟩, ⟨-3, b, -1, none⟩]

@[inherit_doc centRecs]
def centData (a b : Int) : DS ℝ ℝ Int := ⟨[2, 2, -4, -3], [1, a, 0, b], [1, -1, 1, -1], [], [1, a, 0, b].map (fun v => decide (v ≠ -1)), false, [0, 0, 1, 1]⟩

theorem cent_holds (a b : Int) : Holds (-1) (centData a b) (centRecs a b) :=
  ⟨rfl, rfl, rfl, rfl, Or.inl ⟨rfl, rfl, by simp [centRecs]⟩, by change [0, 0, 1, 1] = ranksFrom [] [1, -1, 1, -1]; decide +kernel⟩

example (a b : Int) : Centroids.epochBegin Real.sqrt 1 1 0 0 5 (fun x : ℝ => ![x]) (centData a b) =
    Centroids.epochBegin Real.sqrt 1 1 0 0 5 (fun x : ℝ => ![x]) (centData (-1) (-1)) :=
  C101_no_leak _ _ _ _ _ _ _ _ _ _ (cent_holds a b) (cent_holds (-1) (-1)) (by simp [centRecs, hide])

example : Centroids.epochBegin Real.sqrt 1 1 0 0 5 (fun x : ℝ => ![x]) ⟨[2], [1], [1], [], [true], false, [0]⟩ = .error .valueError :=
  C101_empty 1 1 0 0 5 _ _ [⟨2, 1, 1, none⟩] ⟨rfl, rfl, rfl, rfl, Or.inl ⟨rfl, rfl, by simp⟩, by change [0] = ranksFrom [] [1]; decide +kernel⟩ (Or.inr (by simp))

/-- C101.  With source labels exactly `0, …, C-1` and non-zero target features the epoch begins with a clustering of the target into `C` clusters, started
at the class centroids: its cost is not above that of any assignment of the target rows to the class centroids. -/
theorem C101_clusters_partial (e eCos rtol tol : ℝ) (he0 : 0 < eCos) (he1 : eCos ≤ 1) (maxIter : Nat) (hmax : 0 < maxIter) (feat : α → Fin d → ℝ) (s : DS ℝ α Int)
    (l : List (Rec ℝ α Int)) (hs : Holds (-1) s l) (C : Nat) (hC : 0 < C)
    (hy : ∀ c : Int, c ∈ (l.filter (fun r => decide (0 ≤ r.d))).map (·.y) ↔ 0 ≤ c ∧ c < C)
    (T : List (Fin d → ℝ)) (hT : T = (l.filter (fun r => decide (r.d < 0))).map (fun r => feat r.x)) (hne : T ≠ []) (h0 : ∀ x ∈ T, x ≠ 0)
    (hsum : ∀ L : List (Fin d → ℝ), L.Sublist (T.map unit) → L.sum = 0 ∨ eCos ≤ nrm L.sum) :
    ∃ r v, ∃ cs : List (Fin d → ℝ), Centroids.epochBegin Real.sqrt e eCos rtol tol maxIter feat s = .ok r ∧ r.centers = cs.map some ∧ cs.length = C ∧
      r.inertia = some v ∧ ∀ f : (Fin d → ℝ) → Nat, (∀ x, f x < C) →
        v ≤ ((T.map unit).map (fun x => cosDist eCos x (classSum e ((l.filter (fun r => decide (0 ≤ r.d))).map (fun r => feat r.x))
          ((l.filter (fun r => decide (0 ≤ r.d))).map (·.y)) (f x : Int)))).sum := by
  set S := l.filter (fun r => decide (0 ≤ r.d)) with hS
  set fs := S.map (fun r => feat r.x) with hfs
  have hSne : S ≠ [] := by
    intro h
    have := (hy 0).2 ⟨le_rfl, by omega⟩
    rw [h] at this; simp at this
  have hcs := C101_centroids_partial e fs (S.map (·.y)) (by simp [hfs]) C hC hy
  set c0 := (List.range C).map (fun c : Nat => classSum e fs (S.map (·.y)) (c : Int)) with hc0
  have hc0l : c0.length = C := by simp [hc0]
  have hc0ne : c0 ≠ [] := by intro h; rw [h] at hc0l; simp at hc0l; omega
  have hbeg : Centroids.epochBegin Real.sqrt e eCos rtol tol maxIter feat s = SKM.fit Real.sqrt eCos rtol tol C maxIter (some (c0.map some)) [] T := by
    rw [epochBegin_eq _ _ _ _ _ _ s l hs]
    have p1 : Centroids.predictFeatures feat (S.map (·.x)) = .ok fs := by
      unfold Centroids.predictFeatures; rw [if_neg (by simpa using hSne), List.map_map]; rfl
    have p2 : Centroids.predictFeatures feat ((l.filter (fun r => decide (r.d < 0))).map (·.x)) = .ok T := by
      have : l.filter (fun r => decide (r.d < 0)) ≠ [] := by intro h; rw [h] at hT; exact hne (by simpa using hT)
      unfold Centroids.predictFeatures; rw [if_neg (by simpa only [List.isEmpty_iff, List.map_eq_nil_iff] using this), List.map_map, hT]; rfl
    rw [p1, p2]
    simp only [ok_bind]
    rw [hcs, unique_exact _ C hy]
    rfl
  obtain ⟨r, v, cs, h1, h2, h3, h4, -⟩ := C93_fit eCos rtol tol C maxIter hmax c0 hc0ne [] T h0
  refine ⟨r, v, cs, by rw [hbeg, h1], h3, by rw [h4, hc0l], h2, fun f hf => ?_⟩
  have hget : ∀ n, n < C → c0.getD n 0 = classSum e fs (S.map (·.y)) (n : Int) := by
    intro n hn
    rw [List.getD_eq_getElem?_getD, List.getElem?_eq_getElem (by rw [hc0l]; exact hn)]
    simp [hc0]
  obtain ⟨r', v', h1', h2', h3'⟩ := C93_descent eCos rtol tol he0 he1 C maxIter hmax c0 hc0ne hc0l.le [] T h0 hsum (fun x => c0.getD (f x) 0) (fun x => by
    have := hf x
    rw [List.getD_eq_getElem?_getD, List.getElem?_eq_getElem (by rw [hc0l]; exact this)]
    exact List.getElem_mem _)
  rw [h1] at h1'
  injection h1' with h1'
  subst h1'
  rw [h2] at h2'
  injection h2' with h2'
  subst h2'
  simp only [hget _ (hf _)] at h3'
  exact h3'

example (a b : Int) : ∃ r v, Centroids.epochBegin Real.sqrt 1 1 0 0 5 (fun x : ℝ => ![x]) (centData a b) = .ok r ∧ r.centers.length = 2 ∧ r.inertia = some v := by
  have hu2 : unit ![(2 : ℝ)] = ![1] := by funext j; fin_cases j; simp [unit, nrm]
  have hu3 : unit ![(-3 : ℝ)] = ![-1] := by funext j; fin_cases j; simp [unit, nrm]
  obtain ⟨r, v, cs, h1, h2, h3, h4, -⟩ := C101_clusters_partial 1 1 0 0 one_pos le_rfl 5 (by simp) (fun x : ℝ => ![x]) _ _ (cent_holds a b) 2 (by norm_num)
    (by intro c; simp [centRecs]; omega) [![2], ![-3]] (by simp [centRecs]) (by simp) (by simp)
    (by
      intro L hL
      rw [← List.mem_sublists] at hL
      have hL' : L = [] ∨ L = [![1]] ∨ L = [![-1]] ∨ L = [![1], ![-1]] := by
        rw [List.map_cons, List.map_cons, List.map_nil, hu2, hu3] at hL
        simpa [List.sublists] using hL
      rcases hL' with rfl | rfl | rfl | rfl <;> simp [nrm])
  exact ⟨r, v, h1, by rw [h2, List.length_map, h3], h4⟩

end Skada

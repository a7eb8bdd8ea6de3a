/-
Lemmas for C145: what the hooks leave in the dictionaries, and the invariant of the heap.
-/
import Verif.Spec.Hooks

namespace Skada.Hk
open Np Spec

variable {Θ X Y F : Type}

theorem get_put (d : List (String × Stored F)) (k n : String) (v : Stored F) : get (put d k v) n = if k = n then some v else get d n := by
  unfold get put
  by_cases h : k = n
  · simp [h]
  · rw [List.find?_cons_of_neg (by simpa using h), if_neg h]
    congr 1
    induction d with
    | nil => rfl
    | cons e d ih =>
      by_cases he : e.1 = k
      · rw [List.filter_cons_of_neg (by simpa using he), List.find?_cons_of_neg (by rw [he]; simpa using h)]
        exact ih
      · rw [List.filter_cons_of_pos (by simpa using he)]
        by_cases hn : e.1 = n
        · simp [hn]
        · rw [List.find?_cons_of_neg (by simpa using hn), List.find?_cons_of_neg (by simpa using hn)]
          exact ih

theorem mem_put {d : List (String × Stored F)} {k : String} {v : Stored F} {e : String × Stored F} (h : e ∈ put d k v) : e = (k, v) ∨ (e ∈ d ∧ e.1 ≠ k) := by
  unfold put at h
  rcases List.mem_cons.1 h with h | h
  · exact .inl h
  · have := List.mem_filter.1 h
    exact .inr ⟨this.1, by simpa using this.2⟩

theorem get_none {d : List (String × Stored F)} {n : String} (h : ∀ e ∈ d, e.1 ≠ n) : get d n = none := by
  unfold get
  rw [List.find?_eq_none.2 (by simpa using h)]
  rfl

theorem get_mem {d : List (String × Stored F)} {n : String} {v : Stored F} (h : get d n = some v) : (n, v) ∈ d := by
  unfold get at h
  obtain ⟨e, he, rfl⟩ := Option.map_eq_some_iff.1 h
  have h1 := List.mem_of_find?_eq_some he
  have h2 := List.find?_some he
  have : e.1 = n := by simpa using h2
  rw [← this]
  exact h1

theorem getD_modify (D : List (List (String × Stored F))) (i j : Nat) (f : List (String × Stored F) → List (String × Stored F)) (hi : i < D.length) :
    (D.modify i f).getD j [] = if i = j then f (D.getD j []) else D.getD j [] := by
  rw [List.getD_eq_getElem?_getD, List.getD_eq_getElem?_getD, List.getElem?_modify]
  by_cases h : i = j
  · subst h
    rw [List.getElem?_eq_getElem hi]
    simp
  · simp [h]

section Fire
variable (feat : Θ → String → X → F) (θ : Θ) (g : Bool) (x : X)

theorem fire_length (hs : List Hook) (D : List (List (String × Stored F))) : (fire (fun θ n x => some (feat θ n x)) θ g x hs D).length = D.length := by
  induction hs generalizing D with
  | nil => rfl
  | cons h hs ih => simp [fire, ih]

theorem fire_get (hs : List Hook) (D : List (List (String × Stored F))) (hb : ∀ h ∈ hs, h.dict < D.length) (i : Nat) (n : String) :
    get ((fire (fun θ n x => some (feat θ n x)) θ g x hs D).getD i []) n = if (⟨i, n⟩ : Hook) ∈ hs then some ⟨feat θ n x, g⟩ else get (D.getD i []) n := by
  induction hs generalizing D with
  | nil => simp [fire]
  | cons h hs ih =>
    have hh := hb h (by simp)
    rw [fire, ih _ (fun h' hm => by simpa using hb h' (List.mem_cons_of_mem _ hm))]
    by_cases hm : (⟨i, n⟩ : Hook) ∈ hs
    · simp [hm]
    · rw [if_neg hm, getD_modify _ _ _ _ hh]
      by_cases e : h = ⟨i, n⟩
      · subst e
        simp [get_put]
      · have hne : (⟨i, n⟩ : Hook) ∉ h :: hs := by
          intro h'
          rcases List.mem_cons.1 h' with h' | h'
          · exact e h'.symm
          · exact hm h'
        rw [if_neg hne]
        by_cases hi : h.dict = i
        · rw [if_pos hi, get_put, if_neg]
          intro hl
          exact e (by cases h; simp_all)
        · rw [if_neg hi]

theorem fire_mem (hs : List Hook) (D : List (List (String × Stored F))) (hb : ∀ h ∈ hs, h.dict < D.length) (i : Nat) (e : String × Stored F)
    (he : e ∈ (fire (fun θ n x => some (feat θ n x)) θ g x hs D).getD i []) :
    ((⟨i, e.1⟩ : Hook) ∈ hs ∧ e.2.grad = g) ∨ (e ∈ D.getD i [] ∧ (⟨i, e.1⟩ : Hook) ∉ hs) := by
  induction hs generalizing D with
  | nil => exact .inr ⟨he, by simp⟩
  | cons h hs ih =>
    have hh := hb h (by simp)
    rw [fire] at he
    rcases ih _ (fun h' hm => by simpa using hb h' (List.mem_cons_of_mem _ hm)) he with ⟨h1, h2⟩ | ⟨h1, h2⟩
    · exact .inl ⟨List.mem_cons_of_mem _ h1, h2⟩
    · rw [getD_modify _ _ _ _ hh] at h1
      by_cases hi : h.dict = i
      · rw [if_pos hi] at h1
        rcases mem_put h1 with h3 | ⟨h3, h4⟩
        · subst h3
          refine .inl ⟨?_, rfl⟩
          have : (⟨i, h.layer⟩ : Hook) = h := by cases h; simp_all
          simp [this]
        · refine .inr ⟨h3, fun h' => ?_⟩
          rcases List.mem_cons.1 h' with h' | h'
          · exact h4 (by rw [← h'])
          · exact h2 h'
      · rw [if_neg hi] at h1
        refine .inr ⟨h1, fun h' => ?_⟩
        rcases List.mem_cons.1 h' with h' | h'
        · exact hi (by rw [← h'])
        · exact h2 h'

theorem fire_other (hs : List Hook) (D : List (List (String × Stored F))) (hb : ∀ h ∈ hs, h.dict < D.length) (i : Nat) (hi : ∀ h ∈ hs, h.dict ≠ i) :
    (fire (fun θ n x => some (feat θ n x)) θ g x hs D).getD i [] = D.getD i [] := by
  induction hs generalizing D with
  | nil => rfl
  | cons h hs ih =>
    rw [fire, ih _ (fun h' hm => by simpa using hb h' (List.mem_cons_of_mem _ hm)) (fun h' hm => hi h' (List.mem_cons_of_mem _ hm)),
      getD_modify _ _ _ _ (hb h (by simp)), if_neg (hi h (by simp))]

end Fire

/-- Gradients are stored in a dictionary some hook writes to. -/
def dirty (D : List (List (String × Stored F))) (hs : List Hook) : Bool := hs.any (fun h => (D.getD h.dict []).any (fun e => e.2.grad))

/-- A network as the user sees it. -/
def view (D : List (List (String × Stored F))) (B : Base Θ) : Network Θ := ⟨B.params, B.layers, !B.hooks.isEmpty, dirty D B.hooks⟩

/-- The heap as the user sees it. -/
def abs (H : Heap Θ F) : Networks Θ := ⟨H.bases.map (view H.dicts), H.wrappers.map (fun W => (W.base, W.layer))⟩

/-- The invariant of reachable heaps. -/
structure Inv (H : Heap Θ F) : Prop where
  bound : ∀ (b : Nat) (B : Base Θ), H.bases[b]? = some B → ∀ h ∈ B.hooks, h.dict < H.dicts.length
  own : ∀ (b b' : Nat) (B B' : Base Θ), H.bases[b]? = some B → H.bases[b']? = some B' → ∀ h ∈ B.hooks, ∀ h' ∈ B'.hooks, h.dict = h'.dict → b = b'
  keys : ∀ (b : Nat) (B : Base Θ), H.bases[b]? = some B → ∀ h ∈ B.hooks, ∀ e ∈ H.dicts.getD h.dict [], (⟨h.dict, e.1⟩ : Hook) ∈ B.hooks
  wrap : ∀ W ∈ H.wrappers, W.base < H.bases.length ∧ W.dict < H.dicts.length
  hooked : ∀ W ∈ H.wrappers, ∀ B, H.bases[W.base]? = some B → ∀ n, W.layer = some n → n ∈ B.layers → (⟨W.dict, n⟩ : Hook) ∈ B.hooks
  named : ∀ W ∈ H.wrappers, ∀ (b : Nat) (B : Base Θ), H.bases[b]? = some B → ∀ h ∈ B.hooks, h.dict = W.dict → b = W.base ∧ W.layer = some h.layer ∧ h.layer ∈ B.layers
  entries : ∀ W ∈ H.wrappers, ∀ B, H.bases[W.base]? = some B → ∀ e ∈ H.dicts.getD W.dict [], (⟨W.dict, e.1⟩ : Hook) ∈ B.hooks

theorem inv_empty : Inv (empty : Heap Θ F) := by
  constructor <;> simp [empty]

theorem mem_register {B : Base Θ} {d : Nat} {layer : Option String} {h : Hook} :
    h ∈ (register B d layer).hooks ↔ h ∈ B.hooks ∨ ∃ n, layer = some n ∧ n ∈ B.layers ∧ h = ⟨d, n⟩ := by
  unfold register
  cases layer with
  | none => simp
  | some n =>
    by_cases hn : n ∈ B.layers <;> simp [hn]

theorem register_layers (B : Base Θ) (d : Nat) (layer : Option String) : (register B d layer).layers = B.layers ∧ (register B d layer).params = B.params := by
  unfold register
  split
  · split <;> exact ⟨rfl, rfl⟩
  · exact ⟨rfl, rfl⟩

theorem register_watched (B : Base Θ) (d : Nat) (layer : Option String) :
    (!(register B d layer).hooks.isEmpty) = ((!B.hooks.isEmpty) || hasLayer B.layers layer) := by
  unfold register hasLayer
  cases layer with
  | none => simp
  | some n => by_cases hn : n ∈ B.layers <;> simp [hn]

theorem dirty_eq {D D' : List (List (String × Stored F))} {hs hs' : List Hook} (h1 : ∀ h ∈ hs, h ∈ hs' ∨ D.getD h.dict [] = [])
    (h2 : ∀ h ∈ hs', h ∈ hs ∨ D'.getD h.dict [] = []) (h3 : ∀ h ∈ hs, h ∈ hs' → D.getD h.dict [] = D'.getD h.dict []) : dirty D hs = dirty D' hs' := by
  rw [Bool.eq_iff_iff]
  unfold dirty
  simp only [List.any_eq_true]
  constructor
  · rintro ⟨h, hm, e, he, hg⟩
    rcases h1 h hm with h' | h'
    · exact ⟨h, h', e, h3 h hm h' ▸ he, hg⟩
    · rw [h'] at he
      simp at he
  · rintro ⟨h, hm, e, he, hg⟩
    rcases h2 h hm with h' | h'
    · exact ⟨h, h', e, (h3 h h' hm).symm ▸ he, hg⟩
    · rw [h'] at he
      simp at he

theorem getD_snoc (D : List (List (String × Stored F))) (i : Nat) : (D ++ [[]]).getD i [] = D.getD i [] := by
  rw [List.getD_eq_getElem?_getD, List.getD_eq_getElem?_getD]
  rcases Nat.lt_trichotomy i D.length with h | h | h
  · rw [List.getElem?_append_left h]
  · subst h
    simp
  · rw [List.getElem?_eq_none (by simp; omega), List.getElem?_eq_none (by omega)]

theorem getD_length (D : List (List (String × Stored F))) : D.getD D.length [] = [] := by
  rw [List.getD_eq_getElem?_getD, List.getElem?_eq_none (Nat.le_refl _)]
  rfl

theorem set_cases {l : List (Base Θ)} {b c : Nat} {B C : Base Θ} (h : (l.set b B)[c]? = some C) : (c = b ∧ C = B) ∨ (c ≠ b ∧ l[c]? = some C) := by
  rw [List.getElem?_set] at h
  by_cases e : b = c
  · rw [if_pos e] at h
    split at h
    · exact .inl ⟨e.symm, (Option.some.inj h).symm⟩
    · cases h
  · rw [if_neg e] at h
    exact .inr ⟨fun h' => e h'.symm, h⟩

theorem inv_wrap {H : Heap Θ F} (I : Inv H) {b : Nat} {B : Base Θ} (hB : H.bases[b]? = some B) (layer : Option String) : Inv (wrap H b layer) := by
  have hbl : b < H.bases.length := by
    by_contra h
    rw [List.getElem?_eq_none (by omega)] at hB
    cases hB
  have fresh : ∀ (c : Nat) (C : Base Θ), H.bases[c]? = some C → ∀ h ∈ C.hooks, h.dict ≠ H.dicts.length := fun c C hC h hm => Nat.ne_of_lt (I.bound c C hC h hm)
  -- a hook of the new heap is an old one or the new one
  have cases' : ∀ (c : Nat) (C : Base Θ), (H.bases.set b (register B H.dicts.length layer))[c]? = some C → ∃ C0, H.bases[c]? = some C0 ∧ C.layers = C0.layers ∧
      (∀ h ∈ C0.hooks, h ∈ C.hooks) ∧ (∀ h ∈ C.hooks, h ∈ C0.hooks ∨ (c = b ∧ ∃ n, layer = some n ∧ n ∈ C0.layers ∧ h = ⟨H.dicts.length, n⟩)) ∧
      (c = b → ∀ n, layer = some n → n ∈ C0.layers → (⟨H.dicts.length, n⟩ : Hook) ∈ C.hooks) := by
    intro c C hC
    rcases set_cases hC with ⟨rfl, rfl⟩ | ⟨hne, hC⟩
    · refine ⟨B, hB, (register_layers _ _ _).1, fun h hm => mem_register.2 (.inl hm), fun h hm => ?_, fun _ n hn hl => mem_register.2 (.inr ⟨n, hn, hl, rfl⟩)⟩
      rcases mem_register.1 hm with h' | h'
      · exact .inl h'
      · exact .inr ⟨rfl, h'⟩
    · exact ⟨C, hC, rfl, fun h hm => hm, fun h hm => .inl hm, fun h => absurd h hne⟩
  unfold wrap
  rw [hB]
  constructor
  · intro c C hC h hm
    obtain ⟨C0, hC0, -, -, h2, -⟩ := cases' c C hC
    rcases h2 h hm with h' | ⟨-, n, -, -, rfl⟩
    · have := I.bound c C0 hC0 h h'
      simp
      omega
    · simp
  · intro c c' C C' hC hC' h hm h' hm' e
    obtain ⟨C0, hC0, -, -, h2, -⟩ := cases' c C hC
    obtain ⟨C0', hC0', -, -, h2', -⟩ := cases' c' C' hC'
    rcases h2 h hm with k | ⟨k, n, -, -, rfl⟩ <;> rcases h2' h' hm' with k' | ⟨k', n', -, -, rfl⟩
    · exact I.own c c' C0 C0' hC0 hC0' h k h' k' e
    · exact absurd e (fresh c C0 hC0 h k)
    · exact absurd e.symm (fresh c' C0' hC0' h' k')
    · exact k.trans k'.symm
  · intro c C hC h hm e he
    rw [getD_snoc] at he
    obtain ⟨C0, hC0, -, h1, h2, -⟩ := cases' c C hC
    rcases h2 h hm with k | ⟨k, n, -, -, rfl⟩
    · exact h1 _ (I.keys c C0 hC0 h k e he)
    · rw [getD_length] at he
      simp at he
  · intro W hW
    rcases List.mem_append.1 hW with hW | hW
    · have := I.wrap W hW
      simp
      omega
    · rw [List.mem_singleton.1 hW]
      simpa using hbl
  · intro W hW C hC n hn hl
    obtain ⟨C0, hC0, hlay, h1, h2, h3⟩ := cases' _ C hC
    rcases List.mem_append.1 hW with hW | hW
    · exact h1 _ (I.hooked W hW C0 hC0 n hn (hlay ▸ hl))
    · rw [List.mem_singleton.1 hW] at hn h3 ⊢
      exact h3 rfl n hn (hlay ▸ hl)
  · intro W hW c C hC h hm e
    obtain ⟨C0, hC0, hlay, h1, h2, h3⟩ := cases' _ C hC
    rcases List.mem_append.1 hW with hW | hW
    · rcases h2 h hm with k | ⟨k, n, -, -, rfl⟩
      · rw [hlay]
        exact I.named W hW c C0 hC0 h k e
      · have := (I.wrap W hW).2
        simp at e
        omega
    · rw [List.mem_singleton.1 hW] at e ⊢
      rcases h2 h hm with k | ⟨k, n, hn, hl, rfl⟩
      · exact absurd e (fresh c C0 hC0 h k)
      · exact ⟨k, hn, hlay ▸ hl⟩
  · intro W hW C hC e he
    rw [getD_snoc] at he
    rcases List.mem_append.1 hW with hW | hW
    · obtain ⟨C0, hC0, hlay, h1, h2, h3⟩ := cases' _ C hC
      exact h1 _ (I.entries W hW C0 hC0 e he)
    · rw [List.mem_singleton.1 hW, getD_length] at he
      simp at he

theorem abs_wrap {H : Heap Θ F} {b : Nat} {B : Base Θ} (hB : H.bases[b]? = some B) (layer : Option String) :
    abs (wrap H b layer) = ⟨(abs H).nets.set b { view H.dicts B with watched := (view H.dicts B).watched || hasLayer B.layers layer }, (abs H).wrappers ++ [(b, layer)]⟩ := by
  unfold wrap abs
  rw [hB]
  simp only [List.map_append, List.map_cons, List.map_nil, List.map_set]
  congr 1
  have h1 : H.bases.map (view (H.dicts ++ [[]])) = H.bases.map (view H.dicts) := by
    apply List.map_congr_left
    intro C _
    unfold view dirty
    simp only [getD_snoc]
  rw [h1]
  congr 1
  unfold view
  rw [(register_layers _ _ _).1, (register_layers _ _ _).2, register_watched]
  congr 1
  refine dirty_eq (fun h hm => ?_) (fun h hm => .inl (mem_register.2 (.inl hm))) (fun h _ _ => getD_snoc _ _)
  rcases mem_register.1 hm with h' | ⟨n, -, -, rfl⟩
  · exact .inl h'
  · exact .inr (by rw [getD_snoc, getD_length])

/-- Registering the hooks of an existing wrapper a second time changes nothing visible. -/
theorem inv_again {H : Heap Θ F} (I : Inv H) {b d : Nat} {layer : Option String}
    (hh : ∀ B, H.bases[b]? = some B → ∀ n, layer = some n → n ∈ B.layers → (⟨d, n⟩ : Hook) ∈ B.hooks) :
    Inv { H with bases := H.bases.modify b (fun B => register B d layer) } ∧ abs { H with bases := H.bases.modify b (fun B => register B d layer) } = abs H := by
  have cases' : ∀ (c : Nat) (C : Base Θ), (H.bases.modify b (fun B => register B d layer))[c]? = some C → ∃ C0, H.bases[c]? = some C0 ∧ C.layers = C0.layers ∧
      ∀ h, h ∈ C.hooks ↔ h ∈ C0.hooks := by
    intro c C hC
    rw [List.getElem?_modify] at hC
    rcases hc : H.bases[c]? with _ | C0
    · rw [hc] at hC
      simp at hC
    · rw [hc] at hC
      refine ⟨C0, rfl, ?_⟩
      by_cases e : b = c
      · subst e
        simp at hC
        subst hC
        refine ⟨(register_layers _ _ _).1, fun h => ⟨fun hm => ?_, fun hm => mem_register.2 (.inl hm)⟩⟩
        rcases mem_register.1 hm with h' | ⟨n, hn, hl, rfl⟩
        · exact h'
        · exact hh _ hc n hn hl
      · simp [e] at hC
        subst hC
        exact ⟨rfl, fun h => Iff.rfl⟩
  constructor
  · constructor
    · intro c C hC h hm
      obtain ⟨C0, hC0, -, hi⟩ := cases' c C hC
      exact I.bound c C0 hC0 h ((hi h).1 hm)
    · intro c c' C C' hC hC' h hm h' hm' e
      obtain ⟨C0, hC0, -, hi⟩ := cases' c C hC
      obtain ⟨C0', hC0', -, hi'⟩ := cases' c' C' hC'
      exact I.own c c' C0 C0' hC0 hC0' h ((hi h).1 hm) h' ((hi' h').1 hm') e
    · intro c C hC h hm e he
      obtain ⟨C0, hC0, -, hi⟩ := cases' c C hC
      exact (hi _).2 (I.keys c C0 hC0 h ((hi h).1 hm) e he)
    · intro W hW
      simpa using I.wrap W hW
    · intro W hW C hC n hn hl
      obtain ⟨C0, hC0, hlay, hi⟩ := cases' _ C hC
      exact (hi _).2 (I.hooked W hW C0 hC0 n hn (hlay ▸ hl))
    · intro W hW c C hC h hm e
      obtain ⟨C0, hC0, hlay, hi⟩ := cases' _ C hC
      rw [hlay]
      exact I.named W hW c C0 hC0 h ((hi h).1 hm) e
    · intro W hW C hC e he
      obtain ⟨C0, hC0, -, hi⟩ := cases' _ C hC
      exact (hi _).2 (I.entries W hW C0 hC0 e he)
  · unfold abs
    congr 1
    apply List.ext_getElem?
    intro c
    rw [List.getElem?_map, List.getElem?_map]
    show Option.map _ (H.bases.modify b (fun B => register B d layer))[c]? = _
    rw [List.getElem?_modify]
    rcases hc : H.bases[c]? with _ | C0
    · rfl
    · by_cases e : b = c
      · subst e
        simp only [Option.map_some, Option.map_eq_map, if_true]
        congr 1
        unfold view
        rw [(register_layers _ _ _).1, (register_layers _ _ _).2]
        have hm : ∀ h, h ∈ (register C0 d layer).hooks ↔ h ∈ C0.hooks := by
          intro h
          refine ⟨fun hm => ?_, fun hm => mem_register.2 (.inl hm)⟩
          rcases mem_register.1 hm with h' | ⟨n, hn, hl, rfl⟩
          · exact h'
          · exact hh _ hc n hn hl
        congr 1
        · rcases h1 : (register C0 d layer).hooks with _ | ⟨k, ks⟩ <;> rcases h2 : C0.hooks with _ | ⟨k', ks'⟩
          · rfl
          · have := (hm k').2 (by simp [h2])
            simp [h1] at this
          · have := (hm k).1 (by simp [h1])
            simp [h2] at this
          · rfl
        · exact dirty_eq (fun h k => .inl ((hm h).1 k)) (fun h k => .inl ((hm h).2 k)) (fun _ _ _ => rfl)
      · simp [e]

theorem getD_double (D : List (List (String × Stored F))) {i : Nat} (h : i < D.length) :
    (D ++ D).getD i [] = D.getD i [] ∧ (D ++ D).getD (i + D.length) [] = D.getD i [] := by
  simp only [List.getD_eq_getElem?_getD]
  rw [List.getElem?_append_left h, List.getElem?_append_right (by omega)]
  simp

theorem snoc_cases {l : List (Base Θ)} {c : Nat} {B C : Base Θ} (h : (l ++ [B])[c]? = some C) : (c = l.length ∧ C = B) ∨ (c < l.length ∧ l[c]? = some C) := by
  by_cases hc : c < l.length
  · rw [List.getElem?_append_left hc] at h
    exact .inr ⟨hc, h⟩
  · rw [List.getElem?_append_right (by omega)] at h
    rcases hk : c - l.length with _ | k
    · rw [hk] at h
      exact .inl ⟨by omega, by simpa using h.symm⟩
    · rw [hk] at h
      simp at h

theorem inv_new {H : Heap Θ F} (I : Inv H) (θ : Θ) (layers : List String) : Inv { H with bases := H.bases ++ [⟨θ, layers, []⟩] } := by
  have cases' : ∀ (c : Nat) (C : Base Θ), (H.bases ++ [⟨θ, layers, []⟩])[c]? = some C → C.hooks = [] ∨ H.bases[c]? = some C := by
    intro c C hC
    rcases snoc_cases hC with ⟨-, rfl⟩ | ⟨-, h⟩
    · exact .inl rfl
    · exact .inr h
  constructor
  · intro c C hC h hm
    rcases cases' c C hC with e | e
    · rw [e] at hm; simp at hm
    · exact I.bound c C e h hm
  · intro c c' C C' hC hC' h hm h' hm' e
    rcases cases' c C hC with k | k
    · rw [k] at hm; simp at hm
    · rcases cases' c' C' hC' with k' | k'
      · rw [k'] at hm'; simp at hm'
      · exact I.own c c' C C' k k' h hm h' hm' e
  · intro c C hC h hm
    rcases cases' c C hC with e | e
    · rw [e] at hm; simp at hm
    · exact I.keys c C e h hm
  · intro W hW
    have := I.wrap W hW
    simp
    omega
  · intro W hW C hC
    rw [List.getElem?_append_left (I.wrap W hW).1] at hC
    exact I.hooked W hW C hC
  · intro W hW c C hC h hm
    rcases cases' c C hC with e | e
    · rw [e] at hm; simp at hm
    · exact I.named W hW c C e h hm
  · intro W hW C hC
    rw [List.getElem?_append_left (I.wrap W hW).1] at hC
    exact I.entries W hW C hC

theorem inv_copy {H H' : Heap Θ F} (I : Inv H) {b : Nat} {B : Base Θ} (hB : H.bases[b]? = some B) (h : copyBase H b = .ok H') :
    Inv H' ∧ abs H' = ⟨(abs H).nets ++ [view H.dicts B], (abs H).wrappers⟩ ∧ (view H.dicts B).traced = false ∧ H'.bases.length = H.bases.length + 1 ∧
      H'.wrappers = H.wrappers := by
  unfold copyBase at h
  rw [hB] at h
  simp only at h
  split at h
  · cases h
  rename_i hd
  cases h
  have hcl : dirty H.dicts B.hooks = false := by
    unfold dirty
    simpa using hd
  have cases' : ∀ (c : Nat) (C : Base Θ), (H.bases ++ [{ B with hooks := B.hooks.map (fun h => { h with dict := h.dict + H.dicts.length }) }])[c]? = some C →
      (c < H.bases.length ∧ H.bases[c]? = some C) ∨
      (c = H.bases.length ∧ C.layers = B.layers ∧ ∀ h, h ∈ C.hooks ↔ ∃ h0 ∈ B.hooks, h = ⟨h0.dict + H.dicts.length, h0.layer⟩) := by
    intro c C hC
    rcases snoc_cases hC with ⟨k, rfl⟩ | k
    · refine .inr ⟨k, rfl, fun h => ?_⟩
      simp only [List.mem_map]
      constructor
      · rintro ⟨h0, hm, rfl⟩; exact ⟨h0, hm, rfl⟩
      · rintro ⟨h0, hm, rfl⟩; exact ⟨h0, hm, rfl⟩
    · exact .inl k
  refine ⟨?_, ?_, hcl, by simp, rfl⟩
  · constructor
    · intro c C hC h hm
      rcases cases' c C hC with ⟨-, k⟩ | ⟨-, -, k⟩
      · have := I.bound c C k h hm
        simp; omega
      · obtain ⟨h0, hm0, rfl⟩ := (k h).1 hm
        have := I.bound b B hB h0 hm0
        simp; omega
    · intro c c' C C' hC hC' h hm h' hm' e
      rcases cases' c C hC with ⟨-, k⟩ | ⟨k0, -, k⟩ <;> rcases cases' c' C' hC' with ⟨-, k'⟩ | ⟨k0', -, k'⟩
      · exact I.own c c' C C' k k' h hm h' hm' e
      · obtain ⟨h0, hm0, rfl⟩ := (k' h').1 hm'
        have := I.bound c C k h hm
        simp at e; omega
      · obtain ⟨h0, hm0, rfl⟩ := (k h).1 hm
        have := I.bound c' C' k' h' hm'
        simp at e; omega
      · omega
    · intro c C hC h hm e he
      rcases cases' c C hC with ⟨-, k⟩ | ⟨-, -, k⟩
      · rw [(getD_double _ (I.bound c C k h hm)).1] at he
        exact I.keys c C k h hm e he
      · obtain ⟨h0, hm0, rfl⟩ := (k h).1 hm
        rw [(getD_double _ (I.bound b B hB h0 hm0)).2] at he
        exact (k _).2 ⟨_, I.keys b B hB h0 hm0 e he, rfl⟩
    · intro W hW
      have := I.wrap W hW
      simp; omega
    · intro W hW C hC
      rw [List.getElem?_append_left (I.wrap W hW).1] at hC
      exact I.hooked W hW C hC
    · intro W hW c C hC h hm e
      rcases cases' c C hC with ⟨-, k⟩ | ⟨-, -, k⟩
      · exact I.named W hW c C k h hm e
      · obtain ⟨h0, hm0, rfl⟩ := (k h).1 hm
        have := (I.wrap W hW).2
        simp at e; omega
    · intro W hW C hC e he
      rw [List.getElem?_append_left (I.wrap W hW).1] at hC
      rw [(getD_double _ (I.wrap W hW).2).1] at he
      exact I.entries W hW C hC e he
  · unfold abs
    simp only [List.map_append, List.map_cons, List.map_nil]
    congr 2
    · apply List.map_congr_left
      intro C hC
      obtain ⟨c, hc, rfl⟩ := List.mem_iff_getElem.1 hC
      unfold view
      congr 1
      exact dirty_eq (fun h k => .inl k) (fun h k => .inl k) (fun h k _ => (getD_double _ (I.bound c _ (List.getElem?_eq_getElem hc) h k)).1)
    · unfold view
      simp only [List.cons.injEq, Network.mk.injEq, true_and, and_true]
      refine ⟨by simp, ?_⟩
      unfold dirty
      rw [List.any_map]
      rw [Bool.eq_iff_iff]
      simp only [List.any_eq_true, Function.comp]
      constructor
      · rintro ⟨h, hm, e, he, hg⟩
        rw [(getD_double _ (I.bound b B hB h hm)).2] at he
        exact ⟨h, hm, e, he, hg⟩
      · rintro ⟨h, hm, e, he, hg⟩
        refine ⟨h, hm, e, ?_, hg⟩
        rw [(getD_double _ (I.bound b B hB h hm)).2]
        exact he

theorem inv_fire (feat : Θ → String → X → F) {H : Heap Θ F} (I : Inv H) {b : Nat} {B : Base Θ} (hB : H.bases[b]? = some B) (g : Bool) (x : X) :
    Inv { H with dicts := fire (fun θ n x => some (feat θ n x)) B.params g x B.hooks H.dicts } ∧
      abs { H with dicts := fire (fun θ n x => some (feat θ n x)) B.params g x B.hooks H.dicts } =
        ⟨(abs H).nets.set b { view H.dicts B with traced := (view H.dicts B).watched && g }, (abs H).wrappers⟩ := by
  have hb := I.bound b B hB
  have other : ∀ (c : Nat) (C : Base Θ), H.bases[c]? = some C → c ≠ b → ∀ h ∈ C.hooks,
      (fire (fun θ n x => some (feat θ n x)) B.params g x B.hooks H.dicts).getD h.dict [] = H.dicts.getD h.dict [] := by
    intro c C hC hne h hm
    exact fire_other feat _ g x _ _ hb _ (fun h' hm' e => hne (I.own c b C B hC hB h hm h' hm' e.symm))
  constructor
  · constructor
    · intro c C hC h hm
      rw [fire_length]
      exact I.bound c C hC h hm
    · exact I.own
    · intro c C hC h hm e he
      by_cases hc : c = b
      · subst hc
        rw [hB] at hC
        cases hC
        rcases fire_mem feat _ g x _ _ hb _ e he with k | ⟨k, k'⟩
        · exact k.1
        · exact absurd (I.keys c _ hB h hm e k) k'
      · rw [other c C hC hc h hm] at he
        exact I.keys c C hC h hm e he
    · intro W hW
      rw [fire_length]
      exact I.wrap W hW
    · exact I.hooked
    · exact I.named
    · intro W hW C hC e he
      by_cases hc : W.base = b
      · subst hc
        rw [hB] at hC
        cases hC
        rcases fire_mem feat _ g x _ _ hb _ e he with k | ⟨k, -⟩
        · exact k.1
        · exact I.entries W hW _ hB e k
      · rw [fire_other feat _ g x _ _ hb _ (fun h' hm' k => hc (I.named W hW b B hB h' hm' k).1.symm)] at he
        exact I.entries W hW C hC e he
  · unfold abs
    congr 1
    apply List.ext_getElem?
    intro c
    rw [List.getElem?_map, List.getElem?_set]
    have hlt : b < H.bases.length := (List.getElem?_eq_some_iff.1 hB).1
    by_cases hc : b = c
    · subst hc
      rw [if_pos rfl, hB]
      simp only [List.length_map, hlt, if_true, Option.map_some]
      congr 1
      unfold view
      congr 1
      rw [Bool.eq_iff_iff]
      unfold dirty
      simp only [List.any_eq_true, Bool.and_eq_true]
      constructor
      · rintro ⟨h, hm, e, he, hg⟩
        refine ⟨by cases hk : B.hooks <;> simp_all, ?_⟩
        rcases fire_mem feat _ g x _ _ hb _ e he with k | ⟨k, k'⟩
        · rw [← k.2]
          exact hg
        · exact absurd (I.keys b _ hB h hm e k) k'
      · rintro ⟨hne, hg⟩
        obtain ⟨h, hm⟩ : ∃ h, h ∈ B.hooks := by
          cases hk : B.hooks with
          | nil => rw [hk] at hne; simp at hne
          | cons k ks => exact ⟨k, by simp⟩
        have := fire_get feat B.params g x B.hooks H.dicts hb h.dict h.layer
        rw [if_pos (by cases h; exact hm)] at this
        exact ⟨h, hm, _, get_mem this, hg⟩
    · rw [if_neg hc, List.getElem?_map]
      rcases hC : H.bases[c]? with _ | C
      · rfl
      · simp only [Option.map_some]
        congr 1
        unfold view
        congr 1
        exact dirty_eq (fun h k => .inl k) (fun h k => .inl k) (fun h k _ => other c C hC (fun e => hc e.symm) h k)

theorem inv_step {H : Heap Θ F} (I : Inv H) (b : Nat) (f : Θ → Θ) :
    Inv { H with bases := H.bases.modify b (fun B => { B with params := f B.params }) } ∧
      abs { H with bases := H.bases.modify b (fun B => { B with params := f B.params }) } =
        ⟨(abs H).nets.modify b (fun N => { N with params := f N.params }), (abs H).wrappers⟩ := by
  have cases' : ∀ (c : Nat) (C : Base Θ), (H.bases.modify b (fun B => { B with params := f B.params }))[c]? = some C →
      ∃ C0, H.bases[c]? = some C0 ∧ C.layers = C0.layers ∧ C.hooks = C0.hooks := by
    intro c C hC
    rw [List.getElem?_modify] at hC
    rcases hc : H.bases[c]? with _ | C0
    · rw [hc] at hC
      simp at hC
    · rw [hc] at hC
      refine ⟨C0, rfl, ?_⟩
      by_cases e : b = c
      · simp [e] at hC
        subst hC
        exact ⟨rfl, rfl⟩
      · simp [e] at hC
        subst hC
        exact ⟨rfl, rfl⟩
  constructor
  · constructor
    · intro c C hC h hm
      obtain ⟨C0, hC0, -, hi⟩ := cases' c C hC
      exact I.bound c C0 hC0 h (hi ▸ hm)
    · intro c c' C C' hC hC' h hm h' hm' e
      obtain ⟨C0, hC0, -, hi⟩ := cases' c C hC
      obtain ⟨C0', hC0', -, hi'⟩ := cases' c' C' hC'
      exact I.own c c' C0 C0' hC0 hC0' h (hi ▸ hm) h' (hi' ▸ hm') e
    · intro c C hC h hm e he
      obtain ⟨C0, hC0, -, hi⟩ := cases' c C hC
      rw [hi] at hm ⊢
      exact I.keys c C0 hC0 h hm e he
    · intro W hW
      simpa using I.wrap W hW
    · intro W hW C hC n hn hl
      obtain ⟨C0, hC0, hlay, hi⟩ := cases' _ C hC
      rw [hi]
      exact I.hooked W hW C0 hC0 n hn (hlay ▸ hl)
    · intro W hW c C hC h hm e
      obtain ⟨C0, hC0, hlay, hi⟩ := cases' _ C hC
      rw [hlay]
      exact I.named W hW c C0 hC0 h (hi ▸ hm) e
    · intro W hW C hC e he
      obtain ⟨C0, hC0, -, hi⟩ := cases' _ C hC
      rw [hi]
      exact I.entries W hW C0 hC0 e he
  · unfold abs
    congr 1
    apply List.ext_getElem?
    intro c
    rw [List.getElem?_map, List.getElem?_modify, List.getElem?_modify, List.getElem?_map]
    rcases H.bases[c]? with _ | C0
    · rfl
    · by_cases e : b = c <;> simp [e, view]

end Skada.Hk

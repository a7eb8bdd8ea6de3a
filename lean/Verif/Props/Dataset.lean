/-
Properties C21–C23 and C56: the registry of named domains and `pack`.
-/
import Verif.Model.Dataset
import Verif.Lemmas.SplitMerge

namespace Skada
open Registry Spec

variable {α : Type}

/-! ### C21: abstract registry and refinement -/

namespace Spec

/-- Abstract registry: the named domains in the order of insertion. -/
abbrev Reg (α : Type) := List (String × Dom α)

/-- The names in use. -/
def Reg.names (L : Reg α) : List String := L.map Prod.fst

/-- Operations of a history. -/
inductive RegOp (α : Type)
  | add (d : Dom α) (name : Option String)
  | merge (other : Reg α) (mapping : List (String × String))

/-- Adding under a given name: refused when the name is in use. -/
def Reg.addNamed (L : Reg α) (nm : String) (d : Dom α) : Reg α × Option PyErr :=
  if nm ∈ L.names then (L, some .assertionError) else (L ++ [(nm, d)], none)

/-- Merging: add the domains one after the other under their (mapped) names until one is refused. -/
def Reg.mergeAll (mapping : List (String × String)) : Reg α → List (String × Dom α) → Reg α × Option PyErr
  | L, [] => (L, none)
  | L, (nm, d) :: rest =>
    if d.y = none then (L, some .valueError)
    else match L.addNamed ((mapping.lookup nm).getD nm) d with
      | (L', some e) => (L', some e)
      | (L', none) => Reg.mergeAll mapping L' rest

/-- One abstract operation: a new domain without a name gets the name `_n`, `n` its position. -/
def Reg.step (L : Reg α) : RegOp α → Reg α × Option PyErr
  | .add d (some nm) => L.addNamed nm d
  | .add d none => (L ++ [(autoName (L.length + 1), d)], none)
  | .merge other mapping => Reg.mergeAll mapping L other

/-- A history: final registry and the exception of every call. -/
def Reg.run : Reg α → List (RegOp α) → Reg α × List (Option PyErr)
  | L, [] => (L, [])
  | L, op :: ops =>
    let r := L.step op
    let s := Reg.run r.1 ops
    (s.1, r.2 :: s.2)

/-- The explicit names an operation may introduce. -/
def RegOp.explicitNames : RegOp α → List String
  | .add _ (some nm) => [nm]
  | .add _ none => []
  | .merge other mapping => other.map (fun p => (mapping.lookup p.1).getD p.1)

end Spec

/-- The concrete state that stores the abstract registry `L`: ids are the positions `1..n`. -/
def ofReg (L : Reg α) : Registry α :=
  ⟨L.map Prod.snd, (L.map Prod.fst).zip (List.range' 1 L.length)⟩

/-- One concrete call. -/
def stepC (r : Registry α) : RegOp α → Registry α × Option PyErr
  | .add d nm => r.addDomain d nm
  | .merge other mapping => r.merge (ofReg other) mapping

/-- A concrete history. -/
def runC : Registry α → List (RegOp α) → Registry α × List (Option PyErr)
  | r, [] => (r, [])
  | r, op :: ops =>
    let r1 := stepC r op
    let s := runC r1.1 ops
    (s.1, r1.2 :: s.2)

theorem autoName_injective {m n : Nat} (h : autoName m = autoName n) : m = n := by
  unfold autoName at h
  rw [String.append_right_inj] at h
  rw [Nat.toString_eq_ofList_toDigits, Nat.toString_eq_ofList_toDigits] at h
  have h2 := congrArg String.toList h
  rw [String.toList_ofList, String.toList_ofList] at h2
  have h3 := congrArg (Nat.ofDigitChars 10 · 0) h2
  simpa [Nat.ofDigitChars_ten_toDigits] using h3

theorem dictSet_fresh {d : List (String × Nat)} {k : String} {v : Nat} (h : k ∉ d.map Prod.fst) :
    dictSet d k v = d ++ [(k, v)] := by
  induction d with
  | nil => rfl
  | cons p d ih =>
    obtain ⟨k', v'⟩ := p
    simp only [List.map_cons, List.mem_cons, not_or] at h
    simp [dictSet, Ne.symm h.1, ih h.2]

theorem ofReg_names_fst (L : Reg α) : (ofReg L).names.map Prod.fst = L.names := by
  unfold ofReg Reg.names
  rw [List.map_fst_zip]; simp

theorem dictHas_ofReg (L : Reg α) (nm : String) : dictHas (ofReg L).names nm = true ↔ nm ∈ L.names := by
  rw [← ofReg_names_fst]
  simp [dictHas]

theorem ofReg_append (L : Reg α) (nm : String) (d : Dom α) :
    ofReg (L ++ [(nm, d)]) = ⟨L.map Prod.snd ++ [d], (ofReg L).names ++ [(nm, L.length + 1)]⟩ := by
  unfold ofReg
  simp only [List.map_append, List.map_cons, List.map_nil, List.length_append, List.length_cons, List.length_nil]
  rw [Registry.mk.injEq]
  refine ⟨rfl, ?_⟩
  rw [Nat.zero_add, List.range'_1_concat, List.zip_append (by simp)]
  simp [Nat.add_comm]

theorem addNamed_ofReg (L : Reg α) (nm : String) (d : Dom α) :
    (ofReg L).addDomain d (some nm) = (ofReg (L.addNamed nm d).1, (L.addNamed nm d).2) := by
  unfold addDomain Reg.addNamed
  by_cases h : nm ∈ L.names
  · simp [h, (dictHas_ofReg L nm).2 h]
  · have h2 : dictHas (ofReg L).names nm = false := by
      rw [← Bool.not_eq_true, dictHas_ofReg]; exact h
    simp only [h2, h, if_false, Bool.false_eq_true]
    rw [ofReg_append, dictSet_fresh (by rw [ofReg_names_fst]; exact h)]
    simp [ofReg]

theorem names_lookup_ofReg (L : Reg α) (hnd : L.names.Nodup) (i : Nat) (hi : i < L.length) :
    (ofReg L).names.lookup (L[i].1) = some (i + 1) := by
  have key : ∀ (L : Reg α) (k i : Nat) (hi : i < L.length), (L.map Prod.fst).Nodup →
      ((L.map Prod.fst).zip (List.range' k L.length)).lookup (L[i].1) = some (k + i) := by
    intro L
    induction L with
    | nil => intro k i hi; simp at hi
    | cons p L ih =>
      intro k i hi hnd
      simp only [List.map_cons, List.nodup_cons] at hnd
      cases i with
      | zero => simp [List.range'_succ]
      | succ i =>
        simp only [List.length_cons, Nat.add_lt_add_iff_right] at hi
        simp only [List.map_cons, List.length_cons, List.range'_succ, List.zip_cons_cons, List.getElem_cons_succ]
        have hne : L[i].1 ≠ p.1 := fun he => hnd.1 (he ▸ List.mem_map.2 ⟨L[i], List.getElem_mem hi, rfl⟩)
        rw [List.lookup_cons, beq_false_of_ne hne]
        simp only
        rw [ih (k + 1) i hi hnd.2]
        congr 1; omega
  have := key L 1 i hi hnd
  rw [Nat.add_comm] at this
  exact this

theorem names_lookup_none (L : Reg α) (nm : String) (h : nm ∉ L.names) : (ofReg L).names.lookup nm = none := by
  rw [List.lookup_eq_none_iff]
  intro p hp
  rw [bne_iff_ne]
  rintro rfl
  apply h
  rw [← ofReg_names_fst]
  exact List.mem_map.2 ⟨p, hp, rfl⟩

/-- Reading a domain by its name, whatever its position. -/
theorem getDomain_ofReg (L : Reg α) (hnd : L.names.Nodup) (nm : String) (d : Dom α) (h : (nm, d) ∈ L) :
    (ofReg L).getDomain nm = .ok d := by
  obtain ⟨i, hi, he⟩ := List.getElem_of_mem h
  have hl := names_lookup_ofReg L hnd i hi
  rw [he] at hl
  unfold getDomain
  rw [hl]
  simp [ofReg, List.getElem?_eq_getElem hi, he]

theorem mergeLoop_ofReg (other : Reg α) (hother : other.names.Nodup) (mapping : List (String × String)) :
    ∀ (rest : List (String × Dom α)), (∀ p ∈ rest, p ∈ other) → ∀ L : Reg α,
      mergeLoop (ofReg other) mapping (ofReg L) (rest.map Prod.fst) =
        (ofReg (Reg.mergeAll mapping L rest).1, (Reg.mergeAll mapping L rest).2) := by
  intro rest
  induction rest with
  | nil => intro _ L; rfl
  | cons p rest ih =>
    intro hmem L
    obtain ⟨nm, d⟩ := p
    simp only [List.map_cons, mergeLoop, Reg.mergeAll]
    rw [getDomain_ofReg other hother nm d (hmem _ (by simp))]
    simp only
    by_cases hy : d.y = none
    · simp [hy]
    · simp only [hy, if_false]
      rw [addNamed_ofReg]
      rcases hadd : L.addNamed ((mapping.lookup nm).getD nm) d with ⟨L', _ | e⟩
      · simp only
        exact ih (fun q hq => hmem q (by simp [hq])) L'
      · simp

/-- C21 (refinement). For every history of `add_domain` and `merge` calls (with or without explicit names, including
calls that raise) in which no explicit name has the form of an automatic name, the data set behaves as the abstract
list of named domains: same exceptions, ids are the positions 1..n, names are unique.  `merge` operands are data sets
that were themselves built that way.
Missing from the full claim: explicit names of the form `_n`, see `C21_counterexample`. -/
theorem C21_registry_refines_partial (ops : List (RegOp α))
    (hother : ∀ other mapping, RegOp.merge other mapping ∈ ops → (Reg.names other).Nodup)
    (hnames : ∀ op ∈ ops, ∀ nm ∈ op.explicitNames, ∀ n, nm ≠ autoName n) :
    runC Registry.empty ops = (ofReg (Reg.run [] ops).1, (Reg.run [] ops).2) ∧
    (Reg.run [] ops).1.names.Nodup := by
  -- invariant: unique names, automatic ones numbered at most by the size
  let Inv : Reg α → Prop := fun L => L.names.Nodup ∧ ∀ n, autoName n ∈ L.names → n ≤ L.length
  have hadd : ∀ (L : Reg α) nm d, Inv L → (∀ n, nm ≠ autoName n) → Inv (L.addNamed nm d).1 := by
    intro L nm d hI hnm
    unfold Reg.addNamed
    by_cases h : nm ∈ L.names
    · simpa [h] using hI
    · simp only [h, if_false]
      refine ⟨?_, ?_⟩
      · simp only [Reg.names, List.map_append, List.map_cons, List.map_nil]
        rw [List.nodup_append]
        refine ⟨hI.1, by simp, ?_⟩
        intro a ha b hb
        simp only [List.mem_singleton] at hb
        subst hb
        intro hab; subst hab; exact h ha
      · intro n hn
        simp only [Reg.names, List.map_append, List.map_cons, List.map_nil, List.mem_append, List.mem_singleton] at hn
        rcases hn with hn | hn
        · have := hI.2 n hn; simp; omega
        · exact absurd hn.symm (hnm n)
  have hmerge : ∀ (mapping : List (String × String)) (rest : List (String × Dom α)) (L : Reg α), Inv L →
      (∀ p ∈ rest, ∀ n, (mapping.lookup p.1).getD p.1 ≠ autoName n) → Inv (Reg.mergeAll mapping L rest).1 := by
    intro mapping rest
    induction rest with
    | nil => intro L hI _; exact hI
    | cons p rest ih =>
      intro L hI hn
      obtain ⟨nm, d⟩ := p
      unfold Reg.mergeAll
      by_cases hy : d.y = none
      · simpa [hy] using hI
      · simp only [hy, if_false]
        have h1 := hadd L ((mapping.lookup nm).getD nm) d hI (hn (nm, d) (by simp))
        rcases he : L.addNamed ((mapping.lookup nm).getD nm) d with ⟨L', _ | e⟩
        · rw [he] at h1
          simp only
          exact ih L' h1 (fun q hq => hn q (by simp [hq]))
        · rw [he] at h1
          simpa using h1
  have main : ∀ (ops : List (RegOp α)),
      (∀ other mapping, RegOp.merge other mapping ∈ ops → (Reg.names other).Nodup) →
      (∀ op ∈ ops, ∀ nm ∈ op.explicitNames, ∀ n, nm ≠ autoName n) →
      ∀ L : Reg α, Inv L →
      runC (ofReg L) ops = (ofReg (Reg.run L ops).1, (Reg.run L ops).2) ∧ Inv (Reg.run L ops).1 := by
    intro ops
    induction ops with
    | nil => intro _ _ L hI; exact ⟨rfl, hI⟩
    | cons op ops ih =>
      intro ho hn L hI
      have hstep : stepC (ofReg L) op = (ofReg (L.step op).1, (L.step op).2) ∧ Inv (L.step op).1 := by
        cases op with
        | add d nm =>
          cases nm with
          | some nm =>
            exact ⟨addNamed_ofReg L nm d, hadd L nm d hI (hn (.add d (some nm)) (by simp) nm (by simp [RegOp.explicitNames]))⟩
          | none =>
            have hlen : (ofReg L).names.length = L.length := by simp [ofReg]
            have hfresh : autoName (L.length + 1) ∉ L.names := by
              intro h; have := hI.2 _ h; omega
            refine ⟨?_, ?_, ?_⟩
            · show (ofReg L).addDomain d none = _
              unfold addDomain
              simp only [hlen]
              rw [dictSet_fresh (by rw [ofReg_names_fst]; exact hfresh)]
              simp only [Reg.step]
              rw [ofReg_append]
              simp [ofReg]
            · simp only [Reg.step, Reg.names, List.map_append, List.map_cons, List.map_nil]
              rw [List.nodup_append]
              refine ⟨hI.1, by simp, ?_⟩
              intro a ha b hb
              simp only [List.mem_singleton] at hb
              subst hb
              intro hab; subst hab; exact hfresh ha
            · intro n hnm
              simp only [Reg.step, Reg.names, List.map_append, List.map_cons, List.map_nil, List.mem_append,
                List.mem_singleton] at hnm
              simp only [Reg.step, List.length_append, List.length_cons, List.length_nil]
              rcases hnm with hnm | hnm
              · have := hI.2 n hnm; omega
              · have := autoName_injective hnm; omega
        | merge other mapping =>
          have hod : (Reg.names other).Nodup := ho other mapping (by simp)
          refine ⟨?_, ?_⟩
          · show (ofReg L).merge (ofReg other) mapping = _
            unfold Registry.merge
            rw [ofReg_names_fst]
            exact mergeLoop_ofReg other hod mapping other (fun _ h => h) L
          · apply hmerge mapping other L hI
            intro p hp n
            exact hn (.merge other mapping) (by simp) _ (List.mem_map.2 ⟨p, hp, rfl⟩) n
      obtain ⟨h1, h2⟩ := hstep
      obtain ⟨h3, h4⟩ := ih (fun o m h => ho o m (by simp [h])) (fun o h => hn o (by simp [h])) _ h2
      refine ⟨?_, h4⟩
      simp only [runC, Reg.run]
      rw [h1]
      simp only
      rw [h3]
  have hI0 : Inv ([] : Reg α) := ⟨by simp [Reg.names], by intro n h; simp [Reg.names] at h⟩
  obtain ⟨h1, h2⟩ := main ops hother hnames [] hI0
  exact ⟨h1, h2.1⟩

/-- C21 (lookup). In such a data set every domain is reachable under its one name, and unknown names are a
`KeyError`. -/
theorem C21_get_domain_partial (L : Reg α) (hnd : L.names.Nodup) :
    (∀ nm d, (nm, d) ∈ L → (ofReg L).getDomain nm = .ok d) ∧
    (∀ nm, nm ∉ L.names → (ofReg L).getDomain nm = .error .keyError) ∧
    (∀ i (h : i < L.length), (ofReg L).names.lookup (L[i].1) = some (i + 1)) ∧
    (ofReg L).domains.length = L.length ∧ (ofReg L).names.length = L.length := by
  refine ⟨fun nm d h => getDomain_ofReg L hnd nm d h, ?_, fun i h => names_lookup_ofReg L hnd i h, by simp [ofReg],
    by simp [ofReg]⟩
  intro nm h
  unfold getDomain
  rw [names_lookup_none L nm h]

/-- C21 is false in general: an automatic name overwrites an explicit name of the same spelling, so the first
domain is no longer reachable and two domains share one name (skada/datasets/_base.py:147-150). -/
theorem C21_counterexample :
    let d1 : Dom Nat := ⟨[1], none⟩
    let d2 : Dom Nat := ⟨[2], none⟩
    runC Registry.empty [.add d1 (some "_2"), .add d2 none] = (⟨[d1, d2], [("_2", 2)]⟩, [none, none]) ∧
    (∀ nm, (runC Registry.empty [.add d1 (some "_2"), .add d2 none]).1.getDomain nm ≠ .ok d1) := by
  have h : runC (α := Nat) Registry.empty [.add ⟨[1], none⟩ (some "_2"), .add ⟨[2], none⟩ none]
      = (⟨[⟨[1], none⟩, ⟨[2], none⟩], [("_2", 2)]⟩, [none, none]) := by decide
  refine ⟨h, ?_⟩
  intro nm
  rw [h]
  unfold getDomain
  simp only [List.lookup_cons, List.lookup_nil]
  by_cases hb : (nm == "_2") = true
  · rw [hb]; simp
  · rw [Bool.not_eq_true] at hb; rw [hb]; simp

example : (Reg.run (α := Nat) [] [.add ⟨[1], none⟩ none, .add ⟨[2], some ⟨.int64, [.fin 0]⟩⟩ (some "b"),
      .merge [("b", ⟨[3], some ⟨.int64, [.fin 1]⟩⟩)] [("b", "c")], .add ⟨[4], none⟩ (some "b")]).2
    = [none, none, none, some .assertionError] := by decide +kernel

/-! ### C22 and C23: pack -/

/-- The domain stored under a name. -/
def Spec.Reg.dom (L : Reg α) (nm : String) : Dom α := (L.lookup nm).getD ⟨[], none⟩

/-- The id of a name: its position in the data set, starting from 1. -/
def Spec.Reg.id (L : Reg α) (nm : String) : Int := (L.names.idxOf nm : Int) + 1

/-- The stored labels of a name; `-1` for a domain without labels. -/
def Spec.Reg.labels (L : Reg α) (nm : String) : List Num :=
  match (L.dom nm).y with
  | some y => y.vals
  | none => List.replicate (L.dom nm).X.length (.fin (-1))

/-- Every domain has as many labels as rows (`add_domain` does not check this). -/
def Spec.Reg.Consistent (L : Reg α) : Prop :=
  ∀ p ∈ L, ∀ y, p.2.y = some y → y.vals.length = p.2.X.length

theorem lookup_of_mem {L : Reg α} (hnd : L.names.Nodup) {nm : String} {d : Dom α} (h : (nm, d) ∈ L) :
    L.lookup nm = some d := by
  induction L with
  | nil => simp at h
  | cons p L ih =>
    simp only [Reg.names, List.map_cons, List.nodup_cons] at hnd
    rcases List.mem_cons.1 h with rfl | h
    · exact List.lookup_cons_self
    · have hne : nm ≠ p.1 := fun he => hnd.1 (he ▸ List.mem_map.2 ⟨(nm, d), h, rfl⟩)
      rw [List.lookup_cons, beq_false_of_ne hne]
      exact ih hnd.2 h

theorem dom_mem {L : Reg α} (hnd : L.names.Nodup) {nm : String} (h : nm ∈ L.names) : (nm, L.dom nm) ∈ L := by
  obtain ⟨p, hp, rfl⟩ := List.mem_map.1 h
  have := lookup_of_mem hnd (nm := p.1) (d := p.2) hp
  unfold Reg.dom
  rw [this]; exact hp

theorem id_lookup {L : Reg α} (hnd : L.names.Nodup) {nm : String} (h : nm ∈ L.names) :
    (ofReg L).names.lookup nm = some (L.names.idxOf nm + 1) := by
  have hi : L.names.idxOf nm < L.names.length := List.idxOf_lt_length_iff.2 h
  have hi' : L.names.idxOf nm < L.length := by simpa [Reg.names] using hi
  have := names_lookup_ofReg L hnd _ hi'
  have e : L[L.names.idxOf nm].1 = nm := by
    have h1 : L.names[L.names.idxOf nm]'hi = nm := List.getElem_idxOf hi
    have h2 : L.names[L.names.idxOf nm]'hi = (L[L.names.idxOf nm]'hi').1 := by
      simp only [Reg.names, List.getElem_map]
    rw [← h2]; exact h1
  rwa [e] at this

theorem labelsOf_dom (L : Reg α) (nm : String) : (labelsOf (L.dom nm)).vals = L.labels nm := by
  unfold labelsOf Reg.labels
  cases (L.dom nm).y <;> rfl

theorem length_labels {L : Reg α} (hnd : L.names.Nodup) (hc : L.Consistent) {nm : String} (h : nm ∈ L.names) :
    (L.labels nm).length = (L.dom nm).X.length := by
  unfold Reg.labels
  cases hy : (L.dom nm).y with
  | none => simp
  | some y => exact hc _ (dom_mem hnd h) y hy

theorem packSources_ok {L : Reg α} (hnd : L.names.Nodup) (hc : L.Consistent) (srcs : List String)
    (hs : ∀ nm ∈ srcs, nm ∈ L.names) (p : Packed α) :
    packSources (ofReg L) p srcs = .ok
      ⟨p.X ++ srcs.flatMap (fun nm => (L.dom nm).X), p.y ++ srcs.flatMap (fun nm => L.labels nm),
       p.sd ++ srcs.flatMap (fun nm => List.replicate (L.dom nm).X.length (L.id nm))⟩ := by
  induction srcs generalizing p with
  | nil => simp [packSources]
  | cons nm srcs ih =>
    have hnm := hs nm (by simp)
    unfold packSources
    rw [id_lookup hnd hnm, getDomain_ofReg L hnd nm _ (dom_mem hnd hnm)]
    simp only
    rw [ih (fun n h => hs n (by simp [h]))]
    simp only [labelsOf_dom, length_labels hnd hc hnm, List.flatMap_cons, List.append_assoc, Reg.id]
    push_cast
    rfl

/-- The label written for the target `nm` under the current mask. -/
theorem packTargets_ok {L : Reg α} (hnd : L.names.Nodup) (hc : L.Consistent) (tgts : List String)
    (hs : ∀ nm ∈ tgts, nm ∈ L.names) (ml : Bool) (mask : Option Num) (p : Packed α) :
    ∃ ys : List (List Num), packTargets (ofReg L) ml mask p tgts = .ok
      ⟨p.X ++ tgts.flatMap (fun nm => (L.dom nm).X), p.y ++ ys.flatten,
       p.sd ++ tgts.flatMap (fun nm => List.replicate (L.dom nm).X.length (-(L.id nm)))⟩ ∧
      List.Forall₂ (fun nm y => y.length = (L.dom nm).X.length) tgts ys ∧
      (ml = false → ys = tgts.map L.labels) ∧
      (∀ m, ml = true → mask = some m → ys = tgts.map (fun nm => List.replicate (L.dom nm).X.length m)) ∧
      (ml = true → mask = none → (∀ nm ∈ tgts, (labelsOf (L.dom nm)).dtype ≠ .other) →
        ∃ m, (m = Num.fin (-1) ∨ m = Num.nan) ∧
          ys = tgts.map (fun nm => List.replicate (L.dom nm).X.length m)) := by
  induction tgts generalizing mask p with
  | nil => exact ⟨[], by simp [packTargets], .nil, by simp, by simp, by intros; exact ⟨_, .inl rfl, rfl⟩⟩
  | cons nm tgts ih =>
    have hnm := hs nm (by simp)
    have hlen : (maskTarget ml mask (L.dom nm)).1.length = (L.dom nm).X.length := by
      unfold maskTarget
      cases ml with
      | false => simp [labelsOf_dom, length_labels hnd hc hnm]
      | true =>
        cases mask with
        | some m => simp
        | none =>
          simp only [if_true]
          cases hdt : (labelsOf (L.dom nm)).dtype <;> simp [labelsOf_dom, length_labels hnd hc hnm]
    obtain ⟨ys, h1, h2, h3, h4, h5⟩ := ih (fun n h => hs n (by simp [h])) (maskTarget ml mask (L.dom nm)).2
      ⟨p.X ++ (L.dom nm).X, p.y ++ (maskTarget ml mask (L.dom nm)).1,
        p.sd ++ List.replicate (L.dom nm).X.length (-(L.id nm))⟩
    refine ⟨(maskTarget ml mask (L.dom nm)).1 :: ys, ?_, .cons hlen h2, ?_, ?_, ?_⟩
    · unfold packTargets
      rw [id_lookup hnd hnm, getDomain_ofReg L hnd nm _ (dom_mem hnd hnm)]
      simp only
      rw [hlen]
      have e : (-((L.names.idxOf nm + 1 : Nat) : Int)) = -(L.id nm) := by simp [Reg.id]
      rw [e, h1]
      simp only [List.flatMap_cons, List.append_assoc, List.flatten_cons]
    · intro hml
      subst hml
      rw [h3 rfl]
      simp [maskTarget, labelsOf_dom]
    · intro m hml hm
      subst hml hm
      have e2 : (maskTarget true (some m) (L.dom nm)).2 = some m := by simp [maskTarget]
      rw [h4 m rfl e2]
      simp [maskTarget]
    · intro hml hm hdt
      subst hml hm
      have hd := hdt nm (by simp)
      have : ∃ m, (m = Num.fin (-1) ∨ m = Num.nan) ∧
          maskTarget true none (L.dom nm) = (List.replicate (L.dom nm).X.length m, some m) := by
        unfold maskTarget
        simp only [if_true]
        cases hdd : (labelsOf (L.dom nm)).dtype with
        | other => exact absurd hdd hd
        | int32 => exact ⟨_, .inl rfl, rfl⟩
        | int64 => exact ⟨_, .inl rfl, rfl⟩
        | float32 => exact ⟨_, .inr rfl, rfl⟩
        | float64 => exact ⟨_, .inr rfl, rfl⟩
      obtain ⟨m, hm, he⟩ := this
      refine ⟨m, hm, ?_⟩
      rw [h4 m rfl (by rw [he]), he]
      simp

theorem sourceRows_append {β : Type} {sd1 sd2 : List Int} {a1 a2 : List β} (h : sd1.length = a1.length) :
    sourceRows (sd1 ++ sd2) (a1 ++ a2) = sourceRows sd1 a1 ++ sourceRows sd2 a2 := by
  simp [sourceRows, List.zip_append h]

theorem targetRows_append {β : Type} {sd1 sd2 : List Int} {a1 a2 : List β} (h : sd1.length = a1.length) :
    targetRows (sd1 ++ sd2) (a1 ++ a2) = targetRows sd1 a1 ++ targetRows sd2 a2 := by
  simp [targetRows, List.zip_append h]

theorem sourceRows_of_all {β : Type} {sd : List Int} {a : List β} (hl : sd.length = a.length) :
    ((∀ d ∈ sd, 0 ≤ d) → sourceRows sd a = a ∧ targetRows sd a = []) ∧
    ((∀ d ∈ sd, d < 0) → targetRows sd a = a ∧ sourceRows sd a = []) := by
  induction sd generalizing a with
  | nil => cases a <;> simp [sourceRows, targetRows] at *
  | cons d sd ih =>
    cases a with
    | nil => simp at hl
    | cons x a =>
      obtain ⟨h1, h2⟩ := ih (a := a) (by simpa using hl)
      constructor
      · intro h
        have hd : 0 ≤ d := h d (by simp)
        have hd' : ¬ d < 0 := by omega
        obtain ⟨e1, e2⟩ := h1 (fun e he => h e (by simp [he]))
        unfold sourceRows targetRows at *
        simp [hd, hd', e1, e2]
      · intro h
        have hd' : d < 0 := h d (by simp)
        have hd : ¬ 0 ≤ d := by omega
        obtain ⟨e1, e2⟩ := h2 (fun e he => h e (by simp [he]))
        unfold sourceRows targetRows at *
        simp [hd, hd', e1, e2]

theorem length_flatMap_replicate {L : Reg α} (l : List String) (f : String → Int) :
    (l.flatMap (fun nm => List.replicate (L.dom nm).X.length (f nm))).length
      = (l.flatMap (fun nm => (L.dom nm).X)).length := by
  induction l with
  | nil => rfl
  | cons nm l ih => simp [ih]

/-- C22 (content). `pack` returns the rows of the requested domains in request order, sources first; a row of
source domain `nm` is labelled `+id`, a row of target domain `nm` is labelled `-id`; the three arrays have equal
length, and splitting by sign gives back the sources and the targets. -/
theorem C22_pack_content {L : Reg α} (hnd : L.names.Nodup) (hc : L.Consistent) (srcs tgts : List String)
    (hs : ∀ nm ∈ srcs, nm ∈ L.names) (ht : ∀ nm ∈ tgts, nm ∈ L.names) (hne : srcs ≠ [] ∨ tgts ≠ [])
    (ml : Bool) (mask : Option Num) :
    ∃ p, (ofReg L).pack srcs tgts ml mask = .ok p ∧
      p.X = srcs.flatMap (fun nm => (L.dom nm).X) ++ tgts.flatMap (fun nm => (L.dom nm).X) ∧
      p.sd = srcs.flatMap (fun nm => List.replicate (L.dom nm).X.length (L.id nm)) ++
             tgts.flatMap (fun nm => List.replicate (L.dom nm).X.length (-(L.id nm))) ∧
      p.y.length = p.X.length ∧ p.sd.length = p.X.length ∧
      sourceRows p.sd p.X = srcs.flatMap (fun nm => (L.dom nm).X) ∧
      targetRows p.sd p.X = tgts.flatMap (fun nm => (L.dom nm).X) ∧
      sourceRows p.sd p.y = srcs.flatMap (fun nm => L.labels nm) := by
  obtain ⟨ys, h1, h2, -⟩ := packTargets_ok hnd hc tgts ht ml mask
    ⟨[] ++ srcs.flatMap (fun nm => (L.dom nm).X), [] ++ srcs.flatMap (fun nm => L.labels nm),
       [] ++ srcs.flatMap (fun nm => List.replicate (L.dom nm).X.length (L.id nm))⟩
  have hpk : (ofReg L).pack srcs tgts ml mask = .ok
      ⟨srcs.flatMap (fun nm => (L.dom nm).X) ++ tgts.flatMap (fun nm => (L.dom nm).X),
       srcs.flatMap (fun nm => L.labels nm) ++ ys.flatten,
       srcs.flatMap (fun nm => List.replicate (L.dom nm).X.length (L.id nm)) ++
         tgts.flatMap (fun nm => List.replicate (L.dom nm).X.length (-(L.id nm)))⟩ := by
    unfold pack
    rw [packSources_ok hnd hc srcs hs]
    simp only
    rw [h1]
    simp only [List.nil_append]
    rw [if_neg (by tauto)]
  have hls : (srcs.flatMap (fun nm => L.labels nm)).length = (srcs.flatMap (fun nm => (L.dom nm).X)).length := by
    clear hpk h1 hne
    induction srcs with
    | nil => rfl
    | cons nm srcs ih =>
      simp only [List.flatMap_cons, List.length_append]
      rw [ih (fun n h => hs n (by simp [h])), length_labels hnd hc (hs nm (by simp))]
  have hlt : ys.flatten.length = (tgts.flatMap (fun nm => (L.dom nm).X)).length := by
    clear hpk h1 ht hne
    induction h2 with
    | nil => rfl
    | cons h _ ih => simp only [List.flatten_cons, List.flatMap_cons, List.length_append, h, ih]
  have hpos : ∀ d ∈ srcs.flatMap (fun nm => List.replicate (L.dom nm).X.length (L.id nm)), 0 ≤ d := by
    intro d hd
    obtain ⟨nm, _, h⟩ := List.mem_flatMap.1 hd
    rw [List.eq_of_mem_replicate h]
    simp only [Reg.id]; omega
  have hneg : ∀ d ∈ tgts.flatMap (fun nm => List.replicate (L.dom nm).X.length (-(L.id nm))), d < 0 := by
    intro d hd
    obtain ⟨nm, _, h⟩ := List.mem_flatMap.1 hd
    rw [List.eq_of_mem_replicate h]
    simp only [Reg.id]; omega
  have l1 := length_flatMap_replicate (L := L) srcs (fun nm => L.id nm)
  have l2 := length_flatMap_replicate (L := L) tgts (fun nm => -(L.id nm))
  refine ⟨_, hpk, rfl, rfl, ?_, ?_, ?_, ?_, ?_⟩
  · simp only [List.length_append]; rw [hls, hlt]
  · simp only [List.length_append]; rw [l1, l2]
  · rw [sourceRows_append l1, ((sourceRows_of_all l1).1 hpos).1, ((sourceRows_of_all l2).2 hneg).2, List.append_nil]
  · rw [targetRows_append l1, ((sourceRows_of_all l1).1 hpos).2, ((sourceRows_of_all l2).2 hneg).1, List.nil_append]
  · rw [sourceRows_append (l1.trans hls.symm), ((sourceRows_of_all (l1.trans hls.symm)).1 hpos).1,
      ((sourceRows_of_all (l2.trans hlt.symm)).2 hneg).2, List.append_nil]

/-- C22 (errors). A requested name that is not in the data set makes `pack` raise `KeyError`, and an empty request
`ValueError`. -/
theorem C22_pack_errors {L : Reg α} (hnd : L.names.Nodup) (hc : L.Consistent) (srcs tgts : List String)
    (ml : Bool) (mask : Option Num) :
    ((∃ nm ∈ srcs ++ tgts, nm ∉ L.names) → (ofReg L).pack srcs tgts ml mask = .error .keyError) ∧
    ((ofReg L).pack [] [] ml mask = .error .valueError) := by
  have hsrc : ∀ (srcs : List String) (p : Packed α), (∃ nm ∈ srcs, nm ∉ L.names) →
      packSources (ofReg L) p srcs = .error .keyError := by
    intro srcs
    induction srcs with
    | nil => rintro p ⟨nm, h, _⟩; simp at h
    | cons a srcs ih =>
      rintro p ⟨nm, h, hn⟩
      unfold packSources
      by_cases ha : a ∈ L.names
      · rw [id_lookup hnd ha, getDomain_ofReg L hnd a _ (dom_mem hnd ha)]
        simp only
        rcases List.mem_cons.1 h with rfl | h
        · exact absurd ha hn
        · exact ih _ ⟨nm, h, hn⟩
      · rw [names_lookup_none L a ha]
  have htgt : ∀ (tgts : List String) (mask : Option Num) (p : Packed α), (∃ nm ∈ tgts, nm ∉ L.names) →
      packTargets (ofReg L) ml mask p tgts = .error .keyError := by
    intro tgts
    induction tgts with
    | nil => rintro _ p ⟨nm, h, _⟩; simp at h
    | cons a tgts ih =>
      rintro mask p ⟨nm, h, hn⟩
      unfold packTargets
      by_cases ha : a ∈ L.names
      · rw [id_lookup hnd ha, getDomain_ofReg L hnd a _ (dom_mem hnd ha)]
        simp only
        rcases List.mem_cons.1 h with rfl | h
        · exact absurd ha hn
        · exact ih _ _ ⟨nm, h, hn⟩
      · rw [names_lookup_none L a ha]
  refine ⟨?_, rfl⟩
  rintro ⟨nm, h, hn⟩
  unfold pack
  by_cases hall : ∀ a ∈ srcs, a ∈ L.names
  · rw [packSources_ok hnd hc srcs hall]
    simp only
    rcases List.mem_append.1 h with h | h
    · exact absurd (hall nm h) hn
    · rw [htgt tgts mask _ ⟨nm, h, hn⟩]
  · push Not at hall
    rw [hsrc srcs _ hall]

/-- A data set with two labelled domains and one without labels. -/
def exReg : Reg Nat :=
  [("a", ⟨[10, 11], some ⟨.int64, [.fin 0, .fin 1]⟩⟩), ("b", ⟨[20], some ⟨.int64, [.fin 1]⟩⟩), ("c", ⟨[30, 31], none⟩)]

example : exReg.names.Nodup ∧ exReg.Consistent := by
  refine ⟨by decide, ?_⟩
  intro p hp y hy
  simp only [exReg, List.mem_cons, List.not_mem_nil, or_false] at hp
  rcases hp with rfl | rfl | rfl <;> simp at hy <;> subst hy <;> rfl
example : (ofReg exReg).pack ["b", "a"] ["c", "a"] true none =
    .ok ⟨[20, 10, 11, 30, 31, 10, 11],
      [.fin 1, .fin 0, .fin 1, .fin (-1), .fin (-1), .fin (-1), .fin (-1)], [2, 1, 1, -3, -3, -1, -1]⟩ := by
  decide +kernel

/-- C23 (masking). When target labels are masked and no explicit mask is given, every target label returned by
`pack` is one of the two mask values, the same for all rows, provided the stored target labels are
32/64 bit integers or floats (or absent); with an explicit mask all target labels equal it; without masking the
stored labels come back.  Source labels are never masked.
Missing from the full claim: other label dtypes, see `C23_counterexample`. -/
theorem C23_pack_masks_partial {L : Reg α} (hnd : L.names.Nodup) (hc : L.Consistent) (srcs tgts : List String)
    (hs : ∀ nm ∈ srcs, nm ∈ L.names) (ht : ∀ nm ∈ tgts, nm ∈ L.names) (hne : srcs ≠ [] ∨ tgts ≠ []) :
    (∀ (mask : Option Num), ∃ p, (ofReg L).pack srcs tgts false mask = .ok p ∧
      targetRows p.sd p.y = tgts.flatMap L.labels ∧ sourceRows p.sd p.y = srcs.flatMap L.labels) ∧
    (∀ m : Num, ∃ p, (ofReg L).pack srcs tgts true (some m) = .ok p ∧
      (∀ v ∈ targetRows p.sd p.y, v = m) ∧ sourceRows p.sd p.y = srcs.flatMap L.labels) ∧
    ((∀ nm ∈ tgts, ∀ y, (L.dom nm).y = some y → y.dtype ≠ .other) →
      ∃ p m, (ofReg L).pack srcs tgts true none = .ok p ∧ (m = Num.fin (-1) ∨ m = Num.nan) ∧
      (∀ v ∈ targetRows p.sd p.y, v = m) ∧ sourceRows p.sd p.y = srcs.flatMap L.labels) := by
  have key : ∀ ml mask, ∃ p, (ofReg L).pack srcs tgts ml mask = .ok p ∧
      sourceRows p.sd p.y = srcs.flatMap L.labels ∧
      ∃ ys : List (List Num), targetRows p.sd p.y = ys.flatten ∧
      (ml = false → ys = tgts.map L.labels) ∧
      (∀ m, ml = true → mask = some m → ys = tgts.map (fun nm => List.replicate (L.dom nm).X.length m)) ∧
      (ml = true → mask = none → (∀ nm ∈ tgts, (labelsOf (L.dom nm)).dtype ≠ .other) →
        ∃ m, (m = Num.fin (-1) ∨ m = Num.nan) ∧
          ys = tgts.map (fun nm => List.replicate (L.dom nm).X.length m)) := by
    intro ml mask
    obtain ⟨p, hp, hX, hsd, hl1, hl2, -, -, hsy⟩ := C22_pack_content hnd hc srcs tgts hs ht hne ml mask
    obtain ⟨ys, h1, h2, h3⟩ := packTargets_ok hnd hc tgts ht ml mask
      ⟨[] ++ srcs.flatMap (fun nm => (L.dom nm).X), [] ++ srcs.flatMap (fun nm => L.labels nm),
        [] ++ srcs.flatMap (fun nm => List.replicate (L.dom nm).X.length (L.id nm))⟩
    refine ⟨p, hp, hsy, ys, ?_, h3⟩
    unfold pack at hp
    rw [packSources_ok hnd hc srcs hs] at hp
    simp only at hp
    rw [h1] at hp
    simp only [List.nil_append] at hp
    rw [if_neg (by tauto)] at hp
    injection hp with hp
    subst hp
    simp only [List.length_append] at hl1
    have l1 := length_flatMap_replicate (L := L) srcs (fun nm => L.id nm)
    have l2 := length_flatMap_replicate (L := L) tgts (fun nm => -(L.id nm))
    have hls : (srcs.flatMap (fun nm => L.labels nm)).length = (srcs.flatMap (fun nm => (L.dom nm).X)).length := by
      clear h1 hsy hl1 hl2 l1 hX hsd hne
      induction srcs with
      | nil => rfl
      | cons nm srcs ih =>
        simp only [List.flatMap_cons, List.length_append]
        rw [ih (fun n h => hs n (by simp [h])), length_labels hnd hc (hs nm (by simp))]
    have hlt : ys.flatten.length = (tgts.flatMap (fun nm => (L.dom nm).X)).length := by omega
    have hpos : ∀ d ∈ srcs.flatMap (fun nm => List.replicate (L.dom nm).X.length (L.id nm)), 0 ≤ d := by
      intro d hd
      obtain ⟨nm, _, h⟩ := List.mem_flatMap.1 hd
      rw [List.eq_of_mem_replicate h]
      simp only [Reg.id]; omega
    have hneg : ∀ d ∈ tgts.flatMap (fun nm => List.replicate (L.dom nm).X.length (-(L.id nm))), d < 0 := by
      intro d hd
      obtain ⟨nm, _, h⟩ := List.mem_flatMap.1 hd
      rw [List.eq_of_mem_replicate h]
      simp only [Reg.id]; omega
    simp only
    rw [targetRows_append (l1.trans hls.symm), ((sourceRows_of_all (l1.trans hls.symm)).1 hpos).2,
      ((sourceRows_of_all (l2.trans hlt.symm)).2 hneg).1, List.nil_append]
  have hconst : ∀ (m : Num), ∀ v ∈ (tgts.map (fun nm => List.replicate (L.dom nm).X.length m)).flatten, v = m := by
    intro m v hv
    simp only [List.mem_flatten, List.mem_map] at hv
    obtain ⟨l, ⟨nm, _, rfl⟩, hv⟩ := hv
    exact List.eq_of_mem_replicate hv
  refine ⟨?_, ?_, ?_⟩
  · intro mask
    obtain ⟨p, hp, hsy, ys, hys, h1, -⟩ := key false mask
    refine ⟨p, hp, ?_, hsy⟩
    rw [hys, h1 rfl, ← List.flatMap_def]
  · intro m
    obtain ⟨p, hp, hsy, ys, hys, -, h1, -⟩ := key true (some m)
    refine ⟨p, hp, ?_, hsy⟩
    rw [hys, h1 m rfl rfl]
    exact hconst m
  · intro hdt
    obtain ⟨p, hp, hsy, ys, hys, -, -, h1⟩ := key true none
    obtain ⟨m, hm, he⟩ := h1 rfl rfl (by
      intro nm hnm
      unfold labelsOf
      cases hy : (L.dom nm).y with
      | none => simp
      | some y => exact hdt nm hnm y hy)
    refine ⟨p, m, hp, hm, ?_, hsy⟩
    rw [hys, he]
    exact hconst m

/-- C23 is false in general: labels of another dtype (for example `int16` or strings) reach the caller unmasked
(skada/datasets/_base.py:330-340). -/
theorem C23_counterexample :
    ∃ (L : Reg Nat) (p : Packed Nat), L.names.Nodup ∧ (ofReg L).pack ["s"] ["t"] true none = .ok p ∧
      targetRows p.sd p.y = [.fin 1] := by
  refine ⟨[("s", ⟨[1], some ⟨.other, [.fin 0]⟩⟩), ("t", ⟨[2], some ⟨.other, [.fin 1]⟩⟩)],
    ⟨[1, 2], [.fin 0, .fin 1], [1, -2]⟩, by decide, by decide +kernel, by decide +kernel⟩

/-- The mask of the first target is reused for later targets: a classification target packed after a regression
target is masked with NaN, not `-1`. -/
example : (ofReg (α := Nat) [("r", ⟨[1], some ⟨.float64, [.fin 0]⟩⟩), ("c", ⟨[2], some ⟨.int64, [.fin 1]⟩⟩)]).pack
    [] ["r", "c"] true none = .ok ⟨[1, 2], [.nan, .nan], [-1, -2]⟩ := by decide +kernel

/-! ### C56: selecting the rows of named domains -/

/-- C56. `select_domain` with a non-empty list of known names selects exactly the rows whose label is the
(positive) id of one of them. -/
theorem C56_select_domain {L : Reg α} (hnd : L.names.Nodup) (sd : List Int) (nms : List String) (hne : nms ≠ [])
    (h : ∀ nm ∈ nms, nm ∈ L.names) :
    selectDomain (ofReg L).names sd nms = .ok (sd.map (fun d => decide (∃ nm ∈ nms, d = L.id nm))) := by
  induction nms with
  | nil => exact absurd rfl hne
  | cons nm nms ih =>
    have hnm := h nm (by simp)
    cases nms with
    | nil =>
      unfold selectDomain
      rw [id_lookup hnd hnm]
      simp [Reg.id]
    | cons nm2 nms =>
      unfold selectDomain
      rw [id_lookup hnd hnm, ih (by simp) (fun n hn => h n (by simp [hn]))]
      simp only
      congr 1
      rw [List.zipWith_map_left, List.zipWith_map_right, List.zipWith_self]
      apply List.map_congr_left
      intro d _
      simp only [List.exists_mem_cons_iff, Reg.id]
      push_cast
      by_cases h1 : d = ↑(List.idxOf nm (Reg.names L)) + 1 <;> simp [h1]

/-- C56 (targets). After `pack` no target row is ever selected by name, since target rows carry the negated id. -/
theorem C56_never_selects_targets {L : Reg α} (hnd : L.names.Nodup) (sd : List Int) (nms : List String) (hne : nms ≠ [])
    (h : ∀ nm ∈ nms, nm ∈ L.names) (m : List Bool) (hm : selectDomain (ofReg L).names sd nms = .ok m) :
    ∀ (i : Nat) (d : Int), sd[i]? = some d → d < 0 → m[i]? = some false := by
  rw [C56_select_domain hnd sd nms hne h] at hm
  injection hm with hm
  subst hm
  intro i d hi hd
  simp only [List.getElem?_map, hi, Option.map_some, Option.some.injEq, decide_eq_false_iff_not, not_exists, not_and]
  intro nm _ he
  simp only [Reg.id] at he
  omega

example : selectDomain (ofReg exReg).names [2, 1, 1, -3, 3, -2] ["b", "c"] =
    .ok [true, false, false, false, true, false] := by decide +kernel

end Skada

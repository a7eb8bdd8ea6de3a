/-
Properties C117 and C118: the dataset loaders.
-/
import Verif.Lemmas.Loaders
import Verif.Props.Dataset

namespace Skada
open Load Spec

variable {α β γ δ l : Type}

/-! ### The folder and the download (C117) -/

/-- The call names the domain `v`: the member itself, or a string that is `v` in lower case. -/
def Spec.Names (lower : String → String) (values : List String) (f : Fetch δ β) (v : String) : Prop :=
  v ∈ values ∧ (f.dom = .member v ∨ ∃ s, f.dom = .name s ∧ lower s = v)

/-- A member given as a domain is a member of the right enumeration. -/
def Spec.Typed (values : List String) (f : Fetch δ β) : Prop := ∀ v, f.dom = .member v → v ∈ values

/-- With the folder there, holding `c`: a call for the domain `v` reads `v` from `c`; a call with another string raises
`ValueError`. -/
def Spec.FromFolder (lower : String → String) (values : List String) (c : δ) (f : Fetch δ β) (r : Except LErr β) : Prop :=
  (∀ v, Names lower values f v → r = f.load c v) ∧ ((∀ v, ¬ Names lower values f v) → r = .error .value)

/-- Without the folder and without a download: `OSError`; a call with another string raises `ValueError`. -/
def Spec.NoFolder (lower : String → String) (values : List String) (f : Fetch δ β) (r : Except LErr β) : Prop :=
  (∀ v, Names lower values f v → r = .error .os) ∧ ((∀ v, ¬ Names lower values f v) → r = .error .value)

theorem parse_of_names {lower : String → String} {values : List String} {f : Fetch δ β} {v : String} (h : Names lower values f v) :
    parseDomain lower values f.dom = .ok v := by
  obtain ⟨hv, h | ⟨s, h, rfl⟩⟩ := h
  · rw [h]; rfl
  · rw [h]; simp [parseDomain, hv]

theorem names_of_parse {lower : String → String} {values : List String} {f : Fetch δ β} (ht : Typed values f) :
    (∃ v, Names lower values f v) ∨ ((∀ v, ¬ Names lower values f v) ∧ parseDomain lower values f.dom = .error .value) := by
  cases hd : f.dom with
  | member v => exact .inl ⟨v, ht v hd, .inl hd⟩
  | name s =>
    by_cases hs : lower s ∈ values
    · exact .inl ⟨lower s, hs, .inr ⟨s, hd, rfl⟩⟩
    · refine .inr ⟨?_, by simp [parseDomain, hs]⟩
      rintro v ⟨hv, h | ⟨s', h, rfl⟩⟩
      · rw [hd] at h; cases h
      · rw [hd] at h; cases h; exact hs hv

theorem names_unique {lower : String → String} {values : List String} {f : Fetch δ β} {v w : String} (h : Names lower values f v)
    (h' : Names lower values f w) : v = w := by
  have := (parse_of_names h).symm.trans (parse_of_names h')
  simpa using this

/-- C117 (folder present). Calls change nothing on disk and download nothing; each reads its domain from the folder. -/
theorem C117_present (lower : String → String) (values : List String) (c : δ) (n : Nat) (fs : List (Fetch δ β))
    (ht : ∀ f ∈ fs, Typed values f) :
    ∃ rs, run lower values ⟨some c, n⟩ fs = (⟨some c, n⟩, rs) ∧ List.Forall₂ (FromFolder lower values c) fs rs := by
  induction fs with
  | nil => exact ⟨[], rfl, .nil⟩
  | cons f fs ih =>
    obtain ⟨rs, h1, h2⟩ := ih fun g hg => ht g (by simp [hg])
    rcases names_of_parse (lower := lower) (ht f (by simp)) with ⟨v, hv⟩ | ⟨hno, hp⟩
    · have hf : fetch lower values ⟨some c, n⟩ f = (⟨some c, n⟩, f.load c v) := by
        unfold fetch
        rw [parse_of_names hv]
        rfl
      refine ⟨f.load c v :: rs, by simp only [run, hf, h1], .cons ⟨fun w hw => ?_, fun h => absurd hv (h v)⟩ h2⟩
      rw [names_unique hw hv]
    · have hf : fetch lower values ⟨some c, n⟩ f = (⟨some c, n⟩, .error .value) := by
        unfold fetch
        rw [hp]
      exact ⟨.error .value :: rs, by simp only [run, hf, h1], .cons ⟨fun w hw => absurd hw (hno w), fun _ => rfl⟩ h2⟩

/-- C117 (folder absent, downloads not allowed). No call creates the folder or downloads anything. -/
theorem C117_absent (lower : String → String) (values : List String) (n : Nat) (fs : List (Fetch δ β))
    (ht : ∀ f ∈ fs, Typed values f) (ha : ∀ f ∈ fs, ∀ v, Names lower values f v → f.allow = false) :
    ∃ rs, run lower values ⟨none, n⟩ fs = (⟨none, n⟩, rs) ∧ List.Forall₂ (NoFolder lower values) fs rs := by
  induction fs with
  | nil => exact ⟨[], rfl, .nil⟩
  | cons f fs ih =>
    obtain ⟨rs, h1, h2⟩ := ih (fun g hg => ht g (by simp [hg])) (fun g hg => ha g (by simp [hg]))
    rcases names_of_parse (lower := lower) (ht f (by simp)) with ⟨v, hv⟩ | ⟨hno, hp⟩
    · have hf : fetch lower values ⟨none, n⟩ f = (⟨none, n⟩, .error .os) := by
        unfold fetch
        rw [parse_of_names hv]
        simp only [ensure, ha f (by simp) v hv, Bool.not_false, if_true]
      exact ⟨.error .os :: rs, by simp only [run, hf, h1], .cons ⟨fun w _ => rfl, fun h => absurd hv (h v)⟩ h2⟩
    · have hf : fetch lower values ⟨none, n⟩ f = (⟨none, n⟩, .error .value) := by
        unfold fetch
        rw [hp]
      exact ⟨.error .value :: rs, by simp only [run, hf, h1], .cons ⟨fun w hw => absurd hw (hno w), fun _ => rfl⟩ h2⟩

theorem run_append (lower : String → String) (values : List String) (st : Disk δ) (fs gs : List (Fetch δ β)) :
    run lower values st (fs ++ gs) =
      ((run lower values (run lower values st fs).1 gs).1, (run lower values st fs).2 ++ (run lower values (run lower values st fs).1 gs).2) := by
  induction fs generalizing st with
  | nil => rfl
  | cons f fs ih => simp only [List.cons_append, run, ih]

/-- C117. In any sequence of calls on a machine without the data, the first call that names a domain and allows downloads
downloads; no other call ever does. After it every call reads from what that download left in the folder. -/
theorem C117_one_download (lower : String → String) (values : List String) (n : Nat) (before after : List (Fetch δ β))
    (f : Fetch δ β) (v : String) (c : δ) (htb : ∀ g ∈ before, Typed values g) (hta : ∀ g ∈ after, Typed values g)
    (hb : ∀ g ∈ before, ∀ w, Names lower values g w → g.allow = false) (hf : Names lower values f v) (ha : f.allow = true)
    (hnet : f.net = .done c ∨ f.net = .failed c) :
    ∃ rb r ra, run lower values ⟨none, n⟩ (before ++ f :: after) = (⟨some c, n + 1⟩, rb ++ r :: ra) ∧
      List.Forall₂ (NoFolder lower values) before rb ∧ List.Forall₂ (FromFolder lower values c) after ra ∧
      (f.net = .done c → r = f.load c v) ∧ (f.net = .failed c → r = .error .download) := by
  obtain ⟨rb, h1, h2⟩ := C117_absent lower values n before htb hb
  obtain ⟨ra, h3, h4⟩ := C117_present lower values c (n + 1) after hta
  rcases hnet with hnet | hnet
  · refine ⟨rb, f.load c v, ra, ?_, h2, h4, fun _ => rfl, fun h => by rw [hnet] at h; cases h⟩
    have hf : fetch lower values ⟨none, n⟩ f = (⟨some c, n + 1⟩, f.load c v) := by
      unfold fetch
      rw [parse_of_names hf]
      simp only [ensure, ha, hnet, Bool.not_true, Bool.false_eq_true, if_false]
    rw [run_append, h1]
    simp only [run, hf, h3]
  · refine ⟨rb, .error .download, ra, ?_, h2, h4, fun h => (by rw [hnet] at h; cases h), fun _ => rfl⟩
    have hf : fetch lower values ⟨none, n⟩ f = (⟨some c, n + 1⟩, .error .download) := by
      unfold fetch
      rw [parse_of_names hf]
      simp only [ensure, ha, hnet, Bool.not_true, Bool.false_eq_true, if_false]
    rw [run_append, h1]
    simp only [run, hf, h3]

/-- C117, the statement that fails: with `download_if_missing=True` data that are not there are downloaded. After a failed
download that left the folder empty, every later call for a domain raises `FileNotFoundError`, whatever `download_if_missing`
says and however well the network works — for each of the three loaders. -/
theorem C117_retry_counterexample (lower : String → String) (n : Nat) :
    (∀ (sp : Spec31 β γ) (f : Fetch (String → Option (Container β)) (Bunch31 γ))
      (after : List (DomArg × Bool × Net (String → Option (Container β)) × Cats × Option (List Nat))) (v : String),
      Names lower office31Domains f v → f.allow = true → f.net = .failed (fun _ => none) →
      (∀ g ∈ after, ∃ w, g.1 = .member w ∧ w ∈ office31Domains) →
      run lower office31Domains ⟨none, n⟩ (f :: after.map (fun g => ⟨g.1, g.2.1, g.2.2.1, fun c w => load31 sp (c w) g.2.2.2.1 g.2.2.2.2⟩)) =
        (⟨some (fun _ => none), n + 1⟩, .error .download :: after.map (fun _ => .error .notFound))) ∧
    (∀ (num : String → Option α) (f : Fetch (Option (List (List String))) (List (List α) × List String))
      (after : List (DomArg × Bool × Net (Option (List (List String))) × Option (List Nat))) (v : String),
      Names lower officeHomeDomains f v → f.allow = true → f.net = .failed none →
      (∀ g ∈ after, ∃ w, g.1 = .member w ∧ w ∈ officeHomeDomains) →
      run lower officeHomeDomains ⟨none, n⟩ (f :: after.map (fun g => ⟨g.1, g.2.1, g.2.2.1, fun c w => loadHome lower num c w g.2.2.2⟩)) =
        (⟨some none, n + 1⟩, .error .download :: after.map (fun _ => .error .notFound))) ∧
    (∀ (f : Fetch (String → Option (List α × List (List l))) (List α × List l))
      (after : List (DomArg × Bool × Net (String → Option (List α × List (List l))) × Option (List Nat))) (v : String),
      Names lower amazonDomains f v → f.allow = true → f.net = .failed (fun _ => none) →
      (∀ g ∈ after, ∃ w, g.1 = .member w ∧ w ∈ amazonDomains) →
      run lower amazonDomains ⟨none, n⟩ (f :: after.map (fun g => ⟨g.1, g.2.1, g.2.2.1, fun c w => loadAmazon c w g.2.2.2⟩)) =
        (⟨some (fun _ => none), n + 1⟩, .error .download :: after.map (fun _ => .error .notFound))) := by
  have key : ∀ {δ β ι : Type} (values : List String) (c : δ) (f : Fetch δ β) (after : List ι) (mk : ι → Fetch δ β) (v : String),
      Names lower values f v → f.allow = true → f.net = .failed c →
      (∀ g ∈ after, ∃ w, (mk g).dom = .member w ∧ w ∈ values ∧ (mk g).load c w = .error .notFound) →
      run lower values ⟨none, n⟩ (f :: after.map mk) = (⟨some c, n + 1⟩, .error .download :: after.map (fun _ => .error .notFound)) := by
    intro δ β ι values c f after mk v hv ha hn hg
    have hf : fetch lower values ⟨none, n⟩ f = (⟨some c, n + 1⟩, .error .download) := by
      unfold fetch
      rw [parse_of_names hv]
      simp only [ensure, ha, hn, Bool.not_true, Bool.false_eq_true, if_false]
    have hr : run lower values ⟨some c, n + 1⟩ (after.map mk) = (⟨some c, n + 1⟩, after.map (fun _ => .error .notFound)) := by
      clear hf
      induction after with
      | nil => rfl
      | cons g after ih =>
        obtain ⟨w, h1, h2, h3⟩ := hg g (by simp)
        have hfg : fetch lower values ⟨some c, n + 1⟩ (mk g) = (⟨some c, n + 1⟩, .error .notFound) := by
          unfold fetch
          rw [parse_of_names ⟨h2, .inl h1⟩]
          simp only [ensure, h3]
        simp only [List.map_cons, run, hfg, ih fun g hg' => hg g (by simp [hg'])]
    simp only [run, hf, hr]
  refine ⟨fun sp f after v hv ha hn hg => key _ _ f after _ v hv ha hn fun g hm => ?_,
    fun num f after v hv ha hn hg => key _ _ f after _ v hv ha hn fun g hm => ?_,
    fun f after v hv ha hn hg => key _ _ f after _ v hv ha hn fun g hm => ?_⟩ <;>
  · obtain ⟨w, h1, h2⟩ := hg g hm
    exact ⟨w, h1, h2, rfl⟩

/-- C117 (all domains). The loaders for all domains return, under each name, what the loader for that domain returns from the
same folder, and download at most once; one domain that cannot be loaded is an exception. -/
theorem C117_all (lower : String → String) (values : List String) (allow : Bool) (net : Net δ) (load : δ → String → Except LErr β)
    (st : Disk δ) (c : δ) (vs : List String) (hst : st.dir = some c ∨ (st.dir = none ∧ allow = true ∧ net = .done c)) :
    (∀ d : String → β, vs ≠ [] → (∀ v ∈ vs, load c v = .ok (d v)) →
      fetchAll lower values allow net load st vs =
        (⟨some c, if st.dir.isSome then st.downloads else st.downloads + 1⟩, .ok (vs.map (fun v => (v, d v))))) ∧
    (∀ (d : String → β) (pre post : List String) (v : String) (e : LErr), vs = pre ++ v :: post → (∀ w ∈ pre, load c w = .ok (d w)) →
      load c v = .error e → (fetchAll lower values allow net load st vs).2 = .error e) := by
  have hfetch : ∀ v, fetch lower values st ⟨.member v, allow, net, load⟩ =
      (⟨some c, if st.dir.isSome then st.downloads else st.downloads + 1⟩, load c v) := by
    intro v
    obtain ⟨dir, n⟩ := st
    rcases hst with h | ⟨h, ha, hn⟩
    · simp only at h
      subst h
      rfl
    · simp only at h
      subst h
      subst ha
      subst hn
      rfl
  have hpres : ∀ (m : Nat) (vs : List String) (d : String → β), (∀ v ∈ vs, load c v = .ok (d v)) →
      fetchAll lower values allow net load ⟨some c, m⟩ vs = (⟨some c, m⟩, .ok (vs.map (fun v => (v, d v)))) := by
    intro m vs d h
    induction vs with
    | nil => rfl
    | cons v vs ih =>
      have hf : fetch lower values ⟨some c, m⟩ ⟨.member v, allow, net, load⟩ = (⟨some c, m⟩, .ok (d v)) := by
        simp only [fetch, parseDomain, ensure, h v (by simp)]
      simp only [fetchAll, hf, ih fun w hw => h w (by simp [hw]), List.map_cons]
  have hpres' : ∀ (m : Nat) (pre post : List String) (v : String) (e : LErr) (d : String → β), (∀ w ∈ pre, load c w = .ok (d w)) →
      load c v = .error e → (fetchAll lower values allow net load ⟨some c, m⟩ (pre ++ v :: post)).2 = .error e := by
    intro m pre post v e d h he
    induction pre with
    | nil => simp only [List.nil_append, fetchAll, fetch, parseDomain, ensure, he]
    | cons w pre ih =>
      have hf : fetch lower values ⟨some c, m⟩ ⟨.member w, allow, net, load⟩ = (⟨some c, m⟩, .ok (d w)) := by
        simp only [fetch, parseDomain, ensure, h w (by simp)]
      have := ih fun u hu => h u (by simp [hu])
      simp only [List.cons_append, fetchAll, hf]
      revert this
      generalize fetchAll lower values allow net load ⟨some c, m⟩ (pre ++ v :: post) = q
      obtain ⟨st, r⟩ := q
      cases r <;> intro h <;> simp_all
  refine ⟨fun d hne h => ?_, fun d pre post v e hvs h he => ?_⟩
  · cases vs with
    | nil => exact absurd rfl hne
    | cons v vs =>
      simp only [fetchAll, hfetch v, h v (by simp), hpres _ vs d (fun w hw => h w (by simp [hw])), List.map_cons]
  · subst hvs
    cases pre with
    | nil => simp only [List.nil_append, fetchAll, hfetch v, he]
    | cons w pre =>
      have := hpres' (if st.dir.isSome then st.downloads else st.downloads + 1) pre post v e d (fun u hu => h u (by simp [hu])) he
      simp only [List.cons_append, fetchAll, hfetch w, h w (by simp)]
      revert this
      generalize fetchAll lower values allow net load _ (pre ++ v :: post) = q
      obtain ⟨st, r⟩ := q
      cases r <;> intro h <;> simp_all

/-- C117 (Office-Home, all domains). The loader for all domains finds the folder, downloads and fails to download exactly as the
loader for one domain does. -/
theorem C117_home_all (lower : String → String) (num : String → Option α) (st : Disk (Option (List (List String)))) (allow : Bool)
    (net : Net (Option (List (List String)))) (perm perm' : Option (List Nat)) (v : String) :
    let all := fetchHomeAll lower num st allow net perm
    let one := fetch lower officeHomeDomains st ⟨.member v, allow, net, fun c w => loadHome lower num c w perm'⟩
    all.1 = one.1 ∧
    (∀ c, st.dir = some c → all.2 = loadHomeAll lower num c perm ∧ all.1 = st) ∧
    (∀ c, st.dir = none → allow = true → net = .done c → all.2 = loadHomeAll lower num c perm ∧ all.1 = ⟨some c, st.downloads + 1⟩) ∧
    (st.dir = none → (allow = false ∨ ∃ c, net = .failed c) → (∃ e, all.2 = .error e ∧ one.2 = .error e)) := by
  obtain ⟨dir, n⟩ := st
  cases dir with
  | some c =>
    refine ⟨rfl, ?_, ?_, ?_⟩
    · rintro c ⟨⟩; exact ⟨rfl, rfl⟩
    · rintro c ⟨⟩
    · rintro ⟨⟩
  | none =>
    cases allow with
    | false =>
      refine ⟨rfl, ?_, ?_, fun _ _ => ⟨.os, rfl, rfl⟩⟩
      · rintro c ⟨⟩
      · rintro c - ⟨⟩
    | true =>
      cases net with
      | done c =>
        refine ⟨rfl, ?_, ?_, ?_⟩
        · rintro c ⟨⟩
        · rintro c - - ⟨⟩; exact ⟨rfl, rfl⟩
        · rintro - (h | ⟨c, h⟩) <;> cases h
      | failed c =>
        refine ⟨rfl, ?_, ?_, fun _ _ => ⟨.download, rfl, rfl⟩⟩
        · rintro c ⟨⟩
        · rintro c - - ⟨⟩

/-! ### What is returned: Office-31 (C118) -/

/-- The categories asked for: all of them, the ten shared with Caltech-256, those of a list, or (for a plain string) those whose
name is part of the string. -/
def Spec.askedCat : Cats → String → Bool
  | .none, _ | .all, _ => true
  | .caltech256, n => ["back_pack", "bike", "calculator", "headphones", "keyboard", "laptop_computer", "monitor", "mouse", "mug",
      "projector"].contains n
  | .names ns, n => ns.contains n
  | .text s, n => decide (n.toList <:+: s.toList)

theorem keep_eq (cats : Cats) : cats.keep = askedCat cats := by
  funext n
  cases cats with
  | none => rfl
  | all => rfl
  | caltech256 => simp only [Cats.keep, askedCat, Load.caltech256, List.contains_eq_mem]; exact decide_eq_decide.2 Iff.rfl
  | names ns => simp only [Cats.keep, askedCat, List.contains_eq_mem]
  | text s => rfl

/-- The files of the categories asked for, with the names of their folders. -/
def Spec.askedFiles (cats : Cats) (c : Container β) : List (String × File β) :=
  c.flatMap (fun e => match e.2 with
    | none => []
    | some fs => if askedCat cats e.1 then fs.map (fun f => (e.1, f)) else [])

/-- A file holding one sample `r` of `dim` features, as a row or as a column. -/
def Spec.OneSample (dim : Nat) (m : Mat β) (r : List β) : Prop :=
  dim ≠ 1 ∧ r.length = dim ∧ ((m.rows = [r] ∧ m.cols = dim) ∨ (m.rows = r.map (fun x => [x]) ∧ m.cols = 1))

theorem squeeze_one {dim : Nat} {m : Mat β} {r : List β} (h : OneSample dim m r) : squeeze m = .vec r := by
  obtain ⟨hd, hr, ⟨h1, h2⟩ | ⟨h1, h2⟩⟩ := h
  · unfold squeeze
    rw [h1]
    simp only
    rw [if_neg (by rw [h2]; exact hd)]
  · unfold squeeze
    rw [h1]
    have hf : (r.map (fun x => [x])).flatten = r := by
      clear hd hr h1
      induction r with
      | nil => rfl
      | cons x r ih => simp [ih]
    rcases r with _ | ⟨x, _ | ⟨x', r⟩⟩
    · simp only [List.map_nil, h2, if_true]
      rfl
    · exact absurd hr.symm hd
    · simp only [List.map_cons, h2, if_true]
      simp only [List.map_cons] at hf
      rw [hf]

theorem asked_eq (cats : Cats) (c : Container β) (g : String → File β → α) :
    (askedFiles cats c).map (fun f => g f.1 f.2) = (wantedFolders c cats.keep).flatMap (fun e => e.2.map (g e.1)) := by
  induction c with
  | nil => rfl
  | cons e c ih =>
    obtain ⟨n, fs⟩ := e
    cases fs with
    | none => exact ih
    | some fs =>
      unfold askedFiles wantedFolders at ih ⊢
      rw [List.flatMap_cons, List.map_append, ih, List.filterMap_cons_some (by rfl)]
      by_cases hk : askedCat cats n = true
      · rw [List.filter_cons_of_pos (by rw [keep_eq]; exact hk), List.flatMap_cons]
        simp [hk, Function.comp_def]
      · rw [List.filter_cons_of_neg (by rw [keep_eq]; exact hk)]
        simp [hk]

theorem flatMap_filter (fs : List (String × List (File β))) (p : File β → Bool) (g : String → File β → α) :
    fs.flatMap (fun e => (e.2.filter p).map (g e.1)) =
      ((fs.flatMap (fun e => e.2.map (fun f => (e.1, f)))).filter (fun f => p f.2)).map (fun f => g f.1 f.2) := by
  induction fs with
  | nil => rfl
  | cons e fs ih =>
    rw [List.flatMap_cons, List.flatMap_cons, List.filter_append, List.map_append, ih]
    congr 1
    rw [List.filter_map, List.map_map]
    rfl

theorem sum_lengths (fs : List (String × List (File β))) :
    (fs.map (fun e => e.2.length)).sum = (fs.flatMap (fun e => e.2.map (fun f => (e.1, f)))).length := by
  induction fs with
  | nil => rfl
  | cons e fs ih => rw [List.map_cons, List.sum_cons, List.flatMap_cons, List.length_append, ih, List.length_map]

theorem listed_count (cats : Cats) (c : Container β) : (listed (folders c cats)).length = (askedFiles cats c).length := by
  rw [listed_length, ((folders_perm c cats).map _).sum_eq, sum_lengths]
  have := asked_eq cats c (fun n f => (n, f))
  rw [List.map_id'' (fun _ => rfl)] at this
  rw [this]

theorem mem_folders {cats : Cats} {c : Container β} {e : String × List (File β)} :
    e ∈ folders c cats ↔ (e.1, some e.2) ∈ c ∧ askedCat cats e.1 = true := by
  rw [(folders_perm c cats).mem_iff]
  unfold wantedFolders
  rw [List.mem_filter, keep_eq]
  refine and_congr_left fun _ => ?_
  rw [List.mem_filterMap]
  constructor
  · rintro ⟨⟨n, fs⟩, h1, h2⟩
    cases fs with
    | none => simp at h2
    | some fs =>
      simp only [Option.map_some, Option.some.injEq] at h2
      subst h2
      exact h1
  · intro h
    exact ⟨_, h, rfl⟩

theorem mem_askedFiles {cats : Cats} {c : Container β} {n : String} {f : File β} :
    (n, f) ∈ askedFiles cats c ↔ ∃ fs, (n, some fs) ∈ c ∧ askedCat cats n = true ∧ f ∈ fs := by
  unfold askedFiles
  rw [List.mem_flatMap]
  constructor
  · rintro ⟨⟨n', fs⟩, h1, h2⟩
    cases fs with
    | none => simp at h2
    | some fs =>
      simp only at h2
      split at h2
      · rename_i hk
        obtain ⟨g, hg, he⟩ := List.mem_map.1 h2
        cases he
        exact ⟨fs, h1, hk, hg⟩
      · simp at h2
  · rintro ⟨fs, h1, h2, h3⟩
    exact ⟨_, h1, by simp [h2, h3]⟩

theorem asked_of_listed {cats : Cats} {c : Container β} {f : File β × Nat} (h : f ∈ listed (folders c cats)) :
    ∃ n, (n, f.1) ∈ askedFiles cats c := by
  obtain ⟨e, he, hf⟩ := mem_listed h
  obtain ⟨h1, h2⟩ := mem_folders.1 he
  exact ⟨e.1, mem_askedFiles.2 ⟨e.2, h1, h2, hf⟩⟩

theorem listed_of_asked {cats : Cats} {c : Container β} {n : String} {f : File β} (h : (n, f) ∈ askedFiles cats c) :
    ∃ i, (f, i) ∈ listed (folders c cats) := by
  obtain ⟨fs, h1, h2, h3⟩ := mem_askedFiles.1 h
  exact listed_mem (mem_folders.2 ⟨h1, h2⟩ : (n, fs) ∈ folders c cats) h3

theorem flatten_singletons (k : List α) (g : α → β) : (k.map (fun f => [g f])).flatten = k.map g := by
  induction k with
  | nil => rfl
  | cons a k ih => simp only [List.map_cons, List.flatten_cons, ih, List.singleton_append]

/-- C118 (Office-31). With one sample per file the result has one row and one label per data file of the categories asked for:
row and label belong together, the label is the position of the category in `target_names`, which are the categories asked for
in alphabetical order. Shuffling only changes the order. -/
theorem C118_office31_partial (sp : Spec31 β γ) (c : Container β) (cats : Cats) (perm : Option (List Nat)) (row : File β → List β)
    (hn : (c.map Prod.fst).Nodup) (hp : ∀ p, perm = some p → p.Perm (List.range (askedFiles cats c).length))
    (hrow : ∀ n f, (n, f) ∈ askedFiles cats c → sp.pat f.1 = true → ∃ m, f.2 = some m ∧ OneSample sp.dim m (row f))
    (hne : ∃ n f, (n, f) ∈ askedFiles cats c ∧ sp.pat f.1 = true) :
    ∃ names X y, load31 sp (some c) cats perm = .ok ⟨names, X, y⟩ ∧ X.length = y.length ∧
      names.Pairwise (· < ·) ∧ (∀ n, n ∈ names ↔ (∃ fs, (n, some fs) ∈ c) ∧ askedCat cats n = true) ∧
      (List.zipWith (fun x i => (x, names[i]?)) X y).Perm
        (((askedFiles cats c).filter (fun f => sp.pat f.2.1)).map (fun f => ((row f.2).map sp.cast, some f.1))) ∧
      (perm = none → (c.map Prod.fst).Pairwise (· ≤ ·) → (∀ n fs, (n, some fs) ∈ c → (fs.map Prod.fst).Pairwise (· ≤ ·)) →
        List.zipWith (fun x i => (x, names[i]?)) X y =
          ((askedFiles cats c).filter (fun f => sp.pat f.2.1)).map (fun f => ((row f.2).map sp.cast, some f.1))) := by
  set fs := folders c cats with hfs
  obtain ⟨files, h1, h2, h3⟩ := shuffle1_perm (a := listed fs) (perm := perm) (fun p h => by rw [listed_count]; exact hp p h)
  have hread := readFiles_ok (sp := sp) (row := row) (fs := files) (fun f hf hpat => by
    obtain ⟨n, hn'⟩ := asked_of_listed (h2.mem_iff.1 hf)
    obtain ⟨m, hm, ho⟩ := hrow n f.1 hn' hpat
    exact ⟨m, hm, squeeze_one ho, ho.2.1⟩)
  have hdata : (files.filter (fun f => sp.pat f.1.1)) ≠ [] := by
    obtain ⟨n, f, hf, hpat⟩ := hne
    obtain ⟨i, hi⟩ := listed_of_asked hf
    exact List.ne_nil_of_mem (List.mem_filter.2 ⟨h2.mem_iff.2 hi, hpat⟩)
  set kept := files.filter (fun f => sp.pat f.1.1) with hkept
  have hflat : (kept.map (fun f => [(row f.1).map sp.cast])).flatten = kept.map (fun f => (row f.1).map sp.cast) := by
    exact flatten_singletons kept _
  refine ⟨fs.map Prod.fst, kept.map (fun f => (row f.1).map sp.cast), kept.map Prod.snd, ?_, by simp, ?_, ?_, ?_, ?_⟩
  · simp only [load31]
    rw [← hfs, h1]
    simp only [hread, List.map_eq_nil_iff, hdata, if_false, hflat]
  · have h4 := folders_sorted c cats
    have h5 : ((folders c cats).map Prod.fst).Nodup :=
      ((folders_perm c cats).map Prod.fst).nodup_iff.2 (wanted_names_nodup hn _)
    exact (h4.and h5).imp fun h => lt_of_le_of_ne h.1 h.2
  · intro n
    rw [List.mem_map]
    constructor
    · rintro ⟨e, he, rfl⟩
      obtain ⟨h4, h5⟩ := mem_folders.1 he
      exact ⟨⟨_, h4⟩, h5⟩
    · rintro ⟨⟨g, hg⟩, ha⟩
      exact ⟨(n, g), mem_folders.2 ⟨hg, ha⟩, rfl⟩
  · have hz : List.zipWith (fun x i => (x, (fs.map Prod.fst)[i]?)) (kept.map (fun f => (row f.1).map sp.cast)) (kept.map Prod.snd) =
        kept.map (fun f => ((row f.1).map sp.cast, (fs.map Prod.fst)[f.2]?)) := by
      rw [List.zipWith_map, List.zipWith_self]
    rw [hz]
    have h4 : (kept.map (fun f => ((row f.1).map sp.cast, (fs.map Prod.fst)[f.2]?))).Perm
        (((listed fs).filter (fun f => sp.pat f.1.1)).map (fun f => ((row f.1).map sp.cast, (fs.map Prod.fst)[f.2]?))) :=
      (h2.filter _).map _
    have h5 := listed_names 0 [] rfl fs (fun f => (row f).map sp.cast) (fun f => sp.pat f.1)
    refine h4.trans ?_
    unfold listed
    rw [List.nil_append] at h5
    rw [h5]
    have h6 : (fs.flatMap (fun e => ((sortByName e.2).filter (fun f => sp.pat f.1)).map (fun f => ((row f).map sp.cast, some e.1)))).Perm
        (fs.flatMap (fun e => (e.2.filter (fun f => sp.pat f.1)).map (fun f => ((row f).map sp.cast, some e.1)))) := by
      refine List.Perm.flatMap_left _ fun e _ => ?_
      exact ((sort_perm e.2).filter _).map _
    refine h6.trans ?_
    rw [flatMap_filter fs (fun f => sp.pat f.1) (fun n f => ((row f).map sp.cast, some n))]
    refine List.Perm.map _ (List.Perm.filter _ ?_)
    have h7 := asked_eq cats c (fun n f => (n, f))
    rw [List.map_id'' (fun _ => rfl)] at h7
    rw [h7]
    exact (folders_perm c cats).flatMap_right _
  · intro hnone hsort hsorts
    have hfiles : files = listed fs := h3 hnone
    have hz : List.zipWith (fun x i => (x, (fs.map Prod.fst)[i]?)) (kept.map (fun f => (row f.1).map sp.cast)) (kept.map Prod.snd) =
        kept.map (fun f => ((row f.1).map sp.cast, (fs.map Prod.fst)[f.2]?)) := by
      rw [List.zipWith_map, List.zipWith_self]
    rw [hz, hkept, hfiles]
    have h5 := listed_names 0 [] rfl fs (fun f => (row f).map sp.cast) (fun f => sp.pat f.1)
    unfold listed
    rw [List.nil_append] at h5
    rw [h5]
    have h6 : fs.flatMap (fun e => ((sortByName e.2).filter (fun f => sp.pat f.1)).map (fun f => ((row f).map sp.cast, some e.1))) =
        fs.flatMap (fun e => (e.2.filter (fun f => sp.pat f.1)).map (fun f => ((row f).map sp.cast, some e.1))) := by
      rw [List.flatMap_def, List.flatMap_def]
      congr 1
      refine List.map_congr_left fun e he => ?_
      rw [sort_eq (hsorts e.1 e.2 (mem_folders.1 he).1)]
    rw [h6, flatMap_filter fs (fun f => sp.pat f.1) (fun n f => ((row f).map sp.cast, some n))]
    have h7 := asked_eq cats c (fun n f => (n, f))
    rw [List.map_id'' (fun _ => rfl)] at h7
    rw [h7, hfs]
    unfold folders
    rw [sort_eq hsort]
    rfl

/-- Two listings of the same folder: the same entries in any order, and so within each category folder. -/
def Spec.SameFolder (c c' : Container β) : Prop :=
  ∃ d, c.Perm d ∧ List.Forall₂ (fun a b => a.1 = b.1 ∧
    ((a.2 = none ∧ b.2 = none) ∨ ∃ f g, a.2 = some f ∧ b.2 = some g ∧ f.Perm g ∧ (f.map Prod.fst).Nodup)) d c'

theorem listed_rel (n : Nat) {fs fs' : List (String × List (File β))}
    (h : List.Forall₂ (fun a b => a.1 = b.1 ∧ sortByName a.2 = sortByName b.2) fs fs') :
    (fs.zipIdx n).flatMap (fun e => (sortByName e.1.2).map (fun f => (f, e.2))) =
      (fs'.zipIdx n).flatMap (fun e => (sortByName e.1.2).map (fun f => (f, e.2))) ∧ fs.map Prod.fst = fs'.map Prod.fst := by
  induction h generalizing n with
  | nil => exact ⟨rfl, rfl⟩
  | cons h _ ih =>
    obtain ⟨h1, h2⟩ := ih (n + 1)
    simp only [List.zipIdx_cons, List.flatMap_cons, h1, h.2, List.map_cons, h.1, h2, and_self]

/-- C118 (Office-31). The order in which the operating system lists folders and files does not matter. -/
theorem C118_listing_order (sp : Spec31 β γ) (c c' : Container β) (cats : Cats) (perm : Option (List Nat))
    (hn : (c.map Prod.fst).Nodup) (h : SameFolder c c') : load31 sp (some c) cats perm = load31 sp (some c') cats perm := by
  obtain ⟨d, h1, h2⟩ := h
  have hs : sortByName c = sortByName d := sort_congr h1 hn
  have hr := sort_rel (fun a b h => h.1) h2
  have hf : List.Forall₂ (fun a b => a.1 = b.1 ∧ sortByName a.2 = sortByName b.2) (folders c cats) (folders c' cats) := by
    unfold folders
    rw [hs]
    revert hr
    generalize sortByName d = p
    generalize sortByName c' = q
    intro hr
    induction hr with
    | nil => exact .nil
    | @cons a b p q hab _ ih =>
      obtain ⟨a1, a2⟩ := a
      obtain ⟨b1, b2⟩ := b
      obtain ⟨hab1, hab⟩ := hab
      simp only at hab1
      subst hab1
      rcases hab with ⟨ha, hb⟩ | ⟨f, g, ha, hb, hp, hnd⟩ <;> simp only at ha hb <;> subst ha <;> subst hb
      · exact ih
      · rw [List.filterMap_cons_some (by rfl), List.filterMap_cons_some (by rfl)]
        by_cases hk : cats.keep a1 = true
        · rw [List.filter_cons_of_pos (by exact hk), List.filter_cons_of_pos (by exact hk)]
          exact .cons ⟨rfl, sort_congr hp hnd⟩ ih
        · rw [List.filter_cons_of_neg (by exact hk), List.filter_cons_of_neg (by exact hk)]
          exact ih
  obtain ⟨h3, h4⟩ := listed_rel 0 hf
  have h3 : listed (folders c cats) = listed (folders c' cats) := h3
  simp only [load31, h3, h4]

/-- C118 (Office-31). The same integer means the same category in two domains that both have the categories asked for. -/
theorem C118_labels_partial (sp : Spec31 β γ) (c c' : Container β) (cats : Cats) (perm perm' : Option (List Nat)) (b b' : Bunch31 γ)
    (hn : (c.map Prod.fst).Nodup) (hn' : (c'.map Prod.fst).Nodup)
    (hsame : ∀ n, askedCat cats n = true → ((∃ fs, (n, some fs) ∈ c) ↔ ∃ fs, (n, some fs) ∈ c'))
    (h : load31 sp (some c) cats perm = .ok b) (h' : load31 sp (some c') cats perm' = .ok b') : b.names = b'.names := by
  have hnames : ∀ (c : Container β) (perm : Option (List Nat)) (b : Bunch31 γ), load31 sp (some c) cats perm = .ok b →
      b.names = (folders c cats).map Prod.fst := by
    intro c perm b h
    simp only [load31] at h
    split at h
    · cases h
    · split at h
      · cases h
      · split at h
        · cases h
        · cases h; rfl
  rw [hnames c perm b h, hnames c' perm' b' h']
  have hmem : ∀ (c : Container β) n, n ∈ (folders c cats).map Prod.fst ↔ (∃ fs, (n, some fs) ∈ c) ∧ askedCat cats n = true := by
    intro c n
    rw [List.mem_map]
    constructor
    · rintro ⟨e, he, rfl⟩
      obtain ⟨h4, h5⟩ := mem_folders.1 he
      exact ⟨⟨_, h4⟩, h5⟩
    · rintro ⟨⟨g, hg⟩, ha⟩
      exact ⟨(n, g), mem_folders.2 ⟨hg, ha⟩, rfl⟩
  have hnd : ∀ (c : Container β), (c.map Prod.fst).Nodup → ((folders c cats).map Prod.fst).Nodup := fun c hn =>
    ((folders_perm c cats).map Prod.fst).nodup_iff.2 (wanted_names_nodup hn _)
  refine List.Perm.eq_of_pairwise (le := (· ≤ ·)) (fun _ _ _ _ => le_antisymm) (folders_sorted c cats) (folders_sorted c' cats) ?_
  refine (List.perm_ext_iff_of_nodup (hnd c hn) (hnd c' hn')).2 fun n => ?_
  rw [hmem, hmem]
  constructor
  · rintro ⟨h1, h2⟩
    exact ⟨(hsame n h2).1 h1, h2⟩
  · rintro ⟨h1, h2⟩
    exact ⟨(hsame n h2).2 h1, h2⟩

/-- C118 (Office-31, refusals). A missing domain folder, no data file among the categories asked for, a data file of the wrong
size. -/
theorem C118_office31_errors (sp : Spec31 β γ) (c : Container β) (cats : Cats) (perm : Option (List Nat))
    (hp : ∀ p, perm = some p → p.Perm (List.range (askedFiles cats c).length)) :
    load31 sp none cats perm = .error .notFound ∧
    ((∀ n f, (n, f) ∈ askedFiles cats c → sp.pat f.1 = false) → load31 sp (some c) cats perm = .error .value) ∧
    ((∀ n f, (n, f) ∈ askedFiles cats c → sp.pat f.1 = true → ∃ m, f.2 = some m ∧ (m.cols ≠ 1 ∨ m.rows.length ≠ 1)) →
      (∃ n f m, (n, f) ∈ askedFiles cats c ∧ sp.pat f.1 = true ∧ f.2 = some m ∧ m.cols ≠ 1 ∧ (∀ r ∈ m.rows, r.length = m.cols) ∧
        m.cols ≠ sp.dim) →
      load31 sp (some c) cats perm = .error .assertion) := by
  obtain ⟨files, h1, h2, -⟩ := shuffle1_perm (a := listed (folders c cats)) (perm := perm)
    (fun p h => by rw [listed_count]; exact hp p h)
  refine ⟨rfl, fun h => ?_, fun h hb => ?_⟩
  · have := readFiles_none (sp := sp) (fs := files) (fun f hf => by
      obtain ⟨n, hn⟩ := asked_of_listed (h2.mem_iff.1 hf)
      exact h n f.1 hn)
    simp only [load31, h1, this, if_true]
  · have hlast : ∀ m : Mat β, (m.cols ≠ 1 ∨ m.rows.length ≠ 1) → ∃ d, (squeeze m).last = .ok d := by
      intro m hm
      unfold squeeze
      split
      · rename_i r hr
        rw [hr] at hm
        rw [if_neg (by simpa using hm)]
        exact ⟨_, rfl⟩
      · split <;> exact ⟨_, rfl⟩
    have := readFiles_bad (sp := sp) (fs := files) (fun f hf hpat => by
      obtain ⟨n, hn⟩ := asked_of_listed (h2.mem_iff.1 hf)
      obtain ⟨m, hm, ho⟩ := h n f.1 hn hpat
      obtain ⟨d, hd⟩ := hlast m ho
      exact ⟨m, d, hm, hd⟩) (by
      obtain ⟨n, f, m, hf, hpat, hm, hc, hw, hd⟩ := hb
      obtain ⟨i, hi⟩ := listed_of_asked hf
      refine ⟨(f, i), h2.mem_iff.2 hi, hpat, fun m' d hm' hl => ?_⟩
      rw [hm] at hm'
      cases hm'
      have : (squeeze m).last = .ok m.cols := by
        unfold squeeze
        split
        · rename_i r hr
          rw [if_neg hc]
          rw [show Sq.last (.vec r) = .ok r.length from rfl, hw r (by rw [hr]; simp)]
        · rw [if_neg hc]
          rfl
      rw [this] at hl
      cases hl
      exact hd)
    simp only [load31, h1, this]

/-! ### Office-Home and Amazon reviews -/

/-- The data lines of the file: features, label and domain. -/
def Spec.Lines (num : String → Option α) (lines : List (List String)) (rows : List (List α × String × String)) : Prop :=
  List.Forall₂ (fun line r => ∃ xs, line = xs ++ [r.2.1, r.2.2] ∧ List.Forall₂ (fun s x => num s = some x) xs r.1) lines rows

theorem mapM_num {num : String → Option α} {xs : List String} {x : List α} (h : List.Forall₂ (fun s x => num s = some x) xs x) :
    xs.mapM num = some x := by
  induction h with
  | nil => rfl
  | cons h _ ih => rw [List.mapM_cons, h, ih]; rfl

theorem parseCsv_ok {num : String → Option α} {header : List String} {lines : List (List String)}
    {rows : List (List α × String × String)} {k : Nat} (h : Lines num lines rows) (hk : ∀ r ∈ rows, r.1.length = k) (hne : rows ≠ []) :
    parseCsv num (some (header :: lines)) = .ok rows := by
  have hlen : ∀ line ∈ lines, line.length = k + 2 := by
    clear hne
    unfold Lines at h
    induction h with
    | nil => simp
    | @cons line r lines rows h1 _ ih =>
      intro l hl
      rcases List.mem_cons.1 hl with rfl | hl
      · obtain ⟨xs, rfl, hx⟩ := h1
        have := hx.length_eq
        simp [this, hk r (by simp)]
      · exact ih (fun r hr => hk r (by simp [hr])) l hl
  have h1 : (lines.any (fun r => decide (r.length < 2))) = false := by
    rw [List.any_eq_false]
    intro r hr
    simp [hlen r hr]
  have h2 : (lines.any (fun r => decide (r.length ≠ (lines.headD []).length))) = false := by
    rw [List.any_eq_false]
    intro r hr
    cases lines with
    | nil => simp at hr
    | cons a lines => simp [hlen r hr, hlen a (by simp)]
  have h3 : lines.mapM (parseRow num) = .ok rows := by
    clear hne hk hlen h1 h2
    unfold Lines at h
    induction h with
    | nil => rfl
    | @cons line r lines rows h1 _ ih =>
      obtain ⟨xs, rfl, hx⟩ := h1
      have : parseRow num (xs ++ [r.2.1, r.2.2]) = .ok r := by
        unfold parseRow
        simp only [List.reverse_append, List.reverse_cons, List.reverse_nil, List.nil_append, List.cons_append,
          List.reverse_reverse, mapM_num hx]
      rw [List.mapM_cons, this, ih]
      rfl
  simp only [parseCsv, h1, h2, Bool.false_eq_true, if_false, h3, hne]

/-- C118 (Office-Home). The loader for one domain returns the rows of that domain, each with its label; the loader for all
domains returns the same rows under each name. Without shuffling they are in the order of the file. -/
theorem C118_office_home (lower : String → String) (num : String → Option α) (header : List String) (lines : List (List String))
    (rows : List (List α × String × String)) (k : Nat) (h : Lines num lines rows) (hk : ∀ r ∈ rows, r.1.length = k) (hne : rows ≠ [])
    (perm permAll : Option (List Nat)) (v : String) (hv : v ∈ officeHomeDomains)
    (hp : ∀ p, perm = some p → p.Perm (List.range (rows.filter (fun r => decide (lower r.2.2 = v))).length))
    (hpa : ∀ p, permAll = some p → p.Perm (List.range rows.length)) :
    ∃ X y Xa ya ds, loadHome lower num (some (header :: lines)) v perm = .ok (X, y) ∧
      loadHomeAll lower num (some (header :: lines)) permAll = .ok ds ∧
      ds.map Prod.fst = ["art", "clipart", "product", "realworld"] ∧ ds.lookup v = some (Xa, ya) ∧
      X.length = y.length ∧ Xa.length = ya.length ∧
      (X.zip y).Perm ((rows.filter (fun r => decide (lower r.2.2 = v))).map (fun r => (r.1, r.2.1))) ∧
      (Xa.zip ya).Perm (X.zip y) ∧
      (perm = none → X.zip y = (rows.filter (fun r => decide (lower r.2.2 = v))).map (fun r => (r.1, r.2.1))) ∧
      (perm = none → permAll = none → Xa = X ∧ ya = y) := by
  have hparse := parseCsv_ok (header := header) h hk hne
  have hzip : ∀ rows : List (List α × String × String),
      ((ofDomain lower v rows).1).zip (ofDomain lower v rows).2 = (rows.filter (fun r => decide (lower r.2.2 = v))).map (fun r => (r.1, r.2.1)) := by
    intro rows
    simp only [ofDomain]
    rw [List.zip_map']
  have hlen : ∀ rows : List (List α × String × String), (ofDomain lower v rows).1.length = (ofDomain lower v rows).2.length := by
    intro rows; simp [ofDomain]
  obtain ⟨X, y, h1, h2, h3, h4⟩ := shuffle2_perm (hlen rows) (perm := perm) (fun p hq => by
    rw [show (ofDomain lower v rows).1.length = (rows.filter (fun r => decide (lower r.2.2 = v))).length by simp [ofDomain]]
    exact hp p hq)
  obtain ⟨rows', h5, h6, h7⟩ := shuffle1_perm (a := rows) (perm := permAll) hpa
  have hlook : ∀ (vs : List String) (g : String → List (List α) × List String), v ∈ vs → (vs.map (fun w => (w, g w))).lookup v = some (g v) := by
    intro vs g hvs
    induction vs with
    | nil => simp at hvs
    | cons w vs ih =>
      rw [List.map_cons, List.lookup_cons]
      by_cases he : v = w
      · subst he; simp
      · rw [show (v == w) = false by simpa using he]
        exact ih (by simpa [he] using hvs)
  refine ⟨X, y, (ofDomain lower v rows').1, (ofDomain lower v rows').2, officeHomeDomains.map (fun v => (v, ofDomain lower v rows')),
    ?_, ?_, rfl, hlook _ _ hv, h2, hlen rows', ?_, ?_, ?_, ?_⟩
  · simp only [loadHome, hparse, h1]
  · simp only [loadHomeAll, hparse, h5]
  · rw [← hzip rows]; exact h3
  · rw [hzip rows']
    refine ((h6.filter _).map _).trans ?_
    rw [← hzip rows]
    exact h3.symm
  · intro hnone
    obtain ⟨rfl, rfl⟩ := h4 hnone
    exact hzip rows
  · intro hnone hnone'
    obtain ⟨rfl, rfl⟩ := h4 hnone
    rw [h7 hnone']
    exact ⟨rfl, rfl⟩

/-- C118 (Office-Home, whole data set). The number of rows in all domains is the number of lines whose domain is one of the
four; other lines are dropped without a word. -/
theorem C118_office_home_rows (lower : String → String) (num : String → Option α) (header : List String) (lines : List (List String))
    (rows : List (List α × String × String)) (k : Nat) (h : Lines num lines rows) (hk : ∀ r ∈ rows, r.1.length = k) (hne : rows ≠ []) :
    ∃ ds, loadHomeAll lower num (some (header :: lines)) none = .ok ds ∧
      (ds.map (fun d => d.2.1.length)).sum = (rows.filter (fun r => officeHomeDomains.contains (lower r.2.2))).length := by
  refine ⟨officeHomeDomains.map (fun v => (v, ofDomain lower v rows)), by simp only [loadHomeAll, parseCsv_ok h hk hne, shuffle1], ?_⟩
  have key : ∀ (vs : List String), vs.Nodup →
      (vs.map (fun v => (rows.filter (fun r => decide (lower r.2.2 = v))).length)).sum = (rows.filter (fun r => vs.contains (lower r.2.2))).length := by
    intro vs hnd
    clear h hk hne
    induction rows with
    | nil => simp
    | cons r rows ih =>
      have hsplit : (vs.map (fun v => ((r :: rows).filter (fun r => decide (lower r.2.2 = v))).length)).sum =
          (vs.map (fun v => if lower r.2.2 = v then 1 else 0)).sum + (vs.map (fun v => (rows.filter (fun r => decide (lower r.2.2 = v))).length)).sum := by
        clear ih hnd
        induction vs with
        | nil => rfl
        | cons v vs ih =>
          simp only [List.map_cons, List.sum_cons, ih]
          by_cases hv : lower r.2.2 = v
          · simp [hv]; omega
          · simp [hv]; omega
      have hone : (vs.map (fun v => if lower r.2.2 = v then 1 else 0)).sum = if vs.contains (lower r.2.2) then 1 else 0 := by
        clear ih hsplit
        induction vs with
        | nil => rfl
        | cons v vs ih =>
          simp only [List.nodup_cons] at hnd
          simp only [List.map_cons, List.sum_cons, ih hnd.2]
          by_cases hv : lower r.2.2 = v
          · have : vs.contains (lower r.2.2) = false := by simpa [hv] using hnd.1
            simp [hv, hnd.1]
          · simp [hv]
      rw [hsplit, hone, ih]
      by_cases hc : vs.contains (lower r.2.2) = true
      · rw [List.filter_cons_of_pos (by exact hc), if_pos hc, List.length_cons]; omega
      · rw [List.filter_cons_of_neg (by exact hc), if_neg hc]; omega
  have := key officeHomeDomains (by decide)
  rw [← this]
  simp [ofDomain, Function.comp_def]

/-- C118 (Amazon reviews). Rows and labels of the file of the domain; shuffling keeps them together. -/
theorem C118_amazon (files : String → Option (List α × List (List l))) (v : String) (X : List α) (y : List (List l))
    (perm : Option (List Nat)) (hf : files (v ++ "_400.mat") = some (X, y)) (hl : X.length = y.flatten.length)
    (hp : ∀ p, perm = some p → p.Perm (List.range X.length)) :
    ∃ X' y', loadAmazon files v perm = .ok (X', y') ∧ X'.length = y'.length ∧ (X'.zip y').Perm (X.zip y.flatten) ∧
      (perm = none → X' = X ∧ y' = y.flatten) := by
  obtain ⟨X', y', h1, h2, h3, h4⟩ := shuffle2_perm hl hp
  exact ⟨X', y', by simp only [loadAmazon, hf, h1], h2, h3, h4⟩

/-! ### MNIST and USPS (C119) -/

/-- The rows of the classes asked for. -/
def Spec.classRows (nClasses : Int) (data : List (α × Int)) : List (α × Int) := data.filter (fun r => decide (r.2 < nClasses))

theorem subset_ok (n : ℚ) (k : Int) (data : List (α × Int)) (draw : Nat → Nat) (hd : ∀ i, classRows k data ≠ [] → draw i < (classRows k data).length) :
    ∃ rows, subset n k data draw = .ok rows ∧ rows.length = ⌊n * ((classRows k data).length : ℚ)⌋.toNat ∧
      (∀ i (h : i < rows.length), (classRows k data)[draw i]? = some rows[i]) := by
  have key : ∀ (m : List Nat), (m ≠ [] → classRows k data ≠ []) →
      ∃ rows : List (α × Int), (m.mapM (fun i => match (classRows k data)[draw i]? with
          | some r => .ok r | none => .error .indexError) : Py (List (α × Int))) = .ok rows ∧
        rows.length = m.length ∧ ∀ i (h : i < rows.length) (h' : i < m.length), (classRows k data)[draw m[i]]? = some rows[i] := by
    intro m hm
    induction m with
    | nil => exact ⟨[], rfl, rfl, fun i h => absurd h (by simp)⟩
    | cons j m ih =>
      have hne := hm (by simp)
      obtain ⟨rows, h1, h2, h3⟩ := ih fun _ => hne
      have hj : (classRows k data)[draw j]? = some ((classRows k data)[draw j]'(hd j hne)) := List.getElem?_eq_getElem _
      refine ⟨(classRows k data)[draw j]'(hd j hne) :: rows, ?_, by simp [h2], ?_⟩
      · rw [List.mapM_cons, hj, h1]; rfl
      · intro i h h'
        cases i with
        | zero => simp
        | succ i => simpa using h3 i (by simpa using h) (by simpa using h')
  obtain ⟨rows, h1, h2, h3⟩ := key (List.range ⌊n * ((classRows k data).length : ℚ)⌋.toNat) (by
    intro h hc
    apply h
    rw [hc]
    simp)
  refine ⟨rows, h1, by simpa using h2, fun i h => ?_⟩
  have := h3 i h (by rw [← h2]; exact h)
  simpa using this

/-- C119. The `⌊n_samples · n⌋` rows drawn of each data set are rows of it with their own labels, of the classes asked for;
MNIST is the source (domain 1), USPS the target (domain -2), and no label is masked. A share outside `[0, 1]` is refused. -/
theorem C119_mnist_usps_partial (n : ℚ) (k : Int) (mnist usps : List (α × Int)) (draw₁ draw₂ : Nat → Nat)
    (hd₁ : ∀ i, classRows k mnist ≠ [] → draw₁ i < (classRows k mnist).length)
    (hd₂ : ∀ i, classRows k usps ≠ [] → draw₂ i < (classRows k usps).length) :
    (n < 0 ∨ 1 < n → mnistUsps n k mnist usps draw₁ draw₂ = .error .valueError) ∧
    (0 ≤ n → n ≤ 1 → ∃ (p : Registry.Packed α) (m u : List (α × Int)), mnistUsps n k mnist usps draw₁ draw₂ = .ok p ∧
      p.sd = List.replicate m.length 1 ++ List.replicate u.length (-2) ∧
      sourceRows p.sd (p.X.zip p.y) = m.map (fun r => (r.1, .fin r.2)) ∧ targetRows p.sd (p.X.zip p.y) = u.map (fun r => (r.1, .fin r.2)) ∧
      (∀ r ∈ m, r ∈ mnist ∧ r.2 < k) ∧ (∀ r ∈ u, r ∈ usps ∧ r.2 < k) ∧
      m.length = ⌊n * ((classRows k mnist).length : ℚ)⌋.toNat ∧ u.length = ⌊n * ((classRows k usps).length : ℚ)⌋.toNat ∧
      (∀ i (h : i < m.length), (classRows k mnist)[draw₁ i]? = some m[i]) ∧ (∀ i (h : i < u.length), (classRows k usps)[draw₂ i]? = some u[i])) := by
  refine ⟨fun h => ?_, fun h0 h1 => ?_⟩
  · simp only [mnistUsps, mnistUspsData]
    rw [if_pos h]
  · obtain ⟨m, hm1, hm2, hm3⟩ := subset_ok n k mnist draw₁ hd₁
    obtain ⟨u, hu1, hu2, hu3⟩ := subset_ok n k usps draw₂ hd₂
    have hmem : ∀ (data rows : List (α × Int)) (draw : Nat → Nat), (∀ i (h : i < rows.length), (classRows k data)[draw i]? = some rows[i]) →
        ∀ r ∈ rows, r ∈ data ∧ r.2 < k := by
      intro data rows draw h r hr
      obtain ⟨i, hi, rfl⟩ := List.mem_iff_getElem.1 hr
      have := List.mem_of_getElem? (h i hi)
      unfold classRows at this
      rw [List.mem_filter] at this
      exact ⟨this.1, by simpa using this.2⟩
    have hp : mnistUsps n k mnist usps draw₁ draw₂ = .ok ⟨m.map Prod.fst ++ u.map Prod.fst,
        m.map (fun r => .fin r.2) ++ u.map (fun r => .fin r.2), List.replicate m.length 1 ++ List.replicate u.length (-2)⟩ := by
      simp only [mnistUsps, mnistUspsData]
      rw [if_neg (by push Not; exact ⟨h0, h1⟩), hm1]
      simp only [hu1]
      simp [Registry.addDomain, Registry.empty, Registry.dictHas, Registry.dictSet, Registry.pack, Registry.packSources,
        Registry.packTargets, Registry.getDomain, Registry.labelsOf, Registry.maskTarget, digits, List.lookup]
    have hz : ∀ (m u : List (α × Int)), (m.map Prod.fst ++ u.map Prod.fst).zip (m.map (fun r => Num.fin r.2) ++ u.map (fun r => Num.fin r.2)) =
        m.map (fun r => (r.1, Num.fin r.2)) ++ u.map (fun r => (r.1, Num.fin r.2)) := by
      intro m u
      rw [List.zip_append (by simp), List.zip_map', List.zip_map']
    have hs : ∀ {γ : Type} (a b : List γ), sourceRows (List.replicate a.length 1 ++ List.replicate b.length (-2)) (a ++ b) = a := by
      intro γ a b
      rw [sourceRows_append (by simp), ((sourceRows_of_all (by simp)).1 (fun d hd => by rw [List.eq_of_mem_replicate hd]; decide)).1]
      have : sourceRows (List.replicate b.length (-2)) b = [] := by
        induction b with
        | nil => rfl
        | cons x b ih => simpa [sourceRows, List.replicate_succ] using ih
      rw [this, List.append_nil]
    have ht : ∀ {γ : Type} (a b : List γ), targetRows (List.replicate a.length 1 ++ List.replicate b.length (-2)) (a ++ b) = b := by
      intro γ a b
      rw [targetRows_append (by simp)]
      have h1 : targetRows (List.replicate a.length 1) a = [] := by
        induction a with
        | nil => rfl
        | cons x a ih => simpa [targetRows, List.replicate_succ] using ih
      have h2 : targetRows (List.replicate b.length (-2)) b = b := by
        induction b with
        | nil => rfl
        | cons x b ih => simpa [targetRows, List.replicate_succ] using ih
      rw [h1, h2, List.nil_append]
    refine ⟨_, m, u, hp, rfl, ?_, ?_, hmem mnist m draw₁ hm3, hmem usps u draw₂ hu3, hm2, hu2, hm3, hu3⟩
    · simp only [hz]
      have := hs (m.map (fun r => (r.1, Num.fin r.2))) (u.map (fun r => (r.1, Num.fin r.2)))
      simpa using this
    · simp only [hz]
      have := ht (m.map (fun r => (r.1, Num.fin r.2))) (u.map (fun r => (r.1, Num.fin r.2)))
      simpa using this

/-! ### Examples and counterexamples -/

namespace Demo117

/-- Lower case, for the strings used here. -/
def low (s : String) : String :=
  if s = "AMAZON" ∨ s = "Amazon" then "amazon" else if s = "Art" then "art" else if s = "RealWorld" then "realworld" else s

/-- Files with two features, of which those named `x…` hold data. -/
def sp : Spec31 ℚ ℚ := ⟨fun n => n.toList.head? == some 'x', 2, id⟩

/-- Two categories, and a plain file. -/
def full : Container ℚ :=
  [("mug", some [("x2", some ⟨2, [[5, 6]]⟩), ("x1", some ⟨1, [[3], [4]]⟩)]), ("readme", none),
   ("bike", some [("x1", some ⟨2, [[1, 2]]⟩), ("notes", none)])]

/-- One category only. -/
def part : Container ℚ := [("mug", some [("x1", some ⟨2, [[3, 4]]⟩)])]

def row (f : File ℚ) : List ℚ := if f.1 = "x2" then [5, 6] else if f.2 = some ⟨1, [[3], [4]]⟩ then [3, 4] else [1, 2]

def arch (v : String) : Option (Container ℚ) := if v = "amazon" then some full else if v = "webcam" then some part else none

/-- A call for a domain of Office-31. -/
def call (d : DomArg) (allow : Bool) (net : Net (String → Option (Container ℚ))) : Fetch (String → Option (Container ℚ)) (Bunch31 ℚ) :=
  ⟨d, allow, net, fun c v => load31 sp (c v) .none none⟩

end Demo117

open Demo117

/-- Strings in any case; downloads not allowed, then one download, then the folder. -/
example : (run low office31Domains ⟨none, 0⟩ [call (.name "amazon") false (.done arch), call (.name "paris") true (.done arch),
      call (.name "AMAZON") true (.done arch), call (.member "webcam") false (.failed (fun _ => none)), call (.name "dslr") true (.done arch)]).2 =
    [.error .os, .error .value, .ok ⟨["bike", "mug"], [[1, 2], [3, 4], [5, 6]], [0, 1, 1]⟩, .ok ⟨["mug"], [[3, 4]], [0]⟩,
     .error .notFound] := by decide +kernel

example := C117_one_download (c := arch) low office31Domains 0 [call (.name "amazon") false (.done arch), call (.name "paris") true (.done arch)]
  [call (.member "webcam") false (.failed (fun _ => none))] (call (.name "AMAZON") true (.done arch)) "amazon"
  (by simp [Typed, call]) (by simp [Typed, call, office31Domains])
  (by
    intro g hg w hw
    simp only [List.mem_cons, List.not_mem_nil, or_false] at hg
    rcases hg with rfl | rfl
    · rfl
    · obtain ⟨hv, h | ⟨s, h, rfl⟩⟩ := hw
      · cases h
      · cases h
        exact absurd hv (by decide +kernel))
  ⟨by decide, .inr ⟨_, rfl, by decide +kernel⟩⟩ rfl (.inl rfl)

example := C117_present low office31Domains arch 3 [call (.name "Amazon") true (.failed (fun _ => none)), call (.name "paris") true (.done arch)]
  (by simp [Typed, call])

/-- A failed download: later calls do not try again. -/
example := (C117_retry_counterexample (α := ℚ) (β := ℚ) (γ := ℚ) (l := ℚ) low 0).1 sp
  (call (.member "amazon") true (.failed (fun _ => none))) [(.member "amazon", true, .done arch, .none, none)] "amazon"
  ⟨by decide, .inl rfl⟩ rfl rfl (by simp [office31Domains])

/-- A download interrupted while unpacking: what is there is returned as if it were everything. -/
theorem C117_partial_folder_counterexample :
    (run low office31Domains ⟨none, 0⟩ [call (.member "amazon") true (.failed (fun v => if v = "amazon" then some part else none)),
      call (.member "amazon") true (.done arch)]).2 = [.error .download, .ok ⟨["mug"], [[3, 4]], [0]⟩] := by decide +kernel

example := (C117_all low office31Domains true (.done arch) (fun c v => load31 sp (c v) .none none) ⟨none, 0⟩ arch ["amazon", "webcam"]
  (.inr ⟨rfl, rfl, rfl⟩)).1
  (fun v => if v = "amazon" then ⟨["bike", "mug"], [[1, 2], [3, 4], [5, 6]], [0, 1, 1]⟩ else ⟨["mug"], [[3, 4]], [0]⟩) (by simp)
  (by decide +kernel)

example := (C117_all low office31Domains true (.done arch) (fun c v => load31 sp (c v) .none none) ⟨none, 0⟩ arch office31Domains
  (.inr ⟨rfl, rfl, rfl⟩)).2
  (fun v => if v = "amazon" then ⟨["bike", "mug"], [[1, 2], [3, 4], [5, 6]], [0, 1, 1]⟩ else ⟨["mug"], [[3, 4]], [0]⟩)
  ["amazon", "webcam"] [] "dslr" .notFound rfl (by decide +kernel) (by decide +kernel)

/-- Files that are no data files are skipped; a sample may be stored as a row or a column. -/
example := C118_office31_partial sp full .none (some [2, 0, 3, 1]) row (by decide +kernel)
  (by rintro p ⟨⟩; decide +kernel)
  (by
    intro n f hf hpat
    have h : (n, f) ∈ [("mug", ("x2", some (⟨2, [[5, 6]]⟩ : Mat ℚ))), ("mug", ("x1", some ⟨1, [[3], [4]]⟩)),
        ("bike", ("x1", some ⟨2, [[1, 2]]⟩)), ("bike", ("notes", none))] := hf
    simp only [List.mem_cons, List.not_mem_nil, or_false, Prod.mk.injEq] at h
    rcases h with ⟨-, rfl⟩ | ⟨-, rfl⟩ | ⟨-, rfl⟩ | ⟨-, rfl⟩
    · exact ⟨_, rfl, by decide, by decide +kernel, .inl (by decide +kernel)⟩
    · exact ⟨_, rfl, by decide, by decide +kernel, .inr (by decide +kernel)⟩
    · exact ⟨_, rfl, by decide, by decide +kernel, .inl (by decide +kernel)⟩
    · exact absurd hpat (by decide +kernel))
  ⟨"mug", ("x2", some ⟨2, [[5, 6]]⟩), by decide +kernel, by decide +kernel⟩

example : load31 sp (some full) .none (some [2, 0, 3, 1]) = .ok ⟨["bike", "mug"], [[3, 4], [5, 6], [1, 2]], [1, 1, 0]⟩ := by
  decide +kernel

example := C118_listing_order sp full [("readme", none), ("bike", some [("notes", none), ("x1", some ⟨2, [[1, 2]]⟩)]),
    ("mug", some [("x1", some ⟨1, [[3], [4]]⟩), ("x2", some ⟨2, [[5, 6]]⟩)])] .caltech256 none (by decide +kernel)
  ⟨[("readme", none), ("bike", some [("x1", some ⟨2, [[1, 2]]⟩), ("notes", none)]),
      ("mug", some [("x2", some ⟨2, [[5, 6]]⟩), ("x1", some ⟨1, [[3], [4]]⟩)])], List.perm_append_comm (l₁ := [_]) (l₂ := [_, _]),
    .cons ⟨rfl, .inl ⟨rfl, rfl⟩⟩ (.cons ⟨rfl, .inr ⟨_, _, rfl, rfl, List.perm_append_comm (l₁ := [_]) (l₂ := [_]), by decide +kernel⟩⟩
      (.cons ⟨rfl, .inr ⟨_, _, rfl, rfl, List.perm_append_comm (l₁ := [_]) (l₂ := [_]), by decide +kernel⟩⟩ .nil))⟩

/-- With the categories that both domains have. -/
example := C118_labels_partial sp full part (.names ["mug"]) none none ⟨["mug"], [[3, 4], [5, 6]], [0, 0]⟩ ⟨["mug"], [[3, 4]], [0]⟩
  (by decide +kernel) (by decide +kernel)
  (by
    intro n hn
    have : n = "mug" := by simpa [askedCat] using hn
    subst this
    simp [full, part])
  (by decide +kernel) (by decide +kernel)

/-- C118 is false for a category that one domain does not have: the integer labels of the two domains mean different
categories, with a warning at most. -/
theorem C118_labels_counterexample :
    load31 sp (some full) (.names ["bike", "mug"]) none = .ok ⟨["bike", "mug"], [[1, 2], [3, 4], [5, 6]], [0, 1, 1]⟩ ∧
    load31 sp (some part) (.names ["bike", "mug"]) none = .ok ⟨["mug"], [[3, 4]], [0]⟩ := by decide +kernel

/-- C118 is false for a file with two samples: more rows than labels. -/
theorem C118_rows_counterexample :
    load31 sp (some [("bike", some [("x1", some ⟨2, [[1, 2], [7, 8]]⟩)]), ("mug", some [("x1", some ⟨2, [[3, 4]]⟩)])]) .none none =
      .ok ⟨["bike", "mug"], [[1, 2], [7, 8], [3, 4]], [0, 1]⟩ := by decide +kernel

/-- C118 is false for the value of the preset given as a string: no category is part of the name. -/
theorem C118_preset_string_counterexample :
    load31 sp (some full) (.text "caltech256") none = .error .value ∧ load31 sp (some full) .caltech256 none =
      .ok ⟨["bike", "mug"], [[1, 2], [3, 4], [5, 6]], [0, 1, 1]⟩ := by decide +kernel

example := C118_office31_errors sp [("bike", some [("x1", some ⟨3, [[1, 2, 3]]⟩)]), ("mug", some [("x1", some ⟨2, [[3, 4]]⟩)])] .all none (by simp)

example : load31 sp (some [("bike", some [("x1", some ⟨3, [[1, 2, 3]]⟩)]), ("mug", some [("x1", some ⟨2, [[3, 4]]⟩)])]) .all none = .error .assertion ∧
    load31 sp (some [("bike", some [("notes", none)])]) .all none = .error .value := by decide +kernel

namespace Demo117

/-- Cells with one digit. -/
def num (s : String) : Option ℚ := if s = "1" then some 1 else if s = "2" then some 2 else if s = "3" then some 3 else none

/-- A file with three lines of data. -/
def csv : List (List String) := [["1", "2", "Alarm", "Art"], ["3", "2", "Bed", "RealWorld"], ["2", "2", "Bed", "Art"]]

def data : List (List ℚ × String × String) := [([1, 2], "Alarm", "Art"), ([3, 2], "Bed", "RealWorld"), ([2, 2], "Bed", "Art")]

theorem csv_lines : Lines num csv data :=
  .cons ⟨["1", "2"], rfl, .cons (by decide +kernel) (.cons (by decide +kernel) .nil)⟩
    (.cons ⟨["3", "2"], rfl, .cons (by decide +kernel) (.cons (by decide +kernel) .nil)⟩
      (.cons ⟨["2", "2"], rfl, .cons (by decide +kernel) (.cons (by decide +kernel) .nil)⟩ .nil))

end Demo117

example := C118_office_home low num ["f0", "f1", "label", "domain"] csv data 2 csv_lines (by simp [data]) (by simp [data]) (some [1, 0])
  (some [2, 0, 1]) "art" (by decide) (by rintro p ⟨⟩; decide +kernel) (by rintro p ⟨⟩; decide +kernel)

example : loadHome low num (some (["f0", "f1", "label", "domain"] :: csv)) "art" (some [1, 0]) = .ok ([[2, 2], [1, 2]], ["Bed", "Alarm"]) ∧
    loadHomeAll low num (some (["f0", "f1", "label", "domain"] :: csv)) none = .ok [("art", [[1, 2], [2, 2]], ["Alarm", "Bed"]), ("clipart", [], []),
      ("product", [], []), ("realworld", [[3, 2]], ["Bed"])] := by decide +kernel

example := C118_office_home_rows low num ["f0", "f1", "label", "domain"] csv data 2 csv_lines (by simp [data]) (by simp [data])

/-- A line of a domain that is not known is dropped. -/
theorem C118_dropped_counterexample :
    loadHomeAll low num (some [["f0", "label", "domain"], ["1", "Bed", "Sketch"], ["2", "Bed", "Art"]]) none =
      .ok [("art", [[2]], ["Bed"]), ("clipart", [], []), ("product", [], []), ("realworld", [], [])] := by decide +kernel

/-- Files that cannot be parsed. -/
example : loadHome low num none "art" none = .error .notFound ∧ loadHome low num (some []) "art" none = .error .stopIteration ∧
    loadHome low num (some [["f0"], ["1"]]) "art" none = .error .index ∧
    loadHome low num (some [["f0", "l", "d"], ["x", "Bed", "Art"]]) "art" none = .error .value ∧
    loadHome low num (some [["f0", "l", "d"], ["1", "Bed", "Art"], ["1", "1", "Bed", "Art"]]) "art" none = .error .value ∧
    loadHome low num (some [["f0", "l", "d"]]) "art" none = .error .type := by
  refine ⟨?_, ?_, ?_, ?_, ?_, ?_⟩ <;> decide +kernel

example : (fetchHomeAll low num ⟨none, 0⟩ true (.done (some (["f0", "f1", "label", "domain"] :: csv))) none).1.downloads = 1 ∧
    (fetchHomeAll low num ⟨none, 0⟩ false (.done (some (["f0", "f1", "label", "domain"] :: csv))) none).2 = .error .os ∧
    (fetchHomeAll low num ⟨some none, 1⟩ true (.done (some (["f0", "f1", "label", "domain"] :: csv))) none) = (⟨some none, 1⟩, .error .notFound) := by
  refine ⟨by decide +kernel, by decide +kernel, rfl⟩

example := C118_amazon (fun n => if n = "dvd_400.mat" then some ([[1], [2], [3]], [[10, 20, 30]]) else none) "dvd"
  ([[1], [2], [3]] : List (List ℚ)) ([[10, 20, 30]] : List (List ℚ)) (some [1, 2, 0]) (by decide +kernel) rfl (by rintro p ⟨⟩; decide +kernel)

/-- Half of the rows with labels below two. -/
example := (C119_mnist_usps_partial (1 / 2) 2 [("a", 0), ("b", 5), ("c", 1)] [("d", 1), ("e", 1), ("f", 0), ("g", 0)] (fun _ => 1) (fun i => 3 - i % 4)
  (fun _ _ => by decide +kernel) (fun i _ => by simp only [classRows]; show 3 - i % 4 < 4; omega)).2 (by decide +kernel) (by decide +kernel)

example : mnistUsps (1 / 2) 2 [("a", 0), ("b", 5), ("c", 1)] [("d", 1), ("e", 1), ("f", 0), ("g", 0)] (fun _ => 1) (fun i => 3 - i % 4) =
    .ok ⟨["c", "g", "f"], [.fin 1, .fin 0, .fin 0], [1, -2, -2]⟩ := by decide +kernel

/-- C119, the statement that fails: with `n_samples=1` all rows are returned. They are drawn with replacement, so a row can be
there twice and another one not at all. -/
theorem C119_replacement_counterexample :
    mnistUsps 1 10 [("a", 0), ("b", 5)] [("d", 1)] (fun _ => 0) (fun _ => 0) = .ok ⟨["a", "a", "d"], [.fin 0, .fin 0, .fin 1], [1, 1, -2]⟩ := by
  decide +kernel

end Skada

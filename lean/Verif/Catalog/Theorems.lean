import Verif.Catalog.Spec
import Verif.File.Theorems

/-!
# Theorems on catalogs
-/

namespace Verif.Catalog

open Verif.File

/-! ## The directories -/

theorem clean_segs {n : Text} (h : ∀ c ∈ n, c ≠ '/' ∧ c ≠ '\\') : segs n = [n] := by
  simp only [segs]
  rw [List.splitOnP_eq_singleton]
  intro x hx
  simp [(h x hx).1, (h x hx).2]

theorem xosc_clean : ∀ c ∈ ".xosc".toList, c ≠ '/' ∧ c ≠ '\\' := by decide +kernel

theorem findLast_snoc {p : Text} {s : Char} {n : Text} (hs : s = '/' ∨ s = '\\')
    (hn : ∀ c ∈ n, c ≠ '/' ∧ c ≠ '\\') : findLast isSep (p ++ s :: n) = some p.length :=
  findLast_some.2 ⟨p, s, n, rfl, rfl, isSep_iff.2 hs, fun x hx => isSep_false.2 (hn x hx)⟩

/-- The last name of a directory, with or without a separator behind it. -/
theorem last_name {d n : Text} (h : LastName d n) : lastDir d = n := by
  cases h with
  | plain _ h => simp [lastDir, findLast_none.2 (fun c hc => isSep_false.2 (h c hc))]
  | within p s _ hs h0 hn =>
    have : p.length + 1 ≠ (p ++ s :: n).length := by
      have : 0 < n.length := List.length_pos_iff.2 h0
      simp; omega
    simp only [lastDir, findLast_snoc hs hn]
    rw [if_pos this]
    rw [show p ++ s :: n = (p ++ [s]) ++ n by simp, List.drop_append_of_le_length (by simp)]
    simp
  | trailing p s t _ hs ht h0 hn =>
    have e1 : p ++ s :: (n ++ [t]) = (p ++ s :: n) ++ t :: [] := by simp
    have f1 : findLast isSep (p ++ s :: (n ++ [t])) = some (p ++ s :: n).length := by
      rw [e1]; exact findLast_snoc ht (by simp)
    have f2 : (p ++ s :: (n ++ [t])).dropLast = p ++ s :: n := by
      rw [e1, List.dropLast_append_of_ne_nil (by simp)]; simp
    simp only [lastDir, f1, f2, findLast_snoc hs hn]
    rw [if_neg (by simp; omega), if_pos (by simp)]
    rw [show p ++ s :: n = (p ++ [s]) ++ n by simp, List.drop_append_of_le_length (by simp)]
    simp

/-- Of a single name with a separator behind it nothing is left, so that the
catalogs delivered with the program are not found. -/
theorem last_name_fails : ∃ n : Text, (∀ c ∈ n, c ≠ '/' ∧ c ≠ '\\') ∧ n ≠ [] ∧
    lastDir (n ++ ['/']) ≠ n ∧ lastDir n = n :=
  ⟨"Vehicles".toList, by decide +kernel⟩

example : LastName "../xosc/Catalogs/Vehicles".toList "Vehicles".toList ∧
    LastName "../xosc/Catalogs/Vehicles/".toList "Vehicles".toList := by
  refine ⟨?_, ?_⟩
  · rw [show "../xosc/Catalogs/Vehicles".toList = "../xosc/Catalogs".toList ++ '/' :: "Vehicles".toList by
      decide +kernel]
    exact .within _ '/' _ (.inl rfl) (by decide +kernel) (by decide +kernel)
  · rw [show "../xosc/Catalogs/Vehicles/".toList
      = "../xosc/Catalogs".toList ++ '/' :: ("Vehicles".toList ++ ['/']) by decide +kernel]
    exact .trailing _ '/' '/' _ (.inl rfl) (.inl rfl) (by decide +kernel) (by decide +kernel)

theorem fileIn_dir {cwd : Loc} {p : Text} {d : Loc} (h : FileIn cwd p d) :
    resolve cwd (dirNameOf p) = d ∧ dirNameOf p ≠ [] := by
  obtain ⟨n, h0, h1, h2, h3, h4, h5, h6⟩ := h
  have := (dirName_partial cwd p n h0 h1 h2 h3 ⟨h4, h5⟩).2
  rw [h6] at this
  refine ⟨(List.cons.inj this).2.symm, ?_⟩
  intro he
  rcases sep_cases p with ⟨hs, hf⟩ | ⟨d', c, m, hs, hc, hm, hf⟩
  · rcases h0.2 with rfl | ⟨x, y, rfl, hy⟩
    · simp [dirNameOf, hf, h1] at he
    · have := hs y (by simp)
      rcases hy with rfl | rfl <;> simp_all
  · simp only [dirNameOf, hf] at he
    have hmn : m = n := by
      apply isName_unique (s := p) ⟨hm, Or.inr ⟨d', c, hs, hc⟩⟩ h0
    subst hmn
    cases d' with
    | nil =>
      rw [hs] at h4 h5
      rcases hc with rfl | rfl
      · exact h4 rfl
      · exact h5 rfl
    | cons a b => rw [hs] at he; simp at he

theorem inside_append {b : Loc} {x y : Text} : inside b (x ++ '/' :: y) = inside (inside b x) y := by
  simp [inside, List.splitOnP_append_cons, List.foldl_append]

theorem dirs_spec {e : Env} {cwd scn exe : Loc} {F : Loc → Option Content} (w : World e cwd scn exe F)
    {last : Text → Text} {d : Text} (hl : LastName d (last d)) :
    (dirsOf e d).map (resolve cwd) = bases cwd scn exe last d := by
  obtain ⟨h1, h2⟩ := fileIn_dir w.osc
  obtain ⟨h3, h4⟩ := fileIn_dir w.exe
  have e1 : resolve cwd (dirNameOf e.osc ++ '/' :: d) = inside scn d := by
    rw [resolve_append _ _ _ h2 _ (.inl rfl), h1]; rfl
  have e2 : resolve cwd (dirNameOf e.exe ++ "/../resources/xosc/Catalogs/".toList ++ lastDir d)
      = inside exe ("../resources/xosc/Catalogs/".toList ++ last d) := by
    rw [last_name hl]
    have : dirNameOf e.exe ++ "/../resources/xosc/Catalogs/".toList ++ last d
        = dirNameOf e.exe ++ '/' :: ("../resources/xosc/Catalogs/".toList ++ last d) := by simp
    rw [this, resolve_append _ _ _ h4 _ (.inl rfl), h3]; rfl
  simp only [dirsOf, bases, List.map_cons, List.map_nil, e1, e2]

theorem resolve_plain {n : Text} (h : Plain n) (b : Loc) :
    resolve b (n ++ ".xosc".toList) = (n ++ ".xosc".toList) :: b := by
  have hc : ∀ c ∈ n ++ ".xosc".toList, c ≠ '/' ∧ c ≠ '\\' := by
    intro c hc
    rcases List.mem_append.1 hc with hc | hc
    · exact ⟨(h.2 c hc).1, (h.2 c hc).2.1⟩
    · exact xosc_clean c hc
  have ha : isAbsolute (n ++ ".xosc".toList) = false := by
    rw [Bool.eq_false_iff]; intro habs
    obtain ⟨c, r, h4, h5⟩ := (abs_iff _).1 habs
    have := hc c (by rw [h4]; simp)
    rcases h5 with rfl | rfl
    · exact this.1 rfl
    · exact this.2 rfl
  have l : 5 < (n ++ ".xosc".toList).length := by
    have : 0 < n.length := List.length_pos_iff.2 h.1
    simp; omega
  rw [resolve_def, ha, clean_segs hc]
  simp only [List.foldl_cons, List.foldl_nil, Bool.false_eq_true, if_false, walk]
  rw [if_neg, if_neg]
  · intro h'; rw [h'] at l; simp at l
  · rintro (h' | h') <;> rw [h'] at l <;> simp at l

theorem flat_twice {α : Type} (p : α → Bool) (f : α → α) (l : List α) :
    (l.flatMap (fun b => [f b, f b])).find? p = (l.map f).find? p := by
  induction l with
  | nil => rfl
  | cons a r ih =>
    simp only [List.flatMap_cons, List.map_cons, List.cons_append, List.nil_append, List.find?_cons, ih]
    cases p (f a) <;> rfl

theorem places_spec {e : Env} {cwd scn exe : Loc} {F : Loc → Option Content} (w : World e cwd scn exe F)
    {last : Text → Text} {dirs : List Text} (hl : ∀ d ∈ dirs, LastName d (last d)) {n : Text} (hn : Plain n) :
    (places cwd e.paths (dirs.flatMap (dirsOf e)) (n ++ ".xosc".toList) (n ++ ".xosc".toList)).find?
        (fun l => (F l).isSome)
      = fileOf cwd scn exe F last e.paths dirs n := by
  have e1 : (dirs.flatMap (dirsOf e)).map (resolve cwd) = dirs.flatMap (bases cwd scn exe last) := by
    rw [List.map_flatMap]
    clear hn
    induction dirs with
    | nil => rfl
    | cons d r ih =>
      rw [List.flatMap_cons, List.flatMap_cons, ih (fun x hx => hl x (by simp [hx])),
        dirs_spec w (hl d (by simp))]
  unfold places fileOf
  rw [e1, flat_twice]
  congr 1
  apply List.map_congr_left
  intro b _
  exact resolve_plain hn b

theorem plain_name {n : Text} (h : Plain n) :
    IsName (n ++ ".xosc".toList) (n ++ ".xosc".toList) ∧ n ++ ".xosc".toList ≠ [] ∧
      ':' ∉ n ++ ".xosc".toList := by
  refine ⟨⟨?_, .inl rfl⟩, by simp, ?_⟩
  · intro c hc
    rcases List.mem_append.1 hc with hc | hc
    · exact ⟨(h.2 c hc).1, (h.2 c hc).2.1⟩
    · exact xosc_clean c hc
  · intro hc
    rcases List.mem_append.1 hc with hc | hc
    · exact (h.2 _ hc).2.2 rfl
    · revert hc; decide +kernel

/-! ## Loading -/

/-- The entry made of an element. -/
def entryOf (x : Elem) : Entry := ⟨x.name, typeByName x.tag, x.body⟩

theorem readEntries_literal {rd : Text → Option Text} : ∀ {es : List Elem},
    (∀ x ∈ es, rd x.name = some x.name) → readEntries rd es = some (es.map entryOf)
  | [], _ => rfl
  | x :: xs, h => by
    have h1 := h x (by simp)
    have h2 := readEntries_literal (es := xs) (fun y hy => h y (by simp [hy]))
    simp [readEntries, h1, h2, entryOf]

/-- The search with the directories registered so far. -/
def search (e : Env) (dirs : List Text) (n : Text) : Bool × Text :=
  locate (fun t => (e.files t).isSome) e.paths (dirs.flatMap (dirsOf e)) (n ++ ".xosc".toList)

theorem locate_more (ex : Text → Bool) (env a b : List Text) (f : Text) (h : (locate ex env a f).1 = true) :
    locate ex env (a ++ b) f = locate ex env a f := by
  have : candidates env (a ++ b) f = candidates env a f ++ b.flatMap (inDir f) := by
    simp [candidates, List.append_assoc]
  simp only [locate] at h ⊢
  rw [this, List.find?_append]
  cases hc : (candidates env a f).find? ex with
  | none => rw [hc] at h; simp at h
  | some c => rfl

theorem search_more {e : Env} {a b : List Text} {n : Text} (h : (search e a n).1 = true) :
    search e (a ++ b) n = search e a n := by
  unfold search at h ⊢
  rw [List.flatMap_append]
  exact locate_more _ _ _ _ _ h

/-- Every loaded catalog is the one a search would give now. -/
def Inv (e : Env) (st : St) : Prop :=
  ∀ c ∈ st.loaded, (search e st.dirs c.name).1 = true ∧
    ∃ es, e.files (search e st.dirs c.name).2 = some (.catalog es) ∧ c.entries = es.map entryOf

theorem inv_more {e : Env} {st : St} (h : Inv e st) (b : List Text) :
    Inv e { st with dirs := st.dirs ++ b } := by
  intro c hc
  obtain ⟨h1, es, h2, h3⟩ := h c hc
  show (search e (st.dirs ++ b) c.name).1 = true ∧ _
  rw [search_more h1]
  exact ⟨h1, es, h2, h3⟩

theorem load_search {e : Env} {rd : Text → Option Text} {st : St} {n : Text} (h : findCatalog st n = none) :
    load e rd st n = if (search e st.dirs n).1 = true then
      (match e.files (search e st.dirs n).2 with
      | some (.catalog es) => (readEntries rd es).map
          (fun xs => ({ st with loaded := st.loaded ++ [⟨n, xs⟩] }, ⟨n, xs⟩))
      | _ => none) else none := by
  unfold load
  rw [h]
  change (if (search e st.dirs n).1 = true then _ else _) = _
  split
  · change (match e.files (search e st.dirs n).2 with
      | some (.catalog es) => _
      | _ => none) = _
    split
    · rename_i es _
      cases readEntries rd es <;> rfl
    · rfl
  · rfl

theorem load_cases {e : Env} {cwd scn exe : Loc} {F : Loc → Option Content} (w : World e cwd scn exe F)
    {rd : Text → Option Text} (hr : LiteralNames F rd) {st : St} (hi : Inv e st) (n : Text) :
    match load e rd st n with
    | some (st', c) => Inv e st' ∧ st'.dirs = st.dirs ∧ (search e st.dirs n).1 = true ∧
        ∃ es, e.files (search e st.dirs n).2 = some (.catalog es) ∧ c.entries = es.map entryOf
    | none => (search e st.dirs n).1 = false ∨
        ∀ es, e.files (search e st.dirs n).2 ≠ some (.catalog es) := by
  cases hf : findCatalog st n with
  | some c =>
    have hm := List.mem_of_find?_eq_some hf
    have hn : c.name = n := by simpa using List.find?_some hf
    obtain ⟨h1, es, h2, h3⟩ := hi c hm
    rw [hn] at h1 h2
    have : load e rd st n = some (st, c) := by unfold load; rw [hf]
    rw [this]
    exact ⟨hi, rfl, h1, es, h2, h3⟩
  | none =>
    rw [load_search hf]
    by_cases h1 : (search e st.dirs n).1 = true
    · rw [if_pos h1]
      cases h2 : e.files (search e st.dirs n).2 with
      | none => exact .inr (by simp)
      | some k =>
        cases k with
        | other => exact .inr (by simp)
        | catalog es =>
          have h3 : readEntries rd es = some (es.map entryOf) :=
            readEntries_literal (hr _ es (by rw [← w.files]; exact h2))
          simp only [h3, Option.map_some]
          refine ⟨?_, by trivial, h1, es, rfl, rfl⟩
          intro c hc
          rcases List.mem_append.1 hc with hc | hc
          · exact hi c hc
          · rw [List.mem_singleton.1 hc]
            exact ⟨h1, es, h2, rfl⟩
    · rw [if_neg h1]
      exact .inl (by simpa using h1)

theorem reference_cases {e : Env} {cwd scn exe : Loc} {F : Loc → Option Content} (w : World e cwd scn exe F)
    {rd : Text → Option Text} (hr : LiteralNames F rd) {st : St} (hi : Inv e st) (cn en c n : Text)
    (hcn : rd cn = some c) (hen : rd en = some n) :
    match reference e rd st cn en with
    | some (st', x) => Inv e st' ∧ st'.dirs = st.dirs ∧ (search e st.dirs c).1 = true ∧
        ∃ es, e.files (search e st.dirs c).2 = some (.catalog es) ∧
          x = (es.map entryOf).find? (fun y => y.name == n) ∧ (x = none → n = [])
    | none => (search e st.dirs c).1 = false ∨ ∀ es, e.files (search e st.dirs c).2 = some (.catalog es) →
        (es.map entryOf).find? (fun y => y.name == n) = none ∧ n ≠ [] := by
  have hl := load_cases w hr hi c
  unfold reference
  simp only [hcn, hen, Option.bind_eq_bind, Option.bind_some]
  cases h : load e rd st c with
  | none =>
    rw [h] at hl
    simp only [Option.bind_none]
    rcases hl with hl | hl
    · exact .inl hl
    · exact .inr (fun es he => absurd he (hl es))
  | some r =>
    obtain ⟨st', k⟩ := r
    rw [h] at hl
    obtain ⟨h1, h2, h3, es, h4, h5⟩ := hl
    simp only [Option.bind_some]
    have hfe : findEntry k n = (es.map entryOf).find? (fun y => y.name == n) := by
      rw [findEntry, h5]
    cases hx : findEntry k n with
    | none =>
      simp only
      by_cases h0 : n = []
      · rw [if_neg (by simpa using h0)]
        exact ⟨h1, h2, h3, es, h4, by rw [← hfe, hx], fun _ => h0⟩
      · rw [if_pos (by simpa using h0)]
        refine .inr (fun es' he => ?_)
        rw [h4] at he
        have : es = es' := by simpa using he
        subst this
        exact ⟨by rw [← hfe, hx], h0⟩
    | some y => exact ⟨h1, h2, h3, es, h4, by rw [← hfe, hx], by simp⟩

theorem step_inv {e : Env} {cwd scn exe : Loc} {F : Loc → Option Content} (w : World e cwd scn exe F)
    {st st' : St} (hi : Inv e st) (o : Op) (ho : LiteralNames F o.rd) (h : step e st o = some st') :
    Inv e st' := by
  cases o with
  | register rd l =>
    cases l with
    | noDirectory => cases h; exact hi
    | directory p =>
      cases p with
      | none => cases h
      | some raw =>
        simp only [step, register] at h
        cases hd : rd raw with
        | none => rw [hd] at h; cases h
        | some d =>
          rw [hd] at h
          simp only [Option.bind_eq_bind, Option.bind_some, Option.pure_def] at h
          split at h
          · cases h; exact hi
          · split at h
            · have hl := load_cases w ho (inv_more hi [dirNameOf d]) (fileNameWithoutExtOf d)
              change Option.bind (load e rd _ _) _ = _ at h
              simp only [Op.rd] at hl
              cases hk : load e rd { st with dirs := st.dirs ++ [dirNameOf d] } (fileNameWithoutExtOf d) with
              | none => rw [hk] at h; cases h
              | some r =>
                rw [hk] at h hl
                cases h
                exact hl.1
            · cases h; exact inv_more hi _
  | reference rd cn en =>
    simp only [step] at h
    cases hk : reference e rd st cn en with
    | none => rw [hk] at h; cases h
    | some r =>
      rw [hk] at h
      cases h
      cases hcn : rd cn with
      | none => simp [reference, hcn] at hk
      | some c =>
        cases hen : rd en with
        | none => simp [reference, hcn, hen] at hk
        | some n =>
          have := reference_cases w ho hi cn en c n hcn hen
          simp only [Op.rd] at this
          rw [hk] at this
          exact this.1

theorem run_inv {e : Env} {cwd scn exe : Loc} {F : Loc → Option Content} (w : World e cwd scn exe F) :
    ∀ (ops : List Op) {st st' : St}, Inv e st → (∀ o ∈ ops, LiteralNames F o.rd) →
      run e st ops = some st' → Inv e st'
  | [], st, st', hi, _, h => by cases h; exact hi
  | o :: os, st, st', hi, ho, h => by
    simp only [run] at h
    cases hs : step e st o with
    | none => rw [hs] at h; cases h
    | some s =>
      rw [hs] at h
      exact run_inv w os (step_inv w hi o (ho o (by simp)) hs) (fun x hx => ho x (by simp [hx])) h

/-! ## References -/

theorem find_first {es : List Elem} {n : Text} {x : Entry} :
    (es.map entryOf).find? (fun y => y.name == n) = some x ↔
      ∃ y, FirstNamed es n y ∧ x = ⟨n, typeByName y.tag, y.body⟩ := by
  rw [List.find?_map]
  constructor
  · intro h
    obtain ⟨y, h1, rfl⟩ := Option.map_eq_some_iff.1 h
    obtain ⟨h2, a, b, h3, h4⟩ := List.find?_eq_some_iff_append.1 h1
    have hn : y.name = n := by simpa [entryOf] using h2
    refine ⟨y, ⟨a, b, h3, hn, fun z hz => ?_⟩, by simp [entryOf, hn]⟩
    simpa [entryOf] using h4 z hz
  · rintro ⟨y, ⟨a, b, h3, hn, h4⟩, rfl⟩
    refine Option.map_eq_some_iff.2 ⟨y, ?_, by simp [entryOf, hn]⟩
    refine List.find?_eq_some_iff_append.2 ⟨by simp [entryOf, hn], a, b, h3, fun z hz => ?_⟩
    simpa [entryOf] using h4 z hz

theorem find_none {es : List Elem} {n : Text} :
    (es.map entryOf).find? (fun y => y.name == n) = none ↔ ∀ y ∈ es, y.name ≠ n := by
  simp [List.find?_eq_none, entryOf]

theorem search_file {e : Env} {cwd scn exe : Loc} {F : Loc → Option Content} (w : World e cwd scn exe F)
    {last : Text → Text} {dirs : List Text} (hl : ∀ d ∈ dirs, LastName d (last d)) {n : Text} (hn : Plain n) :
    match fileOf cwd scn exe F last e.paths dirs n with
    | some l => (search e dirs n).1 = true ∧ e.files (search e dirs n).2 = F l
    | none => (search e dirs n).1 = false := by
  obtain ⟨h1, h2, h3⟩ := plain_name hn
  have h := locate_first cwd (fun l => (F l).isSome) (fun t => (e.files t).isSome)
    (fun t => by rw [w.files]) e.paths (dirs.flatMap (dirsOf e)) _ _ h1 h2 h3
  rw [places_spec w hl hn] at h
  cases hf : fileOf cwd scn exe F last e.paths dirs n with
  | none => rw [search, h.2 hf]
  | some l =>
    obtain ⟨h4, h5, -⟩ := h.1 l hf
    exact ⟨h4, by rw [w.files, search, h5]⟩

/-- **C170**: whatever has been registered and referred to before, a reference yields
exactly the first element of the name asked for in the file that the documented
search gives for the directories registered.  A name that is not there ends the
program; only the empty name yields nothing. -/
theorem reference_spec {e : Env} {cwd scn exe : Loc} {F : Loc → Option Content} (w : World e cwd scn exe F)
    (ops : List Op) (st : St) (hrun : run e ⟨[], []⟩ ops = some st) (hops : ∀ o ∈ ops, LiteralNames F o.rd)
    (last : Text → Text) (hl : ∀ d ∈ st.dirs, LastName d (last d))
    (rd : Text → Option Text) (hr : LiteralNames F rd) (cn en c n : Text)
    (hcn : rd cn = some c) (hen : rd en = some n) (hc : Plain c) :
    (∀ x, (∃ st', reference e rd st cn en = some (st', some x)) ↔
      ∃ l es y, fileOf cwd scn exe F last e.paths st.dirs c = some l ∧ F l = some (.catalog es) ∧
        FirstNamed es n y ∧ x = ⟨n, typeByName y.tag, y.body⟩) ∧
    ((∃ st', reference e rd st cn en = some (st', none)) ↔
      n = [] ∧ ∃ l es, fileOf cwd scn exe F last e.paths st.dirs c = some l ∧ F l = some (.catalog es) ∧
        ∀ y ∈ es, y.name ≠ []) := by
  have hi : Inv e st := run_inv w ops (by intro c hc; simp at hc) hops hrun
  have hs := search_file w hl hc
  have hrc := reference_cases w hr hi cn en c n hcn hen
  cases hk : reference e rd st cn en with
  | none =>
    rw [hk] at hrc
    have key : ∀ l es, fileOf cwd scn exe F last e.paths st.dirs c = some l → F l = some (.catalog es) →
        (es.map entryOf).find? (fun y => y.name == n) = none ∧ n ≠ [] := by
      intro l es h1 h2
      rw [h1] at hs
      rcases hrc with h | h
      · rw [hs.1] at h; cases h
      · exact h es (by rw [hs.2]; exact h2)
    constructor
    · intro x
      constructor
      · rintro ⟨st', h⟩; cases h
      · rintro ⟨l, es, y, h1, h2, h3, h4⟩
        have := find_first.2 ⟨y, h3, h4⟩
        rw [(key l es h1 h2).1] at this
        cases this
    · constructor
      · rintro ⟨st', h⟩; cases h
      · rintro ⟨h0, l, es, h1, h2, -⟩
        exact absurd h0 (key l es h1 h2).2
  | some r =>
    obtain ⟨st', o⟩ := r
    rw [hk] at hrc
    obtain ⟨-, -, h1, es, h2, h3, h4⟩ := hrc
    cases hf : fileOf cwd scn exe F last e.paths st.dirs c with
    | none => rw [hf] at hs; simp only at hs; rw [h1] at hs; cases hs
    | some l =>
      rw [hf] at hs
      have hF : F l = some (.catalog es) := by rw [← hs.2]; exact h2
      constructor
      · intro x
        constructor
        · rintro ⟨st'', h⟩
          cases h
          obtain ⟨y, hy, hx⟩ := find_first.1 h3.symm
          exact ⟨l, es, y, rfl, hF, hy, hx⟩
        · rintro ⟨l', es', y, h5, h6, h7, h8⟩
          cases h5
          rw [hF] at h6
          have : es = es' := by simpa using h6
          subst this
          exact ⟨st', by rw [h3, find_first.2 ⟨y, h7, h8⟩]⟩
      · constructor
        · rintro ⟨st'', h⟩
          cases h
          have h0 := h4 rfl
          exact ⟨h0, l, es, rfl, hF, h0 ▸ find_none.1 h3.symm⟩
        · rintro ⟨h0, l', es', h5, h6, h7⟩
          cases h5
          rw [hF] at h6
          have : es = es' := by simpa using h6
          subst this
          exact ⟨st', by rw [h3, find_none.2 (h0 ▸ h7)]⟩

/-! A world: the process in `/w`, the scenario `/w/s/m.xosc`, the program in `/w/bin`. -/

def path (l : List String) : Loc := l.map String.toList

/-- Two catalogs of the same name, one other. -/
def files : Loc → Option Content := fun l =>
  if l = path ["V.xosc", "a", "s", "w"] then
    some (.catalog [⟨"Vehicle".toList, "car".toList, 1⟩, ⟨"Vehicle".toList, "car".toList, 2⟩])
  else if l = path ["V.xosc", "b", "w"] then
    some (.catalog [⟨"Pedestrian".toList, "man".toList, 3⟩, ⟨"Vehicle".toList, "car".toList, 4⟩])
  else if l = path ["P.xosc", "b", "w"] then some (.catalog [⟨"Vehicle".toList, "$n".toList, 5⟩])
  else none

def world : Env :=
  ⟨fun t => files (resolve (path ["w"]) t), [], "s/m.xosc".toList, "bin/esmini".toList⟩

def lit : Text → Option Text := some

theorem world_ok : World world (path ["w"]) (path ["s", "w"]) (path ["bin", "w"]) files := by
  refine ⟨fun _ => rfl, ⟨"m.xosc".toList, ⟨by decide +kernel, Or.inr ⟨"s".toList, '/', by decide +kernel⟩⟩, ?_⟩,
    ⟨"esmini".toList, ⟨by decide +kernel, Or.inr ⟨"bin".toList, '/', by decide +kernel⟩⟩, ?_⟩⟩ <;> decide +kernel

/-- Directory `a` is found beside the scenario, and the first of two entries counts. -/
example : ∃ st, run world ⟨[], []⟩ [.register lit (.directory (some "a".toList)),
      .register lit (.directory (some "b".toList))] = some st ∧
    (∀ d ∈ st.dirs, LastName d d) ∧ Plain "V".toList ∧
    fileOf (path ["w"]) (path ["s", "w"]) (path ["bin", "w"]) files id [] st.dirs "V".toList
      = some (path ["V.xosc", "a", "s", "w"]) ∧
    (reference world lit st "V".toList "car".toList).map (·.2) = some (some ⟨"car".toList, .vehicle, 1⟩) ∧
    reference world lit st "V".toList "man".toList = none ∧
    (reference world lit st "V".toList []).map (·.2) = some none := by
  refine ⟨⟨["a".toList, "b".toList], []⟩, by decide +kernel, ?_, ⟨by decide +kernel, by decide +kernel⟩,
    by decide +kernel⟩
  intro d hd
  have : ∀ d ∈ (⟨["a".toList, "b".toList], []⟩ : St).dirs, ∀ c ∈ d, c ≠ '/' ∧ c ≠ '\\' := by decide +kernel
  exact .plain d (this d hd)

example : LiteralNames files lit := fun _ _ _ _ _ => rfl

/-- An element whose name is a parameter gets the value that the parameter has when
the catalog is used first; later references see the old name. -/
theorem parameter_name_fails : ∃ (rd rd' : Text → Option Text) (st : St),
    run world ⟨["b".toList], []⟩ [.reference rd "P".toList "one".toList] = some st ∧
    (reference world rd' ⟨["b".toList], []⟩ "P".toList "two".toList).map (·.2)
      = some (some ⟨"two".toList, .vehicle, 5⟩) ∧
    reference world rd' st "P".toList "two".toList = none := by
  refine ⟨fun t => if t = "$n".toList then some "one".toList else some t,
    fun t => if t = "$n".toList then some "two".toList else some t,
    ⟨["b".toList], [⟨"P".toList, [⟨"one".toList, .vehicle, 5⟩]⟩]⟩, ?_⟩
  decide +kernel

/-! ## Registration -/

theorem ext_xosc (d : Text) : fileNameExtOf d = ".xosc".toList ↔ NamesFile d := by
  have hd : ".xosc".toList = '.' :: "xosc".toList := by decide +kernel
  have hx : ∀ x ∈ "xosc".toList, isDot x = false := by decide +kernel
  constructor
  · intro h
    unfold fileNameExtOf at h
    cases hf : findLast isDot d with
    | none => rw [hf, hd] at h; cases h
    | some i =>
      rw [hf] at h
      exact ⟨d.take i, by rw [← h, List.take_append_drop]⟩
  · rintro ⟨p, rfl⟩
    have : findLast isDot (p ++ ".xosc".toList) = some p.length := by
      rw [hd]
      exact findLast_some.2 ⟨p, '.', _, rfl, rfl, rfl, hx⟩
    simp only [fileNameExtOf, this]
    exact List.drop_left

theorem load_dirs {e : Env} {rd : Text → Option Text} {st : St} {n : Text} {r : St × Cat}
    (h : load e rd st n = some r) : r.1.dirs = st.dirs := by
  cases hf : findCatalog st n with
  | some c =>
    unfold load at h; rw [hf] at h; cases h; rfl
  | none =>
    rw [load_search hf] at h
    split at h
    · split at h
      · obtain ⟨xs, -, rfl⟩ := Option.map_eq_some_iff.1 h
        rfl
      · cases h
    · cases h

theorem reference_dirs {e : Env} {rd : Text → Option Text} {st : St} {cn en : Text} {r : St × Option Entry}
    (h : reference e rd st cn en = some r) : r.1.dirs = st.dirs := by
  unfold reference at h
  cases hc : rd cn with
  | none => simp [hc] at h
  | some c =>
    cases he : rd en with
    | none => simp [hc, he] at h
    | some n =>
      cases hl : load e rd st c with
      | none => simp [hc, he, hl] at h
      | some q =>
        obtain ⟨st', k⟩ := q
        have hd := load_dirs hl
        simp only [hc, he, hl, Option.bind_eq_bind, Option.bind_some, Option.pure_def] at h
        split at h
        · split at h
          · cases h
          · cases h; exact hd
        · cases h; exact hd

theorem step_dirs {e : Env} {st st' : St} {o : Op} (h : step e st o = some st') :
    ∃ a, Registers o a ∧ st'.dirs = st.dirs ++ a := by
  cases o with
  | reference rd cn en =>
    obtain ⟨r, hr, rfl⟩ := Option.map_eq_some_iff.1 h
    exact ⟨[], .reference rd cn en, by rw [reference_dirs hr]; simp⟩
  | register rd l =>
    cases l with
    | noDirectory => cases h; exact ⟨[], .none rd, by simp⟩
    | directory p =>
      cases p with
      | none => cases h
      | some raw =>
        simp only [step, register] at h
        cases hd : rd raw with
        | none => rw [hd] at h; cases h
        | some d =>
          rw [hd] at h
          simp only [Option.bind_eq_bind, Option.bind_some, Option.pure_def] at h
          split at h
          · rename_i h0
            subst h0
            cases h; exact ⟨[], .empty rd raw hd, by simp⟩
          · rename_i h0
            split at h
            · rename_i h1
              cases hk : load e rd { st with dirs := st.dirs ++ [dirNameOf d] } (fileNameWithoutExtOf d) with
              | none => rw [hk] at h; cases h
              | some r =>
                rw [hk] at h
                cases h
                exact ⟨_, .file rd raw d hd ((ext_xosc d).1 h1), by rw [load_dirs hk]⟩
            · rename_i h1
              cases h
              exact ⟨_, .dir rd raw d hd h0 (fun h => h1 ((ext_xosc d).2 h)), rfl⟩

/-- **C170**: the directories searched are those registered, in the order of the
scenario file; references add none. -/
theorem registered {e : Env} : ∀ {ops : List Op} {st st' : St}, run e st ops = some st' →
    ∃ a, RegistersAll ops a ∧ st'.dirs = st.dirs ++ a
  | [], st, st', h => by cases h; exact ⟨[], .nil, by simp⟩
  | o :: os, st, st', h => by
    simp only [run] at h
    cases hs : step e st o with
    | none => rw [hs] at h; cases h
    | some s =>
      rw [hs] at h
      obtain ⟨a, ha, ea⟩ := step_dirs hs
      obtain ⟨b, hb, eb⟩ := registered h
      exact ⟨a ++ b, .cons o os a b ha hb, by rw [eb, ea, List.append_assoc]⟩

/-- **C170**: a catalog file named in the scenario is the one used from then on,
if no file of that name is in an earlier place. -/
theorem named_file_partial {e : Env} {cwd scn exe : Loc} {F : Loc → Option Content} (w : World e cwd scn exe F)
    (ops : List Op) (st : St) (hrun : run e ⟨[], []⟩ ops = some st) (hops : ∀ o ∈ ops, LiteralNames F o.rd)
    (last : Text → Text) (hl : ∀ d ∈ st.dirs, LastName d (last d))
    (rd : Text → Option Text) (hr : LiteralNames F rd) (raw p c : Text) (dir : Loc) (es : List Elem)
    (hraw : rd raw = some p) (hc : Plain c) (hp : IsName p (c ++ ".xosc".toList)) (hin : FileIn cwd p dir)
    (hlast : LastName (dirNameOf p) (last (dirNameOf p)))
    (hfile : F ((c ++ ".xosc".toList) :: dir) = some (.catalog es))
    (hfree : fileOf cwd scn exe F last e.paths st.dirs c = none) :
    ∃ st', step e st (.register rd (.directory (some raw))) = some st' ∧
      fileOf cwd scn exe F last e.paths st'.dirs c = some ((c ++ ".xosc".toList) :: dir) := by
  have hi : Inv e st := run_inv w ops (by intro c hc; simp at hc) hops hrun
  have hdir := fileIn_dir hin
  have hnf : NamesFile p := by
    rcases hp.2 with h | ⟨d, x, h, -⟩
    · exact ⟨c, h⟩
    · exact ⟨d ++ x :: c, by rw [h]; simp⟩
  have hp0 : p ≠ [] := by rintro rfl; obtain ⟨q, hq⟩ := hnf; simp at hq
  have hstem : fileNameWithoutExtOf p = c := by
    have hd : ".xosc".toList = '.' :: "xosc".toList := by decide +kernel
    exact (stem_spec p _ hp).1 c "xosc".toList (by rw [hd]) (by decide +kernel)
  have hfo : fileOf cwd scn exe F last e.paths (st.dirs ++ [dirNameOf p]) c
      = some ((c ++ ".xosc".toList) :: dir) := by
    have hex : (F ((c ++ ".xosc".toList) :: resolve cwd (dirNameOf p))).isSome = true := by
      rw [hdir.1, hfile]; rfl
    unfold fileOf at hfree ⊢
    rw [List.flatMap_append, ← List.append_assoc, ← List.cons_append, List.map_append, List.find?_append, hfree,
      Option.none_or]
    simp only [List.flatMap_cons, List.flatMap_nil, List.append_nil, bases, List.map_cons, List.find?_cons]
    rw [hex, hdir.1]
  have hs := search_file w (dirs := st.dirs ++ [dirNameOf p]) (last := last) (by
    intro d hd
    rcases List.mem_append.1 hd with h | h
    · exact hl d h
    · rw [List.mem_singleton.1 h]; exact hlast) hc
  rw [hfo] at hs
  have hlc := load_cases w hr (inv_more hi [dirNameOf p]) c
  simp only at hs hlc
  cases hk : load e rd { st with dirs := st.dirs ++ [dirNameOf p] } c with
  | none =>
    rw [hk] at hlc
    rcases hlc with h | h
    · rw [hs.1] at h; cases h
    · exact absurd (hs.2.trans hfile) (h es)
  | some r =>
    refine ⟨r.1, ?_, by rw [load_dirs hk]; exact hfo⟩
    simp only [step, register, hraw, Option.bind_eq_bind, Option.bind_some, Option.pure_def]
    rw [if_neg hp0, if_pos ((ext_xosc p).2 hnf), hstem, hk]
    rfl

example : fileOf (path ["w"]) (path ["s", "w"]) (path ["bin", "w"]) files id [] [] "V".toList = none ∧
    files ("V.xosc".toList :: path ["b", "w"]) ≠ none ∧
    resolve (path ["w"]) "b/V.xosc".toList = "V.xosc".toList :: path ["b", "w"] := by decide +kernel

/-- A catalog file named in the scenario is not used if a directory registered
earlier holds a file of that name; nor is the second of two files of one name. -/
theorem named_file_fails : ∃ (ops ops' : List Op) (st st' : St),
    ops = [.register lit (.directory (some "a".toList)), .register lit (.directory (some "b/V.xosc".toList))] ∧
    ops' = [.register lit (.directory (some "s/a/V.xosc".toList)),
      .register lit (.directory (some "b/V.xosc".toList))] ∧
    run world ⟨[], []⟩ ops = some st ∧ run world ⟨[], []⟩ ops' = some st' ∧
    (reference world lit st "V".toList "car".toList).map (·.2) = some (some ⟨"car".toList, .vehicle, 1⟩) ∧
    (reference world lit st' "V".toList "car".toList).map (·.2) = some (some ⟨"car".toList, .vehicle, 1⟩) ∧
    files ("V.xosc".toList :: path ["b", "w"]) =
      some (.catalog [⟨"Pedestrian".toList, "man".toList, 3⟩, ⟨"Vehicle".toList, "car".toList, 4⟩]) := by
  refine ⟨_, _, ⟨["a".toList, "b".toList], [⟨"V".toList, [⟨"car".toList, .vehicle, 1⟩, ⟨"car".toList, .vehicle, 2⟩]⟩]⟩,
    ⟨["s/a".toList, "b".toList], [⟨"V".toList, [⟨"car".toList, .vehicle, 1⟩, ⟨"car".toList, .vehicle, 2⟩]⟩]⟩,
    rfl, rfl, ?_⟩
  decide +kernel

/-! ## Use -/

/-- **C170**: an entity is of the kind that the element of the catalog has, and made of
that element; elements of other kinds are refused. -/
theorem entity_kind (y : Elem) (r : Option Obj) (h : Becomes y r) :
    objectOf (some ⟨y.name, typeByName y.tag, y.body⟩) = r := by
  cases h with
  | vehicle n b => rfl
  | pedestrian n b => rfl
  | miscObject n b => rfl
  | other t n b h1 h2 h3 =>
    have key : typeByName t ≠ .vehicle ∧ typeByName t ≠ .pedestrian ∧ typeByName t ≠ .miscObject := by
      unfold typeByName
      rw [if_neg h1, if_neg h2, if_neg h3]
      refine ⟨?_, ?_, ?_⟩ <;> (repeat' split) <;> intro h <;> cases h
    unfold objectOf
    generalize typeByName t = k at key
    cases k <;> simp_all

example : Becomes ⟨"Pedestrian".toList, "man".toList, 3⟩ (some (.pedestrian 3)) ∧
    Becomes ⟨"Route".toList, "r".toList, 3⟩ none :=
  ⟨.pedestrian _ _, .other _ _ _ (by decide +kernel) (by decide +kernel) (by decide +kernel)⟩

/-- **C170**: an entity gets the controllers of its elements `ObjectController`, one for each
and in their order, if each of them yields one from the first on. -/
theorem controllers_partial : ∀ (ns : List CtrlNode) (bs : List Nat) (o : Option Nat), StandAll ns bs →
    (∀ n ∈ ns, ¬ Stands n []) → assign o ns = bs
  | [], _, _, h, _ => by cases h; rfl
  | n :: ns, _, o, h, hn => by
    cases h with
    | cons _ _ a b ha hb =>
      have ih := fun o => controllers_partial ns b o hb (fun x hx => hn x (by simp [hx]))
      have h0 := hn n (by simp)
      cases ha with
      | inline b => simp [assign, ctrlOf, ih]
      | found m b => simp [assign, ctrlOf, ih]
      | missing => exact absurd .missing h0
      | wrong m t b ht => exact absurd (.wrong m t b ht) h0

example : StandAll [.inline 1, .ref (some ⟨[], .controller, 2⟩)] [1, 2] :=
  .cons _ _ [1] [2] (.inline 1) (.cons _ _ [2] [] (.found _ 2) .nil)

/-- **C170**: the same with elements before which yield no controller. -/
theorem controllers_before_partial : ∀ (ps ns : List CtrlNode) (bs : List Nat), (∀ n ∈ ps, Stands n []) → StandAll ns bs →
    (∀ n ∈ ns, ¬ Stands n []) → assign none (ps ++ ns) = bs
  | [], ns, bs, _, h, hn => controllers_partial ns bs none h hn
  | p :: ps, ns, bs, hp, h, hn => by
    have ih := controllers_before_partial ps ns bs (fun n m => hp n (by simp [m])) h hn
    have e : ctrlOf none p = none := by
      have h1 := hp p (by simp)
      cases h1 with
      | missing => rfl
      | wrong m t b ht => simp [ctrlOf, ht]
    simpa [assign, e] using ih

/-- **C170**: only controllers of the elements are assigned. -/
theorem controllers_only : ∀ (ns : List CtrlNode) (bs : List Nat) (o : Option Nat), StandAll ns bs →
    ∀ b ∈ assign o ns, b ∈ bs ∨ o = some b
  | [], _, _, _ => by simp [assign]
  | n :: ns, _, o, h => by
    cases h with
    | cons _ _ a b ha hb =>
      intro x hx
      have ih := fun o => controllers_only ns b o hb x
      simp only [assign, List.mem_append, Option.mem_toList, Option.mem_def] at hx
      have key : ctrlOf o n = some x → x ∈ a ++ b ∨ o = some x := by
        intro hc
        cases ha with
        | inline c => simp [ctrlOf] at hc; simp [hc]
        | found m c => simp [ctrlOf] at hc; simp [hc]
        | missing => exact Or.inr (by simpa [ctrlOf] using hc)
        | wrong m t c ht => exact Or.inr (by simpa [ctrlOf, ht] using hc)
      rcases hx with hx | hx
      · exact key hx
      · rcases ih _ hx with h1 | h1
        · exact Or.inl (by simp [h1])
        · exact key h1

/-- After an `ObjectController` whose reference yields none the controller before it is
assigned a second time. -/
theorem controllers_fails : ∃ ns bs, StandAll ns bs ∧ bs.Nodup ∧ assign none ns ≠ bs ∧ ¬ (assign none ns).Nodup := by
  refine ⟨[.inline 1, .ref none], [1], .cons _ _ [1] [] (.inline 1) (.cons _ _ [] [] .missing .nil), ?_⟩
  decide +kernel

end Verif.Catalog

import Verif.Params.Theorems

/-
C49: references inside text. C50: values set by the declaration callback.
-/
namespace Verif.Params

/-! ### C49 -/

/-- Specification: the characters that end a name. -/
def nameEnds : List Char :=
  [' ', '(', '{', ')', '}', '-', '+', '*', '/', '%', '^', '!', '|', '&', '<', '>', '=', ',']

theorem isEnd_iff (c : Char) : isEnd c = true ↔ c ∈ nameEnds := by
  have : isEnd c = nameEnds.contains c := rfl
  rw [this, List.contains_iff_mem]

theorem isEnd_false_iff (c : Char) : isEnd c = false ↔ c ∉ nameEnds := by
  rw [Bool.eq_false_iff, Ne, isEnd_iff]

/-- Specification: every reference (a `$` and the characters up to one that ends a name) is replaced by its value, all
other characters are kept. -/
inductive Expands (look : Text → Option Text) : Text → Text → Prop
  | plain (s : Text) : '$' ∉ s → Expands look s s
  | ref (a n rest v t : Text) : '$' ∉ a → (∀ c ∈ n, c ∉ nameEnds) →
      (rest = [] ∨ ∃ c r, rest = c :: r ∧ c ∈ nameEnds) → look ('$' :: n) = some v → Expands look rest t →
      Expands look (a ++ '$' :: n ++ rest) (a ++ v ++ t)

theorem takeWhile_pre {a b : Text} (h : '$' ∉ a) : (a ++ '$' :: b).takeWhile (· != '$') = a := by
  induction a with
  | nil => simp
  | cons c a ih =>
    have hc : c ≠ '$' := fun e => h (by simp [e])
    simp [List.takeWhile_cons, hc, ih (fun hm => h (by simp [hm]))]

theorem dropWhile_pre {a b : Text} (h : '$' ∉ a) : (a ++ '$' :: b).dropWhile (· != '$') = '$' :: b := by
  induction a with
  | nil => simp
  | cons c a ih =>
    have hc : c ≠ '$' := fun e => h (by simp [e])
    simp [List.dropWhile_cons, hc, ih (fun hm => h (by simp [hm]))]

theorem dropWhile_none {a : Text} (h : '$' ∉ a) : a.dropWhile (· != '$') = [] := by
  induction a with
  | nil => rfl
  | cons c a ih =>
    have hc : c ≠ '$' := fun e => h (by simp [e])
    simp [List.dropWhile_cons, hc, ih (fun hm => h (by simp [hm]))]

theorem name_split {n rest : Text} (hn : ∀ c ∈ n, c ∉ nameEnds) (hr : rest = [] ∨ ∃ c r, rest = c :: r ∧ c ∈ nameEnds) :
    (n ++ rest).takeWhile (fun c => !isEnd c) = n ∧ (n ++ rest).dropWhile (fun c => !isEnd c) = rest := by
  induction n with
  | nil =>
    rcases hr with rfl | ⟨c, r, rfl, hc⟩
    · exact ⟨rfl, rfl⟩
    · simp [(isEnd_iff c).2 hc]
  | cons c n ih =>
    have hc := (isEnd_false_iff c).2 (hn c (by simp))
    have := ih (fun d hd => hn d (by simp [hd]))
    simp [hc, this]

theorem round_ref (look : Text → Option Text) {a n rest v : Text} (ha : '$' ∉ a) (hn : ∀ c ∈ n, c ∉ nameEnds)
    (hr : rest = [] ∨ ∃ c r, rest = c :: r ∧ c ∈ nameEnds) (hl : look ('$' :: n) = some v) :
    resolveRound look (a ++ '$' :: n ++ rest) = some (some (a ++ v ++ rest)) := by
  unfold resolveRound
  rw [List.append_assoc, List.cons_append, dropWhile_pre ha]
  simp only [(name_split hn hr).1, (name_split hn hr).2, hl, takeWhile_pre ha]

/-- **C49**: if no value contains a reference itself, the result is the text with every reference replaced. -/
theorem resolve_expands (look : Text → Option Text) (hv : ∀ n v, look n = some v → '$' ∉ v) {s t : Text}
    (h : Expands look s t) : ∃ fuel, resolve look fuel s = some (some t) := by
  suffices ∀ pre : Text, '$' ∉ pre → ∃ fuel, resolve look fuel (pre ++ s) = some (some (pre ++ t)) by
    simpa using this [] (by simp)
  induction h with
  | plain s hs =>
    intro pre hp
    refine ⟨1, ?_⟩
    have : '$' ∉ pre ++ s := by simp [hp, hs]
    simp [resolve, resolveRound, dropWhile_none this]
  | ref a n rest v t ha hn hr hl _ ih =>
    intro pre hp
    have hpa : '$' ∉ pre ++ a := by simp [hp, ha]
    obtain ⟨fuel, hf⟩ := ih (pre ++ a ++ v) (by simp [hp, ha, hv _ _ hl])
    refine ⟨fuel + 1, ?_⟩
    have e : pre ++ (a ++ '$' :: n ++ rest) = (pre ++ a) ++ '$' :: n ++ rest := by simp
    rw [resolve, e, round_ref look hpa hn hr hl]
    simp only
    rw [hf]
    simp

/-- **C49**: the result contains no reference any more. -/
theorem expands_no_ref (look : Text → Option Text) (hv : ∀ n v, look n = some v → '$' ∉ v) {s t : Text}
    (h : Expands look s t) : '$' ∉ t := by
  induction h with
  | plain s hs => exact hs
  | ref a n rest v t ha _ _ hl _ ih => simp [ha, hv _ _ hl, ih]

theorem dollar_split (s : Text) (h : '$' ∈ s) : ∃ a n rest, s = a ++ '$' :: n ++ rest ∧ '$' ∉ a ∧
    (∀ c ∈ n, c ∉ nameEnds) ∧ (rest = [] ∨ ∃ c r, rest = c :: r ∧ c ∈ nameEnds) := by
  have first : ∃ a b, s = a ++ '$' :: b ∧ '$' ∉ a := by
    induction s with
    | nil => simp at h
    | cons c s ih =>
      by_cases hc : c = '$'
      · subst hc; exact ⟨[], s, rfl, by simp⟩
      · have : '$' ∈ s := by
          rcases List.mem_cons.1 h with h | h
          · exact absurd h.symm hc
          · exact h
        obtain ⟨a, b, e, ha⟩ := ih this
        exact ⟨c :: a, b, by rw [e]; rfl, by simp [ha]; exact fun e => hc e.symm⟩
  obtain ⟨a, b, e, ha⟩ := first
  have second : ∃ n rest, b = n ++ rest ∧ (∀ c ∈ n, c ∉ nameEnds) ∧
      (rest = [] ∨ ∃ c r, rest = c :: r ∧ c ∈ nameEnds) := by
    clear e
    induction b with
    | nil => exact ⟨[], [], rfl, by simp, Or.inl rfl⟩
    | cons c b ih =>
      by_cases hc : c ∈ nameEnds
      · exact ⟨[], c :: b, rfl, by simp, Or.inr ⟨c, b, rfl, hc⟩⟩
      · obtain ⟨n, rest, e, h1, h2⟩ := ih
        refine ⟨c :: n, rest, by rw [e]; rfl, ?_, h2⟩
        intro d hd
        rcases List.mem_cons.1 hd with rfl | hd
        · exact hc
        · exact h1 d hd
  obtain ⟨n, rest, e2, h1, h2⟩ := second
  exact ⟨a, n, rest, by rw [e, e2]; simp, ha, h1, h2⟩

/-- **C49**: if no value contains a reference itself, resolving always finishes: with a result, or by quitting because of
an unknown parameter. -/
theorem resolve_terminates (look : Text → Option Text) (hv : ∀ n v, look n = some v → '$' ∉ v) (s : Text) :
    (∃ t, Expands look s t) ∨ ∃ fuel, resolve look fuel s = some none := by
  suffices ∀ (k : Nat) (s : Text), s.length ≤ k → (∃ t, Expands look s t) ∨
      ∀ pre : Text, '$' ∉ pre → ∃ fuel, resolve look fuel (pre ++ s) = some none by
    rcases this s.length s (Nat.le_refl _) with h | h
    · exact Or.inl h
    · exact Or.inr (by simpa using h [] (by simp))
  intro k
  induction k with
  | zero =>
    intro s hs
    have : s = [] := List.length_eq_zero_iff.1 (by omega)
    subst this
    exact Or.inl ⟨[], .plain _ (by simp)⟩
  | succ k ih =>
    intro s hs
    by_cases h : '$' ∈ s
    · obtain ⟨a, n, rest, rfl, ha, hn, hr⟩ := dollar_split s h
      cases hl : look ('$' :: n) with
      | none =>
        refine Or.inr (fun pre hp => ⟨1, ?_⟩)
        have hpa : '$' ∉ pre ++ a := by simp [hp, ha]
        have e : pre ++ (a ++ '$' :: n ++ rest) = (pre ++ a) ++ '$' :: (n ++ rest) := by simp
        have hq : resolveRound look ((pre ++ a) ++ '$' :: (n ++ rest)) = none := by
          unfold resolveRound
          rw [dropWhile_pre hpa]
          simp only [(name_split hn hr).1, hl]
        rw [resolve, e, hq]
      | some v =>
        rcases ih rest (by simp at hs; omega) with ⟨t, ht⟩ | hq
        · exact Or.inl ⟨_, .ref a n rest v t ha hn hr hl ht⟩
        · refine Or.inr (fun pre hp => ?_)
          have hpa : '$' ∉ pre ++ a := by simp [hp, ha]
          obtain ⟨fuel, hf⟩ := hq (pre ++ a ++ v) (by simp [hp, ha, hv _ _ hl])
          refine ⟨fuel + 1, ?_⟩
          have e : pre ++ (a ++ '$' :: n ++ rest) = (pre ++ a) ++ '$' :: n ++ rest := by simp
          rw [resolve, e, round_ref look hpa hn hr hl]
          exact hf
    · exact Or.inl ⟨s, .plain s h⟩

/-- More rounds do not change a finished result. -/
theorem resolve_mono (look : Text → Option Text) (r : Option Text) : ∀ (fuel : Nat) (s : Text),
    resolve look fuel s = some r → resolve look (fuel + 1) s = some r
  | 0, s, h => by simp [resolve] at h
  | fuel + 1, s, h => by
    rw [resolve] at h ⊢
    split at h
    · exact h
    · exact h
    · next s' hs => exact resolve_mono look r fuel s' h

/-- **C49 fails**: a parameter whose value mentions itself (`value="a$p"` is accepted by the reader) is never resolved: the
text grows for ever. -/
theorem resolve_hangs_fails : ∃ (p q : Params) (x : XDecl), declare cv0 p x = some q ∧ p = empty ∧
    ∀ fuel, resolve (getParameter q.decls) fuel "$p".toList = none := by
  refine ⟨empty, { empty with decls := [newDecl cv0 "p".toList "a$p".toList .string] }, ⟨"p".toList, "a$p".toList,
    some .string⟩, by decide, rfl, ?_⟩
  suffices ∀ (fuel : Nat) (k : Nat), resolve (getParameter [newDecl cv0 "p".toList "a$p".toList .string]) fuel
      (List.replicate k 'a' ++ "$p".toList) = none by
    intro fuel; exact this fuel 0
  intro fuel
  induction fuel with
  | zero => intro k; rfl
  | succ fuel ih =>
    intro k
    have hk : '$' ∉ List.replicate k 'a' := by
      intro h; have := List.eq_of_mem_replicate h; revert this; decide
    have e : List.replicate k 'a' ++ "$p".toList = List.replicate k 'a' ++ '$' :: "p".toList ++ [] := by
      rw [List.append_nil]; rfl
    rw [resolve, e, round_ref _ (v := "a$p".toList) hk (by decide) (Or.inl rfl) (by decide)]
    have e2 : List.replicate k 'a' ++ "a$p".toList ++ [] = List.replicate (k + 1) 'a' ++ "$p".toList := by
      rw [List.append_nil, List.replicate_succ', List.append_assoc]; rfl
    simp only
    rw [e2]
    exact ih (k + 1)

example : resolve (getParameter globals.decls) 5 "2 * $speed + $speed".toList = some (some "2 * 10 + 10".toList) := by decide
example : ∀ n v, getParameter globals.decls n = some v → '$' ∉ v := by
  intro n v h
  unfold getParameter getParameterEntry at h
  obtain ⟨d, h1, rfl⟩ := Option.map_eq_some_iff.1 h
  have := List.mem_of_find?_eq_some h1
  simp [globals] at this
  subst this
  decide

/-! ### C50: the declaration callback

`ScenarioEngine::parseScenario`, ScenarioEngine.cpp:462-473: the global declarations are read, a callback may set values,
the declarations not set by it are erased, and all declarations are read again. -/

/-- A call of the callback: one of the setters. -/
inductive Setter where
  | int (v : Int)
  | double (v : Rat)
  | str (v : Text)
  | bool (v : Bool)
  | text (v : Text)

def Setter.apply (cv : Conv) (p : Params) (n : Text) : Setter → Params
  | .int v => (setInt cv p n v).1
  | .double v => (setDouble cv p n v).1
  | .str v => (setStr p n v).1
  | .bool v => (setBool p n v).1
  | .text v => (setByString cv p n v).1

/-- Specification: the text that stands for the value, if the call suits the type of the parameter. -/
def Setter.valueFor (cv : Conv) : PType → Setter → Option Text
  | .integer, .int v => some (cv.fmtInt v)
  | .double, .double v => some (cv.fmtDouble v)
  | .string, .str v => some v
  | .bool, .bool v => some (if v then "true".toList else "false".toList)
  | _, .text v => some v
  | _, _ => none

/-- The calls made by the callback. -/
def applySets (cv : Conv) (p : Params) (sets : List (Text × Setter)) : Params :=
  sets.foldl (fun p s => s.2.apply cv p s.1) p

/-- ScenarioEngine.cpp:462-473. -/
def parseGlobals (cv : Conv) (xs : List XDecl) (sets : List (Text × Setter)) : Option Params :=
  (declareAll cv empty xs).bind (fun p => declareAll cv (eraseClean (applySets cv p sets)) xs)

/-- Specification: the values of the declarations read in order. A set value replaces the declared one; a reference stands
for the value of the parameter named. -/
def values (ov : XDecl → Option Text) : List XDecl → (Text → Option Text) → (Text → Option Text)
  | [], env => env
  | x :: r, env => values ov r (fun n => if n = x.name then
      (match ov x with
        | some v => some v
        | none => match x.value with
          | '$' :: c :: m => env (c :: m)
          | raw => some raw)
      else env n)

/-- The value set last for a name, by calls that suit the type. -/
def lastSet (cv : Conv) (t : PType) (n : Text) : List (Text × Setter) → Option Text
  | [] => none
  | s :: r => (lastSet cv t n r).or (if s.1 = n then s.2.valueFor cv t else none)

/-- The value set last for a declaration. -/
def lastSetFor (cv : Conv) (sets : List (Text × Setter)) (x : XDecl) : Option Text :=
  x.type.bind (fun t => lastSet cv t x.name sets)

/-- A name without prefix. -/
def Plain (n : Text) : Prop := n.head? ≠ some '$'

theorem refers_plain {n m : Text} (hn : Plain n) : refers n m ↔ n = m := by
  unfold refers
  constructor
  · rintro (h | h)
    · exact h
    · exact absurd (by rw [h]; rfl) hn
  · exact Or.inl

theorem refers_dollar {n m : Text} (hm : Plain m) : refers ('$' :: n) m ↔ n = m := by
  unfold refers
  constructor
  · rintro (h | h)
    · exact absurd (by rw [← h]; rfl) hm
    · exact (List.cons.inj h).2
  · rintro rfl; exact Or.inr rfl

theorem find_dollar (ds : List Decl) (h : ∀ d ∈ ds, Plain d.name) (n : Text) (hn : Plain n) :
    getParameterEntry ds ('$' :: n) = getParameterEntry ds n := by
  unfold getParameterEntry
  induction ds with
  | nil => rfl
  | cons d ds ih =>
    have e : matchesName ('$' :: n) d = matchesName n d := by
      rw [Bool.eq_iff_iff, matchesName_iff, matchesName_iff, refers_dollar (h d (by simp)), refers_plain hn]
    rw [List.find?_cons, List.find?_cons, e, ih (fun d hd => h d (by simp [hd]))]

/-- The value is not a `${...}` expression. -/
def NotExpr (x : XDecl) : Prop := ∀ r, x.value = '$' :: '{' :: r → r = []

/-- References name parameters declared before; types are known. -/
def WellRef : List Text → List XDecl → Prop
  | _, [] => True
  | known, x :: r => x.type.isSome ∧ (∀ c m, x.value = '$' :: c :: m → (c :: m) ∈ known) ∧ WellRef (x.name :: known) r

theorem readAttribute_ref (cv : Conv) (ds : List Decl) (x : XDecl) (hx : NotExpr x) (c : Char) (m : Text)
    (h : x.value = '$' :: c :: m) : readAttribute cv ds x.value = getParameter ds ('$' :: c :: m) := by
  rw [h]
  unfold readAttribute
  simp only
  split
  · next hc => exact absurd (hx m (by rw [h, hc.1])) hc.2
  · rfl

theorem readAttribute_raw (cv : Conv) (ds : List Decl) (v : Text) (h : ∀ c m, v ≠ '$' :: c :: m) :
    readAttribute cv ds v = some v := by
  unfold readAttribute
  split
  · next c m => exact absurd rfl (h c m)
  · rfl

theorem declare_cases (cv : Conv) (p q : Params) (x : XDecl) (h : declare cv p x = some q) (ha : p.assignments = []) :
    ∃ v t, readAttribute cv p.decls x.value = some v ∧ x.type = some t ∧
      ((q = p ∧ ∃ d, p.decls.find? (fun d => d.name == x.name) = some d ∧ d.dirty = true) ∨
        q = { p with decls := newDecl cv x.name v t :: p.decls }) := by
  unfold declare at h
  split at h
  · next v t hv ht =>
    refine ⟨v, t, hv, ht, ?_⟩
    have hav : assignedValue p.assignments x.name v = v := by rw [ha]; rfl
    rw [hav] at h
    split at h
    · next d hd =>
      split at h
      · next hdirty => injection h with h; exact Or.inl ⟨h.symm, d, hd, hdirty⟩
      · injection h with h; exact Or.inr h.symm
    · injection h with h; exact Or.inr h.symm
  · cases h

theorem first_pass (cv : Conv) (xs : List XDecl) : ∀ (p q : Params) (known : List Text), declareAll cv p xs = some q →
    p.assignments = [] → (∀ d ∈ p.decls, Plain d.name ∧ d.dirty = false) → p.decls.map (·.name) = known →
    (∀ x ∈ xs, Plain x.name ∧ NotExpr x) →
    WellRef known xs ∧ q.decls.map (·.name) = (xs.map (·.name)).reverse ++ known ∧
    (∀ d ∈ q.decls, Plain d.name ∧ d.dirty = false) ∧ q.assignments = [] := by
  induction xs with
  | nil =>
    intro p q known h ha hd hk _
    simp only [declareAll, Option.some.injEq] at h
    subst h
    exact ⟨trivial, by simpa using hk, hd, ha⟩
  | cons x xs ih =>
    intro p q known h ha hd hk hx
    simp only [declareAll, Option.bind_eq_some_iff] at h
    obtain ⟨p1, h1, h2⟩ := h
    obtain ⟨v, t, hv, ht, hc⟩ := declare_cases cv p p1 x h1 ha
    have hp1 : p1 = { p with decls := newDecl cv x.name v t :: p.decls } := by
      rcases hc with ⟨_, d, h3, h4⟩ | h
      · have := (hd d (List.mem_of_find?_eq_some h3)).2
        rw [this] at h4; cases h4
      · exact h
    subst hp1
    obtain ⟨r1, r2, r3, r4⟩ := ih _ q (x.name :: known) h2 ha (by
        intro d hm
        rcases List.mem_cons.1 hm with rfl | hm
        · exact ⟨(hx x (by simp)).1, rfl⟩
        · exact hd d hm) (by simp [hk, newDecl]) (fun y hy => hx y (by simp [hy]))
    refine ⟨⟨by rw [ht]; rfl, ?_, r1⟩, by rw [r2]; simp, r3, r4⟩
    intro c m e
    rw [readAttribute_ref cv _ x (hx x (by simp)).2 c m e] at hv
    unfold getParameter at hv
    obtain ⟨d, hd1, _⟩ := Option.map_eq_some_iff.1 hv
    have hmem := List.mem_of_find?_eq_some hd1
    have hm := (matchesName_iff _ _).1 (List.find?_some hd1)
    rw [refers_dollar (hd d hmem).1] at hm
    rw [hm, ← hk]
    exact List.mem_map.2 ⟨d, hmem, rfl⟩

theorem survives_names {s : List Text} {l m : List Decl} (h : Survives s l m) : m.map (·.name) = l.map (·.name) := by
  induction l generalizing m with
  | nil => have : m = [] := List.length_eq_zero_iff.1 h.1.symm
           rw [this]
  | cons a l ih =>
    cases m with
    | nil => have := h.1; simp at this
    | cons b m =>
      have h0 := (h.2 0 a b rfl rfl).1
      rw [List.map_cons, List.map_cons, ih (m := m) (h.drop 1), h0]

theorem setter_survives (cv : Conv) (p : Params) (n : Text) (s : Setter) :
    Survives [n] p.decls (s.apply cv p n).decls ∧ (s.apply cv p n).assignments = p.assignments := by
  have typed : ∀ t f, (∀ d : Decl, (f d).name = d.name ∧ (f d).type = d.type) →
      Survives [n] p.decls (setTyped t f p n).1.decls ∧ (setTyped t f p n).1.assignments = p.assignments := by
    intro t f hf
    unfold setTyped
    split
    · exact ⟨Survives.refl _ _, rfl⟩
    · split
      · exact ⟨Survives.refl _ _, rfl⟩
      · exact ⟨modifyFirst_survives n f hf _, rfl⟩
  cases s with
  | int v => exact typed _ _ (fun d => ⟨rfl, rfl⟩)
  | double v => exact typed _ _ (fun d => ⟨rfl, rfl⟩)
  | str v => exact typed _ _ (fun d => ⟨rfl, rfl⟩)
  | bool v => exact typed _ _ (fun d => ⟨rfl, rfl⟩)
  | text v =>
    show Survives [n] p.decls (setByString cv p n v).1.decls ∧ _
    unfold Setter.apply setByString
    split
    · exact ⟨Survives.refl _ _, rfl⟩
    · exact ⟨modifyFirst_survives n (withString cv v) (fun _ => ⟨rfl, rfl⟩) _, rfl⟩

theorem setter_entry (cv : Conv) (p : Params) (n : Text) (s : Setter) (d : Decl) (h : getParameterEntry p.decls n = some d) :
    ∃ d', getParameterEntry (s.apply cv p n).decls n = some d' ∧ d'.type = d.type ∧
      (match s.valueFor cv d.type with
        | some v => d'.dirty = true ∧ d'.str = v
        | none => d' = d) := by
  have typed : ∀ t f, (∀ d : Decl, (f d).name = d.name) →
      getParameterEntry (setTyped t f p n).1.decls n = some (if d.type = t then f d else d) := by
    intro t f hf
    unfold setTyped
    rw [h]
    by_cases ht : d.type = t
    · simp only [ht, ne_eq, not_true_eq_false, if_false, if_true]
      rw [find_modifyFirst n f hf, h]; rfl
    · simp only [ht, ne_eq, not_false_eq_true, if_true, if_false]
      exact h
  cases s with
  | int v =>
    refine ⟨_, typed _ _ (fun _ => rfl), ?_⟩
    cases ht : d.type <;> simp [Setter.valueFor, ht]
  | double v =>
    refine ⟨_, typed _ _ (fun _ => rfl), ?_⟩
    cases ht : d.type <;> simp [Setter.valueFor, ht]
  | str v =>
    refine ⟨_, typed _ _ (fun _ => rfl), ?_⟩
    cases ht : d.type <;> simp [Setter.valueFor, ht]
  | bool v =>
    refine ⟨_, typed _ _ (fun _ => rfl), ?_⟩
    cases ht : d.type <;> simp [Setter.valueFor, ht]
  | text v =>
    refine ⟨withString cv v d, ?_, rfl, ?_⟩
    · show getParameterEntry (setByString cv p n v).1.decls n = _
      unfold setByString
      rw [h]
      simp only
      rw [find_modifyFirst n (withString cv v) (fun _ => rfl), h]; rfl
    · cases ht : d.type <;> simp [Setter.valueFor, withString]

theorem applySets_names (cv : Conv) (sets : List (Text × Setter)) : ∀ p : Params,
    (applySets cv p sets).decls.map (·.name) = p.decls.map (·.name) ∧ (applySets cv p sets).assignments = p.assignments := by
  induction sets with
  | nil => intro p; exact ⟨rfl, rfl⟩
  | cons s r ih =>
    intro p
    have := ih (s.2.apply cv p s.1)
    have h2 := setter_survives cv p s.1 s.2
    exact ⟨this.1.trans (survives_names h2.1), this.2.trans h2.2⟩

theorem not_related_plain {n m : Text} (hn : Plain n) (hm : Plain m) (h : n ≠ m) : ¬ related n m := by
  rintro (e | e | e)
  · exact h e
  · exact hn (by rw [e]; rfl)
  · exact hm (by rw [e]; rfl)

theorem applySets_entry (cv : Conv) (sets : List (Text × Setter)) (hs : ∀ s ∈ sets, Plain s.1) (n : Text) (hn : Plain n) :
    ∀ (p : Params) (d : Decl), getParameterEntry p.decls n = some d →
      ∃ d', getParameterEntry (applySets cv p sets).decls n = some d' ∧
        (match lastSet cv d.type n sets with
          | some v => d'.dirty = true ∧ d'.str = v
          | none => d' = d) := by
  induction sets with
  | nil => intro p d h; exact ⟨d, h, rfl⟩
  | cons s r ih =>
    intro p d h
    have e : applySets cv p (s :: r) = applySets cv (s.2.apply cv p s.1) r := rfl
    rw [e, lastSet]
    by_cases hsn : s.1 = n
    · rw [if_pos hsn, hsn]
      obtain ⟨d1, h1, h2, h3⟩ := setter_entry cv p n s.2 d h
      obtain ⟨d', h4, h5⟩ := ih (fun s hs' => hs s (by simp [hs'])) _ d1 h1
      rw [h2] at h5
      refine ⟨d', h4, ?_⟩
      cases hl : lastSet cv d.type n r with
      | some v => rw [hl] at h5; exact h5
      | none =>
        rw [hl] at h5
        simp only at h5
        subst h5
        exact h3
    · rw [if_neg hsn, Option.or_none]
      have hf : getParameterEntry (s.2.apply cv p s.1).decls n = getParameterEntry p.decls n :=
        survives_find (setter_survives cv p s.1 s.2).1 n (fun _ _ h1 k hk h2 => by
          simp at hk; subst hk
          exact not_related_plain (hs s (by simp)) hn hsn (related_of_refers h2 h1))
      exact ih (fun s hs' => hs s (by simp [hs'])) _ d (hf.trans h)

theorem find_filter (n : Text) (hn : Plain n) (ds : List Decl) (hnd : (ds.map (·.name)).Nodup) :
    getParameterEntry (ds.filter (·.dirty)) n = (getParameterEntry ds n).filter (·.dirty) := by
  unfold getParameterEntry
  induction ds with
  | nil => rfl
  | cons d ds ih =>
    rw [List.map_cons, List.nodup_cons] at hnd
    have ih := ih hnd.2
    rw [List.filter_cons, List.find?_cons]
    cases hm : matchesName n d with
    | false =>
      split
      · rw [List.find?_cons, hm]; exact ih
      · exact ih
    | true =>
      cases hd : d.dirty with
      | true => simp [hm, hd, Option.filter]
      | false =>
        simp only [Bool.false_eq_true, if_false]
        rw [ih]
        have : List.find? (matchesName n) ds = none := by
          rw [List.find?_eq_none]
          intro e he hme
          have h1 := (refers_plain hn).1 ((matchesName_iff n d).1 hm)
          have h2 := (refers_plain hn).1 ((matchesName_iff n e).1 hme)
          exact hnd.1 (List.mem_map.2 ⟨e, he, by rw [← h2, h1]⟩)
        rw [this]
        simp [Option.filter, hd]

theorem find_by_name (ds : List Decl) (n : Text) (hn : Plain n) :
    ds.find? (fun d => d.name == n) = getParameterEntry ds n := by
  unfold getParameterEntry
  congr 1
  funext d
  rw [Bool.eq_iff_iff, matchesName_iff, refers_plain hn, beq_iff_eq]
  exact ⟨Eq.symm, Eq.symm⟩

theorem second_pass (cv : Conv) (ov : XDecl → Option Text) (xs : List XDecl) : ∀ (p : Params) (known : List Text)
    (env : Text → Option Text), p.assignments = [] → (∀ d ∈ p.decls, Plain d.name) →
    (∀ x ∈ xs, Plain x.name ∧ NotExpr x) → WellRef known xs → (∀ n ∈ known, Plain n) →
    (xs.map (·.name)).Nodup → (∀ x ∈ xs, x.name ∉ known) →
    (∀ n ∈ known, (env n).isSome ∧ getParameter p.decls n = env n) →
    (∀ x ∈ xs, match ov x with
      | some v => ∃ d, getParameterEntry p.decls x.name = some d ∧ d.dirty = true ∧ d.str = v
      | none => getParameterEntry p.decls x.name = none) →
    ∃ q, declareAll cv p xs = some q ∧
      ∀ n, (n ∈ known ∨ n ∈ xs.map (·.name)) → (values ov xs env n).isSome ∧ getParameter q.decls n = values ov xs env n := by
  induction xs with
  | nil =>
    intro p known env _ _ _ _ _ _ _ henv _
    refine ⟨p, rfl, fun n hn => ?_⟩
    rcases hn with hn | hn
    · exact henv n hn
    · simp at hn
  | cons x xs ih =>
    intro p known env ha hpl hx hw hkn hnd hfresh henv hov
    obtain ⟨hwt, hwr, hwn⟩ := hw
    obtain ⟨t, ht⟩ := Option.isSome_iff_exists.1 hwt
    rw [List.map_cons, List.nodup_cons] at hnd
    obtain ⟨hxp, hxe⟩ := hx x (by simp)
    -- the value of the attribute
    have hval : ∃ v, readAttribute cv p.decls x.value = some v ∧
        (match x.value with
          | '$' :: c :: m => env (c :: m)
          | raw => some raw) = some v := by
      by_cases hr : ∃ c m, x.value = '$' :: c :: m
      · obtain ⟨c, m, e⟩ := hr
        have hk := hwr c m e
        obtain ⟨w, hw⟩ := Option.isSome_iff_exists.1 (henv _ hk).1
        refine ⟨w, ?_, by rw [e]; exact hw⟩
        rw [readAttribute_ref cv _ x hxe c m e]
        unfold getParameter
        rw [find_dollar p.decls hpl _ (hkn _ hk)]
        exact (henv _ hk).2.trans hw
      · refine ⟨x.value, readAttribute_raw cv _ _ (fun c m e => hr ⟨c, m, e⟩), ?_⟩
        split
        · next c m e => exact absurd ⟨c, m, e⟩ hr
        · rfl
    obtain ⟨v, hv1, hv2⟩ := hval
    have hne : ∀ n ∈ known, n ≠ x.name := fun n hn e => hfresh x (by simp) (e ▸ hn)
    have hxs : ∀ y ∈ xs, y.name ≠ x.name := fun y hy e => hnd.1 (List.mem_map.2 ⟨y, hy, e⟩)
    have hovx := hov x (by simp)
    have hav : assignedValue p.assignments x.name v = v := by rw [ha]; rfl
    -- the environment of the specification after this declaration
    have goalstep : ∀ p' : Params, declare cv p x = some p' → p'.assignments = [] → (∀ d ∈ p'.decls, Plain d.name) →
        (∀ n, Plain n → n ≠ x.name → getParameterEntry p'.decls n = getParameterEntry p.decls n) →
        (getParameter p'.decls x.name = (match ov x with
          | some v => some v
          | none => match x.value with
            | '$' :: c :: m => env (c :: m)
            | raw => some raw) ∧ (getParameter p'.decls x.name).isSome) →
        ∃ q, declareAll cv p (x :: xs) = some q ∧ ∀ n, (n ∈ known ∨ n ∈ (x :: xs).map (·.name)) →
          (values ov (x :: xs) env n).isSome ∧ getParameter q.decls n = values ov (x :: xs) env n := by
      intro p' hd ha' hpl' hframe hthis
      obtain ⟨q, hq1, hq2⟩ := ih p' (x.name :: known) (fun n => if n = x.name then
        (match ov x with
          | some v => some v
          | none => match x.value with
            | '$' :: c :: m => env (c :: m)
            | raw => some raw)
        else env n) ha' hpl' (fun y hy => hx y (by simp [hy])) hwn
        (by intro n hn; rcases List.mem_cons.1 hn with rfl | hn
            · exact hxp
            · exact hkn n hn) hnd.2
        (by intro y hy hm; rcases List.mem_cons.1 hm with e | hm
            · exact hxs y hy e
            · exact hfresh y (by simp [hy]) hm)
        (by
          intro n hn
          by_cases e : n = x.name
          · subst e
            simp only [if_true]
            rw [← hthis.1]
            exact ⟨hthis.2, rfl⟩
          · rcases List.mem_cons.1 hn with h | hn
            · exact absurd h e
            · simp only [if_neg e]
              refine ⟨(henv n hn).1, ?_⟩
              unfold getParameter
              rw [hframe n (hkn n hn) e]
              exact (henv n hn).2)
        (by
          intro y hy
          rw [hframe y.name (hx y (by simp [hy])).1 (hxs y hy)]
          exact hov y (by simp [hy]))
      refine ⟨q, by simp only [declareAll, hd, Option.bind_some]; exact hq1, ?_⟩
      intro n hn
      apply hq2
      rcases hn with hn | hn
      · exact Or.inl (by simp [hn])
      · rcases List.mem_cons.1 hn with e | hn
        · exact Or.inl (by rw [e]; simp)
        · exact Or.inr hn
    cases ho : ov x with
    | some w =>
      rw [ho] at hovx
      obtain ⟨d, hd1, hd2, hd3⟩ := hovx
      have hdec : declare cv p x = some p := by
        unfold declare
        rw [hv1, ht]
        simp only
        rw [find_by_name _ _ hxp, hd1]
        simp only [hd2, if_true]
      have hgp : getParameter p.decls x.name = some w := by unfold getParameter; rw [hd1]; simp [hd3]
      exact goalstep p hdec ha hpl (fun n _ _ => rfl) ⟨by rw [ho, hgp], by rw [hgp]; rfl⟩
    | none =>
      rw [ho] at hovx
      have hdec : declare cv p x = some { p with decls := newDecl cv x.name v t :: p.decls } := by
        unfold declare
        rw [hv1, ht]
        simp only
        rw [find_by_name _ _ hxp, hovx, hav]
      have hm : matchesName x.name (newDecl cv x.name v t) = true := (matchesName_iff _ _).2 (Or.inl rfl)
      have hgp : getParameter (newDecl cv x.name v t :: p.decls) x.name = some v := by
        unfold getParameter getParameterEntry; rw [List.find?_cons, hm]; rfl
      refine goalstep _ hdec ha ?_ ?_ ⟨by rw [ho, hgp]; exact hv2.symm, by rw [hgp]; rfl⟩
      · intro d hd
        rcases List.mem_cons.1 hd with rfl | hd
        · exact hxp
        · exact hpl d hd
      · intro n hn hne
        unfold getParameterEntry
        have : matchesName n (newDecl cv x.name v t) = false := by
          rw [Bool.eq_false_iff]; intro h
          exact hne ((refers_plain hn).1 ((matchesName_iff _ _).1 h))
        rw [List.find?_cons, this]

/-- The first pass declares each parameter with its type. -/
theorem first_types (cv : Conv) (xs : List XDecl) (p : Params) (hp : declareAll cv empty xs = some p)
    (hx : ∀ x ∈ xs, Plain x.name ∧ NotExpr x) (hnd : (xs.map (·.name)).Nodup) :
    ∀ x ∈ xs, ∀ d, getParameterEntry p.decls x.name = some d → x.type = some d.type := by
  suffices ∀ (xs : List XDecl) (p q : Params), declareAll cv p xs = some q → p.assignments = [] →
      (∀ d ∈ p.decls, d.dirty = false) → (∀ x ∈ xs, Plain x.name) → (xs.map (·.name)).Nodup →
      (∀ x ∈ xs, ∀ d, getParameterEntry q.decls x.name = some d → x.type = some d.type) ∧
      (∀ n, Plain n → n ∉ xs.map (·.name) → getParameterEntry q.decls n = getParameterEntry p.decls n) by
    exact (this xs empty p hp rfl (by simp [empty]) (fun x h => (hx x h).1) hnd).1
  intro xs
  induction xs with
  | nil =>
    intro p q h _ _ _ _
    simp only [declareAll, Option.some.injEq] at h
    subst h
    exact ⟨by simp, fun n _ _ => rfl⟩
  | cons x xs ih =>
    intro p q h ha hd hpl hnd
    simp only [declareAll, Option.bind_eq_some_iff] at h
    obtain ⟨p1, h1, h2⟩ := h
    obtain ⟨v, t, hv, ht, hc⟩ := declare_cases cv p p1 x h1 ha
    have hp1 : p1 = { p with decls := newDecl cv x.name v t :: p.decls } := by
      rcases hc with ⟨_, d, h3, h4⟩ | h
      · rw [hd d (List.mem_of_find?_eq_some h3)] at h4; cases h4
      · exact h
    subst hp1
    rw [List.map_cons, List.nodup_cons] at hnd
    obtain ⟨r1, r2⟩ := ih _ q h2 ha (by
      intro d hm
      rcases List.mem_cons.1 hm with rfl | hm
      · rfl
      · exact hd d hm) (fun y hy => hpl y (by simp [hy])) hnd.2
    refine ⟨?_, ?_⟩
    · intro y hy d hyd
      rcases List.mem_cons.1 hy with rfl | hy
      · rw [r2 y.name (hpl y (by simp)) hnd.1] at hyd
        unfold getParameterEntry at hyd
        rw [List.find?_cons, (matchesName_iff _ _).2 (Or.inl rfl : refers y.name (newDecl cv y.name v t).name)] at hyd
        injection hyd with hyd
        rw [← hyd, ht]; rfl
      · exact r1 y hy d hyd
    · intro n hn hnm
      rw [List.map_cons, List.mem_cons] at hnm
      rw [r2 n hn (fun h => hnm (Or.inr h))]
      unfold getParameterEntry
      have : matchesName n (newDecl cv x.name v t) = false := by
        rw [Bool.eq_false_iff]; intro h
        exact hnm (Or.inl ((refers_plain hn).1 ((matchesName_iff _ _).1 h)))
      rw [List.find?_cons, this]

/-- **C50**: after the callback every global parameter has the value it would have if the values set by the callback were
written in the declarations, including declarations that refer to such a parameter. -/
theorem callback_values (cv : Conv) (xs : List XDecl) (sets : List (Text × Setter)) (p : Params)
    (hp : declareAll cv empty xs = some p) (hx : ∀ x ∈ xs, Plain x.name ∧ NotExpr x)
    (hnd : (xs.map (·.name)).Nodup) (hs : ∀ s ∈ sets, Plain s.1) :
    ∃ q, parseGlobals cv xs sets = some q ∧ ∀ x ∈ xs, (values (lastSetFor cv sets) xs (fun _ => none) x.name).isSome ∧
      getParameter q.decls x.name = values (lastSetFor cv sets) xs (fun _ => none) x.name := by
  obtain ⟨hw, hnames, hclean, ha⟩ := first_pass cv xs empty p [] hp rfl (by simp [empty]) rfl hx
  rw [List.append_nil] at hnames
  have htypes := first_types cv xs p hp hx hnd
  have hsn := applySets_names cv sets p
  have hpl : ∀ d ∈ (applySets cv p sets).decls, Plain d.name := by
    intro d hd
    have : d.name ∈ (xs.map (·.name)).reverse := by
      rw [← hnames, ← hsn.1]; exact List.mem_map.2 ⟨d, hd, rfl⟩
    rw [List.mem_reverse] at this
    obtain ⟨x, hx1, e⟩ := List.mem_map.1 this
    rw [← e]; exact (hx x hx1).1
  have hnd' : ((applySets cv p sets).decls.map (·.name)).Nodup := by
    rw [hsn.1, hnames]; exact (List.pairwise_reverse.2 (hnd.imp (fun h e => h e.symm)))
  obtain ⟨q, h1, h2⟩ := second_pass cv (lastSetFor cv sets) xs (eraseClean (applySets cv p sets)) [] (fun _ => none)
    (hsn.2.trans ha) (fun d hd => hpl d ((List.mem_filter.1 hd).1)) hx hw (by simp) hnd (by simp) (by simp)
    (by
      intro x hxm
      have hxp := (hx x hxm).1
      have hfil : getParameterEntry (eraseClean (applySets cv p sets)).decls x.name =
          (getParameterEntry (applySets cv p sets).decls x.name).filter (·.dirty) :=
        find_filter x.name hxp _ hnd'
      have hin : ∃ d, getParameterEntry p.decls x.name = some d := by
        have hmem : x.name ∈ p.decls.map (·.name) := by
          rw [hnames, List.mem_reverse]; exact List.mem_map.2 ⟨x, hxm, rfl⟩
        obtain ⟨d, hd1, hd2⟩ := List.mem_map.1 hmem
        apply Option.isSome_iff_exists.1
        unfold getParameterEntry
        rw [List.find?_isSome]
        exact ⟨d, hd1, (matchesName_iff _ _).2 (Or.inl hd2.symm)⟩
      obtain ⟨d, hd⟩ := hin
      have hty : x.type = some d.type := htypes x hxm d hd
      have hent := applySets_entry cv sets hs x.name hxp p d hd
      obtain ⟨d', hd1, hd2⟩ := hent
      have hls : lastSetFor cv sets x = lastSet cv d.type x.name sets := by unfold lastSetFor; rw [hty]; rfl
      rw [hfil, hd1, hls]
      cases hl : lastSet cv d.type x.name sets with
      | some v =>
        rw [hl] at hd2
        exact ⟨d', by simp [Option.filter, hd2.1], hd2.1, hd2.2⟩
      | none =>
        rw [hl] at hd2
        simp only at hd2
        subst hd2
        have := (hclean d' (List.mem_of_find?_eq_some hd)).2
        simp [Option.filter, this])
  refine ⟨q, ?_, ?_⟩
  · unfold parseGlobals; rw [hp]; exact h1
  · intro x hxm
    exact h2 x.name (Or.inr (List.mem_map.2 ⟨x, hxm, rfl⟩))

/-! Two parameters, the second refers to the first; the callback sets the first. -/
example : ((parseGlobals cv0 [xd "a" "1", xd "b" "$a"] [("a".toList, .str "5".toList)]).map
    (fun q => (getParameter q.decls "a".toList, getParameter q.decls "b".toList))) =
    some (some "5".toList, some "5".toList) := by decide
example : (declareAll cv0 empty [xd "a" "1", xd "b" "$a"]).isSome := by decide
example : values (lastSetFor cv0 [("a".toList, .str "5".toList)]) [xd "a" "1", xd "b" "$a"] (fun _ => none) "b".toList =
    some "5".toList := by decide

end Verif.Params

import Verif.Signal.Model
/-
Theorems on traffic lights.
-/
namespace Verif.Signal

/-! ## Specification -/

/-- The string `s` consists of the words `ts`, separated by semicolons, empty words left out. -/
inductive Words : List Char → List (List Char) → Prop where
  | nil : Words [] []
  | sep {s ts} : Words s ts → Words (';' :: s) ts
  | last {w} : w ≠ [] → ';' ∉ w → Words w [w]
  | word {w s ts} : w ≠ [] → ';' ∉ w → Words s ts → Words (w ++ ';' :: s) (w :: ts)

/-- The words of the OpenSCENARIO states. -/
def Valid (t : List Char) : Prop :=
  t = "unknown".toList ∨ t = "other".toList ∨ t = "off".toList ∨ t = "on".toList ∨ t = "flashing".toList ∨
  t = "counting".toList ∨ t = "broken".toList

/-- What a lamp shows for a word. -/
def Shows (t : List Char) (l : Lamp) : Prop :=
  (t = "unknown".toList → l.mode = .unknown ∧ l.broken = false) ∧
  (t = "other".toList → l.mode = .other ∧ l.broken = false) ∧
  (t = "off".toList → l.mode = .off ∧ l.broken = false) ∧
  (t = "on".toList → l.mode = .constant ∧ l.broken = false) ∧
  (t = "flashing".toList → l.mode = .flashing ∧ l.broken = false) ∧
  (t = "counting".toList → l.mode = .counting ∧ l.broken = false) ∧
  (t = "broken".toList → l.mode = .other ∧ l.broken = true)

/-- Write the words with one semicolon between them. -/
def write : List (List Char) → List Char
  | [] => []
  | [w] => w
  | w :: ws => w ++ ';' :: write ws

theorem tokens_append (w s acc : List Char) (h : ';' ∉ w) :
    tokens (w ++ s) acc = tokens s (w.reverse ++ acc) := by
  induction w generalizing acc with
  | nil => rfl
  | cons c w ih =>
    have hc : c ≠ ';' := fun e => h (by simp [e])
    have hw : ';' ∉ w := fun e => h (List.mem_cons_of_mem _ e)
    rw [List.cons_append]
    conv => lhs; unfold tokens
    rw [if_neg hc, ih (c :: acc) hw]
    simp

theorem tokens_of_words {s : List Char} {ts : List (List Char)} (h : Words s ts) : tokens s [] = ts := by
  induction h with
  | nil => rfl
  | sep _ ih => unfold tokens; simp [ih]
  | @last w hw hs =>
    have := tokens_append w [] [] hs
    rw [List.append_nil] at this
    rw [this]; unfold tokens; simp [hw]
  | @word w s ts hw hs _ ih =>
    rw [tokens_append w _ [] hs]
    unfold tokens
    simp [hw, ih]

theorem words_tokens_aux (s acc : List Char) (h : ';' ∉ acc) : Words (acc.reverse ++ s) (tokens s acc) := by
  induction s generalizing acc with
  | nil =>
    unfold tokens
    by_cases ha : acc = []
    · subst ha; exact .nil
    · rw [if_neg ha, List.append_nil]
      exact .last (by simpa using ha) (by simpa using h)
  | cons c s ih =>
    unfold tokens
    by_cases hc : c = ';'
    · rw [if_pos hc]; subst hc
      have := ih [] (by simp)
      by_cases ha : acc = []
      · subst ha; rw [if_pos rfl]; exact .sep this
      · rw [if_neg ha]; exact .word (by simpa using ha) (by simpa using h) this
    · rw [if_neg hc]
      have := ih (c :: acc) (by simp [h]; exact fun e => hc e.symm)
      simpa using this

/-- A state string is split into its non-empty words, whatever the string. -/
theorem words_iff (s : List Char) (ts : List (List Char)) : Words s ts ↔ tokens s [] = ts := by
  constructor
  · exact tokens_of_words
  · rintro rfl; exact words_tokens_aux s [] (by simp)

example : tokens "on;;off;".toList [] = ["on".toList, "off".toList] := by decide

theorem countValid_eq (ts : List (List Char)) (n : Nat) :
    countValid ts n = if ∀ t ∈ ts, known t = true then some (n + ts.length) else none := by
  induction ts generalizing n with
  | nil => simp [countValid]
  | cons t ts ih =>
    unfold countValid
    have e : (∀ a ∈ t :: ts, known a = true) ↔ known t = true ∧ ∀ a ∈ ts, known a = true := by
      rw [List.forall_mem_cons]
    by_cases h : known t = true
    · rw [if_pos h, ih]
      by_cases h2 : ∀ a ∈ ts, known a = true
      · rw [if_pos h2, if_pos (e.mpr ⟨h, h2⟩), List.length_cons]
        congr 1; omega
      · rw [if_neg h2, if_neg (fun hh => h2 (e.mp hh).2)]
    · rw [if_neg h, if_neg (fun hh => h (e.mp hh).1)]

theorem known_iff (t : List Char) : known t = true ↔ Valid t := by
  unfold known modeMap Valid
  simp only [List.any_cons, List.any_nil, Bool.or_false, Bool.or_eq_true, beq_iff_eq]
  constructor <;> intro h <;> (rcases h with h | h | h | h | h | h | h <;> simp [h])

/-- A state string is accepted iff all its words are known and it has one word per lamp. -/
theorem check_iff (tl : Light) (s : List Char) (ts : List (List Char)) (hw : Words s ts) :
    check tl s = some () ↔ (∀ t ∈ ts, Valid t) ∧ ts.length = tl.lamps.length := by
  rw [words_iff] at hw
  unfold check
  rw [hw, countValid_eq]
  have e : (∀ t ∈ ts, known t = true) ↔ ∀ t ∈ ts, Valid t :=
    ⟨fun h t ht => (known_iff t).mp (h t ht), fun h t ht => (known_iff t).mpr (h t ht)⟩
  by_cases h : ∀ t ∈ ts, Valid t
  · rw [if_pos (e.mpr h)]
    simp only
    by_cases hl : ts.length = tl.lamps.length
    · simp only [hl, ne_eq, Nat.zero_add, not_true_eq_false, if_false, and_true, true_iff]; exact h
    · simp [hl]
  · rw [if_neg (fun hh => h (e.mp hh))]; simp [h]

example : Words "on;off".toList (tokens "on;off".toList []) := (words_iff _ _).mpr rfl

theorem setLamps_length (ts : List (List Char)) (ls : List Lamp) : (setLamps ts ls).length = ls.length := by
  induction ts generalizing ls with
  | nil => cases ls <;> rfl
  | cons t ts ih => cases ls with
    | nil => rfl
    | cons l ls => simp [setLamps, ih]

theorem setLamps_get (ts : List (List Char)) (ls : List Lamp) (h : ts.length = ls.length) (i : Nat)
    (hi : i < ts.length) : (setLamps ts ls)[i]? = some ⟨modeOf ts[i], ts[i] == "broken".toList, true⟩ := by
  induction ts generalizing ls i with
  | nil => simp at hi
  | cons t ts ih => cases ls with
    | nil => simp at h
    | cons l ls =>
      cases i with
      | zero => rfl
      | succ i =>
        simp only [setLamps, List.getElem?_cons_succ, List.getElem_cons_succ]
        exact ih ls (by simpa using h) i (by simpa using hi)

theorem shows (t : List Char) : Shows t ⟨modeOf t, t == "broken".toList, true⟩ := by
  refine ⟨?_, ?_, ?_, ?_, ?_, ?_, ?_⟩ <;> (rintro rfl; decide)

/-- The update is refused iff the number of words differs from that of lamps; else lamp by lamp the
light shows the words in order, from the top, every lamp is marked for redraw and no lamp is added. -/
theorem update_spec (tl : Light) (s : List Char) (ts : List (List Char)) (hw : Words s ts) :
    (ts.length ≠ tl.lamps.length → update tl s = none) ∧
    (ts.length = tl.lamps.length → ∃ tl', update tl s = some tl' ∧ tl'.lamps.length = tl.lamps.length ∧
      ∀ i (h : i < ts.length), ∃ l, tl'.lamps[i]? = some l ∧ Shows ts[i] l ∧ l.dirty = true) := by
  rw [words_iff] at hw
  unfold update
  simp only [hw]
  constructor
  · intro h; rw [if_pos h]
  · intro h
    rw [if_neg (by simpa using h)]
    refine ⟨_, rfl, setLamps_length ts tl.lamps, fun i hi => ⟨_, setLamps_get ts tl.lamps h i hi, shows _, rfl⟩⟩

/-- An accepted state string is never refused by the update. -/
theorem checked_update (tl : Light) (s : List Char) (h : check tl s = some ()) : update tl s ≠ none := by
  have hw := (words_iff s (tokens s [])).mpr rfl
  have := ((check_iff tl s _ hw).mp h).2
  obtain ⟨tl', h', _⟩ := (update_spec tl s _ hw).2 this
  rw [h']; simp

def three : Light := ⟨[], [⟨.unknown, false, false⟩, ⟨.unknown, false, false⟩, ⟨.unknown, false, false⟩]⟩

example : check three "off;;broken;on;".toList = some () ∧ update three "off;;broken;on;".toList =
    some ⟨"off;;broken;on;".toList, [⟨.off, false, true⟩, ⟨.other, true, true⟩, ⟨.constant, false, true⟩]⟩ ∧
    update three "off;on".toList = none ∧ check three "off;on;green".toList = none := by decide

theorem words_write (ts : List (List Char)) (h : ∀ t ∈ ts, t ≠ [] ∧ ';' ∉ t) : Words (write ts) ts := by
  induction ts with
  | nil => exact .nil
  | cons w ws ih =>
    obtain ⟨h1, h2⟩ := h w List.mem_cons_self
    cases ws with
    | nil => exact .last h1 h2
    | cons v vs => exact .word h1 h2 (ih (fun t ht => h t (List.mem_cons_of_mem _ ht)))

theorem valid_word (t : List Char) (h : Valid t) : t ≠ [] ∧ ';' ∉ t := by
  rcases h with h | h | h | h | h | h | h <;> (subst h; decide)

/-- For state strings written with single semicolons: after a state has been set, the condition on the
traffic light holds iff the words asked for are the words set. -/
theorem condition_partial (tl tl' : Light) (ts us : List (List Char))
    (ht : ∀ t ∈ ts, Valid t) (hu : ∀ t ∈ us, Valid t) (h : update tl (write ts) = some tl') :
    condition tl' (write us) = true ↔ us = ts := by
  have hs : tl'.state = write ts := by
    unfold update at h
    simp only at h
    split at h
    · exact absurd h (by simp)
    · have := Option.some.inj h; rw [← this]
  unfold condition
  rw [hs, beq_iff_eq]
  constructor
  · intro he
    have h1 := tokens_of_words (words_write us (fun t h => valid_word t (hu t h)))
    have h2 := tokens_of_words (words_write ts (fun t h => valid_word t (ht t h)))
    rw [he, h2] at h1
    exact h1.symm
  · rintro rfl; rfl

example : ∃ tl', update three (write ["on".toList, "off".toList, "off".toList]) = some tl' ∧
    condition tl' (write ["on".toList, "off".toList, "off".toList]) = true ∧
    condition tl' (write ["off".toList, "off".toList, "on".toList]) = false := ⟨_, rfl, by decide, by decide⟩

/-- The condition compares the strings, not the lamps: with the state set as "on;off;off;" a condition
on "on;off;off" does not hold, though both are accepted and mean the same lamp states. -/
theorem condition_same_words_fails :
    ¬ ∀ (tl tl' : Light) (s u : List Char), check tl s = some () → check tl u = some () →
      update tl s = some tl' → tokens s [] = tokens u [] → condition tl' u = true := by
  intro h
  have := h three _ "on;off;off;".toList "on;off;off".toList (by decide) (by decide) rfl (by decide)
  revert this; decide

/-- The lamps fill the light from top to bottom without gap or overlap. -/
theorem lamps_tile (h : Rat) (n : Nat) (hn : 0 < n) :
    lampZ h n 0 + h / n / 2 = h ∧ lampZ h n (n - 1) - h / n / 2 = 0 ∧
    ∀ i, i + 1 < n → lampZ h n i - h / n / 2 = lampZ h n (i + 1) + h / n / 2 := by
  have hn' : (n : Rat) ≠ 0 := by
    intro e; have : n = 0 := by exact_mod_cast e
    omega
  unfold lampZ
  refine ⟨?_, ?_, ?_⟩
  · have e : ((n - 1 - 0 : Nat) : Rat) = (n : Rat) - 1 := by
      obtain ⟨m, rfl⟩ : ∃ m, n = m + 1 := ⟨n - 1, by omega⟩
      simp; grind
    simp only [e]
    have : h / n * n = h := by grind
    grind
  · have e : n - 1 - (n - 1) = 0 := by omega
    simp only [e]
    have : ((0 : Nat) : Rat) = 0 := rfl
    rw [this]; grind
  · intro i hi
    obtain ⟨m, rfl⟩ : ∃ m, n = m + 2 + i := ⟨n - 2 - i, by omega⟩
    have e1 : m + 2 + i - 1 - i = m + 1 := by omega
    have e2 : m + 2 + i - 1 - (i + 1) = m := by omega
    simp only [e1, e2]
    have : ((m + 1 : Nat) : Rat) = (m : Rat) + 1 := by simp
    rw [this]; grind

example : lampZ 9 3 0 = 15/2 ∧ lampZ 9 3 1 = 9/2 ∧ lampZ 9 3 2 = 3/2 := by decide +kernel

end Verif.Signal

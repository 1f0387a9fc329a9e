import Verif.Rm.Model
/-
Handles, lanes by index, signs, options and modes of the road manager library.
-/
namespace Verif.Rm

variable {α : Type}

/-- The position a handle stands for: what any call with the handle sees. -/
def Lib.at (l : Lib α) (h : Int) : Option α := if l.loaded = true ∧ 0 ≤ h then l.pos[h.toNat]? else none

/-- **A new position has a new handle and leaves the others alone.** -/
theorem create_spec (d : α) {l : Lib α} (hl : l.loaded = true) :
    0 ≤ (create d l).1 ∧ l.at (create d l).1 = none ∧ (create d l).2.at (create d l).1 = some d ∧ count (create d l).2 = count l + 1 ∧
    ∀ h, h ≠ (create d l).1 → (create d l).2.at h = l.at h := by
  have hs : create d l = (((l.pos.length : Nat) : Int), { l with pos := l.pos ++ [d] }) := by simp [create, hl]
  rw [hs]
  refine ⟨by simp, by simp [Lib.at, hl], by simp [Lib.at, hl], by simp [count, hl], ?_⟩
  intro h hne
  simp only at hne
  unfold Lib.at
  simp only [hl, true_and]
  split
  · rename_i h0
    rw [List.getElem?_append]
    split
    · rfl
    · rename_i hlt
      have : l.pos.length ≤ h.toNat := by omega
      rw [List.getElem?_eq_none this, List.getElem?_eq_none]
      simp only [List.length_cons, List.length_nil]
      omega
  · rfl

/-- **A copy has a new handle, the same position, and leaves the others alone.** -/
theorem copy_spec {l : Lib α} {h : Int} {p : α} (hp : l.at h = some p) :
    0 ≤ (copy h l).1 ∧ l.at (copy h l).1 = none ∧ (copy h l).2.at (copy h l).1 = some p ∧
    ∀ k, k ≠ (copy h l).1 → (copy h l).2.at k = l.at k := by
  have hl : l.loaded = true := by
    cases e : l.loaded
    · simp [Lib.at, e] at hp
    · rfl
  have h0 : 0 ≤ h := by
    apply Int.not_lt.1
    intro hn
    have : ¬ 0 ≤ h := by omega
    simp [Lib.at, this] at hp
  have hg : l.pos[h.toNat]? = some p := by simpa [Lib.at, hl, h0] using hp
  have hlt : h.toNat < l.pos.length := (List.getElem?_eq_some_iff.1 hg).1
  have hs : copy h l = create p l := by
    unfold copy
    rw [if_neg (by rintro (c | c | c) <;> first | (simp [hl] at c; done) | (omega; done) | (omega; done)), hg]
    simp [create, hl]
  rw [hs]
  have := create_spec p hl
  exact ⟨this.1, this.2.1, this.2.2.1, this.2.2.2.2⟩

/-- **Changing one position changes no other**, and its result is what the call says. -/
theorem update_spec {f : α → Int × α} {l : Lib α} {h : Int} {p : α} (hp : l.at h = some p) :
    ∃ l', update f h l = .ret (f p).1 l' ∧ l'.at h = some (f p).2 ∧ (∀ k, k ≠ h → l'.at k = l.at k) ∧ count l' = count l := by
  have hl : l.loaded = true := by
    cases e : l.loaded
    · simp [Lib.at, e] at hp
    · rfl
  have h0 : 0 ≤ h := by
    apply Int.not_lt.1
    intro hn
    have : ¬ 0 ≤ h := by omega
    simp [Lib.at, this] at hp
  have hg : l.pos[h.toNat]? = some p := by simpa [Lib.at, hl, h0] using hp
  have hlt : h.toNat < l.pos.length := (List.getElem?_eq_some_iff.1 hg).1
  refine ⟨{ l with pos := l.pos.set h.toNat (f p).2 }, ?_, ?_, ?_, ?_⟩
  · unfold update
    rw [if_neg (by rintro (c | c) <;> first | (simp [hl] at c; done) | (omega; done)), if_neg (by omega), hg]
  · simp [Lib.at, hl, h0, hlt]
  · intro k hk
    unfold Lib.at
    simp only [hl, true_and]
    split
    · rw [List.getElem?_set_ne (by omega)]
    · rfl
  · simp [count, hl]

/-- The checked calls do the same. -/
theorem updateChecked_eq {f : α → Int × α} {l : Lib α} {h : Int} (h0 : 0 ≤ h) : updateChecked f h l = update f h l := by
  unfold updateChecked update
  by_cases hc : l.loaded = false ∨ (l.pos.length : Int) ≤ h
  · rw [if_pos hc, if_pos (by rcases hc with c | c <;> simp [c])]
  · rw [if_neg hc, if_neg (by rintro (c | c | c) <;> first | (exact hc (Or.inl c); done) | (omega; done) | (exact hc (Or.inr c); done)), if_neg (by omega)]

/-- **A handle that is not in use is reported**, nothing changes: all calls, if not negative; the checked ones for any. -/
theorem bad_handle_partial {f : α → Int × α} {l : Lib α} {h : Int} (hp : l.at h = none) :
    updateChecked f h l = .ret (-1) l ∧ (copy h l) = (-1, l) ∧ (0 ≤ h → update f h l = .ret (-1) l) := by
  have hor : l.loaded = false ∨ h < 0 ∨ (l.pos.length : Int) ≤ h := by
    by_cases hl : l.loaded = true
    · by_cases h0 : 0 ≤ h
      · have hg : l.pos[h.toNat]? = none := by simpa [Lib.at, hl, h0] using hp
        have := List.getElem?_eq_none_iff.1 hg
        exact Or.inr (Or.inr (by omega))
      · exact Or.inr (Or.inl (by omega))
    · exact Or.inl (by simpa using hl)
  refine ⟨by unfold updateChecked; rw [if_pos hor], by unfold copy; rw [if_pos hor], ?_⟩
  intro h0
  unfold update
  rw [if_pos (by rcases hor with c | c | c <;> first | (exact Or.inl c; done) | (omega; done) | (exact Or.inr c; done))]

/-- **A negative handle is not reported**: the setters and the getter of the position read and write outside the list. -/
theorem negative_fails (f : α → Int × α) {l : Lib α} (hl : l.loaded = true) {h : Int} (hh : h < 0) : update f h l = .undefined := by
  unfold update
  rw [if_neg (by rintro (c | c) <;> first | (simp [hl] at c; done) | (omega; done)), if_pos hh]

/-- **Deleting**: the positions below keep their handles, the ones above move down by one. -/
theorem delete_spec_partial {l : Lib α} {h : Int} {p : α} (hp : l.at h = some p) :
    (delete h l).1 = 0 ∧ count (delete h l).2 = count l - 1 ∧ (∀ k, k < h → (delete h l).2.at k = l.at k) ∧
    ∀ k, h ≤ k → (delete h l).2.at k = l.at (k + 1) := by
  have hl : l.loaded = true := by
    cases e : l.loaded
    · simp [Lib.at, e] at hp
    · rfl
  have h0 : 0 ≤ h := by
    apply Int.not_lt.1
    intro hn
    have : ¬ 0 ≤ h := by omega
    simp [Lib.at, this] at hp
  have hg : l.pos[h.toNat]? = some p := by simpa [Lib.at, hl, h0] using hp
  have hlt : h.toNat < l.pos.length := (List.getElem?_eq_some_iff.1 hg).1
  have hs : delete h l = (0, { l with pos := l.pos.eraseIdx h.toNat }) := by
    unfold delete
    rw [if_pos hl, if_neg (by omega), if_pos ⟨h0, by omega⟩]
  rw [hs]
  refine ⟨rfl, ?_, ?_, ?_⟩
  · simp only [count, hl, if_true, List.length_eraseIdx, if_pos hlt]
    omega
  · intro k hk
    unfold Lib.at
    simp only [hl, true_and]
    split
    · rw [List.getElem?_eraseIdx, if_pos (by omega)]
    · rfl
  · intro k hk
    unfold Lib.at
    simp only [hl, true_and]
    rw [if_pos (by omega), if_pos (by omega), List.getElem?_eraseIdx, if_neg (by omega)]
    congr 1
    omega

/-- **Deleting one position makes other handles stand for other positions.** -/
theorem delete_shift_fails : ∃ (l : Lib Nat) (h k : Int), h ≠ k ∧ l.at k = some 2 ∧ (delete h l).1 = 0 ∧ (delete h l).2.at k = some 3 :=
  ⟨⟨true, [1, 2, 3]⟩, 0, 1, by decide, rfl, rfl, rfl⟩

/-- **Deleting all.** -/
theorem delete_all {l : Lib α} (hl : l.loaded = true) : (delete (-1) l).1 = 0 ∧ count (delete (-1) l).2 = 0 := by
  simp [delete, hl, count]

/-- **Loading a file starts afresh**: no positions are left; after an error every call reports an error. -/
theorem init_spec {l : Lib α} (hw : l.loaded = false → l.pos = []) (ok : Bool) :
    (init ok l).2.pos = [] ∧ ((init ok l).1 = 0 ↔ ok = true) ∧ (ok = false → ∀ d, (create d (init ok l).2).1 = -1) := by
  have hc : (if l.loaded = true then close l else l).pos = [] ∧ (if l.loaded = true then close l else l).loaded = false := by
    split
    · exact ⟨rfl, rfl⟩
    · rename_i h
      have : l.loaded = false := by simpa using h
      exact ⟨hw this, this⟩
  cases ok
  · exact ⟨hc.1, by simp [init], fun _ d => by simp [init, create, hc.2]⟩
  · exact ⟨hc.1, by simp [init], fun h => by cases h⟩

/-- **Loading from text does not**: positions stay, and after an error the library still takes calls. -/
theorem init_string_fails : ∃ l : Lib Nat, l.loaded = true ∧ (initString true l).1 = 0 ∧ count (initString true l).2 = 1 ∧
    (initString false l).1 = -1 ∧ (create 7 (initString false l).2).1 = 1 :=
  ⟨⟨true, [5]⟩, rfl, rfl, rfl, rfl, rfl⟩

/-! ### Lanes by index -/

/-- An entry exists below the length. -/
theorem isSome_iff {β : Type} (l : List β) (i : Nat) : l[i]?.isSome = true ↔ i < l.length := by
  by_cases h : i < l.length
  · simp [h]
  · simp [h]

/-- Number of lanes. -/
theorem numLanes_eq (mask : Nat) : ∀ (ls : List Lane) (n : Nat), numLanes mask ls n = n + (ls.filter (·.matches mask)).length
  | [], n => by simp [numLanes]
  | l :: ls, n => by
    rw [numLanes, numLanes_eq mask ls]
    cases h : l.matches mask <;> simp [h]
    omega

/-- Lane by index. -/
theorem laneByIndex_eq (mask : Nat) (index : Int) : ∀ (ls : List Lane) (n : Nat),
    laneByIndex mask index ls n = if (n : Int) ≤ index then ((ls.filter (·.matches mask))[(index - n).toNat]?).map (·.id) else none
  | [], n => by simp [laneByIndex]
  | l :: ls, n => by
    rw [laneByIndex, laneByIndex_eq mask index ls (n + 1), laneByIndex_eq mask index ls n]
    cases h : l.matches mask
    · simp [h]
    · simp only [if_true, List.filter_cons_of_pos h]
      by_cases he : (n : Int) = index
      · rw [if_pos he, if_pos (by omega), show (index - (n : Int)).toNat = 0 by omega]
        rfl
      · rw [if_neg he]
        by_cases hle : (n : Int) ≤ index
        · rw [if_pos (by omega), if_pos hle, show (index - (n : Int)).toNat = (index - ((n + 1 : Nat) : Int)).toNat + 1 by omega]
          rfl
        · rw [if_neg (by omega), if_neg hle]

/-- **The indices below the number of lanes give the lanes of the type asked for, each once and in order; others give an error.** -/
theorem lanes_by_index (mask : Nat) (ls : List Lane) :
    (∀ i : Int, (∃ id, laneByIndex mask i ls 0 = some id) ↔ 0 ≤ i ∧ i < numLanes mask ls 0) ∧
    (List.range (numLanes mask ls 0)).map (fun i : Nat => laneByIndex mask i ls 0) = (ls.filter (·.matches mask)).map (fun l => some l.id) := by
  rw [numLanes_eq]
  refine ⟨fun i => ?_, ?_⟩
  · rw [laneByIndex_eq]
    simp only [Nat.zero_add, Int.natCast_zero, Int.sub_zero]
    split
    · rename_i h0
      rw [← Option.isSome_iff_exists, Option.isSome_map]
      rw [isSome_iff]
      omega
    · rename_i h0
      simp only [reduceCtorEq, exists_false, false_iff]
      omega
  · apply List.ext_getElem?
    intro i
    simp only [Nat.zero_add, List.getElem?_map]
    by_cases hi : i < (ls.filter (·.matches mask)).length
    · rw [List.getElem?_range hi]
      simp only [Option.map_some]
      rw [laneByIndex_eq]
      simp [hi]
    · rw [List.getElem?_eq_none (by simpa using hi), List.getElem?_eq_none (by omega)]
      rfl

/-! ### Signs, options, modes -/

/-- **Asking for the validity of a sign that does not exist is undefined**, though the sign itself is reported as missing. -/
theorem validity_fails (signs : List (List (Int × Int))) {index : Nat} (h : signs.length ≤ index) :
    validityCount signs index = .undefined ∧ ∀ k, validityRecord signs index k = none := by
  have : signs[index]? = none := List.getElem?_eq_none h
  simp [validityCount, validityRecord, this]

/-- **For an existing sign the records are the ones counted.** -/
theorem validity_partial {signs : List (List (Int × Int))} {index : Nat} (h : index < signs.length) :
    ∃ n : Nat, validityCount signs index = .ret n () ∧ ∀ k, (∃ r, validityRecord signs index k = some (some r)) ↔ k < n := by
  refine ⟨signs[index].length, by simp [validityCount, h], fun k => ?_⟩
  simp only [validityRecord, List.getElem?_eq_getElem h, Option.some.injEq]
  rw [← Option.isSome_iff_exists, isSome_iff]

/-- **The first value asked for is right.** -/
theorem option_first_partial (get : List Char → Option (List Char)) (name : List Char) : (optionValue get name none).1 = get name := by
  unfold optionValue
  cases get name <;> rfl

/-- **Every later value is the first one**, whatever option is asked for. -/
theorem option_value_fails (get : List Char → Option (List Char)) {a b v w : List Char} (ha : get a = some v) (hb : get b = some w) (hvw : v ≠ w) :
    (optionValue get b (optionValue get a none).2).1 ≠ get b := by
  simp [optionValue, ha, hb, hvw]

example : ∃ get : List Char → Option (List Char), get ['a'] = some ['1'] ∧ get ['b'] = some ['2'] :=
  ⟨fun n => if n = ['a'] then some ['1'] else some ['2'], rfl, rfl⟩

example : Lib.at (⟨true, [1, 2]⟩ : Lib Nat) 1 = some 2 := rfl
example : Lib.at (⟨true, [1, 2]⟩ : Lib Nat) 2 = none := rfl
example : laneByIndex 2 1 [⟨2, 1⟩, ⟨1, 2⟩, ⟨0, 1⟩, ⟨-1, 2⟩] 0 = some (-1) := by decide

end Verif.Rm

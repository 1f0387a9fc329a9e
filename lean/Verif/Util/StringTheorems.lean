import Verif.Util.Strings

/-! C39, C40 and helper string functions. -/
namespace Verif.Util

/-- Specification: the parts with the separator between them. -/
def intercalate (d : Char) : List (List Char) → List Char
  | [] => []
  | [p] => p
  | p :: r => p ++ d :: intercalate d r

theorem splitFrom_ne_nil (d s) : splitFrom d s ≠ [] := by
  unfold splitFrom; split <;> simp

theorem intercalate_cons (d p r) (h : r ≠ []) : intercalate d (p :: r) = p ++ d :: intercalate d r := by
  cases r with
  | nil => exact absurd rfl h
  | cons a r => rfl

theorem intercalate_splitFrom (d : Char) (s : List Char) : intercalate d (splitFrom d s) = s := by
  fun_induction splitFrom d s with
  | case1 s h => rfl
  | case2 s a r h ih =>
    rw [intercalate_cons _ _ _ (splitFrom_ne_nil d r), ih]
    exact (cut_some h).1.symm

/-- **C39**: splitting and joining gives the string back, for every string and separator. -/
theorem split_join (s : List Char) (d : Char) : intercalate d (splitString s d) = s := by
  unfold splitString
  split
  · next h => subst h; rfl
  · exact intercalate_splitFrom d s

/-- No part contains the separator. -/
theorem split_parts_clean (s : List Char) (d : Char) : ∀ p ∈ splitString s d, d ∉ p := by
  have key : ∀ s, ∀ p ∈ splitFrom d s, d ∉ p := by
    intro s
    fun_induction splitFrom d s with
    | case1 s h =>
      intro p hp
      simp at hp; subst hp
      exact cut_none.1 h
    | case2 s a r h ih =>
      intro p hp
      rcases List.mem_cons.1 hp with rfl | hp
      · exact (cut_some h).2
      · exact ih p hp
  unfold splitString
  split
  · simp
  · exact key s

/-- There is one part more than separators. -/
theorem split_count (s : List Char) (d : Char) (h : s ≠ []) : (splitString s d).length = s.count d + 1 := by
  have key : ∀ s, (splitFrom d s).length = s.count d + 1 := by
    intro s
    fun_induction splitFrom d s with
    | case1 s h => simp [List.count_eq_zero.2 (cut_none.1 h)]
    | case2 s a r h ih =>
      obtain ⟨h1, h2⟩ := cut_some h
      rw [h1, List.count_append, List.count_cons_self, List.count_eq_zero.2 h2]
      simp [ih]
  unfold splitString
  rw [if_neg h]
  exact key s

theorem splitFrom_append {d : Char} {p r : List Char} (hp : d ∉ p) : splitFrom d (p ++ d :: r) = p :: splitFrom d r := by
  have hc := cut_append (b := r) hp
  rw [splitFrom]
  split
  · next h => rw [hc] at h; cases h
  · next a b h => rw [hc] at h; cases h; rfl

theorem splitFrom_clean {d : Char} {p : List Char} (hp : d ∉ p) : splitFrom d p = [p] := by
  rw [splitFrom]
  split
  · rfl
  · next h => rw [cut_none.2 hp] at h; cases h

theorem splitFrom_intercalate (d : Char) (ps : List (List Char)) (hne : ps ≠ []) (hc : ∀ p ∈ ps, d ∉ p) :
    splitFrom d (intercalate d ps) = ps := by
  induction ps with
  | nil => exact absurd rfl hne
  | cons p r ih =>
    have hp := hc p List.mem_cons_self
    cases r with
    | nil => exact splitFrom_clean hp
    | cons q r =>
      rw [intercalate_cons _ _ _ (by simp), splitFrom_append hp, ih (by simp) (fun x hx => hc x (List.mem_cons_of_mem _ hx))]

/-- **C39**, the other direction: joining parts without separator and splitting gives the parts back. -/
theorem join_split (d : Char) (ps : List (List Char)) (hc : ∀ p ∈ ps, d ∉ p) (hne : intercalate d ps ≠ []) :
    splitString (intercalate d ps) d = ps := by
  unfold splitString
  rw [if_neg hne]
  apply splitFrom_intercalate d ps _ hc
  intro h; subst h; exact hne rfl

example : splitString "a,b,,c".toList ',' = ["a".toList, "b".toList, [], "c".toList] :=
  join_split ',' [['a'], ['b'], [], ['c']] (by decide) (by decide)

/-! ### quoted strings (C45) -/

/-- A string whose quotes all surround whole arguments and nothing else. -/
def quoteJoin : List (List Char) → List Char
  | [] => []
  | p :: r => '"' :: (p ++ '"' :: quoteJoin r)

theorem splitQuotedFrom_none {s : List Char} (d : Char) (h : '"' ∉ s) : splitQuotedFrom s d = splitString s d := by
  rw [splitQuotedFrom]
  split
  · rfl
  · next h1 => rw [cut_none.2 h] at h1; cases h1

/-- One quoted argument, with any text in front of it. -/
theorem splitQuotedFrom_one (pre q r : List Char) (d : Char) (hpre : '"' ∉ pre) (hq : '"' ∉ q) :
    splitQuotedFrom (pre ++ '"' :: (q ++ '"' :: r)) d = q :: splitQuotedFrom r d := by
  rw [splitQuotedFrom]
  split
  · next h => rw [cut_append hpre] at h; cases h
  · next a b h =>
    rw [cut_append hpre] at h; cases h
    split
    · next h => rw [cut_append hq] at h; cases h
    · next a b h => rw [cut_append hq] at h; cases h; rfl

theorem splitQuotedFrom_quoteJoin (ps : List (List Char)) (d : Char)
    (hc : ∀ p ∈ ps, '"' ∉ p) (tail : List Char) (ht : '"' ∉ tail) :
    splitQuotedFrom (quoteJoin ps ++ tail) d = ps ++ splitString tail d := by
  induction ps with
  | nil => exact splitQuotedFrom_none d ht
  | cons p r ih =>
    have := splitQuotedFrom_one [] p (quoteJoin r ++ tail) d (by simp) (hc p List.mem_cons_self)
    simp only [quoteJoin, List.nil_append, List.cons_append, List.append_assoc] at this ⊢
    rw [this, ih (fun x hx => hc x (List.mem_cons_of_mem _ hx))]

/-- Quoted arguments, with nothing between them, come out as they are, followed by the unquoted
words at the end. -/
theorem quoted_arguments_partial (ps : List (List Char)) (d : Char)
    (hc : ∀ p ∈ ps, '"' ∉ p) (tail : List Char) (ht : '"' ∉ tail) :
    splitQuotedString (quoteJoin ps ++ tail) d = ps ++ splitString tail d := by
  unfold splitQuotedString
  split
  · next h =>
    obtain ⟨h1, rfl⟩ := List.append_eq_nil_iff.1 h
    cases ps with
    | nil => rfl
    | cons p r => simp [quoteJoin] at h1
  · exact splitQuotedFrom_quoteJoin ps d hc tail ht

example : splitQuotedString "\"a b\"\"c\"d".toList ' ' = ["a b".toList, "c".toList] ++ splitString ['d'] ' ' :=
  quoted_arguments_partial [['a', ' ', 'b'], ['c']] ' ' (by decide) ['d'] (by decide)

/-- **C45 fails**: whatever stands in front of a quoted argument is dropped, for every text and argument. -/
theorem quoted_drops_words_fails (pre q : List Char) (d : Char) (hpre : '"' ∉ pre) (hq : '"' ∉ q) :
    splitQuotedString (pre ++ '"' :: (q ++ ['"'])) d = [q] := by
  unfold splitQuotedString
  rw [if_neg (by simp)]
  have := splitQuotedFrom_one pre q [] d hpre hq
  rw [this, splitQuotedFrom_none d (by simp)]
  rfl

/-! ### byte order -/

theorem swapElem_spec (size base : Nat) (m : Mem) (k : Nat) (hk : 2 * k ≤ size) (p : Nat) :
    swapElem size base m k p =
      if base ≤ p ∧ p < base + size ∧ (p < base + k ∨ base + size - k ≤ p) then m (base + (size - 1 - (p - base))) else m p := by
  induction k generalizing p with
  | zero =>
    simp only [swapElem]
    rw [if_neg]; omega
  | succ k ih =>
    simp only [swapElem, swap2]
    rw [ih (by omega), ih (by omega), ih (by omega)]
    grind

/-- Each element has its bytes reversed; bytes after the last whole element are untouched. -/
theorem swapByteOrder_spec (m : Mem) (size n : Nat) (hs : 0 < size) (p : Nat) :
    swapByteOrder m size n p =
      if p < n / size * size then m (p / size * size + (size - 1 - p % size)) else m p := by
  unfold swapByteOrder
  split
  · next h =>
    have : size = 1 := by omega
    subst this
    simp [Nat.mod_one]
  · next h =>
    generalize n / size = k
    induction k generalizing p with
    | zero => simp [swapElems]
    | succ k ih =>
      simp only [swapElems]
      rw [swapElem_spec _ _ _ _ (by omega)]
      have hmul : (k + 1) * size = k * size + size := by rw [Nat.add_mul, Nat.one_mul]
      by_cases hin : k * size ≤ p ∧ p < k * size + size
      · -- p is in the last element
        have hdiv : p / size = k := by
          rw [Nat.div_eq_iff (by omega)]; constructor <;> omega
        have hmod : p % size = p - k * size := by
          have := Nat.div_add_mod p size
          rw [hdiv, Nat.mul_comm] at this; omega
        rw [hdiv, hmod, hmul, if_pos hin.2]
        have hq : ¬ (k * size + (size - 1 - (p - k * size)) < k * size) := by omega
        split
        · rw [ih, if_neg hq]
        · next hno =>
          rw [ih, if_neg (by omega)]
          congr 1; omega
      · have h1 : ¬ (k * size ≤ p ∧ p < k * size + size ∧ (p < k * size + size / 2 ∨ k * size + size - size / 2 ≤ p)) := by
          intro hh; exact hin ⟨hh.1, hh.2.1⟩
        rw [if_neg h1, ih, hmul]
        by_cases hp : p < k * size
        · rw [if_pos hp, if_pos (by omega)]
        · rw [if_neg hp, if_neg (by omega)]

/-- **C39**: swapping byte order twice is the identity on all of memory. -/
theorem swapByteOrder_involutive (m : Mem) (size n : Nat) (hs : 0 < size) :
    swapByteOrder (swapByteOrder m size n) size n = m := by
  funext p
  rw [swapByteOrder_spec _ _ _ hs, swapByteOrder_spec _ _ _ hs, swapByteOrder_spec _ _ _ hs]
  by_cases hp : p < n / size * size
  · rw [if_pos hp]
    have hlt : p % size < size := Nat.mod_lt _ hs
    have hq : p / size * size + (size - 1 - p % size) < n / size * size := by
      have h1 : p / size < n / size := by
        rw [Nat.div_lt_iff_lt_mul hs]; exact hp
      have h2 : (p / size + 1) * size ≤ n / size * size := Nat.mul_le_mul_right _ h1
      rw [Nat.add_mul, Nat.one_mul] at h2
      omega
    rw [if_pos hq]
    have hd : (p / size * size + (size - 1 - p % size)) / size = p / size := by
      rw [Nat.mul_comm, Nat.mul_add_div hs, Nat.div_eq_of_lt (a := size - 1 - p % size) (by omega), Nat.add_zero]
    have hm : (p / size * size + (size - 1 - p % size)) % size = size - 1 - p % size := by
      rw [Nat.mul_comm, Nat.mul_add_mod, Nat.mod_eq_of_lt (by omega)]
    rw [hd, hm]
    congr 1
    have := Nat.div_add_mod p size
    rw [Nat.mul_comm] at this
    omega
  · rw [if_neg hp, if_neg hp]

example : (List.range 10).map (swapByteOrder (fun p => UInt8.ofNat p) 4 10) = [3, 2, 1, 0, 7, 6, 5, 4, 8, 9] := by decide

/-! ### dates -/

/-- Specification: Gregorian leap years. -/
def Leap (y : Int) : Prop := (4 ∣ y ∧ ¬ 100 ∣ y) ∨ 400 ∣ y

instance (y) : Decidable (Leap y) := inferInstanceAs (Decidable (_ ∨ _))

/-- Specification: number of days of month `m` (1 to 12) of year `y`. -/
def daysIn (y m : Int) : Int :=
  if m = 2 then (if Leap y then 29 else 28)
  else if m = 4 ∨ m = 6 ∨ m = 9 ∨ m = 11 then 30 else 31

/-- **C40**: the fields of date `y-m-d`, time `h:mi:s` are accepted iff it is a date of the Gregorian calendar
in the years 1900 to 21900 and a time of day. -/
theorem date_valid_iff (y m d h mi s : Int) :
    validFields ⟨y - 1900, m - 1, d, h, mi, s⟩ = true ↔
      (1900 ≤ y ∧ y ≤ 21900) ∧ (1 ≤ m ∧ m ≤ 12) ∧ (1 ≤ d ∧ d ≤ daysIn y m) ∧
      (0 ≤ h ∧ h < 24) ∧ (0 ≤ mi ∧ mi < 60) ∧ (0 ≤ s ∧ s < 60) := by
  unfold validFields daysIn
  simp only
  have hy : y - 1900 + 1900 = y := by omega
  rw [hy]
  by_cases hneg : y < 1900
  · rw [if_pos (by omega)]; simp; omega
  · have e4 : y.tmod 4 = y % 4 := Int.tmod_eq_emod_of_nonneg (by omega)
    have e100 : y.tmod 100 = y % 100 := Int.tmod_eq_emod_of_nonneg (by omega)
    have e400 : y.tmod 400 = y % 400 := Int.tmod_eq_emod_of_nonneg (by omega)
    rw [e4, e100, e400]
    have hl : Leap y ↔ (y % 4 = 0 ∧ ¬ (y % 100 = 0 ∧ y % 400 ≠ 0)) := by
      unfold Leap; omega
    by_cases hleap : Leap y
    · have := hl.1 hleap
      simp only [hleap, if_true]
      repeat' split
      all_goals simp only [Bool.false_eq_true, false_iff, true_iff]
      all_goals omega
    · have := mt hl.2 hleap
      simp only [hleap, if_false]
      repeat' split
      all_goals simp only [Bool.false_eq_true, false_iff, true_iff]
      all_goals omega

end Verif.Util

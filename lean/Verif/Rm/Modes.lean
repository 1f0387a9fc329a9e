import Verif.Rm.Model
/-
Modes of `RM_SetWorldPositionMode`: fields that are not given become absolute, nothing else changes.
-/
namespace Verif.Rm

/-- The three bits of a field. -/
def field (k mode : Nat) : Nat := mode / 2 ^ k % 8

theorem field_and (k mode : Nat) : mode &&& (7 <<< k) = field k mode * 2 ^ k := by
  apply Nat.eq_of_testBit_eq
  intro i
  rw [Nat.testBit_and, Nat.testBit_shiftLeft, ← Nat.shiftLeft_eq, Nat.testBit_shiftLeft]
  unfold field
  by_cases h : k ≤ i
  · rw [show (8 : Nat) = 2 ^ 3 by rfl, Nat.testBit_mod_two_pow, Nat.testBit_div_two_pow, show (7 : Nat) = 2 ^ 3 - 1 by rfl, Nat.testBit_two_pow_sub_one]
    rw [show i - k + k = i by omega]
    simp [h, Bool.and_comm]
  · simp [h]

/-- Bits of a number from the bits of its field. -/
theorem field_eq {k a b : Nat} : field k a = field k b ↔ ∀ i, i < 3 → a.testBit (i + k) = b.testBit (i + k) := by
  unfold field
  rw [show (8 : Nat) = 2 ^ 3 by rfl]
  constructor
  · intro h i hi
    have := congrArg (Nat.testBit · i) h
    rw [Nat.testBit_mod_two_pow, Nat.testBit_mod_two_pow, Nat.testBit_div_two_pow, Nat.testBit_div_two_pow] at this
    simpa [hi] using this
  · intro h
    apply Nat.eq_of_testBit_eq
    intro i
    rw [Nat.testBit_mod_two_pow, Nat.testBit_mod_two_pow, Nat.testBit_div_two_pow, Nat.testBit_div_two_pow]
    by_cases hi : i < 3
    · simp [hi, h i hi]
    · simp [hi]

theorem testBit_or3 (k mode i : Nat) : (mode ||| (3 <<< k)).testBit i = (mode.testBit i || (decide (k ≤ i) && decide (i < k + 2))) := by
  rw [Nat.testBit_or, Nat.testBit_shiftLeft, show (3 : Nat) = 2 ^ 2 - 1 by rfl, Nat.testBit_two_pow_sub_one]
  congr 1
  by_cases h : k ≤ i
  · simp [h]
    omega
  · simp [h]

/-- What becomes of a field: not given (0) or default (1) becomes absolute (3). -/
theorem modeField_same (k mode : Nat) : field k (modeField k mode) = if field k mode = 0 ∨ field k mode = 1 then 3 else field k mode := by
  have hp : 0 < 2 ^ k := Nat.two_pow_pos k
  have hc : (mode &&& (7 <<< k) = 0 ∨ mode &&& (7 <<< k) = 1 <<< k) ↔ (field k mode = 0 ∨ field k mode = 1) := by
    rw [field_and, Nat.shiftLeft_eq, Nat.one_mul]
    constructor
    · rintro (h | h)
      · exact Or.inl ((Nat.mul_eq_zero.1 h).resolve_right (by omega))
      · exact Or.inr (Nat.eq_of_mul_eq_mul_right hp (by omega))
    · rintro (h | h) <;> simp [h]
  unfold modeField
  by_cases h : field k mode = 0 ∨ field k mode = 1
  · rw [if_pos (hc.2 h), if_pos h]
    have h3 : field k (3 <<< k) = 3 := by
      unfold field
      rw [Nat.shiftLeft_eq, Nat.mul_div_cancel _ hp]
    refine Eq.trans (b := field k (3 <<< k)) ?_ h3
    rw [field_eq]
    intro i hi
    rw [testBit_or3, Nat.testBit_shiftLeft, show (3 : Nat) = 2 ^ 2 - 1 by rfl, Nat.testBit_two_pow_sub_one]
    have hb : i = 2 → mode.testBit (i + k) = false := by
      intro e
      have : (field k mode).testBit 2 = false := by rcases h with h | h <;> rw [h] <;> rfl
      unfold field at this
      rw [show (8 : Nat) = 2 ^ 3 by rfl, Nat.testBit_mod_two_pow, Nat.testBit_div_two_pow] at this
      subst e
      simpa using this
    by_cases h2 : i = 2
    · simp [hb h2]
      omega
    · have : i < 2 := by omega
      simp [this]
      omega
  · rw [if_neg (fun c => h (hc.1 c)), if_neg h]

/-- The other bits stay. -/
theorem modeField_other {k i : Nat} (mode : Nat) (h : i < k ∨ k + 3 ≤ i) : (modeField k mode).testBit i = mode.testBit i := by
  unfold modeField
  split
  · rw [testBit_or3]
    have : (decide (k ≤ i) && decide (i < k + 2)) = false := by
      rcases h with h | h
      · simp; omega
      · simp; omega
    rw [this, Bool.or_false]
  · rfl

/-- Other fields stay. -/
theorem modeField_field {k j : Nat} (mode : Nat) (h : j + 3 ≤ k ∨ k + 3 ≤ j) : field j (modeField k mode) = field j mode := by
  rw [field_eq]
  intro i hi
  exact modeField_other mode (by omega)

/-- **Height, heading, pitch and roll that are not given, or given as default, are absolute; the others are as given, and so is every other bit.** -/
theorem worldMode_spec (mode : Nat) :
    (∀ k ∈ [0, 4, 8, 12], field k (worldMode mode) = if field k mode = 0 ∨ field k mode = 1 then 3 else field k mode) ∧
    ∀ i, i = 3 ∨ i = 7 ∨ i = 11 ∨ 15 ≤ i → (worldMode mode).testBit i = mode.testBit i := by
  unfold worldMode
  refine ⟨?_, ?_⟩
  · intro k hk
    simp only [List.mem_cons, List.not_mem_nil, or_false] at hk
    rcases hk with rfl | rfl | rfl | rfl
    · rw [modeField_field _ (by omega), modeField_field _ (by omega), modeField_field _ (by omega), modeField_same]
    · rw [modeField_field _ (by omega), modeField_field _ (by omega), modeField_same, modeField_field _ (by omega)]
    · rw [modeField_field _ (by omega), modeField_same, modeField_field _ (by omega), modeField_field _ (by omega)]
    · rw [modeField_same, modeField_field _ (by omega), modeField_field _ (by omega), modeField_field _ (by omega)]
  · intro i hi
    rw [modeField_other _ (by omega), modeField_other _ (by omega), modeField_other _ (by omega), modeField_other _ (by omega)]

example : worldMode 7 = 13111 := by decide +kernel
example : field 0 7 = 7 ∧ field 4 7 = 0 := by decide

end Verif.Rm

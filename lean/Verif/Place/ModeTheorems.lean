import Verif.Rm.Modes
import Verif.Place.OriTheorems
/-
Position modes of an object: C163.
Code: EnvironmentSimulator/Modules/RoadManager/RoadManager.cpp:11366-11463.

Simplifications
* Modes are natural numbers; `x & ~mask` is `x ^^^ (x &&& mask)`.
-/
namespace Verif.Place
open Verif.Rm (field field_and field_eq)

/-- Modes of a position (RoadManager.hpp:5003-5005). -/
structure ModeSet where
  set : Nat
  update : Nat
  init : Nat
  deriving DecidableEq

/-- One component in `SetMode` (RoadManager.cpp:11417-11434). -/
def putField (dflt mode : Nat) (k old : Nat) : Nat :=
  if mode &&& (1 <<< k) ≠ 0 then
    (old ^^^ (old &&& (7 <<< k))) ||| ((if mode &&& (7 <<< k) = 1 <<< k then dflt else mode) &&& (7 <<< k))
  else old

/-- The loop of `SetMode` (RoadManager.cpp:11417-11434). -/
def putMode (dflt mode old : Nat) : Nat :=
  putField dflt mode 16 (putField dflt mode 12 (putField dflt mode 8 (putField dflt mode 4 (putField dflt mode 0 old))))

/-- `GetModeDefault(SET)`: z, pitch and roll relative, heading absolute, no snap to the route (RoadManager.cpp:11366-11371). -/
def dfltSet : Nat := 7 ||| (3 <<< 4) ||| (7 <<< 8) ||| (7 <<< 12) ||| (3 <<< 16)

/-- `GetModeDefault(UPDATE)` (RoadManager.cpp:11372-11375). -/
def dfltUpdate : Nat := 7 ||| (7 <<< 4) ||| (7 <<< 8) ||| (7 <<< 12) ||| (3 <<< 16)

/-- `SetMode(SET, mode)`. -/
def setSet (mode : Nat) (m : ModeSet) : ModeSet := { m with set := putMode dfltSet mode m.set }

/-- `SetMode(UPDATE, mode)`. -/
def setUpdate (mode : Nat) (m : ModeSet) : ModeSet := { m with update := putMode dfltUpdate mode m.update }

/-- `SetMode(ALL, mode)` (RoadManager.cpp:11391-11397). -/
def setAll (mode : Nat) (m : ModeSet) : ModeSet :=
  let i := putMode 0 mode m.init
  ⟨i, i, i⟩

/-! ### Theorems -/

theorem testBit_7 (k i : Nat) : ((7 : Nat) <<< k).testBit i = (decide (k ≤ i) && decide (i < k + 3)) := by
  rw [Nat.testBit_shiftLeft, show (7 : Nat) = 2 ^ 3 - 1 by rfl, Nat.testBit_two_pow_sub_one]
  by_cases h : k ≤ i
  · simp [h]; omega
  · simp [h]

theorem and_1 (k mode : Nat) : mode &&& (1 <<< k) ≠ 0 ↔ field k mode % 2 = 1 := by
  have h : mode.testBit k = decide (field k mode % 2 = 1) := by
    unfold field
    rw [Nat.mod_mod_of_dvd _ (by decide : 2 ∣ 8), Nat.testBit_eq_decide_div_mod_eq]
  have e : mode &&& (1 <<< k) = 0 ↔ mode.testBit k = false := by
    rw [Nat.shiftLeft_eq, Nat.one_mul]
    constructor
    · intro h0
      have := congrArg (Nat.testBit · k) h0
      simpa [Nat.testBit_and, Nat.testBit_two_pow_self] using this
    · intro h0
      apply Nat.eq_of_testBit_eq
      intro i
      rw [Nat.testBit_and, Nat.testBit_two_pow, Nat.zero_testBit]
      by_cases hi : k = i
      · subst hi; simp [h0]
      · simp [hi]
  rw [ne_eq, e, h]
  simp

theorem eq_1 (k mode : Nat) : mode &&& (7 <<< k) = 1 <<< k ↔ field k mode = 1 := by
  have hp : 0 < 2 ^ k := Nat.two_pow_pos k
  rw [field_and, Nat.shiftLeft_eq]
  exact ⟨fun h => Nat.eq_of_mul_eq_mul_right hp h, fun h => by rw [h]⟩

/-- What becomes of the component itself. -/
theorem putField_same (dflt mode k old : Nat) :
    field k (putField dflt mode k old) = if field k mode % 2 = 1 then (if field k mode = 1 then field k dflt else field k mode) else field k old := by
  unfold putField
  by_cases h : field k mode % 2 = 1
  · rw [if_pos ((and_1 k mode).mpr h), if_pos h]
    have e : ∀ v, field k ((old ^^^ (old &&& (7 <<< k))) ||| (v &&& (7 <<< k))) = field k v := by
      intro v
      rw [field_eq]
      intro i hi
      have hd : (decide (k ≤ i + k) && decide (i + k < k + 3)) = true := by simp; omega
      rw [Nat.testBit_or, Nat.testBit_xor, Nat.testBit_and, Nat.testBit_and, testBit_7, hd]
      simp
    rw [e]
    by_cases h1 : field k mode = 1
    · rw [if_pos ((eq_1 k mode).mpr h1), if_pos h1]
    · rw [if_neg (fun c => h1 ((eq_1 k mode).mp c)), if_neg h1]
  · rw [if_neg (fun c => h ((and_1 k mode).mp c)), if_neg h]

/-- Other bits stay. -/
theorem putField_other (dflt mode k old j : Nat) (hj : j + 3 ≤ k ∨ k + 3 ≤ j) : field j (putField dflt mode k old) = field j old := by
  unfold putField
  split
  · rw [field_eq]
    intro i hi
    have hd : (decide (k ≤ i + j) && decide (i + j < k + 3)) = false := by
      rcases hj with hj | hj
      · simp; omega
      · simp; omega
    rw [Nat.testBit_or, Nat.testBit_xor, Nat.testBit_and, Nat.testBit_and, testBit_7, hd]
    simp
  · rfl

/-- The components: z, heading, pitch, roll and snap to the route. -/
def IsComponent (k : Nat) : Prop := k = 0 ∨ k = 4 ∨ k = 8 ∨ k = 12 ∨ k = 16

/-- C163: every component given in the mode is set as given or, if given as default, to the default; every other one stays. -/
theorem putMode_spec (dflt mode old k : Nat) (hk : IsComponent k) :
    field k (putMode dflt mode old) = if field k mode % 2 = 1 then (if field k mode = 1 then field k dflt else field k mode) else field k old := by
  unfold putMode
  rcases hk with rfl | rfl | rfl | rfl | rfl <;>
    simp only [putField_same, putField_other _ _ _ _ _ (.inl (by decide : 0 + 3 ≤ 4)), putField_other _ _ _ _ _ (.inl (by decide : 0 + 3 ≤ 8)),
      putField_other _ _ _ _ _ (.inl (by decide : 0 + 3 ≤ 12)), putField_other _ _ _ _ _ (.inl (by decide : 0 + 3 ≤ 16)),
      putField_other _ _ _ _ _ (.inl (by decide : 4 + 3 ≤ 8)), putField_other _ _ _ _ _ (.inl (by decide : 4 + 3 ≤ 12)),
      putField_other _ _ _ _ _ (.inl (by decide : 4 + 3 ≤ 16)), putField_other _ _ _ _ _ (.inl (by decide : 8 + 3 ≤ 12)),
      putField_other _ _ _ _ _ (.inl (by decide : 8 + 3 ≤ 16)), putField_other _ _ _ _ _ (.inl (by decide : 12 + 3 ≤ 16)),
      putField_other _ _ _ _ _ (.inr (by decide : 0 + 3 ≤ 4)), putField_other _ _ _ _ _ (.inr (by decide : 0 + 3 ≤ 8)),
      putField_other _ _ _ _ _ (.inr (by decide : 0 + 3 ≤ 12)), putField_other _ _ _ _ _ (.inr (by decide : 0 + 3 ≤ 16)),
      putField_other _ _ _ _ _ (.inr (by decide : 4 + 3 ≤ 8)), putField_other _ _ _ _ _ (.inr (by decide : 4 + 3 ≤ 12)),
      putField_other _ _ _ _ _ (.inr (by decide : 4 + 3 ≤ 16)), putField_other _ _ _ _ _ (.inr (by decide : 8 + 3 ≤ 12)),
      putField_other _ _ _ _ _ (.inr (by decide : 8 + 3 ≤ 16)), putField_other _ _ _ _ _ (.inr (by decide : 12 + 3 ≤ 16))]

/-- What a component should become: `dflt` is its default. -/
def merged (dflt given old : Nat) : Nat := if given % 2 = 1 then (if given = 1 then dflt else given) else old

/-- C163: setting the modes of one type of operation changes the given components of this type only. The defaults are: relative (7) z, pitch and roll, heading absolute (3) for
set operations and relative for updates. Missing: all types at once. -/
theorem set_mode_partial (mode : Nat) (m : ModeSet) (k : Nat) (hk : IsComponent k) :
    field k (setSet mode m).set = merged (if k = 4 ∨ k = 16 then 3 else 7) (field k mode) (field k m.set) ∧ (setSet mode m).update = m.update ∧
    field k (setUpdate mode m).update = merged (if k = 16 then 3 else 7) (field k mode) (field k m.update) ∧ (setUpdate mode m).set = m.set := by
  refine ⟨?_, rfl, ?_, rfl⟩
  · show field k (putMode dfltSet mode m.set) = _
    rw [putMode_spec _ _ _ _ hk]
    have : field k dfltSet = if k = 4 ∨ k = 16 then 3 else 7 := by rcases hk with rfl | rfl | rfl | rfl | rfl <;> decide
    rw [this]; rfl
  · show field k (putMode dfltUpdate mode m.update) = _
    rw [putMode_spec _ _ _ _ hk]
    have : field k dfltUpdate = if k = 16 then 3 else 7 := by rcases hk with rfl | rfl | rfl | rfl | rfl <;> decide
    rw [this]; rfl

example : setSet (1 <<< 4 ||| 3) ⟨dfltSet, dfltUpdate, 0⟩ = ⟨3 ||| (3 <<< 4) ||| (7 <<< 8) ||| (7 <<< 12) ||| (3 <<< 16), dfltUpdate, 0⟩ := by decide

/-- C163 fails with all types at once: components that are not given lose their modes for set and update operations, and components given as default do not get the default. -/
theorem all_fails (mode : Nat) (m : ModeSet) (k : Nat) (hk : IsComponent k) (hi : field k m.init = 0) (hm : field k mode % 2 = 0 ∨ field k mode = 1) :
    field k (setAll mode m).set = 0 ∧ field k (setAll mode m).update = 0 := by
  have : field k (putMode 0 mode m.init) = 0 := by
    rw [putMode_spec _ _ _ _ hk, hi]
    have h0 : field k 0 = 0 := by simp [field]
    rcases hm with hm | hm
    · simp [hm]
    · simp [hm, h0]
  exact ⟨this, this⟩

/-- The mode of heading, pitch or roll as bits. -/
def modeOf (f : Nat) : Mode := if f % 2 = 0 then .skip else if f = 7 then .rel else if f = 3 then .abs else .dflt

/-- C163: so after the absolute z has been asked for, for all types at once, the orientation of the object no longer follows the road. -/
theorem all_z_fails (m : ModeSet) (hi : m.init = 0) (road : RoadOri) (o : Ori) :
    let u := (setAll 3 m).update
    evaluate ⟨modeOf (field 4 u), modeOf (field 8 u), modeOf (field 12 u)⟩ road o = o := by
  intro u
  have e : ∀ k, IsComponent k → k ≠ 0 → field k u = 0 := fun k hk h0 => (all_fails 3 m k hk (by rw [hi]; simp [field]) (by
    rcases hk with rfl | rfl | rfl | rfl | rfl <;> first | exact absurd rfl h0 | (left; decide))).2
  rw [e 4 (by simp [IsComponent]) (by decide), e 8 (by simp [IsComponent]) (by decide), e 12 (by simp [IsComponent]) (by decide)]
  simp [modeOf, evaluate]

end Verif.Place

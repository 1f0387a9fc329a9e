import Verif.Visible.Model
/- Visibility of objects: theorems. -/
namespace Verif.Visible

/-! ## Specification: the bits of the mask as documented for the library (esminiLib.hpp:59) -/

/-- Visible for 0 graphics, 1 traffic, 2 sensors. -/
def See (m : BitVec 32) (k : Nat) : Prop := m.getLsbD k = true

instance (m : BitVec 32) (k : Nat) : Decidable (See m k) := by unfold See; infer_instance

/-- The train of which `x` is a part, from front to rear. -/
inductive Train (tow tr : Nat → Option Nat) : Nat → Nat → Prop
  | refl {x} : Train tow tr x x
  | tow {x y z} : Train tow tr x y → tow y = some z → Train tow tr x z
  | trailer {x y z} : Train tow tr x y → tr y = some z → Train tow tr x z

/-! ## Lemmas -/

theorem and_one_ne (m : BitVec 32) (k : Nat) (hk : k < 32) : m &&& (1#32 <<< k) ≠ 0#32 ↔ m.getLsbD k = true := by
  constructor
  · intro h
    by_cases c : m.getLsbD k = true
    · exact c
    · exfalso
      apply h
      apply BitVec.eq_of_getLsbD_eq
      intro i hi
      by_cases e : i = k
      · subst e
        simp_all
      · simp only [BitVec.getLsbD_and, BitVec.getLsbD_shiftLeft, BitVec.getLsbD_one, BitVec.getLsbD_zero]
        by_cases l : i < k
        · simp [l]
        · have : i - k ≠ 0 := by omega
          simp [this]
  · intro h c
    have := congrArg (fun v => v.getLsbD k) c
    simp only [BitVec.getLsbD_and, BitVec.getLsbD_shiftLeft, h] at this
    simp [hk] at this

theorem see_action (g t s : Bool) : (See (actionMask g t s) 0 ↔ g = true) ∧ (See (actionMask g t s) 1 ↔ t = true) ∧
    (See (actionMask g t s) 2 ↔ s = true) := by
  revert g t s
  decide

/-! ## Theorems -/

/-- C183: a visibility action on an object decides what the object, the vehicle towing it and its trailer are visible for, and
changes no other object. What is missing: the other vehicles of longer trains, see `visibility_train_fails`. -/
theorem visibility_partial (tow tr : Nat → Option Nat) (o : Nat) (g t s : Bool) (st : St) (x : Nat) :
    (x = o ∨ tow o = some x ∨ tr o = some x →
      (See ((visibilityStart tow tr o g t s st).mask x) 0 ↔ g = true) ∧ (See ((visibilityStart tow tr o g t s st).mask x) 1 ↔ t = true) ∧
      (See ((visibilityStart tow tr o g t s st).mask x) 2 ↔ s = true)) ∧
    (x ≠ o → tow o ≠ some x → tr o ≠ some x → (visibilityStart tow tr o g t s st).mask x = st.mask x ∧
      (visibilityStart tow tr o g t s st).dirty x = st.dirty x) := by
  constructor
  · intro h
    have e : (visibilityStart tow tr o g t s st).mask x = actionMask g t s := by
      unfold visibilityStart
      cases h1 : tow o <;> cases h2 : tr o <;> simp only [setMask] <;> grind
    rw [e]
    exact see_action g t s
  · intro h0 h1 h2
    unfold visibilityStart
    cases h1' : tow o <;> cases h2' : tr o <;> simp only [setMask] <;> grind

/-- C183: hiding a truck with two trailers leaves the second trailer visible. -/
theorem visibility_train_fails : ¬ ∀ (tow tr : Nat → Option Nat) (o : Nat) (st : St) (x : Nat), (∀ a b, tow a = some b ↔ tr b = some a) →
    Train tow tr o x → ¬ See ((visibilityStart tow tr o false false false st).mask x) 0 := by
  intro h
  refine h (fun a => if a = 2 then some 1 else if a = 3 then some 2 else none) (fun a => if a = 1 then some 2 else if a = 2 then some 3 else none)
    1 ⟨fun _ => initMask, fun _ => false⟩ 3 ?_ ?_ ?_
  · intro a b
    grind
  · exact .trailer (.trailer .refl (y := 1) (z := 2) rfl) rfl
  · decide

/-- C183: after the action the viewer draws the object exactly if it is visible for graphics, and lets it shine through exactly if
it is not visible for sensors; sensors see it exactly if it is visible for sensors. -/
theorem visibility_shown (tow tr : Nat → Option Nat) (o : Nat) (g t s : Bool) (st : St) (n : Node) (x : Nat)
    (hx : x = o ∨ tow o = some x ∨ tr o = some x) :
    ((callback x (visibilityStart tow tr o g t s st, n)).2.drawn = true ↔ g = true) ∧
    (g = true → ((callback x (visibilityStart tow tr o g t s st, n)).2.transparency = 0 ↔ s = true)) ∧
    (sensed ((visibilityStart tow tr o g t s st).mask x) = true ↔ s = true) := by
  have hm := (visibility_partial tow tr o g t s st x).1 hx
  have hd : (visibilityStart tow tr o g t s st).dirty x = true := by
    unfold visibilityStart
    cases h1 : tow o <;> cases h2 : tr o <;> simp only [setMask] <;> grind
  simp only [See] at hm
  unfold callback sensed
  simp only [hd, if_true, and_one_ne _ 0 (by decide), and_one_ne _ 2 (by decide)]
  simp only [hm.1, hm.2.2]
  cases g <;> cases s <;> simp

/-- C183: the picture of any object that is not marked as changed stays as it is, and drawing again changes nothing. -/
theorem visibility_stable (o : Nat) (s : St × Node) : (s.1.dirty o = false → callback o s = s) ∧ callback o (callback o s) = callback o s ∧
    (callback o s).1.mask = s.1.mask := by
  unfold callback
  refine ⟨?_, ?_, ?_⟩
  · intro h
    simp [h]
  · by_cases h : s.1.dirty o = true <;> simp [h]
  · by_cases h : s.1.dirty o = true <;> simp [h]

/-- C183: in the scenario file only `false` and `False` hide; a missing attribute shows. -/
theorem visibility_attribute (g t s : List Char) :
    ((parseVisibility g t s).1 = false ↔ g = "false".toList ∨ g = "False".toList) ∧
    ((parseVisibility g t s).2.1 = false ↔ t = "false".toList ∨ t = "False".toList) ∧
    ((parseVisibility g t s).2.2 = false ↔ s = "false".toList ∨ s = "False".toList) := by
  refine ⟨?_, ?_, ?_⟩ <;> (simp only [parseVisibility, parseFlag]; split <;> simp_all)

/-- C183: a ghost is never visible for sensors; whether it is visible otherwise does not change, unless ghosts are hidden, then it
is not visible for anything. Other objects are not affected. -/
theorem visibility_ghost (o : Nat) (st : St) :
    (¬ See ((ghostMask false o st).mask o) 2 ∧ ∀ k, k < 2 → (See ((ghostMask false o st).mask o) k ↔ See (st.mask o) k)) ∧
    (∀ k, ¬ See ((ghostMask true o st).mask o) k) ∧
    (∀ hide x, x ≠ o → (ghostMask hide o st).mask x = st.mask x) := by
  refine ⟨⟨?_, ?_⟩, ?_, ?_⟩
  · simp [See, ghostMask, setMask]
  · intro k hk
    have : k = 0 ∨ k = 1 := by omega
    rcases this with rfl | rfl <;> simp [See, ghostMask, setMask]
  · intro k
    simp [See, ghostMask, setMask]
  · intro hide x hx
    simp [ghostMask, setMask, hx]

/-- A car (4) is visible for everything; hidden for sensors it is shown transparent. -/
example : (∀ k, k < 3 → See initMask k) ∧
    (callback 4 (visibilityStart (fun _ => none) (fun _ => none) 4 true true false ⟨fun _ => initMask, fun _ => false⟩, ⟨true, 0⟩)).2 = ⟨true, 6⟩ := by
  decide

/-- A trailer (2) is hidden with its truck (1). -/
example : ¬ See ((visibilityStart (fun a => if a = 2 then some 1 else none) (fun a => if a = 1 then some 2 else none) 2 false true true
    ⟨fun _ => initMask, fun _ => false⟩).mask 1) 0 := by decide

end Verif.Visible

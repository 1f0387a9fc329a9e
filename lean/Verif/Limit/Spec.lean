import Verif.Limit.Model

/-!
# What a speed limit means
-/

namespace Verif.Limit

/-- A length and a time that make up a unit of speed. -/
inductive UnitIs : Text → Rat → Rat → Prop
  | kmh : UnitIs "km/h".toList 1000 3600
  | mph : UnitIs "mph".toList (1609344 / 1000) 3600
  | ms : UnitIs "m/s".toList 1 1

/-- The element that applies at `s`: the one that starts last at or before `s`, or, if there is
none, the first one; of those with the same start the last in the file. -/
def Applies (ns : List TypeNode) (s : Rat) (n : TypeNode) : Prop :=
  ∃ a b, ns = a ++ n :: b ∧
    ((n.s ≤ s ∧ (∀ m ∈ a, m.s ≤ s → m.s ≤ n.s) ∧ ∀ m ∈ b, m.s ≤ s → m.s < n.s) ∨
      ((∀ m ∈ ns, s < m.s) ∧ (∀ m ∈ a, n.s ≤ m.s) ∧ ∀ m ∈ b, n.s < m.s))

/-- The lane section that applies at `s`: the last one that starts at or before `s`, or the first. -/
def SectionApplies (secs : List Section) (s : Rat) (x : Section) : Prop :=
  ∃ a b, secs = a ++ x :: b ∧ (a = [] ∨ x.s ≤ s) ∧ ∀ m ∈ b, s < m.s

/-- Sections start one after the other. -/
def Increasing (secs : List Section) : Prop := secs.Pairwise (fun a b => a.s < b.s)

/-- A lane for driving on the same side of the road as the lane `id`. -/
def SameSide (id : Int) (l : Lane) : Prop := l.driving = true ∧ ((id < 0 ∧ l.id < 0) ∨ (0 ≤ id ∧ 0 < l.id))

/-- Two lanes of a list at different places. -/
def Two (p : Lane → Prop) (ls : List Lane) : Prop :=
  ∃ a x b y c, ls = a ++ x :: b ++ y :: c ∧ p x ∧ p y

/-- The road types of OpenDRIVE in their order. -/
def typeNames : List Text := ["unknown", "rural", "motorway", "town", "lowSpeed", "pedestrian", "bicycle",
  "townArterial", "townCollector", "townExpressway", "townLocal", "townPlayStreet", "townPrivate"].map String.toList

/-- The number by which a unit is reported: 1 is km/h, 2 is m/s, 3 is mph (esminiLib.hpp:1321); without unit
it is m/s. -/
inductive Reports : Text → Nat → Prop
  | kmh : Reports "km/h".toList 1
  | ms : Reports "m/s".toList 2
  | mph : Reports "mph".toList 3
  | none : Reports [] 2

end Verif.Limit

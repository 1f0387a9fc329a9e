/-!
# Points of road marks: what is expected
-/

namespace Verif.Mark.Spec

/-- A property of every two neighbours. -/
def Steps (P : Rat → Rat → Prop) : List Rat → Prop
  | a :: b :: t => P a b ∧ Steps P (b :: t)
  | _ => True

/-- The greatest distance allowed between two points at a given density of the surface. -/
def Longest (maxDist density d : Rat) : Prop :=
  d ≤ 1 / 5 ∨ (d ≤ maxDist ∧ d ≤ maxDist / (1 + 1750 * density))

/-- The segment between two points represents the line, up to a micrometre in its length. -/
def Faithful (straight level : Rat → Rat → Bool) (density : Rat → Rat) (maxDist : Rat)
    (a b : Rat) : Prop :=
  straight a b = true ∧ level a b = true ∧ Longest maxDist (density b) (b - a - 1 / 1000000)

/-- The points run from `s` to `e`. -/
structure Covers (s e : Rat) (pts : List Rat) : Prop where
  first : pts.head? = some s
  ascending : Steps (· < ·) pts
  last : ∃ z, pts.getLast? = some z ∧ e - 2 / 1000000 < z ∧ z ≤ e - 1 / 2000000

end Verif.Mark.Spec

import Verif.FreeDist.Model
/-
Specification of free space distances: points of a box and the distance of two sets.
-/
namespace Verif.FreeDist

/-- The point is in the bounding box enlarged by `e` on every side: seen from the object it is at most half the
length (plus `e`) ahead of or behind the centre of the box, and at most half the width (plus `e`) to the side. -/
def Inside (b : Box) (e : ℝ) (px py : ℝ) : Prop :=
  ∃ u v : ℝ, |u| ≤ b.len / 2 + e ∧ |v| ≤ b.wid / 2 + e ∧
    px = b.x + ((b.cx + u) * Real.cos b.h - (b.cy + v) * Real.sin b.h) ∧
    py = b.y + ((b.cx + u) * Real.sin b.h + (b.cy + v) * Real.cos b.h)

/-- Distance of two points. -/
noncomputable def apart (px py qx qy : ℝ) : ℝ := Real.sqrt ((px - qx) ^ 2 + (py - qy) ^ 2)

/-- Along the direction (dx, dy) every point of `b` is more than a millionth beyond every point of `a`. -/
def Beyond (a b : Box) (dx dy : ℝ) : Prop :=
  ∀ px py qx qy, Inside a 0 px py → Inside b 0 qx qy → dx * px + dy * py + 1 / 1000000 < dx * qx + dy * qy

/-- Along the length or the width of one of the boxes there is a gap of more than a millionth. -/
def Separated (a b : Box) : Prop :=
  ∃ dx dy, (Beyond a b dx dy ∨ Beyond b a dx dy) ∧
    ∃ h, (h = a.h ∨ h = b.h) ∧ ((dx = Real.cos h ∧ dy = Real.sin h) ∨ (dx = -Real.sin h ∧ dy = Real.cos h))

/-- Both sides of the box are at least two millionths of a metre long. -/
structure Sized (b : Box) : Prop where
  len : 2 / 1000000 ≤ b.len
  wid : 2 / 1000000 ≤ b.wid

end Verif.FreeDist

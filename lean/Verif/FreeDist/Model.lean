import Verif.Geom.LineModel
/-
Model of the free space distance between two objects, and between an object and a point, in the plane.
Code: EnvironmentSimulator/Modules/ScenarioEngine/SourceFiles/Entities.cpp:387-553 (called with distances), 555-638,
640-723, 725-792 and EnvironmentSimulator/Modules/CommonMini/CommonMini.cpp:786-790.

Simplifications: doubles are real numbers. The lateral and longitudinal distances which the overlap test writes are
modelled in Verif/Collision/BoxModel.lean.
-/
namespace Verif.FreeDist

open Verif.Geom

/-- `LARGE_NUMBER`, CommonMini.hpp:53. -/
noncomputable def large : ℝ := 10000000000

/-- Position, heading and bounding box of an object. -/
structure Box where
  x : ℝ
  y : ℝ
  /-- `pos_.GetH()` -/
  h : ℝ
  /-- `boundingbox_.center_` -/
  cx : ℝ
  cy : ℝ
  /-- `boundingbox_.dimensions_` -/
  len : ℝ
  wid : ℝ

/-- `RotateVec2D`, CommonMini.cpp:786-790. -/
noncomputable def rotate (x y angle : ℝ) : ℝ × ℝ :=
  (x * Real.cos angle - y * Real.sin angle, x * Real.sin angle + y * Real.cos angle)

/-- `vtmp[j]`, Entities.cpp:676-683, 747-754 and `vertices[l]`, 598-605. -/
noncomputable def corner (b : Box) : Fin 4 → ℝ × ℝ
  | 0 => (b.cx + b.len / 2, b.cy + b.wid / 2)
  | 1 => (b.cx - b.len / 2, b.cy + b.wid / 2)
  | 2 => (b.cx - b.len / 2, b.cy - b.wid / 2)
  | 3 => (b.cx + b.len / 2, b.cy - b.wid / 2)

/-- `vertices[i][j]`, Entities.cpp:688-690, 759-761. -/
noncomputable def vertex (b : Box) (j : Fin 4) : ℝ × ℝ :=
  ((rotate (corner b j).1 (corner b j).2 b.h).1 + b.x, (rotate (corner b j).1 (corner b j).2 b.h).2 + b.y)

/-- The next corner, `(k + 1) % 4`, Entities.cpp:707-708, 771-772. -/
def next : Fin 4 → Fin 4
  | 0 => 1
  | 1 => 2
  | 2 => 3
  | 3 => 0

/-- `tmpDist`, Entities.cpp:704-712, 768-776: from a point to side `k`. -/
noncomputable def toSide (p : ℝ × ℝ) (b : Box) (k : Fin 4) : ℝ :=
  edgeDist p.1 p.2 (vertex b k).1 (vertex b k).2 (vertex b (next k)).1 (vertex b (next k)).2

/-- One round of the innermost loop, Entities.cpp:714-717. -/
noncomputable def shrink (m d : ℝ) : ℝ := if d < m then d else m

/-- The loop over the sides, Entities.cpp:702-718. -/
noncomputable def overSides (p : ℝ × ℝ) (b : Box) (m : ℝ) : ℝ :=
  [0, 1, 2, 3].foldl (fun m k => shrink m (toSide p b k)) m

/-- The loop over the corners of one box, Entities.cpp:698-719. -/
noncomputable def overCorners (a b : Box) (m : ℝ) : ℝ :=
  [0, 1, 2, 3].foldl (fun m j => overSides (vertex a j) b m) m

/-- A corner projected on an axis, Entities.cpp:490-492, 612-614. -/
noncomputable def proj (b : Box) (n : ℝ × ℝ) (l : Fin 4) : ℝ :=
  dot2 (b.x + (rotate (corner b l).1 (corner b l).2 b.h).1) (b.y + (rotate (corner b l).1 (corner b l).2 b.h).2) n.1 n.2

/-- `min[k]` after the loop, Entities.cpp:494-502, 616-624. -/
noncomputable def lo (b : Box) (n : ℝ × ℝ) : ℝ := min (proj b n 3) (min (proj b n 2) (min (proj b n 1) (proj b n 0)))

/-- `max[k]` after the loop, Entities.cpp:494-502, 616-624. -/
noncomputable def hi (b : Box) (n : ℝ × ℝ) : ℝ := max (proj b n 3) (max (proj b n 2) (max (proj b n 1) (proj b n 0)))

/-- The condition for a gap between two boxes on an axis, Entities.cpp:506-507. -/
def gapOn (a b : Box) (n : ℝ × ℝ) : Prop :=
  (lo a n < lo b n - small ∧ hi a n < lo b n - small) ∨ (hi a n > hi b n + small ∧ lo a n > hi b n + small)

/-- `CollisionAndRelativeDistLatLong` with distances asked for, Entities.cpp:387-553: no gap on the axes of either box. -/
def noGap (a b : Box) : Prop :=
  ¬ gapOn a b (rotate 0 1 a.h) ∧ ¬ gapOn a b (rotate 1 0 a.h) ∧ ¬ gapOn b a (rotate 0 1 b.h) ∧ ¬ gapOn b a (rotate 1 0 b.h)

open Classical in
/-- `Object::FreeSpaceDistance`, Entities.cpp:640-723, with the distances asked for, as all callers do. -/
noncomputable def freeDist (a : Box) (target : Option Box) : ℝ :=
  match target with
  | none => large
  | some b => if noGap a b then 0 else overCorners b a (overCorners a b large)

/-- The condition for a gap, Entities.cpp:629-630. -/
def pointGap (b : Box) (p : ℝ × ℝ) (n : ℝ × ℝ) : Prop :=
  (lo b n < dot2 p.1 p.2 n.1 n.2 - small ∧ hi b n < dot2 p.1 p.2 n.1 n.2 - small) ∨
  (hi b n > dot2 p.1 p.2 n.1 n.2 + small ∧ lo b n > dot2 p.1 p.2 n.1 n.2 + small)

/-- `Object::PointCollision`, Entities.cpp:555-638. -/
def pointHit (b : Box) (p : ℝ × ℝ) : Prop := ¬ pointGap b p (rotate 0 1 b.h) ∧ ¬ pointGap b p (rotate 1 0 b.h)

/-- What `FreeSpaceDistancePoint` returns and writes. -/
structure PointDist where
  dist : ℝ
  lat : ℝ
  long : ℝ

/-- `xProj`, `yProj`, Entities.cpp:774-776. -/
noncomputable def onSide (p : ℝ × ℝ) (b : Box) (k : Fin 4) : ℝ × ℝ :=
  edgePoint p.1 p.2 (vertex b k).1 (vertex b k).2 (vertex b (next k)).1 (vertex b (next k)).2

/-- One round of the loop over the sides, Entities.cpp:766-789. -/
noncomputable def pointRound (b : Box) (p : ℝ × ℝ) (r : PointDist) (k : Fin 4) : PointDist :=
  if toSide p b k < r.dist then
    { dist := toSide p b k
      long := (rotate (p.1 - (onSide p b k).1) (p.2 - (onSide p b k).2) (-b.h)).1
      lat := (rotate (p.1 - (onSide p b k).1) (p.2 - (onSide p b k).2) (-b.h)).2 }
  else r

open Classical in
/-- `Object::FreeSpaceDistancePoint`, Entities.cpp:725-792. -/
noncomputable def freeDistPoint (b : Box) (p : ℝ × ℝ) : PointDist :=
  if pointHit b p then { dist := 0, lat := 0, long := 0 }
  else [0, 1, 2, 3].foldl (pointRound b p) { dist := large, lat := large, long := large }

end Verif.FreeDist

import Verif.Geom.AngleModel
/-
Model of the functions on points, lines and circles in the plane.
Code: EnvironmentSimulator/Modules/CommonMini/CommonMini.cpp:431-817, 1567-1575, 1608-1617.

Simplifications: doubles are real numbers; results written through references are returned.
-/
namespace Verif.Geom

/-- `PointDistance2D`, CommonMini.cpp:621-624. -/
noncomputable def pointDist (x0 y0 x1 y1 : ℝ) : ℝ :=
  Real.sqrt ((x1 - x0) * (x1 - x0) + (y1 - y0) * (y1 - y0))

/-- `GetCrossProduct2D`, CommonMini.cpp:1567-1570. -/
def cross2 (x1 y1 x2 y2 : ℝ) : ℝ := x1 * y2 - x2 * y1

/-- `GetDotProduct2D`, CommonMini.cpp:1572-1575. -/
def dot2 (x1 y1 x2 y2 : ℝ) : ℝ := x1 * x2 + y1 * y2

/-- `GetIntersectionOfTwoLineSegments`, CommonMini.cpp:431-457; `none` for return value -1. -/
noncomputable def lineIntersection (ax1 ay1 ax2 ay2 bx1 by1 bx2 by2 : ℝ) : Option (ℝ × ℝ) :=
  if |(ax1 - ax2) * (by1 - by2) - (ay1 - ay2) * (bx1 - bx2)| < small then none
  else
    some (ax1 + ((ax1 - bx1) * (by1 - by2) - (ay1 - by1) * (bx1 - bx2))
        / ((ax1 - ax2) * (by1 - by2) - (ay1 - ay2) * (bx1 - bx2)) * (ax2 - ax1),
      ay1 + ((ax1 - bx1) * (by1 - by2) - (ay1 - by1) * (bx1 - bx2))
        / ((ax1 - ax2) * (by1 - by2) - (ay1 - ay2) * (bx1 - bx2)) * (ay2 - ay1))

/-- The coefficients `A`, `B`, `C` in CommonMini.cpp:469-473. -/
def circleA (p0x p0y p1x p1y : ℝ) : ℝ := (p1x - p0x) * (p1x - p0x) + (p1y - p0y) * (p1y - p0y)
@[inherit_doc circleA]
def circleB (p0x p0y p1x p1y cx cy : ℝ) : ℝ :=
  2 * ((p1x - p0x) * (p0x - cx) + (p1y - p0y) * (p0y - cy))
@[inherit_doc circleA]
def circleC (p0x p0y cx cy r : ℝ) : ℝ :=
  (p0x - cx) * (p0x - cx) + (p0y - cy) * (p0y - cy) - r * r

/-- The points at the parameters of the quadratic formula, CommonMini.cpp:474-501. -/
noncomputable def circlePoints (a b c p0x p0y dx dy : ℝ) : Option (List (ℝ × ℝ)) :=
  if b * b - 4 * a * c < -small then some []
  else if |b * b - 4 * a * c - 0| < small then
    some [(p0x + -b / (2 * a) * dx, p0y + -b / (2 * a) * dy)]
  else if b * b - 4 * a * c < 0 then none
  else some [(p0x + (-b + Real.sqrt (b * b - 4 * a * c)) / (2 * a) * dx,
      p0y + (-b + Real.sqrt (b * b - 4 * a * c)) / (2 * a) * dy),
    (p0x + (-b - Real.sqrt (b * b - 4 * a * c)) / (2 * a) * dx,
      p0y + (-b - Real.sqrt (b * b - 4 * a * c)) / (2 * a) * dy)]

/-- `GetIntersectionsOfLineAndCircle`, CommonMini.cpp:459-503: the list of the points found, `none` if
the root of a negative number is taken (NaN). -/
noncomputable def circleIntersections (p0x p0y p1x p1y cx cy r : ℝ) : Option (List (ℝ × ℝ)) :=
  circlePoints (circleA p0x p0y p1x p1y) (circleB p0x p0y p1x p1y cx cy) (circleC p0x p0y cx cy r)
    p0x p0y (p1x - p0x) (p1y - p0y)

/-- The first part of `PointInBetweenVectorEndpoints`, CommonMini.cpp:509-537: inside and `sNorm`. -/
noncomputable def betweenRaw (x3 y3 x1 y1 x2 y2 : ℝ) : Prop × ℝ :=
  if |y2 - y1| < small ∧ |x2 - x1| < small then (True, 0)
  else if |x2 - x1| < |y2 - y1| then
    (if y2 > y1 then ¬(y3 < y1 ∨ y3 > y2) else ¬(y3 > y1 ∨ y3 < y2), (y3 - y1) / (y2 - y1))
  else
    (if x2 > x1 then ¬(x3 < x1 ∨ x3 > x2) else ¬(x3 > x1 ∨ x3 < x2), (x3 - x1) / (x2 - x1))

open Classical in
/-- `PointInBetweenVectorEndpoints`, CommonMini.cpp:505-551. -/
noncomputable def between (x3 y3 x1 y1 x2 y2 : ℝ) : Prop × ℝ :=
  if ¬ (betweenRaw x3 y3 x1 y1 x2 y2).1 then
    ((betweenRaw x3 y3 x1 y1 x2 y2).1,
      if (betweenRaw x3 y3 x1 y1 x2 y2).2 < 0 then -pointDist x3 y3 x1 y1
      else pointDist x3 y3 x2 y2)
  else betweenRaw x3 y3 x1 y1 x2 y2

/-- `ProjectPointOnLine2D`, CommonMini.cpp:678-701, the point. -/
noncomputable def projectOnLine (x y vx1 vy1 vx2 vy2 : ℝ) : ℝ × ℝ :=
  if |vx2 - vx1| < small ∧ |vy2 - vy1| < small then (vx1, vy1)
  else
    (x - ((vy2 - vy1) * (x - vx1) - (vx2 - vx1) * (y - vy1))
        / ((vy2 - vy1) * (vy2 - vy1) + (vx2 - vx1) * (vx2 - vx1)) * (vy2 - vy1),
      y + ((vy2 - vy1) * (x - vx1) - (vx2 - vx1) * (y - vy1))
        / ((vy2 - vy1) * (vy2 - vy1) + (vx2 - vx1) * (vx2 - vx1)) * (vx2 - vx1))

open Classical in
/-- The nearest point found by `DistanceFromPointToEdge2D`, CommonMini.cpp:560-589. -/
noncomputable def edgePoint (x3 y3 x1 y1 x2 y2 : ℝ) : ℝ × ℝ :=
  if (between (projectOnLine x3 y3 x1 y1 x2 y2).1 (projectOnLine x3 y3 x1 y1 x2 y2).2 x1 y1 x2 y2).1
  then projectOnLine x3 y3 x1 y1 x2 y2
  else if (between (projectOnLine x3 y3 x1 y1 x2 y2).1 (projectOnLine x3 y3 x1 y1 x2 y2).2
      x1 y1 x2 y2).2 < 0 then (x1, y1)
  else (x2, y2)

/-- `DistanceFromPointToEdge2D`, CommonMini.cpp:553-592. In each branch the distance is the one to the
point returned. -/
noncomputable def edgeDist (x3 y3 x1 y1 x2 y2 : ℝ) : ℝ :=
  pointDist x3 y3 (edgePoint x3 y3 x1 y1 x2 y2).1 (edgePoint x3 y3 x1 y1 x2 y2).2

/-- `DistanceFromPointToLine2DWithAngle`, CommonMini.cpp:610-613. -/
noncomputable def lineAngleDist (x3 y3 x1 y1 angle : ℝ) : ℝ :=
  (x3 - x1) * Real.sin angle - (y3 - y1) * Real.cos angle

/-- `PointSideOfVec`, CommonMini.cpp:615-619. -/
noncomputable def sideOfVec (px py vx1 vy1 vx2 vy2 : ℝ) : ℝ :=
  sign (cross2 (vx2 - vx1) (px - vx1) (vy2 - vy1) (py - vy1))

/-- `PointToLineDistance2DSigned`, CommonMini.cpp:626-633. -/
noncomputable def lineDistSigned (px py lx0 ly0 lx1 ly1 : ℝ) : ℝ :=
  cross2 (lx1 - lx0) (ly1 - ly0) (px - lx0) (py - ly0)
    / Real.sqrt ((lx1 - lx0) * (lx1 - lx0) + (ly1 - ly0) * (ly1 - ly0))

/-- `ProjectPointOnVector2D`, CommonMini.cpp:703-718. -/
noncomputable def projectOnVector (x0 y0 x1 y1 : ℝ) : ℝ × ℝ :=
  if dot2 x1 y1 x1 y1 > small then
    (x1 * (dot2 x0 y0 x1 y1 / dot2 x1 y1 x1 y1), y1 * (dot2 x0 y0 x1 y1 / dot2 x1 y1 x1 y1))
  else (0, 0)

open Classical in
/-- `ProjectPointOnVector2DSignedLength`, CommonMini.cpp:720-731. -/
noncomputable def projectSigned (x0 y0 x1 y1 : ℝ) : ℝ :=
  if sign (projectOnVector x0 y0 x1 y1).1 ≠ sign x1 ∨ sign (projectOnVector x0 y0 x1 y1).2 ≠ sign y1
  then Real.sqrt ((projectOnVector x0 y0 x1 y1).1 * (projectOnVector x0 y0 x1 y1).1
      + (projectOnVector x0 y0 x1 y1).2 * (projectOnVector x0 y0 x1 y1).2) * -1
  else Real.sqrt ((projectOnVector x0 y0 x1 y1).1 * (projectOnVector x0 y0 x1 y1).1
      + (projectOnVector x0 y0 x1 y1).2 * (projectOnVector x0 y0 x1 y1).2)

/-- `RotateVec2D`, CommonMini.cpp:786-790. -/
noncomputable def rotate (x y angle : ℝ) : ℝ × ℝ :=
  (x * Real.cos angle - y * Real.sin angle, x * Real.sin angle + y * Real.cos angle)

/-- `Global2LocalCoordinates`, CommonMini.cpp:792-804. -/
noncomputable def global2Local (xt yt xh yh angle : ℝ) : ℝ × ℝ :=
  ((xt - xh) * Real.cos angle - (yt - yh) * Real.sin angle,
    (xt - xh) * Real.sin angle + (yt - yh) * Real.cos angle)

/-- `Local2GlobalCoordinates`, CommonMini.cpp:806-817. -/
noncomputable def local2Global (xh yh theta xl yl : ℝ) : ℝ × ℝ :=
  (xl * Real.cos (-theta) + yl * Real.sin (-theta) + xh,
    yl * Real.cos (-theta) - xl * Real.sin (-theta) + yh)

/-- `NormalizeVec2D`, CommonMini.cpp:1608-1617. -/
noncomputable def normalize (x y : ℝ) : ℝ × ℝ :=
  if Real.sqrt (x * x + y * y) < small then (x / small, y / small)
  else (x / Real.sqrt (x * x + y * y), y / Real.sqrt (x * x + y * y))

end Verif.Geom

import Verif.Common.Macros
/-
Overlap test of two bounding boxes, the longitudinal and lateral gap it measures, and the test for a point.

Modelled: Entities.cpp:387-553 (Object::CollisionAndRelativeDistLatLong), 555-638 (Object::PointCollision),
Entities.hpp:383-386 (Object::Collision), CommonMini.cpp:786-790 (RotateVec2D), 1572-1575 (GetDotProduct2D),
RoadManager.cpp:11603-11619 (Position::getRelativeDistance, its magnitude).

Simplifications: numbers are exact; cosine and sine of the heading are given as two numbers; the comparison of two
square roots is done on the squares.
-/
namespace Verif.Collision

open Verif.Common

/-- Position, heading (as cosine and sine) and bounding box of an object. -/
structure Box where
  x : Rat
  y : Rat
  z : Rat
  /-- `cos(pos_.GetH())` -/
  c : Rat
  /-- `sin(pos_.GetH())` -/
  s : Rat
  /-- `boundingbox_.center_.x_` -/
  cx : Rat
  /-- `boundingbox_.center_.y_` -/
  cy : Rat
  /-- `boundingbox_.dimensions_.length_` -/
  len : Rat
  /-- `boundingbox_.dimensions_.width_` -/
  wid : Rat
deriving DecidableEq

/-- `RotateVec2D`, CommonMini.cpp:786-790. -/
def rotate (x y c s : Rat) : Rat × Rat := (x * c - y * s, x * s + y * c)

/-- `GetDotProduct2D`, CommonMini.cpp:1572-1575. -/
def dot (x1 y1 x2 y2 : Rat) : Rat := x1 * x2 + y1 * y2

/-- `vertices[l]`, Entities.cpp:476-483, 598-605. -/
def vertex (b : Box) : Fin 4 → Rat × Rat
  | 0 => (b.cx + b.len / 2, b.cy + b.wid / 2)
  | 1 => (b.cx - b.len / 2, b.cy + b.wid / 2)
  | 2 => (b.cx - b.len / 2, b.cy - b.wid / 2)
  | 3 => (b.cx + b.len / 2, b.cy - b.wid / 2)

/-- Corner `l` of the box, turned to the heading, projected on an axis, Entities.cpp:490-492. -/
def proj (b : Box) (n : Rat × Rat) (l : Fin 4) : Rat :=
  dot (b.x + (rotate (vertex b l).1 (vertex b l).2 b.c b.s).1) (b.y + (rotate (vertex b l).1 (vertex b l).2 b.c b.s).2) n.1 n.2

/-- `min[k]` after the loop over the corners, Entities.cpp:494-502. -/
def lo (b : Box) (n : Rat × Rat) : Rat := minR (proj b n 3) (minR (proj b n 2) (minR (proj b n 1) (proj b n 0)))

/-- `max[k]` after the loop over the corners, Entities.cpp:494-502. -/
def hi (b : Box) (n : Rat × Rat) : Rat := maxR (proj b n 3) (maxR (proj b n 2) (maxR (proj b n 1) (proj b n 0)))

/-- The target is beyond the pivot on the axis, Entities.cpp:506, 520. -/
def ahead (a b : Box) (n : Rat × Rat) : Bool := decide (lo a n < lo b n - small) && decide (hi a n < lo b n - small)

/-- The condition for a gap on an axis, Entities.cpp:506-507. -/
def gapOn (a b : Box) (n : Rat × Rat) : Bool :=
  ahead a b n || (decide (hi a n > hi b n + small) && decide (lo a n > hi b n + small))

/-- Axis `j` of a box: 0 lateral, 1 longitudinal, Entities.cpp:451-466. -/
def axis (b : Box) : Fin 2 → Rat × Rat
  | 0 => rotate 0 1 b.c b.s
  | 1 => rotate 1 0 b.c b.s

/-- No gap on the axes of either box, Entities.cpp:439-550, called without distances. -/
def noGap (a b : Box) : Bool := !gapOn a b (axis a 0) && !gapOn a b (axis a 1) && !gapOn b a (axis b 0) && !gapOn b a (axis b 1)

/-- Further apart than the diagonal of a box with the summed dimensions, Entities.cpp:420-431. -/
def farApart (a b : Box) : Bool :=
  decide ((b.x - a.x) * (b.x - a.x) + (b.y - a.y) * (b.y - a.y) > (a.len + b.len) * (a.len + b.len) + (a.wid + b.wid) * (a.wid + b.wid))

/-- `ELEVATION_DIFF_THRESHOLD`, Entities.cpp:21. -/
def elevationDiff : Rat := 5 / 2

/-- `Object::Collision`, Entities.hpp:383-386: `CollisionAndRelativeDistLatLong` without distances, Entities.cpp:387-553. -/
def collision (a b : Box) : Bool :=
  if farApart a b then false else if absR (a.z - b.z) > elevationDiff then false else noGap a b

/-- The distance stored for one axis of the pivot, Entities.cpp:517-546: 0 without a gap. -/
def gapDist (a b : Box) (n : Rat × Rat) : Rat :=
  if gapOn a b n then (if ahead a b n then lo b n - hi a n else -(lo a n - hi b n)) else 0

/-- `distLat`, Entities.cpp:522-526, 535-539. -/
def distLat (a b : Box) : Rat := gapDist a b (axis a 0)

/-- `distLong`, Entities.cpp:527-531, 540-544. -/
def distLong (a b : Box) : Rat := gapDist a b (axis a 1)

/-- `Object::PointCollision`, Entities.cpp:555-638: gap between the box and a point on axis `j`. -/
def pointGap (b : Box) (x y : Rat) (n : Rat × Rat) : Bool :=
  (decide (lo b n < dot x y n.1 n.2 - small) && decide (hi b n < dot x y n.1 n.2 - small)) ||
  (decide (hi b n > dot x y n.1 n.2 + small) && decide (lo b n > dot x y n.1 n.2 + small))

/-- `Object::PointCollision`, Entities.cpp:555-638. -/
def pointCollision (b : Box) (x y : Rat) : Bool := !pointGap b x y (axis b 0) && !pointGap b x y (axis b 1)

end Verif.Collision

import Verif.Spring.Model
import Verif.Geom.LineModel
import Verif.Geom.AngleModel
/-
Lateral distance action in the coordinate system of the reference entity, its rigid motion in the road coordinate system, and reading of its attributes: C166.
Code: EnvironmentSimulator/Modules/ScenarioEngine/OSCTypeDefs/OSCPrivateAction.cpp:2028-2094, 2097-2281,
EnvironmentSimulator/Modules/ScenarioEngine/SourceFiles/ScenarioReader.cpp:3108-3156.

Simplifications
* Real arithmetic. Positions are x, y and heading, as set by `SetInertiaPos`. The limit of the acceleration is not zero.
* Rigid motion: both entities are on one straight road of heading `phi`, on which `XYZ2TrackPos` and `SetLanePos` keep the point. Whether an entity faces along the road is
  given.
* Scenario files of version 1.1 or later.
-/
namespace Verif.Spring
open Verif.Geom (rotate projectOnLine circleIntersections angleOfVector angleDiff absAngleDiff interval2PI atan2)
open Real

/-- Position and heading. -/
structure Body where
  x : ℝ
  y : ℝ
  h : ℝ

/-- `target_pos` (OSCPrivateAction.cpp:2108-2127). -/
noncomputable def aim (d : ℝ) (ref o : Body) : ℝ × ℝ :=
  let axis := rotate 1 0 ref.h
  let off := rotate 0 d ref.h
  projectOnLine o.x o.y (ref.x + off.1) (ref.y + off.2) (ref.x + off.1 + axis.1) (ref.y + off.2 + axis.2)

/-- `dist` (OSCPrivateAction.cpp:2129-2130). -/
noncomputable def gap (d : ℝ) (ref o : Body) : ℝ :=
  √(((aim d ref o).1 - o.x) * ((aim d ref o).1 - o.x) + ((aim d ref o).2 - o.y) * ((aim d ref o).2 - o.y))

/-- Without limit of the acceleration (OSCPrivateAction.cpp:2132-2147). -/
noncomputable def instant (v dt d : ℝ) (ref o : Body) : Body :=
  let axis := rotate 1 0 ref.h
  let t := aim d ref o
  if gap d ref o < |v| * dt then
    let rest := |v| * dt - gap d ref o
    ⟨t.1 + axis.1 * rest, t.2 + axis.2 * rest, ref.h⟩
  else ⟨t.1, t.2, ref.h⟩

/-- `turn_radius` (OSCPrivateAction.cpp:2165). -/
noncomputable def turnRadius (a v : ℝ) : ℝ := max (1 / 2) (3 / 2 * v ^ 2 / min |a| 1000)

/-- `dh_max` (OSCPrivateAction.cpp:2166). -/
noncomputable def dhMax (a v dt : ℝ) : ℝ := min (|v / turnRadius a v * dt| * (3 / 2)) (π - small)

/-- Straight to the line (OSCPrivateAction.cpp:2170-2196). `none`: less than two points are found, and the others are not initialised. -/
noncomputable def straight (step d : ℝ) (ref o : Body) : Option Body :=
  let axis := rotate 1 0 ref.h
  let off := rotate 0 d ref.h
  match circleIntersections (ref.x + off.1) (ref.y + off.2) (ref.x + off.1 + axis.1) (ref.y + off.2 + axis.2) o.x o.y step with
  | some [i0, i1] =>
    let h0 := angleOfVector (i0.1 - o.x) (i0.2 - o.y)
    let h1 := angleOfVector (i1.1 - o.x) (i1.2 - o.y)
    if absAngleDiff π h0 ref.h < absAngleDiff π h1 ref.h then some ⟨i0.1, i0.2, h0⟩ else some ⟨i1.1, i1.2, h1⟩
  | _ => none

/-- Change of the heading towards the line (OSCPrivateAction.cpp:2200-2227). -/
noncomputable def turn (a v dt d : ℝ) (ref o : Body) : ℝ :=
  let axis := rotate 1 0 ref.h
  let t := aim d ref o
  let R := turnRadius a v
  if gap d ref o > R - small then absLimit (angleDiff π (atan2 (t.2 - o.y) (t.1 - o.x)) o.h) (dhMax a v dt)
  else
    let hd := angleDiff π (angleOfVector (t.1 - o.x) (t.2 - o.y)) o.h
    let hh := angleDiff π (angleOfVector axis.1 axis.2) o.h
    let da := v * dt / R
    let angle := max (arccos (1 - gap d ref o / R)) (da / 2)
    let w := (2 * angle - da / 2) / π
    let w := 3 * w ^ 2 - 2 * w ^ 3
    absLimit (w * hd + (1 - w) * hh) (dhMax a v dt)

/-- With a limit of the acceleration (OSCPrivateAction.cpp:2148-2235). -/
noncomputable def limited (a v dt d : ℝ) (ref o : Body) : Option Body :=
  let step := v * dt
  if gap d ref o < small then
    let n := rotate 1 0 ref.h
    some ⟨o.x + n.1 * step, o.y + n.2 * step, ref.h⟩
  else if gap d ref o < step / 2 - small ∧ step / 2 > turnRadius a v - small then straight step d ref o
  else
    let h := interval2PI π (o.h + turn a v dt d ref o)
    some ⟨o.x + cos h * step, o.y + sin h * step, h⟩

/-- `LatDistanceAction::Step` in the entity coordinate system (OSCPrivateAction.cpp:2106-2238): new position, and whether the action ended. `acc`: limit of the acceleration,
if there is one; `d` is `distance_` after `Start` (`latStart`). -/
noncomputable def entityStep (acc : Option ℝ) (_continuous : Bool) (v dt d : ℝ) (ref o : Body) : Option (Body × Bool) :=
  match acc with
  | none => some (instant v dt d ref o, false)
  | some a => (limited a v dt d ref o).map fun b => (b, false)

/-! ### Rigid motion on a straight road -/

/-- Whether `GetDistanceError` takes the entities for facing the same direction (OSCPrivateAction.cpp:2082-2087), with `dDirection` as on one road
(RoadManager.cpp:11725-11758). -/
def facing (own ref : Bool) : Bool := (own && (ref == own)) || (!own && !(ref == own))

/-- State of the rigid motion: the entity and its place after the last step. -/
structure Rigid where
  body : Body
  old : ℝ × ℝ

/-- Lateral position on the road. -/
noncomputable def lateralOf (phi x y : ℝ) : ℝ := y * cos phi - x * sin phi

/-- MOVE_RIGID (OSCPrivateAction.cpp:2028-2051, 2249-2281): new state, and whether the action ended. -/
noncomputable def rigidStep (phi : ℝ) (continuous own ref : Bool) (distance tRef : ℝ) (r : Rigid) : Rigid × Bool :=
  let e := latError (facing own ref) (lateralOf phi r.body.x r.body.y - tRef) distance
  let x := r.body.x - sin phi * e
  let y := r.body.y + cos phi * e
  (⟨⟨x, y, atan2 (y - r.old.2) (x - r.old.1)⟩, (x, y)⟩, !continuous && decide (|e| < latThreshold))

/-! ### Attributes -/

/-- Attribute `displacement` (ScenarioReader.cpp:3129-3148); `none`: the program quits. -/
def readSide (s : List Char) : Option Side :=
  if s = [] then some .any
  else if s = "leftToReferencedEntity".toList then some .left
  else if s = "rightToReferencedEntity".toList then some .right
  else none

/-- Attribute `continuous` (ScenarioReader.cpp:3113). -/
def readContinuous (s : List Char) : Bool := s = "true".toList

/-- Attribute `freespace` (ScenarioReader.cpp:3121). -/
def readFreespace (s : List Char) : Bool := s = "true".toList ∨ s = "1".toList

end Verif.Spring

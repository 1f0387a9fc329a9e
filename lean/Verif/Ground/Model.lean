import Verif.Geom.AngleModel
import Verif.Geom.LineModel

/-
`ScenarioEngine::prepareGroundTruth`, ScenarioEngine.cpp:629-781 (motion of an entity after a step, odometer, wheels and
trail), the placing of trailers (ScenarioEngine.cpp:271-318, Entities.cpp:1829-1851) and the rear axle
(ScenarioEngine.cpp:320-359).

Simplifications: doubles are reals; pitch and roll, route positions and wheel friction are left out. Ghosts during a
restart, for which the function does nothing, are left out. `SetInertiaPos` sets position and heading as given.
-/
namespace Verif.Ground
open Verif.Geom

/-- Position, heading and motion of an entity as seen by users. -/
structure Kin where
  x : ℝ
  y : ℝ
  z : ℝ
  h : ℝ
  vx : ℝ
  vy : ℝ
  vz : ℝ
  ax : ℝ
  ay : ℝ
  az : ℝ
  hRate : ℝ
  hAcc : ℝ
  speed : ℝ

/-- The bits of `Object::DirtyBit` that matter: which values were reported during the step. -/
structure Bits where
  vel : Bool
  speed : Bool
  acc : Bool
  rate : Bool
  rateAcc : Bool
  teleport : Bool

/-- `state_old`. -/
structure Old where
  x : ℝ
  y : ℝ
  z : ℝ
  vx : ℝ
  vy : ℝ
  vz : ℝ
  h : ℝ
  hRate : ℝ

/-- The velocity vector along the heading, ScenarioEngine.cpp:662-663 and 727. -/
noncomputable def velHeading (k : Kin) : Kin := { k with vx := k.speed * Real.cos k.h, vy := k.speed * Real.sin k.h, vz := 0 }

/-- The velocity vector from the movement, ScenarioEngine.cpp:667-668. -/
noncomputable def velMoved (o : Old) (dt : ℝ) (k : Kin) : Kin :=
  { k with vx := (k.x - o.x) / dt, vy := (k.y - o.y) / dt, vz := (k.z - o.z) / dt }

/-- ScenarioEngine.cpp:657-670. -/
noncomputable def setVel (b : Bits) (o : Old) (dt : ℝ) (k : Kin) : Kin :=
  if b.vel then k else if b.teleport then velHeading k else velMoved o dt k

/-- ScenarioEngine.cpp:673-676. -/
noncomputable def setSpeed (b : Bits) (k : Kin) : Kin :=
  if b.speed then k else { k with speed := Real.sqrt (k.vx * k.vx + k.vy * k.vy) }

/-- ScenarioEngine.cpp:678-684. -/
noncomputable def setAcc (b : Bits) (o : Old) (dt : ℝ) (k : Kin) : Kin :=
  if b.acc then k
  else { k with ax := (k.vx - o.vx) / dt, ay := (k.vy - o.vy) / dt, az := (k.vz - o.vz) / dt }

/-- `heading_rate_new`, ScenarioEngine.cpp:686-687. -/
noncomputable def rateNew (o : Old) (dt : ℝ) (k : Kin) : ℝ := angleDiff Real.pi k.h o.h / dt

/-- ScenarioEngine.cpp:688-692. -/
noncomputable def setRate (b : Bits) (o : Old) (dt : ℝ) (k : Kin) : Kin :=
  if b.rate then k else { k with hRate := rateNew o dt k }

/-- ScenarioEngine.cpp:694-698. -/
noncomputable def setRateAcc (b : Bits) (o : Old) (dt : ℝ) (k : Kin) : Kin :=
  if b.rateAcc then k else { k with hAcc := angleDiff Real.pi (rateNew o dt k) o.hRate / dt }

/-- The values of a step, ScenarioEngine.cpp:652-729 without wheels. -/
noncomputable def motion (b : Bits) (o : Old) (dt : ℝ) (k : Kin) : Kin :=
  if dt > small then setRateAcc b o dt (setRate b o dt (setAcc b o dt (setSpeed b (setVel b o dt k))))
  else if b.vel then k else velHeading k

/-- ScenarioEngine.cpp:732-739. -/
def keep (k : Kin) : Old := ⟨k.x, k.y, k.z, k.vx, k.vy, k.vz, k.h, k.hRate⟩

/-- ScenarioEngine.cpp:741-744. -/
noncomputable def odoStep (b : Bits) (o : Old) (k : Kin) (odo : ℝ) : ℝ :=
  if b.teleport then odo
  else odo + |Real.sqrt ((k.x - o.x) * (k.x - o.x) + (k.y - o.y) * (k.y - o.y))|

/-- What the rest of the simulation does with an entity in a step: where it is and what was set. -/
structure Frame where
  dt : ℝ
  bits : Bits
  kin : Kin

/-- The state of an entity between steps. -/
structure St where
  old : Old
  odo : ℝ

/-- One call of `prepareGroundTruth` for one entity. -/
noncomputable def step (s : St) (f : Frame) : St :=
  ⟨keep (motion f.bits s.old f.dt f.kin), odoStep f.bits s.old f.kin s.odo⟩

/-- A number of steps. -/
noncomputable def run : St → List Frame → St
  | s, [] => s
  | s, f :: r => run (step s f) r

/-! ### Wheels -/

/-- The steering angle, ScenarioEngine.cpp:705-712: `rate` is the new heading rate, `axle` the x position of the front axle,
`rear` the speed of the rear axle. -/
noncomputable def wheelAngle (old rate axle rear speed : ℝ) : ℝ :=
  if |speed| > small then sign rear * atan2 (rate * axle) |rear| else old

/-- The wheel rotation, ScenarioEngine.cpp:715-720, `WHEEL_RADIUS` (line 23). -/
noncomputable def wheelRot (rot rear speed dt : ℝ) : ℝ := fmod (rot + sign rear * |speed| * dt / (35 / 100)) (2 * Real.pi)

/-! ### Trail -/

/-- A vertex of the trail: time, speed and position (one coordinate stands for all that is copied from the entity). -/
structure Vertex where
  time : ℝ
  speed : ℝ
  x : ℝ

open Classical in
/-- The sample before the new one if much time has passed, ScenarioEngine.cpp:756-762: `l` is the last vertex. -/
noncomputable def fill (dt now : ℝ) (l : Vertex) : List Vertex :=
  if now - l.time > 2 * dt - small then [{ l with time := now - dt }] else []

open Classical in
/-- ScenarioEngine.cpp:746-779 for a trail whose last vertex is `l`: the vertices to append, `n` is the state now. -/
noncomputable def trailNew (dt : ℝ) (n l : Vertex) : List Vertex :=
  if n.time - l.time > dt - small then
    if |l.speed| > small ∨ |n.speed| > small then fill dt n.time l ++ [n] else []
  else []

/-- ScenarioEngine.cpp:746-779. -/
noncomputable def trailStep (dt : ℝ) (n : Vertex) (t : List Vertex) : List Vertex :=
  match t.getLast? with
  | none => t ++ [n]
  | some l => t ++ trailNew dt n l

/-- The trail after a number of steps, one state each. -/
noncomputable def trail (dt : ℝ) : List Vertex → List Vertex → List Vertex
  | t, [] => t
  | t, f :: r => trail dt (trailStep dt f t) r

/-! ### Trailers -/

/-- Reference point and heading. -/
structure Body where
  x : ℝ
  y : ℝ
  h : ℝ

/-- `SE_Vector::GetLength`, CommonMini.hpp:340-349. -/
noncomputable def vecLength (x y : ℝ) : ℝ := if x * x + y * y > small then Real.sqrt (x * x + y * y) else 0

/-- `SE_Vector::SetLength`, CommonMini.hpp:351-364. -/
noncomputable def vecSetLength (x y length : ℝ) : ℝ × ℝ :=
  if vecLength x y > small then (x * (length / vecLength x y), y * (length / vecLength x y)) else (0, 0)

/-- A trailer: position, distance from its reference point to the coupler, position of its own hitch, speed. -/
structure Trailer where
  pos : Body
  coup : ℝ
  hitch : ℝ
  speed : ℝ

/-- The hitch `v0`, ScenarioEngine.cpp:284-287. -/
noncomputable def hitchOf (tow : Body) (dx : ℝ) : ℝ × ℝ := ((rotate dx 0 tow.h).1 + tow.x, (rotate dx 0 tow.h).2 + tow.y)

/-- The vector `v1`, ScenarioEngine.cpp:288-289. -/
noncomputable def towVec (v0 : ℝ × ℝ) (t : Trailer) : ℝ × ℝ := vecSetLength (t.pos.x - v0.1) (t.pos.y - v0.2) t.coup

/-- The new position of a trailer, ScenarioEngine.cpp:290-303. -/
noncomputable def towed (v0 : ℝ × ℝ) (t : Trailer) : Body :=
  ⟨v0.1 + (towVec v0 t).1, v0.2 + (towVec v0 t).2,
    interval2PI Real.pi (atan2 (towVec v0 t).2 (towVec v0 t).1 + Real.pi)⟩

/-- The loop over the trailers, ScenarioEngine.cpp:279-308. -/
noncomputable def pull (tow : Body) (hitch speed : ℝ) : List Trailer → List Trailer
  | [] => []
  | t :: r => { t with pos := towed (hitchOf tow hitch) t, speed := speed } ::
      pull (towed (hitchOf tow hitch) t) t.hitch speed r

/-- The neutral position of a trailer, Entities.cpp:1840-1846; `h` is the heading of the first vehicle. -/
noncomputable def neutral (h : ℝ) (tow : Body) (hitch : ℝ) (t : Trailer) : Body :=
  ⟨(rotate (-t.coup) 0 h).1 + ((rotate hitch 0 h).1 + tow.x), (rotate (-t.coup) 0 h).2 + ((rotate hitch 0 h).2 + tow.y), h⟩

/-- `Vehicle::AlignTrailers`, Entities.cpp:1829-1851, for fewer than 100 trailers. -/
noncomputable def align (h : ℝ) (tow : Body) (hitch speed : ℝ) : List Trailer → List Trailer
  | [] => []
  | t :: r => { t with pos := neutral h tow hitch t, speed := speed } ::
      align h (neutral h tow hitch t) t.hitch speed r

/-! ### Rear axle -/

/-- The heading of a vehicle whose reference point is ahead of the rear axle, ScenarioEngine.cpp:332: `rx`, `ry` is the
rear axle before the step. -/
noncomputable def axleHeading (x y rx ry : ℝ) : ℝ := interval2PI Real.pi (atan2 (y - ry) (x - rx))

/-- The new rear axle position, ScenarioEngine.cpp:337. -/
noncomputable def axlePos (x y rx ry off : ℝ) : ℝ × ℝ :=
  (x + (rotate (-off) 0 (axleHeading x y rx ry)).1, y + (rotate (-off) 0 (axleHeading x y rx ry)).2)

/-- The speed of the rear axle, ScenarioEngine.cpp:338-348. -/
noncomputable def axleSpeed (x y rx ry off dt : ℝ) : ℝ :=
  projectSigned (((axlePos x y rx ry off).1 - rx) / max small dt) (((axlePos x y rx ry off).2 - ry) / max small dt)
    (rotate 1 0 (axleHeading x y rx ry)).1 (rotate 1 0 (axleHeading x y rx ry)).2

/-- A step of a vehicle with an offset reference point and its trailers, ScenarioEngine.cpp:271-348: the trailers are
placed with the heading `tow.h` from the movement along the road, then the heading is replaced. -/
noncomputable def towStep (tow : Body) (hitch speed rx ry : ℝ) (ts : List Trailer) : Body × List Trailer :=
  (⟨tow.x, tow.y, axleHeading tow.x tow.y rx ry⟩, pull tow hitch speed ts)

end Verif.Ground

import Verif.Vehicle.Model
/-
The looming controller: choice of the vehicle in front, throttle and speed.
Code: EnvironmentSimulator/Modules/Controllers/ControllerLooming.cpp:290-386, 404 (and the model of the vehicle, `Verif/Vehicle`).

Simplifications
* Real numbers. The measurement of the other entities is an input, as are the result of the search for a tangent point and the steering.
-/
namespace Verif.Loom

/-- Another entity as measured (ControllerLooming.cpp:298-324). -/
structure Other where
  found : Bool
  ds : ℝ
  lane : ℤ
  dt : ℝ
  sameDirection : Bool
  length : ℝ
  center : ℝ
  speed : ℝ

/-- Result of the search for a tangent point (ControllerLooming.cpp:46-288). -/
structure Search where
  tangent : Bool
  tangentS : ℝ
  intersection : Bool
  dist : ℝ

/-- `adjustedGapLength` (ControllerLooming.cpp:311-324); `front` is the distance of the front of the vehicle from its reference point. -/
noncomputable def gapTo (front : ℝ) (o : Other) : ℝ :=
  o.ds - (front + (if o.sameDirection then o.length / 2 - o.center else o.length / 2 + o.center))

/-- State of the loop: gap and speed of the vehicle in front. -/
abbrev Lead := Option (ℝ × ℝ)

/-- `minGapLength` (ControllerLooming.cpp:292). -/
noncomputable def minGap : Lead → ℝ
  | none => 10000000000
  | some (g, _) => g

open Classical in
/-- The loop over the entities (ControllerLooming.cpp:296-351). -/
noncomputable def choose (front : ℝ) (q : Search) : Lead → List Other → Lead
  | l, [] => l
  | l, o :: rest =>
    if o.found ∧ o.lane = 0 ∧ gapTo front o > 0 ∧ gapTo front o < minGap l ∧ |o.dt| < 5 then
      if gapTo front o ≤ 80 ∧ (q.intersection ∧ q.dist < gapTo front o ∨ q.tangent ∧ q.tangentS < gapTo front o) then some (gapTo front o, o.speed)
      else choose front q (some (gapTo front o, o.speed)) rest
    else choose front q l rest

/-- Distance to keep (ControllerLooming.cpp:371-372). -/
noncomputable def followDist (timeGap speed leadSpeed : ℝ) : ℝ := 3 + timeGap * |max speed leadSpeed|

/-- `acc` (ControllerLooming.cpp:363-386). -/
noncomputable def accel (setSpeed timeGap speed : ℝ) : Lead → ℝ
  | some (gap, leadSpeed) =>
    if gap < 1 then 0
    else
      let f := min 1 ((gap - followDist timeGap speed leadSpeed) / followDist timeGap speed leadSpeed)
      f - f * (speed - setSpeed) - (1 - f) * (speed - min setSpeed leadSpeed)
  | none => setSpeed - speed

/-- Throttle and step of the vehicle (ControllerLooming.cpp:404). -/
noncomputable def step (setSpeed timeGap dt steering : ℝ) (l : Lead) (v : Vehicle.Vehicle) : Vehicle.Vehicle :=
  Vehicle.driveAnalog v dt (Vehicle.clamp (accel setSpeed timeGap v.speed l) (-1) 1) steering

/-- Steps with vehicles in front and steering as given. -/
noncomputable def run (setSpeed timeGap : ℝ) (v : Vehicle.Vehicle) : List (ℝ × ℝ × Lead) → Vehicle.Vehicle
  | [] => v
  | (dt, steering, l) :: rest => run setSpeed timeGap (step setSpeed timeGap dt steering l v) rest

end Verif.Loom

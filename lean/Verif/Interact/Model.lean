import Verif.Vehicle.Theorems
/-
The interactive controller: driving with the arrow keys.
Code: ControllerInteractive.cpp:51-183, Controller.cpp:98-113, 202-208, vehicle.cpp:228-255.

Simplifications: numbers are real; the entity is its position in the plane, heading, speed and wheel angle; the road is given by inputs of
each step: the speed limit, the number of driving lanes and the movement along the road; setting a position keeps it exactly.
-/
namespace Verif.Interact
open Verif.Vehicle

/-- The arrow keys, `KeyType`, CommonMini.hpp:87-. -/
inductive Arrow
  | left | right | up | down
deriving DecidableEq, Repr

/-- `steer` and `accelerate`. -/
structure Keys where
  steer : Key
  throttle : Key
deriving DecidableEq

/-- `ReportKeyEvent`, ControllerInteractive.cpp:137-183. -/
def keyEvent (s : Keys) (e : Arrow × Bool) : Keys :=
  match e.1 with
  | .left => { s with steer := if e.2 then .plus else .none }
  | .right => { s with steer := if e.2 then .minus else .none }
  | .up => { s with throttle := if e.2 then .plus else .none }
  | .down => { s with throttle := if e.2 then .minus else .none }

/-- The entity. -/
structure Obj where
  x : ℝ
  y : ℝ
  h : ℝ
  speed : ℝ
  wheel : ℝ
  maxSpeed : ℝ
  maxAcc : ℝ
  maxDec : ℝ
  length : ℝ

/-- Controller and entity. -/
structure St where
  veh : Vehicle
  keys : Keys
  obj : Obj

/-- What a step depends on: time, speed limit (0 if there is none), number of driving lanes, domains of the controller, and the position
after a movement along the road. -/
structure Input where
  dt : ℝ
  limit : ℝ
  lanes : Nat
  long : Bool
  lat : Bool
  along : ℝ → ℝ × ℝ × ℝ

/-- The speed limit, ControllerInteractive.cpp:53-67. -/
noncomputable def limitOf (limit : ℝ) (lanes : Nat) : ℝ :=
  if limit < small then (if lanes > 1 then 110 / (36 / 10) else 60 / (36 / 10)) else limit

/-- Before the motion of the vehicle, ControllerInteractive.cpp:68-78. -/
noncomputable def prepared (factor : ℝ) (s : St) (i : Input) : Vehicle :=
  { s.veh with
    maxSpeed := min (factor * limitOf i.limit i.lanes) s.obj.maxSpeed
    speed := if i.long then s.veh.speed else s.obj.speed
    throttleDisabled := !i.long
    steeringDisabled := !i.lat }

/-- Movement along the road, ControllerInteractive.cpp:81-93. -/
noncomputable def followed (i : Input) (v : Vehicle) : Vehicle :=
  if i.long && !i.lat then
    let p := i.along (v.speed * i.dt)
    { v with x := p.1, y := p.2.1, heading := p.2.2 }
  else v

/-- `Step`, ControllerInteractive.cpp:51-114. -/
noncomputable def step (factor : ℝ) (s : St) (i : Input) : St :=
  let v := followed i (driveBinary (prepared factor s i) i.dt s.keys.throttle s.keys.steer)
  ⟨v, s.keys, { s.obj with
    x := v.x
    y := v.y
    h := v.heading
    speed := if i.long then v.speed else s.obj.speed
    wheel := if i.lat then v.wheelAngle else s.obj.wheel }⟩

/-- `Activate`, ControllerInteractive.cpp:116-135 and Controller.cpp:109-113, 202-208: `road` is the heading of the road in driving direction,
`lat` whether the lateral domain is switched on. -/
noncomputable def activate (rate : ℝ) (o : Obj) (road : ℝ) (lat : Bool) : St :=
  ⟨{ new o.x o.y o.h o.length o.speed with maxAcc := o.maxAcc, maxDec := o.maxDec, steeringRate := rate }, ⟨.none, .none⟩,
    { o with h := if lat then road else o.h }⟩

/-- Key events and steps, in their order. -/
inductive Ev
  | key (e : Arrow × Bool)
  | step (i : Input)

noncomputable def run (factor : ℝ) (s : St) : List Ev → St
  | [] => s
  | .key e :: l => run factor { s with keys := keyEvent s.keys e } l
  | .step i :: l => run factor (step factor s i) l

end Verif.Interact

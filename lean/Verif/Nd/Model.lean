import Mathlib.Analysis.SpecialFunctions.Sqrt
/-
The natural driver controller.
Code: EnvironmentSimulator/Modules/Controllers/ControllerNaturalDriver.cpp:130-217, 263-292, 339-380, 412-479, 510-604,
EnvironmentSimulator/Modules/RoadManager/RoadManager.cpp:2143-2234.

Simplifications
* Vehicles are numbers, 0 the own one. Their speeds, the free space between any two as estimated by the code, the vehicles around with
  their distance `ds` along the road and their lane relative to the own, and whether another driver is about to take the same lane
  are inputs of each step.
* Doubles are real numbers.
* Lanes are numbered without gaps from the outermost left one to the outermost right one, lane 0 included.
* The lane change itself is an injected action (`Verif.Lib`); a step tells the lane it is injected for.
-/
namespace Verif.Nd
open Classical

/-- The properties of the controller (ControllerNaturalDriver.cpp:29-118); `maxDec` is negative. -/
structure Params where
  dist : ℝ
  speed : ℝ
  duration : ℝ
  delay : ℝ
  maxDec : ℝ
  maxAcc : ℝ
  thw : ℝ
  imposed : ℝ
  politeness : ℝ
  gain : ℝ
  route : Int

/-- `SMALL_NUMBER`. -/
noncomputable def small : ℝ := 1 / 1000000

/-- Speeds, and free space from the first to the second vehicle (`EstimateFreespace` of the difference of positions). -/
structure World where
  speed : Nat → ℝ
  free : Nat → Nat → ℝ

/-- `GetDesiredGap` (ControllerNaturalDriver.cpp:370-380). -/
noncomputable def desiredGap (p : Params) (v vl : ℝ) : ℝ :=
  p.dist + max 0 (v * p.thw + v * (v - vl) / (2 * Real.sqrt (-p.maxAcc * p.maxDec)))

/-- Free space as used, never zero (ControllerNaturalDriver.cpp:360-363). -/
noncomputable def nonzero (x : ℝ) : ℝ := if x = 0 then small else x

/-- `GetAcceleration` without a vehicle in front (ControllerNaturalDriver.cpp:346-349). -/
noncomputable def freeAcc (p : Params) (v : ℝ) : ℝ := p.maxAcc * (1 - (v / p.speed) ^ 4)

/-- `GetAcceleration` with a vehicle in front (ControllerNaturalDriver.cpp:351-365). -/
noncomputable def followAcc (p : Params) (v vl gap : ℝ) : ℝ :=
  freeAcc p v - p.maxAcc * (desiredGap p v vl / nonzero gap) ^ 2

/-- `GetAcceleration` (ControllerNaturalDriver.cpp:339-368). -/
noncomputable def acc (p : Params) (w : World) (follow lead : Option Nat) : ℝ :=
  match follow, lead with
  | none, _ => 0
  | some f, none => freeAcc p (w.speed f)
  | some f, some l => followAcc p (w.speed f) (w.speed l) (w.free f l)

/-! ### Surrounding vehicles -/

/-- A vehicle within the radius: `diff.ds` and `diff.dLaneId` counted to the left (ControllerNaturalDriver.cpp:271-292). -/
structure Near where
  id : Nat
  ds : ℝ
  left : Int

/-- `FindClosestAhead` on one slot (ControllerNaturalDriver.cpp:510-524). -/
noncomputable def closerAhead (n : Near) (c : Option Near) : Option Near :=
  match c with
  | none => if 0 ≤ n.ds then some n else none
  | some m => if 0 ≤ n.ds ∧ n.ds < m.ds then some n else some m

/-- `FindClosestBehind` on one slot (ControllerNaturalDriver.cpp:526-540). -/
noncomputable def closerBehind (n : Near) (c : Option Near) : Option Near :=
  match c with
  | none => if n.ds < 0 then some n else none
  | some m => if n.ds < 0 ∧ m.ds < n.ds then some n else some m

/-- `vehicles_of_interest_` for one lane ahead: 0 own, 1 left, -1 right (ControllerNaturalDriver.cpp:263-292). -/
noncomputable def leadOf (k : Int) (l : List Near) : Option Near :=
  l.foldl (fun c n => if n.left = k then closerAhead n c else c) none

/-- `vehicles_of_interest_` for one lane behind. -/
noncomputable def followOf (k : Int) (l : List Near) : Option Near :=
  l.foldl (fun c n => if n.left = k then closerBehind n c else c) none

/-! ### Lanes beside -/

/-- A lane section: number of lanes left and right of the reference line, and which ones are driving lanes. -/
structure Lanes where
  nl : Nat
  nr : Nat
  driving : Int → Bool

/-- `GetLaneIdxById`: lanes in decreasing order of id (RoadManager.cpp:2143-2153, 2356-2376). -/
def Lanes.idx (x : Lanes) (id : Int) : Int := x.nl - id

/-- `SIGN`. -/
def sgn (i : Int) : Int := bif decide (i < 0) then -1 else 1

/-- `GetNumberOfDrivingLanesSide` (RoadManager.cpp:2194-2206). -/
def Lanes.drivingSide (x : Lanes) (id : Int) : Nat :=
  bif decide (id < 0) then ((List.range x.nr).filter fun k => x.driving (-(k + 1 : Nat))).length
  else ((List.range x.nl).filter fun k => x.driving ((k + 1 : Nat))).length

/-- Left lane usable (ControllerNaturalDriver.cpp:562-580). -/
def leftDriving (x : Lanes) (id : Int) : Bool :=
  bif decide (id < 0) then
    (bif decide (x.idx id = x.nl + x.nr - x.nl) then false else (bif decide (id - sgn id = 0) then false else x.driving (id - sgn id)))
  else (bif decide (x.idx id + 1 = x.nr) then false else (bif decide (id - sgn id = 0) then false else x.driving (id - sgn id)))

/-- Right lane usable (ControllerNaturalDriver.cpp:562-580). -/
def rightDriving (x : Lanes) (id : Int) : Bool :=
  bif decide (id < 0) then (bif decide (x.idx id = x.nl + x.nr) then false else x.driving (id + sgn id))
  else (bif decide (x.idx id = 0) then false else x.driving (id + sgn id))

/-- `AdjacentLanesAvailable`: `lane_ids_available_`, if there is more than one driving lane on the side
(ControllerNaturalDriver.cpp:542-604). -/
def adjacent (x : Lanes) (id : Int) : Option (Int × Int) :=
  bif decide (x.drivingSide id ≤ 1) then none
  else some (bif leftDriving x id then id - sgn id else 0, bif rightDriving x id then id + sgn id else 0)

/-! ### Decision and step -/

/-- The vehicles of interest. -/
structure Voi where
  lead : Option Nat
  follow : Option Nat
  leftLead : Option Nat
  leftFollow : Option Nat
  rightLead : Option Nat
  rightFollow : Option Nat

/-- `GetVehicleOfInterestType` (ControllerNaturalDriver.cpp:412-426). -/
def Voi.side (v : Voi) (left : Bool) : Option Nat × Option Nat :=
  bif left then (v.leftLead, v.leftFollow) else (v.rightLead, v.rightFollow)

/-- The incentive of MOBIL (ControllerNaturalDriver.cpp:454-470). -/
noncomputable def incentive (p : Params) (w : World) (v : Voi) (ld fl : Option Nat) : ℝ :=
  acc p w (some 0) ld - acc p w (some 0) v.lead +
    p.politeness * (acc p w fl (some 0) - acc p w fl ld + acc p w v.follow v.lead - acc p w v.follow (some 0))

/-- `CheckLaneChangePossible` for a driver not in a lane change (ControllerNaturalDriver.cpp:428-479). -/
noncomputable def possible (p : Params) (w : World) (v : Voi) (lane : Int) (left : Bool) : Bool :=
  if acc p w (v.side left).2 (some 0) < -p.imposed then false
  else if lane = p.route then (if acc p w (some 0) (v.side left).1 < -p.imposed then false else true)
  else if incentive p w v (v.side left).1 (v.side left).2 ≤ p.gain + small then false else true

/-- State of the driver; `changing` is `State::CHANGE_LANE`. -/
structure Drv where
  speed : ℝ
  changing : Bool
  injected : Bool
  cooldown : ℝ
  target : Int

/-- What is around in one step. -/
structure Env where
  world : World
  voi : Voi
  adj : Option (Int × Int)
  abort : Int → Bool
  maxSpeed : ℝ
  dt : ℝ

/-- Outcome of the loop over the lanes: the flag `initiate_lanechange_`, and the lane if the loop was left early. -/
structure Pick where
  init : Bool
  lane : Option Int

/-- One round of the loop (ControllerNaturalDriver.cpp:149-158). -/
noncomputable def tryLane (p : Params) (e : Env) (lane : Int) (left : Bool) (c : Pick) : Pick :=
  if c.lane.isSome then c
  else if lane = 0 then c
  else if possible p e.world e.voi lane left then (if 0 < e.world.speed 0 then ⟨true, some lane⟩ else ⟨true, none⟩)
  else ⟨false, none⟩

/-- The loop over the two lanes (ControllerNaturalDriver.cpp:143-161). -/
noncomputable def pick (p : Params) (e : Env) (d : Drv) : Pick :=
  if d.changing ∨ d.injected then ⟨false, none⟩
  else match e.adj with
    | none => ⟨false, none⟩
    | some (l, r) => tryLane p e r false (tryLane p e l true ⟨false, none⟩)

/-- The acceleration of the step (ControllerNaturalDriver.cpp:133-141). -/
noncomputable def stepAcc (p : Params) (e : Env) (d : Drv) : ℝ :=
  if d.changing then 0 else max p.maxDec (acc p e.world (some 0) e.voi.lead)

/-- State after the loop (ControllerNaturalDriver.cpp:152-157). -/
def picked (d : Drv) (k : Pick) : Drv :=
  match k.lane with
  | some l => { d with target := l, changing := true }
  | none => d

/-- Abort or injection (ControllerNaturalDriver.cpp:164-179): the state and the lane of the injected action. -/
def launch (e : Env) (init : Bool) (d : Drv) : Drv × Option Int :=
  bif init then (bif e.abort d.target then ({ d with target := 0, changing := false }, none) else ({ d with injected := true }, some d.target))
  else (d, none)

/-- The end of the change as seen by the driver (ControllerNaturalDriver.cpp:185-190). -/
noncomputable def arrive (p : Params) (d : Drv) : Drv :=
  if d.changing ∧ d.cooldown ≤ p.delay then { d with target := 0, changing := false } else d

/-- The end of the waiting time (ControllerNaturalDriver.cpp:191-195). -/
noncomputable def rearm (p : Params) (d : Drv) : Drv :=
  if d.cooldown < 0 then { d with cooldown := p.delay + p.duration, injected := false } else d

/-- Waiting after a lane change (ControllerNaturalDriver.cpp:182-196). -/
noncomputable def cool (p : Params) (dt : ℝ) (d : Drv) : Drv :=
  bif d.injected then rearm p (arrive p { d with cooldown := d.cooldown - dt }) else d

/-- Limits of the speed (ControllerNaturalDriver.cpp:200-211). -/
noncomputable def limit (p : Params) (maxSpeed v : ℝ) : ℝ :=
  if p.speed ≤ v then p.speed else if maxSpeed < v then maxSpeed else if v < 0 then 0 else v

/-- `Step` (ControllerNaturalDriver.cpp:130-217): the driver afterwards, and the lane an action was injected for. -/
noncomputable def step (p : Params) (e : Env) (d : Drv) : Drv × Option Int :=
  ({ cool p e.dt (launch e (pick p e d).init (picked d (pick p e d))).1 with
      speed := limit p e.maxSpeed (d.speed + stepAcc p e d * e.dt) },
    (launch e (pick p e d).init (picked d (pick p e d))).2)

/-- The driver after construction (ControllerNaturalDriver.cpp:29-52, 117), with the speed of its activation. -/
noncomputable def start (p : Params) (v : ℝ) : Drv := ⟨v, false, false, p.duration + p.delay, 0⟩

/-- The driver after a sequence of steps. -/
noncomputable def runs (p : Params) (es : List Env) (d : Drv) : Drv := es.foldl (fun d e => (step p e d).1) d

end Verif.Nd

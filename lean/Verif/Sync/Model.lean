import Mathlib.Data.Real.Sqrt
/-
Model of the action that makes an entity arrive at a place at the same time as another entity arrives at its own.
Code: EnvironmentSimulator/Modules/ScenarioEngine/OSCTypeDefs/OSCPrivateAction.cpp:2541-2553, 2634-2661, 2681-3097
(`SynchronizeAction`), OSCPrivateAction.hpp:823-888.

Simplifications
* `double` is the type of real numbers. Divisions by zero are explicit.
* The distances along road, route or trajectory are inputs, as are the speeds projected on the road.
* The final speed is a number (`LongSpeedAction::Target::GetValue` of a relative target is evaluated by the caller).
* Whether the action is skipped since longitudinal motion is controlled elsewhere is in `Verif/Control`.
-/
namespace Verif.Sync

/-- `SMALL_NUMBER`, CommonMini.hpp:52. -/
noncomputable def small : ℝ := 1 / 1000000

/-- `LARGE_NUMBER`, CommonMini.hpp:53. -/
noncomputable def large : ℝ := 10000000000

/-- `MAX_DECELERATION`, OSCPrivateAction.cpp:19. -/
noncomputable def hardBrake : ℝ := -8

/-- `SynchMode`, OSCPrivateAction.hpp:834-843. -/
inductive Mode
  | none | linear | nonLinear | stopped | stopNow | waiting | steady
deriving DecidableEq, Repr

/-- `SynchSubmode`, OSCPrivateAction.hpp:845-850. -/
inductive Sub
  | none | convex | concave
deriving DecidableEq, Repr

/-- The settings: final speed, distance of the steady state before the destination (given or from `Start`), tolerances. -/
structure Cfg where
  final : Option ℝ
  steady : Option ℝ
  tol : ℝ
  tolMaster : ℝ

/-- The state: mode, submode, distances of the last step, speed of the entity, whether the action ended. -/
structure Sync where
  mode : Mode
  sub : Sub
  lastDist : ℝ
  lastMaster : ℝ
  speed : ℝ
  ended : Bool

/-- What is measured in a step: distances to the destinations, the speed of the master towards its destination
(`master_speed`), the speed of the entity along the road (`v0`, OSCPrivateAction.cpp:2998). -/
structure Seen where
  dist : ℝ
  master : ℝ
  masterSpeed : ℝ
  along : ℝ

/-- A new action, OSCPrivateAction.hpp:874-888. -/
noncomputable def fresh (speed : ℝ) : Sync := ⟨.none, .none, large, large, speed, false⟩

/-- `Start`, OSCPrivateAction.cpp:2634-2661: mode, submode and distances keep their values. -/
def start (s : Sync) : Sync := { s with ended := false }

/-- The distance of the steady state given by a time, OSCPrivateAction.cpp:2640-2644. -/
noncomputable def steadyOfTime (time final : ℝ) : ℝ := time * final

/-- `CalcSpeedForLinearProfile`, OSCPrivateAction.cpp:2541-2553. -/
noncomputable def linearSpeed (final time dist : ℝ) : ℝ :=
  if time < 1 / 1000 ∨ dist < 1 / 1000 then 0 else 2 * dist / time - final

/-- `done` by distances, OSCPrivateAction.cpp:2757-2776. -/
def arrived (c : Cfg) (s : Sync) (i : Seen) : Prop :=
  i.dist < c.tol + small ∨ i.master < c.tolMaster + small ∨ i.dist > s.lastDist ∨ i.master > s.lastMaster

/-- `dist` up to the tolerance, OSCPrivateAction.cpp:2782. -/
noncomputable def rest (c : Cfg) (i : Seen) : ℝ := max (i.dist - c.tol) small

/-- `masterDist` up to the tolerance, OSCPrivateAction.cpp:2783. -/
noncomputable def masterRest (c : Cfg) (i : Seen) : ℝ := max (i.master - c.tolMaster) small

/-- `masterTimeToDest`, OSCPrivateAction.cpp:2785-2792. -/
noncomputable def masterTime (c : Cfg) (i : Seen) : ℝ :=
  if i.masterSpeed > small then masterRest c i / i.masterSpeed else large

/-- `done`, OSCPrivateAction.cpp:2757-2798. -/
def done (c : Cfg) (s : Sync) (i : Seen) (dt : ℝ) : Prop :=
  arrived c s i ∨ (i.masterSpeed > small ∧ masterTime c i < dt)

/-- The state after the check whether the master moves, OSCPrivateAction.cpp:2778-2805. -/
noncomputable def await (s : Sync) (i : Seen) : Sync :=
  if i.masterSpeed > small then { s with lastDist := i.dist, lastMaster := i.master }
  else if s.mode = .waiting then { s with lastDist := i.dist, lastMaster := i.master }
  else { s with lastDist := i.dist, lastMaster := i.master, mode := .waiting, speed := 0 }

/-- Whether the steady state is reached, OSCPrivateAction.cpp:2824-2826: with a final speed of 0 the time to it is infinite. -/
def steadyNow (ss final dist time : ℝ) : Prop :=
  dist - ss < small ∨ final = 0 ∨ time - ss / final < small

open Classical in
/-- The state, distance and time after the handling of the steady state, OSCPrivateAction.cpp:2822-2843. -/
noncomputable def toSteady (c : Cfg) (final : ℝ) (s : Sync) (dist time : ℝ) : Sync × ℝ × ℝ :=
  match c.steady with
  | none => (s, dist, time)
  | some ss =>
    if s.mode = .steady then (s, dist, time)
    else if steadyNow ss final dist time then ({ s with mode := .steady, sub := .none }, dist, time)
    else (s, dist - ss, time - ss / final)

/-- `signed_term`, OSCPrivateAction.cpp:3012. -/
noncomputable def term (s t v0 v1 : ℝ) : ℝ :=
  Real.sqrt 2 * Real.sqrt (2 * s * s - 2 * (v1 + v0) * t * s + (v1 * v1 + v0 * v0) * t * t)

/-- `x1`, OSCPrivateAction.cpp:3013. -/
noncomputable def x1 (s t v0 v1 : ℝ) : ℝ := -(term s t v0 v1 + 2 * s - 2 * v1 * t) / (2 * (v1 - v0))

/-- `x2`, OSCPrivateAction.cpp:3014. -/
noncomputable def x2 (s t v0 v1 : ℝ) : ℝ := -(-term s t v0 v1 + 2 * s - 2 * v1 * t) / (2 * (v1 - v0))

/-- `vx1`, OSCPrivateAction.cpp:3019. -/
noncomputable def vx1 (s t v0 v1 : ℝ) : ℝ := (2 * s - term s t v0 v1) / (2 * t)

/-- `vx2`, OSCPrivateAction.cpp:3026. -/
noncomputable def vx2 (s t v0 v1 : ℝ) : ℝ := (2 * s + term s t v0 v1) / (2 * t)

open Classical in
/-- `vx` and `acc` of the profile with two phases, OSCPrivateAction.cpp:3002-3036. -/
noncomputable def apex (s t v0 v1 : ℝ) : ℝ × ℝ :=
  if |v1 - v0| < small then
    ((s - t / 2 * v0) / (t / 2), ((s - t / 2 * v0) / (t / 2) - v0) / (t / 2))
  else if x1 s t v0 v1 > 0 ∧ x1 s t v0 v1 < t then (vx1 s t v0 v1, (vx1 s t v0 v1 - v0) / x1 s t v0 v1)
  else if x2 s t v0 v1 > 0 ∧ x2 s t v0 v1 < t then (vx2 s t v0 v1, (vx2 s t v0 v1 - v0) / x2 s t v0 v1)
  else (0, 0)

/-- The mode and submode of a first step, OSCPrivateAction.cpp:2977-2991. -/
noncomputable def enter (final dist time : ℝ) (s : Sync) : Sync :=
  if s.mode = .none then
    { s with mode := .nonLinear, sub := if (final + s.speed) / 2 < dist / time then .convex else .concave }
  else s

/-- Whether the apex is reached, OSCPrivateAction.cpp:3038-3039. -/
def turned (s : Sync) (acc : ℝ) : Prop :=
  s.mode = .nonLinear ∧ ((s.sub = .concave ∧ acc > 0) ∨ (s.sub = .convex ∧ acc < 0))

/-- `t1`, OSCPrivateAction.cpp:3053. -/
noncomputable def stopTime (s v0 v1 : ℝ) : ℝ := 2 * v0 * s / (v0 * v0 + v1 * v1)

/-- `acc` for a stop, OSCPrivateAction.cpp:3054-3068. -/
noncomputable def stopAcc (s v0 v1 : ℝ) : ℝ :=
  if stopTime s v0 v1 * v0 / 2 > s / 2 then hardBrake
  else if |stopTime s v0 v1| > small then -v0 / stopTime s v0 v1
  else 0

/-- The mode for a stop, OSCPrivateAction.cpp:3063-3078. -/
noncomputable def stopMode (s v0 v1 dt : ℝ) (m : Mode) : Mode :=
  if v0 + stopAcc s v0 v1 * dt < 0 then .stopped
  else if stopTime s v0 v1 * v0 / 2 > s / 2 then .stopNow
  else m

/-- The stop, OSCPrivateAction.cpp:3049-3078, 3095. -/
noncomputable def stopping (dist dt along final : ℝ) (s : Sync) : Sync :=
  { s with mode := stopMode dist along final dt s.mode
           speed := if along + stopAcc dist along final * dt < 0 then 0 else s.speed + stopAcc dist along final * dt }

open Classical in
/-- The profile with two phases, OSCPrivateAction.cpp:2977-3078, 3095. -/
noncomputable def curved (final dist time dt along : ℝ) (s : Sync) : Sync :=
  if turned s (apex dist time along final).2 then { s with mode := .linear }
  else if s.mode = .nonLinear ∧ (apex dist time along final).1 < 0 then stopping dist dt along final s
  else { s with speed := s.speed + (apex dist time along final).2 * dt }

/-- The linear profile, OSCPrivateAction.cpp:2949-2961. -/
noncomputable def straight (final dist time : ℝ) (s : Sync) : Sync :=
  { s with mode := .linear
           speed := if time > large - 1 then 0 else max 0 (linearSpeed (max 0 final) time dist) }

/-- `MODE_STOP_IMMEDIATELY`, OSCPrivateAction.cpp:2922-2933. -/
noncomputable def braking (dt : ℝ) (s : Sync) : Sync :=
  if s.speed + hardBrake * dt < 0 then { s with speed := 0, mode := .waiting }
  else { s with speed := s.speed + hardBrake * dt }

/-- The end of waiting, OSCPrivateAction.cpp:2916-2920. -/
noncomputable def wake (s : Sync) : Sync := if s.mode = .waiting then { s with mode := .none } else s

open Classical in
/-- With a final speed, after the handling of the steady state, OSCPrivateAction.cpp:2904-3078, 3095. -/
noncomputable def withFinal (final dist time dt along : ℝ) (s : Sync) : Sync :=
  match s.mode with
  | .steady => { s with speed := final }
  | .stopNow => braking dt s
  | .stopped =>
    if final = 0 ∨ time < 2 * dist / final then straight final dist time s else { s with speed := 0 }
  | .linear => straight final dist time s
  | .nonLinear =>
    if time < large ∧ |s.speed - (2 * dist / time - final)| < 1 / 10 then { s with mode := .linear }
    else curved final dist time dt along s
  | .waiting =>
    if time ≥ large then s else curved final dist time dt along (enter final dist time (wake s))
  | .none => curved final dist time dt along (enter final dist time s)

/-- Without a final speed, OSCPrivateAction.cpp:2817, 3080-3095. -/
noncomputable def noFinal (dist time dt masterSpeed : ℝ) (s : Sync) : Sync :=
  if masterSpeed > small then
    { s with mode := .linear, speed := s.speed + (2 * (dist / time) - s.speed - s.speed) / time * dt }
  else s

/-- A step that does not end the action, OSCPrivateAction.cpp:2815-3096. -/
noncomputable def going (c : Cfg) (i : Seen) (dt : ℝ) (s : Sync) : Sync :=
  match c.final with
  | none => noFinal (rest c i) (masterTime c i) dt i.masterSpeed s
  | some v => withFinal v (toSteady c v s (rest c i) (masterTime c i)).2.1 (toSteady c v s (rest c i) (masterTime c i)).2.2 dt
      i.along (toSteady c v s (rest c i) (masterTime c i)).1

open Classical in
/-- `SynchronizeAction::Step`, OSCPrivateAction.cpp:2681-3097. -/
noncomputable def step (c : Cfg) (i : Seen) (dt : ℝ) (s : Sync) : Sync :=
  if done c s i dt then { await s i with speed := c.final.getD (await s i).speed, ended := true }
  else going c i dt (await s i)

end Verif.Sync

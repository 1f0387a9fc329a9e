import Verif.Transition.SpeedModel
import Mathlib.Analysis.SpecialFunctions.Complex.Arg
import Mathlib.Analysis.SpecialFunctions.Trigonometric.Arctan

/-
Model of `LatLaneChangeAction` (LaneChangeAction).
Code: EnvironmentSimulator/Modules/ScenarioEngine/OSCTypeDefs/OSCPrivateAction.cpp:872-1045.

Simplifications
* The road position is reduced to the offset from the centre of the target lane and the distance
  travelled along it (the argument of `DistanceToDS`, line 1001): the road goes on, and the lane id
  of the target lane does not change.
* `GetAngleInInterval2PI` is left out: headings are angles modulo 2π.
* The state is not stepped after the action has ended (StoryboardElement).
* The target lane of a relative target is modelled in `Verif.LaneArith`.
-/
namespace Verif.Transition

/-- The action and what it does to its entity: `transition_`, `offset_agnostic` as last written to
the position, `heading_agnostic_` as last written (0 after the end), the signed distance travelled
along the target lane and whether `OSCAction::End()` has been called. OSCPrivateAction.hpp:515-590. -/
structure LaneChange where
  td : TD
  offset : ℝ
  heading : ℝ
  along : ℝ
  ended : Bool

/-- `LatLaneChangeAction::Start`, OSCPrivateAction.cpp:872-921; `lane` is the target lane, `offset`
the offset of the entity from its centre and `target` is `target_lane_offset_`. -/
noncomputable def startChange (td : TD) (lane : Int) (offset target : ℝ) : LaneChange :=
  ⟨(td.reset.setStartVal (signLane lane * offset)).setTargetVal (signLane lane * target),
    signLane lane * offset, 0, 0, false⟩

/-- `step_len`, OSCPrivateAction.cpp:948. -/
noncomputable def stepLen (speed dt : ℝ) : ℝ := |speed| * dt

/-- `delta_lat`, OSCPrivateAction.cpp:953. -/
noncomputable def TD.lateral (td : TD) (dt : ℝ) : ℝ := dt * |td.scaledPrim|

/-- `delta_long` for times and rates, OSCPrivateAction.cpp:954. -/
noncomputable def TD.timeLong (td : TD) (speed dt : ℝ) : ℝ :=
  Real.sqrt (stepLen speed dt ^ 2 - (minM (td.lateral dt) (stepLen speed dt)) ^ 2)

/-- `delta_long` for distances, OSCPrivateAction.cpp:978. -/
noncomputable def TD.distLong (td : TD) (speed dt : ℝ) : ℝ :=
  Real.sqrt (stepLen speed dt ^ 2 / (1 + td.scaledPrim ^ 2))

/-- The test of line 956. -/
def TD.fits (td : TD) (speed dt : ℝ) : Prop := td.lateral dt < stepLen speed dt + small

/-- The argument of `Step` in the limited case, OSCPrivateAction.cpp:967. -/
noncomputable def TD.limitedStep (td : TD) (speed dt : ℝ) : ℝ :=
  stepLen speed dt * td.paramTargetVal / |td.targetVal - td.startVal|

/-- What one step does: the transition, `offset_agnostic`, `heading_agnostic_` and `delta_long`. -/
structure Moved where
  td : TD
  offset : ℝ
  heading : ℝ
  long : ℝ

/-- The feasible case, OSCPrivateAction.cpp:958-961; `atan2(y, x)` is the argument of `x + iy`. -/
noncomputable def TD.moveFits (td : TD) (speed dt : ℝ) : Moved :=
  ⟨td.step dt, (td.step dt).evaluate,
    Complex.arg ⟨td.timeLong speed dt, sign speed * sign td.scaledPrim * td.lateral dt⟩,
    td.timeLong speed dt⟩

/-- The limited case, OSCPrivateAction.cpp:965-973. -/
noncomputable def TD.moveLimited (td : TD) (speed dt : ℝ) : Moved :=
  ⟨td.step (td.limitedStep speed dt), (td.step (td.limitedStep speed dt)).evaluateAs .linear,
    sign speed * sign td.scaledPrim * (Real.pi / 2 - small), td.timeLong speed dt⟩

/-- The case of distances, OSCPrivateAction.cpp:978-981. -/
noncomputable def TD.moveDist (td : TD) (speed dt : ℝ) : Moved :=
  ⟨td.step (td.distLong speed dt), (td.step (td.distLong speed dt)).evaluate,
    Real.arctan td.scaledPrim, td.distLong speed dt⟩

open Classical in
/-- OSCPrivateAction.cpp:947-986; `offset` and `heading` are the previous values. -/
noncomputable def TD.move (td : TD) (offset heading speed dt : ℝ) : Moved :=
  if td.dim = .time ∨ td.dim = .rate then
    if td.fits speed dt then td.moveFits speed dt else td.moveLimited speed dt
  else if td.dim = .distance then td.moveDist speed dt
  else ⟨td, offset, heading, 0⟩

open Classical in
/-- The distance travelled along the lane, OSCPrivateAction.cpp:994-1001. -/
noncomputable def TD.long (td : TD) (long speed dt : ℝ) : ℝ :=
  sign speed * (if td.isStep then stepLen speed dt else long)

/-- The test for the end, OSCPrivateAction.cpp:1019-1024. -/
def TD.finished (td : TD) (offset : ℝ) : Prop :=
  td.paramVal > td.paramTargetVal - small ∨ |offset - td.targetVal| < small ∨
    (td.paramVal > 0 ∧ sign (offset - td.targetVal) ≠ sign (td.startVal - td.targetVal))

open Classical in
/-- The state after a step that moves the entity, OSCPrivateAction.cpp:988-1033. -/
noncomputable def LaneChange.moved (a : LaneChange) (m : Moved) (speed dt : ℝ) : LaneChange :=
  ⟨m.td, m.offset, if m.td.finished m.offset then 0 else m.heading,
    a.along + m.td.long m.long speed dt, decide (m.td.finished m.offset)⟩

open Classical in
/-- `LatLaneChangeAction::Step`, OSCPrivateAction.cpp:923-1047; `idle` is the case that the lateral
motion is overridden or the time is negative (lines 927-940). -/
noncomputable def LaneChange.step (a : LaneChange) (idle : Bool) (speed dt : ℝ) : LaneChange :=
  if a.ended = true ∨ idle = true ∨ |speed| < small then a
  else a.moved (a.td.move a.offset a.heading speed dt) speed dt

/-- One simulation step: whether the action is idle, the speed and the time step. -/
structure Tick where
  idle : Bool
  speed : ℝ
  dt : ℝ

/-- Any number of steps. -/
noncomputable def runChange (ts : List Tick) (a : LaneChange) : LaneChange :=
  ts.foldl (fun a t => a.step t.idle t.speed t.dt) a

end Verif.Transition

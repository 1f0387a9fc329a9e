import Verif.Move.Theorems
import Verif.LaneArith.Theorems
/-
Positions relative to the lane or the road of an entity: C160.
Code: EnvironmentSimulator/Modules/RoadManager/RoadManager.cpp:14394-14484 (`Position::EvaluateRelation`), with `MoveAlongS` and `SetLanePos` as modelled in
Verif/Move/Model.lean.

Simplifications
* Those of Verif/Move/Model.lean. Neither the entity nor the position has a route.
* The lateral position of the centre of a lane (`Lane2Track`, RoadManager.cpp:9735-9751) is a given function of road, lane and s.
-/
namespace Verif.Place
open Verif.Move (Net Pos Code moveAlongS setLane)
open Verif.LaneArith (getRelativeLaneId)

/-- Whether lanes are counted in the direction of growing lane numbers if the position is given with `dsLane` (RoadManager.cpp:14447-14450). -/
def upward (left : Bool) (lane : Int) (fwd : Bool) : Bool := (fwd && (decide (lane < 0) && !left)) || (!fwd && (decide (0 < lane) && left))

/-- `EvaluateRelation` for RELATIVE_LANE (RoadManager.cpp:14394-14475). `along`: the distance was given as `dsLane`, else as `ds`. -/
def relLane (net : Net) (ref : Pos) (dLane : Int) (ds offset : Rat) (along : Bool) : Code × Pos :=
  let q := (moveAlongS net ref ds 0 (if along then .lane else .road)).2
  match net.roads q.road with
  | none => setLane net q q.road q.lane q.s q.off none
  | some r =>
    if along = true ∧ upward r.left ref.lane ref.fwd = false then setLane net q q.road (getRelativeLaneId ref.lane (-dLane)) q.s (-offset) none
    else setLane net q q.road (getRelativeLaneId ref.lane dLane) q.s offset none

/-- `EvaluateRelation` for RELATIVE_ROAD (RoadManager.cpp:14394-14433, 14476-14478): road, s and t. -/
def relRoad (net : Net) (centre : Nat → Int → Rat → Rat) (ref : Pos) (ds dt : Rat) : Nat × Rat × Rat :=
  let q := (moveAlongS net ref ds 0 .road).2
  (q.road, q.s, centre q.road q.lane q.s + q.off + dt)

end Verif.Place

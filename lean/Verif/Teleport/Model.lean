import Mathlib.Analysis.SpecialFunctions.Trigonometric.Basic
/-
Teleport actions: OSCPrivateAction.cpp:2370-2438 (`TeleportAction::Start`), RoadManager.cpp:9996-10022 (`Position::TeleportTo`),
7450-7550 (`CopyLocation`, `Duplicate`), 11675-11687 (`CopyRoute`) and Entities.cpp:1853-1868 (`AlignRearAxlePosition`).

Simplifications: numbers are real; what `EvaluateRelation` (14376-14560) makes of the target is an arbitrary function; the fields of a
location other than x, y and heading are one number, as are configuration and route; `AlignTrailers` and `CalcRoutePosition` are noted
with the location they are called for (they are modelled in Verif/Entities and Verif/Router).
-/
noncomputable section
namespace Verif.Teleport

/-- The fields copied by `Position::CopyLocation`, RoadManager.cpp:7450-7495. -/
structure Loc where
  x : ℝ
  y : ℝ
  h : ℝ
  rest : Nat

/-- `Position`: location, state (velocity), configuration, whether it is relative, route, the location the route position is calculated
for, and s on the trajectory, if any. -/
structure Pos where
  loc : Loc
  velX : ℝ
  velY : ℝ
  config : Nat
  relative : Bool
  route : Option Nat
  routeFor : Option Loc
  trajS : Option ℝ

/-- `Position::CopyLocation`, RoadManager.cpp:7450-7495. -/
def copyLocation (p frm : Pos) : Pos := { p with loc := frm.loc }

/-- `Position::Duplicate`, RoadManager.cpp:7540-7550: configuration, location and state. -/
def duplicate (p frm : Pos) : Pos :=
  { p with config := frm.config, relative := frm.relative, loc := frm.loc, velX := frm.velX, velY := frm.velY }

/-- `Position::CopyRoute`, RoadManager.cpp:11675-11687. -/
def copyRoute (p frm : Pos) : Pos := if frm.route.isSome then { p with route := frm.route } else p

/-- `Position::SetTrajectoryS` with update, RoadManager.cpp:14241-14256; `on s` is the location at `s` of the trajectory. -/
def setTrajS (on : ℝ → Loc) (p : Pos) (s : ℝ) : Pos :=
  if p.trajS.isSome then { p with trajS := some s, loc := on s } else p

/-- `Position::TeleportTo`, RoadManager.cpp:9996-10022: the position and the target afterwards. -/
def teleportTo (ev : Pos → Pos) (on : ℝ → Loc) (p target : Pos) : Pos × Pos :=
  let target := if target.relative ∨ target.trajS.isSome then ev target else target
  let p := copyLocation p target
  let p := if p.route.isSome then { p with routeFor := some p.loc } else p
  match p.trajS with
  | some s => if target.trajS.isSome then (p, setTrajS on target s) else (p, target)
  | none => (p, target)

/-- The fields of `Object` and of the engine used here. -/
structure Obj where
  pos : Pos
  speed : ℝ
  overridden : Bool
  towed : Bool
  trailer : Bool
  vehicle : Bool
  ghost : Bool
  ego : Option (ℝ × Pos)
  refOffset : ℝ
  rearX : ℝ
  rearY : ℝ
  rearVelX : ℝ
  rearVelY : ℝ
  trailersFor : Option Loc
  dirty : Bool
  restart : Bool
  trailReset : Bool
  eventsReset : Bool

/-- `Vehicle::AlignRearAxlePosition`, Entities.cpp:1853-1868, with `SE_Vector::Rotate`, CommonMini.hpp:322-328. -/
def alignRear (o : Obj) : Obj :=
  if ¬ |o.refOffset| < 1 / 1000000 then
    { o with
      rearX := o.pos.loc.x + (-o.refOffset * Real.cos o.pos.loc.h - 0 * Real.sin o.pos.loc.h)
      rearY := o.pos.loc.y + (-o.refOffset * Real.sin o.pos.loc.h + 0 * Real.cos o.pos.loc.h)
      rearVelX := o.pos.velX
      rearVelY := o.pos.velY }
  else { o with rearX := o.pos.loc.x, rearY := o.pos.loc.y, rearVelX := o.pos.velX, rearVelY := o.pos.velY }

/-- The relocation, OSCPrivateAction.cpp:2387-2422: object and target afterwards. -/
def relocate (ev : Pos → Pos) (on : ℝ → Loc) (ghostRestart : Bool) (time : ℝ) (o : Obj) (target : Pos) : Obj × Pos :=
  open Classical in
  if o.ghost ∧ ghostRestart ∧ time > 1 / 1000000 then
    let o := { o with restart := true, trailReset := true }
    let o := match o.ego with
      | some (v, p) => { o with speed := v, pos := duplicate o.pos p }
      | none => o
    ({ o with eventsReset := true }, target)
  else
    let target := copyRoute target o.pos
    let r := teleportTo ev on o.pos target
    ({ o with pos := r.1 }, r.2)

/-- After the relocation, OSCPrivateAction.cpp:2424-2437. -/
def settle (o : Obj) : Obj :=
  let o := if !o.towed && o.trailer then { o with trailersFor := some o.pos.loc } else o
  let o := if o.vehicle then alignRear o else o
  { o with dirty := true }

/-- `TeleportAction::Start`, OSCPrivateAction.cpp:2370-2438. -/
def teleportStart (ev : Pos → Pos) (on : ℝ → Loc) (ghostRestart : Bool) (time : ℝ) (o : Obj) (target : Pos) : Obj × Pos :=
  if o.overridden then (o, target)
  else if o.towed then (o, target)
  else
    let r := relocate ev on ghostRestart time o target
    (settle r.1, r.2)

end Verif.Teleport

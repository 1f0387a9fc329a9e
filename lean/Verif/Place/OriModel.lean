import Verif.Geom.RotTheorems
/-
Orientation of positions: C161-C163.
Code: EnvironmentSimulator/Modules/RoadManager/RoadManager.cpp:9557-9592, 10827-10930, 10949-11113, 14486-14573,
EnvironmentSimulator/Modules/ScenarioEngine/OSCTypeDefs/OSCPosition.cpp:18-226.

Simplifications
* Real arithmetic, rotations as in Verif/Geom/RotModel.lean.
* The orientation of the road at the position, the heading of the lane in the road and the twist of the road surface are inputs. They do not change while an orientation is set.
* A value that is not given (NaN) is `none`.
-/
namespace Verif.Place
open Real Verif.Geom

/-- The three bits of a component of the position mode (RoadManager.hpp:3905-3934). -/
inductive Mode | skip | dflt | abs | rel
  deriving DecidableEq

/-- Modes of heading, pitch and roll. -/
structure Modes where
  h : Mode
  p : Mode
  r : Mode

/-- Orientation of the road, heading of the lane in the road (`h_offset_`) and additional pitch in the direction of the road by a change of the super elevation
(`atan(tan(roadSuperElevationPrim_) * -t_)`, RoadManager.cpp:11150). -/
structure RoadOri where
  h : ℝ
  p : ℝ
  r : ℝ
  hOff : ℝ
  twist : ℝ

/-- Orientation of a position and its orientation relative to the road. -/
structure Ori where
  h : ℝ
  p : ℝ
  r : ℝ
  hRel : ℝ
  pRel : ℝ
  rRel : ℝ

/-- Default of the SET modes (RoadManager.cpp:11368-11371). -/
def setDefault : Modes := ⟨.abs, .rel, .rel⟩

/-- `EvaluateHPR(mode)` (RoadManager.cpp:11075-11113). -/
noncomputable def evaluate (m : Modes) (road : RoadOri) (o : Ori) : Ori :=
  if m.h = .skip ∧ m.p = .skip ∧ m.r = .skip then o
  else
    let e := compose road.h (if m.p = .abs then 0 else road.p) (if m.r = .abs then 0 else road.r)
      (if m.h = .abs then angleDiff π o.h road.h else o.hRel + road.hOff)
      (if m.p = .abs then o.p else o.pRel + cos o.hRel * road.twist) (if m.r = .abs then o.r else o.rRel)
    let d := relAngles (road.h + road.hOff) road.p road.r e.1 e.2.1 e.2.2
    ⟨e.1, e.2.1, e.2.2, if m.h = .abs then d.1 else o.hRel, if m.p = .abs then d.2.1 else o.pRel, if m.r = .abs then d.2.2 else o.rRel⟩

/-- `SetHeading`, without evaluation (RoadManager.cpp:10951). -/
def setH (h : ℝ) (o : Ori) : Ori := { o with h := h }

/-- `SetHeadingRelative`, without evaluation (RoadManager.cpp:10960). -/
noncomputable def setHRel (h : ℝ) (o : Ori) : Ori := { o with hRel := interval2PI π h }

/-- `SetPitch`, without evaluation (RoadManager.cpp:11034). -/
def setP (p : ℝ) (o : Ori) : Ori := { o with p := p }

/-- `SetPitchRelative`, without evaluation (RoadManager.cpp:11044). -/
noncomputable def setPRel (p : ℝ) (o : Ori) : Ori := { o with pRel := interval2PI π p }

/-- `SetRoll`, without evaluation (RoadManager.cpp:11014). -/
def setR (r : ℝ) (o : Ori) : Ori := { o with r := r }

/-- `SetRollRelative`, without evaluation (RoadManager.cpp:11024). -/
noncomputable def setRRel (r : ℝ) (o : Ori) : Ori := { o with rRel := interval2PI π r }

/-- "Apply absolute mode as default" (RoadManager.cpp:10867-10886). -/
def Mode.orAbs : Mode → Mode
  | .dflt => .abs
  | m => m

/-- A value set in `SetInertiaPosMode` (RoadManager.cpp:10891-10925): nothing is set if it is not given or if the component is not set in the mode. -/
def assign (m : Mode) (v : Option ℝ) (absolute relative : ℝ → Ori → Ori) (o : Ori) : Ori :=
  match v with
  | none => o
  | some x => if m = .skip then o else if m = .rel then relative x o else absolute x o

/-- End of `XYZ2TrackPos` beyond the ends of the road (RoadManager.cpp:9570-9580): pitch and roll of the road are ignored; the orientation is evaluated with the SET modes. -/
noncomputable def beyond (set : Modes) (road : RoadOri) (o : Ori) : RoadOri × Ori :=
  ({ road with p := 0, r := 0 }, evaluate set { road with p := 0, r := 0 } { o with p := 0, r := 0 })

/-- `SetInertiaPosMode` (RoadManager.cpp:10827-10930), orientation only. `outside`: the closest point of the road network is an end of a road. -/
noncomputable def setWorld (set m : Modes) (road : RoadOri) (outside : Bool) (h p r : Option ℝ) (o : Ori) : RoadOri × Ori :=
  let a := if outside then beyond set road o else (road, o)
  let m : Modes := ⟨m.h.orAbs, m.p.orAbs, m.r.orAbs⟩
  (a.1, evaluate m a.1 (assign m.r r setR setRRel (assign m.p p setP setPRel (assign m.h h setH setHRel a.2))))

/-- Modes of the components of an Orientation (OSCPosition.cpp:30-44): `absolute` is its type. -/
def initModes (absolute : Bool) (h p r : Option ℝ) : Modes :=
  let f (v : Option ℝ) : Mode := if v.isNone then .skip else if absolute then .abs else .rel
  ⟨f h, f p, f r⟩

/-- `None2Relative` (OSCPosition.cpp:47-72). -/
def Mode.orRel : Mode → Mode
  | .skip => .rel
  | m => m

/-- A new `Position`. -/
def fresh : Ori := ⟨0, 0, 0, 0, 0, 0⟩

/-- Orientation of `OSCPositionLane` (OSCPosition.cpp:87-142). `back`: the lane runs against the road axis (OSCPosition.cpp:107-116). -/
noncomputable def lanePos (absolute back : Bool) (h p r : Option ℝ) (road : RoadOri) : Ori :=
  let o := if absolute = false ∨ h = none then setHRel (if back then angleSum π π (h.getD 0) else h.getD 0) fresh
    else evaluate ⟨.abs, .skip, .skip⟩ ⟨0, 0, 0, 0, 0⟩ (setH (h.getD 0) fresh)
  let o := if absolute = false ∨ p = none then setPRel (p.getD 0) o else setP (p.getD 0) o
  let o := if absolute = false ∨ r = none then setRRel (r.getD 0) o else setR (r.getD 0) o
  let m := initModes absolute h p r
  evaluate ⟨m.h.orRel, m.p.orRel, m.r.orRel⟩ road o

/-- Orientation of a relative lane or road position (RoadManager.cpp:14531-14573). `back`: given by `dsLane`, and the lane runs against the road axis. The setters evaluate the
orientation with the mode of their component only, the end with the SET modes. -/
noncomputable def relLaneOri (set : Modes) (absolute back : Bool) (h p r : Option ℝ) (road : RoadOri) (o : Ori) : Ori :=
  let m := initModes absolute h p r
  let o := if m.h = .rel ∨ m.h = .skip then evaluate ⟨.rel, .skip, .skip⟩ road (setHRel (if back then angleSum π (h.getD 0) π else h.getD 0) o)
    else evaluate ⟨.abs, .skip, .skip⟩ road (setH (h.getD 0) o)
  let o := if m.p = .rel ∨ m.p = .skip then evaluate ⟨.skip, .rel, .skip⟩ road (setPRel (p.getD 0) o)
    else evaluate ⟨.skip, .abs, .skip⟩ road (setP (p.getD 0) o)
  let o := if m.r = .rel ∨ m.r = .skip then evaluate ⟨.skip, .skip, .rel⟩ road (setRRel (r.getD 0) o)
    else evaluate ⟨.skip, .skip, .abs⟩ road (setR (r.getD 0) o)
  evaluate set road o

/-- Orientation of a relative object or world position (RoadManager.cpp:14497-14507, 14517-14527, 14573). `ref`: heading, pitch and roll of the entity. -/
noncomputable def relObjectOri (set : Modes) (absolute : Bool) (h p r : Option ℝ) (ref : ℝ × ℝ × ℝ) (road : RoadOri) (outside : Bool) (o : Ori) : Ori :=
  let m := initModes absolute h p r
  let a := setWorld set ⟨.abs, .abs, .abs⟩ road outside
    (some (if m.h = .abs then h.getD 0 else angleSum π (h.getD 0) ref.1))
    (some (if m.p = .abs then p.getD 0 else angleSum π (p.getD 0) ref.2.1))
    (some (if m.r = .abs then r.getD 0 else angleSum π (r.getD 0) ref.2.2)) o
  evaluate set a.1 a.2

/-- Place of a relative object (`object`) or world position (RoadManager.cpp:14486-14516, OSCPosition.cpp:183-226): `dz` may be missing; the place is then on the road, whose
height is `zRoad`. -/
noncomputable def relPlace (object : Bool) (at' ref : ℝ × ℝ × ℝ) (dx dy : ℝ) (dz : Option ℝ) (zRoad : ℝ → ℝ → ℝ) : ℝ × ℝ × ℝ :=
  let v := if object then rotateVec ref.1 ref.2.1 ref.2.2 (dx, dy, dz.getD 0) else (dx, dy, dz.getD 0)
  let x := at'.1 + v.1
  let y := at'.2.1 + v.2.1
  (x, y, match dz with
    | some _ => at'.2.2 + v.2.2
    | none => zRoad x y + 0)

end Verif.Place

import Verif.Geom.AngleModel
import Verif.Geom.LineModel

/-
`FollowTrajectoryAction` (OSCPrivateAction.cpp:337-640, OSCPrivateAction.hpp:1142-1225), with the parts of `RMTrajectory`
and `Position` it uses (RoadManager.cpp:14213-14267, 15287-15400).

Simplifications: doubles are reals. A trajectory is given by its length, start time, duration and what it says for each
place and time (C77-C82 deal with these); a place short of the end by less than 1e-6 is the end as in
`PolyLineBase::Evaluate`. The lateral domain is not overridden by a controller (the action does nothing if it is). The
interpolation mode is left out.
-/
namespace Verif.Follow
open Verif.Geom

/-- A trajectory: what its shape says. -/
structure Traj where
  len : ℝ
  start : ℝ
  dur : ℝ
  closed : Bool
  /-- place by time -/
  sAt : ℝ → ℝ
  /-- time by place -/
  tAt : ℝ → ℝ
  /-- speed by place -/
  vAt : ℝ → ℝ
  /-- heading by place -/
  h : ℝ → ℝ
  /-- direction of the line by place -/
  hTrue : ℝ → ℝ
  /-- whether the heading is specified -/
  expl : ℝ → Bool

/-- `TimingDomain`, OSCPrivateAction.hpp:1145-1150. -/
inductive Domain | none | relative | absolute
deriving DecidableEq

/-- The action as read, OSCPrivateAction.hpp:1152-1162. -/
structure Act where
  traj : Traj
  domain : Domain
  scale : ℝ
  offset : ℝ
  init : ℝ
  ignore : Bool

/-- The state of the action and of the entity. `rest` is how far the entity was moved past the end of the trajectory,
along its heading there. -/
structure St where
  s : ℝ
  time : ℝ
  speed : ℝ
  h : ℝ
  head : ℝ
  expl : Bool
  dir : ℝ
  rest : ℝ
  ended : Bool

open Classical in
/-- `PolyLineShape::Evaluate` by distance and `PolyLineBase::Evaluate`: the place kept in `current_val_`,
RoadManager.cpp:13313-13347, 12635-12662. -/
noncomputable def evalS (t : Traj) (p : ℝ) : ℝ := if p > t.len - small then t.len else p

open Classical in
/-- Whether `h` is against the line, OSCPrivateAction.cpp:453, 576, 628. -/
noncomputable def headSign (h hTrue : ℝ) : ℝ := if absAngleDiff Real.pi h hTrue > Real.pi / 2 + small then -1 else 1

/-- `speedSign`, OSCPrivateAction.cpp:424-437. -/
noncomputable def speedSign (a : Act) (s speed : ℝ) : ℝ :=
  if a.domain = Domain.none then sign speed
  else if a.traj.expl s then headSign (a.traj.h s) (a.traj.hTrue s) else 1

open Classical in
/-- The heading at the start, OSCPrivateAction.cpp:440-451. -/
noncomputable def startHeading (a : Act) (s sgn : ℝ) : ℝ :=
  if a.traj.expl s then a.traj.h s
  else interval2PI Real.pi (a.traj.hTrue s + if sgn < 0 then Real.pi else 0)

/-- `initialHeadingSign_` at the start, OSCPrivateAction.cpp:453-459. -/
noncomputable def startHead (a : Act) (s sgn : ℝ) : ℝ :=
  if a.traj.expl s && a.ignore then 1 else headSign (startHeading a s sgn) (a.traj.hTrue s)

/-- `FollowTrajectoryAction::Start`, OSCPrivateAction.cpp:416-465. -/
noncomputable def start (a : Act) (speed : ℝ) : St where
  s := evalS a.traj a.init
  time := a.traj.tAt (evalS a.traj a.init)
  speed := if a.domain = Domain.none then speed
    else speedSign a (evalS a.traj a.init) speed * a.traj.vAt (evalS a.traj a.init)
  h := startHeading a (evalS a.traj a.init) (speedSign a (evalS a.traj a.init) speed)
  head := startHead a (evalS a.traj a.init) (speedSign a (evalS a.traj a.init) speed)
  expl := a.traj.expl (evalS a.traj a.init)
  dir := 1
  rest := 0
  ended := false

/-- Who moves: whether the entity is a ghost, its headstart time, and whether a controller overrides the longitudinal
domain. -/
structure Who where
  ghost : Bool
  lead : ℝ
  over : Bool

/-- `timeOffset` in `Move`, OSCPrivateAction.cpp:572. -/
def lead (a : Act) (w : Who) : ℝ := if a.domain = Domain.absolute ∧ w.ghost then w.lead else 0

/-- Moving by speed, OSCPrivateAction.cpp:585-587. -/
noncomputable def moveSpeed (a : Act) (dt : ℝ) (st : St) : St :=
  { st with dir := sign st.speed * st.head, s := evalS a.traj (st.s + sign st.speed * st.head * |st.speed| * dt) }

/-- `time_`, OSCPrivateAction.cpp:591. -/
def relTime (a : Act) (dt : ℝ) (st : St) : ℝ := st.time + a.scale * dt

/-- The place by relative time, OSCPrivateAction.cpp:592. -/
noncomputable def relS (a : Act) (dt : ℝ) (st : St) : ℝ := evalS a.traj (a.traj.sAt (relTime a dt st + a.offset))

/-- The speed of the movement from `st.s` to `s`, OSCPrivateAction.cpp:600-601 and 619. -/
noncomputable def newSpeed (a : Act) (dir s dt : ℝ) (st : St) : ℝ :=
  dir * headSign st.h (a.traj.hTrue st.s) * |s - st.s| / dt

open Classical in
/-- Moving by relative time, OSCPrivateAction.cpp:589-604. -/
noncomputable def moveRel (a : Act) (dt : ℝ) (st : St) : St :=
  if relTime a dt st + a.offset < a.traj.start + a.traj.dur + small ∧ dt > small then
    { st with
      time := relTime a dt st
      s := relS a dt st
      dir := sign (relS a dt st - st.s)
      speed := newSpeed a (sign (relS a dt st - st.s)) (relS a dt st) dt st }
  else { st with time := relTime a dt st, s := relS a dt st, dir := 1 }

open Classical in
/-- `time_`, OSCPrivateAction.cpp:607-610. -/
noncomputable def absTime (a : Act) (w : Who) (sim dt : ℝ) (st : St) : ℝ :=
  if w.ghost ∨ sim > -small then (sim + dt) * a.scale else st.time

/-- The place by absolute time, OSCPrivateAction.cpp:612. -/
noncomputable def absS (a : Act) (w : Who) (sim dt : ℝ) (st : St) : ℝ :=
  evalS a.traj (a.traj.sAt (absTime a w sim dt st + lead a w + a.offset))

open Classical in
/-- Moving by absolute time, OSCPrivateAction.cpp:605-620. -/
noncomputable def moveAbs (a : Act) (w : Who) (sim dt : ℝ) (st : St) : St :=
  if dt > small ∧ absTime a w sim dt st + lead a w < a.traj.start + a.traj.dur + small then
    { st with
      time := absTime a w sim dt st
      s := absS a w sim dt st
      dir := 1
      speed := newSpeed a 1 (absS a w sim dt st) dt st }
  else { st with time := absTime a w sim dt st, s := absS a w sim dt st, dir := 1 }

/-- Moving, OSCPrivateAction.cpp:578-620. -/
noncomputable def moveBy (a : Act) (w : Who) (sim dt : ℝ) (st : St) : St :=
  if a.domain = Domain.none ∨ w.over then moveSpeed a dt st
  else if a.domain = Domain.relative then moveRel a dt st
  else moveAbs a w sim dt st

/-- `initialHeadingSign_` after the movement, OSCPrivateAction.cpp:629-634; the entity has the heading of the trajectory
(`UpdateTrajectoryPos`, RoadManager.cpp:14334-14342). -/
noncomputable def newHead (a : Act) (st : St) : ℝ :=
  if st.expl then headSign (a.traj.h st.s) (a.traj.hTrue st.s) else st.head

open Classical in
/-- The heading after the movement, OSCPrivateAction.cpp:622-643. -/
noncomputable def turn (a : Act) (st : St) : St :=
  if a.traj.expl st.s then { st with h := a.traj.h st.s, expl := true }
  else { st with
    h := if newHead a st < 0 then interval2PI Real.pi (a.traj.h st.s + Real.pi) else a.traj.h st.s
    head := newHead a st
    expl := false }

/-- `Move`, OSCPrivateAction.cpp:560-635. -/
noncomputable def move (a : Act) (w : Who) (sim dt : ℝ) (st : St) : St := turn a (moveBy a w sim dt st)

/-- The end of a trajectory without time, OSCPrivateAction.cpp:525-527. -/
def endPlace (a : Act) (dt : ℝ) (st : St) : Prop :=
  a.domain = Domain.none ∧ a.traj.closed = false ∧ dt > 0 ∧
    ((st.dir * |st.speed| > 0 ∧ st.s > a.traj.len - small) ∨ (st.dir * |st.speed| < 0 ∧ st.s < small))

/-- The end of a trajectory with time, OSCPrivateAction.cpp:528. -/
def endTime (a : Act) (w : Who) (st : St) : Prop :=
  a.domain ≠ Domain.none ∧ st.time + (lead a w + a.offset) > a.traj.start + a.traj.dur - small

open Classical in
/-- `remaningDistance`, OSCPrivateAction.cpp:531-543. -/
noncomputable def remaining (a : Act) (w : Who) (old dt : ℝ) (st : St) : ℝ :=
  if a.domain = Domain.none ∧ a.traj.closed = false ∧ (st.s > a.traj.len - small ∨ st.s < small) then
    |st.speed| * dt - |st.s - old|
  else if endTime a w st then (st.time + (lead a w + a.offset) - (a.traj.start + a.traj.dur)) * st.speed
  else 0

open Classical in
/-- The end check, OSCPrivateAction.cpp:525-557. -/
noncomputable def finish (a : Act) (w : Who) (old dt : ℝ) (st : St) : St :=
  if endPlace a dt st ∨ endTime a w st then { st with rest := remaining a w old dt st, ended := true } else st

open Classical in
/-- `Step`, OSCPrivateAction.cpp:487-558. -/
noncomputable def step (a : Act) (w : Who) (sim dt : ℝ) (st : St) : St :=
  if w.ghost = false ∧ sim < 0 then st else finish a w st.s dt (move a w sim dt st)

/-- Steps until the action ends; `dts` are the time steps. -/
noncomputable def run (a : Act) (w : Who) : ℝ → List ℝ → St → St
  | _, [], st => st
  | sim, dt :: r, st => if st.ended then st else run a w (sim + dt) r (step a w sim dt st)

/-- The copy of an action made for a ghost, OSCPrivateAction.hpp:1182-1199, with `RMTrajectory::Copy`,
RoadManager.cpp:15395-15401 (the copy of the shape is taken to be right, see C81). -/
def copy (a : Act) : Act := { a with init := a.offset, traj := { a.traj with closed := false } }

end Verif.Follow

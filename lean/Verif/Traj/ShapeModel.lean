import Verif.Traj.PolyModel
import Verif.Geom.AngleModel
/-
Model of the trajectory shapes: EnvironmentSimulator/Modules/RoadManager/RoadManager.cpp 12981-12996
(`VerticesUnique`), 13007-13075 (`FinalizeVertices`), 13234-13300 (speeds, `CalculatePolyLine`), 13303-13350
(`PolyLineShape::Evaluate`), 13436-13497 (`ClothoidSplineShape::Evaluate`), 13572-13622
(`ClothoidSplineShape::CalculatePolyLine`), 13645-13658 (`Copy`), 14152-14181 (`ClothoidShape::Evaluate`).

Simplifications: doubles are exact rationals; `abs` of a double is its absolute value; a division by zero
gives 0 here (the theorems exclude it); clothoids are seen along themselves (the position of a point is its
distance from the start of the segment), so the spiral geometry is left out.
-/
namespace Verif.Traj

/-- `SIGN`, CommonMini.hpp 55. -/
def sgn (x : Rat) : Int := if x < 0 then -1 else 1

/-- One segment in FOLLOW mode, RoadManager.cpp 13251-13279: acceleration on the segment and speed at its
end, from the speed at its start, its length and its duration. -/
def segFollow (v ds dt : Rat) : Rat × Rat :=
  if (if ds < 0 then -ds else ds) > small then
    let acc := 2 * (ds - v * dt) / (dt * dt)
    if sgn (v + acc * dt) ≠ sgn v then (-(v * v) / (2 * ds), 0) else (acc, v + acc * dt)
  else (0, 0)

/-- The loop of FOLLOW mode, RoadManager.cpp 13234-13281: `v` is the speed at the first vertex. -/
def followSpeeds (v : Rat) : List Vtx → List Vtx
  | [] => []
  | [p] => [{ p with speed := v, acc := 0 }]
  | p :: q :: rest =>
    { p with speed := v, acc := (segFollow v (q.s - p.s) (q.time - p.time)).1 } ::
      followSpeeds (segFollow v (q.s - p.s) (q.time - p.time)).2 (q :: rest)

/-- Speed on a segment in POSITION mode, RoadManager.cpp 13290-13299. -/
def segPosition (ds dt : Rat) : Rat := if dt > small then ds / dt else 0

/-- The loop of POSITION mode, RoadManager.cpp 13282-13303: the last round writes the speed of the
segment before once more to the second last vertex, so the last one keeps what it has. -/
def positionSpeeds : List Vtx → List Vtx
  | [] => []
  | [p] => [p]
  | p :: q :: rest =>
    { p with speed := segPosition (q.s - p.s) (q.time - p.time) } :: positionSpeeds (q :: rest)

/-- The whole loop of POSITION mode; with a single vertex the last round writes to `vertex_[-1]`. -/
def positionSpeedsChecked (vs : List Vtx) : Option (List Vtx) :=
  match vs with
  | [_] => none
  | vs => some (positionSpeeds vs)

/-- The search for the segment by time, RoadManager.cpp 13322-13325: the vertex and whether it has a
successor is of no further use. -/
def segByTime (t : Rat) : List Vtx → Option Vtx
  | [] => none
  | [p] => some p
  | p :: q :: rest => if q.time < t then segByTime t (q :: rest) else some p

/-- The distance travelled in the segment, RoadManager.cpp 13329-13340. -/
def travel (p : Vtx) (t : Rat) : Rat :=
  let dt := rmax 0 (t - p.time)
  let dt := if p.acc < 0 then rmin dt (-p.speed / p.acc) else dt
  p.s + dt * p.speed + 1 / 2 * p.acc * dt * dt

/-- `PolyLineShape::Evaluate` by time, RoadManager.cpp 13303-13350, up to the call of
`PolyLineBase::Evaluate`: the distance s at time t. -/
def shapeS (vs : List Vtx) (t : Rat) : Option Rat :=
  match vs.getLast? with
  | none => none
  | some l => if t > l.time then some l.s else (segByTime t vs).map fun p => travel p t

/-! Filter of close vertices -/

/-- A vertex of a trajectory as specified: position and time. -/
structure Raw (α : Type) where
  pos : α
  time : Rat
deriving DecidableEq

/-- State of the filter loop, RoadManager.cpp 13018-13022: the array and the three indices. -/
structure FSt (α : Type) where
  arr : List (Raw α)
  a : Nat
  b : Nat
  c : Nat

/-- One round of the filter loop, RoadManager.cpp 13024-13063; `uniq` is `VerticesUnique`.  `none`:
reading outside the array. -/
def filterStep {α : Type} (uniq : α → α → Bool) (st : FSt α) : Option (FSt α) :=
  match st.arr[st.a]?, st.arr[st.b]?, st.arr[st.c]? with
  | some va, some vb, some vc =>
    if !uniq va.pos vb.pos then
      if !uniq va.pos vc.pos then
        some ⟨st.arr.set st.b vc, st.a, st.b, st.c + 1⟩
      else if vc.time - va.time < 1 + small then
        some ⟨st.arr.set (st.a + 1) vc, st.a + 1, st.c + 1, st.c + 2⟩
      else
        some ⟨(st.arr.set (st.a + 1) ⟨va.pos, vb.time⟩).set (st.a + 2) vc, st.a + 2, st.c + 1, st.c + 2⟩
    else some ⟨st.arr.set (st.a + 1) vb, st.a + 1, st.b + 1, st.c + 1⟩
  | _, _, _ => none

/-- The loop `while (c_idx < vertex_.size())`; `fuel` bounds the rounds (`c` grows in each). -/
def filterLoop {α : Type} (uniq : α → α → Bool) : Nat → FSt α → Option (FSt α)
  | 0, st => some st
  | fuel + 1, st =>
    if st.c < st.arr.length then
      match filterStep uniq st with
      | some st' => filterLoop uniq fuel st'
      | none => none
    else some st

/-- `PolyLineShape::FinalizeVertices` with a filter radius set, RoadManager.cpp 13007-13072. -/
def filterVertices {α : Type} (uniq : α → α → Bool) (vs : List (Raw α)) : Option (List (Raw α)) :=
  if vs.length > 2 then
    match filterLoop uniq vs.length ⟨vs, 0, 1, 2⟩ with
    | none => none
    | some st =>
      match st.arr[st.b]? with
      | some vb => some ((st.arr.set (st.a + 1) vb).take (st.a + 2))
      | none => some (st.arr.take (st.a + 1))
  else some vs

/-- `VerticesUnique` for two plain positions at the given distance with headings `ha` and `hb`,
RoadManager.cpp 12981-12996. -/
def vertsUnique (pi dist ha hb distThr headThr : Rat) : Bool :=
  !(decide (dist < distThr + small) && decide (Verif.Geom.angleDiff pi ha hb < headThr + small))

/-! Clothoids -/

/-- `ClothoidShape::Evaluate`, RoadManager.cpp 14152-14172: the distance along the clothoid for a time. -/
def clothoidTimeS (len tStart tEnd p : Rat) : Rat :=
  if p ≥ tStart ∧ p ≤ tEnd then
    let t := p - tStart
    len * (t - tStart) / (tEnd - tStart)
  else len

/-- A clothoid segment: length and start time. -/
structure Seg where
  len : Rat
  time : Rat
deriving Repr, DecidableEq

/-- The search of `ClothoidSplineShape::Evaluate` by time, RoadManager.cpp 13453-13476: `s` is the length
of the segments before. -/
def splineSeg (tEnd p : Rat) (s : Rat) : List Seg → Option Rat
  | [] => none
  | [g] => some (s + (p - g.time) / (tEnd - g.time) * g.len)
  | g :: g' :: rest =>
    if p > g'.time - small then splineSeg tEnd p (s + g.len) (g' :: rest)
    else some (s + (p - g.time) / (g'.time - g.time) * g.len)

/-- Total length of the segments. -/
def totalLen (gs : List Seg) : Rat := (gs.map Seg.len).sum

/-- `ClothoidSplineShape::Evaluate` by time, RoadManager.cpp 13436-13482: the distance along the spline.
`none`: no segments (the program quits). -/
def splineTimeS (gs : List Seg) (tEnd p : Rat) : Option Rat :=
  match gs with
  | [] => none
  | g :: rest =>
    if p ≥ g.time ∧ p ≤ tEnd then splineSeg tEnd p 0 (g :: rest) else some (totalLen (g :: rest))

/-- The loop of `ClothoidSplineShape::CalculatePolyLine`, RoadManager.cpp 13592-13622: for each vertex the
segment `j` it is evaluated in and the place within it; `sum` is `length_sum`.  `none`: reading outside
`segments_`. -/
def splineVerts (gs : List Seg) (total : Rat) (steps : Nat) : Nat → Nat → Nat → Rat → Option (List (Nat × Rat))
  | 0, _, _, _ => some []
  | fuel + 1, i, j, sum =>
    if i < steps then
      match gs[j]? with
      | none => none
      | some g =>
        let (j, sum) := if (i : Rat) > sum + g.len - small then (j + 1, sum + g.len) else (j, sum)
        (splineVerts gs total steps fuel (i + 1) j sum).map fun r => (j, (i : Rat) - sum) :: r
    else some [(gs.length - 1, total - sum)]

/-- All vertices of the spline; vertex `i` gets the distance `i`. -/
def splinePoly (gs : List Seg) (steps : Nat) : Option (List (Nat × Rat)) :=
  splineVerts gs (totalLen gs) steps (steps + 1) 0 0 0

/-- `ClothoidSplineShape::Copy`, RoadManager.cpp 13647-13660: the segments are copied, the end time is the
default of a new spline. -/
def splineCopy (gs : List Seg) (_tEnd : Rat) : List Seg × Rat := (gs, 0)

end Verif.Traj

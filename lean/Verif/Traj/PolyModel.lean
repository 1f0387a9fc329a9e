/-
Model of trajectories as lists of vertices:
EnvironmentSimulator/Modules/RoadManager/RoadManager.cpp 12468-12604 (`EvaluateSegmentByLocalS`), 12606-12623
(`AddVertex`), 12626-12664 (`Evaluate`), 12676-12766 (`Time2S`), 12876-12900 (`FindPointAhead`,
`FindPointAtTime`), RoadManager.hpp 3819-3836 (`TrajVertex`).

Simplifications: doubles are exact rationals; the orientation (heading, pitch, roll), the road id, the
position mode and the wheel angle of a vertex are left out; reading outside the vertex array is `none`.
-/
namespace Verif.Traj

/-- SMALL_NUMBER, CommonMini.hpp. -/
def small : Rat := 1 / 1000000

/-- `TrajVertex`, RoadManager.hpp 3819-3836: the fields used here. -/
structure Vtx where
  s : Rat
  x : Rat
  y : Rat
  z : Rat
  time : Rat
  speed : Rat
  acc : Rat
  param : Rat
deriving Repr, DecidableEq

/-- `(1 - a) * p + a * q` for every field: RoadManager.cpp 12508-12519. -/
def mix (a : Rat) (p q : Vtx) : Vtx :=
  ⟨(1 - a) * p.s + a * q.s, (1 - a) * p.x + a * q.x, (1 - a) * p.y + a * q.y, (1 - a) * p.z + a * q.z,
   (1 - a) * p.time + a * q.time, (1 - a) * p.speed + a * q.speed, (1 - a) * p.acc + a * q.acc,
   (1 - a) * p.param + a * q.param⟩

/-- `MAX`, CommonMini.hpp 56. -/
def rmax (x y : Rat) : Rat := if y > x then y else x

/-- `MIN`, CommonMini.hpp 57. -/
def rmin (x y : Rat) : Rat := if y < x then y else x

/-- `CLAMP`, CommonMini.hpp 62. -/
def clamp (x lo hi : Rat) : Rat := rmin hi (rmax lo x)

/-- `PolyLineBase::EvaluateSegmentByLocalS`, RoadManager.cpp 12468-12604: the last vertex itself, or the
mix of two neighbours. -/
def evalSeg (vs : List Vtx) (i : Nat) (localS : Rat) : Option Vtx :=
  match vs[i]? with
  | none => none
  | some p =>
    if i ≥ vs.length - 1 then some p
    else
      match vs[i + 1]? with
      | none => none
      | some q =>
        let length := rmax (q.s - p.s) small
        some (mix (clamp localS 0 length / length) p q)

/-- The value read for a vertex (0 outside the array; only used for indices inside). -/
def sAt (vs : List Vtx) (i : Nat) : Rat := ((vs[i]?).map Vtx.s).getD 0

/-- The time stamp of a vertex. -/
def timeAt (vs : List Vtx) (i : Nat) : Rat := ((vs[i]?).map Vtx.time).getD 0

/-- `for (; i < N - 1 && s > vertex_[i + 1].s + SMALL_NUMBER; i++)`, RoadManager.cpp 12644-12645.
`fuel` is the number of vertices left. -/
def forwardS (vs : List Vtx) (s : Rat) : Nat → Nat → Nat
  | 0, i => i
  | fuel + 1, i =>
    if i < vs.length - 1 ∧ s > sAt vs (i + 1) + small then forwardS vs s fuel (i + 1) else i

/-- `for (; i > 0 && s < vertex_[i].s + SMALL_NUMBER; i--)`, RoadManager.cpp 12649-12650. -/
def backwardS (vs : List Vtx) (s : Rat) : Nat → Nat
  | 0 => 0
  | i + 1 => if s < sAt vs (i + 1) + small then backwardS vs s i else i + 1

/-- `PolyLineBase::Evaluate(s, pos, startAtIndex)`, RoadManager.cpp 12625-12664: the index and the
position; `length` is `length_`.  `none`: no vertices. -/
def evaluate (vs : List Vtx) (length s : Rat) (start : Nat) : Option (Nat × Vtx) :=
  match vs.getLast? with
  | none => none
  | some last =>
    let i := min start (vs.length - 1)
    let (s, i) :=
      if s > last.s - small then (length, vs.length - 1)
      else if s > sAt vs i + small then (s, forwardS vs s vs.length i)
      else if s < sAt vs i + small then (s, backwardS vs s i)
      else (s, i)
    match evalSeg vs i (s - sAt vs i) with
    | none => none
    | some pos => some (i, { pos with s := s })

/-- `PolyLineBase::AddVertex` for a vertex whose s is not given, RoadManager.cpp 12606-12623; `dist` is
the distance from the last vertex. -/
def addVertex (vs : List Vtx) (dist : Rat) (v : Vtx) : List Vtx × Rat :=
  let s := match vs.getLast? with
    | some l => l.s + dist
    | none => 0
  (vs ++ [{ v with s := s }], s)

/-- `GhostTrailReturnCode`, RoadManager.hpp 5261-5269. -/
inductive Code where
  | ok | error | noVertices | timePrior | timePast | distPast
deriving Repr, DecidableEq

/-- The forward search of `Time2S`, RoadManager.cpp 12743-12752. -/
def forwardT (vs : List Vtx) (t : Rat) : Nat → Nat → Nat
  | 0, i => i
  | fuel + 1, i =>
    if i < vs.length - 1 then
      if t < timeAt vs (i + 1) - small then i else forwardT vs t fuel (i + 1)
    else i

/-- The backward search of `Time2S`, RoadManager.cpp 12753-12762. -/
def backwardT (vs : List Vtx) (t : Rat) : Nat → Nat
  | 0 => 0
  | i + 1 => if t > timeAt vs (i + 1) - small then i + 1 else backwardT vs t i

/-- `PolyLineBase::Time2S`, RoadManager.cpp 12676-12769, for the start index in use (the given index or
the cached one): return code, s and index.  `none`: reading past the end of the vertex array, or a
division by zero. -/
def time2s (vs : List Vtx) (t : Rat) (start : Nat) : Option (Code × Rat × Option Nat) :=
  match vs with
  | [] => some (.noVertices, 0, none)
  | [_] => some (.ok, 0, some 0)
  | v0 :: v1 :: rest =>
    let last := (v1 :: rest).getLast (by simp)
    if t < v0.time + small then
      some (if t > v0.time - small then .ok else .timePrior, 0, some 0)
    else if t > last.time - small then
      some (if t < last.time + small then .ok else .timePast, last.s, some (rest.length + 1))
    else
      let i := if t < timeAt vs start - small then backwardT vs t (start - 1)
               else forwardT vs t vs.length start
      match vs[i]?, vs[i + 1]? with
      | some p, some q =>
        if q.time - p.time = 0 then none
        else
          let w := (t - p.time) / (q.time - p.time)
          some (.ok, rmax 0 (p.s + w * (q.s - p.s)), some i)
      | _, _ => none

/-- `PolyLineBase::FindPointAhead`, RoadManager.cpp 12902-12908. -/
def findAhead (vs : List Vtx) (length sStart distance : Rat) (start : Nat) : Code × Option (Nat × Vtx) :=
  (if sStart + distance > length + small then .distPast else .ok,
   evaluate vs length (sStart + distance) start)

end Verif.Traj

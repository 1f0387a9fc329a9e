import Verif.Geom.LineTheorems

/-!
# The closest point of a polyline and the orientation along it

Model of `PolyLineBase::FindClosestPoint` and of the interpolation of angles in
`PolyLineBase::EvaluateSegmentByLocalS`.

Simplifications: numbers are real; the search over the segments is defined over any
ordered field.  The position found is the mix of the two vertices (x and y).
-/

namespace Verif.Closest

open Verif.Geom

section
variable {K : Type} [Field K] [LinearOrder K]

/-- `SMALL_NUMBER`, CommonMini.hpp:52. -/
def eps : K := 1 / 1000000

/-- `LARGE_NUMBER`, CommonMini.hpp:53. -/
def large : K := 10000000000

/-- The best segment so far: `iMin`, `distMin`, `sLocalMin`. -/
structure Best (K : Type) where
  i : Nat
  dist : K
  s : K
deriving DecidableEq, Repr

/-- The loop over the segments, RoadManager.cpp:12807-12888; `D i` is the distance to segment `i` and the
local s of the closest point on it; `N` vertices; `none` if the rounds do not suffice. -/
def scan (D : Nat → K × K) (N start : Nat) : Nat → Nat → Bool → Best K → Option (Best K)
  | 0, _, _, _ => none
  | fuel + 1, i, back, b =>
    if i + 1 < N then
      if (D i).1 < b.dist + eps then
        if back then
          if i > 0 then scan D N start fuel (i - 1) back ⟨i, (D i).1, (D i).2⟩ else some ⟨i, (D i).1, (D i).2⟩
        else
          if i < N - 1 then scan D N start fuel (i + 1) back ⟨i, (D i).1, (D i).2⟩
          else some ⟨i, (D i).1, (D i).2⟩
      else if start > 0 then
        if back then some b
        else
          if start > 0 then scan D N start fuel (start - 1) true b else some b
      else if back then
        if i > 0 then scan D N start fuel (i - 1) back b else some b
      else
        if i < N - 1 then scan D N start fuel (i + 1) back b else some b
    else some b

/-- `PolyLineBase::FindClosestPoint` up to the segment, RoadManager.cpp:12776-12900: the best segment or
`none` for -1.  `start` is the index to start at (`IDX_UNDEFINED` is 0). -/
def findSegment (D : Nat → K × K) (N start fuel : Nat) : Option (Option (Best K)) :=
  let first := if start + 1 > N then 0 else start
  match scan D N first fuel first false ⟨start, large, 0⟩ with
  | none => none
  | some b => if b.dist < large then some (some b) else some none

end

/-- A vertex. -/
structure Vx where
  x : ℝ
  y : ℝ
  s : ℝ

open Classical in
/-- The distance to a segment and the local s, from the result of the test whether the projected point is
inside and its distance, RoadManager.cpp:12824-12842. -/
noncomputable def measured (r : Prop × ℝ) (d len : ℝ) : ℝ × ℝ :=
  if ¬ r.1 then (Real.sqrt (d * d + r.2 * r.2), if r.2 < 0 then 0 else len) else (d, r.2 * len)

/-- The distance to a segment and the local s, RoadManager.cpp:12809-12842. -/
noncomputable def segment (xin yin : ℝ) (a b : Vx) : ℝ × ℝ :=
  let p := projectOnLine xin yin a.x a.y b.x b.y
  measured (if |b.x - a.x| < small ∧ |b.y - a.y| < small then (False, 0)
      else between p.1 p.2 a.x a.y b.x b.y)
    (pointDist xin yin p.1 p.2) (b.s - a.s)

/-- The vertices of a polyline. -/
abbrev Line := List Vx

noncomputable def vx (vs : Line) (i : Nat) : Vx := vs.getD i ⟨0, 0, 0⟩

/-- x and y of `EvaluateSegmentByLocalS` for a segment, RoadManager.cpp:12494-12502. -/
noncomputable def evalXY (a b : Vx) (localS : ℝ) : ℝ × ℝ :=
  let length := max (b.s - a.s) small
  let f := max 0 (min length localS) / length
  ((1 - f) * a.x + f * b.x, (1 - f) * a.y + f * b.y)

/-- `FindClosestPoint` with the position, RoadManager.cpp:12890-12899. -/
noncomputable def findClosest (vs : Line) (xin yin : ℝ) (start fuel : Nat) :
    Option (Option (Nat × ℝ × ℝ)) :=
  match findSegment (fun i => segment xin yin (vx vs i) (vx vs (i + 1))) vs.length start fuel with
  | none => none
  | some none => some none
  | some (some b) => some (some (b.i, evalXY (vx vs b.i) (vx vs (b.i + 1)) b.s))

/-- `InterpolationMode`. -/
inductive Mode where
  | none | segment | corner
deriving DecidableEq, Repr

section
variable {K : Type} [Field K] [LinearOrder K] [FloorRing K]

/-- The angle along a segment, RoadManager.cpp:12551-12594: `prev` is the angle of the vertex before (if
there is one), `isLast` tells that the segment is the last one. -/
def segAngle (pi : K) (mode : Mode) (prev : Option K) (cur next : K) (isLast : Bool) (length localS : K) : K :=
  match mode with
  | .segment => interval2PI pi (cur + localS / length * angleDiff pi next cur)
  | .none => interval2PI pi cur
  | .corner =>
    let radius := if 2 < length / 2 then 2 else length / 2
    if localS < radius then
      match prev with
      | some p => interval2PI pi (p + (radius + localS) / (2 * radius) * angleDiff pi cur p)
      | none => interval2PI pi cur
    else if localS > length - radius then
      let a := if isLast then (length - localS) / radius else (radius + (length - localS)) / (2 * radius)
      interval2PI pi (cur + (1 - a) * angleDiff pi next cur)
    else interval2PI pi cur

end

end Verif.Closest

/-!
# Points of road marks

Model of the points computed for the lines of a road mark: the search for points
along one dash, the sequence of dashes of a line and the dots of a line of Botts'
dots.

Simplifications: numbers are exact; a point is its distance along the road (the
position itself is the one of the line at that distance).  The three judgements on
two points of the line, which depend on the shape of the road, are functions of the
two distances.
-/

namespace Verif.Mark

/-- `SMALL_NUMBER`, CommonMini.hpp:52. -/
def small : Rat := 1 / 1000000

def absR (x : Rat) : Rat := if x < 0 then -x else x

def minR (a b : Rat) : Rat := if a < b then a else b

def maxR (a b : Rat) : Rat := if b < a then a else b

/-- What the search asks of the shape of the line. -/
structure Shape where
  /-- `CheckLaneOSIRequirement` of the tangents at the two points, RoadManager.cpp:7755-7790. -/
  straight : Rat → Rat → Bool
  /-- neither a change of slope nor a step in height between them, RoadManager.cpp:7611-7617 negated. -/
  level : Rat → Rat → Bool
  /-- `polygonDensityFactor` at a point, RoadManager.cpp:7602. -/
  density : Rat → Rat
  /-- `GetOSIMaxLongitudinalDistance`. -/
  maxDist : Rat

/-- `min_segment_length`, RoadManager.cpp:7641. -/
def minSeg : Rat := 1 / 5

/-- `GetMaxSegmentLen` (the length; it also clears the requirement if not level), RoadManager.cpp:7589-7624. -/
def maxSegmentLen (R : Shape) (pivot pos : Rat) : Rat :=
  if R.level pivot pos then
    maxR minSeg (minR R.maxDist (R.maxDist * 1 / (1 + 1750 * R.density pos)))
  else minSeg

/-- `osi_requirement` after RoadManager.cpp:7646-7667. -/
def requirement (R : Shape) (pivot cand : Rat) : Bool :=
  if R.straight pivot cand then
    if maxSegmentLen R pivot cand < cand - pivot - small then false else R.level pivot cand
  else false

/-- `max_segment_length` after RoadManager.cpp:7646-7667. -/
def segmentLen (R : Shape) (pivot cand : Rat) : Rat :=
  if R.straight pivot cand then maxSegmentLen R pivot cand else R.maxDist

/-- The variables of the search; `last` is `osi_point.back().s`. -/
structure Scan where
  pivot : Rat
  cand : Rat
  lastOk : Rat
  step : Rat
  insert : Bool
  pts : List Rat
  last : Rat
deriving DecidableEq, Repr

/-- What `CheckAndAddOSIPoint` returns. -/
inductive Status where
  | more | added | done
deriving DecidableEq, Repr

/-- `CheckAndAddOSIPoint`, RoadManager.cpp:7626-7753. -/
def checkAndAdd (R : Shape) (sMax : Rat) (w : Scan) : Scan × Status :=
  let req := requirement R w.pivot w.cand
  if (req = true ∧ w.cand + small > sMax - small) ∨ absR w.step < minSeg + small ∨
      (req = true ∧ w.cand - w.pivot > segmentLen R w.pivot w.cand - small) then
    let ok := if req = false ∧ absR w.step < minSeg + small ∧ w.lastOk > w.last + small
      then w.lastOk else w.cand
    let w' := { w with lastOk := ok, pts := w.pts ++ [ok], last := ok, insert := false }
    if ok + small > sMax - small then (w', .done)
    else
      ({ w' with step := absR (minR (minR 1 (sMax - ok)) (2 * (ok - w.pivot))), pivot := ok }, .added)
  else if req = false then
    ({ w with insert := true, step := - absR w.step / 2 }, .more)
  else
    ({ w with step := if w.insert then absR w.step / 2 else 1, lastOk := w.cand }, .more)

/-- The next candidate, RoadManager.cpp:8380-8386. -/
def advance (sMax : Rat) (w : Scan) : Scan :=
  let step := if w.cand + w.step > sMax - small / 2 then sMax - small / 2 - w.cand else w.step
  { w with step := step, cand := w.cand + step }

/-- The loop over the candidates, RoadManager.cpp:8377-8438; `none` if the rounds do not suffice. -/
def search (R : Shape) (sMax : Rat) : Nat → Scan → Option Scan
  | 0, _ => none
  | n + 1, w =>
    match checkAndAdd R sMax (advance sMax w) with
    | (w', .done) => some w'
    | (w', .added) => search R sMax n { w' with cand := w'.pivot }
    | (w', .more) => search R sMax n w'

/-- The variables at the start of a dash, RoadManager.cpp:8308-8363; `len` is the length of the lane section. -/
def begin (s len : Rat) : Scan :=
  { pivot := s, cand := s, lastOk := s, step := minR 1 len, insert := false, pts := [s], last := s }

/-- A line of a road mark, RoadManager.hpp:588-675. -/
structure Line where
  length : Rat
  space : Rat
  repeats : Bool
deriving DecidableEq, Repr

/-- `s_end_roadmarkline`, RoadManager.cpp:8365-8374. -/
def dashEnd (l : Line) (sEnd s : Rat) : Rat :=
  if l.space > small ∨ l.repeats = false then minR (sEnd - small / 2) (s + l.length)
  else sEnd - small / 2

/-- The points of a dash; `closed` is `endpoint` of the last of them, RoadManager.cpp:8440-8442. -/
structure Dash where
  pts : List Rat
  closed : Bool
deriving DecidableEq, Repr

/-- The points of the dashes of a line, RoadManager.cpp:8303-8451; `n` bounds the rounds of both loops. -/
def dashes (R : Shape) (l : Line) (len sEnd : Rat) : Nat → Rat → Option (List Dash)
  | 0, _ => none
  | n + 1, s =>
    if s < sEnd - small then
      match search R (dashEnd l sEnd s) n (begin s len) with
      | none => none
      | some w =>
        let d : Dash := ⟨w.pts, decide (w.cand > dashEnd l sEnd s - small ∨ l.repeats = false)⟩
        if l.repeats = false then some [d]
        else
          match dashes R l len sEnd n (minR sEnd (dashEnd l sEnd s + l.space)) with
          | none => none
          | some ds => some (d :: ds)
    else some []

/-- The dots of a line, RoadManager.cpp:8274-8299. -/
def dots (space sEnd : Rat) : Nat → Rat → Option (List Rat)
  | 0, _ => none
  | n + 1, s =>
    if s + space < small ∨ s + space > sEnd - small then some [s]
    else
      match dots space sEnd n (s + space) with
      | none => none
      | some ps => some (s :: ps)

/-- The end of a road mark: the start of the next one or the end of the section, RoadManager.cpp:8248-8255. -/
def markEnd (limit : Rat) : Rat := maxR 0 (limit - small)

/-- The line of an element `line` below `explicit`, RoadManager.cpp:4555-4558. -/
def explicitLine (length : Rat) : Line := ⟨length, 0, false⟩

end Verif.Mark

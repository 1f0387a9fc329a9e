import Verif.Road.ProfileModel
/-
Model of the lanes of a lane section: their order, widths and lateral places, the lane at a lateral
place, and the lane links between the sections of a road.
Code: EnvironmentSimulator/Modules/RoadManager/RoadManager.cpp at the pinned commit.

Simplifications
* As in `ProfileModel`; lane ids are unbounded integers.
* Pointers to lanes are the lanes themselves; `none` is a null pointer.
* Where the code would use a null pointer or the number of sections minus one of a road without
  sections, the result is `none`.
* Of `Lane::type_` only the bits are kept (a natural number), of a link its target id.
-/
namespace Verif.Road

/-- `Lane` (`id_`, `type_`, `lane_width_`, the link of type SUCCESSOR, the link of type PREDECESSOR). -/
structure Lane where
  id : Int
  type : Nat := 1
  widths : List LaneWidth := []
  succ : Option Int := none
  pred : Option Int := none
deriving DecidableEq, Repr

/-- `LaneSection` (`s_`, `length_`, `lane_`). -/
structure Section where
  s : Rat
  len : Rat
  lanes : List Lane
deriving DecidableEq, Repr

/-- The insertion loop of `LaneSection::AddLane` (RoadManager.cpp:2363-2370); `none`: nothing inserted. -/
def insertLane (x : Lane) : List Lane → Option (List Lane)
  | [] => none
  | y :: ys => if x.id > y.id then some (x :: y :: ys) else (insertLane x ys).map (y :: ·)

/-- `LaneSection::AddLane` (RoadManager.cpp:2356-2376).  The loop of the first branch inserts at the
latest before the last lane; were it to end without inserting, the lane would be lost. -/
def addLane (l : List Lane) (x : Lane) : List Lane :=
  match l.getLast? with
  | some b => if x.id > b.id then (insertLane x l).getD l else l ++ [x]
  | none => l ++ [x]

/-- `LaneSection::GetLaneById` (RoadManager.cpp:2118-2128). -/
def Section.laneById (sec : Section) (id : Int) : Option Lane := sec.lanes.find? (fun l => l.id == id)

/-- `LaneSection::GetLaneIdByIdx` (RoadManager.cpp:2130-2141): 0 for an index out of range. -/
def Section.idByIdx (sec : Section) (i : Nat) : Int :=
  match sec.lanes[i]? with
  | some l => l.id
  | none => 0

/-- `LaneSection::GetLaneIdxById` (RoadManager.cpp:2143-2153). -/
def Section.idxById (sec : Section) (id : Int) : Option Nat :=
  sec.lanes.findIdx? (fun l => l.id == id)

/-- `LaneSection::GetWidth` (RoadManager.cpp:2236-2264). -/
def Section.width (sec : Section) (s0 : Rat) (id : Int) : Rat :=
  if id = 0 then 0
  else
    let s := clamp s0 sec.s (sec.s + sec.len)
    match sec.laneById id with
    | none => 0
    | some lane =>
      match entryByS LaneWidth.off lane.widths (s - sec.s) with
      | none => 0
      | some w => w.poly.eval (s - (sec.s + w.off))

/-- `LaneSection::GetOuterOffset` (RoadManager.cpp:2266-2285). -/
def Section.outer (sec : Section) (s : Rat) (id : Int) : Rat :=
  if id = 0 then 0
  else
    let width := sec.width s id
    if id.natAbs = 1 then width
    else
      let step := if id < 0 then 1 else -1
      width + Section.outer sec s (id + step)
termination_by id.natAbs
decreasing_by all_goals (split <;> omega)

/-- `LaneSection::GetInnerOffset` (RoadManager.cpp:2287-2304). -/
def Section.inner (sec : Section) (s : Rat) (id : Int) : Rat :=
  if id = 0 then 0
  else if id.natAbs = 1 then 0
  else
    let step := if id < 0 then 1 else -1
    sec.outer s (id + step)

/-- `LaneSection::GetCenterOffset` (RoadManager.cpp:2306-2318). -/
def Section.center (sec : Section) (s : Rat) (id : Int) : Rat :=
  if id = 0 then 0 else sec.outer s id - sec.width s id / 2

/-- `LaneSection::GetTotalLaneWidthPrim` (RoadManager.cpp:2320-2354): the loop, from lane `id` inwards,
with the sum so far; `none`: a lane without width entries, the function returns 0. -/
def Section.primLoop (sec : Section) (s : Rat) (id : Int) (center : Bool) (acc : Rat) : Option Rat :=
  if id = 0 then some acc
  else
    match sec.laneById id with
    | none => Section.primLoop sec s (id - sign id) center acc
    | some lane =>
      match entryByS LaneWidth.off lane.widths (s - sec.s) with
      | none => none
      | some w =>
        Section.primLoop sec s (id - sign id) false
          (acc + w.poly.prim (s - (sec.s + w.off)) * (if center then 1 / 2 else 1))
termination_by id.natAbs
decreasing_by all_goals (unfold sign; split <;> omega)

/-- `LaneSection::GetTotalLaneWidthPrim` (RoadManager.cpp:2320-2354). -/
def Section.totalPrim (sec : Section) (s : Rat) (id : Int) (center : Bool) : Rat :=
  if id = 0 then 0 else (sec.primLoop s id center 0).getD 0

/-- `LaneSection::GetOffsetBetweenLanes` (RoadManager.cpp:2415-2420). -/
def Section.offsetBetween (sec : Section) (id1 id2 : Int) (s : Rat) : Rat :=
  sec.center s id2 * sign id2 - sec.center s id1 * sign id1

/-- `fabs`. -/
def fabs (x : Rat) : Rat := if x < 0 then -x else x

/-- The loop of `LaneSection::GetClosestLaneIdx` (RoadManager.cpp:8708-8731) over the lanes from index
`i` on; `cand` is the candidate so far with its offset.  The result is the candidate and `min_offset`. -/
def Section.closestLoop (sec : Section) (s d : Rat) (side : Int) (noZero : Bool) (mask : Nat) :
    List Lane → Nat → Option Nat × Rat → Option Nat × Rat
  | [], _, c => c
  | l :: rest, i, c =>
    -- `GetLaneById(lane_id)->GetLaneType()`: the first lane with this id
    let type := match sec.laneById l.id with | some x => x.type | none => 0
    if mask &&& type ≠ 0 ∧ (noZero = false ∨ sec.width s l.id > small) ∧
        (side = 0 ∨ sign l.id = sign side) then
      let o := d - sign l.id * sec.center s l.id
      if fabs o < sec.width s l.id / 2 then (some i, o)
      else if c.1 = none ∨ fabs o < fabs c.2 then
        Section.closestLoop sec s d side noZero mask rest (i + 1) (some i, o)
      else Section.closestLoop sec s d side noZero mask rest (i + 1) c
    else Section.closestLoop sec s d side noZero mask rest (i + 1) c

/-- `LaneSection::GetClosestLaneIdx` (RoadManager.cpp:8703-8744): the index (`none` is
`IDX_UNDEFINED`) and the offset. -/
def Section.closest (sec : Section) (s t laneOff : Rat) (side : Int) (noZero : Bool) (mask : Nat) :
    Option Nat × Rat :=
  let r := sec.closestLoop s (t - laneOff) side noZero mask sec.lanes 0 (none, t - laneOff)
  match r.1 with
  | some i => (some i, r.2)
  | none => (sec.idxById 0, r.2)

/-- `Position::Lane2Track` (RoadManager.cpp:9735-9750), the lateral place: `t_` from lane and offset. -/
def lane2track (sec : Section) (laneOff s offset : Rat) (id : Int) : Rat :=
  offset + laneOff + sec.center s id * (if id < 0 then -1 else 1)

/-- `Position::Track2Lane` (RoadManager.cpp:8780-8821) within one section: lane id and offset from
`t_`; `none`: no lane, the position keeps its lane. -/
def track2lane (sec : Section) (laneOff s t : Rat) (mask : Nat) : Option (Int × Rat) :=
  match sec.closest s t laneOff 0 true mask with
  | (some i, o) => some (sec.idByIdx i, o)
  | (none, _) => none

/-! ## Width of a road -/

/-- The loop of `Road::GetWidth` (RoadManager.cpp:3327-3330) looking for the outermost lane of the type
asked for, from index `i` with steps `step` (`true`: to the right).  The result is the id; `none`:
`GetLaneByIdx` gives a null pointer that is used. -/
def Section.outermost (sec : Section) (mask : Nat) (right : Bool) : Nat → Nat → Option Int
  | 0, _ => none
  | fuel + 1, i =>
    let id := sec.idByIdx i
    if id = 0 then some 0
    else
      match sec.lanes[i]? with
      | none => none
      | some l =>
        if l.type &&& mask ≠ 0 then some id
        else if right then Section.outermost sec mask right fuel (i + 1)
        -- `index += -1` below 0 gives an index out of range: lane id 0
        else if i = 0 then some 0
        else Section.outermost sec mask right fuel (i - 1)

/-- `Road::GetWidth` in the section at `s` (RoadManager.cpp:3303-3347). -/
def Section.roadWidth (sec : Section) (s : Rat) (side : Int) (mask : Nat) : Option Rat :=
  let n := sec.lanes.length
  let start := if side > 0 then 0 else if n > 0 then n - 1 else 0
  match sec.outermost mask (decide (side > 0)) (n + 1) start with
  | none => none
  | some id =>
    let o0 := fabs (sec.outer s id)
    if side = 0 then
      match sec.outermost mask true (n + 1) 0 with
      | none => none
      | some id1 => some (o0 + fabs (sec.outer s id1))
    else some (o0 + 0)

/-! ## Lane links along a road -/

/-- `LaneSection::GetConnectingLaneId` (RoadManager.cpp:2378-2405); `fwd`: link type SUCCESSOR. -/
def Section.connecting (sec : Section) (id : Int) (fwd : Bool) : Int :=
  if id = 0 then 0
  else
    match sec.laneById id with
    | none => 0
    | some lane =>
      match (if fwd then lane.succ else lane.pred) with
      | some k => k
      | none => id

/-- The loop forwards of `Road::GetConnectedLaneIdAtS` (RoadManager.cpp:3154-3160): section index `j`,
lane id, `s`, the number of steps left bounding the loop is the number of sections after `j`. -/
def connFwd (secs : List Section) (target : Rat) : Nat → Nat → Int → Rat → Int
  | 0, _, id, _ => id
  | fuel + 1, j, id, s =>
    if id ≠ 0 ∧ j < secs.length - 1 ∧ s < target then
      match secs[j]? with
      | none => id
      | some sec => connFwd secs target fuel (j + 1) (sec.connecting id true) sec.s
    else id

/-- The loop backwards (RoadManager.cpp:3164-3170). -/
def connBwd (secs : List Section) (target : Rat) : Nat → Int → Rat → Int
  | 0, id, _ => id
  | j + 1, id, s =>
    if id ≠ 0 ∧ s > target then
      match secs[j + 1]? with
      | none => id
      | some sec => connBwd secs target j (sec.connecting id false) sec.s
    else id

/-- `Road::GetConnectedLaneIdAtS` (RoadManager.cpp:3127-3185) of a road of length `L`. -/
def connectedLane (secs : List Section) (L : Rat) (id : Int) (sStart0 sTarget0 : Rat) : Int :=
  let target := if sTarget0 < 0 - small then L else sTarget0
  let start := if sStart0 < 0 - small then L else sStart0
  match sectionIdx (secs.map (fun x => ⟨x.s, x.len⟩)) start 0 with
  | none => 0
  | some i =>
    if target > start - small then connFwd secs target secs.length i id start
    else connBwd secs target i id start

/-- The loop forwards of `Road::GetLaneInfoByS` (RoadManager.cpp:1830-1840). -/
def infoFwd (secs : List Section) (s : Rat) : Nat → Nat → Int → Nat × Int
  | 0, j, id => (j, id)
  | fuel + 1, j, id =>
    match secs[j]? with
    | none => (j, id)
    | some sec =>
      if s > sec.s + sec.len - small ∧ j + 1 < secs.length then
        infoFwd secs s fuel (j + 1) (if id ≠ 0 then sec.connecting id true else id)
      else (j, id)

/-- The loop backwards of `Road::GetLaneInfoByS` (RoadManager.cpp:1844-1853). -/
def infoBwd (secs : List Section) (s : Rat) : Nat → Int → Nat × Int
  | 0, id => (0, id)
  | j + 1, id =>
    match secs[j + 1]? with
    | none => (j + 1, id)
    | some sec =>
      if s < sec.s then infoBwd secs s j (if id ≠ 0 then sec.connecting id false else id)
      else (j + 1, id)

/-- `Road::GetLaneInfoByS` (RoadManager.cpp:1804-1860) up to the snapping to another lane: section
index and lane id at `s`, from section `j` and lane `id`. -/
def laneInfo (secs : List Section) (s : Rat) (j : Nat) (id : Int) : Nat × Int :=
  match secs[j]? with
  | none => (j, id)
  | some sec =>
    if s > sec.s + sec.len then infoFwd secs s secs.length j id
    else if s < sec.s then infoBwd secs s j id
    else (j, id)

end Verif.Road

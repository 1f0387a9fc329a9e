import Verif.Common.Macros

/-
The change-only recording of object states: `DatWriter` (PacketHandler.hpp/.cpp) and the reconstruction of
timelines by `Replay::ParsePackets` (Replay.cpp:380-787), at the level of decoded packets (see Verif.Dat.Codec for
the bytes).

Simplifications: `double` is `Rat`, NaN (only used as initial cache value) is `Val.nan`; an unordered_set of ids is a
list without order significance; the map of timelines is a total function with empty timelines. Not modelled: light
states, ghost restarts, odometer; packets without object (environment, traffic lights, story board) carry no content.
-/
namespace Verif.Dat
open Verif.Common

/-- The recorded quantities of an object, in the order of PacketHandler.cpp:154-341. -/
inductive Quantity where
  | speed | pose | gid | modelId | objType | objCategory | ctrlType | wheelAngle | wheelRot | boundingBox | scaleMode
  | visibilityMask | name | roadId | laneId | posOffset | posT | posS | refpointX | modelX | model3d | outline | bbColor
deriving DecidableEq, Repr

def quantities : List Quantity :=
  [.speed, .pose, .gid, .modelId, .objType, .objCategory, .ctrlType, .wheelAngle, .wheelRot, .boundingBox, .scaleMode,
   .visibilityMask, .name, .roadId, .laneId, .posOffset, .posT, .posS, .refpointX, .modelX, .model3d, .outline, .bbColor]

inductive Val where
  | nan
  | nums (l : List Rat)
  | int (i : Int)
  | str (s : List Char)
deriving DecidableEq, Repr

/-- How a change is detected: `NEAR_NUMBERS`, (in)equality, or only the first non-empty value
(PacketHandler.cpp:319-335). -/
inductive Kind where
  | near | exact | once
deriving DecidableEq, Repr

def Quantity.kind : Quantity → Kind
  | .speed | .wheelAngle | .wheelRot | .posOffset | .posT | .posS | .refpointX | .modelX => .near
  | .outline | .bbColor => .once
  | _ => .exact

/-- The initial values of `struct ObjState`, PacketHandler.hpp:137-166. -/
def Quantity.default : Quantity → Val
  | .speed | .pose | .wheelAngle | .wheelRot | .boundingBox | .posOffset | .posT | .posS | .refpointX | .modelX => .nan
  | .gid | .roadId => .int 0xffffffff
  | .modelId | .objType | .objCategory | .ctrlType | .scaleMode | .visibilityMask => .int (-1)
  | .laneId => .int (-0x7fffffff)
  | .name | .model3d | .bbColor => .str []
  | .outline => .nums []

/-- The comparisons in `DatWriter::WriteObjectStatesToDat`, PacketHandler.cpp:154-335. -/
def changed (q : Quantity) (cached actual : Val) : Bool :=
  match q.kind with
  | .near => match cached, actual with
    | .nums [a], .nums [b] => !nearNumbers a b
    | _, _ => true
  | .exact => cached != actual
  | .once => cached == q.default && actual != q.default

/-- Decoded packets. -/
inductive Pkt where
  | timestamp (t : Rat)
  | objId (i : Int)
  | value (q : Quantity) (v : Val)
  | deleted
  | dt (x : Rat)
  | other
  | endOfScenario (t : Rat)
deriving DecidableEq, Repr

/-- `ShouldWriteObjId`, PacketHandler.cpp:492-503. -/
def Pkt.needsObjId : Pkt → Bool
  | .timestamp _ | .dt _ | .other | .endOfScenario _ => false
  | _ => true

abbrev Values := Quantity → Val

/-- `class DatWriter`. `out` is the file. -/
structure Writer where
  out : List Pkt := []
  cache : Int → Option Values := fun _ => none
  cacheDt : Option Rat := none
  prev : List Int := []
  cur : Int := -1
  tsWritten : Bool := false
  idWritten : Bool := false
  simTime : Rat := 0

/-- The timestamp part of `DatWriter::Write`, PacketHandler.hpp:224-229. -/
def Writer.stamp (w : Writer) : Writer :=
  if w.tsWritten then w else { w with tsWritten := true, out := w.out ++ [.timestamp w.simTime] }

/-- `Write(OBJ_ID, current_object_id_)`, PacketHandler.hpp:217-221 with the recursive call. -/
def Writer.identify (w : Writer) : Writer :=
  if w.idWritten then w
  else
    let w := Writer.stamp { w with idWritten := true }
    { w with out := w.out ++ [.objId w.cur] }

def Pkt.isEnd : Pkt → Bool
  | .endOfScenario _ => true
  | _ => false

/-- `DatWriter::Write`, PacketHandler.hpp:214-253. -/
def Writer.write (w : Writer) (p : Pkt) : Writer :=
  let w := if p.needsObjId then w.identify else w
  let w := if p.isEnd then w else w.stamp
  { w with out := w.out ++ [p] }

/-- One `if (changed) { cache = value; Write(...) }` of `WriteObjectStatesToDat`; `c` is `cache_it->second`. -/
def Writer.writeQuantity (vals : Values) (wc : Writer × Values) (q : Quantity) : Writer × Values :=
  if changed q (wc.2 q) (vals q) then
    (wc.1.write (.value q (vals q)), fun q' => if q' = q then vals q else wc.2 q')
  else wc

/-- The cached state, or a new one, PacketHandler.cpp:138-146. -/
def Writer.cached (w : Writer) (id : Int) : Values := (w.cache id).getD Quantity.default

/-- The body of the loop over the objects, PacketHandler.cpp:132-364. -/
def Writer.writeObject (w : Writer) (o : Int × Values) : Writer :=
  let r := quantities.foldl (Writer.writeQuantity o.2) ({ w with cur := o.1 }, w.cached o.1)
  { r.1 with cache := fun i => if i = o.1 then some r.2 else r.1.cache i, idWritten := false }

/-- The body of the loop of `CheckDeletedObjects`, PacketHandler.cpp:379-389. -/
def Writer.deleteIfGone (current : List Int) (w : Writer) (id : Int) : Writer :=
  if id ∈ current then w
  else
    let w := Writer.write { w with cur := id } .deleted
    { w with cache := fun i => if i = id then none else w.cache i, idWritten := false }

/-- `WriteObjectStatesToDat` with `CheckDeletedObjects`, PacketHandler.cpp:129-393. -/
def Writer.writeObjects (w : Writer) (objs : List (Int × Values)) : Writer :=
  let w := objs.foldl Writer.writeObject w
  let current := objs.map (·.1)
  let w := w.prev.foldl (Writer.deleteIfGone current) w
  { w with prev := current }

/-- `WriteDtToDat`, PacketHandler.cpp:53-61; the initial cache value is far from every time step. -/
def Writer.writeDt (w : Writer) (dt : Rat) : Writer :=
  match w.cacheDt with
  | some d => if nearNumbers d dt then w else Writer.write { w with cacheDt := some dt } (.dt dt)
  | none => Writer.write { w with cacheDt := some dt } (.dt dt)

/-- What is handed over in one frame, playerbase.cpp:315-327. `others` is the number of packets without object. -/
structure Frame where
  time : Rat
  dt : Rat
  others : Nat
  objs : List (Int × Values)

def Writer.writeOthers (w : Writer) : Nat → Writer
  | 0 => w
  | n + 1 => Writer.writeOthers (w.write .other) n

/-- One frame, playerbase.cpp:320-326. -/
def Writer.writeFrame (w : Writer) (f : Frame) : Writer :=
  let w := { w with simTime := f.time }
  let w := (w.writeDt f.dt).writeOthers f.others
  let w := w.writeObjects f.objs
  { w with tsWritten := false }

/-- A whole recording, closed by the destructor (PacketHandler.cpp:3-12). -/
def record (fs : List Frame) : List Pkt :=
  let w := fs.foldl Writer.writeFrame {}
  (w.write (.endOfScenario w.simTime)).out

/-- The state of `Replay::ParsePackets`. -/
structure Reader where
  time : Rat := 0
  cur : Option Int := none
  known : Int → Bool := fun _ => false
  tl : Int → Quantity → List (Rat × Val) := fun _ _ => []
  active : Int → List (Rat × Bool) := fun _ => []

/-- `undefined` is the use of `current_object_timeline_` before it is set, `rejected` the return value -1. -/
inductive Err where
  | undefined | rejected
deriving DecidableEq, Repr

/-- The packets with a string, which must not be empty (Replay.cpp:577-589, 663-673, 735-747). -/
def blank : Val → Bool
  | .str [] => true
  | _ => false

/-- The timelines after an object id packet, Replay.cpp:407-432. -/
def Reader.activate (r : Reader) (i : Int) : List (Rat × Bool) :=
  if r.known i = false then
    (if r.time > 0 then [(0, false), (r.time, true)] else [(r.time, true)])
  else if ((r.active i).getLast?.map (·.2)) = some true then r.active i
  else r.active i ++ [(r.time, true)]

/-- One packet in `Replay::ParsePackets`, Replay.cpp:387-778. -/
def Reader.step (r : Reader) (p : Pkt) : Except Err Reader :=
  match p with
  | .timestamp t => .ok { r with time := t }
  | .objId i => .ok { r with
      cur := some i
      known := fun j => if j = i then true else r.known j
      active := fun j => if j = i then r.activate i else r.active j }
  | .value q v =>
    match r.cur with
    | none => .error .undefined
    | some i =>
      if blank v then .error .rejected
      else .ok { r with tl := fun j q' => if j = i ∧ q' = q then r.tl j q' ++ [(r.time, v)] else r.tl j q' }
  | .deleted =>
    match r.cur with
    | none => .error .undefined
    | some i => .ok { r with active := fun j => if j = i then r.active j ++ [(r.time, false)] else r.active j }
  | .dt _ | .other | .endOfScenario _ => .ok r

/-- `Replay::ParsePackets`. -/
def parse : Reader → List Pkt → Except Err Reader
  | r, [] => .ok r
  | r, p :: ps => (r.step p).bind (fun r => parse r ps)

end Verif.Dat

/-
OSI output of esmini: splitting of ground truth messages into UDP packets and the receivers supplied with esmini, the
trace file and its reader, when and with which content ground truth is reported, time stamps and cropping
(OSIReporter.cpp, OSIReporter.hpp, playerbase.cpp, esminiLib.cpp, osi_receiver.cpp, udp_osi_common.py, osi2csv.py).

Simplifications: a message is a list of bytes that is smaller than 4 GiB; the counter of packets does not overflow; the
content of the ground truth is reduced to the ids of stationary objects and a number standing for everything dynamic;
writing to the file succeeds; compression is left out; simulation time equals true time (no ghost restart).
-/
namespace Verif.Osi

/-! ### UDP packets -/

/-- `osi_udp_buf`, OSIReporter.cpp:40-45; the field `datasize` is the length of `data`. -/
structure Packet (α : Type) where
  counter : Int
  data : List α
deriving DecidableEq, Repr

/-- `OSI_MAX_UDP_DATA_SIZE`, OSIReporter.cpp:33. -/
def maxData : Nat := 8192

/-- `datasize`, OSIReporter.cpp:411. -/
def chunk (size sent : Nat) : Nat := min (size - sent) maxData

/-- OSIReporter.cpp:415-419: the last packet gets a negative counter. -/
def mark (counter : Int) (size sent : Nat) : Int :=
  if sent + chunk size sent ≥ size then -counter else counter

/-- The loop of OSIReporter.cpp:409-439: `ok` tells whether `Send` succeeds for the packet that starts at a position of
the message. The result is what was sent. -/
def sendLoop {α : Type} (msg : List α) (ok : Nat → Bool) (counter : Int) (sent : Nat) : List (Packet α) :=
  if sent < msg.length then
    if ok sent then
      ⟨mark counter msg.length sent, (msg.drop sent).take (chunk msg.length sent)⟩ ::
        sendLoop msg ok (mark counter msg.length sent + 1) (sent + chunk msg.length sent)
    else []
  else []
termination_by msg.length - sent
decreasing_by simp only [chunk, maxData]; omega

/-- A message sent, OSIReporter.cpp:404-439. -/
def send {α : Type} (ok : Nat → Bool) (msg : List α) : List (Packet α) := sendLoop msg ok 1 0

/-- All packets get out. -/
def sendAll {α : Type} (msg : List α) : List (Packet α) := send (fun _ => true) msg

/-- `next_index` and `complete_msg` of `OSIReceiver.receive`, udp_osi_common.py:66-69. -/
structure Recv (α : Type) where
  next : Int
  buf : List α

/-- udp_osi_common.py:67-68: at the beginning of each call. -/
def Recv.init {α : Type} : Recv α := ⟨1, []⟩

/-- udp_osi_common.py:87-89. -/
def Recv.start {α : Type} (s : Recv α) (p : Packet α) : Recv α := if p.counter = 1 then ⟨1, []⟩ else s

/-- The loop body of udp_osi_common.py:74-100: the state after a packet and the message that is complete, if any. After a
message the next call begins from the initial state. -/
def recvStep {α : Type} (s : Recv α) (p : Packet α) : Recv α × Option (List α) :=
  if p.counter = 1 ∨ (p.counter.natAbs : Int) = (s.start p).next then
    if p.counter < 0 then (Recv.init, some ((s.start p).buf ++ p.data))
    else (⟨(s.start p).next + 1, (s.start p).buf ++ p.data⟩, none)
  else (⟨1, (s.start p).buf⟩, none)

/-- Repeated calls of `OSIReceiver.receive`: the messages returned. -/
def recv {α : Type} : Recv α → List (Packet α) → List (List α)
  | _, [] => []
  | s, p :: r => (recvStep s p).2.toList ++ recv (recvStep s p).1 r

/-- `MAX_MSG_SIZE`, osi_receiver.cpp:46. -/
def maxMsg : Nat := 1024000

/-- osi_receiver.cpp:149-153: what has been received, with the packet. -/
def cBuf {α : Type} (buf : List α) (p : Packet α) : List α := (if p.counter = 1 then [] else buf) ++ p.data

/-- The receiver of osi_receiver.cpp:136-160, without timeouts; `none`: a write beyond the buffer. -/
def recvC {α : Type} : List α → List (Packet α) → Option (List (List α))
  | _, [] => some []
  | buf, p :: r =>
    if (cBuf buf p).length > maxMsg then none
    else if p.counter > 0 then recvC (cBuf buf p) r
    else (recvC [] r).map (cBuf buf p :: ·)

/-! ### Trace file -/

/-- An `unsigned int` in memory, little endian. -/
def le32 (n : Nat) : List Nat := [n % 256, n / 256 % 256, n / 65536 % 256, n / 16777216 % 256]

/-- `WriteOSIFile`, OSIReporter.cpp:303-307: size and data. -/
def record (msg : List Nat) : List Nat := le32 msg.length ++ msg

/-- `struct.unpack('I', …)`. -/
def unpack (b : List Nat) : Nat :=
  b.getD 0 0 + 256 * b.getD 1 0 + 65536 * b.getD 2 0 + 16777216 * b.getD 3 0

/-- `read_next_message` in a loop, osi2csv.py:132-141: the messages read. -/
def readAll (f : List Nat) : List (List Nat) :=
  if f.length < 4 then []
  else ((f.drop 4).take (unpack f)) :: readAll ((f.drop 4).drop (unpack f))
termination_by f.length
decreasing_by simp only [List.length_drop]; omega

/-! ### When and what is reported -/

/-- `OSIStaticReportMode`. -/
inductive Mode where
  | default
  | api
  | apiAndLog
deriving DecidableEq, Repr

/-- A ground truth message: ids of stationary objects and road data, dynamic data. -/
structure Gt where
  stat : List Nat
  dyn : Option Nat
deriving DecidableEq, Repr

/-- `OSIReporter` and what it looks at. -/
structure St where
  /-- frame counter of the player -/
  counter : Int
  offset : Int
  freq : Int
  updated : Bool
  inited : Bool
  mode : Mode
  file : Bool
  udp : Bool
  /-- messages written to files so far -/
  log : List Gt
  /-- messages sent so far -/
  sent : List Gt
  /-- what `CreateOSIStaticGroundTruthFromODR` creates -/
  odr : List Nat
  /-- miscellaneous objects in the scenario -/
  misc : List Nat
  /-- miscellaneous objects with an OSI index -/
  made : List Nat
  /-- `static_gt` -/
  stat : List Nat
  /-- `obj_osi_external.gt` -/
  ext : Gt
  /-- `osiGroundTruth`: the serialized data -/
  buf : Gt
  /-- the dynamic state of the scenario -/
  dyn : Nat
deriving DecidableEq, Repr

/-- `SetOSIFrequency` and `UpdateCounterOffset`, OSIReporter.hpp:253-262. -/
def setFreq (n : Int) (s : St) : St := { s with freq := n, offset := s.counter + 1 }

/-- Stationary objects without index, OSIReporter.cpp:507-531 and 1003-1009. -/
def fresh (s : St) : List Nat := s.misc.filter (fun i => !(s.made.contains i))

/-- `UpdateOSIStaticGroundTruth`, OSIReporter.cpp:509-537, after `CreateOSIStaticGroundTruthFromODR` if `create`. -/
def addStatic (create : Bool) (s : St) : St :=
  { s with stat := s.stat ++ (if create then s.odr else []) ++ fresh s, made := s.made ++ fresh s }

/-- What is serialized for file and UDP: OSIReporter.cpp:347-350 and 366-398. `t` is the state after `addStatic`. -/
def serial (s t : St) : Gt :=
  if s.file || s.udp then
    if !s.inited || s.mode = .apiAndLog then ⟨t.stat, some s.dyn⟩ else ⟨fresh s, some s.dyn⟩
  else ⟨[], none⟩

/-- What is given to the API: OSIReporter.cpp:352-354 and 361-398. -/
def external (s t : St) : Gt :=
  if !s.inited || s.mode ≠ .default then ⟨t.stat, some s.dyn⟩ else ⟨fresh s, some s.dyn⟩

/-- The rest of `UpdateOSIGroundTruth`, OSIReporter.cpp:335-441. -/
def report (s : St) : St :=
  { addStatic (!s.inited) s with
    offset := if s.inited then s.offset else s.counter
    inited := true
    updated := true
    ext := external s (addStatic (!s.inited) s)
    buf := serial s (addStatic (!s.inited) s)
    log := s.log ++ (if s.file then [serial s (addStatic (!s.inited) s)] else [])
    sent := s.sent ++ (if s.udp then [serial s (addStatic (!s.inited) s)] else []) }

/-- `UpdateOSIGroundTruth`, OSIReporter.cpp:329-441; `none`: division by zero. -/
def update (s : St) : Option St :=
  if s.inited && s.updated then some s
  else if s.inited then
    if s.freq = 0 then none
    else if (s.counter - s.offset).tmod s.freq ≠ 0 then some s else some (report s)
  else some (report s)

/-- What a user of the library does. -/
inductive Ev where
  /-- `SE_Step`: the scenario has a new dynamic state afterwards -/
  | frame (dyn : Nat)
  /-- `SE_GetOSIGroundTruth` -/
  | get
  /-- `SE_EnableOSIFile` -/
  | enable
  /-- `SE_DisableOSIFile` -/
  | disable
  /-- `SE_OpenOSISocket` -/
  | socket
  /-- `SE_SetOSIFrequency` -/
  | setFreq (n : Int)
  /-- `SE_SetOSIStaticReportMode` -/
  | setMode (m : Mode)
  /-- a miscellaneous object enters the scenario -/
  | add (i : Nat)
  /-- a miscellaneous object leaves the scenario -/
  | remove (i : Nat)
deriving DecidableEq, Repr

/-- Before the update in a step: playerbase.cpp:193, 297 and 301-304. -/
def advance (d : Nat) (s : St) : St := { s with updated := false, counter := s.counter + 1, dyn := d }

/-- `ScenarioPlayer::Frame`, playerbase.cpp:184-248, with `ScenarioPostFrame`, 339-364. -/
def frame (d : Nat) (s : St) : Option St :=
  if s.freq > 0 then update (advance d s) else some (advance d s)

/-- esminiLib.cpp:1704-1707 and 1725-1728. -/
def wake (s : St) : St := if s.freq = 0 then setFreq 1 s else s

/-- `OSIReporter::GetOSIGroundTruth`, OSIReporter.cpp:3393-3403: the buffer afterwards, which is what the user gets. -/
def fetch (s : St) : St := if !(s.udp || s.file) then { s with buf := s.ext } else s

/-- One call. -/
def step (s : St) : Ev → Option St
  | .frame d => frame d s
  | .get => (update (wake s)).map fetch
  | .enable => update { s with file := true }
  | .disable => some { s with file := false }
  | .socket => some { s with udp := true }
  | .setFreq n => some (setFreq n s)
  | .setMode m => some { wake s with mode := m }
  | .add i => some { s with misc := s.misc ++ [i] }
  | .remove i => some { s with misc := s.misc.filter (fun j => j ≠ i) }

/-- A number of calls. -/
def run : St → List Ev → Option St
  | s, [] => some s
  | s, e :: r => (step s e).bind (fun s1 => run s1 r)

/-- A player just created, OSIReporter.hpp:287-297 and playerbase.cpp:65, for a road and the objects of a scenario. -/
def start (odr misc : List Nat) : St :=
  { counter := 0, offset := 0, freq := 0, updated := false, inited := false, mode := .default, file := false, udp := false,
    log := [], sent := [], odr := odr, misc := misc, made := [], stat := [], ext := ⟨[], none⟩, buf := ⟨[], none⟩, dyn := 0 }

/-! ### Time stamps -/

/-- Seconds and nanoseconds of a simulation time, OSIReporter.cpp:601-605, for times from 0 to 2^32 s (doubles are exact). -/
def simStamp (t : Rat) : Int × Int := (t.floor, ((t - t.floor) * 1000000000).floor)

/-- Seconds and nanoseconds of an explicit time stamp, OSIReporter.cpp:594-597. -/
def explStamp (ns : Nat) : Int × Int := (((ns / 1000000000 : Nat) : Int), ((ns % 1000000000 : Nat) : Int))

/-- `OSI_TIMESTAMP_UNDEFINED`, CommonMini.hpp:69. -/
def undefStamp : Nat := 0xffffffffffffffff

/-- OSIReporter.cpp:591-606: `set` is the value of `SE_OSISetTimeStamp`, `undefStamp` if never called. -/
def stamp (set : Nat) (t : Rat) : Int × Int := if set ≠ undefStamp then explStamp set else simStamp t

/-! ### Cropping -/

/-- An entity as the reporter sees it: id, OSI position, whether its type is reported at all. -/
structure Obj where
  id : Int
  x : Rat
  y : Rat
  z : Rat
  moving : Bool
deriving DecidableEq, Repr

/-- `SMALL_NUMBER`. -/
def small : Rat := 1 / 1000000

/-- The loop of `CropOSIDynamicGroundTruth` for an id that is present, OSIReporter.cpp:547-562. -/
def cropReplace (id : Int) (r : Rat) : List (Int × Rat) → List (Int × Rat)
  | [] => []
  | c :: l => if c.1 = id then (if r > small then (id, r) :: l else l) else c :: cropReplace id r l

/-- `CropOSIDynamicGroundTruth`, OSIReporter.cpp:539-569. -/
def cropSet (id : Int) (r : Rat) (l : List (Int × Rat)) : List (Int × Rat) :=
  if l.isEmpty ∧ r > small then [(id, r)]
  else if l.any (fun c => c.1 = id) then cropReplace id r l
  else if r > small then l ++ [(id, r)] else l

/-- `rel_dist`, OSIReporter.cpp:653-654. -/
def dist2 (a b : Obj) : Rat := (a.x - b.x) ^ 2 + (a.y - b.y) ^ 2 + (a.z - b.z) ^ 2

/-- OSIReporter.cpp:646-661. -/
def inCrop (c : Obj) (r : Rat) (o : Obj) : Bool := c.id = o.id || dist2 c o < r * r

/-- The inner loop, OSIReporter.cpp:644-669: the ids added and the objects reported so far. -/
def cropInner (c : Obj) (r : Rat) : List Obj → List Int × List Obj → List Int × List Obj
  | [], acc => acc
  | o :: l, acc =>
    if inCrop c r o && !(acc.1.contains o.id) then cropInner c r l (acc.1 ++ [o.id], acc.2 ++ [o])
    else cropInner c r l acc

/-- The outer loop, OSIReporter.cpp:630-670. -/
def cropOuter (objs : List Obj) : List (Int × Rat) → List Int × List Obj → List Int × List Obj
  | [], acc => acc
  | c :: l, acc =>
    match objs.find? (fun o => o.id = c.1) with
    | none => cropOuter objs l acc
    | some co => cropOuter objs l (cropInner co c.2 objs acc)

/-- The moving objects in the ground truth, OSIReporter.cpp:620-671 with `CheckDynamicTypeAndUpdate`, 571-590. -/
def reported (crop : List (Int × Rat)) (objs : List Obj) : List Obj :=
  (if crop.isEmpty then objs else (cropOuter objs crop ([], [])).2).filter (·.moving)

end Verif.Osi

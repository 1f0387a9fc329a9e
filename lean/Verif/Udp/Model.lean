import Verif.Vehicle.Model
/-
The controller that is driven by UDP messages.
Code: EnvironmentSimulator/Modules/Controllers/ControllerUDPDriver.cpp:176-400, ControllerUDPDriver.hpp:33-95, vehicle.hpp:65-71.

Simplifications
* The payload of a message is a union of structures of 64 bit words; a word is a natural number and `dbl` its meaning as a `double`. A
  flag is the lowest byte of its word (little endian).
* A datagram has the three used words of the header and some words of payload; those beyond its end keep their old values.
* Height, pitch and roll are either explicit or follow the road (`none`). Headings are not normalized.
* No datagram is empty.
-/
namespace Verif.Udp
open Verif.Vehicle

/-- `DMMessage`, ControllerUDPDriver.hpp:94-104. -/
structure Msg where
  version : Nat
  mode : Nat
  objectId : Nat
  word : Nat → Nat

/-- A received datagram. -/
structure Dgram where
  version : Nat
  mode : Nat
  objectId : Nat
  words : List Nat

/-- `Receive` into the buffer, ControllerUDPDriver.cpp:185, 194: words that are not sent stay. The
buffer has nine words of payload. -/
def receive (m : Msg) (d : Dgram) : Msg :=
  ⟨d.version, d.mode, d.objectId, fun i => if i < 9 then d.words.getD i (m.word i) else 0⟩

/-- State of an entity, as far as the controller sets it. -/
structure Ent where
  x : ℝ
  y : ℝ
  h : ℝ
  zpr : Option (ℝ × ℝ × ℝ)
  speed : ℝ
  wheel : ℝ

/-- The controller. -/
structure Ctrl where
  own : Nat
  sync : Bool
  queue : List Dgram
  msg : Msg
  last : Msg
  veh : Vehicle

/-- Entities by id. -/
abbrev World := Nat → Option Ent

/-- A flag, `unsigned char`. -/
def flag (w : Nat) : Bool := w % 256 != 0

/-- `InputMode`, ControllerUDPDriver.hpp:33-40. -/
def driverInput : Nat := 1
def stateXYZHPR : Nat := 2
def stateXYH : Nat := 3
def stateH : Nat := 4

/-- The datagrams that one step takes, ControllerUDPDriver.cpp:181-199. -/
def taken (c : Ctrl) : List Dgram := if c.sync then c.queue.take 1 else c.queue

/-- The datagrams that stay in the socket. -/
def left (c : Ctrl) : List Dgram := if c.sync then c.queue.drop 1 else []

/-- A state message applied to an entity, ControllerUDPDriver.cpp:238-287. -/
noncomputable def applyState (dbl : Nat → ℝ) (m : Msg) (e : Ent) : Ent :=
  if m.mode = stateXYZHPR then
    ⟨dbl (m.word 0), dbl (m.word 1), dbl (m.word 3), some (dbl (m.word 2), dbl (m.word 4), dbl (m.word 5)),
      dbl (m.word 6), dbl (m.word 7)⟩
  else if m.mode = stateXYH then
    ⟨dbl (m.word 0), dbl (m.word 1), dbl (m.word 2), none, dbl (m.word 3), dbl (m.word 4)⟩
  else if m.mode = stateH then
    { e with h := dbl (m.word 0), zpr := none, speed := dbl (m.word 1), wheel := dbl (m.word 2) }
  else if m.mode = driverInput then { e with zpr := none }
  else e

/-- `vehicle_.SetPos` after a state message, ControllerUDPDriver.cpp:255, 269, 285: `e` is the entity that has been moved. -/
def placeVehicle (m : Msg) (e : Ent) (v : Vehicle) : Vehicle :=
  if m.mode = stateXYZHPR ∨ m.mode = stateXYH ∨ m.mode = stateH then { v with x := e.x, y := e.y, heading := e.h } else v

/-- Whether the position is extrapolated, ControllerUDPDriver.cpp:303-309. The flag of a complete state is read with the structure of the
partial state. -/
def reckons (received : Bool) (m : Msg) : Bool :=
  (m.mode == stateH && flag (m.word 3)) ||
  (!received && ((m.mode == stateXYH && flag (m.word 5)) || (m.mode == stateXYZHPR && flag (m.word 5))))

/-- Speed and heading for the extrapolation, ControllerUDPDriver.cpp:315-330. -/
noncomputable def reckonBy (dbl : Nat → ℝ) (m : Msg) : ℝ × ℝ :=
  if m.mode = stateH then (dbl (m.word 1), dbl (m.word 0))
  else if m.mode = stateXYH then (dbl (m.word 3), dbl (m.word 2))
  else (dbl (m.word 6), dbl (m.word 3))

/-- The extrapolated entity, ControllerUDPDriver.cpp:336-340. -/
noncomputable def reckon (dbl : Nat → ℝ) (m : Msg) (v : Vehicle) (dt : ℝ) (e : Ent) : Ent :=
  { e with
    x := e.x + (reckonBy dbl m).1 * dt * Real.cos (reckonBy dbl m).2
    y := e.y + (reckonBy dbl m).1 * dt * Real.sin (reckonBy dbl m).2
    h := v.heading }

/-- Replaces an entity. -/
def put (w : World) (id : Nat) (e : Ent) : World := fun i => if i = id then some e else w i

/-- The second half of `Step`, ControllerUDPDriver.cpp:301-360. -/
noncomputable def proceed (dbl : Nat → ℝ) (received : Bool) (dt : ℝ) (c : Ctrl) (w : World) : Ctrl × World :=
  match w c.own with
  | none => (c, w)
  | some e =>
    if dt > small then
      if reckons received c.last then (c, put w c.own (reckon dbl c.last c.veh dt e))
      else if c.last.mode = driverInput then
        let v := driveAnalog c.veh dt (dbl (c.last.word 0) - dbl (c.last.word 1)) (dbl (c.last.word 2))
        ({ c with veh := v }, put w c.own { e with x := v.x, y := v.y, h := v.heading, speed := v.speed, wheel := v.wheelAngle })
      else (c, w)
    else (c, w)

/-- The controller after reading from the socket, ControllerUDPDriver.cpp:181-199. -/
def readAll (c : Ctrl) : Ctrl := { c with queue := left c, msg := (taken c).foldl receive c.msg }

/-- `Step`, ControllerUDPDriver.cpp:176-363. -/
noncomputable def step (dbl : Nat → ℝ) (dt : ℝ) (c : Ctrl) (w : World) : Ctrl × World :=
  if (taken c).isEmpty then proceed dbl false dt c w
  else if (readAll c).msg.version ≠ 1 then ({ readAll c with last := (readAll c).msg }, w)
  else
    match w (readAll c).msg.objectId with
    | none => ({ readAll c with last := (readAll c).msg }, w)
    | some e =>
      proceed dbl true dt
        { readAll c with
          last := (readAll c).msg
          veh := placeVehicle (readAll c).msg (applyState dbl (readAll c).msg e) c.veh }
        (put w (readAll c).msg.objectId (applyState dbl (readAll c).msg e))

/-- A step before which datagrams arrive. -/
noncomputable def stepWith (dbl : Nat → ℝ) (arrived : List Dgram) (dt : ℝ) (s : Ctrl × World) : Ctrl × World :=
  step dbl dt { s.1 with queue := s.1.queue ++ arrived } s.2

/-- Steps without datagrams. -/
noncomputable def silent (dbl : Nat → ℝ) : List ℝ → Ctrl × World → Ctrl × World
  | [], s => s
  | dt :: r, s => silent dbl r (stepWith dbl [] dt s)

end Verif.Udp

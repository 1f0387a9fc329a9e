/-
Override controller value actions.

Source: EnvironmentSimulator/Modules/ScenarioEngine/OSCTypeDefs/OSCPrivateAction.{hpp,cpp}
(OverrideControlAction), ScenarioReader.cpp:3695-3957, Entities.{hpp,cpp}, esminiLib.cpp:188-226.

Simplifications: doubles are rationals (no NaN, no rounding); attribute values that are numbers are
given as numbers; π is a positive rational `pi`; ghost restarts are left out; converting gear numbers
beyond the range of `int` is undefined in C++ and an unbounded integer here.
-/
namespace Verif.Override

/-- `Object::OverrideType`, Entities.hpp:115-126. -/
inductive Ctl
  | throttle | brake | clutch | parkingBrake | steeringWheel | gear
  deriving DecidableEq, Repr

/-- `Object::OverrideActionStatus`, Entities.hpp:201-210. -/
structure Status where
  type : Ctl
  active : Bool := false
  value : Rat := 0
  maxRate : Rat := -1
  maxTorque : Rat := -1
  number : Int := 0
  valueType : Int := 0
  deriving DecidableEq, Repr

/-- First child element of a control (brake input or gear). -/
structure Child where
  name : String
  value : Rat := 0
  maxRate : Option Rat := none
  gear : String := ""
  number : Int := 0

/-- One control in the XML file. -/
structure Node where
  name : String
  active : String
  value : Rat := 0
  hasValue : Bool := true
  maxRate : Option Rat := none
  maxTorque : Option Rat := none
  number : Option Rat := none
  child : Option Child := none

/-- `OverrideControlAction::RangeCheckAndErrorLog` without rounding, OSCPrivateAction.cpp:3653-3676. -/
def rangeCheck (v lo hi : Rat) : Rat :=
  if v ≤ hi ∧ v ≥ lo then v else if v > hi then hi else lo

/-- `static_cast<int>` of a double. -/
def toInt (x : Rat) : Int := if 0 ≤ x then x.floor else x.ceil

/-- Brake and parking brake, ScenarioReader.cpp:3721-3778, 3793-3850. -/
def readBrake (c : Ctl) (act : Bool) (n : Node) : Option Status :=
  match n.child with
  | none => some { type := c, active := act, value := rangeCheck n.value 0 1 }
  | some ch =>
    if ch.name = "BrakeForce" then
      some { type := c, active := act, valueType := 1, value := if ch.value < 0 then 0 else ch.value,
             maxRate := ch.maxRate.getD (-1) }
    else if ch.name = "BrakePercent" then
      some { type := c, active := act, valueType := 0, value := rangeCheck ch.value 0 1,
             maxRate := ch.maxRate.getD (-1) }
    else none

/-- Gear, ScenarioReader.cpp:3873-3947. -/
def readGear (act : Bool) (n : Node) : Option Status :=
  match n.child with
  | none =>
    match n.number with
    | some x => some { type := .gear, active := act, valueType := 0, number := toInt x }
    | none =>
      if n.hasValue then
        some { type := .gear, active := act, valueType := 0, number := toInt n.value }
      else none
  | some ch =>
    if ch.name = "AutomaticGear" then
      if ch.gear = "r" then some { type := .gear, active := act, valueType := 1, number := -1 }
      else if ch.gear = "p" then some { type := .gear, active := act, valueType := 1, number := 1 }
      else if ch.gear = "n" then some { type := .gear, active := act, valueType := 1, number := 0 }
      else if ch.gear = "d" then some { type := .gear, active := act, valueType := 1, number := 2 }
      else none
    else if ch.name = "ManualGear" then
      some { type := .gear, active := act, valueType := 0, number := ch.number }
    else none

/-- One control, ScenarioReader.cpp:3698-3955; `v12` means version 1.2 or later, `none` that the
action is dropped. -/
def readNode (v12 : Bool) (pi : Rat) (n : Node) : Option Status :=
  let act := decide (n.active = "true")
  let rate := if v12 then n.maxRate.getD (-1) else -1
  if n.name = "Throttle" then
    some { type := .throttle, active := act, value := rangeCheck n.value 0 1, maxRate := rate }
  else if n.name = "Brake" then readBrake .brake act n
  else if n.name = "Clutch" then
    some { type := .clutch, active := act, value := rangeCheck n.value 0 1, maxRate := rate }
  else if n.name = "ParkingBrake" then readBrake .parkingBrake act n
  else if n.name = "SteeringWheel" then
    some { type := .steeringWheel, active := act, value := rangeCheck n.value (-2 * pi) (2 * pi),
           maxRate := rate, maxTorque := if v12 then n.maxTorque.getD (-1) else -1 }
  else if n.name = "Gear" then readGear act n
  else none

/-- An action: its list and its domain mask. -/
structure Action where
  list : List Status := []
  domains : BitVec 4 := 0#4

/-- `OverrideControlAction::AddOverrideStatus`, OSCPrivateAction.cpp:3593-3627. -/
def Action.add (a : Action) (s : Status) : Action :=
  let bit : BitVec 4 := if s.type = .steeringWheel then 2#4 else 1#4
  { list := a.list ++ [s]
    domains := if s.active then a.domains ||| bit else a.domains &&& ~~~bit }

/-- All controls of the element, ScenarioReader.cpp:3695-3957. -/
def readAll (v12 : Bool) (pi : Rat) (l : List Node) : Option Action :=
  l.foldlM (fun a n => (readNode v12 pi n).map a.add) {}

/-- The copy constructor, OSCPrivateAction.hpp:1690-1699. -/
def Action.copy (a : Action) : Action := { list := a.list, domains := 0#4 }

/-- `object_->overrideActionList` -/
abbrev Table := Ctl → Status

/-- Initial table, Entities.cpp:63-69. -/
def Table.init : Table := fun c => { type := c }

def Table.set (t : Table) (c : Ctl) (s : Status) : Table := fun d => if d = c then s else t d

/-- `OverrideControlAction::Start`, OSCPrivateAction.cpp:3629-3643. -/
def start (a : Action) (t : Table) : Table := a.list.foldl (fun t s => t.set s.type s) t

/-- Pedals, brakes, wheel and gear as the library reports them, esminiLib.hpp:172-214. -/
structure Pedal where
  active : Bool
  value : Rat
  maxRate : Rat

structure Brake where
  active : Bool
  type : Ctl
  value : Rat
  maxRate : Rat
  valueType : Int

structure Wheel where
  active : Bool
  value : Rat
  maxRate : Rat
  maxTorque : Rat

structure Gear where
  active : Bool
  type : Ctl
  number : Int
  valueType : Int

structure Report where
  throttle : Pedal
  brake : Brake
  clutch : Pedal
  parkingBrake : Brake
  steeringWheel : Wheel
  gear : Gear

/-- `copyOverrideActionListfromScenarioEngine`, esminiLib.cpp:188-226. -/
def report (t : Table) : Report where
  brake := ⟨(t .brake).active, (t .brake).type, (t .brake).value, (t .brake).maxRate,
    (t .brake).valueType⟩
  parkingBrake := ⟨(t .parkingBrake).active, (t .parkingBrake).type, (t .parkingBrake).value,
    (t .parkingBrake).maxRate, (t .parkingBrake).valueType⟩
  gear := ⟨(t .gear).active, (t .gear).type, (t .gear).number, (t .gear).valueType⟩
  clutch := ⟨(t .clutch).active, (t .clutch).value, (t .clutch).maxRate⟩
  throttle := ⟨(t .throttle).active, (t .throttle).value, (t .throttle).maxRate⟩
  steeringWheel := ⟨(t .steeringWheel).active, (t .steeringWheel).value, (t .steeringWheel).maxRate,
    (t .steeringWheel).maxTorque⟩

end Verif.Override

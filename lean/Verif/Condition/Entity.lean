import Verif.Condition.Model

/-
The loops over triggering entities of the entity conditions, OSCCondition.cpp:731-1709.

Simplification: what is measured for one entity (distance, speed, duration, ...) is an input; the
control flow of each loop (`continue`, `break`, which variables survive an iteration) is modelled as is.
`triggered_by_entities_` is only used for logging and left out.
-/
namespace Verif.Condition
open Verif.Common

/-- `TriggeringEntitiesRule`, OSCCondition.hpp:170-174. -/
inductive ERule where
  | any | all
deriving DecidableEq, Repr

/-- `EvalDone`, OSCCondition.cpp:262-274. -/
def evalDone (result : Bool) (rule : ERule) : Bool :=
  if result = false ∧ rule = .all then true
  else if result = true ∧ rule = .any then true
  else false

/-- An entity for the conditions that evaluate each active entity afresh. -/
structure Ent where
  active : Bool
  sat : Bool
deriving DecidableEq, Repr

/-- The loop of TrigByDistance (963-993), TrigByRelativeDistance (1010-1042; `active` also includes the
reference), TrigByTraveledDistance (1160-1180), TrigByAcceleration (1322-1358), TrigBySpeed (1490-1525),
TrigByRelativeSpeed (1556-1596) and TrigByAngle outside CS_TRAJECTORY (1373-1452). -/
def loopFresh (rule : ERule) : Bool → List Ent → Bool
  | result, [] => result
  | result, e :: es =>
    if !e.active then loopFresh rule result es
    else
      let result := e.sat
      if evalDone result rule then result else loopFresh rule result es

def checkFresh (rule : ERule) (es : List Ent) : Bool := loopFresh rule false es

/-- An entity for TrigByTimeHeadway / TrigByTimeToCollision: `sat = none` if the quantity is not
defined (standing still, target behind, ...). -/
structure EntU where
  active : Bool
  sat : Option Bool
deriving DecidableEq, Repr

/-- The loop of TrigByTimeHeadway (741-779) and TrigByTimeToCollision (797-857): `result = false` at the
beginning of each iteration; inactive and undefined entities skip `EvalDone`. -/
def loopUndef (rule : ERule) : Bool → List EntU → Bool
  | result, [] => result
  | _, e :: es =>
    let result := false
    if !e.active then loopUndef rule result es
    else
      match e.sat with
      | none => loopUndef rule result es
      | some b =>
        let result := b
        if evalDone result rule then result else loopUndef rule result es

def checkUndef (rule : ERule) (es : List EntU) : Bool := loopUndef rule false es

/-- An entity for TrigByReachPosition: within tolerance of the position, and the orientation check if
there is one. -/
structure EntR where
  active : Bool
  near : Bool
  orient : Option Bool
deriving DecidableEq, Repr

/-- The loop of TrigByReachPosition, OSCCondition.cpp:882-928: `result` is not set to false when the
entity is not near. -/
def loopReach (rule : ERule) : Bool → List EntR → Bool
  | result, [] => result
  | result, e :: es =>
    if !e.active then loopReach rule result es
    else
      let result := if e.near then (match e.orient with | none => true | some b => b) else result
      if evalDone result rule then result else loopReach rule result es

def checkReach (rule : ERule) (es : List EntR) : Bool := loopReach rule false es

/-- The loop of TrigByCollision (1060-1128), where `sat` says that a collision with the reference entity or
type was found, and of TrigByEndOfRoad (1197-1222), where `sat` says that the entity has been at the end
of its road long enough: `result` is only ever set to true. -/
def loopSticky (rule : ERule) : Bool → List Ent → Bool
  | result, [] => result
  | result, e :: es =>
    if !e.active then loopSticky rule result es
    else
      let result := if e.sat then true else result
      if evalDone result rule then result else loopSticky rule result es

def checkSticky (rule : ERule) (es : List Ent) : Bool := loopSticky rule false es

/-- An entity for TrigByStandStill / TrigByOffRoad: how long it has been in the state, if it is. -/
structure EntD where
  active : Bool
  since : Option Rat
deriving DecidableEq, Repr

/-- The loop of TrigByStandStill (1240-1263) and TrigByOffRoad (1281-1304): `current_duration_` is not reset
between entities. -/
def loopDuration (duration : Rat) (rule : ERule) : Bool → Rat → List EntD → Bool
  | result, _, [] => result
  | result, cur, e :: es =>
    if !e.active then loopDuration duration rule result cur es
    else
      let cur := match e.since with | none => cur | some d => d
      let result := decide (cur > duration)
      if evalDone result rule then result else loopDuration duration rule result cur es

def checkDuration (duration : Rat) (rule : ERule) (es : List EntD) : Bool := loopDuration duration rule false 0 es

/-- An entity for TrigByRelativeClearance: the reference objects to be checked, each with whether it is in the
clearance area, and whether a lane exists in the wanted range. Inactive entities are not skipped. -/
structure EntC where
  refs : List Bool
  lane : Bool
deriving DecidableEq, Repr

/-- The inner loop OSCCondition.cpp:1626-1671: `objFound` keeps the value of the last checked object, and its
old value if there is none to check. -/
def findObj (objFound : Bool) : List Bool → Bool
  | [] => objFound
  | b :: r => if b then true else findObj false r

/-- The loop of TrigByRelativeClearance, OSCCondition.cpp:1612-1708 (`objFound` is declared outside the loop). -/
def loopClear (rule : ERule) : Bool → Bool → List EntC → Bool
  | result, _, [] => result
  | _, objFound, e :: es =>
    let objFound := findObj objFound e.refs
    let result := if objFound then false else e.lane
    if evalDone result rule then result else loopClear rule result objFound es

def checkClear (rule : ERule) (es : List EntC) : Bool := loopClear rule false false es

end Verif.Condition

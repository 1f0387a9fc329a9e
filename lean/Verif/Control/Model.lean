/-
Model of controller assignment and activation:
EnvironmentSimulator/Modules/Controllers/Controller.cpp 28-69, 98-149, 177-200 and Controller.hpp 88-115,
EnvironmentSimulator/Modules/ScenarioEngine/SourceFiles/Entities.cpp 125-300,
EnvironmentSimulator/Modules/ScenarioEngine/OSCTypeDefs/OSCPrivateAction.cpp 738-862 and 2101-2108,
EnvironmentSimulator/Modules/ScenarioEngine/SourceFiles/ScenarioEngine.cpp 211-225 and 600-628,
EnvironmentSimulator/Modules/CommonMini/CommonMini.hpp 120-152, CommonMini.cpp 216-233.

Domain masks are 32 bit words, as in the code (`unsigned int`).  Controllers live in a heap indexed by
address; an object holds the list of the addresses of its controllers.

Simplifications: of a controller its name, type, mode, operating and active domains and whether it is
linked to an object are kept; aligning the heading with the road when (de)activated and log messages are
left out; derived classes' overrides of Activate (which call the base class) are left out.
-/
namespace Verif.Control

/-- `unsigned int` domain masks. -/
abbrev Mask := BitVec 32

/-- `ControlDomains`, CommonMini.hpp 120-127 (the order of the constructors is the numbering). -/
inductive Dom where
  | long | lat | light | anim
deriving Repr, DecidableEq

/-- The number of the domain: `static_cast<unsigned int>(ControlDomains::...)`, CommonMini.hpp 120-127. -/
def Dom.idx : Dom → Nat
  | .long => 0
  | .lat => 1
  | .light => 2
  | .anim => 3

/-- `ControlDomain2DomainMask`, CommonMini.cpp 216-233, with the values of CommonMini.hpp 129-138. -/
def Dom.mask : Dom → Mask
  | .long => 1
  | .lat => 2
  | .light => 4
  | .anim => 8

/-- DOMAIN_MASK_LAT_AND_LONG, CommonMini.hpp 136. -/
def maskLatLong : Mask := 3

/-- DOMAIN_MASK_ALL, CommonMini.hpp 137. -/
def maskAll : Mask := 15

/-- The loop order `for (i = 0; i < COUNT; i++)`. -/
def Dom.all : List Dom := [.long, .lat, .light, .anim]

/-- `ControlOperationMode`, CommonMini.hpp 140-145. -/
inductive OpMode where
  | none | override | additive
deriving Repr, DecidableEq

/-- `ControlActivationMode`, CommonMini.hpp 147-152. -/
inductive ActMode where
  | undefined | off | on
deriving Repr, DecidableEq

/-- A controller (Controller.hpp), the fields used here. -/
structure Ctrl where
  name : String
  typ : Nat
  mode : OpMode
  operating : Mask
  active : Mask
  linked : Bool
deriving Repr, DecidableEq

/-- CONTROLLER_TYPE_UNDEFINED, Controller.hpp 35-57. -/
def typeUndefined : Nat := 19

/-- The mode read from the controller's properties, Controller.cpp 47-69. -/
def parseMode : Option String → OpMode
  | some m =>
    if m = "override" then .override
    else if m = "additive" then .additive
    else .override
  | none => .override

/-- The constructor, Controller.cpp 28-69. -/
def Ctrl.new (name : String) (typ : Nat) (mode : Option String) : Ctrl :=
  ⟨name, typ, parseMode mode, maskLatLong, 0, false⟩

/-- One round of the loop in `Controller::Activate`, Controller.cpp 117-134. -/
def activateOne (operating : Mask) (active : Mask) (d : Dom) (m : ActMode) : Mask :=
  match m with
  | .off => active &&& ~~~ d.mask
  | .on => if operating &&& d.mask = 0 then active else active ||| d.mask
  | .undefined => active

/-- `Controller::Activate`, Controller.cpp 98-137; `mode` is indexed by domain number. -/
def Ctrl.activate (c : Ctrl) (mode : Dom → ActMode) : Ctrl :=
  { c with active := Dom.all.foldl (fun a d => activateOne c.operating a d (mode d)) c.active }

/-- `Controller::DeactivateDomains`, Controller.cpp 139-149. -/
def Ctrl.deactivateDomains (c : Ctrl) (domains : Mask) : Ctrl :=
  { c with active := c.active &&& ~~~ domains }

/-- `Controller::Deactivate`, Controller.hpp 88-91. -/
def Ctrl.deactivate (c : Ctrl) : Ctrl := c.deactivateDomains maskAll

/-- `Controller::Active`, Controller.hpp 111-114. -/
def Ctrl.isActive (c : Ctrl) : Bool := c.active != 0

/-- `Controller::IsActiveOnDomains`, Controller.cpp 182-185. -/
def Ctrl.activeOn (c : Ctrl) (m : Mask) : Bool := (m &&& c.active) == m

/-- `Controller::IsActiveOnAnyOfDomains`, Controller.cpp 192-195. -/
def Ctrl.activeOnAny (c : Ctrl) (m : Mask) : Bool := (m &&& c.active) != 0

/-- All controllers, by address. -/
abbrev Heap := Nat → Ctrl

/-- Overwrite one controller. -/
def Heap.set (h : Heap) (p : Nat) (c : Ctrl) : Heap := fun q => if q = p then c else h q

/-- The controllers in the heap and the object's list `controllers_`. -/
structure St where
  heap : Heap
  ctrls : List Nat

/-- `Object::AssignController`, Entities.cpp 125-132. -/
def assign (s : St) (p : Nat) : St :=
  { s with ctrls := s.ctrls.filter (fun q => q != p) ++ [p] }

/-- `Object::UnassignController`, Entities.cpp 134-144. -/
def unassign (s : St) (p : Nat) : St :=
  let h :=
    if s.ctrls.find? (fun q => q == p) ≠ none then
      s.heap.set p { (s.heap p) with linked := false }.deactivate
    else s.heap
  ⟨h, s.ctrls.filter (fun q => q != p)⟩

/-- `Object::UnassignControllers`, Entities.cpp 146-153. -/
def unassignAll (s : St) : St :=
  ⟨s.ctrls.foldl (fun h p => h.set p (h p).deactivate) s.heap, []⟩

/-- `Object::IsControllerActiveOnDomains`, Entities.cpp 155-169 (the type test compares the controller's
type with itself). -/
def isActiveOnDomains (s : St) (m : Mask) (typ : Nat) : Bool :=
  s.ctrls.any fun p =>
    (s.heap p).activeOn m && (typ == typeUndefined || (s.heap p).typ == (s.heap p).typ)

/-- `Object::IsControllerActiveOnAnyOfDomains`, Entities.cpp 171-185. -/
def isActiveOnAny (s : St) (m : Mask) (typ : Nat) : Bool :=
  s.ctrls.any fun p =>
    (s.heap p).activeOnAny m && (typ == typeUndefined || (s.heap p).typ == (s.heap p).typ)

/-- The loop of `Object::IsControllerModeOnDomains`, Entities.cpp 187-205. -/
def modeLoop (h : Heap) (mode : OpMode) (m : Mask) (typ : Nat) : List Nat → Bool
  | [] => false
  | p :: ps =>
    if (h p).activeOn m then
      (h p).mode == mode && (typ == typeUndefined || (h p).typ == (h p).typ)
    else modeLoop h mode m typ ps

/-- `Object::IsControllerModeOnDomains`, Entities.cpp 187-205. -/
def isModeOnDomains (s : St) (mode : OpMode) (m : Mask) (typ : Nat) : Bool :=
  modeLoop s.heap mode m typ s.ctrls

/-- `Object::GetControllerActiveOnDomainMask`, Entities.cpp 258-268. -/
def activeOnMask (s : St) (m : Mask) : Option Nat :=
  s.ctrls.find? fun p => (s.heap p).activeOn m

/-- `Object::GetControllerTypeActiveOnDomain`, Entities.cpp 275-289; `defType` is
CONTROLLER_TYPE_DEFAULT and `ghostType` GHOST_RESERVED_TYPE. -/
def typeActiveOn (s : St) (d : Dom) (isGhost : Bool) (defType ghostType : Nat) : Nat :=
  match activeOnMask s d.mask with
  | some p => (s.heap p).typ
  | none => if isGhost then ghostType else defType

/-- `Object::GetController`, Entities.cpp 291-299. -/
def getController (s : St) (name : String) : Option Nat :=
  s.ctrls.find? fun p => (s.heap p).name == name

/-- The array `{lat, long, light, anim}` of OSCPrivateAction.cpp 754, indexed by domain number. -/
def assignModes (lat long light anim : ActMode) : Dom → ActMode := fun d =>
  match d.idx with
  | 0 => lat
  | 1 => long
  | 2 => light
  | _ => anim

/-- `AssignControllerAction::Start`, OSCPrivateAction.cpp 738-774, for an action with a controller. -/
def assignAction (s : St) (p : Nat) (lat long light anim : ActMode) : St :=
  let s := assign s p
  if !(s.heap p).isActive then
    if lat ≠ .undefined ∨ long ≠ .undefined ∨ light ≠ .undefined ∨ anim ≠ .undefined then
      { s with heap := s.heap.set p ((s.heap p).activate (assignModes lat long light anim)) }
    else s
  else s

/-- `activation_mode_` set by the constructor of `ActivateControllerAction`, OSCPrivateAction.cpp 789-792. -/
def activateModes (lat long light anim : ActMode) : Dom → ActMode
  | .lat => lat
  | .long => long
  | .anim => anim
  | .light => light

/-- The loop over the domains of `ActivateControllerAction::Start` that makes room,
OSCPrivateAction.cpp 826-847. -/
def makeRoom (p : Nat) (mode : Dom → ActMode) (minor : Nat) : List Dom → St → St
  | [], s => s
  | d :: ds, s =>
    if mode d = .on then
      match activeOnMask s d.mask with
      | some q =>
        if minor ≥ 3 then
          makeRoom p mode minor ds { s with heap := s.heap.set p ((s.heap p).deactivateDomains d.mask) }
        else
          { s with heap := s.heap.set q (s.heap q).deactivate }
      | none => makeRoom p mode minor ds s
    else makeRoom p mode minor ds s

/-- The controller meant by an `ActivateControllerAction`, OSCPrivateAction.cpp 802-821. -/
def chosen (s : St) (name : String) : Option Nat :=
  if name = "" then s.ctrls.getLast? else getController s name

/-- `ActivateControllerAction::Start`, OSCPrivateAction.cpp 795-862: the new state and whether the
action was carried out. -/
def activateAction (s : St) (name : String) (lat long light anim : ActMode) (minor : Nat) : St × Bool :=
  if s.ctrls.length = 0 then (s, false)
  else
    match chosen s name with
    | none => (s, false)
    | some p =>
      let mode := activateModes lat long light anim
      let s := makeRoom p mode minor Dom.all s
      ({ s with heap := s.heap.set p ((s.heap p).activate mode) }, true)

/-- `LatDistanceAction::Step` leaves the lateral motion alone, OSCPrivateAction.cpp 2101-2108: the mask
is the *number* of the domain. -/
def latDistanceSkips (s : St) : Bool :=
  isModeOnDomains s .override (BitVec.ofNat 32 Dom.lat.idx) typeUndefined

/-- The other lateral actions leave the lateral motion alone, OSCPrivateAction.cpp 404, 489, 927, 1106. -/
def latActionSkips (s : St) : Bool := isModeOnDomains s .override Dom.lat.mask typeUndefined

/-- The longitudinal actions, OSCPrivateAction.cpp 575, 1187, 1850. -/
def longActionSkips (s : St) : Bool := isModeOnDomains s .override Dom.long.mask typeUndefined

/-- Whether the engine itself moves the object along the road in a step: ScenarioEngine.cpp 217-225
(calling the default controller) and 600-612 (its own tests); `dirtyLong`: an action has updated the
longitudinal dimension. -/
def defaultMoves (s : St) (speed : Rat) (ghost restarting tow dirtyLong : Bool) : Bool :=
  if !(isModeOnDomains s .override maskLatLong typeUndefined) && decide (speed > 1/1000000 ∨ -speed > 1/1000000)
      && !(!ghost && restarting) && !tow then
    if !dirtyLong then
      if !(isModeOnDomains s .override Dom.long.mask typeUndefined) then !tow else false
    else false
  else false

end Verif.Control

/-
`Entities`, /repo/EnvironmentSimulator/Modules/ScenarioEngine/SourceFiles/Entities.cpp, and the trailer links of
`Vehicle`, same file.

Simplifications: an `Object*` is a number (its address); deleting an object adds the address to `freed`. The link
`trailer` stands for `trailer_hitch_->trailer_vehicle_` of a vehicle, `tow` for `trailer_coupler_->tow_vehicle_`; a vehicle
has a hitch/coupler as given by `hasHitch`/`hasCoupler`; everything connected is of type VEHICLE. `int` ids do not
overflow. `call_index` counts up to 100; the model counts the remaining calls down. Logging and dirty bits are not modelled.
Reading a deleted object is undefined behaviour in C++; the model goes on with the old contents and the theorems show when it
can not happen (`Inv.alive`).
-/
namespace Verif.Entities

/-- `class Entities`, Entities.hpp:1105-1142, with the used members of `Object` and `Vehicle` (`id_`, `name_`, active flag,
hitch and coupler). -/
structure Reg where
  active : List Nat
  pool : List Nat
  nextId : Nat
  idOf : Nat → Int
  name : Nat → String
  isAct : Nat → Bool
  trailer : Nat → Option Nat
  tow : Nat → Option Nat
  hasHitch : Nat → Bool
  hasCoupler : Nat → Bool
  freed : List Nat

def upd {α : Type} (f : Nat → α) (o : Nat) (x : α) : Nat → α := fun p => if p = o then x else f p

/-- What a call leaves behind: the new state and the returned number, or the program quits (`LOG_ERROR_AND_QUIT`). -/
abbrev Res := Option (Reg × Int)

/-- The part of `activateObject` that concerns the object itself, Entities.cpp:1589-1596. -/
def activateSelf (r : Reg) (o : Nat) : Reg :=
  { r with active := r.active ++ [o], isAct := upd r.isAct o true,
           pool := if r.pool.count o = 1 then r.pool.filter (· ≠ o) else r.pool }

/-- `activateObject`, Entities.cpp:1577-1620. -/
def activateObject : Nat → Reg → Nat → Res
  | 0, _, _ => none
  | n + 1, r, o =>
    if r.active.count o = 0 then
      if 1 < r.pool.count o then some (activateSelf r o, -1)
      else match r.trailer o with
        | none => some (activateSelf r o, 0)
        | some t => if t = o then some (activateSelf r o, 0)
                    else (activateObject n (activateSelf r o) t).map fun x => (x.1, 0)
    else some (r, -1)

/-- The part of `deactivateObject` that concerns the object itself, Entities.cpp:1634-1645. -/
def deactivateSelf (r : Reg) (o : Nat) : Reg :=
  { r with active := r.active.filter (· ≠ o), isAct := upd r.isAct o false,
           pool := if r.pool.count o = 0 then r.pool ++ [o] else r.pool }

/-- `deactivateObject`, Entities.cpp:1622-1665. -/
def deactivateObject : Nat → Reg → Nat → Res
  | 0, _, _ => none
  | n + 1, r, o =>
    if r.active.count o = 1 then
      match r.trailer o with
      | none => some (deactivateSelf r o, 0)
      | some t => if t = o then some (deactivateSelf r o, 0)
                  else (deactivateObject n (deactivateSelf r o) t).map fun x => (x.1, 0)
    else some (r, -1)

/-- The part of `addObject` that concerns the object itself, Entities.cpp:1531-1546 (`getNewId` 1742-1745). -/
def addSelf (r : Reg) (o : Nat) (act : Bool) : Reg :=
  { r with idOf := upd r.idOf o r.nextId, nextId := r.nextId + 1, isAct := upd r.isAct o act,
           active := if act then r.active ++ [o] else r.active,
           pool := if act then r.pool else r.pool ++ [o] }

/-- Naming of an unnamed trailer, Entities.cpp:1553-1556. -/
def nameTrailer (r : Reg) (o t : Nat) : Reg :=
  if r.name t = "" then { r with name := upd r.name t (r.name o ++ "+") } else r

/-- `addObject`, Entities.cpp:1523-1575. -/
def addObject : Nat → Reg → Nat → Bool → Res
  | 0, _, _, _ => none
  | n + 1, r, o, act =>
    match r.trailer o with
    | none => some (addSelf r o act, r.nextId)
    | some t =>
      if t = o then some (addSelf r o act, r.nextId)
      else
        if t ∈ (addSelf r o act).active ∧ act = false then
          (deactivateObject (n + 1) (nameTrailer (addSelf r o act) o t) t).map fun x => (x.1, (r.nextId : Int))
        else if t ∈ (addSelf r o act).pool ∧ act = true then
          (activateObject (n + 1) (nameTrailer (addSelf r o act) o t) t).map fun x => (x.1, (r.nextId : Int))
        else if t ∉ (addSelf r o act).active ∧ t ∉ (addSelf r o act).pool then
          (addObject n (nameTrailer (addSelf r o act) o t) t act).map fun x => (x.1, (r.nextId : Int))
        else some (nameTrailer (addSelf r o act) o t, r.nextId)

/-- The last two statements of `removeObject(Object*)`, Entities.cpp:1712-1713. -/
def removeSelf (r : Reg) (o : Nat) : Reg :=
  { r with active := r.active.filter (· ≠ o), freed := o :: r.freed }

/-- `removeObject(Object*, bool)`, Entities.cpp:1691-1716; `none` if the recursion is deeper than the fuel
(the code has no limit). -/
def removeObject : Nat → Reg → Nat → Bool → Option Reg
  | 0, _, _, _ => none
  | n + 1, r, o, recursive =>
    if recursive = true ∧ o ∈ r.active then
      match r.trailer o with
      | none => some (removeSelf r o)
      | some t => (removeObject n r t recursive).map fun r' => removeSelf r' o
    else some (removeSelf r o)

/-- `removeObject(int, bool)`, Entities.cpp:1667-1677. -/
def removeById (n : Nat) (r : Reg) (id : Int) (recursive : Bool) : Option Reg :=
  match r.active.find? (fun o => r.idOf o = id) with
  | some o => removeObject n r o recursive
  | none => some r

/-- `removeObject(std::string, bool)`, Entities.cpp:1679-1689. -/
def removeByName (n : Nat) (r : Reg) (nm : String) (recursive : Bool) : Option Reg :=
  match r.active.find? (fun o => r.name o = nm) with
  | some o => removeObject n r o recursive
  | none => some r

/-- `nameExists`, Entities.cpp:1718-1728. -/
def nameExists (r : Reg) (nm : String) : Bool := r.active.any fun o => r.name o = nm

/-- `indexExists`, Entities.cpp:1730-1740. -/
def indexExists (r : Reg) (id : Int) : Bool := !(r.active.any fun o => r.idOf o = id)

/-- `GetObjectByName`, Entities.cpp:1941-1962. -/
def getObjectByName (r : Reg) (nm : String) : Option Nat :=
  match r.active.find? (fun o => r.name o = nm) with
  | some o => some o
  | none => r.pool.find? (fun o => r.name o = nm)

/-- `GetObjectById`, Entities.cpp:1964-1985. -/
def getObjectById (r : Reg) (id : Int) : Option Nat :=
  match r.active.find? (fun o => r.idOf o = id) with
  | some o => some o
  | none => r.pool.find? (fun o => r.idOf o = id)

/-- `GetObjectIdxById`, Entities.cpp:1987-1998. -/
def getObjectIdxById (r : Reg) (id : Int) : Int :=
  match r.active.findIdx? (fun o => r.idOf o = id) with
  | some i => i
  | none => -1

/-- `SE_DeleteObject`, Libraries/esminiLib/esminiLib.cpp:1174-1198 (controllers are not modelled). -/
def seDeleteObject (n : Nat) (r : Reg) (id : Int) : Option (Reg × Int) :=
  match getObjectById r id with
  | none => some (r, -1)
  | some _ => (removeById n r id true).map fun r' => (r', 0)

/-- `Vehicle::ConnectTrailer`, Entities.cpp:1803-1816. -/
def connectTrailer (r : Reg) (o t : Nat) : Reg × Int :=
  if r.hasCoupler t then
    if r.hasHitch o then ({ r with tow := upd r.tow t (some o), trailer := upd r.trailer o (some t) }, 0)
    else ({ r with tow := upd r.tow t (some o) }, -1)
  else (r, -1)

/-- `Vehicle::DisconnectTrailer`, Entities.cpp:1818-1827. -/
def disconnectTrailer (r : Reg) (o : Nat) : Reg :=
  match r.trailer o with
  | some t => { r with tow := upd r.tow t none, trailer := upd r.trailer o none }
  | none => r

/-- `ConnectTrailerAction::Start`, OSCPrivateAction.cpp:2458-2487 (a vehicle whose hitch points to itself counts as having no
trailer to skip only in the registry functions, not here). -/
def connectAction (r : Reg) (o t : Nat) : Reg :=
  if r.trailer o = some t then r
  else (connectTrailer (disconnectTrailer r o) o t).1

/-- An empty registry over given vehicles, `Entities()`, Entities.hpp:1108. -/
def Reg.initial (name : Nat → String) (trailer tow : Nat → Option Nat) (hitch coupler : Nat → Bool) : Reg :=
  { active := [], pool := [], nextId := 0, idOf := fun _ => -1, name := name, isAct := fun _ => false,
    trailer := trailer, tow := tow, hasHitch := hitch, hasCoupler := coupler, freed := [] }

end Verif.Entities

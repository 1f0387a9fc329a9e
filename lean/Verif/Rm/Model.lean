/-
The road manager library (esminiRMLib) and the identifiers of roads.
Code: EnvironmentSimulator/Libraries/esminiRMLib/esminiRMLib.cpp, EnvironmentSimulator/Modules/RoadManager/RoadManager.cpp:3518-3586, 6895-6963,
7065-7075, EnvironmentSimulator/Modules/CommonMini/CommonMini.cpp:842-860.

Simplifications
* A position is a value of any type; what a call does to it is a parameter. Undefined behaviour is explicit.
* Text is a list of characters.
-/
namespace Verif.Rm

/-- Result of a call: returned, or undefined behaviour. -/
inductive Call (σ : Type) where
  | ret (r : Int) (s : σ)
  | undefined

/-- The library: whether `odrManager` is set, and `position`. -/
structure Lib (α : Type) where
  loaded : Bool
  pos : List α

variable {α : Type}

/-- `RM_Close` (esminiRMLib.cpp:143-149). -/
def close (_ : Lib α) : Lib α := ⟨false, []⟩

/-- `RM_Init` (esminiRMLib.cpp:104-129); `ok`: the file could be loaded. -/
def init (ok : Bool) (l : Lib α) : Int × Lib α :=
  if ok then (0, { (if l.loaded then close l else l) with loaded := true })
  else (-1, if l.loaded then close l else l)

/-- `RM_InitWithString` (esminiRMLib.cpp:131-141). -/
def initString (ok : Bool) (l : Lib α) : Int × Lib α := if ok then (0, { l with loaded := true }) else (-1, l)

/-- `RM_CreatePosition` (esminiRMLib.cpp:156-166); `d` is a new position. -/
def create (d : α) (l : Lib α) : Int × Lib α := if l.loaded then (l.pos.length, { l with pos := l.pos ++ [d] }) else (-1, l)

/-- `RM_GetNrOfPositions` (esminiRMLib.cpp:168-176). -/
def count (l : Lib α) : Int := if l.loaded then l.pos.length else -1

/-- `RM_DeletePosition` (esminiRMLib.cpp:178-201). -/
def delete (h : Int) (l : Lib α) : Int × Lib α :=
  if l.loaded then
    if h = -1 then (0, { l with pos := [] })
    else if 0 ≤ h ∧ h < l.pos.length then (0, { l with pos := l.pos.eraseIdx h.toNat })
    else (-1, l)
  else (-1, l)

/-- `RM_CopyPosition` (esminiRMLib.cpp:203-213). -/
def copy (h : Int) (l : Lib α) : Int × Lib α :=
  if l.loaded = false ∨ h < 0 ∨ (l.pos.length : Int) ≤ h then (-1, l)
  else match l.pos[h.toNat]? with
    | some p => (l.pos.length, { l with pos := l.pos ++ [p] })
    | none => (-1, l)

/-- Calls that look at the upper limit of the handle only: `RM_SetLanePosition`, `RM_SetRoadPosition`, `RM_SetWorldPosition`, `RM_SetWorldXYHPosition`,
`RM_SetWorldXYZHPosition`, `RM_SetWorldPositionMode`, `RM_SetH`, `RM_SetHMode`, `RM_SetRoadId`, `RM_SetS`, `RM_SetSnapLaneTypes`,
`RM_PositionMoveForward`, `RM_GetPositionData`, `RM_GetSpeedLimit` (esminiRMLib.cpp:466-810, 822-830). `f`: what the call does to the position, and its result. -/
def update (f : α → Int × α) (h : Int) (l : Lib α) : Call (Lib α) :=
  if l.loaded = false ∨ (l.pos.length : Int) ≤ h then .ret (-1) l
  else if h < 0 then .undefined
  else match l.pos[h.toNat]? with
    | some p => .ret (f p).1 { l with pos := l.pos.set h.toNat (f p).2 }
    | none => .undefined

/-- Calls that look at both limits: `RM_SetLockOnLane`, `RM_SetObjectPositionMode`, `RM_GetLaneWidth`, `RM_GetNumberOfRoadsOverlapping`, ...
(esminiRMLib.cpp:215-245, 442-464, 842-902). -/
def updateChecked (f : α → Int × α) (h : Int) (l : Lib α) : Call (Lib α) :=
  if l.loaded = false ∨ h < 0 ∨ (l.pos.length : Int) ≤ h then .ret (-1) l
  else match l.pos[h.toNat]? with
    | some p => .ret (f p).1 { l with pos := l.pos.set h.toNat (f p).2 }
    | none => .undefined

/-! ### Lanes by index -/

/-- A lane: identifier and bits of the type. -/
structure Lane where
  id : Int
  type : Nat

/-- Whether the type is asked for. -/
def Lane.matches (mask : Nat) (l : Lane) : Bool := l.type &&& mask != 0

/-- `RM_GetRoadNumberOfLanes` on a lane section (esminiRMLib.cpp:376-383). -/
def numLanes (mask : Nat) : List Lane → Nat → Nat
  | [], n => n
  | l :: ls, n => numLanes mask ls (if l.matches mask then n + 1 else n)

/-- `RM_GetLaneIdByIndex` on a lane section (esminiRMLib.cpp:410-429); `n` is the number of lanes matched so far. -/
def laneByIndex (mask : Nat) (index : Int) : List Lane → Nat → Option Int
  | [], _ => none
  | l :: ls, n =>
    if l.matches mask then (if (n : Int) = index then some l.id else laneByIndex mask index ls (n + 1)) else laneByIndex mask index ls n

/-! ### Signs -/

/-- `RM_GetNumberOfRoadSignValidityRecords` on the signs of a road, each with its records (esminiRMLib.cpp:1001-1018, `Road::GetSignal`: null when
out of range). -/
def validityCount (signs : List (List (Int × Int))) (index : Nat) : Call Unit :=
  match signs[index]? with
  | some v => .ret v.length ()
  | none => .undefined

/-- `RM_GetRoadSignValidityRecord` (esminiRMLib.cpp:1020-1038): the record, nothing, or undefined behaviour. -/
def validityRecord (signs : List (List (Int × Int))) (index k : Nat) : Option (Option (Int × Int)) :=
  match signs[index]? with
  | some v => some v[k]?
  | none => none

/-! ### Values of options -/

/-- `RM_GetOptionValue` (esminiRMLib.cpp:1105-1113): `get` are the options set; the second component is the static variable, set once. -/
def optionValue (get : List Char → Option (List Char)) (name : List Char) (cell : Option (List Char)) : Option (List Char) × Option (List Char) :=
  match get name with
  | none => (none, cell)
  | some v =>
    match cell with
    | none => (some v, some v)
    | some c => (some c, some c)

/-! ### Modes -/

/-- One field of `RM_SetWorldPositionMode` (esminiRMLib.cpp:620-640), at bit `k`: not set or default becomes absolute. -/
def modeField (k mode : Nat) : Nat :=
  if mode &&& (7 <<< k) = 0 ∨ mode &&& (7 <<< k) = 1 <<< k then mode ||| (3 <<< k) else mode

/-- The mode `RM_SetWorldPositionMode` goes on with. -/
def worldMode (mode : Nat) : Nat := modeField 12 (modeField 8 (modeField 4 (modeField 0 mode)))

/-! ### Identifiers of roads and junctions -/

/-- `ID_UNDEFINED` (CommonMini.hpp:48); `id_t` has one value more (45). -/
def idUndefined : Nat := 4294967295

/-- `ID_MAX` (CommonMini.hpp:49). -/
def idMax : Nat := 4294967294

/-- Addition in `id_t`. -/
def idSucc (n : Nat) : Nat := if n = idUndefined then 0 else n + 1

/-- `IsNumber(str, 10)` (CommonMini.cpp:842-860). -/
def isNumber (s : List Char) : Bool := !s.isEmpty && s.all Char.isDigit && decide (s.length ≤ 10)

/-- Value of a text of digits. -/
def value (s : List Char) : Nat := s.foldl (fun a c => 10 * a + (c.toNat - 48)) 0

/-- A number that is an allowed identifier (RoadManager.cpp:6906-6907). -/
def numeric (s : List Char) : Option Nat := if isNumber s && decide (value s ≤ idMax) then some (value s) else none

/-- The same identifier given before is replaced by a new one (RoadManager.cpp:6911-6919); the second argument is `id_next`. -/
def bump (c : Nat) : Nat → List (Nat × List Char) → List (Nat × List Char) × Nat
  | n, [] => ([], n)
  | n, p :: l =>
    if p.1 = c then ((n, p.2) :: (bump c (idSucc n) l).1, (bump c (idSucc n) l).2)
    else (p :: (bump c n l).1, (bump c n l).2)

/-- One round of `EstablishUniqueIds` (RoadManager.cpp:6901-6944); `none`: the program quits. -/
def idStep (st : List (Nat × List Char) × Nat) (s : List Char) : Option (List (Nat × List Char) × Nat) :=
  match numeric s with
  | some c =>
    let r := bump c st.2 st.1
    if idMax < c then none else some (r.1 ++ [(c, s)], if r.2 ≤ c then idSucc c else r.2)
  | none => if idMax < st.2 then none else some (st.1 ++ [(st.2, s)], idSucc st.2)

/-- All rounds. -/
def idRun : List (List Char) → List (Nat × List Char) × Nat → Option (List (Nat × List Char) × Nat)
  | [], st => some st
  | s :: l, st =>
    match idStep st s with
    | none => none
    | some st' => idRun l st'

/-- `EstablishUniqueIds` (RoadManager.cpp:6895-6945). -/
def establish (l : List (List Char)) : Option (List (Nat × List Char)) := (idRun l ([], 0)).map (·.1)

/-- `RM_GetRoadIdString`, by `GetRoadById` (esminiRMLib.cpp:297-309, RoadManager.cpp:3518-3528). -/
def idString (roads : List (Nat × List Char)) (id : Nat) : List Char :=
  match roads.find? (·.1 == id) with
  | some r => r.2
  | none => []

/-- `RM_GetRoadIdFromString`, by `GetRoadByIdStr` (esminiRMLib.cpp:311-323, RoadManager.cpp:3542-3550). -/
def idFromString (roads : List (Nat × List Char)) (s : List Char) : Nat :=
  match roads.find? (·.2 == s) with
  | some r => r.1
  | none => idUndefined

/-- Largest identifier. -/
def maxId (roads : List (Nat × List Char)) : Nat := roads.foldl (fun m r => max m r.1) 0

/-- `GenerateRoadId` (RoadManager.cpp:7065-7075). -/
def generateId (roads : List (Nat × List Char)) : Nat := idSucc (maxId roads)

end Verif.Rm

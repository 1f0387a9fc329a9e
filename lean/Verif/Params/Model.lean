/-
Parameter declarations: /repo/EnvironmentSimulator/Modules/ScenarioEngine/SourceFiles/Parameters.cpp and the places in
ScenarioReader.cpp that open and close scopes.

Simplifications: text is a list of characters; `double` is `Rat`; `atoi`, `atof`, `std::to_string` and the evaluator of
`${...}` expressions are arbitrary functions (`Conv`). Quitting the application (`LOG_ERROR_AND_QUIT`) and undefined
behaviour are `none`. Logging is not modelled.
-/
namespace Verif.Params

abbrev Text := List Char

/-- `enum class ParameterType`, OSCParameterDeclarations.hpp:30-37 (without NONE, which no declaration gets). -/
inductive PType where
  | integer
  | double
  | string
  | bool
deriving DecidableEq, Repr

/-- `struct ParameterStruct`, OSCParameterDeclarations.hpp:39-52. -/
structure Decl where
  name : Text
  type : PType
  int : Int
  dbl : Rat
  str : Text
  bool : Bool
  dirty : Bool
deriving DecidableEq, Repr

/-- Library functions. -/
structure Conv where
  strtoi : Text → Int
  strtod : Text → Rat
  fmtInt : Int → Text
  fmtDouble : Rat → Text
  /-- value of a `${...}` attribute; `none` if the application quits -/
  eval : List Decl → Text → Option Text

/-- The members of `class Parameters`, Parameters.hpp:32-34: `marks` is the stack `paramDeclarationsSize_`, top first. -/
structure Params where
  decls : List Decl
  marks : List Nat
  assignments : List (Text × Text)
deriving DecidableEq, Repr

/-- The test of Parameters.cpp:62-63, 79-80, 94-95. -/
def matchesName (name : Text) (d : Decl) : Bool := ('$' :: d.name) == name || d.name == name

/-- `getParameterEntry`, Parameters.cpp:90-103. -/
def getParameterEntry (ds : List Decl) (name : Text) : Option Decl := ds.find? (matchesName name)

/-- `getParameter`, Parameters.cpp:73-88; `none`: quits. -/
def getParameter (ds : List Decl) (name : Text) : Option Text := (getParameterEntry ds name).map (·.str)

/-- `ReadAttribute` for an attribute that is present, Parameters.cpp:413-487. -/
def readAttribute (cv : Conv) (ds : List Decl) (raw : Text) : Option Text :=
  match raw with
  | '$' :: c :: r => if c = '{' ∧ r ≠ [] then cv.eval ds raw else getParameter ds raw
  | _ => some raw

/-- A `ParameterDeclaration` node; `none` as type: a type name that is not known (quits). Types not supported yet are
treated as strings by the code. -/
structure XDecl where
  name : Text
  value : Text
  type : Option PType
deriving DecidableEq, Repr

/-- Replace the first declaration matching `name`. -/
def modifyFirst (name : Text) (f : Decl → Decl) : List Decl → List Decl
  | [] => []
  | d :: r => if matchesName name d then f d :: r else d :: modifyFirst name f r

/-- A value assigned by a catalog reference overrides the declared one, the last one counts, Parameters.cpp:504-515. -/
def assignedValue (as : List (Text × Text)) (name v : Text) : Text :=
  ((as.reverse.find? (fun a => a.1 == name)).map (·.2)).getD v

/-- The new `ParameterStruct`, Parameters.cpp:499-556. -/
def newDecl (cv : Conv) (name v : Text) (t : PType) : Decl :=
  { name := name, type := t, int := if t = .integer then cv.strtoi v else 0,
    dbl := if t = .double then cv.strtod v else 0, str := v,
    bool := if t = .bool then v == "true".toList else false, dirty := false }

/-- One round of `parseParameterDeclarations`, Parameters.cpp:489-574. -/
def declare (cv : Conv) (p : Params) (x : XDecl) : Option Params :=
  match readAttribute cv p.decls x.value, x.type with
  | some v, some t =>
    match p.decls.find? (fun q => q.name == x.name) with
    | some q =>
      if q.dirty then some p
      else some { p with decls := newDecl cv x.name (assignedValue p.assignments x.name v) t :: p.decls }
    | none => some { p with decls := newDecl cv x.name (assignedValue p.assignments x.name v) t :: p.decls }
  | _, _ => none

/-- `parseParameterDeclarations`. -/
def declareAll (cv : Conv) : Params → List XDecl → Option Params
  | p, [] => some p
  | p, x :: r => (declare cv p x).bind (fun p => declareAll cv p r)

/-- `CreateRestorePoint`, Parameters.cpp:36-39. -/
def createRestorePoint (p : Params) : Params := { p with marks := p.decls.length :: p.marks }

/-- `addParameterDeclarations`, Parameters.cpp:20-24. -/
def addParameterDeclarations (cv : Conv) (p : Params) (xs : List XDecl) : Option Params :=
  declareAll cv (createRestorePoint p) xs

/-- `RestoreParameterDeclarations`, Parameters.cpp:41-55. -/
def restore (p : Params) : Option Params :=
  match p.marks with
  | [] => some p
  | m :: ms =>
    if m ≤ p.decls.length then some { decls := p.decls.drop (p.decls.length - m), marks := ms, assignments := [] }
    else none

/-- Setters that require the type: result of the type check and the new contents. -/
def setTyped (t : PType) (f : Decl → Decl) (p : Params) (name : Text) : Params × Int :=
  match getParameterEntry p.decls name with
  | none => (p, -1)
  | some d => if d.type ≠ t then (p, -1) else ({ p with decls := modifyFirst name f p.decls }, 0)

/-- `setParameterValue(std::string, int)`, Parameters.cpp:318-332. -/
def setInt (cv : Conv) (p : Params) (name : Text) (v : Int) : Params × Int :=
  setTyped .integer (fun d => { d with int := v, str := cv.fmtInt v, dirty := true }) p name

/-- `setParameterValue(std::string, double)`, Parameters.cpp:334-348. -/
def setDouble (cv : Conv) (p : Params) (name : Text) (v : Rat) : Params × Int :=
  setTyped .double (fun d => { d with dbl := v, str := cv.fmtDouble v, dirty := true }) p name

/-- `setParameterValue(std::string, const char*)`, Parameters.cpp:350-363. -/
def setStr (p : Params) (name : Text) (v : Text) : Params × Int :=
  setTyped .string (fun d => { d with str := v, dirty := true }) p name

/-- `setParameterValue(std::string, bool)`, Parameters.cpp:365-379. -/
def setBool (p : Params) (name : Text) (v : Bool) : Params × Int :=
  setTyped .bool (fun d => { d with bool := v, str := if v then "true".toList else "false".toList, dirty := true }) p name

/-- The assignments of `setParameterValueByString`, Parameters.cpp:292-313. -/
def withString (cv : Conv) (v : Text) (d : Decl) : Decl :=
  { d with
    str := v, int := if d.type = .integer then cv.strtoi v else d.int,
    dbl := if d.type = .double then cv.strtod v else d.dbl,
    bool := if d.type = .bool then v == "true".toList else d.bool, dirty := true }

/-- `setParameterValueByString`, Parameters.cpp:283-316. -/
def setByString (cv : Conv) (p : Params) (name : Text) (v : Text) : Params × Int :=
  match getParameterEntry p.decls name with
  | none => (p, -1)
  | some _ => ({ p with decls := modifyFirst name (withString cv v) p.decls }, 0)

/-- `getParameterValueInt`, Parameters.cpp:196-208; `none`: returns -1. -/
def getInt (p : Params) (name : Text) : Option Int :=
  (getParameterEntry p.decls name).bind (fun d => if d.type ≠ .integer then none else some d.int)

/-- `getParameterValueDouble`, Parameters.cpp:210-222. -/
def getDouble (p : Params) (name : Text) : Option Rat :=
  (getParameterEntry p.decls name).bind (fun d => if d.type ≠ .double then none else some d.dbl)

/-- `getParameterValueString`, Parameters.cpp:224-236. -/
def getStr (p : Params) (name : Text) : Option Text :=
  (getParameterEntry p.decls name).bind (fun d => if d.type ≠ .string then none else some d.str)

/-- `getParameterValueBool`, Parameters.cpp:238-250. -/
def getBool (p : Params) (name : Text) : Option Bool :=
  (getParameterEntry p.decls name).bind (fun d => if d.type ≠ .bool then none else some d.bool)

/-- `getParameterValueAsString`, Parameters.cpp:252-281. -/
def getAsString (cv : Conv) (p : Params) (name : Text) : Text :=
  match getParameterEntry p.decls name with
  | none => []
  | some d => match d.type with
    | .string => d.str
    | .integer => cv.fmtInt d.int
    | .double => cv.fmtDouble d.dbl
    | .bool => if d.bool then "true".toList else "false".toList

/-- `ScenarioEngine::EraseCleanParams`, ScenarioEngine.cpp:430-442. -/
def eraseClean (p : Params) : Params := { p with decls := p.decls.filter (·.dirty) }

/-! ### The scopes of the scenario reader -/

/-- The elements of a scenario that declare parameters. -/
inductive Node where
  /-- a vehicle, pedestrian, miscellaneous object or controller; `ds`: its declarations, `body`: its trailer, if any -/
  | object (ds : List XDecl) (body : List Node)
  /-- a trailer that refers to a catalog entry with parameter assignments -/
  | trailerRef (assigns : List (Text × Text)) (n : Node)
  /-- a reference to a catalog entry with parameter assignments -/
  | catalog (assigns : List (Text × Text)) (n : Node)
  /-- a maneuver with its declarations and what its events contain -/
  | maneuver (ds : Option (List XDecl)) (body : List Node)
  /-- a story with its declarations and its maneuvers -/
  | story (ds : Option (List XDecl)) (body : List Node)

/-- An optional `ParameterDeclarations` child. -/
def optDeclare (cv : Conv) (p : Params) : Option (List XDecl) → Option Params
  | none => some p
  | some xs => addParameterDeclarations cv p xs

mutual
/-- What reading an element does to the parameters. `object`: parseOSCVehicle, ScenarioReader.cpp:561-562, 867
(pedestrian 919-920, 1015; misc object 1032-1033, 1109; controller 1123-1124, 1181); `trailerRef`: 822-834; `catalog`: 1602-1639, 2128-2151,
5452-5474 with ResolveCatalogReference 1526-1543; `maneuver`: parseOSCManeuver 5219-5230; `story`: parseStoryBoard
5386-5499. -/
def read (cv : Conv) (p : Params) : Node → Option Params
  | .object ds body =>
    ((addParameterDeclarations cv (createRestorePoint p) ds).bind (fun p => readAll cv p body)).bind restore
  | .trailerRef as n => read cv { p with assignments := p.assignments ++ as } n
  | .catalog as n =>
    (read cv { createRestorePoint p with assignments := p.assignments ++ as } n).bind restore
  | .maneuver ds body => (optDeclare cv p ds).bind (fun p => readAll cv p body)
  | .story ds body =>
    ((optDeclare cv (createRestorePoint p) ds).bind (fun p => readAll cv p body)).bind restore

def readAll (cv : Conv) (p : Params) : List Node → Option Params
  | [] => some p
  | n :: r => (read cv p n).bind (fun p => readAll cv p r)
end

/-! ### References inside text -/

/-- The characters that end a parameter name, Parameters.cpp:386. -/
def isEnd (c : Char) : Bool := " ({)}-+*/%^!|&<>=,".toList.contains c

/-- One round of the loop of `ResolveParametersInString`, Parameters.cpp:384-395; `none`: quits; `some none`: no `$`. -/
def resolveRound (look : Text → Option Text) (s : Text) : Option (Option Text) :=
  match s.dropWhile (· != '$') with
  | [] => some none
  | d :: r =>
    match look (d :: r.takeWhile (fun c => !isEnd c)) with
    | none => none
    | some v => some (some (s.takeWhile (· != '$') ++ v ++ r.dropWhile (fun c => !isEnd c)))

/-- `ResolveParametersInString`, Parameters.cpp:381-398, with at most `fuel` rounds. `none`: not finished; `some none`:
quits. -/
def resolve (look : Text → Option Text) : Nat → Text → Option (Option Text)
  | 0, _ => none
  | fuel + 1, s =>
    match resolveRound look s with
    | none => some none
    | some none => some (some s)
    | some (some s') => resolve look fuel s'

end Verif.Params

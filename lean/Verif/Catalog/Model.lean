import Verif.File.Model

/-!
# Catalogs

Model of the search, loading and use of catalog files (`Catalogs.cpp`,
`Catalogs.hpp` and the functions of `ScenarioReader.cpp` that use them).

Simplifications: an XML element is its name, the text of its attribute `name`
and a number that stands for the rest of it.  `ReadAttribute` is a function of
the text of the attribute (see `Verif.Params.readAttribute`); an attribute that
is missing is read as the empty text, as is one that is empty.  The types stored
with the directories and in a catalog are never read and are left out.  A run of
the program that ends with an error or an exception is `none`.
-/

namespace Verif.Catalog

open Verif.File (Text dirNameOf fileNameExtOf fileNameWithoutExtOf findLast isSep locate)

/-- An element of a catalog file: element name, attribute `name`, the rest. -/
structure Elem where
  tag : Text
  name : Text
  body : Nat
deriving DecidableEq, Repr

/-- What a file holds: a catalog (the children of `OpenSCENARIO/Catalog`) or
something that can not be read as one. -/
inductive Content where
  | catalog (es : List Elem)
  | other
deriving DecidableEq, Repr

/-- `CatalogType`, `Catalogs.hpp:25-38`, without the types never given. -/
inductive CatType where
  | undefined | vehicle | pedestrian | miscObject | environment | maneuver | trajectory | route | controller
deriving DecidableEq, Repr

/-- `Entry`, `Catalogs.hpp:40-60`. -/
structure Entry where
  name : Text
  type : CatType
  body : Nat
deriving DecidableEq, Repr

/-- `Catalog`, `Catalogs.hpp:62-102`. -/
structure Cat where
  name : Text
  entries : List Entry
deriving DecidableEq, Repr

/-- `Catalogs`, `Catalogs.hpp:104-114`. -/
structure St where
  dirs : List Text
  loaded : List Cat
deriving DecidableEq, Repr

/-- The surroundings: the files by path, the paths set by the user, the scenario
file and the executable. -/
structure Env where
  files : Text → Option Content
  paths : List Text
  osc : Text
  exe : Text

/-- `Entry::GetTypeByNodeName`, `Catalogs.cpp:18-57`. -/
def typeByName (tag : Text) : CatType :=
  if tag = "Route".toList then .route
  else if tag = "Maneuver".toList then .maneuver
  else if tag = "Vehicle".toList then .vehicle
  else if tag = "Pedestrian".toList then .pedestrian
  else if tag = "MiscObject".toList then .miscObject
  else if tag = "Controller".toList then .controller
  else if tag = "Trajectory".toList then .trajectory
  else if tag = "Environment".toList then .environment
  else .undefined

/-- `LastDirOfFolderPath`, `CommonMini.cpp:1223-1251`. -/
def lastDir (p : Text) : Text :=
  match findLast isSep p with
  | some pos =>
    if pos + 1 ≠ p.length then p.drop (pos + 1)
    else if pos ≠ 0 then
      match findLast isSep p.dropLast with
      | some q => p.dropLast.drop (q + 1)
      | none => []
    else []
  | none => p

/-- The directories to search for one registered directory,
`ScenarioReader.cpp:303-308`. -/
def dirsOf (e : Env) (d : Text) : List Text :=
  [d, dirNameOf e.osc ++ '/' :: d,
    dirNameOf e.exe ++ "/../resources/xosc/Catalogs/".toList ++ lastDir d]

/-- The loop over the elements of a catalog file, `ScenarioReader.cpp:335-343`. -/
def readEntries (rd : Text → Option Text) : List Elem → Option (List Entry)
  | [] => some []
  | x :: xs => do
    let n ← rd x.name
    let r ← readEntries rd xs
    return ⟨n, typeByName x.tag, x.body⟩ :: r

/-- `FindCatalogByName`, `Catalogs.hpp:129-140`. -/
def findCatalog (st : St) (name : Text) : Option Cat := st.loaded.find? (fun c => c.name == name)

/-- `FindEntryByName`, `Catalogs.hpp:84-94`. -/
def findEntry (c : Cat) (name : Text) : Option Entry := c.entries.find? (fun x => x.name == name)

/-- `LoadCatalog`, `ScenarioReader.cpp:286-358`. -/
def load (e : Env) (rd : Text → Option Text) (st : St) (name : Text) : Option (St × Cat) :=
  match findCatalog st name with
  | some c => some (st, c)
  | none =>
    let r := locate (fun t => (e.files t).isSome) e.paths (st.dirs.flatMap (dirsOf e))
      (name ++ ".xosc".toList)
    if r.1 then
      match e.files r.2 with
      | some (.catalog es) => do
        let xs ← readEntries rd es
        let c : Cat := ⟨name, xs⟩
        return ({ st with loaded := st.loaded ++ [c] }, c)
      | _ => none
    else none

/-- `ResolveCatalogReference`, `ScenarioReader.cpp:1546-1566`; the assignments of
parameters (1527-1544) are in `Verif.Params`. -/
def reference (e : Env) (rd : Text → Option Text) (st : St) (catalogName entryName : Text) :
    Option (St × Option Entry) := do
  let cn ← rd catalogName
  let en ← rd entryName
  let (st', c) ← load e rd st cn
  match findEntry c en with
  | none => if en ≠ [] then none else return (st', none)
  | some x => return (st', some x)

/-- A child of `CatalogLocations`: without an element `Directory`, or with one
and its attribute `path`. -/
inductive Location where
  | noDirectory
  | directory (path : Option Text)
deriving DecidableEq, Repr

/-- `ScenarioReader::RegisterCatalogDirectory`, `ScenarioReader.cpp:222-262`, and
`Catalogs::RegisterCatalogDirectory`, `Catalogs.cpp:66-108`. -/
def register (e : Env) (rd : Text → Option Text) (st : St) : Location → Option St
  | .noDirectory => some st
  | .directory none => none
  | .directory (some raw) => do
    let dirname ← rd raw
    if dirname = [] then return st
    else if fileNameExtOf dirname = ".xosc".toList then
      let r ← load e rd { st with dirs := st.dirs ++ [dirNameOf dirname] } (fileNameWithoutExtOf dirname)
      return r.1
    else return { st with dirs := st.dirs ++ [dirname] }

/-- What is done with the catalogs in a scenario: a directory is registered
(`ScenarioReader.cpp:1286-1294`) or a reference is resolved. `rd` is `ReadAttribute`
with the parameters at that time. -/
inductive Op where
  | register (rd : Text → Option Text) (l : Location)
  | reference (rd : Text → Option Text) (catalogName entryName : Text)

/-- One of these. -/
def step (e : Env) (st : St) : Op → Option St
  | .register rd l => register e rd st l
  | .reference rd c n => (reference e rd st c n).map (·.1)

/-- A sequence of these. -/
def run (e : Env) (st : St) : List Op → Option St
  | [] => some st
  | o :: os => do let st' ← step e st o; run e st' os

/-- The object made for a `ScenarioObject` that refers to a catalog. -/
inductive Obj where
  | vehicle (body : Nat) | pedestrian (body : Nat) | miscObject (body : Nat) | randomCar
deriving DecidableEq, Repr

/-- `parseEntities`, `ScenarioReader.cpp:1603-1637,1667-1671`; `none`: the
function returns -1. -/
def objectOf : Option Entry → Option Obj
  | none => some .randomCar
  | some x =>
    match x.type with
    | .vehicle => some (.vehicle x.body)
    | .pedestrian => some (.pedestrian x.body)
    | .miscObject => some (.miscObject x.body)
    | _ => none

/-- The child of an `ObjectController`: a controller or a resolved reference. -/
inductive CtrlNode where
  | inline (body : Nat)
  | ref (x : Option Entry)
deriving DecidableEq, Repr

/-- The variable `ctrl` after the branches, `ScenarioReader.cpp:1681-1704`.  (That
an inline controller can not be made is left out.) -/
def ctrlOf (ctrl : Option Nat) : CtrlNode → Option Nat
  | .inline b => some b
  | .ref none => ctrl
  | .ref (some x) => if x.type = .controller then some x.body else ctrl

/-- The loop over the elements `ObjectController`, `ScenarioReader.cpp:1594,1674-1730`:
the controllers pushed and assigned to the object. -/
def assign (ctrl : Option Nat) : List CtrlNode → List Nat
  | [] => []
  | n :: ns => (ctrlOf ctrl n).toList ++ assign (ctrlOf ctrl n) ns

end Verif.Catalog

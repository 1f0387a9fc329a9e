import Verif.Common.Macros
/-
The cache behind the optimised distance query of the scenario engine.

Modelled: ScenarioEngine.hpp:190-208 (DistanceMeasurement, DistanceEntry, GenerateKey), ScenarioEngine.cpp:1223-1274
(UpdateDistance), 1276-1312 (GetDistance); esminiLib.cpp:2379-2406 hands over its arguments unchanged.

Simplifications: numbers are exact; what `Position::Distance` writes for two objects and a type is given per moment (its return
value is ignored by the code); the unordered map is a function from keys; the type of distance is one of the six of the enumeration.
-/
namespace Verif.Engine

open Verif.Common

/-- Object ids are of type `int`. -/
abbrev Id := BitVec 32

/-- `GenerateKey`, ScenarioEngine.hpp:203-206. -/
def key (a b : Id) : BitVec 64 := (a.signExtend 64 <<< 32) ||| b.setWidth 64

/-- `RelativeDistanceType`, RoadManager.hpp:3804-3813. -/
inductive DType where
  | undefined | lateral | longitudinal | cartesian | euclidian | euclidianAbs
deriving DecidableEq

/-- `DistanceMeasurement`, ScenarioEngine.hpp:191-195. -/
structure Meas where
  dist : Rat
  stamp : Rat
deriving DecidableEq

/-- `DistanceEntry`, ScenarioEngine.hpp:197-201. -/
structure Entry where
  meas : DType → Meas
  next : Rat

/-- Initial values, ScenarioEngine.hpp:193-200. -/
def fresh : Entry := ⟨fun _ => ⟨10000, 0⟩, 0⟩

/-- `object_distance_map_`. -/
abbrev Cache := BitVec 64 → Option Entry

/-- The moment of a query: time, and the state of the objects. -/
structure Moment where
  now : Rat
  active : Id → Bool
  /-- `dirty_.Check(TELEPORT)` -/
  moved : Id → Bool
  /-- what `Distance` gives from the first object to the second -/
  dist : Id → Id → DType → Rat
  /-- squared distance of the positions in the plane -/
  sq : Id → Id → Rat

/-- Set one measurement of an entry. -/
def setMeas (e : Entry) (t : DType) (m : Meas) (next : Rat) : Entry := ⟨fun u => if u = t then m else e.meas u, next⟩

/-- Store an entry. -/
def put (c : Cache) (k : BitVec 64) (e : Entry) : Cache := fun x => if x = k then some e else c x

/-- `try_emplace(key, DistanceEntry{})`, ScenarioEngine.cpp:1230-1235. -/
def emplace (c : Cache) (k : BitVec 64) : Cache :=
  match c k with
  | some _ => c
  | none => put c k fresh

/-- The entry under a key that is present. -/
def entry (c : Cache) (k : BitVec 64) : Entry := (c k).getD fresh

/-- Both entries of a pair are created, ScenarioEngine.cpp:1230-1235. -/
def both (a b : Id) (c : Cache) : Cache := emplace (emplace c (key a b)) (key b a)

/-- The condition for the objects being far apart, ScenarioEngine.cpp:1239-1243. -/
def farOff (m : Moment) (a b : Id) (c : Cache) : Bool :=
  decide (((entry c (key a b)).meas .euclidianAbs).dist > 10000 - small) && decide (m.sq a b > 250000)

/-- The far case, ScenarioEngine.cpp:1245-1254. -/
def storeFar (m : Moment) (a b : Id) (c : Cache) : Cache :=
  put (put c (key a b) (setMeas (entry c (key a b)) .euclidianAbs ⟨m.sq a b, m.now⟩ (m.now + 3))) (key b a)
    (setMeas (entry (put c (key a b) (setMeas (entry c (key a b)) .euclidianAbs ⟨m.sq a b, m.now⟩ (m.now + 3))) (key b a))
      .euclidianAbs ⟨m.sq a b, m.now⟩ (m.now + 3))

/-- A measurement, ScenarioEngine.cpp:1258-1271. -/
def storeNear (m : Moment) (a b : Id) (t : DType) (limit : Rat) (c : Cache) : Cache :=
  put c (key a b) (setMeas (entry c (key a b)) t ⟨m.dist a b t, m.now⟩ (if m.dist a b t > limit then m.now + 3 else m.now))

/-- `ScenarioEngine::UpdateDistance`, ScenarioEngine.cpp:1223-1273. -/
def updateDistance (m : Moment) (a b : Id) (t : DType) (limit : Rat) (c : Cache) : Cache × Int :=
  if farOff m a b (both a b c) then (storeFar m a b (both a b c), -2) else (storeNear m a b t limit (both a b c), 0)

/-- ScenarioEngine.cpp:1293-1295. -/
def needsUpdate (m : Moment) (a b : Id) (c : Cache) : Bool :=
  match c (key a b) with
  | none => true
  | some e => decide (m.now > e.next) || m.moved a || m.moved b

/-- Result of a query: the return value, and the distance and time stamp if they are written. -/
structure Answer where
  code : Int
  meas : Option Meas
deriving DecidableEq

/-- `object_distance_map_.erase`, ScenarioEngine.cpp:1287-1288. -/
def erase (c : Cache) (k : BitVec 64) : Cache := fun x => if x = k then none else c x

/-- The cache and the return value before the answer is read, ScenarioEngine.cpp:1291-1299. -/
def refresh (m : Moment) (a b : Id) (t : DType) (limit : Rat) (c : Cache) : Cache × Int :=
  if needsUpdate m a b c then updateDistance m a b t limit c else (c, -2)

/-- ScenarioEngine.cpp:1301-1311. -/
def read (k : BitVec 64) (t : DType) (r : Cache × Int) : Answer :=
  match r.1 k with
  | none => ⟨-1, none⟩
  | some e => ⟨r.2, some (e.meas t)⟩

/-- `ScenarioEngine::GetDistance`, ScenarioEngine.cpp:1275-1312. -/
def getDistance (m : Moment) (a b : Id) (t : DType) (limit : Rat) (c : Cache) : Cache × Answer :=
  if !m.active a || !m.active b then (erase (erase c (key a b)) (key b a), ⟨-1, none⟩)
  else ((refresh m a b t limit c).1, read (key a b) t (refresh m a b t limit c))

/-- A query with its moment. -/
structure Query where
  at' : Moment
  a : Id
  b : Id
  t : DType
  limit : Rat

/-- The cache after a sequence of queries. -/
def after (qs : List Query) : Cache := qs.foldl (fun c q => (getDistance q.at' q.a q.b q.t q.limit c).1) (fun _ => none)

end Verif.Engine

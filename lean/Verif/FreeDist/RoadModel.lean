import Verif.Common.Macros
/-
Model of the free space distance of two objects, and of an object and a point, along and across the road.
Code: EnvironmentSimulator/Modules/ScenarioEngine/SourceFiles/Entities.cpp:794-894, 896-1041.

Simplifications: numbers are exact. The road coordinates of the corners are inputs: `delta i j` is what
`Position::Delta` gives from corner `i` of the object to corner `j` of the target (to the point), ds and dt, `none` if
it finds no way or a corner cannot be mapped to the road (lines 830-833, 847-855, 972-976, 993-996).
-/
namespace Verif.FreeDist.Road

open Verif.Common

/-- `CoordinateSystem`. -/
inductive CS where
  | entity | lane | road | trajectory
deriving DecidableEq

/-- `SIGN`, CommonMini.hpp:55. -/
def sgn (x : Rat) : Int := if x < 0 then -1 else 1

/-- The update of `minDS` or `minDT`, Entities.cpp:857-865, 1000-1008; `none` before the first corner. -/
def nearer (m : Option Rat) (d : Rat) : Option Rat :=
  match m with
  | none => some d
  | some m => if absR d < absR m then some d else some m

/-- The update of `maxDS` or `maxDT`, Entities.cpp:867-875. -/
def farther (m : Option Rat) (d : Rat) : Option Rat :=
  match m with
  | none => some d
  | some m => if absR d > absR m then some d else some m

/-- The corners in the order of the loops, Entities.cpp:842, 989, 991. -/
def corners : List (Fin 4) := [0, 1, 2, 3]

/-- `minDS` (`minDT`) after the two loops, Entities.cpp:989-1020. -/
def least (d : Fin 4 → Fin 4 → Rat) : Option Rat :=
  corners.foldl (fun m i => corners.foldl (fun m j => nearer m (d i j)) m) none

/-- The signs from one corner to the corners of the target are not the same, Entities.cpp:1028, 1033. -/
def mixed (d : Fin 4 → Rat) : Bool :=
  !(decide (sgn (d 0) = sgn (d 1)) && decide (sgn (d 0) = sgn (d 2)) && decide (sgn (d 0) = sgn (d 3)))

/-- One of the two distances, Entities.cpp:1022-1038. -/
def along (d : Fin 4 → Fin 4 → Rat) : Rat :=
  if corners.any fun i => mixed (d i) then 0 else (least d).getD 0

/-- `Object::FreeSpaceDistanceObjectRoadLane`, Entities.cpp:896-1041: ds and dt, `none` for a return value of -1;
`target` tells whether there is one, `overlap` is the outcome of line 929. -/
def objectDist (target : Bool) (cs : CS) (overlap : Bool) (delta : Fin 4 → Fin 4 → Option (Rat × Rat)) : Option (Rat × Rat) :=
  if !target then none
  else if cs ≠ .lane ∧ cs ≠ .road then none
  else if overlap then some (0, 0)
  else if corners.any fun i => corners.any fun j => (delta i j).isNone then none
  else some (along fun i j => ((delta i j).getD (0, 0)).1, along fun i j => ((delta i j).getD (0, 0)).2)

/-- One of the two distances to a point, Entities.cpp:857-891. -/
def toPoint (d : Fin 4 → Rat) : Rat :=
  if sgn ((corners.foldl (fun m i => nearer m (d i)) none).getD 0)
      ≠ sgn ((corners.foldl (fun m i => farther m (d i)) none).getD 0) then 0
  else (corners.foldl (fun m i => nearer m (d i)) none).getD 0

/-- `Object::FreeSpaceDistancePointRoadLane`, Entities.cpp:794-894: longitudinal and lateral distance, `none` for a
return value of -1. -/
def pointDist (cs : CS) (delta : Fin 4 → Option (Rat × Rat)) : Option (Rat × Rat) :=
  if cs ≠ .lane ∧ cs ≠ .road then none
  else if corners.any fun i => (delta i).isNone then none
  else some (toPoint fun i => ((delta i).getD (0, 0)).1, toPoint fun i => ((delta i).getD (0, 0)).2)

end Verif.FreeDist.Road

import Mathlib.Analysis.SpecialFunctions.Trigonometric.Basic
import Mathlib.Analysis.Real.Sqrt
/-
Traffic around an entity (TrafficSwarmAction): removal of vehicles, number of vehicles to add, places and lanes of the new vehicles.
Code: EnvironmentSimulator/Modules/ScenarioEngine/OSCTypeDefs/OSCGlobalAction.cpp:39-44, 431-463, 555-885, OSCUtils.hpp:21-37,
OSCSwarmTrafficGeometry.cpp:40-46, CommonMini.hpp:1412-1420.

Simplifications
* Real numbers, exact functions. The random generator is an arbitrary sequence of natural numbers: a draw from 0 to n is the remainder of the next number by n + 1.
  `std::shuffle` is an arbitrary permutation.
* The places found on the ellipse are arbitrary (see Verif.Swarm.Ellipse for the search). A place carries the driving lanes of its road there, in the order of their index.
  `Position::Delta` and the position of a lane are arbitrary functions.
* Controllers, the name and the speed of a new vehicle and the removal of its trailers are left out.
* The counter of a vehicle and the number of vehicles are natural numbers without an upper bound.
-/
namespace Verif.Swarm
open Real

/-- A point of the plane. -/
structure Pose where
  x : ℝ
  y : ℝ

/-- `PointDistance2D`, CommonMini.cpp:621-624. -/
noncomputable def dist2 (p q : Pose) : ℝ := √((q.x - p.x) ^ 2 + (q.y - p.y) ^ 2)

/-- `ellipse` (OSCSwarmTrafficGeometry.cpp:40-46): centre `h`, `k`, direction `A`, half axes `a` and `b`, point `x`, `y`. -/
noncomputable def ellipse (h k A a b x y : ℝ) : ℝ :=
  (((x - h) * cos A + (y - k) * sin A) / a) ^ 2 + (((x - h) * sin A - (y - k) * cos A) / b) ^ 2 - 1

/-- The central entity and the axes of the outer ellipse and of the ellipse in the middle (OSCGlobalAction.cpp:379-380, 794). -/
structure Zone where
  centre : Pose
  h : ℝ
  a : ℝ
  b : ℝ
  midA : ℝ
  midB : ℝ

/-- A vehicle of the swarm as found among the entities: position, off the road or at its end (OSCGlobalAction.cpp:800). -/
structure Veh where
  pos : Pose
  off : Bool

/-- An entry of `spawnedV` (OSCGlobalAction.hpp:375-382): identity of the vehicle, number of checks in a row outside of the middle. -/
structure Entry where
  id : Int
  out : Nat
deriving DecidableEq

open Classical in
/-- The decision about one vehicle (OSCGlobalAction.cpp:800-826): none if it is deleted, else its new counter. -/
noncomputable def judge (z : Zone) (v : Veh) (out : Nat) : Option Nat :=
  if v.off then none
  else
    let e0 := ellipse z.centre.x z.centre.y z.h z.a z.b v.pos.x v.pos.y
    let e1 := ellipse z.centre.x z.centre.y z.h z.midA z.midB v.pos.x v.pos.y
    if e0 > 1 / 1000 then none
    else if e1 > 1 / 1000 ∨ (0 ≤ e1 ∧ e1 ≤ 1 / 1000) then if out + 1 > 5 then none else some (out + 1)
    else some 0

/-- `despawn` (OSCGlobalAction.cpp:786-885): the remaining entries and the number of deleted vehicles. `w` is `GetObjectById`; none is the access through a null pointer
for a vehicle that is not among the entities any more. -/
noncomputable def despawn (z : Zone) (w : Int → Option Veh) : List Entry → Option (List Entry × Nat)
  | [] => some ([], 0)
  | s :: t =>
    match w s.id with
    | none => none
    | some v =>
      match judge z v s.out with
      | none => (despawn z w t).map fun r => (r.1, r.2 + 1)
      | some k => (despawn z w t).map fun r => (⟨s.id, k⟩ :: r.1, r.2)

/-! ### Places and lanes -/

/-- `Road::RoadRule`, RoadManager.hpp:2917-2921. -/
inductive Rule
  | rightHand | leftHand
deriving DecidableEq

/-- A place on a road where the ellipse crosses it. `lanes` are the numbers of the driving lanes (Road::GetDrivingLaneByIdx, RoadManager.cpp:3059-3077). -/
structure Site where
  pos : Pose
  road : Nat
  s : ℝ
  lanes : List Int
  junction : Bool
  rule : Rule

/-- `GetNumberBetween` (CommonMini.hpp:1412-1420). -/
def between (lo hi : Int) (draw : Nat) : Int := if hi < lo then lo else lo + ((draw % (hi - lo + 1).toNat : Nat) : Int)

/-- The second loop of `sample` (OSCUtils.hpp:31-36). -/
def reservoir {α : Type} (n : Nat) (g : Nat → Nat) : Nat → List α → List α → List α
  | _, [], out => out
  | i, x :: t, out => reservoir n g (i + 1) t (if g i % (n + 1) < n then out.set (g i % (n + 1)) x else out)

/-- `sample` (OSCUtils.hpp:21-37) for at least `n` elements: the first `n` cells of the result. -/
def sample {α : Type} (n : Nat) (g : Nat → Nat) (xs : List α) : List α := reservoir n g 0 (xs.drop n) (xs.take n)

/-- The second branch of `sampleRoads` (OSCGlobalAction.cpp:605-639): the places with the number of lanes to use. -/
def spread (g : Nat → Nat) : Nat → Nat → List Site → List (Site × Nat)
  | _, _, [] => []
  | i, left, p :: t =>
    if p.lanes.length = 0 then spread g i (left + 1) t
    else
      let r := g i % (min left p.lanes.length + 1)
      let n := if left > 0 then (if r = 0 then 0 else r - 1) else 0
      (p, 1 + n) :: spread g (i + 1) (left - n) t

/-- `sampleRoads` (OSCGlobalAction.cpp:555-641). `shuffled` is the result of `std::shuffle`. -/
def sampleRoads (minN maxN : Int) (draw : Nat) (g : Nat → Nat) (sols shuffled : List Site) : List (Site × Nat) :=
  if maxN < minN then []
  else
    let n := (between minN (maxN - 1) draw).toNat
    if n = 0 then []
    else if n ≤ sols.length then
      ((sample n g shuffled).filter fun p => !p.junction && p.lanes.length != 0).map fun p => (p, 1)
    else spread g 0 (n - sols.length) sols

/-- A vehicle of the swarm: identity, counter, position when the new vehicles are added. -/
structure Placed where
  id : Int
  out : Nat
  pos : Pose

/-- A new vehicle: identity, place, lane, position and heading relative to the road. -/
structure New where
  id : Int
  site : Site
  lane : Int
  pos : Pose
  h : ℝ

/-- What `spawn` needs from the rest of the program: `Position::Delta` from a place in a lane to a vehicle (difference in lanes and along the road, none without a path),
`SetLanePos`, the next identity and whether the vehicle pool returns a vehicle for the new entity. -/
structure Env where
  delta : Site → Int → Placed → Option (Int × ℝ)
  place : Nat → Int → ℝ → Pose
  fresh : List Placed → Int
  pool : List Placed → Bool

open Classical in
/-- `ensureDistance` (OSCGlobalAction.cpp:759-784). -/
noncomputable def ensureDistance (e : Env) (p : Site) (lane : Int) (dist : ℝ) (vs : List Placed) : Bool :=
  vs.all fun v =>
    if dist2 p.pos v.pos < 20 then false
    else match e.delta p lane v with
      | none => true
      | some (dl, ds) => if dl = 0 ∧ |ds| < dist then false else true

/-- The heading of a new vehicle (OSCGlobalAction.cpp:714-727; the last branch is not reached, the rule has two values). -/
noncomputable def headingFor (r : Rule) (lane : Int) : ℝ :=
  match r with
  | .rightHand => if lane < 0 then 0 else π
  | .leftHand => if lane > 0 then 0 else π

/-- The loop over the lanes of a place (OSCGlobalAction.cpp:665-755); `lanes` are the indices of driving lanes. -/
noncomputable def spawnLanes (e : Env) (dist : ℝ) (p : Site) : List Nat → List Placed → List Placed × List New
  | [], vs => (vs, [])
  | i :: t, vs =>
    match p.lanes[i]? with
    | none => spawnLanes e dist p t vs
    | some lane =>
      if ensureDistance e p lane dist vs = false then spawnLanes e dist p t vs
      else if e.pool vs = false then spawnLanes e dist p t vs
      else
        let v : New := ⟨e.fresh vs, p, lane, e.place p.road lane p.s, headingFor p.rule lane⟩
        let r := spawnLanes e dist p t (vs ++ [⟨v.id, 0, v.pos⟩])
        (r.1, v :: r.2)

/-- The loop over the places (OSCGlobalAction.cpp:655-756). `MAX_LANES` is 32. The numbers for the choice of lanes are given per place. -/
noncomputable def spawnSites (e : Env) (dist : ℝ) (g : Nat → Nat → Nat) : Nat → List (Site × Nat) → List Placed → List Placed × List New
  | _, [], vs => (vs, [])
  | k, (p, n) :: t, vs =>
    let lanes := sample (min 32 n) (g k) (List.range (min 32 p.lanes.length))
    let r := spawnLanes e dist p lanes vs
    let r' := spawnSites e dist g (k + 1) t r.1
    (r'.1, r.2 ++ r'.2)

/-- `maxCars` (OSCGlobalAction.cpp:645-646) for `number` vehicles asked for and `size` vehicles present: the difference of unsigned numbers wraps round. -/
def maxCars (number size : Nat) : Nat := min 1000 (if size ≤ number then number - size else 2 ^ 64 + number - size)

/-- The numbers a step draws. -/
structure Draws where
  draw : Nat
  g : Nat → Nat
  lanes : Nat → Nat → Nat
  shuffled : List Site

/-- `spawn` (OSCGlobalAction.cpp:643-757). -/
noncomputable def spawn (e : Env) (number : Nat) (velocity semiMajor : ℝ) (d : Draws) (sols : List Site) (replace : Nat) (vs : List Placed) :
    List Placed × List New :=
  if maxCars number vs.length = 0 then (vs, [])
  else spawnSites e (min (max 40 (velocity * 2)) (7 / 10 * semiMajor)) d.lanes 0
    (sampleRoads replace (maxCars number vs.length) d.draw d.g sols d.shuffled) vs

/-- The entities of the remaining entries with their positions, none if one is missing. -/
def located (w : Int → Option Veh) : List Entry → Option (List Placed)
  | [] => some []
  | s :: t => match w s.id, located w t with
    | some v, some r => some (⟨s.id, s.out, v.pos⟩ :: r)
    | _, _ => none

/-- What the rest of the program supplies for one update. -/
structure World where
  zone : Zone
  find : Int → Option Veh
  env : Env
  sols : List Site
  draws : Draws

/-- One update (OSCGlobalAction.cpp:460, 786-885, 643-757): `spawn(sols, despawn(simTime), simTime)`. -/
noncomputable def update (number : Nat) (velocity semiMajor : ℝ) (w : World) (es : List Entry) : Option (List Entry × List New) :=
  match despawn w.zone w.find es with
  | none => none
  | some (rest, n) =>
    match located w.find rest with
    | none => none
    | some vs =>
      let r := spawn w.env number velocity semiMajor w.draws w.sols n vs
      some (r.1.map (fun v => ⟨v.id, v.out⟩), r.2)

open Classical in
/-- `Step` (OSCGlobalAction.cpp:431-463): entries and time of the last update; an update takes place if more than a tenth of a second has passed. -/
noncomputable def step (number : Nat) (velocity semiMajor : ℝ) (t : ℝ) (w : World) (q : List Entry × ℝ) : Option (List Entry × ℝ) :=
  if q.2 < 0 ∨ |t - q.2| > 1 / 10 then (update number velocity semiMajor w q.1).map fun r => (r.1, t) else some q

/-- Several steps from `Start` (OSCGlobalAction.cpp:369-429 sets `lastTime` to -1; a new action has no vehicles). -/
noncomputable def run (number : Nat) (velocity semiMajor : ℝ) : List (ℝ × World) → Option (List Entry × ℝ)
  | [] => some ([], -1)
  | x :: before => (run number velocity semiMajor before).bind (step number velocity semiMajor x.1 x.2)

end Verif.Swarm

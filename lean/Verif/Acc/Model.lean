import Mathlib.Analysis.SpecialFunctions.Trigonometric.Basic
import Verif.Geom.AngleModel
/-
Model of the adaptive cruise controller.
Code: EnvironmentSimulator/Modules/Controllers/ControllerACC.cpp:32-268.

Simplifications
* `double` is the type of real numbers.
* The road distance (`Position::Delta`) and the free space distance (`Object::FreeSpaceDistance`) to other entities are inputs. The road
  distance is a function of the look ahead distance, since the search is limited by it.
* Sensor visualisation and the alignment of the heading are left out. Moving the vehicle in override mode is `currentSpeed * timeStep`.
-/
namespace Verif.Acc

/-- `PositionDiff`: the parts in use. -/
structure Diff where
  ds : ℝ
  dt : ℝ
  dLane : ℤ

/-- Another entity, as seen from the controlled one. `path` is the result of `Position::Delta` for a look ahead distance, `freeX` and
`freeY` are the results of `FreeSpaceDistance`. -/
structure Other where
  speed : ℝ
  heading : ℝ
  length : ℝ
  center : ℝ
  path : ℝ → Option Diff
  freeX : ℝ
  freeY : ℝ

/-- The controlled entity and the settings. -/
structure Config where
  heading : ℝ
  length : ℝ
  center : ℝ
  maxAcc : ℝ
  maxDec : ℝ
  timeGap : ℝ
  lateralDist : ℝ
  virt : Bool
  additive : Bool
  /-- the set speed given as a property -/
  given : Option ℝ

/-- The state of the controller, and the speed of the entity. -/
structure State where
  current : ℝ
  set : ℝ
  object : ℝ
  acc : ℝ

/-- `LARGE_NUMBER`, CommonMini.hpp:53. -/
def large : ℝ := 10000000000

/-- `CLAMP`, CommonMini.hpp:62. -/
noncomputable def clamp (x lo hi : ℝ) : ℝ := min hi (max lo x)

/-- The set speed after construction, ControllerACC.cpp:34-37, 50-54. -/
noncomputable def initialSet (c : Config) : ℝ := c.given.getD 0

/-- `Activate`, ControllerACC.cpp:246-250. -/
noncomputable def activate (c : Config) (s : State) : State :=
  { s with current := s.object, set := if c.additive || c.given.isNone then s.object else s.set }

/-- Speed set from somewhere else, ControllerACC.cpp:92-102. -/
noncomputable def observe (c : Config) (s : State) : State :=
  if c.virt then { s with current := s.object }
  else if |s.object - s.current| > 1 / 1000 then { s with set := s.object }
  else s

/-- `lookaheadDist`, ControllerACC.cpp:106. -/
noncomputable def lookahead (c : Config) (current : ℝ) : ℝ := max 50 (2 * 3 - current ^ 2 / -c.maxDec)

/-- `adjustedGapLength`, ControllerACC.cpp:123-134. -/
noncomputable def gapTo (c : Config) (o : Other) (ds : ℝ) : ℝ :=
  if Geom.absAngleDiff Real.pi c.heading o.heading < Real.pi / 2 then ds - ((c.length / 2 + c.center) + (o.length / 2 - o.center))
  else ds - ((c.length / 2 + c.center) + (o.length / 2 + o.center))

/-- The condition of ControllerACC.cpp:137 without the comparison of gaps. -/
def InLane (c : Config) (o : Other) (d : Diff) : Prop := d.dLane = 0 ∧ gapTo c o d.ds > 0 ∧ |d.dt| < c.lateralDist

/-- The condition of ControllerACC.cpp:151-152. -/
def ReallyClose (current : ℝ) (o : Other) : Prop :=
  o.freeX > 0 ∧ o.freeX < 1 + o.length + 1 / 2 * max 0 (current - o.speed) ∧ o.freeY < 1 / 5 ∧ o.freeY > -(1 / 2)

/-- `minGapLength` and `minObjIndex`. -/
structure Lead where
  gap : ℝ
  idx : Option Nat

open Classical in
/-- The search in lane, ControllerACC.cpp:117-142. -/
noncomputable def laneCheck (c : Config) (look : ℝ) (i : Nat) (o : Other) (l : Lead) : Lead :=
  match o.path look with
  | none => l
  | some d => if InLane c o d ∧ gapTo c o d.ds < l.gap then ⟨gapTo c o d.ds, some i⟩ else l

open Classical in
/-- Entities really close in front, ControllerACC.cpp:145-159. -/
noncomputable def closeCheck (current : ℝ) (i : Nat) (o : Other) (l : Lead) : Lead :=
  if l.idx ≠ some i ∧ ReallyClose current o then ⟨o.freeX, some i⟩ else l

/-- The loop over the entities from index `i` on, ControllerACC.cpp:107-160; `none` is the controlled entity itself or a missing one. -/
noncomputable def search (c : Config) (current : ℝ) : Nat → List (Option Other) → Lead → Lead
  | _, [], l => l
  | i, none :: os, l => search c current (i + 1) os l
  | i, some o :: os, l => search c current (i + 1) os (closeCheck current i o (laneCheck c (lookahead c current) i o l))

/-- `followDist`, ControllerACC.cpp:172-173. -/
noncomputable def followDist (c : Config) (current lead : ℝ) : ℝ := 3 + c.timeGap * |max current lead|

/-- `distFactor`, ControllerACC.cpp:174-175. -/
noncomputable def distFactor (c : Config) (current lead gap : ℝ) : ℝ :=
  min 1 ((gap - followDist c current lead) / followDist c current lead)

/-- The acceleration with a lead vehicle, ControllerACC.cpp:177-181. -/
noncomputable def followAcc (c : Config) (s : State) (lead gap : ℝ) : ℝ :=
  clamp (5 / 2 * distFactor c s.current lead gap - distFactor c s.current lead gap * (s.current - s.set) -
    (1 - distFactor c s.current lead gap) * (s.current - min s.set lead)) (-c.maxDec) c.maxAcc

/-- With a lead vehicle, ControllerACC.cpp:165-187. -/
noncomputable def follow (c : Config) (s : State) (lead gap dt : ℝ) : State :=
  if gap < 1 then { s with current := 0, acc := 0 }
  else { s with acc := followAcc c s lead gap, current := min (max 0 (s.current + followAcc c s lead gap * dt)) s.set }

/-- The acceleration without a lead vehicle, ControllerACC.cpp:196-197. -/
noncomputable def freeAcc (c : Config) (s : State) : ℝ :=
  clamp ((s.set - s.current) * (7 / 10) * c.maxAcc) (-c.maxDec) (7 / 10 * c.maxAcc)

/-- Without a lead vehicle, ControllerACC.cpp:196-208. -/
noncomputable def free (c : Config) (s : State) (dt : ℝ) : State :=
  if |s.current + freeAcc c s * dt - s.set| > |s.current - s.set| then { s with acc := freeAcc c s, current := s.set }
  else { s with acc := freeAcc c s, current := s.current + freeAcc c s * dt }

/-- The result, ControllerACC.cpp:218-227. -/
noncomputable def report (c : Config) (s : State) : State := if c.virt then s else { s with object := s.current }

/-- The speed of the entity with an index; a missing one cannot be the lead. -/
def speedOf (os : List (Option Other)) (i : Nat) : ℝ := ((os[i]?.join).map Other.speed).getD 0

/-- The reaction to the lead found, ControllerACC.cpp:162-209. -/
noncomputable def react (c : Config) (s : State) (os : List (Option Other)) (dt : ℝ) (l : Lead) : State :=
  match l.idx with
  | some i => follow c s (speedOf os i) l.gap dt
  | none => free c s dt

/-- `Step`, ControllerACC.cpp:83-228. -/
noncomputable def step (c : Config) (s : State) (os : List (Option Other)) (dt : ℝ) : State :=
  report c (react c (observe c s) os dt (search c (observe c s).current 0 os ⟨large, none⟩))

end Verif.Acc

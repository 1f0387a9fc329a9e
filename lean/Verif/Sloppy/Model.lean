import Mathlib.Analysis.SpecialFunctions.Trigonometric.Basic
/-
The sloppy driver controller.
Code: EnvironmentSimulator/Modules/Controllers/ControllerSloppyDriver.cpp:59-201, timers: EnvironmentSimulator/Modules/CommonMini/CommonMini.hpp:1239-1288.

Simplifications
* Real numbers. Random numbers are inputs, between the limits given to the generator.
* Movement along the road and sideways is given as a distance; the position itself is not modelled. The heading of the entity is its angle to the road plus
  the angle of the road.
-/
namespace Verif.Sloppy
open Real

/-- `SE_SimulationTimer` (CommonMini.hpp:1239-1252). -/
structure Timer where
  start : ℝ
  duration : ℝ

/-- `Elapsed` (CommonMini.hpp:1276-1279). -/
def Timer.elapsed (t : Timer) (now : ℝ) : ℝ := now - t.start

open Classical in
/-- `Expired` (CommonMini.hpp:1280-1283). -/
noncomputable def Timer.expired (t : Timer) (now : ℝ) : Bool := decide (now - t.start > t.duration - 1 / 1000000)

/-- The members for the speed (ControllerSloppyDriver.hpp:83-91). -/
structure Long where
  time : ℝ
  timer : Timer
  ref : ℝ
  init : ℝ
  cur : ℝ
  factor : ℝ

/-- `Activate` (ControllerSloppyDriver.cpp:174-182): `time_` goes on. -/
noncomputable def activateLong (time speed : ℝ) : Long := ⟨time, ⟨0, 3⟩, speed, speed, speed, 1⟩

/-- First part of `Step` (ControllerSloppyDriver.cpp:66-75). -/
noncomputable def notice (dt speed : ℝ) (s : Long) : Long :=
  { s with time := s.time + dt, ref := if |speed - s.cur| > 1 / 1000 then speed else s.ref, cur := speed }

/-- Restart of the timer (ControllerSloppyDriver.cpp:80-89); `r1`, `r2` are the random numbers. -/
noncomputable def restart (sloppiness r1 r2 : ℝ) (s : Long) : Long :=
  if s.timer.expired s.time then { s with timer := ⟨s.time, 3 * r1⟩, init := s.ref * s.factor, factor := 1 + sloppiness * r2 } else s

/-- The speed (ControllerSloppyDriver.cpp:91-95). -/
noncomputable def target (s : Long) : ℝ :=
  let w := s.timer.elapsed s.time / s.timer.duration
  max (s.init * (1 - w) + s.factor * s.ref * w) 0

/-- One step along the road in override mode (ControllerSloppyDriver.cpp:59-118): the state, the new speed of the entity and the distance it is moved. -/
noncomputable def longStep (sloppiness r1 r2 dt speed : ℝ) (s : Long) : Long × ℝ × ℝ :=
  let s := restart sloppiness r1 r2 (notice dt speed s)
  let v := target s
  ({ s with cur := v }, v, if |v| > 1 / 1000000 then v * dt else 0)

/-- Input of a step: two random numbers and the time step. -/
structure Input where
  r1 : ℝ
  r2 : ℝ
  dt : ℝ

/-- Steps in which nobody else sets the speed; the speeds and the total distance. -/
noncomputable def longRun (sloppiness : ℝ) : Long → ℝ → List Input → List ℝ × ℝ
  | _, _, [] => ([], 0)
  | s, v, i :: l =>
    let r := longStep sloppiness i.r1 i.r2 i.dt v s
    let rest := longRun sloppiness r.1 r.2.1 l
    (r.2.1 :: rest.1, r.2.2 + rest.2)

/-! ### Sideways -/

/-- The members for the movement sideways, and the angle of the entity to the road, kept by the position between 0 and a full turn. -/
structure Lat where
  time : ℝ
  timer : Timer
  fuzz0 : ℝ
  fuzz : ℝ
  t : ℝ
  h : ℝ
  hRelative : ℝ

/-- `Activate` (ControllerSloppyDriver.cpp:184-190). -/
noncomputable def activateLat (time hRelative : ℝ) : Lat := ⟨time, ⟨0, 3 / 2⟩, 0, 0, 0, hRelative, hRelative⟩

/-- Restart of the timer (ControllerSloppyDriver.cpp:121-130). -/
noncomputable def restartLat (sloppiness r1 r2 : ℝ) (s : Lat) : Lat :=
  if s.timer.expired s.time then
    { s with fuzz0 := s.fuzz, fuzz := 5 * sloppiness * min sloppiness 1 * r1, timer := ⟨s.time, 3 / 2 * r2⟩ }
  else s

/-- The offset aimed at (ControllerSloppyDriver.cpp:143). -/
noncomputable def fuzzNow (s : Lat) : ℝ := s.fuzz0 + (s.fuzz - s.fuzz0) * s.timer.elapsed s.time / s.timer.duration

/-- Change of heading (ControllerSloppyDriver.cpp:131-149). -/
noncomputable def turn (override : Bool) (dt speed : ℝ) (s : Lat) : ℝ :=
  let e := if override then s.hRelative else s.h
  let e := if e > π then e - 2 * π else e
  (-(1 / 50) * (s.t + fuzzNow s) + -(1 / 20) * e) * dt * speed

/-- One step sideways (ControllerSloppyDriver.cpp:119-170) on a road with direction `road`: the state and the distance moved to the left. In override mode
the heading is set by `SetHeading`, to a heading in the world (RoadManager.cpp:10949-10956). -/
noncomputable def latStep (override : Bool) (sloppiness r1 r2 dt speed road : ℝ) (s : Lat) : Lat × ℝ :=
  let s := restartLat sloppiness r1 r2 { s with time := s.time + dt }
  let dh := turn override dt speed s
  let d := speed * dt * sin (s.h + dh)
  if speed > 1 / 1000000 then
    ({ s with t := s.t + d, h := s.h + dh, hRelative := if override then s.h + dh - road else s.hRelative + dh }, d)
  else (s, 0)

end Verif.Sloppy

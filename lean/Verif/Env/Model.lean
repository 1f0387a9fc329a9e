import Mathlib.Analysis.SpecialFunctions.Trigonometric.Basic
/-
The environment: environment actions, what is reported of it, and what is recorded.
Code: EnvironmentSimulator/Modules/ScenarioEngine/OSCTypeDefs/OSCEnvironment.cpp, OSCGlobalAction.cpp:48-52,
EnvironmentSimulator/Modules/ScenarioEngine/SourceFiles/OSIReporter.cpp:3680-3960, PacketHandler.cpp:62-76, 441-475,
EnvironmentSimulator/Modules/CommonMini/CommonMini.cpp:947-978, 1009-1029.

Simplifications
* Real numbers. The bounding box of fog, wetness and properties of the road are left out; nothing looks at them.
* Reading of numbers from a stream: white space, sign and digits; a number out of the range of `int` makes the stream fail.
* Time stamps are whole seconds, as the code uses them; the conversion to unsigned is left out (time does not run backwards).
-/
namespace Verif.Env
open Real

/-- `Sun` (OSCEnvironment.hpp:88-94). -/
structure Sun where
  azimuth : ℝ
  elevation : ℝ
  intensity : Option ℝ

/-- `Wind` (OSCEnvironment.hpp:120-124). -/
structure Wind where
  direction : ℝ
  speed : ℝ

/-- `Precipitation` (OSCEnvironment.hpp:106-110); the type is a number. -/
structure Precipitation where
  intensity : Option ℝ
  type : Nat

/-- `TimeOfDay` (OSCEnvironment.hpp:134-138). -/
structure TimeOfDay where
  animation : Bool
  datetime : List Char

/-- `OSCEnvironment` (OSCEnvironment.hpp:222-232): everything is optional. `fog`: visual range, `road`: friction factor. -/
structure Env where
  time : Option TimeOfDay := none
  pressure : Option ℝ := none
  temperature : Option ℝ := none
  cloud : Option (List Char) := none
  sun : Option Sun := none
  fog : Option ℝ := none
  precipitation : Option Precipitation := none
  wind : Option Wind := none
  road : Option ℝ := none

/-- `CLAMP` (CommonMini.hpp:62). -/
noncomputable def clamp (x lo hi : ℝ) : ℝ := min hi (max lo x)

/-- `SetAtmosphericPressure` (OSCEnvironment.cpp:17-25). -/
noncomputable def setPressure (x : ℝ) (e : Env) : Env := { e with pressure := some (clamp x 80000 120000) }

/-- `SetTemperature` (OSCEnvironment.cpp:37-45). -/
noncomputable def setTemperature (x : ℝ) (e : Env) : Env := { e with temperature := some (clamp x 170 340) }

/-- `SetWind` (OSCEnvironment.cpp:160-171). -/
noncomputable def setWind (w : Wind) (e : Env) : Env := { e with wind := some ⟨clamp w.direction 0 (2 * π), w.speed⟩ }

/-- `SetSun` (OSCEnvironment.cpp:214-230). -/
noncomputable def setSun (s : Sun) (e : Env) : Env :=
  { e with sun := some ⟨clamp s.azimuth 0 (2 * π), clamp s.elevation (-π) π, s.intensity⟩ }

/-- `UpdateEnvironment` (OSCEnvironment.cpp:311-350), one `if` after another. -/
noncomputable def update (e new : Env) : Env :=
  let e := match new.pressure with | some x => setPressure x e | none => e
  let e := match new.temperature with | some x => setTemperature x e | none => e
  let e := match new.cloud with | some x => { e with cloud := some x } | none => e
  let e := match new.fog with | some x => { e with fog := some x } | none => e
  let e := match new.wind with | some x => setWind x e | none => e
  let e := match new.precipitation with | some x => { e with precipitation := some x } | none => e
  let e := match new.sun with | some x => setSun x e | none => e
  let e := match new.road with | some x => { e with road := some x } | none => e
  match new.time with | some x => { e with time := some x } | none => e

/-- Environment actions, one after another (`EnvironmentAction::Start`, OSCGlobalAction.cpp:48-52). -/
noncomputable def run (e : Env) (actions : List Env) : Env := actions.foldl update e

/-! ### Factors -/

/-- `GetFractionalCloudStateFactor` on a text (OSCEnvironment.cpp:90-121). -/
noncomputable def cloudFactor (e : Env) : ℝ :=
  match e.cloud with
  | none => 0
  | some s =>
    if s = "zeroOktas".toList then 0
    else if s = "oneOktas".toList then 0.125
    else if s = "twoOktas".toList then 0.25
    else if s = "threeOktas".toList then 0.375
    else if s = "fourOktas".toList then 0.5
    else if s = "fiveOktas".toList then 0.625
    else if s = "sixOktas".toList then 0.75
    else if s = "sevenOktas".toList then 0.875
    else if s = "eightOktas".toList then 0.95
    else if s = "nineOktas".toList then 1
    else 0

/-- `GetFogVisibilityRangeFactor` (OSCEnvironment.cpp:138-148). -/
noncomputable def fogFactor (e : Env) : ℝ :=
  match e.fog with
  | some x => 1 / (x + 1)
  | none => 0

/-- `GetSecondsToFactor` (CommonMini.cpp:1009-1029). -/
noncomputable def dayFactor (seconds : ℝ) : ℝ := 0.5 * (cos (seconds / 86400 * 2 * π - 12 * 3600 / 86400 * 2 * π) + 1)

/-! ### Date and time -/

/-- A stream: the rest of the text, or failed. -/
abbrev Stream := Option (List Char)

/-- `stream >> int` for a non-negative number: the value and the stream afterwards. -/
def readInt : Stream → Nat × Stream
  | none => (0, none)
  | some s =>
    let s := s.dropWhile Char.isWhitespace
    let d := s.takeWhile Char.isDigit
    let v := d.foldl (fun a c => 10 * a + (c.toNat - 48)) 0
    if d.isEmpty then (0, none) else if v < 2147483648 then (v, some (s.dropWhile Char.isDigit)) else (2147483647, none)

/-- `if (ss.peek() == c) ss.ignore();` -/
def skip (c : Char) : Stream → Stream
  | some (x :: s) => if x = c then some s else some (x :: s)
  | s => s

/-- `GetSecondsSinceMidnight` (CommonMini.cpp:947-978). -/
def secondsSinceMidnight (s : List Char) : Nat :=
  let y := readInt (some s)
  let mo := readInt (skip '-' y.2)
  let d := readInt (skip '-' mo.2)
  let h := readInt (skip 'T' d.2)
  let mi := readInt (skip ':' h.2)
  let se := readInt (skip ':' mi.2)
  h.1 * 3600 + mi.1 * 60 + se.1

/-- `GetSunIntensity` (OSCEnvironment.cpp:247-256). -/
noncomputable def sunIntensity (i : ℝ) : ℝ := if i < 0 then 0 else i

/-- `GetSunIntensityFactor` (OSCEnvironment.cpp:258-274). -/
noncomputable def sunFactor (e : Env) : ℝ :=
  match e.sun.bind (·.intensity) with
  | some i => (clamp (sunIntensity i) 0 100000 - 0) / (100000 - 0)
  | none =>
    match e.time with
    | some t => dayFactor (secondsSinceMidnight t.datetime)
    | none => 1

/-! ### Classes of the OSI report, numbered in the order of the enumeration of the report: 0 is "other" -/

/-- `UpdateEnvironmentFog` (OSIReporter.cpp:3878-3916): 1 dense to 8 excellent visibility. -/
noncomputable def fogClass (x : ℝ) : Nat :=
  if x > 40000 then 8 else if x > 10000 then 7 else if x > 4000 then 6 else if x > 2000 then 5 else if x > 1000 then 4 else if x > 200 then 3
  else if x > 50 then 2 else if x ≥ 0 then 1 else 0

/-- `UpdateEnvironmentPrecipitation` (OSIReporter.cpp:3918-3960): 1 none to 7 extreme. -/
noncomputable def rainClass (x : ℝ) : Nat :=
  if x > 149 then 7 else if x > 34 then 6 else if x > 81 / 10 then 5 else if x > 19 / 10 then 4 else if x > 1 / 2 then 3 else if x > 1 / 10 then 2
  else if x ≥ 0 then 1 else 0

/-- Ambient illumination, `UpdateEnvironmentSun` (OSIReporter.cpp:3793-3847): levels 1 to 9. -/
noncomputable def lightClass (x : ℝ) : Nat :=
  if x > 10000 then 9 else if x > 1000 then 8 else if x > 400 then 7 else if x > 20 then 6 else if x > 10 then 5 else if x > 3 then 4
  else if x > 1 then 3 else if x > 1 / 100 then 2 else if x > 0 then 1 else 0

/-! ### Time of day of the OSI report -/

/-- `UpdateEnvironmentTimeOfDay` (OSIReporter.cpp:3850-3876) with `environment_timestamp_offset_`; `base` is the time of the action, `stamp` the whole
seconds of the time stamp: the seconds since midnight reported, and the offset afterwards. -/
def reportTime (animation : Bool) (base stamp : Nat) (offset : Option Nat) : Int × Option Nat :=
  if animation = false then (base, offset)
  else
    let offset := if offset.isNone ∧ 0 < stamp then some stamp else offset
    ((base : Int) + ((stamp : Int) - (offset.getD 0 : Nat)), offset)

/-- Reports at the time stamps of a list, the environment having the same time of day. -/
def reportTimes (animation : Bool) (base : Nat) : List Nat → Option Nat → List Int × Option Nat
  | [], o => ([], o)
  | t :: l, o => ((reportTime animation base t o).1 :: (reportTimes animation base l (reportTime animation base t o).2).1,
      (reportTimes animation base l (reportTime animation base t o).2).2)

/-! ### Recording -/

/-- `Dat::Environment` (PacketHandler.hpp:106-113) with its defaults; `LARGE_NUMBER` is 1e10. -/
structure Rec where
  visibility : ℝ := 10000000000
  cloud : ℝ := 0
  sun : ℝ := 1
  fog : ℝ := 0
  friction : ℝ := 1

/-- `UpdateEnvironmentCache` (PacketHandler.cpp:464-473). -/
noncomputable def snapshot (e : Env) : Rec :=
  ⟨e.fog.getD 10000000000, cloudFactor e, sunFactor e, fogFactor e, e.road.getD 1⟩

/-- `IsEnvironment` (OSCEnvironment.cpp:352-356). -/
def isEnvironment (e : Env) : Bool :=
  e.temperature.isSome || e.pressure.isSome || e.cloud.isSome || e.fog.isSome || e.wind.isSome || e.precipitation.isSome || e.sun.isSome ||
  e.road.isSome || e.time.isSome

open Classical in
/-- `IsEnvironmentEqual` (PacketHandler.cpp:443-462). -/
noncomputable def recEqual (c : Rec) (e : Env) : Bool :=
  decide (c.sun = sunFactor e) && decide (c.cloud = cloudFactor e) &&
  (match e.fog with | some x => decide (c.visibility = x) | none => true) &&
  (match e.road with | some x => decide (c.friction = x) | none => true)

/-- `WriteEnvironmentToDat` (PacketHandler.cpp:63-76): what is written, and the cache. -/
noncomputable def write (e : Env) (c : Rec) : Option Rec × Rec :=
  if isEnvironment e = false then (none, c)
  else if recEqual c e = false then (some (snapshot e), snapshot e) else (none, c)

/-- A run: in each frame some environment actions, then the environment is written. The cache is what a replay shows: the last record, or the defaults. -/
noncomputable def record : Env → Rec → List (List Env) → Env × Rec
  | e, c, [] => (e, c)
  | e, c, a :: l => record (run e a) (write (run e a) c).2 l

end Verif.Env

import Mathlib.Analysis.SpecialFunctions.Pow.Real
/-
Model of vehicle lights: EnvironmentSimulator/Modules/ScenarioEngine/OSCTypeDefs/OSCPrivateAction.cpp
lines 3126-3409 and 3546-3591 (`LightStateAction`), OSCPrivateAction.hpp 1464-1667, and
EnvironmentSimulator/Modules/CommonMini/CommonMini.cpp 1299-1388 (`GetRgbMinMaxColor`).

Simplifications: doubles are real numbers and `pow` is the real power; of a lamp the fields read or
written here are kept (colour names are left out); `InitializeLights` (lamps not yet set up, headless
run) is left out: lamps are taken as set up; log messages and the dirty bit are left out.
-/
namespace Verif.Lights

noncomputable section

/-- SMALL_NUMBER, CommonMini.hpp. -/
def small : ℝ := 1 / 1000000

/-- MAX_INTENSITY_LUM, CommonMini.hpp 76. -/
def maxLum : ℝ := 12000

/-- DEFAULT_LUMINOUS_INTENSITY_, OSCPrivateAction.hpp 1478. -/
def defaultLum : ℝ := 6000

/-- `CLAMP`, CommonMini.hpp 62. -/
def clamp (x lo hi : ℝ) : ℝ := min hi (max lo x)

/-- Three colour channels. -/
structure RGB where
  r : ℝ
  g : ℝ
  b : ℝ

/-- Apply a function to each channel. -/
def RGB.map (f : ℝ → ℝ) (c : RGB) : RGB := ⟨f c.r, f c.g, f c.b⟩

/-- `previous + (target - previous) * factor`, per channel. -/
def RGB.mix (p t : RGB) (f : ℝ) : RGB :=
  ⟨p.r + (t.r - p.r) * f, p.g + (t.g - p.g) * f, p.b + (t.b - p.b) * f⟩

/-- `Object::VehicleLightType`, Entities.hpp 140-158. -/
inductive LType where
  | daytime | lowBeam | highBeam | fog | fogFront | fogRear | brake | warning | indLeft | indRight
  | reversing | tail | plate | special
deriving Repr, DecidableEq

/-- `Object::VehicleLightMode`, Entities.hpp 160-166. -/
inductive Mode where
  | off | on | flashing | unknown
deriving Repr, DecidableEq

/-- `Object::VehicleLightStatus`, Entities.hpp 184-197. -/
structure Lamp where
  mode : Mode
  lum : ℝ
  emission : RGB
  rgb : RGB
  baseRgb : RGB
  maxRgb : RGB
  emitting : Bool

open Classical in
/-- Loop over the channels in `SetVehicleLightState`, 3130-3147: the flag is written for every
channel. -/
def emitFlag : List ℝ → Bool → Bool
  | [], f => f
  | e :: es, _ => emitFlag es (if e > 1 / 1000 then true else false)

/-- `LightStateAction::SetVehicleLightState`, 3126-3152. -/
def setState (l : Lamp) (lum : ℝ) : Lamp :=
  let lum := clamp lum 0 maxLum
  let x := lum / maxLum
  let e := l.maxRgb.map (fun m => m * x ^ (1 / 4 : ℝ))
  ⟨l.mode, lum, e, l.rgb, l.baseRgb, l.maxRgb, emitFlag [e.r, e.g, e.b] l.emitting⟩

open Classical in
/-- `GetRgbMinMaxColor`, CommonMini.cpp 1299-1387: dimmest and brightest colour of a base colour;
`maxOld` is the content of the output array before the call. -/
def minMax (c maxOld : RGB) : RGB × RGB :=
  if c.r = c.g ∧ c.g = c.b then
    (if c.r > 1 / 4 then ⟨1 / 4, 1 / 4, 1 / 4⟩ else c, if c.r < 3 / 5 then ⟨1, 1, 1⟩ else c)
  else
    let mx := max (max c.r c.g) c.b
    let mn := min (min c.r c.g) c.b
    let down := if mx > 1 / 4 then (1 / 4) / mx else 1
    (c.map (fun v => v * down),
     if mn < 3 / 5 then c.map (fun v => clamp ((v / mx) ^ (15 / 100 : ℝ)) (3 / 5) 1) else maxOld)

/-- `VehicleLightState`, OSCPrivateAction.hpp 1637-1648: what the action keeps per lamp. -/
structure LState where
  lamp : Lamp
  prevLum : ℝ
  prevMin : RGB
  prevMax : RGB
  minRgb : RGB
  maxRgb : RGB
  trans : ℝ
  lum : ℝ

/-- `FlashingStatus`, OSCPrivateAction.hpp 1490-1495. -/
inductive Flash where
  | off | on | undefined
deriving Repr, DecidableEq

/-- The action: what was asked for, the timers and the lamps. -/
structure Act where
  mode : Mode
  target : ℝ
  lumSet : Bool
  T : ℝ
  offDur : ℝ
  onDur : ℝ
  timer : ℝ
  ftimer : ℝ
  flash : Flash
  transitioned : Bool
  lights : List LState

/-- `LightStateAction::ResetLight`, 3374-3380. -/
def reset (l : Lamp) (m : Mode) : Lamp := { l with mode := m, emission := ⟨0, 0, 0⟩ }

/-- The action as constructed and filled in by the scenario reader. -/
structure Cmd where
  type : LType
  mode : Mode
  lum : Option ℝ
  T : ℝ
  offDur : ℝ
  onDur : ℝ
  color : Option RGB

/-- `SetVehicleLights`, 3546-3591: the lamps an action acts on. -/
def lampsOf : LType → List LType
  | .fog => [.fog, .fogFront, .fogRear]
  | .warning => [.warning, .indLeft, .indRight]
  | t => [t]

/-- `HandleConflictingLights`, 3345-3372. -/
def handleConflicts (t : LType) (v : LType → Lamp) : LType → Lamp :=
  match t with
  | .fogFront | .fogRear => fun u => if u = .fog then reset (v u) .unknown else v u
  | .indLeft => fun u =>
      if u = .warning then reset (v u) .unknown
      else if u = .indRight ∧ (v u).mode ≠ .unknown then reset (v u) .off else v u
  | .indRight => fun u =>
      if u = .warning then reset (v u) .unknown
      else if u = .indLeft ∧ (v u).mode ≠ .unknown then reset (v u) .off else v u
  | _ => v

/-- Body of the loop of `Start`, 3170-3202, for one lamp. -/
def startLamp (c : Cmd) (l : Lamp) : LState :=
  let l := if c.mode = .flashing ∧ l.mode = .on then reset l .unknown else l
  let base := c.color.getD l.baseRgb
  let mm := minMax base ⟨-1, -1, -1⟩
  ⟨{ l with rgb := mm.1, maxRgb := mm.2 }, l.lum, l.rgb, l.maxRgb, mm.1, mm.2, 0, 0⟩

/-- `LightStateAction::Start`, 3154-3205. -/
def start (c : Cmd) (v : LType → Lamp) : Act :=
  let v := handleConflicts c.type v
  ⟨c.mode, c.lum.getD 0, c.lum.isSome, c.T, c.offDur, c.onDur, 0,
   if c.mode = .flashing then c.offDur else 0, if c.mode = .flashing then .off else .undefined, false,
   (lampsOf c.type).map (fun t => startLamp c (v t))⟩

/-- Intensity while the lamp changes, 3242-3273. -/
def transLum (m : Mode) (prev target f old : ℝ) : ℝ :=
  match m with
  | .on | .flashing => prev + (target - prev) * f
  | .off => prev - prev * f
  | .unknown => old

open Classical in
/-- Toggling of a flashing lamp, 3291-3315: the status, the timer and, if it toggles, the status it
takes. -/
def flashStep (st : Flash) (ftimer offDur onDur dt : ℝ) : Flash × ℝ × Option Bool :=
  if st = .off ∧ ftimer ≥ offDur - small then (.on, 0 + dt, some true)
  else if st = .on ∧ ftimer ≥ onDur - small then (.off, 0 + dt, some false)
  else (st, ftimer + dt, none)

/-- The transition part of `Step`, 3235-3287. -/
def moveLamp (m : Mode) (target f : ℝ) (s : LState) : LState :=
  { s with
    trans := transLum m s.prevLum target f s.trans
    lamp := { s.lamp with rgb := s.prevMin.mix s.minRgb f, maxRgb := s.prevMax.mix s.maxRgb f } }

open Classical in
/-- `LightStateAction::Step`, 3207-3338: the action after the step and whether it ends. -/
def step (a : Act) (dt : ℝ) : Act × Bool :=
  let instant := decide (|a.T - 0| < small)
  let done := (instant || decide (a.timer > a.T - small)) && !a.transitioned
  let end1 := done && decide (a.mode ≠ .flashing)
  let lights := if done then a.lights.map (fun s => { s with lamp := { s.lamp with mode := a.mode } }) else a.lights
  let moving := decide (a.timer ≤ a.T + small)
  let target := if moving && !a.lumSet && decide (a.mode = .on ∨ a.mode = .flashing) then defaultLum else a.target
  let lumSet := a.lumSet || (moving && decide (a.mode = .on ∨ a.mode = .flashing))
  let f := if a.T ≠ 0 then a.timer / a.T else 1
  let lights := if moving then lights.map (moveLamp a.mode target f) else lights
  let end2 := end1 || (moving && decide (a.mode = .unknown))
  let timer := if moving then a.timer + dt else a.timer
  let fl := flashStep a.flash a.ftimer a.offDur a.onDur dt
  let lights := if a.mode = .flashing then
      match fl.2.2 with
      | some true => lights.map (fun s => { s with lum := s.trans })
      | some false => lights.map (fun s => { s with lum := 0 })
      | none => lights
    else lights.map (fun s => { s with lum := s.trans })
  let lights := lights.map (fun s => { s with lamp := setState s.lamp s.lum })
  (⟨a.mode, target, lumSet, a.T, a.offDur, a.onDur, timer,
    if a.mode = .flashing then fl.2.1 else a.ftimer, if a.mode = .flashing then fl.1 else a.flash,
    a.transitioned || done, lights⟩, end2)

/-- The steps of the action, until it ends: state after each step and whether the last one ended it. -/
def run (a : Act) : List ℝ → Act × Bool
  | [] => (a, false)
  | dt :: dts => if (step a dt).2 then ((step a dt).1, true) else run (step a dt).1 dts

/-- `CheckConflictingLights`, 3390-3409. -/
def conflicting (a b : LType) : Bool :=
  let flashing (t : LType) : Bool := t == .warning || t == .indLeft || t == .indRight
  let fogAll (t : LType) : Bool := t == .fog
  let fogOne (t : LType) : Bool := t == .fogFront || t == .fogRear
  (a == b) || (flashing a && flashing b) || ((fogAll a && fogOne b) || (fogAll b && fogOne a))

end

end Verif.Lights

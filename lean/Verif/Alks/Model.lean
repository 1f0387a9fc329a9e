/-
The reference driver of the regulation on lane keeping systems (ECE ALKS).
Code: EnvironmentSimulator/Modules/Controllers/ControllerECE_ALKS_RefDriver.cpp:69-494.

Simplifications
* Doubles are rational numbers; a quotient by zero is infinite or not a number (`Ttc`).
* The vehicles around, with what `Position::Delta` tells about them, are inputs of each step. The look-ahead distance of line 98 is
  handed to `Delta` in place of its flag for both directions (line 124) and so has no effect.
* Names of entities are not empty: `aebBrakeCandidateName` and `driverBrakeCandidateName` are reduced to whether they are set.
  `cutInDetected_` only governs log output and is left out.
* `dtFreeCutOut_` is `none` for `-LARGE_NUMBER`.
-/
namespace Verif.Alks

/-- A time to collision. -/
inductive Ttc where
  | fin (r : Rat)
  | pinf
  | ninf
  | nan
deriving DecidableEq

/-- Division of doubles by a number not negative. -/
def Ttc.div (n d : Rat) : Ttc :=
  if d = 0 then (if 0 < n then .pinf else if n < 0 then .ninf else .nan) else .fin (n / d)

/-- `TTC < 2`. -/
def Ttc.lt2 : Ttc → Bool
  | .fin r => decide (r < 2)
  | .pinf => false
  | .ninf => true
  | .nan => false

/-- `TTC >= 2`. -/
def Ttc.ge2 : Ttc → Bool
  | .fin r => decide (2 ≤ r)
  | .pinf => true
  | .ninf => false
  | .nan => false

/-- `TTC >= 0`. -/
def Ttc.ge0 : Ttc → Bool
  | .fin r => decide (0 ≤ r)
  | .pinf => true
  | .ninf => false
  | .nan => false

/-- `fabs`. -/
def abs (x : Rat) : Rat := if x < 0 then -x else x

/-- Dimensions of the own vehicle (ControllerECE_ALKS_RefDriver.cpp:79-81). -/
structure Dim where
  len : Rat
  width : Rat
  cx : Rat

/-- Another vehicle: result of `Delta`, its dimensions, offset in its lane, speed, lateral speed and acceleration along the road
(ControllerECE_ALKS_RefDriver.cpp:111-124). -/
structure Obj where
  path : Bool
  lane : Int
  ds : Rat
  dt : Rat
  len : Rat
  width : Rat
  cx : Rat
  off : Rat
  v : Rat
  vt : Rat
  as : Rat

/-- Members of the controller and locals of the loop. -/
structure Scan where
  dtFree : Option Rat
  wait : Rat
  drv : Bool
  aeb : Bool
  aebCand : Bool
  cand : Bool
  ttc : Ttc

/-- Free distance (ControllerECE_ALKS_RefDriver.cpp:137, 195). -/
def free (d : Dim) (o : Obj) : Rat := o.ds - (d.len / 2 + d.cx) - (o.len / 2 - o.cx)

/-- Free distance after the risk perception time (ControllerECE_ALKS_RefDriver.cpp:144, 244). -/
def freeLater (d : Dim) (v : Rat) (o : Obj) : Rat := free d o - (v - o.v) * (2 / 5)

/-- Lateral free distance (ControllerECE_ALKS_RefDriver.cpp:187, 227). -/
def latFree (d : Dim) (o : Obj) : Rat := abs o.dt - (d.width + o.width) / 2

/-- Starts the reaction of the driver. -/
def Scan.react (c : Scan) (w : Rat) : Scan := { c with wait := w, drv := true }

/-- Towards the own lane from a lane beside, more than 0.375 m off its centre (ControllerECE_ALKS_RefDriver.cpp:133-134). -/
def adjIn (o : Obj) : Bool :=
  (decide (o.lane = -1) && decide (0 < o.vt) && decide (3 / 8 < o.off)) ||
    (decide (o.lane = 1) && decide (o.vt < 0) && decide (o.off < -(3 / 8)))

/-- Away from the own lane in a lane beside (ControllerECE_ALKS_RefDriver.cpp:169-170). -/
def adjOut (o : Obj) : Bool :=
  (decide (o.lane = 1) && decide (0 < o.vt)) || (decide (o.lane = -1) && decide (o.vt < 0))

/-- `dtFreeCutOut_ != -LARGE_NUMBER && dtFreeCutOut_ < 0`. -/
def inCutOut (x : Option Rat) : Bool :=
  match x with
  | some r => decide (r < 0)
  | none => false

/-- `dtFreeCutOut_ >= 0`. -/
def wasCutOut (x : Option Rat) : Bool :=
  match x with
  | some r => decide (0 ≤ r)
  | none => false

/-- Cut-in from a lane beside (ControllerECE_ALKS_RefDriver.cpp:136-167). -/
def cutInAdj (d : Dim) (v : Rat) (o : Obj) (c : Scan) : Scan :=
  let t := Ttc.div (free d o) (abs (v - o.v))
  bif t.ge0 && decide (o.v < v) then
    (bif (bif t.ge2 then Ttc.div (freeLater d v o) (abs (v - o.v)) else t).lt2 then c.react (23 / 20) else c)
  else c

/-- Cut-out continued in a lane beside (ControllerECE_ALKS_RefDriver.cpp:169-188). -/
def cutOutAdj (d : Dim) (o : Obj) (c : Scan) : Scan :=
  { (bif c.cand && c.ttc.lt2 then c.react (23 / 20) else c) with dtFree := some (latFree d o) }

/-- A vehicle in a lane beside (ControllerECE_ALKS_RefDriver.cpp:130-189). -/
def scanAdj (d : Dim) (v : Rat) (o : Obj) (c : Scan) : Scan :=
  bif !c.drv && adjIn o then cutInAdj d v o c
  else bif inCutOut c.dtFree && adjOut o then cutOutAdj d o c else c

/-- Leaving the own lane (ControllerECE_ALKS_RefDriver.cpp:200). -/
def outgoing (o : Obj) : Bool := (decide (3 / 8 < o.off) && decide (0 < o.vt)) || (decide (o.off < -(3 / 8)) && decide (o.vt < 0))

/-- Still entering the own lane (ControllerECE_ALKS_RefDriver.cpp:240). -/
def incoming (o : Obj) : Bool := (decide (3 / 8 < o.off) && decide (o.vt < 0)) || (decide (o.off < -(3 / 8)) && decide (0 < o.vt))

/-- First sight of a cut-out (ControllerECE_ALKS_RefDriver.cpp:202-225). -/
def cutOutFirst (t : Ttc) (c : Scan) : Scan :=
  bif c.dtFree.isNone then { (bif c.cand then c.react (23 / 20) else c) with cand := true, ttc := t } else c

/-- A cut-out in the own lane (ControllerECE_ALKS_RefDriver.cpp:200-237). -/
def cutOutSame (d : Dim) (t : Ttc) (o : Obj) (c : Scan) : Scan :=
  let c1 := { cutOutFirst t c with dtFree := some (latFree d o) }
  bif c1.aebCand && decide (0 ≤ latFree d o) then { c1 with aeb := true } else c1

/-- A full wrap with a slower vehicle in front, or none (ControllerECE_ALKS_RefDriver.cpp:305-333). -/
def wrap (v f : Rat) (t : Ttc) (o : Obj) (c : Scan) : Scan :=
  bif (wasCutOut c.dtFree || c.dtFree.isNone) && decide (o.v < v) && decide (0 ≤ f) && t.lt2 && decide (abs o.dt < 1 / 1000000) then
    (bif wasCutOut c.dtFree || c.drv then { c with aeb := true } else { c with aebCand := true, ttc := t })
  else c

/-- Reaction of the driver to a vehicle in front (ControllerECE_ALKS_RefDriver.cpp:335-361). -/
def inFront (f : Rat) (t : Ttc) (c : Scan) : Scan :=
  bif !c.drv && decide (0 ≤ f) then
    (bif c.dtFree.isSome && t.lt2 && c.cand then c.react (23 / 20) else { c with cand := true, ttc := t })
  else c

/-- Braking in front of the own vehicle (ControllerECE_ALKS_RefDriver.cpp:262-302). -/
def decelerating (o : Obj) (c : Scan) : Scan :=
  bif decide (abs o.dt < 1 / 1000000) then { c with aeb := true }
  else bif !c.drv then c.react (bif decide (o.as < -5) then 23 / 20 else 3 / 4) else c

/-- The rest of the look at a vehicle in front (ControllerECE_ALKS_RefDriver.cpp:261-362). -/
def ahead (v f : Rat) (t : Ttc) (o : Obj) (c : Scan) : Scan :=
  bif c.aeb then c
  else bif decide (o.as < 0) && decide (0 ≤ f) && t.lt2 then decelerating o c
  else bif (wrap v f t o c).aeb then wrap v f t o c
  else inFront f t (wrap v f t o c)

/-- Cut-in in the own lane: free distance and time as used from then on (ControllerECE_ALKS_RefDriver.cpp:242-246). -/
def laterOf (d : Dim) (v : Rat) (o : Obj) : Rat × Ttc :=
  bif (Ttc.div (free d o) (abs (v - o.v))).ge2 then (freeLater d v o, Ttc.div (freeLater d v o) (abs (v - o.v)))
  else (free d o, Ttc.div (free d o) (abs (v - o.v)))

/-- A vehicle in front in the own lane (ControllerECE_ALKS_RefDriver.cpp:191-363). -/
def scanSame (d : Dim) (v : Rat) (o : Obj) (c : Scan) : Scan :=
  bif outgoing o then
    ahead v (free d o) (Ttc.div (free d o) (abs (v - o.v))) o (cutOutSame d (Ttc.div (free d o) (abs (v - o.v))) o c)
  else bif !c.drv && incoming o then
    ahead v (laterOf d v o).1 (laterOf d v o).2 o (bif (laterOf d v o).2.lt2 then c.react (23 / 20) else c)
  else ahead v (free d o) (Ttc.div (free d o) (abs (v - o.v))) o c

/-- One round of the loop (ControllerECE_ALKS_RefDriver.cpp:100-364). -/
def look (d : Dim) (v : Rat) (c : Scan) (o : Obj) : Scan :=
  bif c.aeb || decide (v = 0) then c
  else bif !o.path then c
  else bif (decide (o.lane = 1) || decide (o.lane = -1)) && decide (0 < v) then scanAdj d v o c
  else bif decide (o.lane = 0) && decide (0 < o.ds) then scanSame d v o c
  else c

/-- After the loop (ControllerECE_ALKS_RefDriver.cpp:367-391). -/
def conclude (v : Rat) (c : Scan) : Scan :=
  bif decide (0 < v) && !c.aeb then
    (bif c.aebCand && (wasCutOut c.dtFree || c.dtFree.isNone) && c.ttc.lt2 then { c with aeb := true }
     else bif !c.drv && c.cand && c.ttc.lt2 then c.react (23 / 20) else c)
  else c

/-- The controller, with the speed of its vehicle (ControllerECE_ALKS_RefDriver.hpp). -/
structure St where
  speed : Rat
  set : Rat
  dtFree : Option Rat
  wait : Rat
  drv : Bool
  aeb : Bool
  since : Rat

/-- Input of a step: vehicles in the order of the entities, a speed set by somebody else in this step, and the time step. -/
structure Env where
  objs : List Obj
  given : Option Rat
  dt : Rat

/-- `Reset` (ControllerECE_ALKS_RefDriver.cpp:487-496) with the speed of the vehicle. -/
def reset (v : Rat) : St := ⟨v, v, none, -1, false, false, 0⟩

/-- The loop of a step and what follows it. -/
def scan (d : Dim) (e : Env) (v : Rat) (s : St) : Scan :=
  conclude v (e.objs.foldl (look d v) ⟨s.dtFree, s.wait, s.drv, s.aeb, false, false, .fin 10000000000⟩)

/-- Time of braking, at most 0.6 s (ControllerECE_ALKS_RefDriver.cpp:407, 425). -/
def later (t dt : Rat) : Rat := if 3 / 5 < t + dt then 3 / 5 else t + dt

/-- Speed after braking up to `g` of gravity (ControllerECE_ALKS_RefDriver.cpp:407-411, 425-429). -/
def braked (g v t dt : Rat) : Rat := if v - t / (3 / 5) * g * (981 / 100) * dt < 0 then 0 else v - t / (3 / 5) * g * (981 / 100) * dt

/-- `MAX(0.0, waitTime_ - timeStep)` (ControllerECE_ALKS_RefDriver.cpp:436). -/
def waited (w dt : Rat) : Rat := if w - dt < 0 then 0 else w - dt

/-- Speed without braking (ControllerECE_ALKS_RefDriver.cpp:440-454); the sign of `setSpeed_ - currentSpeed_`, zero, is 1. -/
def cruise (v set dt : Rat) : Rat := if set - (v + 3 * dt) < 0 then set else v + 3 * dt

/-- The brakes (ControllerECE_ALKS_RefDriver.cpp:399-454): speed, waiting time and time of braking. -/
def brake (v set since dt : Rat) (c : Scan) : Rat × Rat × Rat :=
  bif c.aeb then (bif decide (0 < v) then (braked (17 / 20) v (later since dt) dt, c.wait, later since dt) else (set, c.wait, since))
  else bif c.drv then
    (bif decide (0 < v) then
      (bif decide (c.wait = 0) then (braked (387 / 500) v (later since dt) dt, waited c.wait dt, later since dt) else (set, waited c.wait dt, since))
     else (set, c.wait, since))
  else (cruise v set dt, c.wait, since)

/-- The state after the brakes, with the reset at standstill (ControllerECE_ALKS_RefDriver.cpp:456-462). -/
def settle (set : Rat) (c : Scan) (b : Rat × Rat × Rat) : St :=
  if b.1 = 0 then reset 0 else ⟨b.1, set, c.dtFree, b.2.1, c.drv, c.aeb, b.2.2⟩

/-- `Step` (ControllerECE_ALKS_RefDriver.cpp:69-465). -/
def step (d : Dim) (s : St) (e : Env) : St :=
  let v := e.given.getD s.speed
  let c := scan d e v s
  settle (e.given.getD s.set) c (brake v (e.given.getD s.set) s.since e.dt c)

/-- A sequence of steps. -/
def run (d : Dim) (es : List Env) (s : St) : St := es.foldl (step d) s

end Verif.Alks

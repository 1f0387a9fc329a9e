import Mathlib.Data.Real.Basic
/-
The controllers of UN regulation 157 for critical situations: the models `Regulation`, `RSS` and `FSM`.
Code: EnvironmentSimulator/Modules/Controllers/ControllerALKS_R157SM.cpp:283-355 (without cut-outs), 401-424, 444-467, 480-565,
602-713, 1309-1551, ControllerALKS_R157SM.hpp:82-92, 271-275, 539-570.

Simplifications
* Doubles are real numbers.
* What `Process` measures of another vehicle (distance along the road between the boxes, difference of the speeds along the road, speed),
  and whether `CheckSafety` sees it as a threat, are inputs. The model `ReferenceDriver` is left out.
* Division by zero gives zero. It is only reached in `grade` when both limits and the distance are the same number (in the code: not a number).
* Logging and names of scenarios are left out.
-/
namespace Verif.R157
open Classical

/-- The object in focus (ControllerALKS_R157SM.hpp:82-92). -/
structure Tgt where
  dist : ℝ
  dv : ℝ
  lead : ℝ

/-- Time to collision (ControllerALKS_R157SM.cpp:417-424). -/
noncomputable def Tgt.ttc (t : Tgt) : ℝ := if 0 < t.dv then t.dist / t.dv else 10000000000

/-- `ModelMode`. -/
inductive Mode where
  | critical
  | sight
  | free
deriving DecidableEq

/-- Properties of the controller. -/
structure Cfg where
  set : ℝ
  cruise : Bool
  fullStop : Bool

/-- State: speed of the vehicle, `acc_`, `rt_counter_`, `model_mode_`. -/
structure St where
  v : ℝ
  acc : ℝ
  rt : ℝ
  mode : Mode

/-- `SMALL_NUMBER`. -/
noncomputable def small : ℝ := 1 / 1000000

/-- `CLAMP(x, lo, hi)`. -/
noncomputable def clamp (x lo hi : ℝ) : ℝ := min hi (max lo x)

/-- Acceleration without a target (ControllerALKS_R157SM.cpp:516-530). -/
noncomputable def freeAcc (set v : ℝ) : ℝ := if |v - set| < small then 0 else if set < v then -2 else 2

/-- Acceleration behind a target (ControllerALKS_R157SM.cpp:543-555). -/
noncomputable def followAcc (minDist v : ℝ) (t : Tgt) : ℝ :=
  if |v - 0| < small then 0 else clamp (2 * -t.dv + 1 * (t.dist - minDist)) (-4) 3

/-- `Cruise` (ControllerALKS_R157SM.cpp:507-565). -/
noncomputable def cruise (c : Cfg) (minDist : ℝ) (o : Option Tgt) (dt : ℝ) (s : St) : St :=
  if c.cruise then
    match o with
    | none => ⟨clamp (s.v + freeAcc c.set s.v * dt) 0 c.set, freeAcc c.set s.v, s.rt, .free⟩
    | some t =>
      if 0 < t.dist ∧ t.dv / 12 + 7 / 20 < t.ttc then
        ⟨clamp (s.v + followAcc minDist s.v t * dt) 0 c.set, followAcc minDist s.v t, s.rt, .sight⟩
      else { s with acc := 0 }
  else { s with acc := 0 }

/-! ### Regulation -/

/-- `Regulation::MinDist` (ControllerALKS_R157SM.cpp:602-620). -/
noncomputable def regMinDist (v : ℝ) : ℝ :=
  max (v * (if v * (18 / 5) < 10 then 1 + (max 2 v - 2) / (39 / 5) else 1 + v * (18 / 5) / 100)) 2

/-- `Regulation::CheckCritical` (ControllerALKS_R157SM.cpp:673-697): whether critical, and the mode. -/
noncomputable def regCritical (c : Cfg) (o : Option Tgt) (s : St) : Bool × Mode :=
  match o with
  | none => (false, .free)
  | some t =>
    if s.mode = .critical ∧ c.fullStop = true then (true, s.mode)
    else if (0 < t.dv ∧ 0 < t.dist) ∧ t.ttc < t.dv / (2 * 6) + 7 / 20 + 1 / 10 then (true, .critical)
    else (false, .sight)

/-- `Regulation::ReactCritical` (ControllerALKS_R157SM.cpp:699-713). -/
noncomputable def regReact (dt : ℝ) (s : St) : St := { s with acc := -6, v := max 0 (s.v + -6 * dt) }

/-- `Model::Step` of the model `Regulation` for the object in focus (ControllerALKS_R157SM.cpp:444-467). -/
noncomputable def regStep (c : Cfg) (o : Option Tgt) (dt : ℝ) (s : St) : St :=
  if (regCritical c o s).1 then regReact dt { s with mode := (regCritical c o s).2 }
  else cruise c (regMinDist s.v) o dt { s with mode := (regCritical c o s).2 }

/-! ### RSS -/

/-- Reaction time, largest acceleration, deceleration (ControllerALKS_R157SM.cpp:480-505, ControllerALKS_R157SM.hpp:542). -/
structure Rss where
  rt : ℝ
  maxAcc : ℝ
  maxDec : ℝ
  jerk : ℝ

/-- The values of the code. -/
noncomputable def rssDefault : Rss := ⟨3 / 4, 3, 387 / 500 * (981 / 100), 253 / 20⟩

/-- Safe distance (ControllerALKS_R157SM.cpp:1319-1320). -/
noncomputable def rssSafe (p : Rss) (v u : ℝ) : ℝ :=
  v * p.rt + p.maxAcc * p.rt ^ 2 / 2 + (v + p.rt * p.maxAcc) ^ 2 / (2 * p.maxDec) - u ^ 2 / (2 * p.maxDec)

/-- `RSS::MinDist` (ControllerALKS_R157SM.cpp:1354-1360). -/
noncomputable def rssMinDist (p : Rss) (v : ℝ) : ℝ :=
  v * p.rt * p.rt + p.maxAcc * p.rt ^ 2 / 2 + (v + p.rt * p.maxAcc) ^ 2 / (2 * p.maxDec) +
    -(max (v - p.rt * p.maxAcc * p.maxDec) 0) ^ 2 / (2 * p.maxDec) + 1 / 2 * p.maxDec * p.rt ^ 2

/-- Enters or keeps the critical mode; on entering, the reaction time starts (ControllerALKS_R157SM.cpp:1326-1330, 1515-1519). -/
def St.alarm (s : St) (rt : ℝ) : St := if s.mode = .critical then s else { s with rt := rt, mode := .critical }

/-- `RSS::CheckCritical` (ControllerALKS_R157SM.cpp:1309-1337). -/
noncomputable def rssCritical (p : Rss) (o : Option Tgt) (s : St) : Bool × St :=
  match o with
  | none => (false, { s with mode := .free })
  | some t => if (0 < t.dv ∧ 0 < t.dist) ∧ t.dist < rssSafe p s.v t.lead then (true, s.alarm p.rt) else (false, { s with mode := .sight })

/-- `RSS::ReactCritical` (ControllerALKS_R157SM.cpp:1339-1352). -/
noncomputable def rssReact (p : Rss) (dt : ℝ) (s : St) : St :=
  if 0 < s.rt then { s with acc := min s.acc 0, rt := s.rt - dt, v := s.v + min s.acc 0 * dt }
  else { s with acc := min (s.acc - p.jerk * dt) p.maxDec, v := max (s.v + min (s.acc - p.jerk * dt) p.maxDec * dt) 0 }

/-- `Model::Step` of the model `RSS`. -/
noncomputable def rssStep (p : Rss) (c : Cfg) (o : Option Tgt) (dt : ℝ) (s : St) : St :=
  if (rssCritical p o s).1 then rssReact p dt (rssCritical p o s).2 else cruise c (rssMinDist p s.v) o dt (rssCritical p o s).2

/-! ### FSM -/

/-- Constants of the fuzzy model (ControllerALKS_R157SM.hpp:558-567). -/
structure Fsm where
  rt : ℝ
  maxDec : ℝ
  jerk : ℝ
  brMin : ℝ
  brMax : ℝ
  bl : ℝ
  margin : ℝ
  safeMargin : ℝ

/-- The values of the code. -/
noncomputable def fsmDefault : Fsm := ⟨3 / 4, 387 / 500 * (981 / 100), 253 / 20, 4, 6, 7, 2, 2⟩

/-- Safe distance of `PFS` (ControllerALKS_R157SM.cpp:1384). -/
noncomputable def pfsSafe (p : Fsm) (v u : ℝ) : ℝ := v * p.rt + v ^ 2 / (2 * p.brMin) - u ^ 2 / (2 * p.bl) + p.safeMargin

/-- Unsafe distance of `PFS` (ControllerALKS_R157SM.cpp:1392). -/
noncomputable def pfsUnsafe (p : Fsm) (v u : ℝ) : ℝ := v * p.rt + v ^ 2 / (2 * p.brMax) - u ^ 2 / (2 * p.bl)

/-- Between the limits (ControllerALKS_R157SM.cpp:1386-1401, 1431-1447). -/
noncomputable def grade (d ds du : ℝ) : ℝ := if ds < d then 0 else if d < du then 1 else (d - ds) / (du - ds)

/-- `PFS` (ControllerALKS_R157SM.cpp:1372-1402). -/
noncomputable def pfs (p : Fsm) (d v u : ℝ) : ℝ := grade (d - p.margin) (pfsSafe p v u) (pfsUnsafe p v u)

/-- Distance covered relative to the lead vehicle when braking with `b` after the reaction time (ControllerALKS_R157SM.cpp:1429, 1437). -/
noncomputable def cfsDist (rt v u a b : ℝ) : ℝ := (v + a * rt / 2 - u) * rt + (v + a * rt - u) ^ 2 / (b * 2)

/-- `CFS` (ControllerALKS_R157SM.cpp:1404-1449); `acc` is the acceleration of the vehicle along the road. -/
noncomputable def cfs (p : Fsm) (d v u acc : ℝ) : ℝ :=
  if v ≤ u then 0
  else if v + p.rt * max acc (-p.brMin) < u then (if d < (v - u) ^ 2 / |acc * 2| then 1 else 0)
  else grade d (cfsDist p.rt v u (max acc (-p.brMin)) p.brMin) (cfsDist p.rt v u (max acc (-p.brMin)) p.brMax)

/-- `FSM::MinDist` (ControllerALKS_R157SM.cpp:1362-1370), with an object in focus. -/
noncomputable def fsmMinDist (p : Fsm) (v : ℝ) (o : Option Tgt) : ℝ :=
  match o with
  | none => 0
  | some t => p.margin + v * p.rt + v ^ 2 / (2 * p.brMin) - t.lead ^ 2 / (2 * p.bl) + p.safeMargin

/-- `FSM::CheckCritical` (ControllerALKS_R157SM.cpp:1487-1525). -/
noncomputable def fsmCritical (p : Fsm) (accS dt : ℝ) (o : Option Tgt) (s : St) : Bool × St :=
  match o with
  | none => (false, { s with mode := .free })
  | some t =>
    if (small < dt ∧ 0 < t.dv ∧ 0 < t.dist) ∧ ¬ (cfs p t.dist s.v t.lead accS + pfs p t.dist s.v t.lead < small) then (true, s.alarm p.rt)
    else (false, { s with mode := .sight })

/-- Deceleration asked for (ControllerALKS_R157SM.cpp:1536-1544). -/
noncomputable def fsmDemand (p : Fsm) (cf pf : ℝ) : ℝ := if small < cf then cf * (p.brMax - p.brMin) + p.brMin else pf * p.brMin

/-- `FSM::ReactCritical` (ControllerALKS_R157SM.cpp:1527-1551). -/
noncomputable def fsmReact (p : Fsm) (cf pf dt : ℝ) (s : St) : St :=
  if 0 < s.rt then { s with acc := min s.acc 0, rt := s.rt - dt, v := s.v + min s.acc 0 * dt }
  else { s with
    acc := max (max (s.acc - p.jerk * dt) (-p.maxDec)) (-fsmDemand p cf pf)
    v := max (s.v + max (max (s.acc - p.jerk * dt) (-p.maxDec)) (-fsmDemand p cf pf) * dt) 0 }

/-- `Model::Step` of the model `FSM`. -/
noncomputable def fsmStep (p : Fsm) (c : Cfg) (accS : ℝ) (o : Option Tgt) (dt : ℝ) (s : St) : St :=
  match o with
  | none => cruise c 0 none dt { s with mode := .free }
  | some t =>
    if (fsmCritical p accS dt o s).1 then
      fsmReact p (cfs p t.dist s.v t.lead accS) (pfs p t.dist s.v t.lead) dt (fsmCritical p accS dt o s).2
    else cruise c (fsmMinDist p s.v o) o dt (fsmCritical p accS dt o s).2

/-! ### Choice of the object in focus -/

/-- An entity as `Detect` sees it: measured or not, a threat or not. -/
structure Seen where
  id : Nat
  measured : Bool
  threat : Bool
  dist : ℝ

/-- One round of `Detect` when no vehicle is leaving the lane (ControllerALKS_R157SM.cpp:293-341). -/
noncomputable def detect1 (c : Option Seen) (o : Seen) : Option Seen :=
  if o.measured = false ∨ o.threat = false then c
  else match c with
    | none => if o.dist < 10000000000 then some o else none
    | some m => if o.dist < m.dist then some o else some m

/-- `Detect` (ControllerALKS_R157SM.cpp:283-355). -/
noncomputable def detect (l : List Seen) : Option Seen := l.foldl detect1 none

end Verif.R157

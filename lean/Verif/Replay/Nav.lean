import Verif.Common.Macros

/-
Navigation in a recording: Replay.cpp:1120-1367 (/repo/EnvironmentSimulator/Applications/replayer).

Simplifications: `double` is `Rat`; `unsigned int` is unbounded. Forming an iterator or reading outside the vector of
timestamps is undefined behaviour and modelled by `none`.
-/
namespace Verif.Replay
open Verif.Common

/-- The members of `class Replay` used for navigation, Replay.hpp:474-492. -/
structure Nav where
  timestamps : List Rat
  startTime : Rat
  stopTime : Rat
  startIndex : Nat
  stopIndex : Nat
  time : Rat
  index : Nat
  repeats : Bool
deriving DecidableEq, Repr

/-- The end of the constructor, Replay.cpp:56-66; `stopTime_` comes from the recording (see 326-341). -/
def Nav.load (timestamps : List Rat) (stopTime : Rat) : Option Nav :=
  match timestamps with
  | [] => none
  | t :: r => some
    { timestamps := t :: r, startTime := t, stopTime := stopTime, startIndex := 0, stopIndex := r.length,
      time := t, index := 0, repeats := false }

/-- `std::lower_bound` on a sorted range: the number of leading elements less than `x`. -/
def countBelow (x : Rat) : List Rat → Nat
  | [] => 0
  | t :: r => if t < x then countBelow x r + 1 else 0

/-- `std::upper_bound` on a sorted range: the number of leading elements not greater than `x`. -/
def countUpTo (x : Rat) : List Rat → Nat
  | [] => 0
  | t :: r => if x < t then 0 else countUpTo x r + 1

/-- `Replay::GoToStart`, Replay.cpp:1120-1132. -/
def Nav.goToStart (n : Nav) (ignore_repeat : Bool) : Nav :=
  if n.repeats && !ignore_repeat then { n with index := n.stopIndex, time := n.stopTime }
  else { n with index := n.startIndex, time := n.startTime }

/-- `Replay::GoToEnd`, Replay.cpp:1134-1146. -/
def Nav.goToEnd (n : Nav) (ignore_repeat : Bool) : Nav :=
  if n.repeats && !ignore_repeat then { n with index := n.startIndex, time := n.startTime }
  else { n with index := n.stopIndex, time := n.stopTime }

/-- `Replay::FindIndexAtTimestamp`, Replay.cpp:1280-1295. -/
def Nav.findIndexAtTimestamp (n : Nav) (timestamp : Rat) : Option Nat :=
  if timestamp ≥ n.time - small then
    if n.index ≤ n.timestamps.length then
      some (n.index + countBelow (timestamp - small) (n.timestamps.drop n.index))
    else none
  else
    if n.index + 1 ≤ n.timestamps.length then
      some (countBelow (timestamp - small) (n.timestamps.take (n.index + 1)))
    else none

/-- The last check of `GoToTime`, Replay.cpp:1212-1219. -/
def Nav.limit (n : Nav) : Nav :=
  if n.time > n.stopTime then n.goToEnd false
  else if n.time < n.startTime then n.goToStart false
  else n

/-- The forward part with `stop_at_next_frame`, Replay.cpp:1172-1191. -/
def Nav.ahead (n : Nav) (target : Rat) : Nav :=
  match n.timestamps[n.index + 1]? with
  | some t =>
    if target ≥ t - small then { n with index := n.index + 1, time := t }
    else if target > n.stopTime then n.goToEnd false
    else { n with time := target }
  | none => if target > n.stopTime then n.goToEnd false else { n with time := target }

/-- The backward part with `stop_at_next_frame`, Replay.cpp:1192-1210. -/
def Nav.backBy (n : Nav) (target : Rat) : Nav :=
  if target < n.startTime then n.goToStart false else { n with time := target }

def Nav.back (n : Nav) (target : Rat) : Option Nav :=
  match n.index with
  | 0 => some (n.backBy target)
  | i + 1 =>
    match n.timestamps[i]? with
    | none => none
    | some t => if target ≤ t then some { n with index := i, time := t } else some (n.backBy target)

/-- `Replay::GoToTime`, Replay.cpp:1148-1220. -/
def Nav.goToTime (n : Nav) (target : Rat) (stop_at_next_frame : Bool) : Option Nav :=
  if stop_at_next_frame = false then
    if target ≥ n.stopTime then some (n.goToEnd false)
    else if target ≤ n.startTime then some (n.goToStart false)
    else (n.findIndexAtTimestamp target).map (fun i => Nav.limit { n with index := i, time := target })
  else if target > n.time then some (n.ahead target).limit
  else if target < n.time then (n.back target).map Nav.limit
  else some n.limit

/-- `Replay::GoToDeltaTime`, Replay.cpp:1222-1225. -/
def Nav.goToDeltaTime (n : Nav) (dt : Rat) (stop_at_next_frame : Bool) : Option Nav :=
  n.goToTime (n.time + dt) stop_at_next_frame

/-- `Replay::GoToNextFrame`, Replay.cpp:1227-1252, without the return value. -/
def Nav.goToNextFrame (n : Nav) : Nav :=
  if n.timestamps = [] then n
  else
    match n.timestamps[countUpTo (n.time + small) n.timestamps]? with
    | none => n.goToEnd false
    | some t =>
      if t ≤ n.stopTime + small then { n with index := countUpTo (n.time + small) n.timestamps, time := t }
      else n.goToEnd false

/-- `Replay::GoToPreviousFrame`, Replay.cpp:1254-1278. -/
def Nav.goToPreviousFrame (n : Nav) : Nav :=
  match countBelow (n.time - small) n.timestamps with
  | 0 => if n.timestamps = [] then n else n.goToStart false
  | i + 1 =>
    match n.timestamps[i]? with
    | none => n -- does not occur, see `countBelow_le`
    | some t => if t < n.startTime then Nav.goToStart { n with index := i, time := t } false
      else { n with index := i, time := t }

/-- `Replay::SetStartTime`, Replay.cpp:1321-1331. -/
def Nav.setStartTime (n : Nav) (t : Rat) : Option Nav :=
  let n := { n with startTime := t, time := if n.time < t then t else n.time }
  (n.findIndexAtTimestamp t).map (fun i => { n with startIndex := i, index := i })

/-- `Replay::SetStopTime`, Replay.cpp:1333-1342. -/
def Nav.setStopTime (n : Nav) (t : Rat) : Option Nav :=
  let n := { n with stopTime := t, time := if n.time > t then t else n.time }
  (n.findIndexAtTimestamp t).map (fun i => { n with stopIndex := i })

/-- `Replay::SetTimeToNearestTimestamp`, Replay.cpp:1344-1365. -/
def Nav.setTimeToNearestTimestamp (n : Nav) : Nav :=
  match n.timestamps with
  | [] => n
  | t :: r =>
    match countBelow (n.time - small) (t :: r) with
    | 0 => { n with time := t }
    | i + 1 =>
      match (t :: r)[i + 1]? with
      | none => { n with time := (t :: r).getLast (by simp) }
      | some x => { n with time := x }

/-- The commands of the replayer, main.cpp:125-190, 1224-1277. -/
inductive Op where
  | time (t : Rat) (stop_at_next_frame : Bool)
  | delta (dt : Rat) (stop_at_next_frame : Bool)
  | next
  | previous
  | start (ignore_repeat : Bool)
  | finish (ignore_repeat : Bool)
  | nearest
  | setRepeat (b : Bool)

def Nav.op (n : Nav) : Op → Option Nav
  | .time t b => n.goToTime t b
  | .delta dt b => n.goToDeltaTime dt b
  | .next => some n.goToNextFrame
  | .previous => some n.goToPreviousFrame
  | .start b => some (n.goToStart b)
  | .finish b => some (n.goToEnd b)
  | .nearest => some n.setTimeToNearestTimestamp
  | .setRepeat b => some { n with repeats := b }

def Nav.ops : Nav → List Op → Option Nav
  | n, [] => some n
  | n, o :: os => (n.op o).bind (fun n => n.ops os)

end Verif.Replay

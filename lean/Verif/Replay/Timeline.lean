import Verif.Common.Macros

/-
`scenarioengine::Timeline<T>`, Replay.hpp:30-297
(/repo/EnvironmentSimulator/Applications/replayer).

Simplifications: `double` is `Rat`; the mutable members are part of the returned state. Reading outside the vector
is undefined behaviour and modelled by `none`.
-/
namespace Verif.Replay
open Verif.Common

/-- `LARGE_NUMBER (1E+10)`, CommonMini.hpp:53. -/
def large : Rat := 10000000000

/-- `struct Timeline`, Replay.hpp:31-36. -/
structure Timeline (α : Type) where
  values : List (Rat × α)
  last_index : Nat := 0
  last_time : Rat := large

variable {α : Type}

/-- The loop moving forward, Replay.hpp:60-63, on the entries after `idx`. -/
def moveForward (time : Rat) : List (Rat × α) → Nat → Nat
  | [], idx => idx
  | e :: r, idx => if e.1 ≤ time + small then moveForward time r (idx + 1) else idx

/-- The loop moving backward, Replay.hpp:67-70; `none` is a read outside the vector. -/
def moveBackward (values : List (Rat × α)) (time : Rat) : Nat → Option Nat
  | 0 => some 0
  | i + 1 => match values[i + 1]? with
    | none => none
    | some e => if e.1 > time + small then moveBackward values time i else some (i + 1)

/-- The search of `get_value_incremental`, Replay.hpp:58-71. -/
def seek (tl : Timeline α) (time : Rat) : Option Nat :=
  match tl.values[tl.last_index]? with
  | none => none
  | some e =>
    if time ≥ e.1 then some (moveForward time (tl.values.drop (tl.last_index + 1)) tl.last_index)
    else moveBackward tl.values time tl.last_index

/-- The end of `get_value_incremental`, Replay.hpp:73-79. -/
def settle (tl : Timeline α) (idx : Nat) : Option (Timeline α × Option α) :=
  match tl.values[idx]? with
  | none => none
  | some e =>
    some (if idx ≠ tl.last_index ∨ idx = 0 then { tl with last_index := idx, last_time := e.1 } else tl, some e.2)

/-- `get_value_incremental`, Replay.hpp:38-81. The outer `none` is undefined behaviour, the inner one `nullopt`. -/
def getValueIncremental (tl : Timeline α) (time : Rat) : Option (Timeline α × Option α) :=
  match tl.values with
  | [] => some (tl, none)
  | [e] => some ({ tl with last_index := 0, last_time := e.1 }, some e.2)
  | _ =>
    if nearNumbers tl.last_time time then
      match tl.values[tl.last_index]? with
      | none => none
      | some e => some (tl, some e.2)
    else (seek tl time).bind (settle tl)

/-- `std::upper_bound` with the given comparison on a partitioned vector: the number of entries before the
first one for which `after` holds. -/
def upperBound (after : Rat × α → Bool) : List (Rat × α) → Nat
  | [] => 0
  | e :: r => if after e then 0 else upperBound after r + 1

/-- `get_value_binary`, Replay.hpp:83-118. -/
def getValueBinary (values : List (Rat × α)) (time : Rat) (upper : Bool) : Option (Option α) :=
  match values with
  | [] => some none
  | [e] => some (some e.2)
  | _ =>
    let it := upperBound (fun e => decide (time + small < e.1)) values
    if it = 0 then (values[0]?).map (fun e => some e.2)
    else
      let it := if it = values.length then it - 1 else it
      let it := if !upper then it - 1 else it
      (values[it]?).map (fun e => some e.2)

/-- `get_index_binary`, Replay.hpp:120-144. -/
def getIndexBinary (values : List (Rat × α)) (time : Rat) : Option Nat :=
  match values with
  | [] => none
  | [_] => some 1
  | _ => some (upperBound (fun e => decide (time < e.1 - small)) values)

/-- `std::lower_bound` on a partitioned vector: the number of entries before the first one for which `before`
does not hold. -/
def lowerBound (before : Rat × α → Bool) : List (Rat × α) → Nat
  | [] => 0
  | e :: r => if before e then lowerBound before r + 1 else 0

/-- `clean_duplicate_timestamps`, Replay.hpp:280-294: of two neighbours at the same time the first is erased. -/
def cleanDuplicates : List (Rat × α) → List (Rat × α)
  | [] => []
  | [e] => [e]
  | e :: f :: r => if nearNumbers e.1 f.1 then cleanDuplicates (f :: r) else e :: cleanDuplicates (f :: r)

/-- `replace_data_between_times`, Replay.hpp:250-278. `erase(first, last)` with `last < first` is undefined
behaviour. -/
def replaceDataBetweenTimes (values : List (Rat × α)) (start_time end_time : Rat) (input : List (Rat × α))
    (clean : Bool) : Option (List (Rat × α)) :=
  if input = [] ∨ values = [] then some values
  else
    let first := lowerBound (fun e => decide (e.1 < start_time - small)) values
    let last := upperBound (fun e => decide (end_time < e.1 - small)) values
    if last < first then none
    else
      let values := values.take first ++ input ++ values.drop last
      some (if clean ∧ values.length > 1 then cleanDuplicates values else values)

/-- The loop moving forward of `get_values_until_time`, Replay.hpp:179-186, on the entries from `idx` on. Returns the
entries pushed. -/
def collect (time : Rat) : List (Rat × α) → List (Rat × α)
  | [] => []
  | e :: r => if e.1 ≤ time + small then e :: collect time r else []

/-- The loop moving backward of `get_values_until_time`, Replay.hpp:170-173. -/
def moveBackwardUntil (values : List (Rat × α)) (time : Rat) : Nat → Option Nat
  | 0 => some 0
  | i + 1 => match values[i + 1]? with
    | none => none
    | some e => if time < e.1 then moveBackwardUntil values time i else some (i + 1)

/-- `get_values_until_time`, Replay.hpp:147-190. -/
def getValuesUntilTime (tl : Timeline α) (time : Rat) : Option (Timeline α × List (Rat × α)) :=
  match tl.values with
  | [] => some (tl, [])
  | e :: r =>
    if r = [] ∨ nearNumbers time e.1 then some ({ tl with last_index := 0, last_time := e.1 }, [e])
    else if nearNumbers tl.last_time time then (tl.values[tl.last_index]?).map (fun e => (tl, [e]))
    else if time < tl.last_time - small then
      (moveBackwardUntil tl.values time tl.last_index).bind fun idx =>
        (tl.values[idx]?).map (fun e => ({ tl with last_index := idx, last_time := e.1 }, []))
    else
      let ret := collect time (tl.values.drop tl.last_index)
      match ret.getLast? with
      | none => some (tl, [])
      | some e => some ({ tl with last_index := tl.last_index + ret.length - 1, last_time := e.1 }, ret)

end Verif.Replay

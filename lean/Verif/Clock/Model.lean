import Verif.Env.Model
import Verif.Util.Strings
/-
The date and time of the environment: check of the text (CommonMini.cpp:867-945) and the time reported in the ground truth
(OSIReporter.cpp:3850-3876).

Simplifications: `\d` stands for the digits 0 to 9; the regular expression is matched field by field, taking as many digits as it allows,
without trying fewer (a field is always followed by a character which is not a digit); `std::get_time` reads one up to the maximal number of
digits for a field and fails outside of the range of the field; `timegm` is a parameter.
-/
namespace Verif.Clock
open Verif.Util (Tm validFields)

/-- `dateTimeString.find_last_of("+-")` (CommonMini.cpp:874): the index of the last sign. -/
def lastSign : List Char → Option Nat
  | [] => none
  | c :: s => match lastSign s with
    | some n => some (n + 1)
    | none => if c = '+' ∨ c = '-' then some 0 else none

/-- `dateTimeString.find("T")` (CommonMini.cpp:875). -/
def firstT : List Char → Option Nat
  | [] => none
  | c :: s => if c = 'T' then some 0 else (firstT s).map (· + 1)

/-- The part before the time zone, CommonMini.cpp:872-879. -/
def datetimePart (s : List Char) : List Char :=
  match lastSign s, firstT s with
  | some pos, some t => if pos > t then s.take pos else s
  | _, _ => s

/-- `\d{lo,hi}`: the digits and the rest. -/
def field (lo hi : Nat) (s : List Char) : Option (List Char × List Char) :=
  let d := (s.take hi).takeWhile Char.isDigit
  if lo ≤ d.length then some (d, s.drop d.length) else none

/-- a single character -/
def lit (c : Char) : List Char → Option (List Char)
  | [] => none
  | x :: s => if x = c then some s else none

/-- `(?:\.(\d{1,3}))?$`: the digits of the fraction, if there is one. -/
def fraction (s : List Char) : Option (Option (List Char)) :=
  match s with
  | [] => some none
  | _ => do
    let r ← lit '.' s
    let (d, r) ← field 1 3 r
    if r = [] then some (some d) else none

/-- The match with `datetimePattern`, CommonMini.cpp:869, 881-885: group 7. -/
def matchDate (s : List Char) : Option (Option (List Char)) := do
  let (_, r) ← field 4 4 s
  let (_, r) ← field 1 2 (← lit '-' r)
  let (_, r) ← field 1 2 (← lit '-' r)
  let (_, r) ← field 1 2 (← lit 'T' r)
  let (_, r) ← field 1 2 (← lit ':' r)
  let (_, r) ← field 1 2 (← lit ':' r)
  fraction r

/-- The value of digits. -/
def value (d : List Char) : Nat := d.foldl (fun a c => 10 * a + (c.toNat - 48)) 0

/-- a conversion of `std::get_time`: up to `hi` digits, within `min` and `max` -/
def conv (hi min max : Nat) (s : List Char) : Option (Nat × List Char) := do
  let (d, r) ← field 1 hi s
  if min ≤ value d ∧ value d ≤ max then some (value d, r) else none

/-- `ss >> std::get_time(&timeStruct, "%Y-%m-%dT%H:%M:%S")`, CommonMini.cpp:896-902. -/
def getTime (s : List Char) : Option Tm := do
  let (y, r) ← conv 4 0 9999 s
  let (mo, r) ← conv 2 1 12 (← lit '-' r)
  let (d, r) ← conv 2 1 31 (← lit '-' r)
  let (h, r) ← conv 2 0 23 (← lit 'T' r)
  let (mi, r) ← conv 2 0 59 (← lit ':' r)
  let (se, _) ← conv 2 0 60 (← lit ':' r)
  some ⟨(y : Int) - 1900, (mo : Int) - 1, d, h, mi, se⟩

/-- `IsValidDateTimeFormat`, CommonMini.cpp:867-945. -/
def valid (s : List Char) : Bool :=
  let p := datetimePart s
  match matchDate p with
  | none => false
  | some ms =>
    match getTime p with
    | none => false
    | some t => if validFields t then decide (value (ms.getD ['0']) ≤ 999) else false

/-! ### The time in the ground truth -/

/-- The reported time of day and the time since 1970. -/
structure Report where
  sinceMidnight : Nat
  unix : Int
deriving DecidableEq, Repr

/-- `UpdateEnvironmentTimeOfDay`, OSIReporter.cpp:3850-3876: `offset` is `environment_timestamp_offset_`, `now` the seconds of the time stamp
of the ground truth, `start` and `epoch` the results of `GetSecondsSinceMidnight` and `GetEpochTimeFromString` for the date and time. -/
def update (offset : Option Int) (animation : Bool) (start : Nat) (epoch now : Int) : Option Int × Report :=
  if !animation then (offset, ⟨start, epoch⟩)
  else
    let offset := if offset.isNone && decide (now > 0) then some now else offset
    (offset, ⟨(start + ((now - offset.getD 0) % 4294967296).toNat) % 4294967296, epoch + now - offset.getD 0⟩)

/-- Reports of the steps of a simulation: time of day of the environment (animation, start, epoch) and time stamp of each. -/
def reports (offset : Option Int) : List ((Bool × Nat × Int) × Int) → List Report
  | [] => []
  | (e, now) :: l =>
    let r := update offset e.1 e.2.1 e.2.2 now
    r.2 :: reports r.1 l

end Verif.Clock

import Verif.Common.Macros

/-
`OSCParameterDistribution`, /repo/EnvironmentSimulator/Modules/ScenarioEngine/OSCTypeDefs/OSCParameterDistribution.cpp.

Simplifications: `unsigned int` has 32 bits and is modelled by `Nat` with explicit reduction; sizes of single sets and of
the list are below 2^32. Division by zero and reading outside a vector are undefined behaviour (`none`). Logging and
XML parsing are not modelled.
-/
namespace Verif.ParamDist
open Verif.Common

/-- `struct ParameterValueEntry`, OSCParameterDistribution.hpp:24-28. -/
structure Entry where
  name : String
  value : String
deriving DecidableEq, Repr

/-- One value set: the parameters assigned together. -/
abbrev Choice := List Entry

/-- The members of `class OSCParameterDistribution`, OSCParameterDistribution.hpp:30-34. -/
structure Dist where
  param_list : List (List Choice)
  index : Int
  requested_index : Int
deriving DecidableEq, Repr

def u32 (n : Nat) : Nat := n % 4294967296

/-- `static_cast<int>(unsigned int)`. -/
def toInt (n : Nat) : Int := if n < 2147483648 then n else (n : Int) - 4294967296

/-- After `Reset` (cpp:409-429) and `Load`. -/
def Dist.loaded (l : List (List Choice)) : Dist := { param_list := l, index := -1, requested_index := 0 }

/-- `GetNumPermutations`, cpp:270-285. -/
def Dist.getNumPermutations (d : Dist) : Nat :=
  if d.param_list.length = 0 then 0 else d.param_list.foldl (fun n s => u32 (n * s.length)) 1

/-- The loop of `GetNumParameters`, cpp:299-308, over the reversed list. -/
def numLoop : List (List Choice) → Nat → Nat → Option Nat
  | [], _, num => some num
  | s :: r, n, num =>
    if s.length = 0 then none
    else match s[n % s.length]? with
      | none => none
      | some c => numLoop r (n / s.length) (u32 (num + c.length))

/-- `GetNumParameters`, cpp:287-311. -/
def Dist.getNumParameters (d : Dist) : Option Nat :=
  if d.index < 0 then some 0 else numLoop d.param_list.reverse d.index.toNat 0

/-- The loop of `GetParameterEntry`, cpp:336-350, over the reversed list. -/
def entryLoop (p_idx : Nat) : List (List Choice) → Nat → Nat → Option Entry
  | [], _, _ => some ⟨"", ""⟩
  | s :: r, n, counter =>
    if s.length = 0 then none
    else match s[n % s.length]? with
      | none => none
      | some c =>
        let counter := u32 (counter + c.length)
        if p_idx < counter then c[counter - p_idx - 1]?
        else entryLoop p_idx r (n / s.length) counter

/-- `GetParameterEntry`, cpp:313-353. -/
def Dist.getParameterEntry (d : Dist) (param_index : Nat) : Option Entry :=
  (d.getNumParameters).bind fun n_parameters =>
    if param_index ≥ n_parameters then some ⟨"", ""⟩
    else if d.index ≥ toInt d.getNumPermutations then some ⟨"", ""⟩
    else if d.getNumPermutations = 0 ∨ d.index < 0 then some ⟨"", ""⟩
    else entryLoop (n_parameters - param_index - 1) d.param_list.reverse d.index.toNat 0

/-- `SetIndex`, cpp:431-443, with the return value. -/
def Dist.setIndex (d : Dist) (index : Nat) : Dist × Int :=
  if index ≥ d.getNumPermutations then (d, -1)
  else ({ d with index := toInt index, requested_index := -1 }, 0)

/-- `IncrementIndex`, cpp:445-457. -/
def Dist.incrementIndex (d : Dist) : Dist × Int :=
  if d.index < -1 ∨ d.index ≥ toInt (u32 (d.getNumPermutations + 4294967295)) then (d, -1)
  else ({ d with index := d.index + 1, requested_index := -1 }, d.index + 1)

/-- `SetRequestedIndex`, cpp:459-470. -/
def Dist.setRequestedIndex (d : Dist) (index : Nat) : Dist × Int :=
  if index ≥ d.getNumPermutations then (d, -1) else ({ d with requested_index := toInt index }, 0)

/-- The values of a `DistributionRange`, cpp:224-229, after at most `fuel` rounds of the loop; `none` if the loop is
not finished then. -/
def rangeLoop (upper step : Rat) : Nat → Rat → Option (List Rat)
  | 0, _ => none
  | fuel + 1, v => if v < upper + small then (rangeLoop upper step fuel (v + step)).map (v :: ·) else some []

end Verif.ParamDist

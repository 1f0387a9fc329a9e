import Verif.Common.Macros

/-
Triggers and conditions: OSCCondition.cpp / OSCCondition.hpp
(/repo/EnvironmentSimulator/Modules/ScenarioEngine/OSCTypeDefs).

Simplifications: times and physical quantities are rational numbers; logging and the global
condition callback are left out. What the concrete condition types compute
(`CheckCondition`) is an input of the model of `OSCCondition::Evaluate`; the loops over the
triggering entities are modelled in `Entity.lean`.
-/
namespace Verif.Condition
open Verif.Common

/-- `enum class Rule`, OSCCondition.hpp / CommonMini. -/
inductive Rule where
  | greaterThan | greaterOrEqual | lessThan | lessOrEqual | equalTo | notEqualTo
deriving DecidableEq, Repr

/-- `EvaluateRule(double, double, Rule)`, OSCCondition.cpp:56-87. -/
def evalRuleR (a b : Rat) : Rule → Bool
  | .greaterThan => decide (a > b + small)
  | .greaterOrEqual => decide (a ≥ b - small)
  | .lessThan => decide (a < b - small)
  | .lessOrEqual => decide (a ≤ b + small)
  | .equalTo => decide (a = b) || (decide (a > b - small) && decide (a < b + small))
  | .notEqualTo => !(decide (a = b) || (decide (a > b - small) && decide (a < b + small)))

/-- `EvaluateRule(int, int, Rule)`, OSCCondition.cpp:89-120. -/
def evalRuleI (a b : Int) : Rule → Bool
  | .greaterThan => decide (a > b)
  | .greaterOrEqual => decide (a ≥ b)
  | .lessThan => decide (a < b)
  | .lessOrEqual => decide (a ≤ b)
  | .equalTo => decide (a = b)
  | .notEqualTo => !(decide (a = b))

/-- `EvaluateRule(bool, bool, Rule)`, OSCCondition.cpp:155-186. -/
def evalRuleB (a b : Bool) : Rule → Bool
  | .greaterThan => a == true && b == false
  | .greaterOrEqual => a == b || (a == true && b == false)
  | .lessThan => a == false && b == true
  | .lessOrEqual => a == b || (a == false && b == true)
  | .equalTo => a == b
  | .notEqualTo => !(a == b)

/-- `EvaluateRule(std::string, std::string, Rule)`, OSCCondition.cpp:122-153. The comparison of
`std::string` (bytewise) and of `String` (by code point) agree on UTF-8 text. -/
def evalRuleS (a b : String) : Rule → Bool
  | .greaterThan => decide (b < a)
  | .greaterOrEqual => !decide (a < b)
  | .lessThan => decide (a < b)
  | .lessOrEqual => !decide (b < a)
  | .equalTo => decide (a = b)
  | .notEqualTo => !decide (a = b)

/-- `ConditionValue`, OSCCondition.hpp: one registered value. -/
structure Entry where
  time : Rat
  value : Bool
deriving DecidableEq, Repr

/-- `class ConditionDelay`, OSCCondition.hpp:31-58: registered values and `current_index_`. -/
structure Delay where
  values : List Entry := []
  idx : Nat := 0
deriving DecidableEq, Repr

/-- `std::lower_bound` with `pivot.time_ < t`, OSCCondition.cpp:1732-1735, as the number of
elements before the pivot. Simplification: linear search; the same as the binary search whenever
the entries are ordered by time (otherwise the C++ call has no specified result). -/
def lowerBound (t : Rat) (l : List Entry) : Nat := (l.takeWhile (fun e => decide (e.time < t))).length

/-- The insertion branch of `ConditionDelay::RegisterValue`, OSCCondition.cpp:1741-1786, with the
pivot at position `i`. -/
def insertAt (i : Nat) (time : Rat) (value : Bool) (l : List Entry) : List Entry :=
  match l[i]? with
  | none => l ++ [⟨time, value⟩]                                        -- 1784
  | some p =>
    if p.time = time then
      if value != p.value then
        if i = 0 then l.set 0 ⟨time, value⟩                             -- 1751
        else (l.eraseIdx (i + 1)).eraseIdx i                            -- 1756-1760
      else l
    else if p.value = value then l.set i ⟨time, p.value⟩                -- 1766
    else
      match l[i + 1]? with
      | some q => l.set (i + 1) ⟨time, q.value⟩                         -- 1773
      | none => if i = 0 then ⟨time, value⟩ :: l else l                 -- 1778-1781

/-- `ConditionDelay::RegisterValue`, OSCCondition.cpp:1716-1800 (the Boolean result is only used
for logging). -/
def register (time : Rat) (value : Bool) (d : Delay) : Delay :=
  match d.values.getLast? with
  | none => { d with values := [⟨time, value⟩] }
  | some b =>
    if time < b.time + small then
      { d with values := insertAt (lowerBound time d.values) time value d.values }
    else if value != b.value then
      { d with values := d.values ++ [⟨time, value⟩] }
    else d

/-- `ConditionDelay::ResetCurrentIndex`, OSCCondition.cpp:1808-1823: position of the first entry
with `time_ < time + SMALL_NUMBER`, 0 if there is none. -/
def resetIndex (time : Rat) (d : Delay) : Delay :=
  let n := (d.values.takeWhile (fun e => !decide (e.time < time + small))).length
  { d with idx := if n < d.values.length then n else 0 }

/-- The loop OSCCondition.cpp:1845-1848: number of entries passed and the disjunction of their values. -/
def passed (time : Rat) (l : List Entry) : List Entry :=
  l.takeWhile (fun e => decide (time > e.time - small))

/-- The ghost restart detection of `GetValueAtTime`, OSCCondition.cpp:1831-1838. `none`: undefined
behaviour, `values_[current_index_ - 1]` is outside the vector. -/
def rewindCheck (time : Rat) (d : Delay) : Option Delay :=
  if 0 < d.idx then
    match d.values[d.idx - 1]? with
    | none => none
    | some e => if time < e.time - small then some (resetIndex time d) else some d
  else some d

/-- The rest of `GetValueAtTime`, OSCCondition.cpp:1840-1857. -/
def readAt (time : Rat) (d : Delay) : Option (Delay × Bool) :=
  match d.values[d.idx]? with
  | none => some (d, (d.values.getLast?.map (·.value)).getD false)      -- 1840-1844
  | some e =>
    if time > e.time - small then
      let p := passed time (d.values.drop d.idx)
      some ({ d with idx := d.idx + p.length }, p.any (·.value))        -- 1847-1850
    else if 0 < d.idx then
      match d.values[d.idx - 1]? with
      | none => none
      | some e => some (d, e.value)                                     -- 1855
    else some (d, false)

/-- `ConditionDelay::GetValueAtTime`, OSCCondition.cpp:1825-1861. `none` stands for undefined
behaviour. -/
def getValueAt (time : Rat) (d : Delay) : Option (Delay × Bool) :=
  if d.values = [] then some (d, false)
  else (rewindCheck time d).bind (readAt time)

/-- `OSCCondition::ConditionEdge`, OSCCondition.hpp:84-91 (UNDEFINED is not modelled). -/
inductive Edge where
  | rising | falling | risingOrFalling | none
deriving DecidableEq, Repr

/-- `class OSCCondition`, OSCCondition.hpp:62-118: `evaluated` is `state_ >= EVALUATED`. `id`
identifies the condition, so that the value of its `CheckCondition` can be looked up. -/
structure Cond where
  id : Nat
  edge : Edge := .none
  delay : Rat := 0
  evaluated : Bool := false
  last : Bool := false
  hist : Delay := {}
  value : Bool := false
deriving DecidableEq, Repr

/-- `OSCCondition::CheckEdge`, OSCCondition.cpp:205-238. -/
def checkEdge (evaluated : Bool) (new old : Bool) (edge : Edge) : Bool :=
  if edge = .none then new
  else if evaluated then
    match edge with
    | .risingOrFalling => new != old
    | .falling => new == false && old == true
    | .rising => new == true && old == false
    | .none => new
  else false

/-- `OSCCondition::Reset`, OSCCondition.cpp:276-280. -/
def Cond.reset (c : Cond) : Cond := { c with hist := {}, value := false }

/-- `OSCCondition::Evaluate`, OSCCondition.cpp:282-316; `result` is what `CheckCondition` returned. -/
def evalCond (t : Rat) (result : Bool) (c : Cond) : Option (Cond × Bool) := do
  let cur := checkEdge c.evaluated result c.last c.edge
  let h := register t cur c.hist
  let (h, v) ← getValueAt (t - c.delay) h
  some ({ c with last := result, evaluated := true, hist := h, value := v }, v)

/-- The loop of `ConditionGroup::Evaluate`, OSCCondition.cpp:325-335. `ω i` is the value
`CheckCondition` of condition `i` gives if it is called now. -/
def evalConds (t : Rat) (ω : Nat → Bool) : Bool → List Cond → Option (List Cond × Bool)
  | r, [] => some ([], r)
  | r, c :: cs =>
    if r = true ∨ c.delay > 0 then do
      let (c', b) ← evalCond t (ω c.id) c
      let (cs', r') ← evalConds t ω (r && b) cs
      some (c' :: cs', r')
    else do
      let (cs', r') ← evalConds t ω r cs
      some (c :: cs', r')

/-- `ConditionGroup::Evaluate`, OSCCondition.cpp:318-338. -/
def evalGroup (t : Rat) (ω : Nat → Bool) (g : List Cond) : Option (List Cond × Bool) :=
  if g = [] then some (g, false) else evalConds t ω true g

/-- `class Trigger`, OSCCondition.hpp:137-157. -/
structure Trig where
  groups : List (List Cond)
  default : Bool
deriving DecidableEq, Repr

/-- The loop of `Trigger::Evaluate`, OSCCondition.cpp:350-354. -/
def evalGroups (t : Rat) (ω : Nat → Bool) : Bool → List (List Cond) → Option (List (List Cond) × Bool)
  | r, [] => some ([], r)
  | r, g :: gs => do
    let (g', b) ← evalGroup t ω g
    let (gs', r') ← evalGroups t ω (r || b) gs
    some (g' :: gs', r')

/-- `state_ = IDLE`, OSCCondition.cpp:368. -/
def Cond.idle (c : Cond) : Cond := { c with evaluated := false }

/-- The first part of `Trigger::Evaluate`, OSCCondition.cpp:342-355. -/
def trigResult (t : Rat) (ω : Nat → Bool) (T : Trig) : Option (List (List Cond) × Bool) :=
  if T.groups = [] then some ([], T.default) else evalGroups t ω false T.groups

/-- `Trigger::Evaluate`, OSCCondition.cpp:340-384. -/
def evalTrig (t : Rat) (ω : Nat → Bool) (T : Trig) : Option (Trig × Bool) := do
  let (gs, r) ← trigResult t ω T
  let gs := if r then gs.map (·.map Cond.idle) else gs
  some ({ T with groups := gs }, r)

/-- `Trigger::Reset`, OSCCondition.cpp:386-395. -/
def Trig.reset (T : Trig) : Trig := { T with groups := T.groups.map (·.map Cond.reset) }

end Verif.Condition

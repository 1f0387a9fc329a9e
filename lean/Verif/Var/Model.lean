import Verif.Params.Model
import Verif.Condition.Model
/-
Variable actions and the conditions on parameters and variables.

Code: OSCGlobalAction.cpp:33-52 and 151-236, ScenarioReader.cpp:2348-2420, OSCCondition.cpp (TrigByParameter,
TrigByVariable). Variables are kept in a second object of class `Parameters`, so the model of `Verif.Params` is used.

Simplifications: as in `Verif.Params`; `double` is `Rat`, so sums and products are exact.
-/
namespace Verif.Var
open Verif.Params Verif.Condition

/-- The value range of `int`. -/
def inRange (n : Int) : Option Int := if -2147483648 ≤ n ∧ n ≤ 2147483647 then some n else none

/-- Towards zero. -/
def trunc (x : Rat) : Int := if x < 0 then -((-x).floor) else x.floor

/-- `static_cast<int>(double)`; `none`: not in the range of `int`, undefined behaviour. -/
def toInt (x : Rat) : Option Int := inRange (trunc x)

/-- Addition of `int`; `none`: overflow. -/
def addInt (a b : Int) : Option Int := inRange (a + b)

/-- The actions with the values read from the file. -/
inductive Act where
  | set (name value : Text)
  | add (name : Text) (value : Rat)
  | mul (name : Text) (value : Rat)
deriving Repr

/-- The value in `VariableAddAction::Start` for an integer, OSCGlobalAction.cpp:173-180. -/
def addedInt (v : Int) (x : Rat) : Option Int := (toInt x).bind (addInt v)

/-- The value in `VariableMultiplyByAction::Start` for an integer, OSCGlobalAction.cpp:211-217. -/
def multipliedInt (v : Int) (x : Rat) : Option Int := toInt (v * x)

/-- `Start` of the variable actions, OSCGlobalAction.cpp:151-156, 166-193, 203-229. The result says whether
`OSCAction::Start` has been called; `none`: undefined behaviour. -/
def start (cv : Conv) (p : Params) (a : Act) : Option (Params × Bool) :=
  match a with
  | .set n v => some ((setByString cv p n v).1, true)
  | .add n x =>
    match getParameterEntry p.decls n with
    | none => some (p, false)
    | some d =>
      match d.type with
      | .integer => (addedInt ((getInt p n).getD 0) x).map (fun v => ((setInt cv p n v).1, true))
      | .double => some ((setDouble cv p n ((getDouble p n).getD 0 + x)).1, true)
      | _ => some (p, true)
  | .mul n x =>
    match getParameterEntry p.decls n with
    | none => some (p, false)
    | some d =>
      match d.type with
      | .integer => (multipliedInt ((getInt p n).getD 0) x).map (fun v => ((setInt cv p n v).1, true))
      | .double => some ((setDouble cv p n ((getDouble p n).getD 0 * x)).1, true)
      | _ => some (p, true)

/-- Actions one after another. -/
def startAll (cv : Conv) (p : Params) : List Act → Option Params
  | [] => some p
  | a :: as => (start cv p a).bind (fun r => startAll cv r.1 as)

/-- An action as it is written in the file: name and value may be references. -/
inductive XAct where
  | set (name value : Text)
  | add (name value : Text)
  | mul (name value : Text)
deriving Repr

/-- Reading of a VariableAction, ScenarioReader.cpp:2372-2420: `ps` are the parameters, `vs` the variables at the time of
reading; `none`: the application quits. -/
def readAct (cv : Conv) (ps vs : List Decl) : XAct → Option Act
  | .set n v => (readAttribute cv vs n).bind (fun n => (readAttribute cv ps v).map (fun v => .set n v))
  | .add n v => (readAttribute cv vs n).bind (fun n => (readAttribute cv vs v).map (fun v => .add n (cv.strtod v)))
  | .mul n v => (readAttribute cv vs n).bind (fun n => (readAttribute cv vs v).map (fun v => .mul n (cv.strtod v)))

/-- `CheckCondition` of `TrigByParameter` and `TrigByVariable`, OSCCondition.cpp: the entry is compared with the value
according to its type. -/
def check (cv : Conv) (p : Params) (name value : Text) (r : Rule) : Bool :=
  match getParameterEntry p.decls name with
  | none => false
  | some d =>
    match d.type with
    | .integer => evalRuleI d.int (cv.strtoi value) r
    | .double => evalRuleR d.dbl (cv.strtod value) r
    | .string => evalRuleS (String.ofList d.str) (String.ofList value) r
    | .bool => evalRuleB d.bool (value == "true".toList) r

end Verif.Var

/-!
# Options: registry and command line parser (`SE_Option`, `SE_Options`)

Sources: `EnvironmentSimulator/Modules/CommonMini/CommonMini.cpp` 2403-2896 and `CommonMini.hpp` 1058-1167.

Simplifications: texts that are only printed (`opt_desc_`, `optionOrder_`, `originalArgs_`, the application name)
are left out.  The vector `option_` has one slot per name of the table `configStrKeyEnumMap`
(`EnumConfig.hpp`), which is a bijection between names and slots, so the vector is a function of the name and the
table of names is the parameter `known`.
-/
namespace Verif.Options

/-- `SE_Option`, CommonMini.hpp 1058-1098.  `specified` stands for `!opt_str_.empty()` (CommonMini.cpp 2684-2687). -/
structure Opt where
  specified : Bool
  arg : String
  set : Bool
  values : List String
  default : String
  persistent : Bool
  autoApply : Bool
  single : Bool
deriving DecidableEq, Repr

/-- An unused slot of `option_` (default constructed `SE_Option`). -/
def Opt.blank : Opt := ⟨false, "", false, [], "", false, false, false⟩

/-- `SE_Options`, CommonMini.hpp 1100-1167. -/
structure Options where
  opts : String → Opt
  defaultOpt : Option String
  unknown : List String

/-- Replace the slot of one option. -/
def Options.put (s : Options) (o : String) (x : Opt) : Options :=
  ⟨fun p => if p = o then x else s.opts p, s.defaultOpt, s.unknown⟩

/-- `SE_Options::GetOption`, CommonMini.cpp 2798-2817: nullptr for a name outside the table. -/
def getOption (known : String → Bool) (s : Options) (o : String) : Option Opt :=
  if known o then some (s.opts o) else none

/-- `SE_Option::GetValue`, CommonMini.cpp 2437-2447. -/
def Opt.value (x : Opt) (index : Nat) : String :=
  if x.arg ≠ "" then x.values.getD index "" else ""

/-- `SE_Options::GetOptionValue`, CommonMini.cpp 2819-2829. -/
def getOptionValue (known : String → Bool) (s : Options) (o : String) (index : Nat) : String :=
  match getOption known s o with
  | none => ""
  | some x => x.value index

/-- `SE_Options::GetOptionSet`, CommonMini.cpp 2517-2529. -/
def getOptionSet (known : String → Bool) (s : Options) (o : String) : Bool :=
  match getOption known s o with
  | none => false
  | some x => x.set

/-- `SE_Options::AddOption`, CommonMini.cpp 2449-2495.  For a known name `GetOption` always finds the slot, so the
specification is written into it and value, set and persistent marks are kept; an unknown name quits (`none`). -/
def addOption (known : String → Bool) (s : Options) (o arg default : String) (autoApply single isDefault : Bool) :
    Option Options :=
  if known o then
    some ⟨(s.put o ⟨true, arg, (s.opts o).set, (s.opts o).values, default, (s.opts o).persistent, autoApply,
      single⟩).opts, if isDefault then some o else s.defaultOpt, s.unknown⟩
  else none

/-- The slot after the preliminary specification of lines 2603-2608: `AddOption(opt, opt, value)`. -/
def prelim (x : Opt) (value : String) : Opt :=
  if x.specified then x else ⟨true, value, x.set, x.values, "", x.persistent, false, true⟩

/-- The assignments of lines 2625 and 2634-2635. -/
def Opt.give (x : Opt) (values : List String) (persistent : Bool) : Opt :=
  { x with values := values, persistent := persistent, set := true }

/-- The assignments of lines 2634-2635 when no value is given. -/
def Opt.mark (x : Opt) (persistent : Bool) : Opt := { x with persistent := persistent, set := true }

/-- Lines 2646-2648. -/
def Opt.unset (x : Opt) : Opt := { x with set := false, persistent := false, values := [] }

/-- Line 2659. -/
def Opt.clear (x : Opt) : Opt := { x with values := [] }

/-- Line 2588. -/
def Opt.change (x : Opt) (index : Nat) (value : String) : Opt := { x with values := x.values.set index value }

/-- Lines 2887-2891. -/
def Opt.reset (x : Opt) : Opt := if x.persistent then x else { x with set := false, values := [] }

/-- Lines 2711-2716. -/
def Opt.takeFree (x : Opt) (a : String) : Opt :=
  if x.values = [] then { x with values := [a], set := true } else x

/-- `SE_Options::SetOptionValue`, CommonMini.cpp 2593-2635; the returned number is 0 or -1. -/
def setOptionValue (known : String → Bool) (s : Options) (o value : String) (add persistent : Bool) : Options × Int :=
  if known o then
    if value ≠ "" then
      if (prelim (s.opts o) value).arg ≠ "" then
        (s.put o ((prelim (s.opts o) value).give (value :: (if add then (s.opts o).values else [])) persistent), 0)
      else (s.put o (prelim (s.opts o) value), -1)
    else (s.put o ((prelim (s.opts o) value).mark persistent), 0)
  else (s, -1)

/-- `SE_Options::UnsetOption`, CommonMini.cpp 2637-2648. -/
def unsetOption (known : String → Bool) (s : Options) (o : String) : Options :=
  if known o then s.put o (s.opts o).unset else s

/-- `SE_Options::ClearOption`, CommonMini.cpp 2650-2660. -/
def clearOption (known : String → Bool) (s : Options) (o : String) : Options :=
  if known o then s.put o (s.opts o).clear else s

/-- `SE_Options::ChangeOptionArg`, CommonMini.cpp 2579-2591. -/
def changeOptionArg (known : String → Bool) (s : Options) (o value : String) (index : Int) : Options × Int :=
  if known o then
    if index < 0 ∨ (s.opts o).values.length ≤ index.toNat then (s, -1)
    else (s.put o ((s.opts o).change index.toNat value), 0)
  else (s, -1)

/-- `SE_Options::Reset`, CommonMini.cpp 2882-2896. -/
def reset (s : Options) : Options :=
  ⟨fun o => (s.opts o).reset, s.defaultOpt, []⟩

/-- `SE_Options::ApplyDefaultValues` on one slot, CommonMini.cpp 2783-2796. -/
def applyDefault (x : Opt) : Opt :=
  if x.values = [] ∧ x.default ≠ "" ∧ ((x.autoApply = false ∧ x.set = true) ∨ (x.autoApply = true ∧ x.set = false)) then
    { x with values := [x.default], set := true }
  else x

/-- `SE_Options::ApplyDefaultValues`, CommonMini.cpp 2783-2796. -/
def applyDefaults (s : Options) : Options := ⟨fun o => applyDefault (s.opts o), s.defaultOpt, s.unknown⟩

/-- Does an argument start with `--` (lines 2709 and 2732)? -/
def isOpt (a : String) : Bool := a.toList.take 2 == ['-', '-']

/-- The argument behind its two dashes (line 2721). -/
def optName (a : String) : String := String.ofList (a.toList.drop 2)

/-- `OSG_ARGS`, CommonMini.cpp 2568-2577: viewer arguments and their number of parameters. -/
def osgParams (a : String) : Option Nat :=
  (([("--clear-color", 1), ("--screen", 1), ("--window", 4), ("--borderless-window", 0), ("--SingleThreaded", 0),
    ("--CullDrawThreadPerContext", 0), ("--SingleThreaded", 0), ("--DrawThreadPerContext", 0),
    ("--CullThreadPerCameraDrawThreadPerContext", 0), ("--lodScale", 1)] : List (String × Nat)).find? (fun p => p.1 == a)).map (·.2)

/-- The inner loop of lines 2729-2748: values up to the next option are put in front, one by one. -/
def takeValues (x : Opt) : List String → Opt
  | [] => x
  | v :: vs => takeValues { x with values := v :: (if x.single then [] else x.values) } vs

/-- One option with the values that follow it (lines 2723-2762); the flag tells whether the argument was missing. -/
def useOption (x : Opt) (vs : List String) : Opt × Bool :=
  if x.arg = "" then ({ x with set := true }, false)
  else if vs ≠ [] then (takeValues { x with set := true } vs, false)
  else if x.default ≠ "" then ({ x with set := true, values := x.values ++ [x.default] }, false)
  else ({ x with set := false }, true)

/-- The main loop of `SE_Options::ParseArgs`, CommonMini.cpp 2705-2776, over the arguments from index 1.  The second
component tells whether `returnVal` is still 0.  `none`: an argument without dashes although no option is the default
one, which dereferences the null pointer `default_option_` (line 2711). -/
def parseLoop (known : String → Bool) (s : Options) : List String → Option (Options × Bool)
  | [] => some (s, true)
  | a :: rest =>
    if isOpt a then
      if known (optName a) then
        if (s.opts (optName a)).arg = "" then
          parseLoop known (s.put (optName a) (useOption (s.opts (optName a)) []).1) rest
        else
          (parseLoop known (s.put (optName a) (useOption (s.opts (optName a)) (rest.takeWhile (fun b => !isOpt b))).1)
            (rest.dropWhile (fun b => !isOpt b))).map
            (fun r => (r.1, r.2 && !(useOption (s.opts (optName a)) (rest.takeWhile (fun b => !isOpt b))).2))
      else
        match osgParams a with
        | some n => parseLoop known s (rest.drop n)
        | none => parseLoop known ⟨s.opts, s.defaultOpt, s.unknown ++ [a]⟩ rest
    else
      match s.defaultOpt with
      | none => none
      | some d => parseLoop known (s.put d ((s.opts d).takeFree a)) rest
termination_by l => l.length
decreasing_by
  all_goals simp_wf
  all_goals have := (List.dropWhile_sublist (l := rest) (fun b => !isOpt b)).length_le
  all_goals omega

/-- `SE_Options::ParseArgs`, CommonMini.cpp 2689-2781.  The result is true when the function returns 0. -/
def parseArgs (known : String → Bool) (s : Options) : List String → Option (Options × Bool)
  | [] => some (s, false)
  | _ :: args => (parseLoop known s args).map (fun r => (applyDefaults r.1, r.2))

end Verif.Options

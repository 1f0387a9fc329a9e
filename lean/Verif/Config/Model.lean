import Verif.Options.Model
import Verif.Util.Strings

/-!
# Config files and the final argument vector (`Config`, `ConfigParser`)

Sources: `EnvironmentSimulator/Modules/CommonMini/Config.cpp` 18-280 and `ConfigParser.cpp` 18-175.

Simplifications: a config file is the list of its leaf entries `(application, key, value)` in file order, which is the
order of the vector `m_children` of the YAML reader; the reader itself (`externals/yaml`) and the file system are not
modelled.  `argv_` is a list of strings.  Reading or shifting a slot at or beyond `argc_` is a fault (`none`), although
some such slots still hold old pointers.
-/
namespace Verif.Config

/-- One leaf of a config file: the application it is meant for, the key and the value. -/
structure Entry where
  app : String
  key : String
  value : String

/-- `CONFIG_FILE_OPTION_NAME`, CommonMini.hpp. -/
def configKey : String := "config_file_path"

/-- The option that names a config file, Config.cpp 115. -/
def configOpt : String := "--config_file_path"

/-- `StrToBool`, CommonMini.cpp 1137-1148. -/
def strToBool (s : String) : Option Bool :=
  if s = "true" ∨ s = "True" ∨ s = "TRUE" then some true
  else if s = "false" ∨ s = "False" ∨ s = "FALSE" then some false
  else none

/-- `SplitQuotedString(value, ' ')` on strings. -/
def splitValue (v : String) : List String := (Verif.Util.splitQuotedString v.toList ' ').map String.ofList

/-- The arguments made from one entry, ConfigParser.cpp 59-83. -/
def entryArgs (key value : String) : List String :=
  match splitValue value with
  | [v] =>
    match strToBool v with
    | some true => ["--" ++ key]
    | some false => []
    | none => ["--" ++ key, v]
  | vs => ("--" ++ key) :: vs

/-- `ConfigParser::ParseNode` over the entries and `ConfigParser::PutValue`, ConfigParser.cpp 46-108; `load` loads a
file that is referred to. -/
def loadEntries (app : String) (load : Nat → String → Option (List String × Nat)) (budget : Nat) :
    List Entry → Option (List String × Nat)
  | [] => some ([], budget)
  | e :: es =>
    if e.app = app then
      if e.key = configKey ∧ e.value ≠ "" then
        match load budget e.value with
        | none => none
        | some (a, b) => (loadEntries app load b es).map (fun r => (a ++ r.1, r.2))
      else (loadEntries app load budget es).map (fun r => (entryArgs e.key e.value ++ r.1, r.2))
    else loadEntries app load budget es

/-- `ConfigParser::ParseYamlFile`, ConfigParser.cpp 112-160, with the checks of lines 112-132.  `budget` is the number
of files that may still be loaded in this process (`LOADED_FILES_LIMIT - loadedFilesCount`; the counter is static and
never reset).  The result is the list of arguments and the budget left; `none` is the error that makes the program
quit.  `depth` bounds the nesting; every nested file has used up budget, so starting with `depth = budget` it never
ends first (this is part of what `loadFile_iff` says). -/
def loadFile (files : String → Option (List Entry)) (app : String) : Nat → Nat → String → Option (List String × Nat)
  | 0, _, _ => none
  | depth + 1, budget, f =>
    match files f with
    | none => none
    | some es => if budget = 0 then none else loadEntries app (loadFile files app depth) (budget - 1) es

/-- `ConfigParser::Parse`, ConfigParser.cpp 163-170, for several files. -/
def loadFiles (files : String → Option (List Entry)) (app : String) : Nat → List String → Option (List String × Nat)
  | budget, [] => some ([], budget)
  | budget, f :: fs =>
    match loadFile files app budget budget f with
    | none => none
    | some (a, b) => (loadFiles files app b fs).map (fun r => (a ++ r.1, r.2))

/-- The loop of Config.cpp 116-147 over the arguments from index `i`: an option naming a config file is replaced,
together with the file name, by the arguments of that file, and the scan goes on with those.  The test
`b < budget` only serves termination, a file that was loaded always uses up budget. -/
def expandLoop (files : String → Option (List Entry)) (app : String) (budget : Nat) :
    List String → Option (List String × Nat)
  | [] => some ([], budget)
  | [a] => some ([a], budget)
  | a :: f :: rest =>
    if a = configOpt then
      match loadFile files app budget budget f with
      | none => none
      | some (args, b) => if b < budget then expandLoop files app b (args ++ rest) else none
    else (expandLoop files app budget (f :: rest)).map (fun r => (a :: r.1, r.2))
termination_by l => (budget, l.length)

/-- Position of the last occurrence, Config.cpp 168-192 (`none` stands for -1). -/
def lastIndex (o : String) : List String → Option Nat
  | [] => none
  | a :: as =>
    match lastIndex o as with
    | some i => some (i + 1)
    | none => if a = o then some 0 else none

/-- `Config::RemoveOptionAndArguments`, Config.cpp 255-279.  The subtraction `argc_ - (n_arguments + 1)` is unsigned:
with fewer arguments than that the shifting loop runs out of the vector (`none`).  `end_index` is unsigned too: when
more elements are removed than it counts, the outer loop runs out of the vector (`none`). -/
def removeLoop (opt : String) (n : Nat) (args : List String) (i stop : Nat) : Option (List String) :=
  if i < stop then
    match args[i]? with
    | none => none
    | some a =>
      if a = opt then
        if args.length < n + 1 ∨ stop < min (args.length - i) (n + 1) then none
        else removeLoop opt n (args.take i ++ args.drop (i + (n + 1))) (i + 1) (stop - min (args.length - i) (n + 1))
      else removeLoop opt n args (i + 1) stop
  else some args
termination_by stop - i

/-- One of the three tests of `Config::PostProcessArgs`: `over` overrides an earlier `opt`. -/
def override (opt : String) (n : Nat) (optIndex overIndex : Option Nat) (args : List String) : Option (List String) :=
  match optIndex, overIndex with
  | some i, some j => if i < j then removeLoop opt n args 0 j else some args
  | _, _ => some args

/-- `Config::PostProcessArgs`, Config.cpp 164-211.  The four positions are taken before anything is removed. -/
def postProcess (args : List String) : Option (List String) :=
  ((override "--window" 4 (lastIndex "--window" args) (lastIndex "--headless" args) args).bind
    (override "--osc" 1 (lastIndex "--osc" args) (lastIndex "--osc_str" args))).bind
    (override "--osc_str" 1 (lastIndex "--osc_str" args) (lastIndex "--osc" args))

/-- `Config::ParseAndProcessConfigFiles`, Config.cpp 91-154: `paths` are the default and environment files,
`apiValues` the values of the option set through the interface (newest first, hence the reverse order). -/
def load (files : String → Option (List Entry)) (app : String) (budget : Nat) (paths apiValues : List String) :
    List String → Option (List String × Nat)
  | [] => none
  | exe :: args =>
    match loadFiles files app budget paths with
    | none => none
    | some (a, b1) =>
      match loadFiles files app b1 apiValues.reverse with
      | none => none
      | some (c, b2) =>
        match expandLoop files app b2 args with
        | none => none
        | some (r, b3) => (postProcess (exe :: (a ++ c ++ r))).map (fun x => (x, b3))

end Verif.Config

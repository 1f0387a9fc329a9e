import Verif.Catalog.Model
import Verif.File.Spec

/-!
# What a reference to a catalog means

The file system is a function from locations to contents.  The meaning of a
reference is said from the names in it, the registered directories and the files
alone.
-/

namespace Verif.Catalog

open Verif.File

/-- A name without separators, as one gives to a catalog. -/
def Plain (n : Text) : Prop := n ≠ [] ∧ ∀ c ∈ n, c ≠ '/' ∧ c ≠ '\\' ∧ c ≠ ':'

/-- The name of the last directory in a path that has a name in it. -/
inductive LastName : Text → Text → Prop
  | plain (n : Text) : (∀ c ∈ n, c ≠ '/' ∧ c ≠ '\\') → LastName n n
  | within (p : Text) (s : Char) (n : Text) : (s = '/' ∨ s = '\\') → n ≠ [] →
      (∀ c ∈ n, c ≠ '/' ∧ c ≠ '\\') → LastName (p ++ s :: n) n
  | trailing (p : Text) (s t : Char) (n : Text) : (s = '/' ∨ s = '\\') → (t = '/' ∨ t = '\\') → n ≠ [] →
      (∀ c ∈ n, c ≠ '/' ∧ c ≠ '\\') → LastName (p ++ s :: (n ++ [t])) n

/-- The location reached by following a path from `b`, even if it begins with a
separator. -/
def inside (b : Loc) (d : Text) : Loc := (d.splitOnP (fun c => c == '/' || c == '\\')).foldl walk b

/-- Where a registered directory is looked for: from the current directory, from
that of the scenario, and, by its last name alone, among the catalogs delivered with
the program. -/
def bases (cwd scn exe : Loc) (last : Text → Text) (d : Text) : List Loc :=
  [resolve cwd d, inside scn d, inside exe ("../resources/xosc/Catalogs/".toList ++ last d)]

/-- The file of a catalog: the first that exists in the current directory, the
paths set by the user, and the registered directories in their order. -/
def fileOf (cwd scn exe : Loc) (F : Loc → Option Content) (last : Text → Text) (paths dirs : List Text)
    (name : Text) : Option Loc :=
  ((cwd :: (paths.map (resolve cwd) ++ dirs.flatMap (bases cwd scn exe last))).map
    (fun b => (name ++ ".xosc".toList) :: b)).find? (fun l => (F l).isSome)

/-- A file, by its path, in a directory other than the root. -/
def FileIn (cwd : Loc) (path : Text) (dir : Loc) : Prop :=
  ∃ n, IsName path n ∧ n ≠ [] ∧ n ≠ ['.'] ∧ n ≠ ['.', '.'] ∧ path ≠ '/' :: n ∧ path ≠ '\\' :: n ∧
    resolve cwd path = n :: dir

/-- The program is run in `cwd` with the files `F`, the scenario in `scn` and the
executable in `exe`. -/
structure World (e : Env) (cwd scn exe : Loc) (F : Loc → Option Content) : Prop where
  files : ∀ t, e.files t = F (resolve cwd t)
  osc : FileIn cwd e.osc scn
  exe : FileIn cwd e.exe exe

/-- No name in a catalog file has a parameter in it. -/
def LiteralNames (F : Loc → Option Content) (rd : Text → Option Text) : Prop :=
  ∀ l es, F l = some (.catalog es) → ∀ x ∈ es, rd x.name = some x.name

/-- The reading of attributes at an operation. -/
def Op.rd : Op → Text → Option Text
  | .register rd _ => rd
  | .reference rd _ _ => rd

/-- `d` names a catalog file. -/
def NamesFile (d : Text) : Prop := ∃ p, d = p ++ ".xosc".toList

/-- The directories registered by an operation: that given, or that of a file given. -/
inductive Registers : Op → List Text → Prop
  | none (rd : Text → Option Text) : Registers (.register rd .noDirectory) []
  | empty (rd : Text → Option Text) (raw : Text) : rd raw = some [] →
      Registers (.register rd (.directory (some raw))) []
  | dir (rd : Text → Option Text) (raw d : Text) : rd raw = some d → d ≠ [] → ¬ NamesFile d →
      Registers (.register rd (.directory (some raw))) [d]
  | file (rd : Text → Option Text) (raw d : Text) : rd raw = some d → NamesFile d →
      Registers (.register rd (.directory (some raw))) [dirNameOf d]
  | reference (rd : Text → Option Text) (c n : Text) : Registers (.reference rd c n) []

/-- The directories registered by a sequence of operations. -/
inductive RegistersAll : List Op → List Text → Prop
  | nil : RegistersAll [] []
  | cons (o : Op) (os : List Op) (a b : List Text) : Registers o a → RegistersAll os b →
      RegistersAll (o :: os) (a ++ b)

/-- `x` is the first element with the name `n`. -/
def FirstNamed (es : List Elem) (n : Text) (x : Elem) : Prop :=
  ∃ a b, es = a ++ x :: b ∧ x.name = n ∧ ∀ y ∈ a, y.name ≠ n

/-- What an element of a catalog becomes as an entity of the scenario. -/
inductive Becomes : Elem → Option Obj → Prop
  | vehicle (n : Text) (b : Nat) : Becomes ⟨"Vehicle".toList, n, b⟩ (some (.vehicle b))
  | pedestrian (n : Text) (b : Nat) : Becomes ⟨"Pedestrian".toList, n, b⟩ (some (.pedestrian b))
  | miscObject (n : Text) (b : Nat) : Becomes ⟨"MiscObject".toList, n, b⟩ (some (.miscObject b))
  | other (t n : Text) (b : Nat) : t ≠ "Vehicle".toList → t ≠ "Pedestrian".toList → t ≠ "MiscObject".toList →
      Becomes ⟨t, n, b⟩ none

/-- The controller that an `ObjectController` stands for. -/
inductive Stands : CtrlNode → List Nat → Prop
  | inline (b : Nat) : Stands (.inline b) [b]
  | found (n : Text) (b : Nat) : Stands (.ref (some ⟨n, .controller, b⟩)) [b]
  | missing : Stands (.ref none) []
  | wrong (n : Text) (t : CatType) (b : Nat) : t ≠ .controller → Stands (.ref (some ⟨n, t, b⟩)) []

/-- The controllers of all of them. -/
inductive StandAll : List CtrlNode → List Nat → Prop
  | nil : StandAll [] []
  | cons (n : CtrlNode) (ns : List CtrlNode) (a b : List Nat) : Stands n a → StandAll ns b →
      StandAll (n :: ns) (a ++ b)

end Verif.Catalog

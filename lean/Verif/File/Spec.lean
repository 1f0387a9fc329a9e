import Verif.File.Model

/-!
# What a path means

A location is the list of names from the root, the last one first.  `resolve`
says which location a path names for a process in the directory `cwd` (on a
file system without symbolic links, with both kinds of slash as separators).
-/

namespace Verif.File

/-- A location in the tree: the names from the root, innermost first. -/
abbrev Loc := List Text

/-- A step from a location along one segment of a path. -/
def walk (l : Loc) (seg : Text) : Loc :=
  if seg = [] ∨ seg = ['.'] then l
  else if seg = ['.', '.'] then l.tail
  else seg :: l

/-- The path begins at the root. -/
def Rooted (s : Text) : Prop := ∃ c r, s = c :: r ∧ (c = '/' ∨ c = '\\')

instance (s : Text) : Decidable (Rooted s) :=
  match s with
  | [] => isFalse (by rintro ⟨c, r, h, _⟩; cases h)
  | c :: r =>
    if h : c = '/' ∨ c = '\\' then isTrue ⟨c, r, rfl, h⟩
    else isFalse (by rintro ⟨c', r', h', hc⟩; cases h'; exact h hc)

/-- The location named by a path for a process in `cwd`. -/
def resolve (cwd : Loc) (s : Text) : Loc :=
  (s.splitOnP (fun c => c == '/' || c == '\\')).foldl walk (if Rooted s then [] else cwd)

/-- The documented search order (`docs/user_guide/support-qa.adoc`): in the
current directory, then in the directories set by the user, then in the special
ones; in each place the path as specified and then the bare file name. -/
def places (cwd : Loc) (env dirs : List Text) (file name : Text) : List Loc :=
  (cwd :: (env.map (resolve cwd) ++ dirs.map (resolve cwd))).flatMap
    (fun b => [resolve b file, resolve b name])

/-- The text after the last separator. -/
def IsName (s name : Text) : Prop :=
  (∀ c ∈ name, c ≠ '/' ∧ c ≠ '\\') ∧
    (s = name ∨ ∃ d c, s = d ++ c :: name ∧ (c = '/' ∨ c = '\\'))

end Verif.File

/-!
# File names and the search for files

Model of the path functions in `CommonMini.cpp` and of the file names used for
the runs of a parameter distribution.  A path is a list of characters.

Simplifications: `std::getline` does not yield the empty segment after a final
separator; the code ignores empty segments, so they are kept here.  Whether a
file exists is a function `ex` of the path given to the file system.
-/

namespace Verif.File

abbrev Text := List Char

/-- `std::string::find_last_of` with the set of characters `p`; `none` is
`npos`.  Used at `CommonMini.cpp:1207,1214,1265,1278,1289,1404`. -/
def findLast (p : Char → Bool) : Text → Option Nat
  | [] => none
  | c :: cs => ((findLast p cs).map (· + 1)).or (if p c then some 0 else none)

/-- The characters in `"\\/"`. -/
def isSep (c : Char) : Bool := c == '/' || c == '\\'

/-- The character in `"."`. -/
def isDot (c : Char) : Bool := c == '.'

/-- `DirNameOf`, `CommonMini.cpp:1200-1210`. -/
def dirNameOf (s : Text) : Text :=
  if s.isEmpty then [] else
  match findLast isSep s with
  | none => ['.', '/']
  | some pos => s.take pos

/-- `FileNameOf`, `CommonMini.cpp:1212-1221`. -/
def fileNameOf (s : Text) : Text :=
  match findLast isSep s with
  | some pos => s.drop (pos + 1)
  | none => s

/-- `FileNameExtOf`, `CommonMini.cpp:1263-1274`. -/
def fileNameExtOf (s : Text) : Text :=
  match findLast isDot s with
  | some pos => s.drop pos
  | none => []

/-- `std::string::substr (start, end - start)` with the difference taken in
`size_t`: if `end < start` it wraps to a number larger than any length and the
rest of the string is returned.  Used at `CommonMini.cpp:1291`. -/
def substrTo (s : Text) (start stop : Nat) : Text :=
  if stop < start then s.drop start else (s.drop start).take (stop - start)

/-- The start of the file name, `CommonMini.cpp:1278-1286`. -/
def nameStart (s : Text) : Nat :=
  match findLast isSep s with
  | some pos => pos + 1
  | none => 0

/-- `FileNameWithoutExtOf`, `CommonMini.cpp:1276-1297`. -/
def fileNameWithoutExtOf (s : Text) : Text :=
  match findLast isDot s with
  | some stop => substrTo s (nameStart s) stop
  | none => s.drop (nameStart s)

/-- `FilePathWithoutExtOf`, `CommonMini.cpp:1402-1413`. -/
def filePathWithoutExtOf (s : Text) : Text :=
  match findLast isDot s with
  | some stop => s.take stop
  | none => s

/-- The replacement of `\` by `/`, `CommonMini.cpp:1425-1432`. -/
def slash (c : Char) : Char := if c == '\\' then '/' else c

/-- `is_absolute`, `CommonMini.cpp:1435`. -/
def isAbsolute (s : Text) : Bool :=
  match s.map slash with
  | [] => false
  | c :: _ => c == '/'

/-- One segment; the stack `components` is kept with its back first,
`CommonMini.cpp:1443-1472`. -/
def pushSeg (abs : Bool) (comps : List Text) (seg : Text) : List Text :=
  if seg = [] ∨ seg = ['.'] then comps
  else if seg = ['.', '.'] then
    match comps with
    | t :: r => if t ≠ ['.', '.'] then r else seg :: t :: r
    | [] => if abs then [] else [seg]
  else seg :: comps

/-- The loop over the segments, `CommonMini.cpp:1437-1472`. -/
def components (s : Text) : List Text :=
  (((s.map slash).splitOn '/').foldl (pushSeg (isAbsolute s)) []).reverse

/-- Joining with the separator, `CommonMini.cpp:1482-1489`. -/
def join : List Text → Text
  | [] => []
  | [a] => a
  | a :: b :: r => a ++ '/' :: join (b :: r)

/-- `LexicallyNormalizePath`, `CommonMini.cpp:1415-1502`. -/
def normalize (s : Text) : Text :=
  let out := (if isAbsolute s then ['/'] else []) ++ join (components s)
  if out.isEmpty then (if isAbsolute s then ['/'] else ['.']) else out

/-- `CombineDirectoryPathAndFilepath`, `CommonMini.cpp:245-264`.  (For a path
of one character `file_path[1]` is the terminating zero.) -/
def combine (dir file : Text) : Text :=
  match file with
  | [] => file
  | c :: r =>
    if c ≠ '/' ∧ c ≠ '\\' ∧ r.head? ≠ some ':' then
      let path := if c ≠ '.' then '.' :: '/' :: file else file
      if dir ≠ [] then dir ++ '/' :: path else path
    else file

/-- The path and, if different, the bare file name, in one directory,
`CommonMini.cpp:281-297`. -/
def inDir (file dir : Text) : List Text :=
  if fileNameOf file ≠ file then
    [combine dir file, combine dir (fileNameOf file)]
  else [combine dir file]

/-- `file_name_candidates`, `CommonMini.cpp:269-297`.  `env` are the paths set
by the user, `dirs` the directories given by the caller. -/
def candidates (env dirs : List Text) (file : Text) : List Text :=
  (if fileNameOf file ≠ file then [file, fileNameOf file] else [file])
    ++ env.flatMap (inDir file) ++ dirs.flatMap (inDir file)

/-- `LocateFile`, `CommonMini.cpp:266-335`: `found` and the returned path. -/
def locate (ex : Text → Bool) (env dirs : List Text) (file : Text) : Bool × Text :=
  match (candidates env dirs file).find? ex with
  | some c => (true, normalize c)
  | none => (false, file)

/-- `std::to_string` of a natural number. -/
def digits (n : Nat) : Text := Nat.toDigits 10 n

/-- `OSCParameterDistribution::AddInfoToFilepath`,
`OSCParameterDistribution.cpp:387-393`: `index` is `GetIndex ()`, `num` is
`GetNumPermutations ()`. -/
def addInfo (index num : Nat) (file : Text) : Text :=
  filePathWithoutExtOf file ++ '_' :: digits (index + 1)
    ++ ['_', 'o', 'f', '_'] ++ digits num ++ fileNameExtOf file

end Verif.File

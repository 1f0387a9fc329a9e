/-
String, byte and date helpers: CommonMini.cpp
(/repo/EnvironmentSimulator/Modules/CommonMini).

Simplification: `std::string` is `List Char`; file system paths are plain strings.
-/
namespace Verif.Util

/-- `str.find(d)`: the part before the first `d` and the part after it; `none` is `npos`. -/
def cut (d : Char) : List Char → Option (List Char × List Char)
  | [] => none
  | c :: r =>
    if c = d then some ([], r)
    else match cut d r with
      | none => none
      | some (a, b) => some (c :: a, b)

theorem cut_some {d : Char} {s a b : List Char} (h : cut d s = some (a, b)) : s = a ++ d :: b ∧ d ∉ a := by
  induction s generalizing a b with
  | nil => simp [cut] at h
  | cons c r ih =>
    simp only [cut] at h
    split at h
    · next hc => simp at h; obtain ⟨rfl, rfl⟩ := h; simp [hc]
    · next hc =>
      cases hr : cut d r with
      | none => simp [hr] at h
      | some x =>
        obtain ⟨a', b'⟩ := x
        simp [hr] at h
        obtain ⟨rfl, rfl⟩ := h
        obtain ⟨h1, h2⟩ := ih hr
        exact ⟨by rw [List.cons_append, ← h1], by simp [h2, Ne.symm hc]⟩

theorem cut_none {d : Char} {s : List Char} : cut d s = none ↔ d ∉ s := by
  induction s with
  | nil => simp [cut]
  | cons c r ih =>
    simp only [cut]
    split
    · next hc => simp [hc]
    · next hc =>
      cases hr : cut d r with
      | none => simp [ih.1 hr, Ne.symm hc]
      | some x => simp [hr] at ih; simp [ih]

theorem cut_append {d : Char} {a b : List Char} (h : d ∉ a) : cut d (a ++ d :: b) = some (a, b) := by
  induction a with
  | nil => simp [cut]
  | cons c a ih =>
    simp at h
    simp [cut, Ne.symm h.1, ih h.2]

/-- The `while` loop and the last segment of `SplitString`, CommonMini.cpp:1158-1166, on the part of the
string from `start` on. -/
def splitFrom (d : Char) (s : List Char) : List (List Char) :=
  match _h : cut d s with
  | none => [s]
  | some (a, r) => a :: splitFrom d r
termination_by s.length
decreasing_by rw [(cut_some _h).1]; simp; omega

/-- `SplitString`, CommonMini.cpp:1150-1169. -/
def splitString (s : List Char) (d : Char) : List (List Char) :=
  if s = [] then [] else splitFrom d s

/-- The loop of `SplitQuotedString`, CommonMini.cpp:1179-1197, on the part of the string from `pos + 1` on. -/
def splitQuotedFrom (s : List Char) (d : Char) : List (List Char) :=
  match _h : cut '"' s with
  | none => splitString s d
  | some (_, r) =>
    match _h2 : cut '"' r with
    | none => splitString r d
    | some (q, r2) => q :: splitQuotedFrom r2 d
termination_by s.length
decreasing_by rw [(cut_some _h).1, (cut_some _h2).1]; simp; omega

/-- `SplitQuotedString`, CommonMini.cpp:1171-1198. -/
def splitQuotedString (s : List Char) (d : Char) : List (List Char) :=
  if s = [] then [] else splitQuotedFrom s d

/-- `find_last_of("\\/")` used by the path helpers: the part up to and excluding the last separator, and
the part after it; `none` if there is no separator. -/
def lastSep (s : List Char) : Option (List Char × List Char) :=
  let isSep : Char → Bool := fun c => c == '/' || c == '\\'
  let tail := (s.reverse.takeWhile (fun c => !isSep c)).reverse
  if s.any isSep then some (s.take (s.length - tail.length - 1), tail) else none

/-- `DirNameOf`, CommonMini.cpp:1200-1210. -/
def dirNameOf (s : List Char) : List Char :=
  if s = [] then [] else match lastSep s with | none => ['.', '/'] | some (d, _) => d

/-- `FileNameOf`, CommonMini.cpp:1212-1221. -/
def fileNameOf (s : List Char) : List Char :=
  match lastSep s with | none => s | some (_, f) => f

/-- Bytes in memory, from the start of the buffer. -/
abbrev Mem := Nat → UInt8

/-- one exchange of bytes, CommonMini.cpp:833-835 -/
def swap2 (m : Mem) (a b : Nat) : Mem :=
  fun p => if p = b then m a else if p = a then m b else m p

/-- The inner loop CommonMini.cpp:831-836 for the element starting at `base`: `j` from 0 to `k - 1`. -/
def swapElem (size base : Nat) (m : Mem) : Nat → Mem
  | 0 => m
  | k + 1 => let m := swapElem size base m k
             swap2 m (base + k) (base + (size - k - 1))

/-- The outer loop CommonMini.cpp:829-838: elements 0 to `n - 1`. -/
def swapElems (size : Nat) (m : Mem) : Nat → Mem
  | 0 => m
  | n + 1 => swapElem size (n * size) (swapElems size m n) (size / 2)

/-- `SwapByteOrder`, CommonMini.cpp:819-840. Simplification: the sizes are natural numbers. -/
def swapByteOrder (m : Mem) (data_type_size buf_size : Nat) : Mem :=
  if data_type_size < 2 then m else swapElems data_type_size m (buf_size / data_type_size)

/-- Date and time fields as `std::get_time` delivers them (`tm_year` counts from 1900, `tm_mon` from 0). -/
structure Tm where
  year : Int
  mon : Int
  mday : Int
  hour : Int
  min : Int
  sec : Int
deriving DecidableEq, Repr

/-- The checks of `IsValidDateTimeFormat` on the parsed fields, CommonMini.cpp:903-927.
Not modelled: the regular expression, `std::get_time` and the check of milliseconds. -/
def validFields (t : Tm) : Bool :=
  if t.year < 0 ∨ t.year > 20000 ∨ t.mon < 0 ∨ t.mon > 11 ∨ t.mday < 1 ∨ t.mday > 31 ∨ t.hour < 0 ∨ t.hour > 23 ∨
      t.min < 0 ∨ t.min > 59 ∨ t.sec < 0 ∨ t.sec > 59 then false
  else if t.mon = 1 ∧ t.mday > 29 then false
  else if (t.mon = 3 ∨ t.mon = 5 ∨ t.mon = 8 ∨ t.mon = 10) ∧ t.mday > 30 then false
  else if t.mon = 1 ∧ t.mday = 29 then
    let year := t.year + 1900
    if year.tmod 4 ≠ 0 then false
    else if year.tmod 100 = 0 ∧ year.tmod 400 ≠ 0 then false
    else true
  else true

/-- `GetSecondsSinceMidnight`, CommonMini.cpp:947-978, on the parsed fields. -/
def secondsSinceMidnight (t : Tm) : Int := t.hour * 3600 + t.min * 60 + t.sec

/-- `IsNumber`, CommonMini.cpp:842-860. -/
def isNumberFrom (max_digits : Int) : Int → List Char → Bool
  | _, [] => true
  | counter, c :: r =>
    let counter := counter + 1
    if !c.isDigit || (decide (max_digits > -1) && decide (counter > max_digits)) then false
    else isNumberFrom max_digits counter r

def isNumber (s : List Char) (max_digits : Int) : Bool :=
  if s = [] then false else isNumberFrom max_digits 0 s

/-- The tokens of `LexicallyNormalizePath`: `\` replaced by `/` and split at `/`, CommonMini.cpp:1424-1442.
Simplification: `std::getline` gives no empty token at the end; empty tokens are ignored anyway. -/
def pathTokens (s : List Char) : List (List Char) :=
  splitString (s.map (fun c => if c = '\\' then '/' else c)) '/'

def dot : List Char := ['.']
def dotdot : List Char := ['.', '.']

/-- The body of the loop of `LexicallyNormalizePath`, CommonMini.cpp:1443-1469. -/
def normStep (absolute : Bool) (components : List (List Char)) (segment : List Char) : List (List Char) :=
  if segment = [] ∨ segment = dot then components
  else if segment = dotdot then
    if components ≠ [] ∧ components.getLast? ≠ some dotdot then components.dropLast
    else if ¬ (absolute = true ∧ components = []) then components ++ [segment]
    else components
  else components ++ [segment]

/-- Joining with the separator, CommonMini.cpp:1480-1488. -/
def joinPath : List (List Char) → List Char
  | [] => []
  | [c] => c
  | c :: r => c ++ '/' :: joinPath r

/-- `LexicallyNormalizePath`, CommonMini.cpp:1415-1501. -/
def isAbsolute (s : List Char) : Bool := s.head? == some '/' || s.head? == some '\\'

def normalizePath (s : List Char) : List Char :=
  let absolute := isAbsolute s
  let components := (pathTokens s).foldl (normStep absolute) []
  let path := (if absolute then ['/'] else []) ++ joinPath components
  if path = [] then (if absolute then ['/'] else ['.']) else path

end Verif.Util

/-
The text log.

Source: EnvironmentSimulator/Modules/CommonMini/logger.{hpp,cpp}, CommonMini.cpp:1050-1062,
Libraries/esminiLib/esminiLib.cpp:463-466, 981-1000, 1925-1933.

Simplifications: a file is the list of pieces written to it, a piece being the version text or one
message; which paths exist and which can be opened for writing is given and does not change;
paths are POSIX paths with one root; time stamps are part of the message; formatting with arguments
is given by its result (`none`: the formatting library throws), without arguments it is modelled;
the set of modules is a list.
-/
namespace Verif.Log

abbrev Text := List Char

/-! ### Paths -/

/-- `fs::path::filename` -/
def filename (p : Text) : Text := (p.reverse.takeWhile (· ≠ '/')).reverse

/-- Text up to the last separator, included. -/
def dirPart (p : Text) : Text := (p.reverse.dropWhile (· ≠ '/')).reverse

/-- `fs::path::parent_path` -/
def parent (p : Text) : Text :=
  if dirPart p = [] then []
  else if ((dirPart p).reverse.dropWhile (· = '/')).reverse = [] then ['/']
  else ((dirPart p).reverse.dropWhile (· = '/')).reverse

/-- `fs::path::has_extension` of a file name. -/
def hasExt (f : Text) : Bool := f ≠ ['.'] && f ≠ ['.', '.'] && f.tail.contains '.'

/-- `fs::path::stem` of a file name. -/
def stem (f : Text) : Text :=
  if hasExt f then ((f.reverse.dropWhile (· ≠ '.')).drop 1).reverse else f

/-- `ValidateAndCreateFilePath`, logger.cpp:37-61; `none`: it throws. -/
def validate (ex : Text → Bool) (p name ext : Text) : Option Text :=
  if parent p ≠ [] ∧ ex (parent p) = false then none
  else if filename p = [] then some (p ++ name)
  else if hasExt (filename p) = false then
    if ex p then some (p ++ '/' :: name) else some (p ++ '.' :: ext)
  else some p

/-- `LOG_FILENAME`, CommonMini.hpp:70. -/
def logName : Text := "log.txt".toList

/-! ### State -/

/-- `LogLevel`, logger.hpp:35-41. -/
inductive Level
  | debug | info | warn | error
  deriving DecidableEq, Repr

def Level.num : Level → Nat
  | debug => 0 | info => 1 | warn => 2 | error => 3

inductive Piece
  | version
  | msg (t : Text)
  deriving DecidableEq, Repr

/-- File system: what exists, what can be opened for writing. -/
structure Fs where
  ex : Text → Bool
  canOpen : Text → Bool

/-- The options used by the logger. -/
structure Opts where
  noStdout : Bool := false
  noLog : Bool := false
  append : Bool := false
  path : Text := logName
  deriving DecidableEq

/-- `TxtLogger`, logger.hpp:166-191, with the outputs. `calls`: calls of callbacks. -/
structure World where
  opts : Opts := {}
  only : List Text := []
  skip : List Text := []
  level : Level := .info
  /-- `logFile_` with the path it was opened with -/
  file : Option Text := none
  current : Text := []
  firstConsole : Bool := true
  firstFile : Bool := true
  consoleOn : Bool := true
  fileOn : Bool := true
  callbacks : List Nat := []
  buffer : List Text := []
  cap : Nat := 0
  console : List Piece := []
  disk : Text → List Piece := fun _ => []
  calls : List (Nat × Text) := []

/-! ### Functions -/

/-- `ShouldLogModule`, logger.cpp:239-270. -/
def shouldLog (w : World) (file : Text) : Bool :=
  if w.only ≠ [] then w.only.contains (stem (filename file))
  else if w.skip ≠ [] then !w.skip.contains (stem (filename file))
  else true

/-- `GetVerbosityLevelFromStr`, logger.cpp:199-218. -/
def levelOf (s : Text) : Level :=
  if s = "debug".toList then .debug
  else if s = "info".toList then .info
  else if s = "warn".toList then .warn
  else if s = "error".toList then .error
  else .info

/-- `StopFileLogging`, logger.cpp:228-237. -/
def stopFile (w : World) : World := { w with file := none, current := [], firstFile := true }

/-- `Stop`, logger.cpp:220-226. -/
def stop (w : World) : World := { stopFile w with only := [], skip := [], firstConsole := true }

/-- `CreateLogFilePath`, logger.cpp:124-136. -/
def createPath (fs : Fs) (w : World) : Option Text :=
  if w.opts.noLog then some []
  else if w.opts.path = [] then some []
  else validate fs.ex w.opts.path logName "txt".toList

def setDisk (d : Text → List Piece) (p : Text) (c : List Piece) : Text → List Piece :=
  fun q => if q = p then c else d q

/-- `CreateLogFile`, logger.cpp:138-182: the world and whether a file is open; `none`: it throws. -/
def createFile (fs : Fs) (w : World) : Option (World × Bool) :=
  match createPath fs w with
  | none => none
  | some p =>
    if p = [] then some (w, false)
    else
      let w := if w.file.isSome then stopFile w else w
      if fs.canOpen p = false then some ({ w with file := none }, false)
      else if w.opts.append then some ({ w with file := some p, current := p }, true)
      else some ({ w with file := some p, current := p, disk := setDisk w.disk p [] }, true)

/-- `SetLogFilePath`, logger.cpp:184-197; `none`: it throws. -/
def setPath (fs : Fs) (p : Text) (w : World) : Option World :=
  match validate fs.ex p logName "txt".toList with
  | none => none
  | some q =>
    if p = [] ∨ w.current = q then some w
    else
      let w := stopFile w
      (createFile fs { w with opts := { w.opts with path := q } }).map (·.1)

/-- `fputs` to the open file. -/
def put (w : World) (x : Piece) : World :=
  match w.file with
  | some p => { w with disk := setDisk w.disk p (w.disk p ++ [x]) }
  | none => w

/-- Console part of `Log`, logger.cpp:349-357. -/
def toConsole (m : Text) (w : World) : World :=
  if w.consoleOn then
    { w with console := w.console ++ (if w.firstConsole then [.version] else []) ++ [.msg m],
             firstConsole := false }
  else w

/-- Version text before the first message of a file, logger.cpp:367-372. -/
def toOpenFile (m : Text) (w : World) : World :=
  let w := if w.firstFile then { put w .version with firstFile := false } else w
  put w (.msg m)

/-- File part of `Log`, logger.cpp:358-373; exceptions are caught (375-382). -/
def toFile (fs : Fs) (m : Text) (w : World) : World :=
  if w.fileOn then
    if w.file = none then
      match createFile fs w with
      | none => w
      | some (w, false) => w
      | some (w, true) => toOpenFile m w
    else toOpenFile m w
  else w

/-- Buffer, logger.cpp:341-348. -/
def toBuffer (m : Text) (w : World) : World :=
  if w.cap > 0 then
    { w with buffer := if (w.buffer ++ [m]).length > w.cap then (w.buffer ++ [m]).drop 1
                       else w.buffer ++ [m] }
  else w

/-- `Log(msg)`, logger.cpp:327-383. -/
def emit (fs : Fs) (m : Text) (w : World) : World :=
  toFile fs m (toConsole m (toBuffer m { w with calls := w.calls ++ w.callbacks.map (·, m) }))

/-- `Log` with level and place, logger.hpp:141-159; `m` is the formatted message; `none`: it throws. -/
def log (fs : Fs) (l : Level) (file : Text) (m : Option Text) (w : World) : Option World :=
  if w.level.num > l.num then some w
  else if shouldLog w file = false then some w
  else
    let w := { w with consoleOn := !w.opts.noStdout, fileOn := !w.opts.noLog }
    if w.fileOn || w.consoleOn then m.map fun m => emit fs m w
    else some w

/-- `LogTimeOnly`, logger.cpp:318-325. -/
def timeOnly (fs : Fs) (m : Text) (w : World) : World := emit fs m w

/-- `LogVersion`, logger.cpp:299-316. -/
def version (fs : Fs) (w : World) : Option World :=
  let w := if w.opts.noStdout then w else { w with console := w.console ++ [.version] }
  if w.opts.noLog then
    if w.file = none then
      match createFile fs w with
      | none => none
      | some (w, false) => some w
      | some (w, true) => some (put w .version)
    else some (put w .version)
  else some w

/-- `RegisterCallback`, logger.cpp:106-112. -/
def register (c : Nat) (w : World) : World :=
  if w.callbacks.length < 100 then { w with callbacks := w.callbacks ++ [c] } else w

/-- `fmt::format` without arguments: doubled braces stand for one, all others are errors. -/
def fmt0 : Text → Option Text
  | [] => some []
  | '{' :: '{' :: r => (fmt0 r).map ('{' :: ·)
  | '}' :: '}' :: r => (fmt0 r).map ('}' :: ·)
  | c :: r => if c = '{' ∨ c = '}' then none else (fmt0 r).map (c :: ·)

/-- `SE_LogMessage`, esminiLib.cpp:1925-1928, with the prefix of `AddTimeAndMetaData`
(logger.cpp:272-292). -/
def seLogMessage (fs : Fs) (pre text : Text) (w : World) : Option World :=
  log fs .info "esminiLib.cpp".toList (fmt0 (pre ++ text ++ ['\n'])) w

/-- `SE_SetLogFilePath`, esminiLib.cpp:463-466. -/
def seSetPath (p : Text) (w : World) : World := { w with opts := { w.opts with path := p } }

/-- `SE_LogToConsole`, esminiLib.cpp:988-998. -/
def seConsole (on : Bool) (w : World) : World := { w with opts := { w.opts with noStdout := !on } }

/-- Everything a program can do with the log. -/
inductive Op
  | log (l : Level) (file : Text) (m : Option Text)
  | timeOnly (m : Text)
  | setPath (p : Text)
  | stopFile
  | stop
  | register (c : Nat)
  | clearCallbacks
  | setCap (n : Nat)
  | setOpts (o : Opts)
  | setModules (only skip : List Text)
  | setLevel (l : Level)

def step (fs : Fs) (w : World) : Op → Option World
  | .log l f m => log fs l f m w
  | .timeOnly m => some (timeOnly fs m w)
  | .setPath p => setPath fs p w
  | .stopFile => some (stopFile w)
  | .stop => some (stop w)
  | .register c => some (register c w)
  | .clearCallbacks => some { w with callbacks := [] }
  | .setCap n => some { w with cap := n }
  | .setOpts o => some { w with opts := o }
  | .setModules o s => some { w with only := o, skip := s }
  | .setLevel l => some { w with level := l }

def run (fs : Fs) (w : World) (l : List Op) : Option World := l.foldlM (step fs) w

end Verif.Log

/-
Model of traffic lights: EnvironmentSimulator/Modules/RoadManager/RoadManager.cpp lines 436-451 (lamp
places), 460-485 (`TrafficLight::UpdateState`), 487-515 (`CheckValidLampModes`), RoadManager.hpp
2016-2020, 2145-2169; EnvironmentSimulator/Modules/ScenarioEngine/OSCTypeDefs/OSCCondition.cpp 718-723
(`TrigByTrafficSignal::CheckCondition`) and OSCGlobalAction.cpp 76-80 (`TrafficSignalStateAction`).

Simplifications: strings are lists of characters; `LOG_ERROR_AND_QUIT` is `none`; of a lamp the mode, the
broken flag and the dirty flag are kept; the map of lamp modes is the constant table (the `operator[]`
look-up of an unknown word gives the value 0, MODE_UNKNOWN, and enters the word; the entry is left out).
-/
namespace Verif.Signal

/-- `LampMode`, RoadManager.hpp. -/
inductive Mode where
  | unknown | other | off | constant | flashing | counting
deriving Repr, DecidableEq

/-- `lamp_mode_map_`, RoadManager.hpp 2163-2169. -/
def modeMap : List (List Char × Mode) :=
  [("unknown".toList, .unknown), ("other".toList, .other), ("off".toList, .off), ("on".toList, .constant),
   ("flashing".toList, .flashing), ("counting".toList, .counting), ("broken".toList, .other)]

/-- `lamp_mode_map_.count(token)`, 497. -/
def known (tok : List Char) : Bool := modeMap.any (fun e => e.1 == tok)

/-- `lamp_mode_map_[token]`, 482. -/
def modeOf (tok : List Char) : Mode :=
  match modeMap.find? (fun e => e.1 == tok) with
  | some e => e.2
  | none => .unknown

/-- The loop `while (std::getline(ss, token, ';')) if (!token.empty()) ...`, 465-474 and 489-505; `acc` is
the word read so far, last character first. -/
def tokens : List Char → List Char → List (List Char)
  | [], acc => if acc = [] then [] else [acc.reverse]
  | c :: cs, acc =>
    if c = ';' then
      if acc = [] then tokens cs [] else acc.reverse :: tokens cs []
    else tokens cs (c :: acc)

/-- A lamp. -/
structure Lamp where
  mode : Mode
  broken : Bool
  dirty : Bool
deriving Repr, DecidableEq

/-- A traffic light; `nr_lamps_` is the length of `lamps`. -/
structure Light where
  state : List Char
  lamps : List Lamp
deriving Repr, DecidableEq

/-- `lamps_[i].SetMode(...)`, `SetIsBroken(...)`, 480-484. -/
def setLamps : List (List Char) → List Lamp → List Lamp
  | t :: ts, _ :: ls => ⟨modeOf t, t == "broken".toList, true⟩ :: setLamps ts ls
  | _, ls => ls

/-- `TrafficLight::UpdateState`, 460-485. -/
def update (tl : Light) (state : List Char) : Option Light :=
  let ts := tokens state []
  if ts.length ≠ tl.lamps.length then none
  else some ⟨state, setLamps ts tl.lamps⟩

/-- Loop of `CheckValidLampModes`, 492-505: number of words, `none` for a word unknown. -/
def countValid : List (List Char) → Nat → Option Nat
  | [], n => some n
  | t :: ts, n => if known t then countValid ts (n + 1) else none

/-- `TrafficLight::CheckValidLampModes`, 487-515; `none` = quit. -/
def check (tl : Light) (input : List Char) : Option Unit :=
  match countValid (tokens input []) 0 with
  | none => none
  | some n => if n ≠ tl.lamps.length then none else some ()

/-- `TrigByTrafficSignal::CheckCondition`, OSCCondition.cpp 719-724. -/
def condition (tl : Light) (wanted : List Char) : Bool := wanted == tl.state

/-- Height of the centre of lamp `i` of `n` above the foot of a light of height `h`, 442-448. -/
def lampZ (h : Rat) (n i : Nat) : Rat :=
  let lh := h / n
  lh / 2 + lh * ((n - 1 - i : Nat) : Rat)

end Verif.Signal

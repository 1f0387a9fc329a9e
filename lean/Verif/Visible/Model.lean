/-
Visibility of objects: OSCPrivateAction.cpp:3099-3116 (VisibilityAction), ScenarioReader.cpp:3976-4007, Entities.cpp:340-344,
viewer.cpp:886-912, playerbase.cpp:1354-1359 and ControllerFollowReference.cpp:184-186.

Simplifications: objects are numbers; `int` masks are 32 bit vectors; the viewer's node is the pair of what is set by the callback.
-/
namespace Verif.Visible

/-- `visibilityMask_` and the bit VISIBILITY of `dirty_`, Entities.hpp:95-100, 272. -/
structure St where
  mask : Nat → BitVec 32
  dirty : Nat → Bool

/-- `Object::Object`, Entities.cpp:39. -/
def initMask : BitVec 32 := 0xff#32

/-- `Object::SetVisibilityMask`, Entities.cpp:340-344. -/
def setMask (st : St) (o : Nat) (m : BitVec 32) : St :=
  { mask := fun x => if x = o then m else st.mask x, dirty := fun x => if x = o then true else st.dirty x }

/-- The mask of an action, OSCPrivateAction.cpp:3102-3103, 3107-3108 and 3113-3114. -/
def actionMask (graphics traffic sensors : Bool) : BitVec 32 :=
  (if graphics then 1#32 <<< 0 else 0#32) ||| (if traffic then 1#32 <<< 1 else 0#32) ||| (if sensors then 1#32 <<< 2 else 0#32)

/-- `VisibilityAction::Start`, OSCPrivateAction.cpp:3099-3116. -/
def visibilityStart (tow tr : Nat → Option Nat) (o : Nat) (graphics traffic sensors : Bool) (st : St) : St :=
  let st := setMask st o (actionMask graphics traffic sensors)
  let st := match tow o with
    | some v => setMask st v (actionMask graphics traffic sensors)
    | none => st
  match tr o with
  | some v => setMask st v (actionMask graphics traffic sensors)
  | none => st

/-- One attribute of the action, ScenarioReader.cpp:3983-3999, the text after replacing parameters, empty if missing. -/
def parseFlag (text : List Char) : Bool :=
  if text = "false".toList ∨ text = "False".toList then false else true

/-- Reading the action, ScenarioReader.cpp:3978-4006. -/
def parseVisibility (graphics traffic sensors : List Char) : Bool × Bool × Bool :=
  (parseFlag graphics, parseFlag traffic, parseFlag sensors)

/-- What the viewer shows: whether the model is drawn, and how transparent in tenths. -/
structure Node where
  drawn : Bool
  transparency : Nat
deriving DecidableEq

/-- `VisibilityCallback::operator()`, viewer.cpp:886-912. -/
def callback (o : Nat) (s : St × Node) : St × Node :=
  if s.1.dirty o then
    ({ s.1 with dirty := fun x => if x = o then false else s.1.dirty x },
      if s.1.mask o &&& (1#32 <<< 0) ≠ 0#32 then
        if s.1.mask o &&& (1#32 <<< 2) ≠ 0#32 then ⟨true, 0⟩ else ⟨true, 6⟩
      else { s.2 with drawn := false })
  else s

/-- The sensor's check of an object, IdealSensor.cpp:73. -/
def sensed (m : BitVec 32) : Bool := decide (m &&& (1#32 <<< 2) ≠ 0#32)

/-- What a ghost gets, playerbase.cpp:1356-1358 and ControllerFollowReference.cpp:184-186; `&=` also assigns, then the call sets the
same value and the bit. -/
def ghostMask (hide : Bool) (o : Nat) (st : St) : St :=
  setMask st o (if hide then 0x0#32 else st.mask o &&& ~~~(1#32 <<< 2))

end Verif.Visible

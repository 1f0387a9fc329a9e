/-
Collision bookkeeping of the scenario engine: every object keeps a list of the objects it currently
overlaps, updated once per frame.

Modelled: ScenarioEngine.cpp:1146-1196 (ScenarioEngine::DetectCollisions).

Simplifications: object pointers are numbers; log messages are left out; the overlap test
(`obj0->Collision(obj1)`, Entities.hpp:383-386) is a parameter here, see BoxModel.lean for the test itself.
An object allocated at the address of a deleted one is not modelled.
-/
namespace Verif.Collision

/-- `collision_pair_` and the member `collisions_` of every object, ScenarioEngine.hpp / Entities.hpp. -/
structure St where
  pairs : List (Nat × Nat)
  lists : Nat → List Nat

/-- Replace the list of one object. -/
def setList (L : Nat → List Nat) (a : Nat) (l : List Nat) : Nat → List Nat := fun x => if x = a then l else L x

/-- `obj->collisions_.push_back(other)`, ScenarioEngine.cpp:1162-1163. -/
def push (L : Nat → List Nat) (a b : Nat) : Nat → List Nat := setList L a (L a ++ [b])

/-- `obj->collisions_.erase(std::remove(..., other), ...)`, ScenarioEngine.cpp:1172-1173. -/
def drop (L : Nat → List Nat) (a b : Nat) : Nat → List Nat := setList L a ((L a).filter (fun y => y != b))

/-- Body of the inner loop for one pair, ScenarioEngine.cpp:1155-1176. -/
def pairStep (ov : Nat → Nat → Bool) (a b : Nat) (s : St) : St :=
  if ov a b then
    ⟨s.pairs ++ [(a, b)], if b ∈ s.lists a then s.lists else push (push s.lists a b) b a⟩
  else
    ⟨s.pairs, if b ∈ s.lists a then drop (drop s.lists a b) b a else s.lists⟩

/-- Inner loop over the objects after `a`, ScenarioEngine.cpp:1152-1177. -/
def inner (ov : Nat → Nat → Bool) (a : Nat) : List Nat → St → St
  | [], s => s
  | b :: rest, s => inner ov a rest (pairStep ov a b s)

/-- Outer loop, ScenarioEngine.cpp:1149-1178. -/
def outer (ov : Nat → Nat → Bool) : List Nat → St → St
  | [], s => s
  | a :: rest, s => outer ov rest (inner ov a rest s)

/-- Loop over one collision list, erasing entries that are not among the objects, ScenarioEngine.cpp:1183-1192. -/
def unregister (objs : List Nat) : List Nat → List Nat
  | [] => []
  | y :: rest => if y ∈ objs then y :: unregister objs rest else unregister objs rest

/-- `ScenarioEngine::DetectCollisions`, ScenarioEngine.cpp:1146-1196. `objs` is `entities_.object_`. -/
def detect (ov : Nat → Nat → Bool) (objs : List Nat) (s : St) : St :=
  ⟨(outer ov objs ⟨[], s.lists⟩).pairs,
   fun x => if x ∈ objs then unregister objs ((outer ov objs ⟨[], s.lists⟩).lists x) else (outer ov objs ⟨[], s.lists⟩).lists x⟩

/-- One frame: the objects of the scenario and which pairs of them overlap. -/
structure Frame where
  objs : List Nat
  ov : Nat → Nat → Bool

/-- Detection frame by frame from the start of the scenario, ScenarioEngine.cpp:162-168, 391-394. -/
def run : List Frame → St → St
  | [], s => s
  | f :: rest, s => run rest (detect f.ov f.objs s)

/-- No collisions yet. -/
def start : St := ⟨[], fun _ => []⟩

end Verif.Collision

import Verif.Common.Macros

/-
Bounding box trees, /repo/EnvironmentSimulator/Modules/ScenarioEngine/OSCTypeDefs/OSCAABBTree.cpp/.hpp.

Simplifications: `double` is exact. A shared pointer to a `Tree` is a position in a list of cells (`Heap`), position 0 is the tree
`build` is called on. Reading outside of the vector or the heap is `none`. The loops of `__build` and `divide` take fuel.
The geometry pointer of a triangle is an optional number.
-/
namespace Verif.AABB
open Verif.Common

/-- `Point`, OSCAABBTree.hpp:46-55. -/
structure Point where
  x : Rat
  y : Rat
deriving DecidableEq, Repr

/-- `Triangle`, OSCAABBTree.hpp:57-79. -/
structure Tri where
  a : Point
  b : Point
  c : Point
  geometry : Option Nat
deriving DecidableEq, Repr

/-- `BBox`, OSCAABBTree.hpp:81-112: lower left and upper right corner, and the triangle unless merged from other boxes. -/
structure Box where
  lo : Point
  hi : Point
  tri : Option Tri
deriving DecidableEq, Repr

/-- `std::min`. -/
def min2 (a b : Rat) : Rat := if b < a then b else a

/-- `std::max`. -/
def max2 (a b : Rat) : Rat := if a < b then b else a

/-- `BBox::BBox(ptTriangle)`, OSCAABBTree.cpp:56-65. -/
def boxOf (t : Tri) : Box :=
  { lo := ⟨min2 t.a.x (min2 t.b.x t.c.x), min2 t.a.y (min2 t.b.y t.c.y)⟩,
    hi := ⟨max2 t.a.x (max2 t.b.x t.c.x), max2 t.a.y (max2 t.b.y t.c.y)⟩, tri := some t }

/-- `BBox::collide`, OSCAABBTree.cpp:83-89. -/
def Box.collide (a b : Box) : Bool :=
  !(decide (a.hi.x < b.lo.x) || decide (a.lo.x > b.hi.x) || decide (a.hi.y < b.lo.y) || decide (a.lo.y > b.hi.y))

/-- `midPointX`, OSCAABBTree.cpp:91-94. -/
def Box.midX (a : Box) : Rat := (a.hi.x + a.lo.x) / 2

/-- `midPointY`, OSCAABBTree.cpp:96-99. -/
def Box.midY (a : Box) : Rat := (a.hi.y + a.lo.y) / 2

/-- One round of the loop of `merge`, OSCAABBTree.cpp:114-120. -/
def grow (m b : Box) : Box :=
  { lo := ⟨min2 m.lo.x b.lo.x, min2 m.lo.y b.lo.y⟩, hi := ⟨max2 m.hi.x b.hi.x, max2 m.hi.y b.hi.y⟩, tri := none }

/-- `BBox::BBox(start, end)` with `merge`, OSCAABBTree.cpp:72-76 and 101-121; dereferences `start` first. -/
def merge : List Box → Option Box
  | [] => none
  | b :: l => some (l.foldl grow { lo := b.lo, hi := b.hi, tri := none })

/-- The comparison chosen by `divide`, OSCAABBTree.cpp:239-253. -/
def below (box b : Box) : Bool :=
  if box.hi.x - box.lo.x > box.hi.y - box.lo.y then decide (b.midX < (box.hi.x + box.lo.x) / 2)
  else decide (b.midY < (box.hi.y + box.lo.y) / 2)

/-- `while (first < last && compare(*first)) first++`, OSCAABBTree.cpp:259-262. -/
def scanUp (cmp : Box → Bool) (v : Array Box) : Nat → Nat → Nat → Option Nat
  | 0, _, _ => none
  | fuel + 1, first, last =>
    if first < last then
      match v[first]? with
      | none => none
      | some b => if cmp b then scanUp cmp v fuel (first + 1) last else some first
    else some first

/-- `while (first < last && !compare(*last)) last--`, OSCAABBTree.cpp:264-265; `last` is signed, as an iterator may be before `start`. -/
def scanDown (cmp : Box → Bool) (v : Array Box) : Nat → Nat → Int → Option Int
  | 0, _, _ => none
  | fuel + 1, first, last =>
    if (first : Int) < last then
      match v[last.toNat]? with
      | none => none
      | some b => if !cmp b then scanDown cmp v fuel first (last - 1) else some last
    else some last

/-- The outer loop of `divide`, OSCAABBTree.cpp:257-270. -/
def partitionLoop (cmp : Box → Bool) : Nat → Array Box → Nat → Nat → Option (Array Box × Nat)
  | 0, _, _, _ => none
  | fuel + 1, v, first, last =>
    match scanUp cmp v (last + 1) first last with
    | none => none
    | some first =>
      match scanDown cmp v (last + 1) first ((last : Int) - 1) with
      | none => none
      | some last =>
        if (first : Int) < last then partitionLoop cmp fuel (v.swapIfInBounds first last.toNat) (first + 1) last.toNat
        else some (v, first)

/-- `Tree::divide`, OSCAABBTree.cpp:232-271. -/
def divide (v : Array Box) (start stop : Nat) (box : Box) : Option (Array Box × Nat) :=
  if stop - start = 0 then some (v, start)
  else if stop - start = 1 then some (v, stop)
  else partitionLoop (below box) (stop + 1) v start stop

/-- `Tree`, OSCAABBTree.hpp:126-170: box and children. -/
structure Cell where
  bbox : Option Box
  kids : List Nat

/-- All trees made so far; a pointer is a position. -/
abbrev Heap := List Cell

/-- `StackRecord`, OSCAABBTree.hpp:164-168. -/
structure Rec where
  first : Nat
  last : Nat
  tree : Nat

/-- The local state of `__build`. -/
structure State where
  v : Array Box
  heap : Heap
  stack : List Rec
  first : Nat
  last : Nat
  cur : Nat
  nodes : Nat
  leaves : Nat

/-- Assignment to the `bbox` of a tree. -/
def Heap.setBox (h : Heap) (i : Nat) (b : Box) : Heap := h.modify i (fun c => { c with bbox := some b })

/-- `push_back` of two children. -/
def Heap.addKids (h : Heap) (i p q : Nat) : Heap := h.modify i (fun c => { c with kids := c.kids ++ [p, q] })

/-- The boxes from `first` to `last`. -/
def segment (v : Array Box) (first last : Nat) : List Box := (v.toList.take last).drop first

/-- The point of division, OSCAABBTree.cpp:206-222. -/
def cutPoint (cut first last : Nat) : Nat := if cut - first > 0 ∧ last - cut > 0 then cut else first + (last - first) / 2

/-- `Tree::__build`, OSCAABBTree.cpp:162-225. -/
def buildLoop : Nat → State → Option State
  | 0, _ => none
  | fuel + 1, s =>
    if s.last > s.first then
      if s.last - s.first = 1 then
        match s.v[s.first]? with
        | none => none
        | some b =>
          match s.stack with
          | [] => some { s with heap := s.heap.setBox s.cur b, leaves := s.leaves + 1 }
          | r :: rest => buildLoop fuel { s with heap := s.heap.setBox s.cur b, leaves := s.leaves + 1, stack := rest,
                                                 first := r.first, last := r.last, cur := r.tree }
      else
        match merge (segment s.v s.first s.last) with
        | none => none
        | some box =>
          match divide s.v s.first s.last box with
          | none => none
          | some (v, cut) =>
            buildLoop fuel
              { s with v := v,
                       heap := Heap.addKids ((s.heap.setBox s.cur box : List Cell) ++ [⟨none, []⟩, ⟨none, []⟩]) s.cur s.heap.length (s.heap.length + 1),
                       nodes := s.nodes + 2,
                       stack := ⟨cutPoint cut s.first s.last, s.last, s.heap.length + 1⟩ :: s.stack,
                       cur := s.heap.length, last := cutPoint cut s.first s.last }
    else some s

/-- `Tree::build`, OSCAABBTree.cpp:142-150, on a tree that may have been built before (`old`): returns heap, nodes and leaves. -/
def build (fuel : Nat) (old : Cell) (v : Array Box) : Option (Heap × Nat × Nat) :=
  if v.size = 0 then some ([{ old with kids := [] }], 0, 0)
  else (buildLoop fuel ⟨v, [{ old with kids := [] }], [], 0, v.size, 0, 1, 0⟩).map fun s => (s.heap, s.nodes, s.leaves)

/-- A tree as `intersect` walks it. -/
inductive Tree
  | nil
  | leaf (b : Box)
  | node (b : Box) (l r : Tree)

/-- `Tree::BBox()`, OSCAABBTree.hpp:140-143. -/
def Tree.box : Tree → Option Box
  | .nil => none
  | .leaf b => some b
  | .node b _ _ => some b

/-- `Tree::intersect`, OSCAABBTree.cpp:279-319. -/
def intersect : Tree → Tree → List (Box × Box)
  | .nil, _ => []
  | _, .nil => []
  | .leaf a, .leaf b => if b.collide a then [(a, b)] else []
  | .node a l r, .leaf b => if b.collide a then intersect l (.leaf b) ++ intersect r (.leaf b) else []
  | .leaf a, .node b l r => if b.collide a then intersect (.leaf a) l ++ intersect (.leaf a) r else []
  | .node a l r, .node b l' r' =>
    if b.collide a then intersect l l' ++ intersect l r' ++ (intersect r l' ++ intersect r r') else []
termination_by a b => sizeOf a + sizeOf b

/-- `orientation`, OSCTriangle2D.hpp:50-53. -/
def orient (a b c : Point) : Rat := (a.x - c.x) * (b.y - c.y) - (a.y - c.y) * (b.x - c.x)

/-- `intersection_test_vertex`, OSCTriangle2D.hpp:55-87. -/
def testVertex (a1 b1 c1 a2 b2 c2 : Point) : Bool :=
  if orient c2 a2 b1 ≥ 0 then
    if orient c2 b2 b1 ≤ 0 then
      if orient a1 a2 b1 > 0 then decide (orient a1 b2 b1 ≤ 0)
      else decide (orient a1 a2 c1 ≥ 0) && decide (orient b1 c1 a2 ≥ 0)
    else decide (orient a1 b2 b1 ≤ 0) && decide (orient c2 b2 c1 ≤ 0) && decide (orient b1 c1 b2 ≥ 0)
  else if orient c2 a2 c1 ≥ 0 then
    if orient b1 c1 c2 ≥ 0 then decide (orient a1 a2 c1 ≥ 0)
    else decide (orient b1 c1 b2 ≥ 0) && decide (orient c2 c1 b2 ≥ 0)
  else false

/-- `intersection_test_edges`, OSCTriangle2D.hpp:89-106. -/
def testEdges (a1 b1 c1 a2 c2 : Point) : Bool :=
  if orient c2 a2 b1 ≥ 0 then
    if orient a1 a2 b1 ≥ 0 then decide (orient a1 b1 c2 ≥ 0)
    else decide (orient b1 c1 a2 ≥ 0) && decide (orient c1 a1 a2 ≥ 0)
  else if orient c2 a2 c1 ≥ 0 then
    decide (orient a1 a2 c1 ≥ 0) && (decide (orient a1 c1 c2 ≥ 0) || decide (orient b1 c1 c2 ≥ 0))
  else false

/-- `intersection2d`, OSCTriangle2D.hpp:108-140. -/
def intersection2d (a1 b1 c1 a2 b2 c2 : Point) : Bool :=
  if orient a2 b2 a1 ≥ 0 then
    if orient b2 c2 a1 ≥ 0 then decide (orient c2 a2 a1 ≥ 0) || testEdges a1 b1 c1 a2 c2
    else if orient c2 a2 a1 ≥ 0 then testEdges a1 b1 c1 c2 b2
    else testVertex a1 b1 c1 a2 b2 c2
  else if orient b2 c2 a1 ≥ 0 then
    if orient c2 a2 a1 ≥ 0 then testEdges a1 b1 c1 b2 c2
    else testVertex a1 b1 c1 b2 c2 a2
  else testVertex a1 b1 c1 c2 a2 b2

/-- `overlap2d`, OSCTriangle2D.hpp:142-164. -/
def overlap2d (a1 b1 c1 a2 b2 c2 : Point) : Bool :=
  if orient a1 b1 c1 < 0 then
    if orient a2 b2 c2 < 0 then intersection2d a1 c1 b1 a2 c2 b2 else intersection2d a1 c1 b1 a2 b2 c2
  else if orient a2 b2 c2 < 0 then intersection2d a1 b1 c1 a2 c2 b2 else intersection2d a1 b1 c1 a2 b2 c2

/-- `Triangle::collide`, OSCAABBTree.cpp:42-46. -/
def Tri.collide (t u : Tri) : Bool := overlap2d t.a t.b t.c u.a u.b u.c

/-- `processCandidates`, OSCAABBTree.cpp:340-361. -/
def processCandidates (l : List (Box × Box)) : List Tri :=
  l.filterMap fun p =>
    match p.1.tri, p.2.tri with
    | some t, some u => if t.collide u then some (if u.geometry.isSome then u else t) else none
    | _, _ => none

/-- The loop over a line in `SwarmTrafficAction::createRoadSegments`, OSCGlobalAction.cpp:486-514: the pieces from `dist` to `ds`. -/
def lineSegments : Nat → Rat → Rat → Rat → List (Rat × Rat)
  | 0, _, _, _ => []
  | fuel + 1, dist, minSize, length =>
    if dist < length then
      (dist, if dist + minSize > length then length else dist + minSize) ::
        lineSegments fuel (if dist + minSize > length then length else dist + minSize) minSize length
    else []

end Verif.AABB

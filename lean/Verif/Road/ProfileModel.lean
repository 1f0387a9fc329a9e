/-
Model of the profiles of a road: polynomials, lane widths, lane heights, lane materials, lane offsets,
elevations, super elevations, speed limits and the list of lane sections.
Code: EnvironmentSimulator/Modules/RoadManager/RoadManager.cpp and RoadManager.hpp at the pinned commit.

Simplifications
* `double` is `Rat` (exact arithmetic, no NaN, no infinity); a division by zero and the use of a null
  pointer are `none`.
* `std::upper_bound` is the position of the first element the comparison holds for.  The standard
  defines the result so for a range that is partitioned by the comparison; the lists are sorted
  (`addAll_sorted`), so they are.
* The entries are values, the code stores pointers; the index hints (`idx_t*`) are natural numbers.
* Log output is left out.
-/
namespace Verif.Road

/-- `SMALL_NUMBER` (CommonMini.hpp:52). -/
def small : Rat := 1 / 1000000

/-- `MAX(x, y)` (CommonMini.hpp:56). -/
def cmax (x y : Rat) : Rat := if y > x then y else x

/-- `MIN(x, y)` (CommonMini.hpp:57). -/
def cmin (x y : Rat) : Rat := if y < x then y else x

/-- `CLAMP(x, lo, hi)` (CommonMini.hpp:62). -/
def clamp (x lo hi : Rat) : Rat := cmin hi (cmax lo x)

/-- `SIGN(X)` of a lane id (CommonMini.hpp:55). -/
def sign (x : Int) : Int := if x < 0 then -1 else 1

/-- `Polynomial` (RoadManager.hpp: `a_`, `b_`, `c_`, `d_`, `p_scale_`). -/
structure Poly where
  a : Rat
  b : Rat
  c : Rat
  d : Rat
  scale : Rat := 1
deriving DecidableEq, Repr

/-- `Polynomial::Evaluate` (RoadManager.cpp:713-718). -/
def Poly.eval (q : Poly) (p0 : Rat) : Rat :=
  let p := p0 * q.scale
  q.a + p * q.b + p * p * q.c + p * p * p * q.d

/-- `Polynomial::EvaluatePrim` (RoadManager.cpp:720-725). -/
def Poly.prim (q : Poly) (p0 : Rat) : Rat :=
  let p := p0 * q.scale
  q.b + 2 * p * q.c + 3 * p * p * q.d

/-! ## Lists of entries kept sorted -/

/-- The loop of `Lane::AddLaneWidth` (RoadManager.cpp:1268-1275): insert before the first entry with
a larger `s_offset`; `none` if there is no such entry. -/
def insertFirst {α : Type} (key : α → Rat) (x : α) : List α → Option (List α)
  | [] => none
  | y :: ys =>
    if key x < key y then some (x :: y :: ys)
    else (insertFirst key x ys).map (y :: ·)

/-- `Lane::AddLaneWidth` (RoadManager.cpp:1264-1279), `Lane::AddLaneHeight` (1281-1296) and
`Lane::AddLaneRoadMark` (1298-1313): three copies of the same code. -/
def addEntry {α : Type} (key : α → Rat) (l : List α) (x : α) : List α :=
  match l.getLast? with
  | some b => if key x < key b then (insertFirst key x l).getD (l ++ [x]) else l ++ [x]
  | none => l ++ [x]

/-- All entries of a lane added one after the other, as the parser does
(RoadManager.cpp:4252-4262 for widths, 4264-4270 for heights). -/
def addAll {α : Type} (key : α → Rat) (xs : List α) : List α := xs.foldl (addEntry key) []

/-- `Lane::GetWidthByS` (RoadManager.cpp:1251-1262) and `Lane::GetMaterialByS` (1326-1338):
`std::upper_bound` over `begin() + 1 .. end()`, then the element before, or the last one. -/
def entryByS {α : Type} (key : α → Rat) (l : List α) (s : Rat) : Option α :=
  match l with
  | [] => none
  | w :: rest =>
    let i := rest.findIdx (fun e => decide (s < key e))
    if i < rest.length then (w :: rest)[i]? else (w :: rest).getLast?

/-- `LaneWidth` (`s_offset_`, `poly3_`). -/
structure LaneWidth where
  off : Rat
  poly : Poly
deriving DecidableEq, Repr

/-- `Lane::LaneHeight` (`s_offset`, `inner`, `outer`). -/
structure LaneHeight where
  off : Rat
  inner : Rat
  outer : Rat
deriving DecidableEq, Repr

/-- `Lane::Material` (`s_offset`, and one number for the rest). -/
structure Material where
  off : Rat
  what : Nat
deriving DecidableEq, Repr

/-- The width of a lane at `s` (distance from the start of the section): the entry found by
`Lane::GetWidthByS`, evaluated at the distance from its start (RoadManager.cpp:2253-2263). -/
def widthAt (l : List LaneWidth) (s : Rat) : Option Rat :=
  (entryByS LaneWidth.off l s).map (fun w => w.poly.eval (s - w.off))

/-- The place of the height entry `Lane::GetHeightBySAndOffset` starts from
(RoadManager.cpp:1347-1355): `std::upper_bound` with the tolerance, one step back unless at the
beginning. -/
def heightIdx (l : List LaneHeight) (s : Rat) : Nat :=
  l.findIdx (fun h => decide (s < h.off - small)) - 1

/-- Heights of the inner and the outer edge at `s` (RoadManager.cpp:1360-1370): those of the entry, or
on the line to the next entry; `none` for a division by zero. -/
def heightEdges (cur : LaneHeight) (next : Option LaneHeight) (s : Rat) : Option (Rat × Rat) :=
  match next with
  | some nxt =>
    if nxt.off - cur.off = 0 then none
    else
      let f := (s - cur.off) / (nxt.off - cur.off)
      some (cur.inner + f * (nxt.inner - cur.inner), cur.outer + f * (nxt.outer - cur.outer))
  | none => some (cur.inner, cur.outer)

/-- `Lane::GetHeightBySAndOffset` (RoadManager.cpp:1340-1375) of lane `id`.  `none`: the width entry
is a null pointer (no width given), or a division by zero. -/
def heightAt (id : Int) (widths : List LaneWidth) (l : List LaneHeight) (s offset : Rat) : Option Rat :=
  if l.isEmpty then some 0
  else
    match l[heightIdx l s]?, widthAt widths s with
    | some cur, some width =>
      match heightEdges cur l[heightIdx l s + 1]? s with
      | some (hi, ho) =>
        if width = 0 then none
        else
          let g := clamp ((offset * sign id + 1 / 2 * width) / width) 0 1
          some (hi + g * (ho - hi))
      | none => none
    | _, _ => none

/-- The loop of `Lane::AddLaneMaterial` (RoadManager.cpp:1390-1404): replace an entry at (nearly) the
same place, insert before the first entry with a larger `s_offset`. -/
def insertMaterial (x : Material) : List Material → Option (List Material)
  | [] => none
  | y :: ys =>
    if (if x.off - y.off < 0 then -(x.off - y.off) else x.off - y.off) < small then some (x :: ys)
    else if x.off < y.off then some (x :: y :: ys)
    else (insertMaterial x ys).map (y :: ·)

/-- `Lane::AddLaneMaterial` (RoadManager.cpp:1386-1408). -/
def addMaterial (l : List Material) (x : Material) : List Material :=
  match l.getLast? with
  | some b => if x.off - b.off < small then (insertMaterial x l).getD (l ++ [x]) else l ++ [x]
  | none => l ++ [x]

/-! ## Lane offsets -/

/-- `LaneOffset` (RoadManager.hpp:819-862; the length is not used by the look-up). -/
structure LaneOffset where
  s : Rat
  poly : Poly
deriving DecidableEq, Repr

/-- `Road::AddLaneOffset` (RoadManager.cpp:3353-3373). -/
def addLaneOffset (l : List LaneOffset) (x : LaneOffset) : List LaneOffset :=
  if l.isEmpty && decide (x.s > small) then l ++ [⟨0, { a := x.poly.a, b := x.poly.b, c := x.poly.c, d := x.poly.d }⟩, x]
  else l ++ [x]

/-- The loop of `Road::GetLaneOffset` (RoadManager.cpp:3004-3012) from index `i`. -/
def offsetLoop (s : Rat) : List LaneOffset → Option LaneOffset
  | [] => none
  | [x] => some x
  | x :: y :: rest => if s < y.s then some x else offsetLoop s (y :: rest)

/-- `Road::GetLaneOffset` (RoadManager.cpp:2997-3014) with `LaneOffset::GetLaneOffset`. -/
def laneOffset (l : List LaneOffset) (s : Rat) : Rat :=
  match offsetLoop s l with
  | some x => x.poly.eval (s - x.s)
  | none => 0

/-! ## Elevation and super elevation -/

/-- `Elevation` (`s_`, `length_`, `poly3_`). -/
structure Elev where
  s : Rat
  len : Rat
  poly : Poly
deriving DecidableEq, Repr

/-- `Road::AddElevation` (RoadManager.cpp:2715-2726) and `Road::AddSuperElevation` (2728-2739) of a
road of length `L`: the length of the entry before is set, then the new entry is appended. -/
def addElev (L : Rat) (l : List Elev) (x : Elev) : List Elev :=
  (match l.getLast? with
   | some b => l.dropLast ++ [⟨b.s, x.s - b.s, b.poly⟩]
   | none => l) ++ [⟨x.s, L - x.s, x.poly⟩]

/-- The entries `(s, polynomial)` added in the order of the file. -/
def elevs (L : Rat) (xs : List (Rat × Poly)) : List Elev :=
  xs.foldl (fun l x => addElev L l ⟨x.1, 0, x.2⟩) []

/-- The loop forwards (RoadManager.cpp:3435-3442 with `tol = SMALL_NUMBER`, 3487-3494 with 0). -/
def elevFwd (l : List Elev) (tol s : Rat) (i : Nat) : Nat :=
  if h : i < l.length then
    if s > l[i].s + l[i].len - tol ∧ i < l.length - 1 then elevFwd l tol s (i + 1) else i
  else i
termination_by l.length - i

/-- The loop backwards (RoadManager.cpp:3443-3450, 3495-3502). -/
def elevBwd (l : List Elev) (s : Rat) : Nat → Nat
  | 0 => 0
  | i + 1 =>
    match l[i + 1]? with
    | none => i + 1
    | some e => if s < e.s then elevBwd l s i else i + 1

/-- The index `Road::GetZAndPitchByS` (RoadManager.cpp:3419-3468, `tol = SMALL_NUMBER`) and
`Road::UpdateRollByS` (3470-3515, `tol = 0`) end with, from the hint `*index`; `none`: no entries. -/
def elevIdx (l : List Elev) (tol s : Rat) (hint : Nat) : Option Nat :=
  if l.length = 0 then none
  else
    let i := if hint ≥ l.length then 0 else hint
    match l[i]? with
    | none => none
    | some e =>
      if s > e.s + e.len - tol then some (elevFwd l tol s i)
      else if s < e.s then some (elevBwd l s i)
      else some i

/-- Height of the reference line (`*z_centerline`, RoadManager.cpp:3453-3467). -/
def zAt (l : List Elev) (s : Rat) (hint : Nat) : Rat :=
  match elevIdx l small s hint with
  | none => 0
  | some i => match l[i]? with
    | none => 0
    | some e => e.poly.eval (s - e.s)

/-- Roll of the road (`*roll`, RoadManager.cpp:3505-3514). -/
def rollAt (l : List Elev) (s : Rat) (hint : Nat) : Rat :=
  match elevIdx l 0 s hint with
  | none => 0
  | some i => match l[i]? with
    | none => 0
    | some e => e.poly.eval (s - e.s)

/-! ## Road types -/

/-- `Road::AddRoadType` (RoadManager.hpp:3054-3057): `type_[s] = type`, on a `std::map` as a list
sorted by the key. -/
def addType {α : Type} (l : List (Rat × α)) (s : Rat) (x : α) : List (Rat × α) :=
  match l with
  | [] => [(s, x)]
  | (t, y) :: rest =>
    if s < t then (s, x) :: (t, y) :: rest
    else if t < s then (t, y) :: addType rest s x
    else (t, x) :: rest

/-- The types added in the order of the file (RoadManager.cpp:3887). -/
def addTypes {α : Type} (xs : List (Rat × α)) : List (Rat × α) :=
  xs.foldl (fun l x => addType l x.1 x.2) []

/-- `Road::GetSpeedByS` (RoadManager.cpp:2001-2024) and `Road::GetRoadTypeByS` (2026-2050):
`upper_bound`, one step back unless at the beginning; `none`: no entries (speed 0, unknown type). -/
def typeByS {α : Type} (l : List (Rat × α)) (s : Rat) : Option (Rat × α) :=
  if l.length > 0 then l[l.findIdx (fun e => decide (s < e.1)) - 1]? else none

/-! ## Lane sections -/

/-- What the look-up reads of a lane section: `s_` and `length_`. -/
structure Span where
  s : Rat
  len : Rat
deriving DecidableEq, Repr

/-- `Road::AddLaneSection` (RoadManager.cpp:3406-3417) of a road of length `L`. -/
def addSection (L : Rat) (l : List Span) (x : Rat) : List Span :=
  (match l.getLast? with
   | some b => l.dropLast ++ [⟨b.s, cmin (x - b.s) L⟩]
   | none => l) ++ [⟨x, cmin (L - x) L⟩]

/-- The sections of a road in the order of the file. -/
def spans (L : Rat) (xs : List Rat) : List Span := xs.foldl (addSection L) []

/-- The loop backwards of `Road::GetLaneSectionIdxByS` (RoadManager.cpp:1751-1765), starting at `i`. -/
def secBwd (l : List Span) (s : Rat) : Nat → Nat
  | 0 => 0
  | i + 1 =>
    match l[i + 1]? with
    | none => i + 1
    | some e => if s > e.s then i + 1 else secBwd l s i

/-- The loop forwards (RoadManager.cpp:1770-1783), starting at `i`. -/
def secFwd (l : List Span) (s : Rat) (i : Nat) : Nat :=
  if h : i < l.length then
    if s < l[i].s + l[i].len then i else secFwd l s (i + 1)
  else i
termination_by l.length - i

/-- `Road::GetLaneSectionIdxByS` (RoadManager.cpp:1734-1802); `none` is `IDX_UNDEFINED`. -/
def sectionIdx (l : List Span) (s : Rat) (start : Nat) : Option Nat :=
  match l[start]? with
  | none => none
  | some e =>
    if s < e.s ∧ start > 0 then some (secBwd l s (start - 1))
    else
      let i := secFwd l s start
      if i = l.length then
        match l.getLast? with
        | none => none
        | some b => if s > b.s + b.len + small then none else some (l.length - 1)
      else some i

end Verif.Road

import Mathlib.Algebra.Order.Field.Basic
import Mathlib.Algebra.Order.Field.Rat
/-
Model of the speed profile action:
EnvironmentSimulator/Modules/ScenarioEngine/OSCTypeDefs/OSCPrivateAction.cpp 1327-1665 (`Start`, `Step`),
1714-1764 (checks), 1783-1789 (`AddSpeedSegment`), OSCPrivateAction.hpp 303-398.

Simplifications: doubles are elements of an ordered field (rationals to run the model, reals in the
theorems with square roots), the square root is a parameter.  A slope `0/0`, which is NaN in the code and
makes comparisons fail, is 0 here; a slope `x/0`, infinite in the code, is treated as out of bounds.
Log messages are left out.
-/
namespace Verif.Profile

section
variable {K : Type} [Field K] [LinearOrder K]

/-- SMALL_NUMBER, CommonMini.hpp. -/
def sm : K := 1 / 1000000

/-- Absolute value. -/
def ab (x : K) : K := if x < 0 then -x else x

/-- `Entry`, OSCPrivateAction.hpp 306-317; a negative time stands for a missing one. -/
structure Entry (K : Type) where
  time : K
  speed : K
deriving DecidableEq, Repr

/-- `EntryVertex`, OSCPrivateAction.hpp 319-338. -/
structure EV (K : Type) where
  t : K
  v : K
  k : K
  m : K
deriving DecidableEq, Repr

/-- `EntryVertex(t, v)`. -/
def EV.mk2 (t v : K) : EV K := ⟨t, v, 0, 0⟩

/-- `EntryVertex(t, v, k)`. -/
def EV.mk3 (t v k : K) : EV K := ⟨t, v, k, v - k * t⟩

/-- `SetK`. -/
def EV.setK (e : EV K) (k : K) : EV K := ⟨e.t, e.v, k, e.v - k * e.t⟩

/-- `DynamicConstraints`, OSCPrivateAction.hpp 35-55. -/
structure Dyn (K : Type) where
  maxAcc : K
  maxDec : K
  accRate : K
  decRate : K
  maxSpeed : K
deriving DecidableEq, Repr

/-- `SpeedSegment`. -/
structure Sg (K : Type) where
  t : K
  v : K
  k : K
  j : K
deriving DecidableEq, Repr

/-- The slope and the time needed for one entry, OSCPrivateAction.cpp 1378-1416; `none`: same speed, entry
skipped. -/
def slope (dyn : Dyn K) (v : K) (e : Entry K) (off : K) : Option (K × K) :=
  let dv := e.speed + off - v
  let k := dv / e.time
  if e.time < -sm ∨ (if e.time = 0 then dv ≠ 0 else k < -dyn.maxDec ∨ k > dyn.maxAcc) then
    if ab dv < sm then none
    else
      let k :=
        if e.time < -sm then
          if dv < 0 then min (-sm) (-dyn.maxDec) else max sm dyn.maxAcc
        else if e.time = 0 then (if dv < 0 then -dyn.maxDec else dyn.maxAcc)
        else if k < 0 then max k (-dyn.maxDec) else min k dyn.maxAcc
      some (k, dv / k)
  else some (k, e.time)

/-- One round of the first loop, OSCPrivateAction.cpp 1374-1459.  The vertices are kept in reverse order,
`back :: before`.  `none`: reading before the start of the vertices. -/
def entryStep (dyn : Dyn K) (off initAcc : K) (n index : Nat) (e : Entry K) (time : K) (back : EV K)
    (before : List (EV K)) : Option (K × EV K × List (EV K)) :=
  match slope dyn back.v e off with
  | none => some (time, back, before)
  | some (k, d) =>
    let limited := e.time < -sm ∨ (if e.time = 0 then e.speed + off - back.v ≠ 0
      else (e.speed + off - back.v) / e.time < -dyn.maxDec ∨ (e.speed + off - back.v) / e.time > dyn.maxAcc)
    let back := if limited then { back with t := time } else back
    let time := time + d
    let v := e.speed + off
    if index < n - 1 ∧ e.time < sm then some (time, EV.mk2 time v, before)
    else
      let back := back.setK k
      if index > 1 then
        match before with
        | [] => none
        | second :: _ =>
          if ab (back.k - second.k) < sm then
            some (time, EV.mk3 time v ((v - second.v) / (time - second.t)), before)
          else if index = n - 1 then some (time, EV.mk3 time v 0, back :: before)
          else some (time, EV.mk2 time v, back :: before)
      else if index = n - 1 then some (time, EV.mk3 time v 0, back :: before)
      else some (time, EV.mk2 time v, back :: before)

/-- The first loop. -/
def entryLoop (dyn : Dyn K) (off initAcc : K) (n : Nat) : Nat → List (Entry K) → K → EV K → List (EV K) →
    Option (EV K × List (EV K))
  | _, [], _, back, before => some (back, before)
  | index, e :: es, time, back, before =>
    match entryStep dyn off initAcc n index e time back before with
    | none => none
    | some (time, back, before) => entryLoop dyn off initAcc n (index + 1) es time back before

/-- The vertices made from the entries, OSCPrivateAction.cpp 1338-1459. -/
def vertices (follow : Bool) (dyn : Dyn K) (off initAcc t0 v0 : K) (es : List (Entry K)) :
    Option (List (EV K)) :=
  match es with
  | [] => none
  | e :: rest =>
    let r :=
      if e.time > sm then entryLoop dyn off initAcc es.length 0 (e :: rest) t0 (EV.mk2 t0 v0) []
      else if e.time > -sm then
        if follow then entryLoop dyn off initAcc es.length 1 rest t0 (EV.mk2 t0 v0) []
        else entryLoop dyn off initAcc es.length 0 (e :: rest) t0 (EV.mk2 t0 e.speed) []
      else entryLoop dyn off initAcc es.length 0 (e :: rest) t0 (EV.mk2 t0 v0) []
    r.map fun (back, before) => (back :: before).reverse

/-- `CheckSpeed`, `CheckAcceleration`, `CheckAccelerationRate`, OSCPrivateAction.cpp 1714-1764: whether
the mode stays `follow`. -/
def within (dyn : Dyn K) (s : Sg K) : Bool :=
  decide (s.v ≤ dyn.maxSpeed + sm) && decide (-dyn.maxSpeed - sm ≤ s.v) &&
  decide (s.k ≤ dyn.maxAcc + sm) && decide (-dyn.maxDec - sm ≤ s.k) &&
  decide (s.j ≤ dyn.accRate + sm) && decide (-dyn.decRate - sm ≤ s.j)

/-- The jerk for a change of slope from `k0` to `k`. -/
def jerk (dyn : Dyn K) (k0 k : K) : K := if k - k0 < 0 then -dyn.decRate else dyn.accRate

/-- State of the last loop: whether the mode is still follow, and the end of the last linear part. -/
structure FS (K : Type) where
  follow : Bool
  t3 : K
  v3 : K
  k1 : K
  m1 : K
deriving DecidableEq, Repr

/-- One round of the last loop, OSCPrivateAction.cpp 1608-1659; `cur` is the vertex at the index, `next`
the one after.  Result: the segments added. -/
def followStep (dyn : Dyn K) (st : FS K) (cur : EV K) (next : Option (EV K)) : FS K × List (Sg K) :=
  if st.follow = false then (st, [⟨cur.t, cur.v, cur.k, 0⟩])
  else
    match next with
    | none => (st, [])
    | some vtx =>
      let k0 := st.k1
      let m0 := st.m1
      let t0 := st.t3
      let v0 := st.v3
      let k1 := vtx.k
      let m1 := vtx.m
      let j := jerk dyn k0 vtx.k
      if ab (k0 - k1) ≥ sm then
        let t1 := (k0 * k0 - 2 * k0 * k1 + k1 * k1 - 2 * j * (m0 - m1)) / (2 * j * (k0 - k1))
        if t1 < t0 then ({ st with follow := false, k1 := k1, m1 := m1 }, [])
        else
          let v1 := v0 + k0 * (t1 - t0)
          let t3 := t1 + (vtx.k - k0) / j
          let v3 := v1 + k0 * (t3 - t1) + 1 / 2 * j * ((t3 - t1) * (t3 - t1))
          let a : Sg K := ⟨t1, v1, k0, j⟩
          let b : Sg K := ⟨t3, v3, vtx.k, 0⟩
          (⟨st.follow && within dyn a && within dyn b, t3, v3, k1, m1⟩, [a, b])
      else
        let b : Sg K := ⟨t0, v0, vtx.k, 0⟩
        (⟨st.follow && within dyn b, t0, v0, k1, m1⟩, [b])

/-- The last loop. -/
def followLoop (dyn : Dyn K) : FS K → List (EV K) → FS K × List (Sg K)
  | st, [] => (st, [])
  | st, cur :: rest =>
    let (st, a) := followStep dyn st cur rest.head?
    let (st, b) := followLoop dyn st rest
    (st, a ++ b)

/-- The first segments in follow mode, OSCPrivateAction.cpp 1590-1606. -/
def followInit (dyn : Dyn K) (initAcc t0 : K) (vtx : EV K) : FS K × List (Sg K) :=
  let j := if ab vtx.k > sm then jerk dyn initAcc vtx.k else 0
  let pre : List (Sg K) := if ab vtx.k > sm then [⟨vtx.t, vtx.v, initAcc, j⟩] else []
  let t3 := if ab vtx.k > sm then vtx.t + (if ab j > sm then (vtx.k - initAcc) / j else 0) else vtx.t
  let v3 := vtx.v + initAcc * (t3 - t0) + 1 / 2 * j * ((t3 - t0) * (t3 - t0))
  let b : Sg K := ⟨t3, v3, vtx.k, 0⟩
  (⟨pre.all (within dyn) && within dyn b, t3, v3, vtx.k, v3 - vtx.k * t3⟩, pre ++ [b])

/-- The segments for one target in follow mode, OSCPrivateAction.cpp 1475-1586; `a` and `b` are the two
vertices, `sq` the square root.  `t2`, `v2` and `k1` are 0 when no solution is found (lines 1503-1543). -/
def single (sq : K → K) (dyn : Dyn K) (initAcc : K) (a b : EV K) : List (Sg K) :=
  let k0 := initAcc
  let j0 := jerk dyn k0 a.k
  let j1 := if a.k < 0 then dyn.accRate else -dyn.decRate
  let t0 := a.t
  let v0 := a.v
  let t3 := b.t
  let v3 := b.v
  let first : Sg K := ⟨t0, v0, k0, j0⟩
  -- time and speed of the start of the second jerk, slope, end, linear segment
  let (t2, v2, k1, t3, lin) :=
    if ab (j1 - j0) < sm then
      if ab (t0 - t3) > sm ∧ ab (j1 * (t0 - t3) - k0) > sm then
        let t1 := (2 * j1 * (v0 + t0 * j1 * (t0 - t3) - v3) + k0 * k0 + 2 * k0 * j1 * (t3 - 2 * t0)) /
          (2 * j1 * (j1 * (t0 - t3) - k0))
        if t1 < 0 then (0, 0, 0, t3, ([] : List (Sg K)))
        else
          let v1 := v0 + k0 * (t1 - t0) + j0 * (1 / 2) * ((t1 - t0) * (t1 - t0))
          let k1 := k0 + j0 * (t1 - t0)
          let t2 := k1 / j1 + t3
          if t2 < 0 then (t2, 0, k1, t3, [])
          else (t2, v1 + k1 * (t2 - t1), k1, t3,
            if k1 < dyn.maxAcc ∧ -dyn.maxDec < k1 then [⟨t1, v1, k1, 0⟩] else [])
      else (0, 0, 0, t3, [])
    else
      let factor := j0 * j1 * (2 * v0 * (j1 - j0) + k0 * k0 + 2 * k0 * j1 * (t3 - t0) +
        j0 * j1 * ((t0 - t3) * (t0 - t3)) + 2 * v3 * (j0 - j1))
      if factor < 0 then
        let t2 := (sq (j1 * (-(j0 - j1)) * (j0 * (2 * v3 - 2 * v0) + k0 * k0)) + (j0 - j1) * (t0 * j0 - k0)) /
          (j0 * (j0 - j1))
        let v2 := v0 + k0 * (t2 - t0) + j0 * (1 / 2) * ((t2 - t0) * (t2 - t0))
        let k1 := k0 + j0 * (t2 - t0)
        (t2, v2, k1, t2 - k1 / j1, [])
      else
        let t1 := (-sq factor - j0 * (k0 + t3 * j1) + t0 * (j0 * j0)) / (j0 * (j0 - j1))
        let v1 := v0 + k0 * (t1 - t0) + j0 * (1 / 2) * ((t1 - t0) * (t1 - t0))
        let k1 := k0 + j0 * (t1 - t0)
        let t2 := k1 / j1 + t3
        (t2, v1 + k1 * (t2 - t1), k1, t3, [⟨t1, v1, k1, 0⟩])
  if -dyn.maxDec ≤ k1 ∧ k1 ≤ dyn.maxAcc then
    first :: lin ++ [⟨t2, v2, k1, j1⟩, ⟨t3, v3, 0, 0⟩]
  else
    let k1 := if k1 > dyn.maxAcc then dyn.maxAcc else -dyn.maxDec
    let t1 := t0 + (k1 - k0) / j0
    let v1 := v0 + k0 * (t1 - t0) + 1 / 2 * j0 * ((t1 - t0) * (t1 - t0))
    let t2 := (v3 - v1) / k1 + t1 + k1 / (2 * j1)
    let v2 := v3 + k1 * k1 / (2 * j1)
    let t3 := -v1 / k1 + v3 / k1 + t1 - k1 / (2 * j1)
    [first, ⟨t1, v1, k1, 0⟩, ⟨t2, v2, k1, j1⟩, ⟨t3, v3, 0, 0⟩]

/-- `LongSpeedProfileAction::Start`, OSCPrivateAction.cpp 1327-1665: the segments.  `none`: no entries
or reading outside the vertices. -/
def start (sq : K → K) (follow : Bool) (dyn : Dyn K) (off initAcc t0 v0 : K) (es : List (Entry K)) :
    Option (List (Sg K)) :=
  match vertices follow dyn off initAcc t0 v0 es with
  | none => none
  | some [] => none
  | some [v] => some [⟨v.t, v.v, 0, 0⟩]
  | some (v :: w :: rest) =>
    if follow then
      match rest with
      | [] => some (single sq dyn initAcc v w)
      | _ =>
        let (st, pre) := followInit dyn initAcc t0 v
        some (pre ++ (followLoop dyn st (v :: w :: rest)).2)
    else some ((v :: w :: rest).map fun e => ⟨e.t, e.v, e.k, 0⟩)

/-- Speed within a segment, OSCPrivateAction.cpp 1683. -/
def Sg.at (s : Sg K) (t : K) : K := s.v + s.k * (t - s.t) + 1 / 2 * s.j * ((t - s.t) * (t - s.t))

/-- Slope within a segment. -/
def Sg.acc (s : Sg K) (t : K) : K := s.k + s.j * (t - s.t)

/-- The search for the segment, OSCPrivateAction.cpp 1675-1679: the segments from the current one on. -/
def seek (t : K) : List (Sg K) → List (Sg K)
  | [] => []
  | [s] => [s]
  | s :: s' :: rest => if t > s'.t - sm then seek t (s' :: rest) else s :: s' :: rest

/-- State of the running action: the segments from the current one on, the index and the speed. -/
structure Run (K : Type) where
  rest : List (Sg K)
  cur : Nat
  speed : K
deriving DecidableEq, Repr

/-- `LongSpeedProfileAction::Step`, OSCPrivateAction.cpp 1681-1712: new state and whether the action ends.
`last` is the last segment, `n` the number of entries. -/
def step (last : Sg K) (n : Nat) (r : Run K) (time : K) : Run K × Bool :=
  let r :=
    if time < last.t + 10 ∧ ¬ (time > last.t ∧ ab (r.speed - last.v) < sm) then
      let rest := seek time r.rest
      let v := match rest with
        | [] => r.speed
        | s :: _ => s.at time
      ⟨rest, r.cur + (r.rest.length - rest.length), if ab v < sm then 0 else v⟩
    else r
  if r.cur ≥ n - 1 ∧ ab (r.speed - last.v) < sm then ({ r with speed := last.v }, true) else (r, false)

/-- The copy constructor, OSCPrivateAction.hpp 379-392: the constraints are not copied. -/
def copyDyn (_ : Dyn K) (large : K) : Dyn K := ⟨large, large, large, large, large⟩

end
end Verif.Profile

import Verif.Entities.Distance
/-
`Object::Distance(double x, double y, ...)` with freeSpace, Entities.cpp:1199-1328: distance of a vehicle with trailers to a point.

Simplifications: what is measured from a single vehicle (`FreeSpaceDistancePoint`, 725-792, and `FreeSpaceDistancePointRoadLane`,
794-894, both modelled in Verif/FreeDist) is an arbitrary function; `double` is exact. `tow`/`trailer` are the answers of
`TowVehicle()`/`TrailerVehicle()`.
-/
namespace Verif.Entities
open Verif.Common

/-- `CoordinateSystem`, RoadManager.hpp. -/
inductive PCS where
  | entity | lane | road | other
deriving DecidableEq

/-- `RelativeDistanceType`, RoadManager.hpp. -/
inductive PRel where
  | lateral | longitudinal | cartesian | euclidian | other
deriving DecidableEq

/-- Lateral and longitudinal distance along the road. -/
structure LatLong where
  lat : Rat
  long : Rat
deriving DecidableEq

/-- The component asked for; `none` for types that are neither lateral nor longitudinal. -/
def LatLong.part (d : LatLong) : PRel → Option Rat
  | .lateral => some d.lat
  | .longitudinal => some d.long
  | _ => none

/-- The condition for going on, Entities.cpp:1278-1279: the component of the candidate is not 0. -/
def goOn (rel : PRel) (c : LatLong) : Bool :=
  (decide (rel = .lateral) && decide (absR c.lat > 0)) || (decide (rel = .longitudinal) && decide (absR c.long > 0))

/-- The new measurement is closer, Entities.cpp:1284-1285. -/
def closer (rel : PRel) (d c : LatLong) : Bool :=
  (decide (rel = .lateral) && decide (absR d.lat < absR c.lat)) || (decide (rel = .longitudinal) && decide (absR d.long < absR c.long))

/-- The loop over the vehicles in road and lane coordinates, Entities.cpp:1277-1293, with the remaining number of iterations; the
flag is `return_value == 0`. -/
def roadLoop (R : Nat → Option LatLong) (tr : Nat → Option Nat) (rel : PRel) : Nat → Option Nat → Bool × LatLong → Bool × LatLong
  | _, none, c => c
  | 0, some _, c => c
  | k + 1, some p, c =>
    if goOn rel c.2 then
      roadLoop R tr rel k (tr p) (match R p with
        | some d => if closer rel d c.2 then (true, d) else c
        | none => c)
    else c

/-- The result in road and lane coordinates, Entities.cpp:1295-1314. -/
def roadResult (rel : PRel) (c : Bool × LatLong) : Option Rat :=
  if c.1 then c.2.part rel else none

/-- The result in the plane, Entities.cpp:1244-1257. -/
def planeResult (cs : PCS) (rel : PRel) (c : Cand) : Rat :=
  if cs = .entity ∧ rel = .lateral then c.lat
  else if cs = .entity ∧ rel = .longitudinal then c.long
  else c.dist * signR c.long

/-- `Object::Distance` to a point, Entities.cpp:1207-1321, freeSpace: the outer `none` if the loop to the frontmost vehicle does not
end, the inner `none` for the return value -1. The loop in the plane, 1232-1242, is the one of lines 1085-1095. -/
def pointDistance (D : Nat → Cand) (R : Nat → Option LatLong) (tow tr : Nat → Option Nat) (fuel self : Nat) (cs : PCS) (rel : PRel) :
    Option (Option Rat) :=
  if cs = .entity ∨ rel = .euclidian ∨ rel = .cartesian then
    (frontmost tow fuel self).map fun p => some (planeResult cs rel (innerLoop D tr 100 (some p) ⟨large, large, large⟩).2)
  else if cs = .road ∨ cs = .lane then
    (frontmost tow fuel self).map fun p => roadResult rel (roadLoop R tr rel 100 (some p) (false, ⟨large, large⟩))
  else some none

/-! ## Theorems -/

/-- C182: in the plane the distance of a vehicle with trailers (at most 100 vehicles) to a point is measured from the vehicle
closest to it. The Euclidean distance has its sign, + ahead and - behind; in entity coordinates the lateral and
longitudinal distances are those of that vehicle. -/
theorem point_plane {D : Nat → Cand} {R : Nat → Option LatLong} {tow tr : Nat → Option Nat} {fuel self p : Nat} {P : List Nat} {cs : PCS}
    {rel : PRel} (hD : ∀ t, 0 ≤ (D t).dist ∧ (D t).dist < 10000000000) (hp : frontmost tow fuel self = some p) (hP : Convoy tr p P)
    (hlen : P.length ≤ 100) (hc : cs = .entity ∨ rel = .euclidian ∨ rel = .cartesian) :
    ∃ a r, a ∈ P ∧ (∀ b, b ∈ P → (D a).dist ≤ (D b).dist) ∧ pointDistance D R tow tr fuel self cs rel = some (some r) ∧
      (cs = .entity → rel = .lateral → r = (D a).lat) ∧ (cs = .entity → rel = .longitudinal → r = (D a).long) ∧
      (rel ≠ .lateral → rel ≠ .longitudinal → ((D a).long < 0 → r = -(D a).dist) ∧ (0 ≤ (D a).long → r = (D a).dist)) := by
  obtain ⟨hm, -⟩ := innerLoop_min D tr (fun t => (hD t).1) P (some p) 100 ⟨large, large, large⟩ (convoy_links hP) hlen (by decide +kernel)
  have hmem : ∃ a, a ∈ P ∧ (innerLoop D tr 100 (some p) ⟨large, large, large⟩).2 = D a := by
    rcases hm.mem with h | h
    · have h1 := hm.le (D p) (by simp only [List.mem_map]; exact ⟨p, convoy_ne hP, rfl⟩)
      rw [h] at h1
      have h2 := (hD p).2
      simp only [large] at h1
      grind
    · simp only [List.mem_map] at h
      obtain ⟨a, ha, e⟩ := h
      exact ⟨a, ha, e.symm⟩
  obtain ⟨a, ha, e⟩ := hmem
  refine ⟨a, planeResult cs rel (D a), ha, ?_, ?_, ?_, ?_, ?_⟩
  · intro b hb
    have := hm.le (D b) (by simp only [List.mem_map]; exact ⟨b, hb, rfl⟩)
    rwa [e] at this
  · simp [pointDistance, hc, hp, e]
  · intro h1 h2
    simp [planeResult, h1, h2]
  · intro h1 h2
    simp [planeResult, h1, h2]
  · intro h1 h2
    simp only [planeResult, h1, h2, and_false, if_false, signR]
    constructor
    · intro h
      simp only [h, if_true]
      grind
    · intro h
      have : ¬ (D a).long < 0 := by grind
      simp only [this, if_false]
      grind

/-- What the loop along the road yields: one of the measurements, closest among them. -/
theorem roadLoop_spec (R : Nat → Option LatLong) (tr : Nat → Option Nat) {rel : PRel} (sel : LatLong → Rat)
    (hs : ∀ c, c.part rel = some (sel c)) : ∀ (l : List Nat) (o : Option Nat) (k : Nat) (c : Bool × LatLong), Links tr o l → l.length ≤ k →
    absR (sel (roadLoop R tr rel k o c).2) ≤ absR (sel c.2) ∧
    (∀ x d, x ∈ l → R x = some d → absR (sel (roadLoop R tr rel k o c).2) ≤ absR (sel d)) ∧
    (roadLoop R tr rel k o c = c ∨ ∃ x d, x ∈ l ∧ R x = some d ∧ roadLoop R tr rel k o c = (true, d) ∧ absR (sel d) < absR (sel c.2)) := by
  have hgo : ∀ c, goOn rel c = decide (absR (sel c) > 0) := by
    intro c
    have := hs c
    cases rel <;> simp_all [LatLong.part, goOn]
  have hcl : ∀ d c, closer rel d c = decide (absR (sel d) < absR (sel c)) := by
    intro d c
    have h1 := hs c
    have h2 := hs d
    cases rel <;> simp_all [LatLong.part, closer]
  have hnn : ∀ x : Rat, 0 ≤ absR x := by
    intro x
    unfold absR
    split <;> grind
  intro l
  induction l with
  | nil =>
    intro o k c ho hk
    have : o = none := ho
    subst this
    unfold roadLoop
    exact ⟨by grind, by simp, .inl rfl⟩
  | cons x l ih =>
    intro o k c ho hk
    obtain ⟨e, hl⟩ := ho
    subst e
    cases k with
    | zero => simp at hk
    | succ k =>
      unfold roadLoop
      rw [hgo]
      by_cases h0 : absR (sel c.2) > 0
      · simp only [h0, decide_true, if_true]
        have hk' : l.length ≤ k := by simpa using hk
        cases hR : R x with
        | none =>
          simp only
          obtain ⟨h1, h2, h3⟩ := ih (tr x) k c hl hk'
          refine ⟨h1, ?_, ?_⟩
          · intro y d hy hd
            rcases List.mem_cons.mp hy with rfl | hy
            · rw [hR] at hd; cases hd
            · exact h2 y d hy hd
          · rcases h3 with h3 | ⟨y, d, hy, hd, h3, h4⟩
            · exact .inl h3
            · exact .inr ⟨y, d, List.mem_cons_of_mem _ hy, hd, h3, h4⟩
        | some d =>
          simp only [hcl]
          by_cases hd : absR (sel d) < absR (sel c.2)
          · simp only [hd, decide_true, if_true]
            obtain ⟨h1, h2, h3⟩ := ih (tr x) k (true, d) hl hk'
            simp only at h1 h3
            refine ⟨by grind, ?_, ?_⟩
            · intro y d' hy hd'
              rcases List.mem_cons.mp hy with rfl | hy
              · rw [hR] at hd'; cases hd'; exact h1
              · exact h2 y d' hy hd'
            · rcases h3 with h3 | ⟨y, d', hy, hd', h3, h4⟩
              · exact .inr ⟨x, d, by simp, hR, h3, hd⟩
              · exact .inr ⟨y, d', List.mem_cons_of_mem _ hy, hd', h3, by grind⟩
          · simp only [hd, decide_false, Bool.false_eq_true, if_false]
            obtain ⟨h1, h2, h3⟩ := ih (tr x) k c hl hk'
            refine ⟨h1, ?_, ?_⟩
            · intro y d' hy hd'
              rcases List.mem_cons.mp hy with rfl | hy
              · rw [hR] at hd'; cases hd'; grind
              · exact h2 y d' hy hd'
            · rcases h3 with h3 | ⟨y, d', hy, hd', h3, h4⟩
              · exact .inl h3
              · exact .inr ⟨y, d', List.mem_cons_of_mem _ hy, hd', h3, h4⟩
      · simp only [h0, decide_false, Bool.false_eq_true, if_false]
        refine ⟨by grind, ?_, by simp⟩
        intro y d _ _
        have := hnn (sel d)
        have := hnn (sel c.2)
        grind

theorem road_core {D : Nat → Cand} {R : Nat → Option LatLong} {tow tr : Nat → Option Nat} {fuel self p : Nat} {P : List Nat} {cs : PCS}
    {rel : PRel} (sel : LatLong → Rat) (hs : ∀ c, c.part rel = some (sel c)) (hlarge : sel ⟨large, large⟩ = large)
    (hp : frontmost tow fuel self = some p) (hP : Convoy tr p P)
    (hlen : P.length ≤ 100) (hc : cs = .road ∨ cs = .lane) (hr : rel = .lateral ∨ rel = .longitudinal) :
    (∃ r, pointDistance D R tow tr fuel self cs rel = some (some r) ∧ (∃ a d, a ∈ P ∧ R a = some d ∧ r = sel d ∧ absR r < large) ∧
        ∀ b d, b ∈ P → R b = some d → absR r ≤ absR (sel d)) ∨
    (pointDistance D R tow tr fuel self cs rel = some none ∧ ∀ b d, b ∈ P → R b = some d → large ≤ absR (sel d)) := by
  have hl : absR large = large := by decide +kernel
  obtain ⟨h1, h2, h3⟩ := roadLoop_spec R tr sel hs P (some p) 100 (false, ⟨large, large⟩) (convoy_links hP) hlen
  have e : pointDistance D R tow tr fuel self cs rel =
      some (roadResult rel (roadLoop R tr rel 100 (some p) (false, ⟨large, large⟩))) := by
    unfold pointDistance
    rw [if_neg (by rcases hc with rfl | rfl <;> rcases hr with rfl | rfl <;> decide), if_pos hc, hp]
    rfl
  rw [e]
  rcases h3 with h3 | ⟨a, d, ha, hd, h3, h4⟩
  · right
    rw [h3] at h2 ⊢
    simp only [hlarge, hl] at h2
    exact ⟨rfl, h2⟩
  · left
    rw [h3] at h2 ⊢
    simp only [hlarge, hl] at h4
    exact ⟨sel d, by simp [roadResult, hs], ⟨a, d, ha, hd, rfl, h4⟩, h2⟩

/-- C182: along and across the road the distance of a vehicle with trailers (at most 100 vehicles) to a point is the smallest
of the distances measured from its vehicles; vehicles from which it cannot be measured do not count. There is none if no
vehicle gives one below 1e10. -/
theorem point_road {D : Nat → Cand} {R : Nat → Option LatLong} {tow tr : Nat → Option Nat} {fuel self p : Nat} {P : List Nat} {cs : PCS}
    (hp : frontmost tow fuel self = some p) (hP : Convoy tr p P) (hlen : P.length ≤ 100) (hc : cs = .road ∨ cs = .lane) :
    ((∃ r, pointDistance D R tow tr fuel self cs .lateral = some (some r) ∧
        (∃ a d, a ∈ P ∧ R a = some d ∧ r = d.lat ∧ absR r < 10000000000) ∧ ∀ b d, b ∈ P → R b = some d → absR r ≤ absR d.lat) ∨
      (pointDistance D R tow tr fuel self cs .lateral = some none ∧ ∀ b d, b ∈ P → R b = some d → 10000000000 ≤ absR d.lat)) ∧
    ((∃ r, pointDistance D R tow tr fuel self cs .longitudinal = some (some r) ∧
        (∃ a d, a ∈ P ∧ R a = some d ∧ r = d.long ∧ absR r < 10000000000) ∧ ∀ b d, b ∈ P → R b = some d → absR r ≤ absR d.long) ∨
      (pointDistance D R tow tr fuel self cs .longitudinal = some none ∧ ∀ b d, b ∈ P → R b = some d → 10000000000 ≤ absR d.long)) :=
  ⟨road_core (·.lat) (fun _ => rfl) rfl hp hP hlen hc (.inl rfl), road_core (·.long) (fun _ => rfl) rfl hp hP hlen hc (.inr rfl)⟩

/-- C182: there is no distance for other kinds of distance or coordinate systems. -/
theorem point_none {D : Nat → Cand} {R : Nat → Option LatLong} {tow tr : Nat → Option Nat} {fuel self p : Nat} {cs : PCS} {rel : PRel}
    (hp : frontmost tow fuel self = some p) (hc : cs ≠ .entity) (h1 : rel ≠ .euclidian) (h2 : rel ≠ .cartesian)
    (h : cs = .other ∨ rel = .other) : pointDistance D R tow tr fuel self cs rel = some none := by
  have e : roadLoop R tr .other 100 (some p) (false, ⟨large, large⟩) = (false, ⟨large, large⟩) := by
    unfold roadLoop
    rw [if_neg (by decide)]
  cases cs <;> cases rel <;> simp_all [pointDistance, roadResult]

/-- C182: it does not matter which vehicle of a train is asked. -/
theorem point_train (D : Nat → Cand) (R : Nat → Option LatLong) (tow tr : Nat → Option Nat) (fuel self q : Nat) (cs : PCS) (rel : PRel)
    (h : tow self = some q) : pointDistance D R tow tr (fuel + 1) self cs rel = pointDistance D R tow tr fuel q cs rel := by
  unfold pointDistance
  have : frontmost tow (fuel + 1) self = frontmost tow fuel q := by
    conv => lhs; unfold frontmost
    rw [h]
  rw [this]

/-- A point 3 m behind a trailer (2) of a truck (1), asked for the trailer. -/
example : pointDistance (fun t => if t = 2 then ⟨3, 0, -3⟩ else ⟨11, 0, -11⟩) (fun t => if t = 2 then some ⟨0, -3⟩ else none)
    (fun o => if o = 2 then some 1 else none) (fun o => if o = 1 then some 2 else none) 10 2 .entity .euclidian = some (some (-3)) ∧
    pointDistance (fun t => if t = 2 then ⟨3, 0, -3⟩ else ⟨11, 0, -11⟩) (fun t => if t = 2 then some ⟨0, -3⟩ else none)
    (fun o => if o = 2 then some 1 else none) (fun o => if o = 1 then some 2 else none) 10 2 .road .longitudinal = some (some (-3)) := by
  decide +kernel

example : frontmost (fun o => if o = 2 then some 1 else none) 10 2 = some 1 ∧
    Convoy (fun o => if o = 1 then some 2 else none) 1 [1, 2] := ⟨by decide +kernel, .cons rfl (.last rfl) (by simp)⟩

end Verif.Entities

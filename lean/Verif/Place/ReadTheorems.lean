import Verif.Place.ReadModel
import Mathlib.Tactic.Ring
import Mathlib.Tactic.LinearCombination
/-
C164, C165: reading of route positions and world positions.
-/
namespace Verif.Place

/-- Children that give the place. -/
def Child.isPlace : Child → Bool
  | .inRoad _ _ => true
  | .inLane _ _ _ => true
  | _ => false

/-- The orientation given by a list of children. -/
def orientationOf : List Child → Option Given
  | [] => none
  | .orientation g :: l => (orientationOf l).or (some g)
  | _ :: l => orientationOf l

theorem readRoute_pre (site : Site) (pre : List Child) (c : Child) (h : ∀ x ∈ pre, x.isPlace = false) :
    ∀ rt o res, readRoute site (pre ++ [c]) rt o res = readRoute site [c] (rt || decide (.routeRef ∈ pre)) ((orientationOf pre).or o) res := by
  induction pre with
  | nil => intro rt o res; simp [orientationOf]
  | cons a l ih =>
    intro rt o res
    have ih := ih fun x hx => h x (.tail _ hx)
    have ha := h a (.head _)
    cases a with
    | routeRef => simp [readRoute, ih, orientationOf]
    | orientation g =>
      simp only [List.cons_append, readRoute, ih, orientationOf, List.mem_cons, reduceCtorEq, false_or]
      cases orientationOf l <;> rfl
    | inRoad s t => cases ha
    | inLane s id off => cases ha

/-- C164: with the place as the last element, the place is the one given, the lane and its offset (or t) counted from the route if so asked for, and the orientation is applied.
Missing: elements in another order and, for road coordinates, t that is not an integer. -/
theorem route_place_partial (site : Site) (pre : List Child) (hr : .routeRef ∈ pre) (h : ∀ x ∈ pre, x.isPlace = false) (s : Rat) :
    (∀ id off, ∃ q, readRoute site (pre ++ [.inLane s id off]) false none none = some (some q) ∧ q = placeLane site s id off (orientationOf pre) ∧
      q.pathS = s ∧ q.lateral = .lane (site.dir * id) (site.dir * off)) ∧
    (∀ t : Int, ∃ q, readRoute site (pre ++ [.inRoad s t]) false none none = some (some q) ∧ q = placeRoad site s t (orientationOf pre) ∧
      q.pathS = s ∧ q.lateral = .t (site.dir * t)) := by
  constructor
  · intro id off
    refine ⟨placeLane site s id off (orientationOf pre), ?_, rfl, ?_, ?_⟩
    · rw [readRoute_pre site pre _ h]; simp [hr, readRoute]
    · unfold placeLane; simp only; split <;> (try split) <;> rfl
    · unfold placeLane; simp only; split <;> (try split) <;> rfl
  · intro t
    have ht : toInt (t : Rat) = t := by unfold toInt; split <;> simp [Rat.ceil_intCast]
    refine ⟨placeRoad site s t (orientationOf pre), ?_, rfl, ?_, ?_⟩
    · rw [readRoute_pre site pre _ h]; simp [hr, readRoute]
    · unfold placeRoad; simp only; split <;> rfl
    · unfold placeRoad; simp only [ht]; split <;> rfl

/-- C164: an entity at lane coordinates heads in the driving direction of its lane, turned by the relative heading, if an orientation is given or with right-hand traffic and lanes
counted from the road. Missing: left-hand traffic and route positions aligned to the route without orientation. -/
theorem route_heading_partial (site : Site) (s : Rat) (id : Int) (off : Rat) (o : Option Given) (h : o = none → site.dir = 1 ∧ site.left = false) :
    (placeLane site s id off o).ori.back = against site.left (site.dir * id) ∧
    (placeLane site s id off o).ori.h = ((o.bind Given.h).getD 0) := by
  cases o with
  | some g => unfold placeLane; simp only; split <;> rename_i hc <;> simp [hc]
  | none =>
    obtain ⟨h1, h2⟩ := h rfl
    unfold placeLane against
    simp only [h1, h2, Option.bind_none, Option.getD_none, and_true]
    by_cases hi : 0 < id <;> simp [hi]

/-- C164: pitch and roll are the given ones in lanes along the road. Missing: lanes against the road. -/
theorem route_pitch_partial (site : Site) (s : Rat) (id : Int) (off : Rat) (g : Given) (h : against site.left (site.dir * id) = false) :
    (placeLane site s id off (some g)).ori.p = g.p.getD 0 ∧ (placeLane site s id off (some g)).ori.r = g.r.getD 0 := by
  unfold placeLane; simp [h]

example : readRoute ⟨1, false⟩ [.orientation { h := some (1 / 2) }, .routeRef, .inLane 30 1 (1 / 4)] false none none =
    some (some ⟨30, .lane 1 (1 / 4), ⟨true, 1 / 2, 0, 0⟩⟩) := by decide +kernel

/-- C164 fails: t is truncated to an integer. -/
theorem t_fails : readRoute ⟨1, false⟩ [.routeRef, .inRoad 30 (-7 / 4)] false none none = some (some ⟨30, .t (-1), ⟨false, 0, 0, 0⟩⟩) := by
  decide +kernel

/-- C164 fails: the schema allows the elements in any order, but an orientation after the place is ignored, and with the route after the place a null pointer is followed. -/
theorem order_fails (site : Site) (s : Rat) (id : Int) (off : Rat) (g : Given) :
    readRoute site [.routeRef, .inLane s id off, .orientation g] false none none = some (some (placeLane site s id off none)) ∧
    readRoute site [.inLane s id off, .routeRef] false none none = none := ⟨rfl, rfl⟩

/-- C164 fails with left-hand traffic: without an orientation, an entity in lane 1, which runs along the road, is turned against it, and one in lane -1 is not turned. -/
theorem left_hand_route_fails :
    against true 1 = false ∧ (placeLane ⟨1, true⟩ 30 1 0 none).ori.back = true ∧ against true (-1) = true ∧ (placeLane ⟨1, true⟩ 30 (-1) 0 none).ori.back = false := by
  decide +kernel

/-- C164 fails for route positions aligned to a route against the road: lane 1 of the route is lane -1 of the road, but the entity is turned against it. -/
theorem aligned_fails :
    (placeLane ⟨-1, false⟩ 30 1 0 none).lateral = .lane (-1) 0 ∧ against false (-1) = false ∧ (placeLane ⟨-1, false⟩ 30 1 0 none).ori.back = true := by
  decide +kernel

/-- C164 fails in lanes against the road: pitch and roll of the vehicle change their signs, unlike those of a position given by lane coordinates (C162, `lane_rel`). -/
theorem route_pitch_fails (site : Site) (s : Rat) (id : Int) (off : Rat) (g : Given) (h : against site.left (site.dir * id) = true) :
    (placeLane site s id off (some g)).ori.p = -(g.p.getD 0) ∧ (placeLane site s id off (some g)).ori.r = -(g.r.getD 0) := by
  unfold placeLane; simp [h]

/-- C164 fails: the type of the orientation makes no difference. -/
theorem absolute_fails (site : Site) (s : Rat) (id : Int) (off : Rat) (g : Given) :
    placeLane site s id off (some { g with absolute := true }) = placeLane site s id off (some { g with absolute := false }) := rfl

/-! ### World positions and the offset in the header of the road network -/
open Verif.Geom Real

/-- Distance of two points, squared. -/
def distSq (a b : ℝ × ℝ) : ℝ := (a.1 - b.1) ^ 2 + (a.2 - b.2) ^ 2

/-- C165: world positions keep their place with respect to the roads under an offset in the header: distances to roads, bearings of roads seen from the position and angles to roads
are those of the files. -/
theorem world_offset (g : GeoOffset) (x y h rx ry rh : ℝ) (z : Option ℝ) :
    let w := worldPos g false x y z (some h)
    let q := roadStart g rx ry rh
    distSq (w.1, w.2.1) (q.1, q.2.1) = distSq (x, y) (rx, ry) ∧
    (∃ wh, w.2.2.2 = some wh ∧ cos (q.2.2 - wh) = cos (rh - h) ∧ sin (q.2.2 - wh) = sin (rh - h) ∧
      (q.1 - w.1) * cos wh + (q.2.1 - w.2.1) * sin wh = (rx - x) * cos h + (ry - y) * sin h ∧
      (q.2.1 - w.2.1) * cos wh - (q.1 - w.1) * sin wh = (ry - y) * cos h - (rx - x) * sin h) := by
  have hg := cos_sq_add_sin_sq g.hdg
  have d1 := interval2PI_direction (h + g.hdg)
  have d2 := interval2PI_direction (rh + g.hdg)
  intro w q
  refine ⟨?_, interval2PI π (h + g.hdg), rfl, ?_, ?_, ?_, ?_⟩
  · show distSq (rotate _ _ _) (rotate _ _ _) = _
    unfold distSq rotate
    simp only
    linear_combination ((x - rx) ^ 2 + (y - ry) ^ 2) * hg
  · show cos (interval2PI π (rh + g.hdg) - _) = _
    rw [cos_sub, d1.1, d1.2, d2.1, d2.2, ← cos_sub]; congr 1; ring
  · show sin (interval2PI π (rh + g.hdg) - _) = _
    rw [sin_sub, d1.1, d1.2, d2.1, d2.2, ← sin_sub]; congr 1; ring
  · rw [d1.1, d1.2, cos_add, sin_add]
    show ((rotate (rx + g.x) (ry + g.y) g.hdg).1 - (rotate (x + g.x) (y + g.y) g.hdg).1) * _ + ((rotate (rx + g.x) (ry + g.y) g.hdg).2 - (rotate (x + g.x) (y + g.y) g.hdg).2) * _ = _
    unfold rotate
    simp only
    linear_combination ((rx - x) * cos h + (ry - y) * sin h) * hg
  · rw [d1.1, d1.2, cos_add, sin_add]
    show ((rotate (rx + g.x) (ry + g.y) g.hdg).2 - (rotate (x + g.x) (y + g.y) g.hdg).2) * _ - ((rotate (rx + g.x) (ry + g.y) g.hdg).1 - (rotate (x + g.x) (y + g.y) g.hdg).1) * _ = _
    unfold rotate
    simp only
    linear_combination ((ry - y) * cos h - (rx - x) * sin h) * hg

/-- C165: so does the height over a road with an elevation. Missing: roads without elevation. -/
theorem world_height_partial (g : GeoOffset) (ignore : Bool) (x y z a : ℝ) (h : Option ℝ) :
    ∃ wz, (worldPos g ignore x y (some z) h).2.2.1 = some wz ∧ wz - roadHeight g (some a) = z - a := by
  refine ⟨z + g.z, ?_, ?_⟩
  · unfold worldPos; cases ignore <;> rfl
  · unfold roadHeight; simp only; ring

/-- C165 fails for roads without an elevation: they stay at height 0, but the world position on them is lifted by the offset, also if the offset is to be ignored for
world positions. -/
theorem world_height_fails (g : GeoOffset) (ignore : Bool) (x y : ℝ) (h : Option ℝ) :
    (worldPos g ignore x y (some 0) h).2.2.1 = some g.z ∧ roadHeight g none = 0 := by
  constructor
  · unfold worldPos; cases ignore <;> simp
  · rfl

end Verif.Place

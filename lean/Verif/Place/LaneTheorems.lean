import Verif.Place.LaneModel
/-
C160: positions relative to the lane or the road of an entity.
-/
namespace Verif.Place
open Verif.Move
open Verif.Road (Section Span sectionIdx)
open Verif.LaneArith (getRelativeLaneId MovedBy getRelativeLaneId_moves)

/-- A place on a steady road is in one of its sections. -/
theorem sectionIdx_some (r : Road) (hs : Steady r) (s : Rat) (h1 : s ≤ r.len) :
    ∃ k, sectionIdx (r.secs.map fun x => (⟨x.s, x.len⟩ : Span)) s 0 = some k ∧ k < r.secs.length := by
  have hl := hs.some
  have hsm : (0 : Rat) < Verif.Road.small := by decide +kernel
  have hlast := hs.last
  suffices h : ∃ k, sectionIdx (r.secs.map fun x => (⟨x.s, x.len⟩ : Span)) s 0 = some k by
    obtain ⟨k, hk⟩ := h
    refine ⟨k, hk, ?_⟩
    have := Verif.Road.sectionIdx_lt _ _ _ _ hk
    simpa using this
  unfold sectionIdx
  rw [List.getElem?_eq_getElem (by simpa using hl)]
  simp only [gt_iff_lt, Nat.lt_irrefl, and_false, if_false]
  split
  · rw [List.getLast?_eq_getElem?, List.getElem?_eq_getElem (by simp; omega)]
    simp only [List.getElem_map, List.length_map]
    have : ¬ s > r.secs[r.secs.length - 1].s + r.secs[r.secs.length - 1].len + Verif.Road.small := by
      rw [hlast]; grind
    rw [if_neg this]
    exact ⟨_, rfl⟩
  · exact ⟨_, rfl⟩

/-- Setting a position on any lane of the road it is on. -/
theorem setLane_any (net : Net) (r : Road) (hs : Steady r) (p : Pos) (hr : net.roads p.road = some r) (hg : Good r p) (lane : Int) (off : Rat)
    (hl : ∃ sec ∈ r.secs, ∃ l, sec.laneById lane = some l) :
    ∃ q, setLane net p p.road lane p.s off none = (.ok, q) ∧ q.road = p.road ∧ q.lane = lane ∧ q.s = p.s ∧ q.off = off := by
  obtain ⟨sec, hsec, l, hl⟩ := hl
  obtain ⟨i, hi⟩ := idx_some sec lane l hl
  have hi := steady_idx r hs sec hsec lane i hi
  by_cases e : lane = p.lane
  · subst e
    obtain ⟨k, hk, -⟩ := setLane_same net r hs p hr hg p.s off hg.s0 hg.s1
    exact ⟨_, hk, rfl, rfl, rfl, rfl⟩
  · have n1 : ¬ p.s > r.len := by have := hg.s1; grind
    have n2 : ¬ p.s < 0 := by have := hg.s0; grind
    have hlong : setLong net { p with off := off } p.road p.s = (.ok, { p with off := off, ended := atEnd r p.s }) := by
      simp [setLong, hr, n1, n2]
    obtain ⟨k, hk, hk'⟩ := sectionIdx_some r hs p.s hg.s1
    unfold setLane
    rw [hlong]
    simp only [reduceCtorEq, if_false, hr, ne_eq, e, not_false_eq_true, and_self, if_true, hk]
    rw [List.getElem?_eq_getElem hk']
    simp only
    rw [hi _ (List.getElem_mem hk')]
    exact ⟨_, rfl, rfl, rfl, rfl, rfl⟩

/-- The place reached along the road and the lane counted from that of the entity. `k` is 1 or -1. -/
theorem relLane_reach (net : Net) (hst : ∀ id r, net.roads id = some r → Steady r) (ref : Pos) (r : Road) (hr : net.roads ref.road = some r)
    (hg : Good r ref) (dLane : Int) (ds offset : Rat) (along : Bool) (n : Nat) (hn : n ≤ 7) (q : Spot)
    (hq : Reach net n (ref.spot (travelUp r ref ds (if along then .lane else .road))) (ab ds) q) (r' : Road) (hr' : net.roads q.road = some r')
    (k : Int) (hk : k = if along = true ∧ upward r'.left ref.lane ref.fwd = false then -1 else 1) (lane : Int) (hm : MovedBy ref.lane (k * dLane) lane)
    (hl : ∃ sec ∈ r'.secs, ∃ l, sec.laneById lane = some l) :
    ∃ p, relLane net ref dLane ds offset along = (.ok, p) ∧ p.road = q.road ∧ p.lane = lane ∧ p.s = q.s ∧ p.off = k * offset := by
  obtain ⟨c, q', r1, h1, -, -, h2, h3, h4, -, -, h5, h6, -⟩ := move_travels net hst ref r hr hg ds _ n hn q hq
  have e1 : r1 = r' := by rw [h2, hr', Option.some.injEq] at h5; exact h5.symm
  subst e1
  have hlane : lane = getRelativeLaneId ref.lane (k * dLane) := Verif.LaneArith.movedBy_unique hm (getRelativeLaneId_moves _ _ hg.lane)
  obtain ⟨p, hp, g1, g2, g3, g4⟩ := setLane_any net r1 (hst _ _ h5) q' h5 h6 lane (k * offset) hl
  refine ⟨p, ?_, g1.trans h2, g2, g3.trans h4, g4⟩
  unfold relLane
  rw [h1]
  simp only [h5]
  split
  · rename_i hc
    rw [if_pos hc] at hk
    rw [← hp, hlane, hk, show (-1 : Int) * dLane = -dLane by omega, show ((-1 : Int) : Rat) * offset = -offset by grind]
  · rename_i hc
    rw [if_neg hc] at hk
    rw [← hp, hlane, hk, show (1 : Int) * dLane = dLane by omega, show ((1 : Int) : Rat) * offset = offset by grind]

/-- C160: a position given by `ds` is on the lane of the entity moved along the road axis by `ds` (against it for negative ones), `dLane` lanes further in the direction of
growing lane numbers, with the given offset to the left of the road axis. Missing: lanes that change their number along the way. -/
theorem rel_lane_partial (net : Net) (hst : ∀ id r, net.roads id = some r → Steady r) (ref : Pos) (r : Road) (hr : net.roads ref.road = some r)
    (hg : Good r ref) (dLane : Int) (ds offset : Rat) (n : Nat) (hn : n ≤ 7) (q : Spot)
    (hq : Reach net n (ref.spot (decide (0 ≤ ds))) (ab ds) q) (r' : Road) (hr' : net.roads q.road = some r') (hsame : q.lane = ref.lane)
    (lane : Int) (hm : MovedBy q.lane dLane lane) (hl : ∃ sec ∈ r'.secs, ∃ l, sec.laneById lane = some l) :
    ∃ p, relLane net ref dLane ds offset false = (.ok, p) ∧ p.road = q.road ∧ p.lane = lane ∧ p.s = q.s ∧ p.off = offset := by
  have ht : travelUp r ref ds .road = decide (0 ≤ ds) := by
    unfold travelUp ahead; by_cases h : 0 ≤ ds <;> simp [h]
  obtain ⟨p, h1, h2, h3, h4, h5⟩ := relLane_reach net hst ref r hr hg dLane ds offset false n hn q (by simpa [ht] using hq) r' hr' 1 (by simp) lane
    (by rw [hsame] at hm; rwa [show (1 : Int) * dLane = dLane by omega]) hl
  exact ⟨p, h1, h2, h3, h4, by rw [h5]; grind⟩

/-- Driving direction of a lane: along the road axis or not. -/
def laneUp (r : Road) (lane : Int) : Bool := if r.left then decide (0 < lane) else decide (lane < 0)

/-- Left of the driving direction of a lane is the direction of growing lane numbers if the lane runs along the road axis, else the other one. -/
def leftward (up : Bool) : Int := if up then 1 else -1

/-- C160: a position given by `dsLane` is on the lane of the entity moved in the driving direction of the lane, and `dLane` and the offset count to the left of this direction
(release_notes.md:1822-1824). Missing: lanes that change their number along the way; in lanes along the road axis, entities that drive against them with right-hand traffic and
entities that drive along them with left-hand traffic. -/
theorem rel_lane_along_partial (net : Net) (hst : ∀ id r, net.roads id = some r → Steady r) (ref : Pos) (r : Road) (hr : net.roads ref.road = some r)
    (hg : Good r ref) (hcase : laneUp r ref.lane = true → ref.fwd = !r.left) (dLane : Int) (ds offset : Rat) (n : Nat) (hn : n ≤ 7) (q : Spot)
    (hq : Reach net n (ref.spot (if 0 ≤ ds then laneUp r ref.lane else !laneUp r ref.lane)) (ab ds) q) (r' : Road) (hr' : net.roads q.road = some r')
    (hrule : r'.left = r.left) (hsame : q.lane = ref.lane)
    (lane : Int) (hm : MovedBy q.lane (leftward (laneUp r ref.lane) * dLane) lane) (hl : ∃ sec ∈ r'.secs, ∃ l, sec.laneById lane = some l) :
    ∃ p, relLane net ref dLane ds offset true = (.ok, p) ∧ p.road = q.road ∧ p.lane = lane ∧ p.s = q.s ∧
      p.off = leftward (laneUp r ref.lane) * offset := by
  have ht : travelUp r ref ds .lane = (if 0 ≤ ds then laneUp r ref.lane else !laneUp r ref.lane) := rfl
  have hl0 := hg.lane
  refine relLane_reach net hst ref r hr hg dLane ds offset true n hn q (by simpa [ht] using hq) r' hr' (leftward (laneUp r ref.lane)) ?_ lane
    (by rw [hsame] at hm; exact hm) hl
  unfold leftward upward
  rw [hrule]
  unfold laneUp at hcase ⊢
  cases hL : r.left
  · by_cases h : ref.lane < 0
    · have hf := hcase (by simp [hL, h])
      simp [hf, hL, h]
    · simp [h]
  · by_cases h : 0 < ref.lane
    · have hf := hcase (by simp [hL, h])
      simp [hf, hL, h]
    · simp [h]

/-! ### Where it fails -/

/-- C160 fails for a road that is joined to the next one end to end: the lane of the entity goes on as lane 1 of the next road, whose lane -1 is that of the oncoming traffic.
The position in the same lane, 8 m ahead, is placed in lane -1, whether it is given by `ds` or by `dsLane`. -/
theorem lane_number_fails :
    (moveAlongS demo posDemo 8 0 .road).2.lane = 1 ∧
    relLane demo posDemo 0 8 0 false = (.ok, ⟨1, 0, -1, 2, 3, 0, false, false⟩) ∧
    relLane demo posDemo 0 8 0 true = (.ok, ⟨1, 0, -1, 2, 3, 0, false, false⟩) := by decide +kernel

/-- A road for left-hand traffic with two lanes in the direction of the road axis and one against it. -/
def leftNet : Net where
  roads := fun i => if i = 0 then some ⟨100, true, [⟨0, 100, [{ id := 2 }, { id := 1 }, { id := 0 }, { id := -1 }]⟩], none, none⟩ else none
  connect := fun _ _ _ => none
  closest := fun _ _ _ => 1

/-- C160 fails for left-hand traffic and entities in lanes to the left of the road axis: they head along the road axis, the lane to their left is lane 2, but `dLane` 1 leads to
lane -1, against the traffic, and the offset is to the right. -/
theorem left_hand_fails :
    relLane leftNet ⟨0, 0, 1, 1, 20, 0, true, false⟩ 1 10 (1 / 2) true = (.ok, ⟨0, 0, -1, 3, 30, -1 / 2, true, false⟩) ∧
    MovedBy 1 (leftward true * 1) 2 ∧ roadDs leftNet ⟨0, 0, 1, 1, 20, 0, true, false⟩ 10 .lane = 10 := by
  refine ⟨by decide +kernel, by unfold MovedBy; decide, by decide +kernel⟩

/-- It is so for every such entity in its lane: `dLane` and the offset count to its right. -/
theorem left_hand_all_fails (net : Net) (hst : ∀ id r, net.roads id = some r → Steady r) (ref : Pos) (r : Road) (hr : net.roads ref.road = some r)
    (hg : Good r ref) (hdir : ref.fwd = true) (hleft : r.left = true) (hpos : 0 < ref.lane) (dLane : Int) (ds offset : Rat) (n : Nat) (hn : n ≤ 7)
    (q : Spot) (hq : Reach net n (ref.spot (decide (0 ≤ ds))) (ab ds) q) (r' : Road) (hr' : net.roads q.road = some r') (hrule : r'.left = true)
    (lane : Int) (hm : MovedBy ref.lane (-dLane) lane) (hl : ∃ sec ∈ r'.secs, ∃ l, sec.laneById lane = some l) :
    ∃ p, relLane net ref dLane ds offset true = (.ok, p) ∧ p.road = q.road ∧ p.lane = lane ∧ p.s = q.s ∧ p.off = -offset := by
  have ht : travelUp r ref ds .lane = decide (0 ≤ ds) := by
    unfold travelUp ahead; by_cases h : 0 ≤ ds <;> simp [h, hleft, hpos]
  have h' : ¬ ref.lane < 0 := by omega
  obtain ⟨p, h1, h2, h3, h4, h5⟩ := relLane_reach net hst ref r hr hg dLane ds offset true n hn q (by simpa [ht] using hq) r' hr' (-1)
    (by simp [upward, hrule, hdir, h']) lane (by rwa [show (-1 : Int) * dLane = -dLane by omega]) hl
  exact ⟨p, h1, h2, h3, h4, by rw [h5]; grind⟩

/-- C160 fails for a vehicle that drives against a lane along the road axis: with right-hand traffic, `dLane` 1 from lane -2 leads to lane -3 although left of
the driving direction of the lane is lane -1. -/
theorem wrong_way_fails :
    let net : Net := ⟨fun i => if i = 0 then some ⟨100, false, [⟨0, 100, [{ id := 0 }, { id := -1 }, { id := -2 }, { id := -3 }]⟩], none, none⟩ else none,
      fun _ _ _ => none, fun _ _ _ => 0⟩
    relLane net ⟨0, 0, -2, 2, 20, 0, false, false⟩ 1 10 (1 / 2) true = (.ok, ⟨0, 0, -3, 3, 30, -1 / 2, false, false⟩) := by decide +kernel

/-! ### Concrete cases -/

/-- In the chain of roads the lanes keep their numbers. -/
theorem chain_steady : ∀ id r, chain.roads id = some r → Steady r := by
  intro id r h
  have h' : r = ⟨1, false, secDemo 1 (some 1) (some 1) (some (-1)) (some (-1)), if id = 0 then none else some (.road (id - 1) .finish),
    some (.road (id + 1) .start)⟩ := (Option.some.inj h).symm
  subst h'
  exact secDemo_steady 1 (by decide +kernel) false _ _ _ _ _ _

example : relLane chain ⟨0, 0, -1, 2, 1 / 2, 0, true, false⟩ 1 (9 / 4) (1 / 4) true = (.ok, ⟨2, 0, 1, 0, 3 / 4, 1 / 4, true, false⟩) := by
  decide +kernel

example : ∃ p, relLane chain ⟨5, 0, 1, 0, 1 / 2, 0, false, false⟩ 1 (1 / 4) (1 / 4) true = (.ok, p) ∧ p.road = 5 ∧ p.lane = -1 ∧ p.s = 1 / 4 ∧ p.off = -1 / 4 := by
  let ref : Pos := ⟨5, 0, 1, 0, 1 / 2, 0, false, false⟩
  have e : (⟨5, 1, 1 / 4, 0, false⟩ : Spot) = (ref.spot (if (0 : Rat) ≤ 1 / 4 then false else !false)).shift (ab (1 / 4)) := by decide +kernel
  obtain ⟨p, h1, h2, h3, h4, h5⟩ := rel_lane_along_partial chain chain_steady ref _ rfl
    ⟨by decide, by decide +kernel, by decide, by decide +kernel, by decide +kernel⟩ (by decide +kernel) 1 (1 / 4) (1 / 4) 0 (by omega)
    ⟨5, 1, 1 / 4, 0, false⟩ (by rw [e]; exact Reach.stay _ _ _ rfl (by decide +kernel) (by decide +kernel)) _ rfl rfl rfl (-1)
    (by unfold MovedBy leftward; decide) ⟨_, List.mem_singleton.mpr rfl, _, rfl⟩
  exact ⟨p, h1, h2, h3, h4, h5.trans (by decide +kernel)⟩

/-! ### Positions relative to the road -/

/-- C160: the position lies on the road reached, at the place reached, `dt` beside the lane of the entity as it runs there. -/
theorem rel_road_place (net : Net) (hst : ∀ id r, net.roads id = some r → Steady r) (centre : Nat → Int → Rat → Rat) (ref : Pos) (r : Road)
    (hr : net.roads ref.road = some r) (hg : Good r ref) (ds dt : Rat) (n : Nat) (hn : n ≤ 7) (q : Spot)
    (hq : Reach net n (ref.spot (decide (0 ≤ ds))) (ab ds) q) :
    relRoad net centre ref ds dt = (q.road, q.s, centre q.road q.lane q.s + q.off + dt) := by
  have ht : travelUp r ref ds .road = decide (0 ≤ ds) := by
    unfold travelUp ahead; by_cases h : 0 ≤ ds <;> simp [h]
  obtain ⟨c, q', r1, h1, -, -, h2, h3, h4, h5, -⟩ := move_travels net hst ref r hr hg ds .road n hn q (by rw [ht]; exact hq)
  unfold relRoad
  rw [h1]
  simp only [h2, h3, h4, h5]

/-- C160: within the road the lateral position is `dt` beside that of the entity, if the lane runs parallel to the road axis. -/
theorem rel_road_partial (net : Net) (hst : ∀ id r, net.roads id = some r → Steady r) (centre : Nat → Int → Rat → Rat) (ref : Pos) (r : Road)
    (hr : net.roads ref.road = some r) (hg : Good r ref) (ds dt : Rat) (h0 : 0 ≤ ref.s + ds) (h1 : ref.s + ds ≤ r.len)
    (hc : centre ref.road ref.lane (ref.s + ds) = centre ref.road ref.lane ref.s) :
    relRoad net centre ref ds dt = (ref.road, ref.s + ds, (centre ref.road ref.lane ref.s + ref.off) + dt) := by
  have hq : Reach net 0 (ref.spot (decide (0 ≤ ds))) (ab ds) ((ref.spot (decide (0 ≤ ds))).shift (ab ds)) := by
    refine Reach.stay _ r _ hr ?_ ?_
    · unfold ab; split <;> grind
    · unfold ab Spot.ahead Pos.spot
      by_cases h : 0 ≤ ds
      · have : ¬ ds < 0 := by grind
        simp only [h, this, decide_true, if_true, if_false]; grind
      · have : ds < 0 := by grind
        simp only [h, this, decide_false, if_true, if_false, Bool.false_eq_true]; grind
  rw [rel_road_place net hst centre ref r hr hg ds dt 0 (by omega) _ hq]
  have hs : ((ref.spot (decide (0 ≤ ds))).shift (ab ds)).s = ref.s + ds := by
    unfold ab Spot.shift Pos.spot
    by_cases h : 0 ≤ ds
    · have : ¬ ds < 0 := by grind
      simp only [h, this, decide_true, if_true, if_false]
    · have : ds < 0 := by grind
      simp only [h, this, decide_false, if_true, if_false, Bool.false_eq_true]; grind
  rw [hs]
  simp only [Spot.shift, Pos.spot, hc]

example : relRoad chain (fun _ lane _ => (lane : Rat) * 2) ⟨3, 0, -1, 2, 1 / 2, 0, true, false⟩ (1 / 4) 1 = (3, 3 / 4, -1) :=
  (rel_road_partial chain chain_steady _ ⟨3, 0, -1, 2, 1 / 2, 0, true, false⟩ _ rfl
    ⟨by decide, by decide +kernel, by decide, by decide +kernel, by decide +kernel⟩ (1 / 4) 1 (by decide +kernel) (by decide +kernel) rfl).trans
    (by decide +kernel)

/-- C160 fails where the road widens: the entity is 2 m right of the road axis, the position 50 m ahead with `dt` zero is 7 m right of it. -/
theorem rel_road_fails :
    let net : Net := ⟨fun i => if i = 0 then some ⟨100, false, secDemo 100 none none none none, none, none⟩ else none, fun _ _ _ => none, fun _ _ _ => 0⟩
    let centre : Nat → Int → Rat → Rat := fun _ lane s => lane * (2 + s / 10)
    centre 0 (-1) 0 + 0 = -2 ∧ relRoad net centre ⟨0, 0, -1, 2, 0, 0, true, false⟩ 50 0 = (0, 50, -7) := by
  decide +kernel

end Verif.Place

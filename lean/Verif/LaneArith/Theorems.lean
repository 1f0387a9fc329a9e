import Verif.LaneArith.Model

/-
C32 — relative lane arithmetic skips the reference lane.

Specification: real lanes are the non-zero lane ids. Counting them from right to left
`… -2, -1, 1, 2 …` one position at a time gives `lanePos`; moving `k` lanes means adding `k`
to the position. Nothing here refers to the code's functions.
-/
namespace Verif.LaneArith

/-- Position of a real lane when lanes are counted contiguously (there is no lane 0). -/
def lanePos (lane : Int) : Int := if 0 < lane then lane - 1 else lane

/-- `to` is the lane reached from `src` by crossing exactly `k` lane borders to the left
(to the right if negative). -/
def MovedBy (src k to : Int) : Prop := to ≠ 0 ∧ lanePos to = lanePos src + k

/-- There is exactly one such lane. -/
theorem movedBy_unique {src k a b : Int} (ha : MovedBy src k a) (hb : MovedBy src k b) :
    a = b := by
  unfold MovedBy lanePos at *
  grind

/-- C32: `GetRelativeLaneId` moves a real lane by exactly `offset` lanes, never to lane 0. -/
theorem getRelativeLaneId_moves (lane offset : Int) (h : lane ≠ 0) :
    MovedBy lane offset (getRelativeLaneId lane offset) := by
  unfold MovedBy lanePos getRelativeLaneId Verif.Common.signI
  grind

example : MovedBy 2 (-3) (getRelativeLaneId 2 (-3)) ∧ getRelativeLaneId 2 (-3) = -2 :=
  ⟨getRelativeLaneId_moves 2 (-3) (by decide), by decide⟩

/-- C32: the difference function counts the lanes between two real lanes. -/
theorem getLaneIdDelta_counts (a b : Int) (ha : a ≠ 0) (hb : b ≠ 0) :
    MovedBy a (getLaneIdDelta a b) b := by
  unfold MovedBy lanePos getLaneIdDelta Verif.Common.signI
  grind

/-- C32: difference and relative move are inverse to each other. -/
theorem getRelativeLaneId_delta (a b : Int) (ha : a ≠ 0) (hb : b ≠ 0) :
    getRelativeLaneId a (getLaneIdDelta a b) = b :=
  movedBy_unique (getRelativeLaneId_moves a _ ha) (getLaneIdDelta_counts a b ha hb)

theorem getLaneIdDelta_relative (a k : Int) (ha : a ≠ 0) :
    getLaneIdDelta a (getRelativeLaneId a k) = k := by
  have h1 := getRelativeLaneId_moves a k ha
  have h2 := getLaneIdDelta_counts a _ ha h1.1
  have := h1.2; have := h2.2; omega

example : getRelativeLaneId (-1) (getLaneIdDelta (-1) 3) = 3 ∧ getLaneIdDelta (-1) 3 = 3 :=
  ⟨getRelativeLaneId_delta (-1) 3 (by decide) (by decide), by decide⟩

/-- C32: moves compose: moving by `j` and then by `k` is moving by `j + k`. -/
theorem getRelativeLaneId_add (lane j k : Int) (h : lane ≠ 0) :
    getRelativeLaneId (getRelativeLaneId lane j) k = getRelativeLaneId lane (j + k) := by
  have h1 := getRelativeLaneId_moves lane j h
  have h2 := getRelativeLaneId_moves _ k h1.1
  have h3 := getRelativeLaneId_moves lane (j + k) h
  exact movedBy_unique (src := lane) (k := j + k) ⟨h2.1, by rw [h2.2, h1.2]; omega⟩ h3

/-- C32: the lane change action's own arithmetic reaches the lane `value` lanes to the left as
seen by the reference entity. -/
theorem laneChangeRelativeTarget_moves (ref value : Int) (forward : Bool) (h : ref ≠ 0) :
    MovedBy ref (if forward then value else -value)
      (laneChangeRelativeTarget ref value forward) := by
  unfold MovedBy lanePos laneChangeRelativeTarget Verif.Common.signI
  have : (if forward = true then value else -value) = value * (if forward then 1 else -1) := by
    cases forward <;> simp
  rw [this]
  generalize value * (if forward = true then (1:Int) else -1) = v
  grind

example : MovedBy 1 (-1) (laneChangeRelativeTarget 1 1 false) :=
  laneChangeRelativeTarget_moves 1 1 false (by decide)

/-- The two implementations agree on real lanes. -/
theorem laneChange_eq_relativeLaneId (ref value : Int) (forward : Bool) (h : ref ≠ 0) :
    laneChangeRelativeTarget ref value forward =
      getRelativeLaneId ref (if forward then value else -value) :=
  movedBy_unique (laneChangeRelativeTarget_moves ref value forward h)
    (getRelativeLaneId_moves _ _ h)

/-- Disagreement: on the reference lane (`lane_id = 0`) the two functions are not inverse:
the difference 0 → 2 is reported as 1, but moving lane 0 by 1 gives lane 1. -/
theorem lane_zero_not_inverse : getRelativeLaneId 0 (getLaneIdDelta 0 2) ≠ 2 := by decide

/-- Disagreement: relative to an entity on lane 0, the lane change action with value 0 targets
lane 1, and the other implementation lane 0. -/
theorem laneChange_lane_zero_differs :
    laneChangeRelativeTarget 0 0 true = 1 ∧ getRelativeLaneId 0 0 = 0 := by decide

end Verif.LaneArith

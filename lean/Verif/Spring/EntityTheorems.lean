import Verif.Spring.EntityModel
import Verif.Geom.LineTheorems
import Verif.Geom.AngleTheorems
import Mathlib.Tactic.LinearCombination
/-
C166: lateral distance in the coordinate system of the reference entity, and rigid motion.
-/
namespace Verif.Spring
open Verif.Geom (rotate projectOnLine circleIntersections circlePoints circleA circleB circleC angleOfVector angleDiff absAngleDiff interval2PI atan2 Proper project_spec
  circle_two interval2PI_direction interval2PI_spec angleDiff_spec absAngleDiff_spec angleOfVector_direction Turns turns_cos)
open Real

theorem geom_small : Verif.Geom.small = small := rfl

/-- Place beside an entity: distance ahead of it and to its left. -/
noncomputable def ahead (ref : Body) (x y : ℝ) : ℝ := (x - ref.x) * cos ref.h + (y - ref.y) * sin ref.h
noncomputable def leftOf (ref : Body) (x y : ℝ) : ℝ := (y - ref.y) * cos ref.h - (x - ref.x) * sin ref.h

theorem aim_eq (d : ℝ) (ref o : Body) :
    aim d ref o = (o.x - (d - leftOf ref o.x o.y) * sin ref.h, o.y + (d - leftOf ref o.x o.y) * cos ref.h) := by
  have hc := cos_sq_add_sin_sq ref.h
  have hs : small < 1 / 2 := by unfold small; norm_num
  have hp : ¬(|(ref.x + (0 * cos ref.h - d * sin ref.h) + (1 * cos ref.h - 0 * sin ref.h)) - (ref.x + (0 * cos ref.h - d * sin ref.h))| < small ∧
      |(ref.y + (0 * sin ref.h + d * cos ref.h) + (1 * sin ref.h + 0 * cos ref.h)) - (ref.y + (0 * sin ref.h + d * cos ref.h))| < small) := by
    rintro ⟨h1, h2⟩
    rw [show (ref.x + (0 * cos ref.h - d * sin ref.h) + (1 * cos ref.h - 0 * sin ref.h)) - (ref.x + (0 * cos ref.h - d * sin ref.h)) = cos ref.h by ring] at h1
    rw [show (ref.y + (0 * sin ref.h + d * cos ref.h) + (1 * sin ref.h + 0 * cos ref.h)) - (ref.y + (0 * sin ref.h + d * cos ref.h)) = sin ref.h by ring] at h2
    have a1 := sq_abs (cos ref.h)
    have a2 := sq_abs (sin ref.h)
    have p1 := abs_nonneg (cos ref.h)
    have p2 := abs_nonneg (sin ref.h)
    nlinarith
  unfold aim projectOnLine rotate
  simp only
  rw [if_neg (by rw [geom_small]; exact hp)]
  have e1 : ref.x + (0 * cos ref.h - d * sin ref.h) + (1 * cos ref.h - 0 * sin ref.h) - (ref.x + (0 * cos ref.h - d * sin ref.h)) = cos ref.h := by ring
  have e2 : ref.y + (0 * sin ref.h + d * cos ref.h) + (1 * sin ref.h + 0 * cos ref.h) - (ref.y + (0 * sin ref.h + d * cos ref.h)) = sin ref.h := by ring
  have e3 : sin ref.h * sin ref.h + cos ref.h * cos ref.h = 1 := by linear_combination hc
  simp only [e1, e2, e3, div_one]
  unfold leftOf
  refine Prod.ext ?_ ?_
  · show _ = _
    linear_combination (-d * sin ref.h) * hc
  · show _ = _
    linear_combination (d * cos ref.h) * hc

/-- The gap is the missing lateral distance. -/
theorem gap_eq (d : ℝ) (ref o : Body) : gap d ref o = |d - leftOf ref o.x o.y| := by
  unfold gap
  rw [aim_eq, ← sqrt_sq_eq_abs]
  congr 1
  linear_combination (d - leftOf ref o.x o.y) ^ 2 * cos_sq_add_sin_sq ref.h

/-- C166: without limits the entity is at the requested distance to the left (if positive) of the reference entity after one step, parallel to it, and has moved on by what is
left of the way of the step. -/
theorem entity_instant (c : Bool) (v dt d : ℝ) (ref o : Body) :
    ∃ b e, entityStep none c v dt d ref o = some (b, e) ∧ leftOf ref b.x b.y = d ∧ b.h = ref.h ∧
      ahead ref b.x b.y = ahead ref o.x o.y + max 0 (|v| * dt - |d - leftOf ref o.x o.y|) := by
  have hc := cos_sq_add_sin_sq ref.h
  refine ⟨instant v dt d ref o, false, rfl, ?_⟩
  unfold instant
  simp only [gap_eq, aim_eq]
  generalize hq : |d - leftOf ref o.x o.y| = q
  unfold rotate
  split_ifs with h
  · refine ⟨?_, rfl, ?_⟩
    · unfold leftOf; simp only; linear_combination (d - (o.y - ref.y) * cos ref.h + (o.x - ref.x) * sin ref.h) * hc
    · rw [max_eq_right (by linarith)]
      unfold ahead; simp only; linear_combination (|v| * dt - q) * hc
  · refine ⟨?_, rfl, ?_⟩
    · unfold leftOf; simp only; linear_combination (d - (o.y - ref.y) * cos ref.h + (o.x - ref.x) * sin ref.h) * hc
    · rw [max_eq_left (by linarith)]
      unfold ahead; simp only; ring

/-- C166: the side and the free space, with the distance set by `Start`. -/
theorem entity_side (c freespace : Bool) (side : Side) (widths d v dt : ℝ) (ref o : Body) (hs : side = .left ∨ side = .right) :
    ∃ b e, entityStep none c v dt (latStart true freespace side widths d) ref o = some (b, e) ∧
      leftOf ref b.x b.y = (if side = .left then 1 else -1) * (d + if freespace then widths / 2 else 0) := by
  obtain ⟨b, e, h1, h2, -⟩ := entity_instant c v dt (latStart true freespace side widths d) ref o
  refine ⟨b, e, h1, h2.trans ?_⟩
  rcases hs with rfl | rfl <;> cases freespace <;> simp [latStart, Side.resolve]

theorem turnRadius_pos (a v : ℝ) : 1 / 2 ≤ turnRadius a v := le_max_left _ _

theorem circle_points {p0x p0y p1x p1y cx cy r : ℝ} {a b : ℝ × ℝ} (hne : circleA p0x p0y p1x p1y ≠ 0)
    (h : circleIntersections p0x p0y p1x p1y cx cy r = some [a, b]) :
    ((a.1 - cx) ^ 2 + (a.2 - cy) ^ 2 = r ^ 2 ∧ ∃ t, a = (p0x + t * (p1x - p0x), p0y + t * (p1y - p0y))) ∧
    ((b.1 - cx) ^ 2 + (b.2 - cy) ^ 2 = r ^ 2 ∧ ∃ t, b = (p0x + t * (p1x - p0x), p0y + t * (p1y - p0y))) := by
  have hn : (p0x, p0y) ≠ (p1x, p1y) := by
    rintro h
    injection h with h1 h2
    apply hne
    unfold circleA; rw [h1, h2]; ring
  have ha : ∃ t, a = (p0x + t * (p1x - p0x), p0y + t * (p1y - p0y)) := by
    unfold circleIntersections circlePoints at h
    split_ifs at h
    · simp at h
    · simp at h
    · simp only [Option.some.injEq, List.cons.injEq, and_true] at h
      exact ⟨_, h.1.symm⟩
  have hb : ∃ t, b = (p0x + t * (p1x - p0x), p0y + t * (p1y - p0y)) := by
    unfold circleIntersections circlePoints at h
    split_ifs at h
    · simp at h
    · simp at h
    · simp only [Option.some.injEq, List.cons.injEq, and_true] at h
      exact ⟨_, h.2.symm⟩
  obtain ⟨t, ht⟩ := ha
  obtain ⟨u, hu⟩ := hb
  refine ⟨⟨?_, t, ht⟩, ⟨?_, u, hu⟩⟩
  · rw [ht]; exact (circle_two hn h t).2 (.inl ht.symm)
  · rw [hu]; exact (circle_two hn h u).2 (.inr hu.symm)

/-- Two points are found whenever the entity goes straight to the line. -/
theorem straight_some (step d : ℝ) (ref o : Body) (h1 : gap d ref o < step / 2 - small) (h2 : step / 2 > 1 / 2 - small) :
    ∃ b, straight step d ref o = some b ∧ (b.x - o.x) ^ 2 + (b.y - o.y) ^ 2 = step ^ 2 ∧ leftOf ref b.x b.y = d ∧
      b.h = angleOfVector (b.x - o.x) (b.y - o.y) := by
  have hc := cos_sq_add_sin_sq ref.h
  have hs : small = 1 / 1000000 := rfl
  rw [gap_eq] at h1
  generalize hX : ref.x + (rotate 0 d ref.h).1 = X
  generalize hY : ref.y + (rotate 0 d ref.h).2 = Y
  have ax : (rotate 1 0 ref.h).1 = cos ref.h := by unfold rotate; simp
  have ay : (rotate 1 0 ref.h).2 = sin ref.h := by unfold rotate; simp
  have hA : circleA X Y (X + cos ref.h) (Y + sin ref.h) = 1 := by unfold circleA; linear_combination hc
  have hX' : X = ref.x - d * sin ref.h := by rw [← hX]; unfold rotate; simp; ring
  have hY' : Y = ref.y + d * cos ref.h := by rw [← hY]; unfold rotate; simp
  have hD : circleB X Y (X + cos ref.h) (Y + sin ref.h) o.x o.y * circleB X Y (X + cos ref.h) (Y + sin ref.h) o.x o.y
      - 4 * circleA X Y (X + cos ref.h) (Y + sin ref.h) * circleC X Y o.x o.y step = 4 * (step ^ 2 - (d - leftOf ref o.x o.y) ^ 2) := by
    rw [hA]
    unfold circleB circleC leftOf
    rw [hX', hY']
    have hc' : sin ref.h ^ 2 = 1 - cos ref.h ^ 2 := by linarith
    ring_nf
    simp only [show sin ref.h ^ 4 = (sin ref.h ^ 2) ^ 2 by ring, show sin ref.h ^ 3 = sin ref.h * sin ref.h ^ 2 by ring, hc']
    ring_nf
    try simp only [hc']
    try ring
  have hD2 : 1 < 4 * (step ^ 2 - (d - leftOf ref o.x o.y) ^ 2) := by
    have := abs_nonneg (d - leftOf ref o.x o.y)
    have h3 : (d - leftOf ref o.x o.y) ^ 2 ≤ (step / 2) ^ 2 := by
      rw [← sq_abs]
      exact pow_le_pow_left₀ this (by linarith) 2
    nlinarith
  obtain ⟨i0, i1, hi⟩ : ∃ i0 i1, circleIntersections X Y (X + cos ref.h) (Y + sin ref.h) o.x o.y step = some [i0, i1] := by
    unfold circleIntersections circlePoints
    rw [hD, geom_small, if_neg (by linarith), if_neg (by rw [sub_zero, abs_of_nonneg (by linarith)]; linarith), if_neg (by linarith)]
    exact ⟨_, _, rfl⟩
  obtain ⟨⟨p1, t, p2⟩, ⟨q1, u, q2⟩⟩ := circle_points (by rw [hA]; norm_num) hi
  have side : ∀ t : ℝ, leftOf ref (X + t * (X + cos ref.h - X)) (Y + t * (Y + sin ref.h - Y)) = d := by
    intro t
    unfold leftOf
    rw [hX', hY']
    linear_combination d * hc
  unfold straight
  simp only [hX, hY, ax, ay, hi]
  split_ifs
  · exact ⟨_, rfl, p1, by rw [p2]; exact side t, rfl⟩
  · exact ⟨_, rfl, q1, by rw [q2]; exact side u, rfl⟩

/-- C166: with a limited acceleration the entity keeps its speed: each step covers the way of the step. -/
theorem entity_speed (c : Bool) (a v dt d : ℝ) (ref o : Body) :
    ∃ b e, entityStep (some a) c v dt d ref o = some (b, e) ∧ (b.x - o.x) ^ 2 + (b.y - o.y) ^ 2 = (v * dt) ^ 2 := by
  have hR := turnRadius_pos a v
  have key : ∀ h : ℝ, (o.x + cos h * (v * dt) - o.x) ^ 2 + (o.y + sin h * (v * dt) - o.y) ^ 2 = (v * dt) ^ 2 := fun h => by
    linear_combination (v * dt) ^ 2 * cos_sq_add_sin_sq h
  unfold entityStep limited
  simp only
  split_ifs with h1 h2
  · refine ⟨_, _, rfl, ?_⟩
    simp only [rotate, one_mul, zero_mul, sub_zero, add_zero]
    exact key ref.h
  · obtain ⟨b, hb, h3, -⟩ := straight_some (v * dt) d ref o h2.1 (by linarith [h2.2])
    rw [hb]
    exact ⟨_, _, rfl, h3⟩
  · exact ⟨_, _, rfl, key _⟩

/-- C166: with a limited acceleration the entity faces the way it goes. Missing: ways across the x axis, where the angle is rounded. -/
theorem entity_heading_partial (c : Bool) (a v dt d : ℝ) (ref o b : Body) (e : Bool) (hv : 0 ≤ v * dt) (h : entityStep (some a) c v dt d ref o = some (b, e))
    (hx : small ≤ |b.x - o.x|) : v * dt * cos b.h = b.x - o.x ∧ v * dt * sin b.h = b.y - o.y := by
  have hR := turnRadius_pos a v
  unfold entityStep limited at h
  simp only at h
  split_ifs at h with h1 h2
  · simp only [Option.map_some, Option.some.injEq, Prod.mk.injEq] at h
    rw [← h.1]
    simp only [rotate]
    constructor <;> ring
  · obtain ⟨b', hb, h3, -, h4⟩ := straight_some (v * dt) d ref o h2.1 (by linarith [h2.2])
    rw [hb] at h
    simp only [Option.map_some, Option.some.injEq, Prod.mk.injEq] at h
    rw [h.1] at h3 h4
    have := angleOfVector_direction (b.x - o.x) (b.y - o.y) hx
    rw [h3, sqrt_sq hv, ← h4] at this
    exact this
  · simp only [Option.map_some, Option.some.injEq, Prod.mk.injEq] at h
    rw [← h.1]
    constructor <;> ring

/-- The entity goes straight to the point of the line ahead. -/
theorem straight_ahead (step d : ℝ) (ref o b : Body) (h1 : gap d ref o < step / 2 - small) (h0 : 0 < step)
    (hx : ∀ x y, (x - o.x) ^ 2 + (y - o.y) ^ 2 = step ^ 2 → leftOf ref x y = d → small ≤ |x - o.x|)
    (hb : straight step d ref o = some b) : ahead ref o.x o.y < ahead ref b.x b.y := by
  have hc := cos_sq_add_sin_sq ref.h
  have hs : small = 1 / 1000000 := rfl
  rw [gap_eq] at h1
  generalize hX : ref.x + (rotate 0 d ref.h).1 = X
  generalize hY : ref.y + (rotate 0 d ref.h).2 = Y
  have ax : (rotate 1 0 ref.h).1 = cos ref.h := by unfold rotate; simp
  have ay : (rotate 1 0 ref.h).2 = sin ref.h := by unfold rotate; simp
  have hA : circleA X Y (X + cos ref.h) (Y + sin ref.h) = 1 := by unfold circleA; linear_combination hc
  have hX' : X = ref.x - d * sin ref.h := by rw [← hX]; unfold rotate; simp; ring
  have hY' : Y = ref.y + d * cos ref.h := by rw [← hY]; unfold rotate; simp
  unfold straight at hb
  simp only [hX, hY, ax, ay] at hb
  split at hb
  · rename_i i0 i1 hi
    obtain ⟨⟨p1, t, p2⟩, ⟨q1, u, q2⟩⟩ := circle_points (by rw [hA]; norm_num) hi
    have side : ∀ t : ℝ, leftOf ref (X + t * (X + cos ref.h - X)) (Y + t * (Y + sin ref.h - Y)) = d := by
      intro t
      unfold leftOf
      rw [hX', hY']
      linear_combination d * hc
    have front : ∀ t : ℝ, ahead ref (X + t * (X + cos ref.h - X)) (Y + t * (Y + sin ref.h - Y)) = t := by
      intro t
      unfold ahead
      rw [hX', hY']
      linear_combination t * hc
    have polar : ∀ x y : ℝ, (x - o.x) ^ 2 + (y - o.y) ^ 2 =
        (ahead ref x y - ahead ref o.x o.y) ^ 2 + (leftOf ref x y - leftOf ref o.x o.y) ^ 2 := by
      intro x y
      unfold ahead leftOf
      linear_combination (-((x - o.x) ^ 2 + (y - o.y) ^ 2)) * hc
    have hq : (d - leftOf ref o.x o.y) ^ 2 < step ^ 2 := by
      rw [← sq_abs]
      exact pow_lt_pow_left₀ (by linarith) (abs_nonneg _) two_ne_zero
    obtain ⟨s, hs0, hs2⟩ : ∃ s : ℝ, 0 < s ∧ s ^ 2 = step ^ 2 - (d - leftOf ref o.x o.y) ^ 2 :=
      ⟨√(step ^ 2 - (d - leftOf ref o.x o.y) ^ 2), sqrt_pos.mpr (by linarith), sq_sqrt (by linarith)⟩
    have hn : (X, Y) ≠ (X + cos ref.h, Y + sin ref.h) := by
      intro h
      injection h with h2 h3
      have h4 : cos ref.h = 0 := by linarith
      have h5 : sin ref.h = 0 := by linarith
      rw [h4, h5] at hc
      norm_num at hc
    have hF := (circle_two hn hi (ahead ref o.x o.y + s)).1 (by
      rw [polar, side, front]
      linear_combination hs2)
    have angle : ∀ x y : ℝ, (x - o.x) ^ 2 + (y - o.y) ^ 2 = step ^ 2 → leftOf ref x y = d →
        step * cos (absAngleDiff π (angleOfVector (x - o.x) (y - o.y)) ref.h) = ahead ref x y - ahead ref o.x o.y := by
      intro x y k1 k2
      have k := angleOfVector_direction (x - o.x) (y - o.y) (hx x y k1 k2)
      rw [k1, sqrt_sq h0.le] at k
      rw [(absAngleDiff_spec pi_pos _ _).1, cos_abs, (turns_cos (angleDiff_spec pi_pos _ _).1).1, cos_sub]
      unfold ahead
      linear_combination cos ref.h * k.1 + sin ref.h * k.2
    have less : ∀ a b : ℝ, step * cos (absAngleDiff π a ref.h) < step * cos (absAngleDiff π b ref.h) → absAngleDiff π b ref.h < absAngleDiff π a ref.h := by
      intro a b k
      by_contra hn
      have := cos_le_cos_of_nonneg_of_le_pi (absAngleDiff_spec pi_pos a ref.h).2.1 (absAngleDiff_spec pi_pos b ref.h).2.2 (not_lt.mp hn)
      exact absurd k (not_lt.mpr (mul_le_mul_of_nonneg_left this h0.le))
    have a0 := angle i0.1 i0.2 p1 (by rw [p2]; exact side t)
    have a1 := angle i1.1 i1.2 q1 (by rw [q2]; exact side u)
    have f : ∀ i : ℝ × ℝ, (X + (ahead ref o.x o.y + s) * (X + cos ref.h - X), Y + (ahead ref o.x o.y + s) * (Y + sin ref.h - Y)) = i →
        ahead ref i.1 i.2 - ahead ref o.x o.y = s := by
      rintro i rfl
      rw [front]
      ring
    by_contra hneg
    split_ifs at hb with hlt
    · simp only [Option.some.injEq] at hb
      rw [← hb] at hneg
      simp only at hneg
      rcases hF with hF | hF
      · have := f _ hF
        linarith
      · have k := f _ hF
        have := less _ _ (show step * cos (absAngleDiff π (angleOfVector (i0.1 - o.x) (i0.2 - o.y)) ref.h) <
          step * cos (absAngleDiff π (angleOfVector (i1.1 - o.x) (i1.2 - o.y)) ref.h) by rw [a0, a1]; linarith)
        linarith
    · simp only [Option.some.injEq] at hb
      rw [← hb] at hneg
      simp only at hneg
      rcases hF with hF | hF
      · have k := f _ hF
        have := less _ _ (show step * cos (absAngleDiff π (angleOfVector (i1.1 - o.x) (i1.2 - o.y)) ref.h) <
          step * cos (absAngleDiff π (angleOfVector (i0.1 - o.x) (i0.2 - o.y)) ref.h) by rw [a0, a1]; linarith)
        exact hlt this
      · have := f _ hF
        linarith
  · simp at hb

/-- C166: an entity within half a step of the line reaches it in the step, going with the reference entity. Missing: ways across the x axis, where the angle is rounded. -/
theorem entity_forward_partial (c : Bool) (a v dt d : ℝ) (ref o : Body) (h1 : small ≤ |d - leftOf ref o.x o.y|) (h2 : |d - leftOf ref o.x o.y| < v * dt / 2 - small)
    (h3 : turnRadius a v < v * dt / 2)
    (hx : ∀ x y, (x - o.x) ^ 2 + (y - o.y) ^ 2 = (v * dt) ^ 2 → leftOf ref x y = d → small ≤ |x - o.x|) :
    ∃ b e, entityStep (some a) c v dt d ref o = some (b, e) ∧ leftOf ref b.x b.y = d ∧ ahead ref o.x o.y < ahead ref b.x b.y := by
  have hR := turnRadius_pos a v
  have hs : small = 1 / 1000000 := rfl
  have hg := gap_eq d ref o
  obtain ⟨b, hb, -, h5, -⟩ := straight_some (v * dt) d ref o (by rw [hg]; exact h2) (by linarith)
  refine ⟨b, false, ?_, h5, straight_ahead (v * dt) d ref o b (by rw [hg]; exact h2) (by linarith) hx hb⟩
  unfold entityStep limited
  simp only
  rw [if_neg (by rw [hg]; linarith), if_pos ⟨by rw [hg]; exact h2, by linarith⟩, hb]
  rfl

theorem absLimit_le (x y : ℝ) : |absLimit x y| ≤ |y| := by
  unfold absLimit sgn
  split_ifs with h1 h2
  · rw [neg_one_mul, abs_neg, abs_abs]
  · rw [one_mul, abs_abs]
  · linarith

/-- The largest turn of a step keeps to the limit. -/
theorem dhMax_le (a v dt : ℝ) (ha : a ≠ 0) : |v| * |dhMax a v dt| ≤ min |a| 1000 * |dt| := by
  have hm : 0 < min |a| 1000 := lt_min (abs_pos.mpr ha) (by norm_num)
  have hR := turnRadius_pos a v
  have hR0 : 0 < turnRadius a v := by linarith
  have hR2 : 3 / 2 * v ^ 2 ≤ turnRadius a v * min |a| 1000 := (div_le_iff₀ hm).1 (le_max_right _ _)
  have hp : small < π := by have := two_le_pi; unfold small; linarith
  have h0 : 0 ≤ dhMax a v dt := le_min (by positivity) (by linarith)
  have h1 : dhMax a v dt ≤ |v / turnRadius a v * dt| * (3 / 2) := min_le_left _ _
  rw [abs_of_nonneg h0]
  have h2 : |v / turnRadius a v * dt| = |v| * |dt| / turnRadius a v := by
    rw [abs_mul, abs_div, abs_of_pos hR0]; ring
  rw [h2] at h1
  have hv := abs_nonneg v
  have hd := abs_nonneg dt
  calc |v| * dhMax a v dt ≤ |v| * (|v| * |dt| / turnRadius a v * (3 / 2)) := mul_le_mul_of_nonneg_left h1 hv
    _ = (3 / 2 * v ^ 2) / turnRadius a v * |dt| := by rw [← sq_abs v]; ring
    _ ≤ min |a| 1000 * |dt| := by
      apply mul_le_mul_of_nonneg_right _ hd
      rw [div_le_iff₀ hR0]; linarith

/-- C166: the change of heading of a step, times the speed, is at most the limit of the acceleration times the time step, except where the entity reaches the line in this step
or is on it. Missing: those cases. -/
theorem entity_turn_partial (c : Bool) (a v dt d : ℝ) (ref o : Body) (ha : a ≠ 0) (hg : small ≤ gap d ref o)
    (hs : v * dt / 2 ≤ turnRadius a v - small ∨ v * dt / 2 - small ≤ gap d ref o) :
    ∃ b e k, entityStep (some a) c v dt d ref o = some (b, e) ∧ Turns π b.h (o.h + k) ∧ |v| * |k| ≤ min |a| 1000 * |dt| := by
  refine ⟨⟨o.x + cos (interval2PI π (o.h + turn a v dt d ref o)) * (v * dt), o.y + sin (interval2PI π (o.h + turn a v dt d ref o)) * (v * dt),
      interval2PI π (o.h + turn a v dt d ref o)⟩, false, turn a v dt d ref o, ?_, (interval2PI_spec pi_pos (o.h + turn a v dt d ref o)).2.2, ?_⟩
  · unfold entityStep limited
    simp only
    rw [if_neg (by linarith), if_neg (by rintro ⟨h1, h2⟩; rcases hs with h | h <;> linarith)]
    rfl
  · refine le_trans (mul_le_mul_of_nonneg_left ?_ (abs_nonneg v)) (dhMax_le a v dt ha)
    unfold turn
    simp only
    split_ifs <;> exact absLimit_le _ _

/-- C166: far from the line the entity turns towards it, as far as the limit allows. -/
theorem entity_far (a v dt d : ℝ) (ref o : Body) (h : gap d ref o > turnRadius a v - small) (hne : d ≠ leftOf ref o.x o.y) :
    ∃ want, cos want = -sin ref.h * (if leftOf ref o.x o.y < d then 1 else -1) ∧ sin want = cos ref.h * (if leftOf ref o.x o.y < d then 1 else -1) ∧
      turn a v dt d ref o = absLimit (angleDiff π want o.h) (dhMax a v dt) := by
  have hc := cos_sq_add_sin_sq ref.h
  refine ⟨atan2 ((aim d ref o).2 - o.y) ((aim d ref o).1 - o.x), ?_, ?_, ?_⟩
  all_goals try (unfold turn; simp only [if_pos h])
  all_goals
    rw [aim_eq]
    unfold atan2
    generalize he : d - leftOf ref o.x o.y = e
    have he0 : e ≠ 0 := by rw [← he]; exact sub_ne_zero.mpr hne
    have hz : (⟨o.x - e * sin ref.h - o.x, o.y + e * cos ref.h - o.y⟩ : ℂ) ≠ 0 := by
      intro h0
      have h1 := congrArg Complex.re h0
      have h2 := congrArg Complex.im h0
      simp only [Complex.zero_re, Complex.zero_im] at h1 h2
      have : e ^ 2 = 0 := by
        have h3 : e * sin ref.h = 0 := by linarith
        have h4 : e * cos ref.h = 0 := by linarith
        calc e ^ 2 = (e * cos ref.h) ^ 2 + (e * sin ref.h) ^ 2 := by linear_combination (-e ^ 2) * hc
          _ = 0 := by rw [h3, h4]; ring
      exact he0 (pow_eq_zero_iff (two_ne_zero) |>.1 this)
    have hn : ‖(⟨o.x - e * sin ref.h - o.x, o.y + e * cos ref.h - o.y⟩ : ℂ)‖ = |e| := by
      rw [Complex.norm_def, Complex.normSq_mk, ← sqrt_sq_eq_abs]
      congr 1
      linear_combination e ^ 2 * hc
    have hsgn : e / |e| = if leftOf ref o.x o.y < d then 1 else -1 := by
      split_ifs with hl
      · rw [abs_of_pos (by linarith), div_self he0]
      · rw [abs_of_neg (lt_of_le_of_ne (by linarith) he0), div_neg, div_self he0]
  · rw [Complex.cos_arg hz, hn, ← hsgn]
    show (o.x - e * sin ref.h - o.x) / |e| = _
    ring
  · rw [Complex.sin_arg, hn, ← hsgn]
    show (o.y + e * cos ref.h - o.y) / |e| = _
    ring

theorem gap_example : gap 3 ⟨0, 0, 0⟩ ⟨0, 0, 0⟩ = 3 := by rw [gap_eq]; simp [leftOf]

theorem radius_example : turnRadius 1 1 = 3 / 2 := by unfold turnRadius; norm_num

example (c : Bool) := entity_turn_partial c 1 1 (1 / 10) 3 ⟨0, 0, 0⟩ ⟨0, 0, 0⟩ one_ne_zero (by rw [gap_example]; unfold small; norm_num)
  (.inr (by rw [gap_example]; unfold small; norm_num))

theorem gap_example1 : gap 1 ⟨0, 0, 0⟩ ⟨0, 0, 0⟩ = 1 := by rw [gap_eq]; simp [leftOf]

theorem radius_example1000 : turnRadius 1000 1 = 1 / 2 := by unfold turnRadius; norm_num

/-- A step of 4 m to a line 1 m away, in the direction of the reference entity. -/
example (c : Bool) := entity_forward_partial c 1000 1 4 1 ⟨0, 0, 0⟩ ⟨0, 0, 0⟩ (by simp [leftOf]; unfold small; norm_num) (by simp [leftOf]; unfold small; norm_num)
  (by rw [radius_example1000]; norm_num) (by
    intro x y h1 h2
    have hy : y = 1 := by simpa [leftOf] using h2
    rw [hy] at h1
    simp only [sub_zero] at h1 ⊢
    by_contra hn
    have h3 := sq_abs x
    have h4 := abs_nonneg x
    unfold small at hn
    nlinarith)

/-- A step of 4 m from beside a line 1 m away. -/
example (c : Bool) : ∃ b e, entityStep (some 1000) c 1 4 1 ⟨0, 0, 0⟩ ⟨0, 0, 0⟩ = some (b, e) ∧ b.y = 1 ∧ 4 * cos b.h = b.x ∧ 4 * sin b.h = 1 := by
  have hg : gap 1 ⟨0, 0, 0⟩ ⟨0, 0, 0⟩ < 1 * 4 / 2 - small := by rw [gap_example1]; unfold small; norm_num
  obtain ⟨b, hb, h1, h2, -⟩ := straight_some (1 * 4) 1 ⟨0, 0, 0⟩ ⟨0, 0, 0⟩ hg (by unfold small; norm_num)
  have hy : b.y = 1 := by simpa [leftOf] using h2
  have hstep : entityStep (some 1000) c 1 4 1 ⟨0, 0, 0⟩ ⟨0, 0, 0⟩ = some (b, false) := by
    unfold entityStep limited
    simp only
    rw [if_neg (by rw [gap_example1]; unfold small; norm_num), if_pos ⟨hg, by rw [radius_example1000]; unfold small; norm_num⟩, hb]
    rfl
  have := entity_heading_partial c 1000 1 4 1 ⟨0, 0, 0⟩ ⟨0, 0, 0⟩ b false (by norm_num) hstep (by
    rw [hy] at h1
    simp only [sub_zero] at h1 ⊢
    by_contra hn
    have h3 := sq_abs b.x
    have h4 := abs_nonneg b.x
    unfold small at hn
    nlinarith)
  refine ⟨b, false, hstep, hy, ?_, ?_⟩
  · simpa using this.1
  · simpa [hy] using this.2

example := entity_far 1 1 (1 / 10) 3 ⟨0, 0, 0⟩ ⟨0, 0, 0⟩ (by rw [gap_example, radius_example]; unfold small; norm_num) (by simp [leftOf])

/-- C166: an entity on the line stays on it, parallel to the reference entity, while that drives straight on. -/
theorem entity_stays (c : Bool) (a v dt d : ℝ) (ref ref' o : Body) (h : leftOf ref o.x o.y = d) (hh : ref'.h = ref.h) (k : ℝ)
    (hx : ref'.x = ref.x + k * cos ref.h) (hy : ref'.y = ref.y + k * sin ref.h) :
    ∃ b e, entityStep (some a) c v dt d ref' o = some (b, e) ∧ leftOf ref' b.x b.y = d ∧ b.h = ref.h := by
  have hl : leftOf ref' o.x o.y = d := by
    rw [← h]; unfold leftOf; rw [hh, hx, hy]; ring
  have hg : gap d ref' o < small := by rw [gap_eq, hl, sub_self, abs_zero]; unfold small; norm_num
  refine ⟨⟨o.x + (rotate 1 0 ref'.h).1 * (v * dt), o.y + (rotate 1 0 ref'.h).2 * (v * dt), ref'.h⟩, false, ?_, ?_, ?_⟩
  · unfold entityStep limited
    simp only [if_pos hg]
    rfl
  · rw [← hl]
    unfold leftOf rotate
    simp only
    ring
  · exact hh

/-- Steps of the action, with the reference entity and the speed at each. -/
noncomputable def entityRun (acc : Option ℝ) (c : Bool) (dt d : ℝ) : List (Body × ℝ) → Body → Option (Body × Bool)
  | [], o => some (o, false)
  | (ref, v) :: l, o =>
    match entityStep acc c v dt d ref o with
    | none => none
    | some (b, true) => some (b, true)
    | some (b, false) => entityRun acc c dt d l b

/-- C166 fails: in the entity coordinate system the action never ends, also if it is not continuous and the distance is reached. -/
theorem entity_end_fails (acc : Option ℝ) (c : Bool) (dt d : ℝ) (l : List (Body × ℝ)) (o : Body) : ∃ b, entityRun acc c dt d l o = some (b, false) := by
  induction l generalizing o with
  | nil => exact ⟨o, rfl⟩
  | cons r l ih =>
    obtain ⟨ref, v⟩ := r
    unfold entityRun
    cases acc with
    | none => exact ih _
    | some a =>
      obtain ⟨b, e, hb, -⟩ := entity_speed c a v dt d ref o
      have he : e = false := by
        unfold entityStep at hb
        simp only [Option.map_eq_some_iff, Prod.mk.injEq] at hb
        obtain ⟨_, _, _, h⟩ := hb
        exact h.symm
      rw [hb, he]
      exact ih b

/-- C166 fails: an entity on the line that drives across it is turned at once, whatever the limit. -/
theorem entity_turn_fails (c : Bool) (a v dt : ℝ) :
    ∃ b e, entityStep (some a) c v dt 3 ⟨0, 0, 0⟩ ⟨10, 3, π / 2⟩ = some (b, e) ∧ b.h = 0 := by
  have hg : gap 3 ⟨0, 0, 0⟩ ⟨10, 3, π / 2⟩ < small := by
    rw [gap_eq]; unfold leftOf small; simp
  refine ⟨⟨10 + (rotate 1 0 0).1 * (v * dt), 3 + (rotate 1 0 0).2 * (v * dt), 0⟩, false, ?_, ?_⟩
  · unfold entityStep limited
    simp only [if_pos hg]
    rfl
  · rfl

/-- C166 fails: without limits an entity that drives backwards is moved forwards. -/
theorem entity_reverse_fails (c : Bool) (d : ℝ) :
    ∃ b e, entityStep none c (-5) 1 d ⟨0, 0, 0⟩ ⟨10, d, 0⟩ = some (b, e) ∧ b.x = 15 := by
  obtain ⟨b, e, h1, -, -, h4⟩ := entity_instant c (-5) 1 d ⟨0, 0, 0⟩ ⟨10, d, 0⟩
  refine ⟨b, e, h1, ?_⟩
  simp [ahead, leftOf] at h4
  linarith

/-! ### Rigid motion -/

theorem facing_eq (own ref : Bool) : facing own ref = ref := by cases own <;> cases ref <;> rfl

/-- C166: on a straight road without limits the entity is at the requested lateral distance after one step, on the requested side as seen from the reference entity. -/
theorem rigid_place (phi d widths tRef : ℝ) (c own ref freespace : Bool) (side : Side) (hs : side = .left ∨ side = .right) (hd : 0 ≤ d) (r : Rigid) :
    let q := (rigidStep phi c own ref (latStart false freespace side widths d) tRef r).1.body
    lateralOf phi q.x q.y - tRef =
      (if ref then 1 else -1) * (if side = .left then 1 else -1) * (d + if freespace then widths / 2 else 0) := by
  intro q
  have hc := cos_sq_add_sin_sq phi
  have e : lateralOf phi q.x q.y = lateralOf phi r.body.x r.body.y
      + latError ref (lateralOf phi r.body.x r.body.y - tRef) (latStart false freespace side widths d) := by
    show lateralOf phi (r.body.x - sin phi * latError (facing own ref) _ _) (r.body.y + cos phi * latError (facing own ref) _ _) = _
    rw [facing_eq]
    generalize latError ref _ _ = e
    unfold lateralOf
    linear_combination e * hc
  rw [e]
  have ha := abs_of_nonneg hd
  rcases hs with rfl | rfl <;> cases ref <;> cases freespace <;> simp [latError, latStart, Side.resolve, ha] <;> ring

/-- C166: with the reference entity at the same lateral position, the action that is not continuous ends at the next step, whatever the way driven along the road meanwhile. -/
theorem rigid_ends (phi dist tRef way : ℝ) (own ref own' : Bool) (old : ℝ × ℝ) (r : Rigid) :
    let q := (rigidStep phi false own ref dist tRef r).1.body
    (rigidStep phi false own' ref dist tRef ⟨⟨q.x + way * cos phi, q.y + way * sin phi, q.h⟩, old⟩).2 = true := by
  intro q
  have hc := cos_sq_add_sin_sq phi
  have e : lateralOf phi q.x q.y = lateralOf phi r.body.x r.body.y + latError ref (lateralOf phi r.body.x r.body.y - tRef) dist := by
    show lateralOf phi (r.body.x - sin phi * latError (facing own ref) _ _) (r.body.y + cos phi * latError (facing own ref) _ _) = _
    rw [facing_eq]
    generalize latError ref _ _ = e
    unfold lateralOf
    linear_combination e * hc
  have e2 : lateralOf phi (q.x + way * cos phi) (q.y + way * sin phi) = lateralOf phi q.x q.y := by unfold lateralOf; ring
  unfold rigidStep
  simp only [facing_eq, e2, e, Bool.not_false, Bool.true_and, decide_eq_true_eq]
  have : latError ref (lateralOf phi r.body.x r.body.y + latError ref (lateralOf phi r.body.x r.body.y - tRef) dist - tRef) dist = 0 := by
    cases ref <;> simp [latError] <;> ring
  rw [this, abs_zero]
  unfold latThreshold
  norm_num

/-- C166: an entity that moves is turned to where it moves. -/
theorem rigid_heading (phi dist tRef : ℝ) (c own ref : Bool) (r : Rigid) :
    let q := (rigidStep phi c own ref dist tRef r).1.body
    √((q.x - r.old.1) ^ 2 + (q.y - r.old.2) ^ 2) * cos q.h = q.x - r.old.1 ∧ √((q.x - r.old.1) ^ 2 + (q.y - r.old.2) ^ 2) * sin q.h = q.y - r.old.2 := by
  intro q
  have hn : ‖(⟨q.x - r.old.1, q.y - r.old.2⟩ : ℂ)‖ = √((q.x - r.old.1) ^ 2 + (q.y - r.old.2) ^ 2) := by
    rw [Complex.norm_def, Complex.normSq_mk]; congr 1; ring
  have hh : q.h = Complex.arg ⟨q.x - r.old.1, q.y - r.old.2⟩ := rfl
  rw [← hn, hh]
  exact ⟨Complex.norm_mul_cos_arg _, Complex.norm_mul_sin_arg _⟩

/-- C166 fails: an entity that stands at the requested distance is turned to heading 0. -/
theorem rigid_standing_fails (phi dist tRef x y h : ℝ) (c own ref : Bool) (he : latError ref (lateralOf phi x y - tRef) dist = 0) :
    (rigidStep phi c own ref dist tRef ⟨⟨x, y, h⟩, (x, y)⟩).1.body = ⟨x, y, 0⟩ := by
  unfold rigidStep
  simp only [facing_eq, he, mul_zero, sub_zero, add_zero, sub_self]
  unfold atan2
  have : (⟨0, 0⟩ : ℂ) = 0 := rfl
  rw [this, Complex.arg_zero]

example : latError true (lateralOf (π / 2) 3 7 - (-6)) (-3) = 0 := by
  unfold latError lateralOf; norm_num

/-! ### Attributes -/

/-- C166: the sides are read. Missing: `any`. -/
theorem side_partial : readSide [] = some .any ∧ readSide "leftToReferencedEntity".toList = some .left ∧ readSide "rightToReferencedEntity".toList = some .right := by
  decide +kernel

/-- C166 fails: with the displacement `any` of the schema the program quits. -/
theorem any_fails : readSide "any".toList = none := by decide +kernel

/-- C166 fails: `1` is true for `freespace`, but false for `continuous`. -/
theorem continuous_fails : readContinuous "1".toList = false ∧ readFreespace "1".toList = true := by decide +kernel

/-- C166: the truth values of the schema are read for `freespace`. -/
theorem freespace_values : readFreespace "true".toList = true ∧ readFreespace "1".toList = true ∧ readFreespace "false".toList = false ∧ readFreespace "0".toList = false := by
  decide +kernel

end Verif.Spring

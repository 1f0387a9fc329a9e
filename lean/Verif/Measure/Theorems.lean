import Verif.Measure.Model
import Verif.Geom.AngleTheorems
import Verif.Geom.LineTheorems
import Mathlib.Analysis.Real.Pi.Bounds

/-
C100: distance, headway and time-to-collision conditions. C101: orientation, speed and acceleration conditions.
C102: how long an entity has been standing still, off the road or at its end. C103: relative clearance.
-/
namespace Verif.Measure
open Verif.Geom Real

theorem small_eq : small = 1 / 1000000 := rfl

/-! ### Distances -/

/-- Specification: the point `d` metres ahead and `e` metres to the left of an entity. -/
noncomputable def pointAt (p : Pose) (d e : ℝ) : ℝ × ℝ :=
  (p.x + d * cos p.h - e * sin p.h, p.y + d * sin p.h + e * cos p.h)

theorem relXY_at (p : Pose) (d e : ℝ) : relXY p (pointAt p d e).1 (pointAt p d e).2 = (d, e) := by
  have h := sin_sq_add_cos_sq p.h
  unfold relXY pointAt rotate
  simp only [cos_neg, sin_neg]
  apply Prod.ext <;> simp only
  · linear_combination d * h
  · linear_combination e * h

/-- Every point is at some place in the frame of the entity. -/
theorem at_relXY (p : Pose) (tx ty : ℝ) : pointAt p (relXY p tx ty).1 (relXY p tx ty).2 = (tx, ty) := by
  have h := sin_sq_add_cos_sq p.h
  unfold relXY pointAt rotate
  simp only [cos_neg, sin_neg]
  apply Prod.ext <;> simp only
  · linear_combination (tx - p.x) * h
  · linear_combination (ty - p.y) * h

theorem relXY_sq (p : Pose) (tx ty : ℝ) :
    (relXY p tx ty).1 * (relXY p tx ty).1 + (relXY p tx ty).2 * (relXY p tx ty).2
      = (tx - p.x) ^ 2 + (ty - p.y) ^ 2 := by
  have h := sin_sq_add_cos_sq p.h
  unfold relXY rotate
  simp only [cos_neg, sin_neg]
  linear_combination ((tx - p.x) ^ 2 + (ty - p.y) ^ 2) * h

theorem abs_frontSign (x : ℝ) : |frontSign x| = 1 := by
  unfold frontSign; split <;> simp

/-- C100: the Euclidean distance is the distance in the plane, positive exactly if the target is ahead. -/
theorem euclid (cs : Cs) (p : Pose) (d e : ℝ) (a : Around) (old : ℝ) :
    (d > 0 → distance cs .euclidian p (pointAt p d e).1 (pointAt p d e).2 a old = some (sqrt (d ^ 2 + e ^ 2))) ∧
    (d ≤ 0 → distance cs .euclidian p (pointAt p d e).1 (pointAt p d e).2 a old = some (-sqrt (d ^ 2 + e ^ 2))) ∧
    distance cs .cartesian p (pointAt p d e).1 (pointAt p d e).2 a old
      = distance cs .euclidian p (pointAt p d e).1 (pointAt p d e).2 a old ∧
    distance cs .euclidianAbs p (pointAt p d e).1 (pointAt p d e).2 a old = some (sqrt (d ^ 2 + e ^ 2)) := by
  have key : relDist p (pointAt p d e).1 (pointAt p d e).2 = frontSign d * sqrt (d ^ 2 + e ^ 2) := by
    unfold relDist
    rw [relXY_at]
    simp only
    congr 2; ring
  refine ⟨fun h => ?_, fun h => ?_, rfl, ?_⟩
  · simp only [distance, plainType, key]
    unfold frontSign; rw [if_pos h]; simp
  · simp only [distance, plainType, key]
    unfold frontSign; rw [if_neg (not_lt.mpr h)]; simp
  · simp only [distance, plainType, key]
    rw [abs_mul, abs_frontSign, one_mul, abs_of_nonneg (sqrt_nonneg _)]

/-- C100: along the axes of the entity, the distances are the coordinates of the target. -/
theorem entity_axes (p : Pose) (d e : ℝ) (a : Around) (old : ℝ) :
    distance .entity .longitudinal p (pointAt p d e).1 (pointAt p d e).2 a old = some d ∧
    distance .entity .lateral p (pointAt p d e).1 (pointAt p d e).2 a old = some e ∧
    distanceXY .entity .longitudinal p (pointAt p d e).1 (pointAt p d e).2 a old = some d ∧
    distanceXY .entity .lateral p (pointAt p d e).1 (pointAt p d e).2 a old = some e := by
  simp [distance, distanceXY, plainType, axisDistance, axisDistanceXY, entityPart, relXY_at]

/-- C100: along the road, the distance is what the road network says; without a path there is none. -/
theorem road_axes (cs : Cs) (hc : cs = .road ∨ cs = .lane) (p : Pose) (tx ty ds dt : ℝ) (a : Around) (old : ℝ) :
    (a.delta = some (ds, dt) →
      distance cs .longitudinal p tx ty a old = some ds ∧ distance cs .lateral p tx ty a old = some dt ∧
      distanceXY cs .longitudinal p tx ty a old = some ds ∧ distanceXY cs .lateral p tx ty a old = some dt) ∧
    (a.delta = none →
      distance cs .longitudinal p tx ty a old = none ∧ distanceXY cs .longitudinal p tx ty a old = none) := by
  rcases hc with rfl | rfl <;> constructor <;> intro h <;>
    simp [distance, distanceXY, plainType, axisDistance, axisDistanceXY, roadPart, h]

/-- C100: along a trajectory followed by both, the distance is the difference of their positions on it; to an entity
beside it, the longitudinal distance goes to the closest point. -/
theorem trajectory_axes (p : Pose) (tx ty : ℝ) (o b : OnTraj) (s : ℝ) (a : Around) (old : ℝ) (ho : a.own = some o) :
    (a.same = some b → distance .trajectory .longitudinal p tx ty a old = some (b.s - o.s) ∧
      distance .trajectory .lateral p tx ty a old = some (b.t - o.t)) ∧
    (a.same = none → a.closest = some s →
      distance .trajectory .longitudinal p tx ty a old = some (s - o.s)) := by
  constructor
  · intro h
    simp [distance, plainType, axisDistance, trajPart, ho, h]
  · intro h hs
    simp [distance, plainType, axisDistance, trajPart, ho, h, hs, closestPart]

/-- C100: the distance conditions compare the absolute distance. -/
theorem condition_distance (p : Pose) (d e : ℝ) (a : Around) (old : ℝ) :
    conditionDistance (distance .entity .longitudinal p (pointAt p d e).1 (pointAt p d e).2 a old) = |d| ∧
    conditionDistance (distance .entity .lateral p (pointAt p d e).1 (pointAt p d e).2 a old) = |e| ∧
    conditionDistance (distance .entity .euclidian p (pointAt p d e).1 (pointAt p d e).2 a old)
      = sqrt (d ^ 2 + e ^ 2) := by
  refine ⟨?_, ?_, ?_⟩
  · rw [(entity_axes p d e a old).1]; rfl
  · rw [(entity_axes p d e a old).2.1]; rfl
  · rcases lt_or_ge 0 d with h | h
    · rw [(euclid .entity p d e a old).1 h]
      simp [conditionDistance, abs_of_nonneg (sqrt_nonneg _)]
    · rw [(euclid .entity p d e a old).2.1 h]
      simp [conditionDistance, abs_of_nonneg (sqrt_nonneg _)]

/-- A target 3 m ahead and 4 m to the left is 5 m away. -/
example (p : Pose) (a : Around) : distance .entity .euclidian p (pointAt p 3 4).1 (pointAt p 3 4).2 a 0 = some 5 := by
  rw [(euclid .entity p 3 4 a 0).1 (by norm_num)]
  rw [show (3 : ℝ) ^ 2 + 4 ^ 2 = 5 ^ 2 by norm_num, sqrt_sq (by norm_num)]

/-- C100: the distance to a point along a trajectory is not measured: the own position on the trajectory is
returned, wherever the point is. -/
theorem trajectory_point_fails : ¬∀ (p : Pose) (tx ty s : ℝ) (o : OnTraj) (a : Around) (old : ℝ), a.own = some o →
    a.closest = some s → distanceXY .trajectory .longitudinal p tx ty a old = some (s - o.s) := by
  intro h
  have := h ⟨0, 0, 0⟩ 0 0 200 ⟨50, 0⟩ ⟨none, some ⟨50, 0⟩, none, some 200⟩ 0 rfl rfl
  simp [distanceXY, plainType, axisDistanceXY, ownPart] at this
  norm_num at this

/-- C100: in world coordinates nothing is measured: a target 100 m away has distance 0. -/
theorem world_fails : ¬∀ (p : Pose) (tx ty : ℝ) (a : Around), tx - p.x ≥ 100 → ty = p.y → p.h = 0 →
    distance .world .longitudinal p tx ty a 0 ≠ some 0 := by
  intro h
  exact h ⟨0, 0, 0⟩ 100 0 ⟨none, none, none, none⟩ (by norm_num) rfl rfl
    (by simp [distance, plainType, axisDistance])

/-! ### Headway -/

/-- Specification: the entity after having driven `l` metres straight ahead. -/
noncomputable def driven (p : Pose) (l : ℝ) : Pose := ⟨p.x + l * cos p.h, p.y + l * sin p.h, p.h⟩

theorem driven_frame (p : Pose) (d e l : ℝ) :
    relXY (driven p l) (pointAt p d e).1 (pointAt p d e).2 = (d - l, e) := by
  have h := relXY_at (driven p l) (d - l) e
  have he : pointAt (driven p l) (d - l) e = pointAt p d e := by
    unfold pointAt driven
    apply Prod.ext <;> simp only <;> ring
  rw [he] at h
  exact h

/-- C100: the headway is the time after which the entity, keeping its speed and direction, is beside the place where
the target is now. -/
theorem headway_meets (p : Pose) {d e v t : ℝ} (a : Around) (old : ℝ)
    (h : headway (distance .entity .longitudinal p (pointAt p d e).1 (pointAt p d e).2 a old) v = some t) :
    0 ≤ t ∧ relXY (driven p (v * t)) (pointAt p d e).1 (pointAt p d e).2 = (0, e) := by
  rw [(entity_axes p d e a old).1] at h
  unfold headway orLarge at h
  simp only [Option.getD_some] at h
  split at h
  · exact absurd h (by simp)
  · rename_i hn
    push Not at hn
    have hv : 0 < v := lt_of_lt_of_le (by rw [small_eq]; norm_num) hn.2
    injection h with h
    rw [abs_of_nonneg (div_nonneg hn.1 hv.le)] at h
    subst h
    refine ⟨div_nonneg hn.1 hv.le, ?_⟩
    rw [driven_frame, mul_div_cancel₀ _ hv.ne']
    simp

/-- C100: headway times speed is the distance, and the headway is undefined exactly if the target is behind or the
entity does not go forward. -/
theorem headway_iff (d v t : ℝ) :
    (headway (some d) v = some t ↔ 0 ≤ d ∧ 1 / 1000000 ≤ v ∧ v * t = d) ∧
    (headway (some d) v = none ↔ d < 0 ∨ v < 1 / 1000000) := by
  unfold headway orLarge
  simp only [Option.getD_some]
  constructor
  · split
    · rename_i hn
      constructor
      · intro h; simp at h
      · rintro ⟨h1, h2, _⟩
        rcases hn with hn | hn
        · linarith
        · rw [small_eq] at hn; linarith
    · rename_i hn
      push Not at hn
      have hv : 0 < v := lt_of_lt_of_le (by rw [small_eq]; norm_num) hn.2
      rw [abs_of_nonneg (div_nonneg hn.1 hv.le)]
      constructor
      · intro h
        injection h with h
        subst h
        exact ⟨hn.1, by rw [← small_eq]; exact hn.2, mul_div_cancel₀ _ hv.ne'⟩
      · rintro ⟨_, _, h⟩
        rw [← h, mul_div_cancel_left₀ _ hv.ne']
  · split
    · rename_i hn
      exact ⟨fun _ => by rw [← small_eq]; exact hn, fun _ => rfl⟩
    · rename_i hn
      exact ⟨fun h => by simp at h, fun h => absurd (by rw [← small_eq] at h; exact h) hn⟩

/-- C100: a target that cannot be reached counts as 1e10 m ahead. -/
theorem headway_unreachable {v : ℝ} (hv : 1 / 1000000 ≤ v) : headway none v = some (10000000000 / v) := by
  have hp : 0 < v := lt_of_lt_of_le (by norm_num) hv
  unfold headway orLarge large
  rw [if_neg]
  · simp only [Option.getD_none]
    rw [abs_of_nonneg (by positivity)]
  · simp only [Option.getD_none]
    rw [small_eq]; push Not
    exact ⟨by norm_num, hv⟩

/-- 20 m ahead at 10 m/s: 2 seconds. -/
example : headway (some 20) 10 = some 2 := ((headway_iff 20 10 2).1).2 ⟨by norm_num, by norm_num, by norm_num⟩

/-! ### Time to collision -/

theorem ttcOf_iff {d v : ℝ} (hd : 1 / 1000000 ≤ |d|) (hv : 1 / 1000000 ≤ |v|) (t : ℝ) :
    ttcOf d v = some t ↔ 0 ≤ t ∧ v * t = d := by
  have hv0 : v ≠ 0 := by
    intro h; rw [h, abs_zero] at hv; norm_num at hv
  unfold ttcOf
  rw [if_neg (by rw [small_eq]; push Not; exact ⟨hd, hv⟩)]
  split
  · rename_i hn
    constructor
    · intro h; simp at h
    · rintro ⟨h0, h1⟩
      rw [← h1, mul_div_cancel_left₀ _ hv0] at hn
      linarith
  · rename_i hn
    push Not at hn
    constructor
    · intro h
      injection h with h
      subst h
      exact ⟨hn, mul_div_cancel₀ _ hv0⟩
    · rintro ⟨_, h1⟩
      rw [← h1, mul_div_cancel_left₀ _ hv0]

/-- C100: to a position, the time to collision is the non-negative time after which the distance is used up at the
current speed, and undefined if there is none. -/
theorem ttc_position {d : ℝ} {own : Motion} (hd : 1 / 1000000 ≤ |d|) (hv : 1 / 1000000 ≤ |own.speed|) (t : ℝ) :
    ttcPosition (some d) own = some t ↔ 0 ≤ t ∧ own.speed * t = d := ttcOf_iff hd hv t

/-- C100: to a standing entity likewise. -/
theorem ttc_standing {d : ℝ} {own target : Motion} (hd : 1 / 1000000 ≤ |d|) (hv : 1 / 1000000 ≤ |own.speed|)
    (hx : target.vx = 0) (hy : target.vy = 0) (t : ℝ) :
    ttcObject (some d) own target = some t ↔ 0 ≤ t ∧ own.speed * t = d := by
  have hc : closingSpeed own target = own.speed := by
    unfold closingSpeed
    rw [if_pos]
    rw [hx, hy, abs_zero]
    exact ⟨small_pos, small_pos⟩
  unfold ttcObject
  rw [hc]
  exact ttcOf_iff hd hv t

theorem sign_mul_pos (x : ℝ) : sign x = if x < 0 then -1 else 1 := rfl

/-- The closing speed of two entities moving along the same line (direction `h`) with speeds `v` and `w`. -/
theorem closing_line {own target : Motion} {h v w : ℝ} (hv : v ≠ 0) (hw : 1 / 1000 < |w|)
    (ho : own.speed = v ∧ own.vx = v * cos h ∧ own.vy = v * sin h)
    (ht : |target.speed| = |w| ∧ target.vx = w * cos h ∧ target.vy = w * sin h) :
    closingSpeed own target = v - w := by
  obtain ⟨o1, o2, o3⟩ := ho
  obtain ⟨t1, t2, t3⟩ := ht
  have hcs := sin_sq_add_cos_sq h
  have hww : (1 / 1000 : ℝ) ^ 2 < w ^ 2 := by
    rw [← sq_abs w]; exact pow_lt_pow_left₀ hw (by norm_num) (by norm_num)
  have hlen : target.vx * target.vx + target.vy * target.vy = w ^ 2 := by
    rw [t2, t3]; linear_combination w ^ 2 * hcs
  have hsq : sqrt (target.vx * target.vx + target.vy * target.vy) = |w| := by
    rw [hlen, sqrt_sq_eq_abs]
  have hdot : own.vx * target.vx + own.vy * target.vy = v * w := by
    rw [o2, o3, t2, t3]; linear_combination v * w * hcs
  have hproj : projectSigned own.vx own.vy target.vx target.vy = v * w / |w| := by
    rw [projectSigned_eq, if_pos, hdot, hsq]
    rw [hlen, small_eq]; linarith
  have hw0 : w ≠ 0 := by
    intro h0; rw [h0, abs_zero] at hw; norm_num at hw
  unfold closingSpeed
  rw [if_neg]
  · rw [hproj, o1, t1, sign_mul_pos, sign_mul_pos]
    rcases lt_or_gt_of_ne hv with hvn | hvp <;> rcases lt_or_gt_of_ne hw0 with hwn | hwp
    · rw [abs_of_neg hwn]
      have e : v * w / -w = -v := by field_simp
      rw [e, if_pos hvn, if_neg (by linarith)]; ring
    · rw [abs_of_pos hwp]
      have e : v * w / w = v := by field_simp
      rw [e, if_pos hvn]; ring
    · rw [abs_of_neg hwn]
      have e : v * w / -w = -v := by field_simp
      rw [e, if_neg (by linarith), if_pos (by linarith)]; ring
    · rw [abs_of_pos hwp]
      have e : v * w / w = v := by field_simp
      rw [e, if_neg (by linarith)]; ring
  · rintro ⟨h1, h2⟩
    rw [small_eq, abs_lt] at h1 h2
    nlinarith

/-- C100: for two entities moving along the same line, in either direction, each forward or backward, the time to
collision is the non-negative time at which they meet if both keep their speeds, and undefined if they do not meet.
Missing: an entity that stands or a target that moves slower than 1 mm/s, entities moving in different directions. -/
theorem ttc_line_partial {d : ℝ} {own target : Motion} {h v w : ℝ} (hd : 1 / 1000000 ≤ |d|)
    (hv : v ≠ 0) (hw : 1 / 1000 < |w|) (hvw : 1 / 1000000 ≤ |v - w|)
    (ho : own.speed = v ∧ own.vx = v * cos h ∧ own.vy = v * sin h)
    (ht : |target.speed| = |w| ∧ target.vx = w * cos h ∧ target.vy = w * sin h) (t : ℝ) :
    ttcObject (some d) own target = some t ↔ 0 ≤ t ∧ d + w * t = v * t := by
  unfold ttcObject
  rw [closing_line hv hw ho ht]
  simp only [orLarge, Option.getD_some]
  rw [ttcOf_iff hd hvw]
  constructor
  · rintro ⟨h0, h1⟩; exact ⟨h0, by linarith⟩
  · rintro ⟨h0, h1⟩; exact ⟨h0, by linarith⟩

/-- Oncoming traffic, 100 m ahead, both at 10 m/s: 5 seconds. -/
example : ttcObject (some 100) ⟨10, 10, 0⟩ ⟨10, -10, 0⟩ = some 5 := by
  refine (ttc_line_partial (h := 0) (v := 10) (w := -10) ?_ ?_ ?_ ?_ ?_ ?_ 5).2 ⟨by norm_num, by norm_num⟩ <;>
    norm_num [abs_of_pos, abs_of_neg]

/-- C100: the time to collision is undefined if both are at the same place or at the same speed. -/
theorem ttc_undefined {d : ℝ} {own target : Motion} (h : |d| < 1 / 1000000 ∨ |closingSpeed own target| < 1 / 1000000) :
    ttcObject (some d) own target = none := by
  unfold ttcObject ttcOf orLarge
  rw [if_pos]
  rw [small_eq]
  exact h

/-- The value for an entity that stands: the direction of the target is not seen. -/
theorem standing_witness : ttcObject (some 100) ⟨0, 0, 0⟩ ⟨10, -10, 0⟩ = none ∧
    ttcObject (some (-100)) ⟨0, 0, 0⟩ ⟨10, -10, 0⟩ = some 10 := by
  have hc : closingSpeed ⟨0, 0, 0⟩ ⟨10, -10, 0⟩ = -10 := by
    unfold closingSpeed
    rw [if_neg (by rw [small_eq]; norm_num)]
    simp only [projectSigned_eq]
    norm_num [sign]
  unfold ttcObject
  rw [hc]
  constructor
  · unfold ttcOf orLarge
    rw [small_eq]
    norm_num
  · simp only [orLarge, Option.getD_some]
    exact (ttcOf_iff (by norm_num) (by norm_num) 10).2 ⟨by norm_num, by norm_num⟩

/-- C100: to a standing entity, a target coming closer has no time to collision, and one going away behind it has one. -/
theorem ttc_standing_fails :
    (¬∀ (d w : ℝ) (t : ℝ), 1 / 1000 < |w| → 1 / 1000000 ≤ |d| → 0 ≤ t → d + w * t = 0 →
      ttcObject (some d) ⟨0, 0, 0⟩ ⟨|w|, w, 0⟩ = some t) ∧
    (¬∀ (d w t : ℝ), 1 / 1000 < |w| → 1 / 1000000 ≤ |d| →
      ttcObject (some d) ⟨0, 0, 0⟩ ⟨|w|, w, 0⟩ = some t → d + w * t = 0) := by
  have hw : |(-10 : ℝ)| = 10 := by norm_num
  constructor
  · intro h
    have := h 100 (-10) 10 (by norm_num) (by norm_num) (by norm_num) (by norm_num)
    rw [hw, standing_witness.1] at this
    exact absurd this (by simp)
  · intro h
    have := h (-100) (-10) 10 (by norm_num) (by norm_num) (by rw [hw]; exact standing_witness.2)
    norm_num at this

/-- C100: closing in at 30 m/s on a target 10 m ahead that creeps at half a millimetre per second, there is no time
to collision. -/
theorem ttc_creeping_fails : ¬∀ (d v w t : ℝ), 0 < v → 0 < w → 1 / 1000000 ≤ |d| → 0 ≤ t → d + w * t = v * t →
    ttcObject (some d) ⟨v, v, 0⟩ ⟨w, w, 0⟩ = some t := by
  intro h
  have h1 := h 10 30 (1 / 2000) (10 / (30 - 1 / 2000)) (by norm_num) (by norm_num) (by norm_num) (by norm_num)
    (by norm_num)
  have hc : closingSpeed ⟨30, 30, 0⟩ ⟨1 / 2000, 1 / 2000, 0⟩ = -(1 / 2000) := by
    unfold closingSpeed
    rw [if_neg (by rw [small_eq, abs_of_pos (by norm_num)]; norm_num)]
    simp only [projectSigned_eq]
    rw [if_neg (by rw [small_eq]; norm_num)]
    rw [abs_of_pos (by norm_num : (0 : ℝ) < 1 / 2000)]
    norm_num [sign]
  unfold ttcObject at h1
  rw [hc] at h1
  unfold ttcOf orLarge at h1
  rw [small_eq] at h1
  norm_num [abs_of_neg] at h1
  exact absurd h1 (by simp)

/-! ### Orientation -/

/-- C101: a position is reached when the entity is closer to it than the tolerance. -/
theorem reach_near (p : Pose) (tx ty tol : ℝ) :
    reachNear p tx ty tol ↔ sqrt ((tx - p.x) ^ 2 + (ty - p.y) ^ 2) < tol := by
  unfold reachNear relDist
  rw [abs_mul, abs_frontSign, one_mul, relXY_sq, abs_of_nonneg (sqrt_nonneg _)]

/-- Specification: two angles differ by less than `tol`, whole turns aside. -/
def Near (a b tol : ℝ) : Prop := ∃ k : ℤ, |a - b + k * (2 * π)| < tol

/-- C101: the orientation check never accepts angles that differ by more than the tolerance. Missing: it rejects
angles that agree except for a whole turn. -/
theorem orient_partial {a b : Angles} {tol : ℝ} (h : orientOk a b tol) :
    Near a.h b.h tol ∧ Near a.p b.p tol ∧ Near a.r b.r tol := by
  obtain ⟨h1, h2, h3⟩ := h
  exact ⟨⟨0, by simpa using h1⟩, ⟨0, by simpa using h2⟩, ⟨0, by simpa using h3⟩⟩

/-- C101: within half a turn the orientation check is exact. -/
theorem orient_half_partial {a b : Angles} {tol : ℝ} (h1 : |a.h - b.h| ≤ π) (h2 : |a.p - b.p| ≤ π)
    (h3 : |a.r - b.r| ≤ π) : orientOk a b tol ↔ Near a.h b.h tol ∧ Near a.p b.p tol ∧ Near a.r b.r tol := by
  have hpi := pi_pos
  have key : ∀ x y : ℝ, |x - y| ≤ π → Near x y tol → |x - y| < tol := by
    rintro x y hxy ⟨k, hk⟩
    have := smallest hxy (c := x - y + k * (2 * π)) ⟨k, rfl⟩
    linarith
  exact ⟨orient_partial, fun ⟨g1, g2, g3⟩ => ⟨key _ _ h1 g1, key _ _ h2 g2, key _ _ h3 g3⟩⟩

/-- C101: a heading just below a full turn is not accepted for the heading 0.01, though it differs by 0.02 only. -/
theorem orient_wrap_fails : ¬∀ (a b : Angles) (tol : ℝ), 0 ≤ a.h → a.h < 2 * π → 0 ≤ b.h → b.h < 2 * π →
    Near a.h b.h tol → Near a.p b.p tol → Near a.r b.r tol → orientOk a b tol := by
  intro h
  have h3 : (3 : ℝ) < π := pi_gt_three
  have := h ⟨2 * π - 1 / 100, 0, 0⟩ ⟨1 / 100, 0, 0⟩ (1 / 10) (by simp only; linarith) (by simp only; linarith)
    (by norm_num) (by simp only; linarith) ⟨-1, by
      simp only
      rw [show 2 * π - 1 / 100 - 1 / 100 + ((-1 : ℤ) : ℝ) * (2 * π) = -(1 / 50) by push_cast; ring, abs_neg,
        abs_of_pos (by norm_num)]
      norm_num⟩ ⟨0, by norm_num⟩ ⟨0, by norm_num⟩
  have h1 := (abs_lt.mp this.1).2
  simp only at h1
  linarith

/-- C101: the angle condition holds exactly if the angle is within the tolerance (plus 1e-6) of the value, whole turns
aside. -/
theorem angle_exact (angle value tol : ℝ) : angleOk angle value tol ↔ Near angle value (tol + 1 / 1000000) := by
  obtain ⟨h0, -, -⟩ := absAngleDiff_spec pi_pos (intervalPI π angle) value
  obtain ⟨h1, h2⟩ := angleDiff_spec pi_pos (intervalPI π angle) value
  have h3 : Turns π (intervalPI π angle) angle := (intervalPI_spec pi_pos angle).2.2
  have h4 : Turns π (intervalPI π angle - value) (angle - value) := by
    obtain ⟨k, hk⟩ := h3
    exact ⟨k, by rw [hk]; ring⟩
  unfold angleOk Near
  rw [h0, small_eq]
  constructor
  · intro h
    obtain ⟨k, hk⟩ := h1.trans h4
    exact ⟨k, by rw [← hk]; exact h⟩
  · rintro ⟨k, hk⟩
    exact lt_of_le_of_lt (h2 _ (Turns.trans ⟨k, rfl⟩ h4.symm)) hk

/-- C101: what the angle is measured against: the road, the driving direction of the lane, the world, the trajectory. -/
theorem angle_reference (own road : Angles) (forward : Bool) (traj : Option ℝ) (h : ℝ) (value tol : ℝ) (a : ℝ) :
    (currentAngle .road .heading own road forward traj = some a →
      (angleOk a value tol ↔ Near own.h (road.h + value) (tol + 1 / 1000000))) ∧
    (currentAngle .road .pitch own road forward traj = some a →
      (angleOk a value tol ↔ Near own.p (road.p + value) (tol + 1 / 1000000))) ∧
    (currentAngle .road .roll own road forward traj = some a →
      (angleOk a value tol ↔ Near own.r (road.r + value) (tol + 1 / 1000000))) ∧
    (currentAngle .lane .heading own road true traj = some a →
      (angleOk a value tol ↔ Near own.h (road.h + value) (tol + 1 / 1000000))) ∧
    (currentAngle .lane .heading own road false traj = some a →
      (angleOk a value tol ↔ Near own.h (road.h + π + value) (tol + 1 / 1000000))) ∧
    (currentAngle .lane .pitch own road false traj = some a →
      (angleOk a value tol ↔ Near own.p (-road.p + value) (tol + 1 / 1000000))) ∧
    (currentAngle .lane .roll own road false traj = some a →
      (angleOk a value tol ↔ Near own.r (-road.r + value) (tol + 1 / 1000000))) ∧
    (currentAngle .world .heading own road forward traj = some a →
      (angleOk a value tol ↔ Near own.h value (tol + 1 / 1000000))) ∧
    (currentAngle .world .pitch own road forward traj = some a →
      (angleOk a value tol ↔ Near own.p value (tol + 1 / 1000000))) ∧
    (currentAngle .world .roll own road forward traj = some a →
      (angleOk a value tol ↔ Near own.r value (tol + 1 / 1000000))) ∧
    (currentAngle .trajectory .heading own road forward (some h) = some a →
      (angleOk a value tol ↔ Near own.h (h + value) (tol + 1 / 1000000))) ∧
    currentAngle .trajectory .heading own road forward none = none := by
  have shift : ∀ x r r' : ℝ, Turns π r' r → (Near (x - r') value (tol + 1 / 1000000)
      ↔ Near x (r + value) (tol + 1 / 1000000)) := by
    rintro x r r' ⟨k, hk⟩
    unfold Near
    constructor
    · rintro ⟨m, hm⟩
      refine ⟨m - k, ?_⟩
      rw [show x - (r + value) + ((m - k : ℤ) : ℝ) * (2 * π) = x - r' - value + m * (2 * π) by rw [hk]; push_cast; ring]
      exact hm
    · rintro ⟨m, hm⟩
      refine ⟨m + k, ?_⟩
      rw [show x - r' - value + ((m + k : ℤ) : ℝ) * (2 * π) = x - (r + value) + m * (2 * π) by rw [hk]; push_cast; ring]
      exact hm
  have same := fun x r => shift x r r (Turns.refl π r)
  refine ⟨?_, ?_, ?_, ?_, ?_, ?_, ?_, ?_, ?_, ?_, ?_, rfl⟩ <;> intro ha <;>
    simp only [currentAngle, pick, laneAngles, Option.some.injEq, Option.map_some, reduceIte,
      Bool.false_eq_true] at ha <;> subst ha <;> rw [angle_exact]
  · exact same _ _
  · exact same _ _
  · exact same _ _
  · refine shift _ _ _ ?_
    have := (interval2PI_spec pi_pos (road.h + 0)).2.2
    rw [add_zero] at this
    unfold angleSum
    rw [add_zero]
    exact this
  · exact shift _ _ _ (interval2PI_spec pi_pos (road.h + π)).2.2
  · rw [show road.p * -1 = -road.p by ring]; exact same _ _
  · rw [show road.r * -1 = -road.r by ring]; exact same _ _
  · exact same _ _

/-- A heading of 3.1 is within 0.1 of the value -3.1, across the half turn. -/
example : angleOk (31 / 10) (-(31 / 10)) (1 / 10) := by
  rw [angle_exact]
  refine ⟨-1, ?_⟩
  have h1 := pi_gt_d2
  have h2 := pi_lt_d2
  rw [abs_lt]
  push_cast
  constructor <;> linarith

/-! ### Speed and acceleration -/

/-- C101: the speed and acceleration along, across and above the entity; together they make up the whole vector. -/
theorem speed_axes (v : Vec) (h speed : ℝ) :
    speedValue .longitudinal v h speed = v.x * cos h + v.y * sin h ∧
    speedValue .lateral v h speed = v.y * cos h - v.x * sin h ∧
    speedValue .vertical v h speed = v.z ∧
    speedValue .any v h speed = speed ∧
    accValue .longitudinal v h = v.x * cos h + v.y * sin h ∧
    accValue .lateral v h = v.y * cos h - v.x * sin h ∧
    accValue .vertical v h = v.z := by
  refine ⟨?_, ?_, rfl, rfl, ?_, ?_, rfl⟩ <;>
    simp only [speedValue, accValue, compLong, compLat, rotate, cos_neg, sin_neg] <;> ring

/-- C101: without a direction, the acceleration is the length of the acceleration vector, negative exactly if it
points backwards. -/
theorem acc_total (a : Vec) (h : ℝ) :
    |accValue .any a h| = sqrt (a.x ^ 2 + a.y ^ 2) ∧ (accValue .any a h < 0 ↔ accValue .longitudinal a h < 0) := by
  have hl : accValue .longitudinal a h = a.x * cos (-h) - a.y * sin (-h) := by
    simp [accValue, compLong, rotate]
  have hcs := sin_sq_add_cos_sq h
  rw [hl]
  unfold accValue accTotal sign
  simp only
  split
  · rename_i hn
    rw [abs_mul, abs_of_nonneg (sqrt_nonneg _)]
    refine ⟨by simp, fun _ => hn, fun _ => ?_⟩
    have : 0 < sqrt (a.x ^ 2 + a.y ^ 2) := by
      apply sqrt_pos.mpr
      by_contra hle
      push Not at hle
      have hx : a.x = 0 := by nlinarith [sq_nonneg a.x, sq_nonneg a.y]
      have hy : a.y = 0 := by nlinarith [sq_nonneg a.x, sq_nonneg a.y]
      rw [hx, hy] at hn
      simp at hn
    linarith
  · rename_i hn
    rw [one_mul, abs_of_nonneg (sqrt_nonneg _)]
    exact ⟨rfl, fun h' => absurd h' (not_lt.mpr (sqrt_nonneg _)), fun h' => absurd h' hn⟩

/-- C101: the relative speed is the rate at which the triggering entity moves in the frame of the reference entity,
both keeping velocity and heading. -/
theorem relative_speed (ref : Pose) (x y t : ℝ) (v w : Vec) (speed wspeed : ℝ) :
    relXY ⟨ref.x + w.x * t, ref.y + w.y * t, ref.h⟩ (x + v.x * t) (y + v.y * t) =
      ((relXY ref x y).1 + relSpeedValue .longitudinal v speed w ref.h wspeed * t,
        (relXY ref x y).2 + relSpeedValue .lateral v speed w ref.h wspeed * t) ∧
    relSpeedValue .vertical v speed w ref.h wspeed = v.z - w.z ∧
    relSpeedValue .any v speed w ref.h wspeed = speed - wspeed := by
  refine ⟨?_, rfl, rfl⟩
  simp only [relXY, relSpeedValue, compLong, compLat, rotate]
  apply Prod.ext <;> simp only <;> ring

/-- Oncoming traffic: 20 m/s slower along the axis of the reference. -/
example : relSpeedValue .longitudinal ⟨-10, 0, 0⟩ 10 ⟨10, 0, 0⟩ 0 10 = -20 := by
  simp [relSpeedValue, compLong, rotate]; norm_num

/-! ### Durations -/

theorem stamp_append (s : ℝ) (a b : List Frame) : stamp s (a ++ b) = stamp (stamp s a) b := by
  induction a generalizing s with
  | nil => rfl
  | cons f r ih => exact ih _

theorem stamp_keeps {s : ℝ} (hs : s > small) : ∀ {l : List Frame}, (∀ f ∈ l, f.state = true) → stamp s l = s
  | [], _ => rfl
  | f :: r, h => by
    have h1 : stampStep s f.state f.time = s := by
      unfold stampStep isOn
      rw [h f (by simp)]
      simp [hs]
    show stamp (stampStep s f.state f.time) r = s
    rw [h1]
    exact stamp_keeps hs fun g hg => h g (by simp [hg])

/-- Specification: the entity has been in the state since the frame `f`: it is in the state in `f` and all later frames
and was not in the frame before, if there is one. -/
def Since (pre : List Frame) (f : Frame) (post : List Frame) : Prop :=
  (∀ g ∈ pre.getLast?, g.state = false) ∧ f.state = true ∧ ∀ g ∈ post, g.state = true

theorem stamp_pre {pre : List Frame} (h : ∀ g ∈ pre.getLast?, g.state = false) : stamp 0 pre = 0 := by
  rcases List.eq_nil_or_concat pre with rfl | ⟨l, g, rfl⟩
  · rfl
  · have hg : g.state = false := h g (by simp)
    rw [List.concat_eq_append, stamp_append]
    simp [stamp, stampStep, hg]

/-- C102: the timestamp is the time of the step in which the state began, if that is after the start of the
simulation. Missing: states that begin at time 0 or before. -/
theorem since_partial {pre post : List Frame} {f : Frame} (h : Since pre f post) (ht : f.time > 1 / 1000000) :
    stamp 0 (pre ++ f :: post) = f.time := by
  obtain ⟨h1, h2, h3⟩ := h
  rw [stamp_append, stamp_pre h1]
  show stamp (stampStep 0 f.state f.time) post = f.time
  have : stampStep 0 f.state f.time = f.time := by
    unfold stampStep isOn
    rw [h2]
    simp [not_lt.mpr small_pos.le]
  rw [this]
  exact stamp_keeps (by rw [small_eq]; exact ht) h3

/-- C102: then the conditions on standing still and being off the road hold exactly if this was longer ago than the
duration, and the condition on the end of the road if it was at least as long ago (less 1e-6). -/
theorem duration_partial {pre post : List Frame} {f : Frame} (h : Since pre f post) (ht : f.time > 1 / 1000000)
    (now duration : ℝ) :
    (longEnough (stamp 0 (pre ++ f :: post)) now duration = true ↔ now - f.time > duration) ∧
    (longEnoughEnd (stamp 0 (pre ++ f :: post)) now duration = true ↔ now - f.time > duration - 1 / 1000000) := by
  rw [since_partial h ht]
  have hon : isOn f.time = true := by
    unfold isOn; rw [small_eq]; simpa using ht
  unfold longEnough longEnoughEnd
  rw [hon, small_eq]
  simp

/-- C102: after a step in which the entity is not in the state, no condition on its duration holds. -/
theorem interrupted {pre : List Frame} {f : Frame} (h : f.state = false) (s now duration : ℝ) (hd : 0 ≤ duration) :
    longEnough (stamp s (pre ++ [f])) now duration = false ∧ longEnoughEnd (stamp s (pre ++ [f])) now duration = false := by
  have h0 : stamp s (pre ++ [f]) = 0 := by
    rw [stamp_append]; simp [stamp, stampStep, h]
  have hoff : isOn 0 = false := by
    unfold isOn; simpa using small_pos.le
  rw [h0]
  unfold longEnough longEnoughEnd
  rw [hoff]
  simp [hd]

/-- C102: an entity stands still exactly if its speed is below 1 mm/s in either direction. -/
theorem still_iff (v : ℝ) : still v = true ↔ |v| < 1 / 1000 := by
  unfold still
  rw [decide_eq_true_iff, abs_lt]

/-- Standing since 2 s: 3 seconds at 5.5 s, not yet at 5 s. -/
example : Since [⟨1, false⟩] ⟨2, true⟩ [⟨3, true⟩, ⟨4, true⟩] ∧
    longEnough (stamp 0 [⟨1, false⟩, ⟨2, true⟩, ⟨3, true⟩, ⟨4, true⟩]) (11 / 2) 3 = true ∧
    longEnough (stamp 0 [⟨1, false⟩, ⟨2, true⟩, ⟨3, true⟩, ⟨4, true⟩]) 5 3 = false := by
  have h : Since [⟨1, false⟩] ⟨2, true⟩ [⟨3, true⟩, ⟨4, true⟩] := by
    refine ⟨?_, rfl, ?_⟩
    · intro g hg
      simp at hg
      rw [← hg]
    · intro g hg
      simp at hg
      rcases hg with rfl | rfl <;> rfl
  have d := fun now => (duration_partial h (by norm_num) now 3).1
  refine ⟨h, ?_, ?_⟩
  · exact (d (11 / 2)).2 (by norm_num)
  · rw [Bool.eq_false_iff]
    intro hc
    have := (d 5).1 hc
    norm_num at this

/-- C102: an entity that stands still from the beginning (time 0) is not seen to: its time counts from the second
step. After 10 seconds, in steps of 6 seconds, it has stood still for 4. -/
theorem from_start_fails : ¬∀ (l : List Frame) (f : Frame) (now duration : ℝ), (∀ g ∈ f :: l, g.state = true) → f.time = 0 →
    now - f.time > duration → longEnough (stamp 0 (f :: l)) now duration = true := by
  intro h
  have := h [⟨6, true⟩] ⟨0, true⟩ 10 5 (by intro g hg; simp at hg; rcases hg with rfl | rfl <;> rfl) rfl (by norm_num)
  have hs : stamp 0 [⟨0, true⟩, ⟨6, true⟩] = 6 := by
    have h0 : isOn 0 = false := by unfold isOn; simpa using small_pos.le
    simp [stamp, stampStep, h0]
  rw [hs] at this
  have h6 : isOn 6 = true := by unfold isOn; rw [small_eq]; norm_num
  unfold longEnough at this
  rw [h6] at this
  norm_num at this

/-- C102: while the simulation time is negative (during the head start of a ghost), no state is seen at all. -/
theorem negative_time_fails {l : List Frame} (h : ∀ f ∈ l, f.time ≤ 0) (now duration : ℝ) (hd : 0 ≤ duration) :
    longEnough (stamp 0 l) now duration = false ∧ longEnoughEnd (stamp 0 l) now duration = false := by
  have key : ∀ (l : List Frame) (s : ℝ), s ≤ 0 → (∀ f ∈ l, f.time ≤ 0) → stamp s l ≤ 0 := by
    intro l
    induction l with
    | nil => exact fun s hs _ => hs
    | cons f r ih =>
      intro s hs hl
      apply ih _ _ fun g hg => hl g (by simp [hg])
      unfold stampStep
      split
      · split
        · exact hs
        · exact hl f (by simp)
      · exact le_refl 0
  have hoff : isOn (stamp 0 l) = false := by
    have := key l 0 (le_refl 0) h
    unfold isOn
    rw [decide_eq_false_iff_not]
    linarith [small_pos]
  unfold longEnough longEnoughEnd
  rw [hoff]
  simp [hd]

/-! ### Relative clearance -/

/-- Specification: the relative lane of lane `l` seen from lane `own`: lanes counted without the reference line. -/
def relLane (own l : Int) : Int :=
  if own < 0 ∧ l > 0 then l - own - 1 else if own > 0 ∧ l < 0 then l - own + 1 else l - own

/-- Specification: another entity is in the way: found, within the distances, and in one of the lanes. -/
def Blocks (c : Clear) (r : Ref) : Prop :=
  r.found = true ∧ -c.bwd ≤ r.ds ∧ r.ds ≤ c.fwd ∧ c.from_ ≤ r.dLane ∧ r.dLane ≤ c.to_ ∧
    (c.opposite = false → r.opp = false)

theorem inArea_iff (c : Clear) (r : Ref) : inArea c r = true ↔ Blocks c r := by
  unfold inArea Blocks
  rcases hf : r.found <;> rcases hop : c.opposite <;> rcases ho : r.opp <;> simp
  all_goals
    constructor
    · intro h
      refine ⟨h.1.1, h.1.2, h.2.1, h.2.2⟩
    · intro h
      exact ⟨⟨h.1, h.2.1⟩, h.2.2.1, h.2.2.2⟩

/-- C103: within its own side of the road, the clearance condition holds exactly if nothing is in the way and there is
a driving lane in the range. Missing: ranges that reach across the reference line. -/
theorem clear_partial {c : Clear} (ho : c.opposite = false) (refs : List Ref) {own : Int}
    {lanes : List Int} (hl : ∀ l ∈ lanes, l ≠ 0) :
    clear c refs own lanes = true ↔ (∀ r ∈ refs, ¬Blocks c r) ∧
      ∃ l ∈ lanes, (l < 0 ↔ own < 0) ∧ c.from_ ≤ relLane own l ∧ relLane own l ≤ c.to_ := by
  have hex : laneExists c own lanes = true ↔
      ∃ l ∈ lanes, (l < 0 ↔ own < 0) ∧ c.from_ ≤ relLane own l ∧ relLane own l ≤ c.to_ := by
    unfold laneExists
    rw [List.any_eq_true]
    apply exists_congr
    intro l
    apply and_congr_right
    intro hm
    have := hl l hm
    rw [ho]
    simp only [Bool.false_or, Bool.not_false, Bool.true_and, Bool.and_eq_true, decide_eq_true_eq]
    unfold relLane signI
    constructor
    · rintro ⟨⟨h1, h2⟩, h3⟩
      have hs : l < 0 ↔ own < 0 := by
        split at h3 <;> split at h3 <;> omega
      refine ⟨hs, ?_, ?_⟩ <;> split <;> (try split) <;> omega
    · rintro ⟨hs, h1, h2⟩
      refine ⟨⟨?_, ?_⟩, ?_⟩
      · split at h1 <;> (try split at h1) <;> omega
      · split at h2 <;> (try split at h2) <;> omega
      · split <;> split <;> omega
  unfold clear
  rw [← hex]
  by_cases hb : refs.any (inArea c) = true
  · rw [if_pos hb]
    constructor
    · intro h; simp at h
    · rintro ⟨h1, _⟩
      obtain ⟨r, hr, hi⟩ := List.any_eq_true.mp hb
      exact absurd ((inArea_iff c r).1 hi) (h1 r hr)
  · rw [if_neg hb]
    constructor
    · intro h
      refine ⟨fun r hr hB => hb (List.any_eq_true.mpr ⟨r, hr, (inArea_iff c r).2 hB⟩), h⟩
    · exact fun h => h.2

/-- C103: whatever the range, nothing is in the way when the condition holds. -/
theorem clear_free {c : Clear} {refs : List Ref} {own : Int} {lanes : List Int} (h : clear c refs own lanes = true) :
    ∀ r ∈ refs, ¬Blocks c r := by
  intro r hr hB
  unfold clear at h
  rw [if_pos (List.any_eq_true.mpr ⟨r, hr, (inArea_iff c r).2 hB⟩)] at h
  simp at h

/-- The lane to the left of lane -2 is free: nothing within 20 m ahead and 10 m behind. -/
example : clear ⟨20, 10, 1, 1, false⟩ [⟨true, 30, 1, false⟩, ⟨true, 5, 0, false⟩] (-2) [-2, -1, 1] = true := by
  rw [clear_partial rfl _ (by decide)]
  constructor
  · intro r hr
    simp at hr
    rcases hr with rfl | rfl
    · rintro ⟨_, _, h, _⟩; norm_num at h
    · rintro ⟨_, _, _, h, _⟩; norm_num at h
  · exact ⟨-1, by simp, by decide, by decide, by decide⟩

/-- C103: across the reference line the lanes are counted differently for entities and for the existence of lanes: seen
from lane -1 the free oncoming lane 1 (relative lane 1) is not accepted, and relative lane 2, which does not exist, is. -/
theorem clear_opposite_fails :
    clear ⟨20, 10, 1, 1, true⟩ [] (-1) [-1, 1] = false ∧ relLane (-1) 1 = 1 ∧
    clear ⟨20, 10, 2, 2, true⟩ [] (-1) [-1, 1] = true ∧ ¬∃ l ∈ [-1, 1], relLane (-1) l = 2 := by
  refine ⟨?_, by decide, ?_, by decide⟩
  · unfold clear; simp [laneExists]
  · unfold clear; simp [laneExists]

end Verif.Measure

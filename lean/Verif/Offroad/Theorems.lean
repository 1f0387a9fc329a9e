import Verif.Offroad.Model
import Verif.Geom.AngleTheorems
/- The offroad follower: specification and theorems. -/
namespace Verif.Offroad
open Verif.Vehicle

/-! ## Specification -/

/-- How far the lead entity is to the left of the axis of the object. -/
noncomputable def leftBy (w : View) : ℝ := (w.leadY - w.y) * Real.cos w.h - (w.leadX - w.x) * Real.sin w.h

/-- How far it is ahead along the axis. -/
noncomputable def aheadBy (w : View) : ℝ := (w.leadX - w.x) * Real.cos w.h + (w.leadY - w.y) * Real.sin w.h

/-! ## Lemmas -/

theorem absLimit_mem (x : ℝ) : -1 ≤ absLimit x 1 ∧ absLimit x 1 ≤ 1 := by
  unfold absLimit Geom.sign
  rw [abs_one]
  split_ifs with h h'
  · norm_num
  · norm_num
  · exact abs_le.mp (not_lt.mp h)

theorem absLimit_sign (x : ℝ) : (0 < absLimit x 1 ↔ 0 < x) ∧ (absLimit x 1 < 0 ↔ x < 0) ∧ (absLimit x 1 = 0 ↔ x = 0) := by
  unfold absLimit Geom.sign
  rw [abs_one]
  split_ifs with h h'
  · refine ⟨⟨fun a => by linarith, fun a => by linarith⟩, ⟨fun _ => h', fun _ => by norm_num⟩, ⟨fun a => by linarith, fun a => by linarith⟩⟩
  · have hx : 0 < x := by
      rcases lt_or_eq_of_le (not_lt.mp h') with a | a
      · exact a
      · rw [← a, abs_zero] at h
        linarith
    refine ⟨⟨fun _ => hx, fun _ => by norm_num⟩, ⟨fun a => by linarith, fun a => by linarith⟩, ⟨fun a => by linarith, fun a => by linarith⟩⟩
  · exact ⟨Iff.rfl, Iff.rfl, Iff.rfl⟩

theorem turns_trig {a b : ℝ} (h : Geom.Turns Real.pi a b) : Real.cos a = Real.cos b ∧ Real.sin a = Real.sin b := by
  obtain ⟨k, rfl⟩ := h
  exact ⟨Real.cos_add_int_mul_two_pi b k, Real.sin_add_int_mul_two_pi b k⟩

/-- The direction, as seen from the object. -/
theorem direction_spec (w : View) (hx : 1 / 1000000 ≤ |w.leadX - w.x|) : |direction w| ≤ Real.pi ∧ 0 < dist w ∧
    dist w * Real.sin (direction w) = leftBy w ∧ dist w * Real.cos (direction w) = aheadBy w := by
  obtain ⟨h1, h2⟩ := Geom.angleDiff_spec Real.pi_pos (Geom.angleOfVector (w.leadX - w.x) (w.leadY - w.y)) w.h
  obtain ⟨c, s⟩ := turns_trig h1
  obtain ⟨d1, d2⟩ := Geom.angleOfVector_direction (w.leadX - w.x) (w.leadY - w.y) (by rw [Geom.small]; exact hx)
  have hd : dist w = Real.sqrt ((w.leadX - w.x) ^ 2 + (w.leadY - w.y) ^ 2) := by
    unfold dist
    congr 1
    ring
  rw [← hd] at d1 d2
  have hpos : 0 < dist w := by
    rw [hd]
    apply Real.sqrt_pos.mpr
    have : w.leadX - w.x ≠ 0 := by
      intro e
      rw [e, abs_zero] at hx
      norm_num at hx
    positivity
  refine ⟨?_, hpos, ?_, ?_⟩
  · have hr := Geom.fmod_range (x := Geom.angleOfVector (w.leadX - w.x) (w.leadY - w.y) - w.h) (m := 2 * Real.pi) (by linarith [Real.pi_pos])
    obtain ⟨x, y, -⟩ := Geom.wrapPi_spec hr.1 hr.2
    exact abs_le.mpr ⟨x, y⟩
  · show dist w * Real.sin (Geom.angleDiff _ _ _) = _
    rw [s, Real.sin_sub]
    unfold leftBy
    linear_combination Real.cos w.h * d2 - Real.sin w.h * d1
  · show dist w * Real.cos (Geom.angleDiff _ _ _) = _
    rw [c, Real.cos_sub]
    unfold aheadBy
    linear_combination Real.cos w.h * d1 + Real.sin w.h * d2

theorem analog_wheel (v : Vehicle) (dt t s : ℝ) (hd : v.steeringDisabled = false) : (driveAnalog v dt t s).wheelAngle =
    clamp ((v.wheelAngle + scaleAt (5 / 1000) (driveAnalog v dt t s).speed * v.steeringRate * s * dt) * (1 - v.returnFactor * dt))
      (-scaleAt (5 / 1000) (driveAnalog v dt t s).speed * maxAngle) (scaleAt (5 / 1000) (driveAnalog v dt t s).speed * maxAngle) := by
  have hs : (driveAnalog v dt t s).speed = (drive v dt t (open Classical in decide (|t| < small ∨ t > small))
      (open Classical in decide (|t| < small))).speed := by
    show (steer _ _ _ _ _).speed = _
    rw [(steer_fields _ _ _ _ _).2.2.2.2.2.2.2.1]
  rw [hs]
  show (steer _ _ _ _ _).wheelAngle = _
  unfold steer
  rw [if_neg (by simp [drive_fields, hd])]
  show steered _ _ _ _ _ = _
  unfold steered
  simp [drive_fields]

/-! ## Theorems -/

/-- C186: the follower steers to the side where the lead entity is, and straight on if it is straight ahead; never harder than
1. An entity behind is steered to as hard as possible. What is missing: lead entities less than a millionth away in x, for which the
direction is off by up to the angle of a millionth. -/
theorem follow_steers_partial (w : View) (hx : 1 / 1000000 ≤ |w.leadX - w.x|) :
    (-1 ≤ steering w ∧ steering w ≤ 1) ∧ (0 < leftBy w → 0 < steering w) ∧ (leftBy w < 0 → steering w < 0) ∧
    (leftBy w = 0 → 0 < aheadBy w → steering w = 0) ∧ (aheadBy w < 0 → |steering w| = 1) := by
  obtain ⟨h1, h2, h3, h4⟩ := direction_spec w hx
  obtain ⟨s1, s2, s3⟩ := absLimit_sign (direction w)
  have hb := abs_le.mp h1
  refine ⟨absLimit_mem _, ?_, ?_, ?_, ?_⟩
  · intro h
    rw [← h3] at h
    have hs : 0 < Real.sin (direction w) := (pos_iff_pos_of_mul_pos h).mp h2
    refine s1.mpr ?_
    by_contra hc
    have := Real.sin_nonpos_of_nonpos_of_neg_pi_le (not_lt.mp hc) hb.1
    linarith
  · intro h
    rw [← h3] at h
    have hs : Real.sin (direction w) < 0 := by
      by_contra hc
      have := mul_nonneg h2.le (not_lt.mp hc)
      linarith
    refine s2.mpr ?_
    by_contra hc
    have := Real.sin_nonneg_of_nonneg_of_le_pi (not_lt.mp hc) hb.2
    linarith
  · intro h h'
    rw [← h3] at h
    rw [← h4] at h'
    have hs : Real.sin (direction w) = 0 := by
      rcases mul_eq_zero.mp h with a | a
      · linarith
      · exact a
    have hc : 0 < Real.cos (direction w) := (pos_iff_pos_of_mul_pos h').mp h2
    refine s3.mpr ?_
    rcases lt_trichotomy (direction w) 0 with a | a | a
    · rcases lt_or_eq_of_le hb.1 with b | b
      · have := Real.sin_neg_of_neg_of_neg_pi_lt a b
        linarith
      · rw [← b, Real.cos_neg, Real.cos_pi] at hc
        linarith
    · exact a
    · rcases lt_or_eq_of_le hb.2 with b | b
      · have := Real.sin_pos_of_pos_of_lt_pi a b
        linarith
      · rw [b, Real.cos_pi] at hc
        linarith
  · intro h
    rw [← h4] at h
    have hc : Real.cos (direction w) < 0 := by
      by_contra hc
      have := mul_nonneg h2.le (not_lt.mp hc)
      linarith
    have hbig : 1 < |direction w| := by
      by_contra hn
      have a := abs_le.mp (not_lt.mp hn)
      have p := Real.two_le_pi
      have := Real.cos_nonneg_of_neg_pi_div_two_le_of_le (x := direction w) (by linarith [a.1]) (by linarith [a.2])
      linarith
    unfold steering absLimit Geom.sign
    rw [abs_one, if_pos hbig]
    split_ifs <;> norm_num

/-- C186: with the lead entity to the left the wheels end up at least as far to the left as they would by only returning to the
middle, or at the limit for the speed, and likewise to the right. What is missing: as above. -/
theorem follow_wheels_partial (w : View) (dt : ℝ) (v : Vehicle) (hx : 1 / 1000000 ≤ |w.leadX - w.x|) (hd : v.steeringDisabled = false)
    (hdt : 0 ≤ dt) (hr : 0 ≤ v.steeringRate) (hf : v.returnFactor * dt ≤ 1) :
    (0 < leftBy w → min (v.wheelAngle * (1 - v.returnFactor * dt)) (scaleAt (5 / 1000) (followStep (some w) dt v).speed * maxAngle) ≤
      (followStep (some w) dt v).wheelAngle) ∧
    (leftBy w < 0 → (followStep (some w) dt v).wheelAngle ≤
      max (v.wheelAngle * (1 - v.returnFactor * dt)) (-(scaleAt (5 / 1000) (followStep (some w) dt v).speed * maxAngle))) := by
  obtain ⟨-, h1, h2, -, -⟩ := follow_steers_partial w hx
  have key := analog_wheel { v with maxSpeed := min (12 / 10 * w.limit) w.topSpeed } dt (throttle w) (steering w) hd
  change (followStep (some w) dt v).wheelAngle =
    clamp ((v.wheelAngle + scaleAt (5 / 1000) (followStep (some w) dt v).speed * v.steeringRate * steering w * dt) * (1 - v.returnFactor * dt))
      (-scaleAt (5 / 1000) (followStep (some w) dt v).speed * maxAngle) (scaleAt (5 / 1000) (followStep (some w) dt v).speed * maxAngle) at key
  rw [key]
  have p := (scaleAt_mem (k := 5 / 1000) (by norm_num) (followStep (some w) dt v).speed).1
  generalize scaleAt (5 / 1000) (followStep (some w) dt v).speed = a at *
  have hf' : 0 ≤ 1 - v.returnFactor * dt := by linarith
  have hm : 0 ≤ a * v.steeringRate * dt := by positivity
  constructor
  · intro h
    have hs := h1 h
    unfold clamp
    refine le_min (min_le_right _ _) (le_max_of_le_right ((min_le_left _ _).trans ?_))
    have : 0 ≤ a * v.steeringRate * steering w * dt := by
      have := mul_nonneg hm hs.le
      nlinarith
    nlinarith
  · intro h
    have hs := h2 h
    unfold clamp
    refine (min_le_right _ _).trans (max_le (le_max_of_le_right (by linarith)) (le_max_of_le_left ?_))
    have : a * v.steeringRate * steering w * dt ≤ 0 := by
      have := mul_nonpos_of_nonneg_of_nonpos hm hs.le
      nlinarith
    nlinarith

/-- C186: the pedals are pressed no harder than 1, forwards exactly if the distance exceeds the target distance by more than (as a
number) the speed exceeds that of the lead entity. -/
theorem follow_throttle (w : View) : (-1 ≤ throttle w ∧ throttle w ≤ 1) ∧ (0 < throttle w ↔ w.speed - w.leadSpeed < dist w - w.target) ∧
    (throttle w < 0 ↔ dist w - w.target < w.speed - w.leadSpeed) := by
  obtain ⟨s1, s2, -⟩ := absLimit_sign (5 / 10 * (dist w - w.target) - 5 / 10 * (w.speed - w.leadSpeed))
  refine ⟨absLimit_mem _, s1.trans ⟨fun a => by linarith, fun a => by linarith⟩, s2.trans ⟨fun a => by linarith, fun a => by linarith⟩⟩

/-- C186: the follower is never faster than 1.2 times the speed limit, nor than its top speed, if it is not at the start. -/
theorem follow_speed (w : View) (dt : ℝ) (v : Vehicle) (hl : 0 ≤ w.limit) (ht : 0 ≤ w.topSpeed)
    (h1 : |v.speed| ≤ 12 / 10 * w.limit) (h2 : |v.speed| ≤ w.topSpeed) :
    |(followStep (some w) dt v).speed| ≤ 12 / 10 * w.limit ∧ |(followStep (some w) dt v).speed| ≤ w.topSpeed := by
  have := step_speed_le { v with maxSpeed := min (12 / 10 * w.limit) w.topSpeed } dt (.analog (throttle w) (steering w))
    (le_min (by linarith) ht) (le_min h1 h2)
  exact le_min_iff.mp this

/-- A lead entity 30 m ahead and 10 m to the left. -/
example : 0 < steering ⟨0, 0, 0, 10, 30, 10, 10, 20, 20, 70⟩ ∧ 0 < throttle ⟨0, 0, 0, 10, 30, 10, 10, 20, 20, 70⟩ := by
  refine ⟨(follow_steers_partial _ (by norm_num)).2.1 (by norm_num [leftBy]), (follow_throttle _).2.1.mpr ?_⟩
  have : (20 : ℝ) < Real.sqrt ((30 - 0) * (30 - 0) + (10 - 0) * (10 - 0)) := Real.lt_sqrt_of_sq_lt (by norm_num)
  simp only [dist]
  linarith

end Verif.Offroad

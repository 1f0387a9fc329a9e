import Mathlib.Analysis.SpecificLimits.Basic
import Verif.Geom.AngleTheorems
import Verif.Vehicle.Model
/-
C98: the simple vehicle.
-/
namespace Verif.Vehicle

open Geom (Turns)

theorem clamp_mem {x lo hi : ℝ} (h : lo ≤ hi) : lo ≤ clamp x lo hi ∧ clamp x lo hi ≤ hi :=
  ⟨le_min h (le_max_left _ _), min_le_left _ _⟩

theorem clamp_id {x lo hi : ℝ} (h1 : lo ≤ x) (h2 : x ≤ hi) : clamp x lo hi = x := by
  unfold clamp
  rw [max_eq_right h1, min_eq_right h2]

theorem clamp_hi {x lo hi : ℝ} (h : lo ≤ hi) (h2 : hi ≤ x) : clamp x lo hi = hi := by
  unfold clamp
  exact min_eq_left (h2.trans (le_max_right _ _))

theorem clamp_lo {x lo hi : ℝ} (h : lo ≤ hi) (h1 : x ≤ lo) : clamp x lo hi = lo := by
  unfold clamp
  rw [max_eq_left h1, min_eq_right h]

/-- The four ways to drive the vehicle for one step. -/
inductive Control
  | target (speed heading : ℝ)
  | binary (throttle steering : Key)
  | analog (throttle steering : ℝ)
  | accSteer (acceleration angle : ℝ)

/-- One step. -/
noncomputable def step (v : Vehicle) (dt : ℝ) : Control → Vehicle
  | .target s h => driveTarget v dt s h
  | .binary t s => driveBinary v dt t s
  | .analog t s => driveAnalog v dt t s
  | .accSteer a s => driveAccSteer v dt a s

/-- Steps one after the other. -/
noncomputable def run (v : Vehicle) : List (ℝ × Control) → Vehicle
  | [] => v
  | c :: cs => run (step v c.1 c.2) cs

theorem drive_fields (v : Vehicle) (dt t : ℝ) (r c : Bool) :
    (drive v dt t r c).x = v.x ∧ (drive v dt t r c).y = v.y ∧ (drive v dt t r c).heading = v.heading ∧
      (drive v dt t r c).length = v.length ∧ (drive v dt t r c).maxSpeed = v.maxSpeed ∧
      (drive v dt t r c).steeringDisabled = v.steeringDisabled ∧ (drive v dt t r c).throttleDisabled = v.throttleDisabled ∧
      (drive v dt t r c).wheelAngle = v.wheelAngle ∧ (drive v dt t r c).steeringRate = v.steeringRate ∧
      (drive v dt t r c).returnFactor = v.returnFactor ∧ (drive v dt t r c).steeringScale = v.steeringScale ∧
      (drive v dt t r c).engineBrake = v.engineBrake ∧ (drive v dt t r c).maxDec = v.maxDec ∧
      (drive v dt t r c).wheelRotation = v.wheelRotation := by
  unfold drive
  split_ifs <;> simp

theorem steer_fields (v : Vehicle) (dt k s : ℝ) (b : Bool) :
    (steer v dt k s b).x = v.x ∧ (steer v dt k s b).y = v.y ∧ (steer v dt k s b).heading = v.heading ∧
      (steer v dt k s b).length = v.length ∧ (steer v dt k s b).maxSpeed = v.maxSpeed ∧
      (steer v dt k s b).steeringDisabled = v.steeringDisabled ∧ (steer v dt k s b).throttleDisabled = v.throttleDisabled ∧
      (steer v dt k s b).speed = v.speed ∧ (steer v dt k s b).handbrake = v.handbrake ∧
      (steer v dt k s b).engineBrake = v.engineBrake ∧ (steer v dt k s b).maxDec = v.maxDec ∧
      (steer v dt k s b).wheelRotation = v.wheelRotation ∧ (steer v dt k s b).returnFactor = v.returnFactor ∧
      (steer v dt k s b).steeringScale = v.steeringScale := by
  unfold steer
  split_ifs <;> simp

/-- Every step ends with the same motion of a vehicle at the old place. -/
theorem step_update (v : Vehicle) (dt : ℝ) (c : Control) :
    ∃ u : Vehicle, step v dt c = update u dt ∧ u.x = v.x ∧ u.y = v.y ∧ u.heading = v.heading ∧ u.length = v.length ∧
      u.wheelRotation = v.wheelRotation := by
  cases c with
  | target s h => exact ⟨_, rfl, rfl, rfl, rfl, rfl, rfl⟩
  | binary t s =>
    refine ⟨_, rfl, ?_⟩
    simp [steer_fields, drive_fields]
  | analog t s =>
    refine ⟨_, rfl, ?_⟩
    simp [steer_fields, drive_fields]
  | accSteer a s =>
    refine ⟨_, rfl, ?_⟩
    unfold wheelsTo accelerated
    split_ifs <;> simp

/-- C98, motion: in a step of any kind the vehicle moves by exactly the reported velocity, whose magnitude is the reported speed, so the
distance is the speed times the time; the new heading is the old one plus the reported turn rate times the time, up to whole turns, and lies
in `[0, 2π)`; the wheels turn by the distance over the wheel radius. -/
theorem step_motion (v : Vehicle) (dt : ℝ) (c : Control) :
    (step v dt c).x = v.x + dt * (step v dt c).velX ∧ (step v dt c).y = v.y + dt * (step v dt c).velY ∧
      (step v dt c).velX ^ 2 + (step v dt c).velY ^ 2 = (step v dt c).speed ^ 2 ∧
      ((step v dt c).x - v.x) ^ 2 + ((step v dt c).y - v.y) ^ 2 = ((step v dt c).speed * dt) ^ 2 ∧
      (0 ≤ (step v dt c).heading ∧ (step v dt c).heading < 2 * Real.pi) ∧
      Turns Real.pi (step v dt c).heading (v.heading + dt * (step v dt c).headingDot) ∧
      Turns Real.pi (step v dt c).wheelRotation (v.wheelRotation + (step v dt c).speed * dt / (35 / 100)) := by
  obtain ⟨u, h, hx, hy, hh, -, hw⟩ := step_update v dt c
  rw [h, ← hx, ← hy, ← hh, ← hw]
  have ht := Geom.interval2PI_spec Real.pi_pos (u.heading + dt * turnRate u)
  have hs := Real.sin_sq_add_cos_sq (slipOf u.wheelAngle + u.heading)
  refine ⟨rfl, rfl, ?_, ?_, ⟨ht.1, ht.2.1⟩, ht.2.2, Geom.fmod_turns _ _⟩
  · show (u.speed * Real.cos _) ^ 2 + (u.speed * Real.sin _) ^ 2 = u.speed ^ 2
    linear_combination u.speed ^ 2 * hs
  · show (u.x + dt * (u.speed * Real.cos _) - u.x) ^ 2 + (u.y + dt * (u.speed * Real.sin _) - u.y) ^ 2 = (u.speed * dt) ^ 2
    linear_combination u.speed ^ 2 * dt ^ 2 * hs

/-- The velocity, across direction `a`, of the point of the vehicle `d` ahead of its reference point. -/
noncomputable def across (velX velY h headingDot d a : ℝ) : ℝ :=
  (velY + headingDot * d * Real.cos h) * Real.cos a - (velX - headingDot * d * Real.sin h) * Real.sin a

/-- C98, no wheel slips: with the reference point fifteen percent of the length ahead of the rear axle and the front axle one length ahead of
the rear axle, the rear axle moves along the heading of the vehicle and the front axle along the direction of the front wheels; the vehicle
moves forward for positive speed. -/
theorem no_slip (v : Vehicle) (dt : ℝ) (c : Control) (hL : v.length ≠ 0) (ha : Real.cos (step v dt c).wheelAngle ≠ 0) :
    across (step v dt c).velX (step v dt c).velY v.heading (step v dt c).headingDot (-(15 / 100 * v.length)) v.heading = 0 ∧
      across (step v dt c).velX (step v dt c).velY v.heading (step v dt c).headingDot (85 / 100 * v.length)
        (v.heading + (step v dt c).wheelAngle) = 0 ∧
      (0 < (step v dt c).speed → 0 < (step v dt c).velX * Real.cos v.heading + (step v dt c).velY * Real.sin v.heading) := by
  obtain ⟨u, h, -, -, hh, hl, -⟩ := step_update v dt c
  rw [h] at ha ⊢
  rw [← hh, ← hl]
  have ea : (update u dt).wheelAngle = u.wheelAngle := rfl
  have es : (update u dt).speed = u.speed := rfl
  have ex : (update u dt).velX = u.speed * Real.cos (slipOf u.wheelAngle + u.heading) := rfl
  have ey : (update u dt).velY = u.speed * Real.sin (slipOf u.wheelAngle + u.heading) := rfl
  have ed : (update u dt).headingDot * u.length = u.speed * Real.sin (slipOf u.wheelAngle) / (15 / 100) := by
    show u.speed * Real.sin (slipOf u.wheelAngle) / (u.length * (15 / 100)) * u.length = _
    have hL' : u.length ≠ 0 := hl ▸ hL
    field_simp
  rw [ea] at ha ⊢
  rw [es, ex, ey]
  have hcb : 0 < Real.cos (slipOf u.wheelAngle) := Real.cos_arctan_pos _
  have hb : Real.sin (slipOf u.wheelAngle) * Real.cos u.wheelAngle =
      15 / 100 * Real.sin u.wheelAngle * Real.cos (slipOf u.wheelAngle) := by
    have h1 : Real.tan (slipOf u.wheelAngle) = 15 / 100 * Real.tan u.wheelAngle := Real.tan_arctan _
    rw [Real.tan_eq_sin_div_cos, Real.tan_eq_sin_div_cos] at h1
    field_simp at h1
    linarith
  have hs := Real.sin_sq_add_cos_sq u.heading
  generalize (update u dt).headingDot = w at *
  generalize slipOf u.wheelAngle = b at *
  unfold across
  rw [Real.cos_add, Real.sin_add, Real.cos_add, Real.sin_add]
  have ed' : w * u.length * (15 / 100) = u.speed * Real.sin b := by
    rw [ed]
    ring
  refine ⟨?_, ?_, ?_⟩
  · linear_combination (-1 : ℝ) * ed' + (u.speed * Real.sin b - w * (15 / 100 * u.length)) * hs
  · have : (w * u.length) = u.speed * Real.sin b * (100 / 15) := by linear_combination (100 / 15) * ed'
    have e : ∀ d, w * (85 / 100 * d) = w * d * (85 / 100) := fun d => by ring
    rw [e, this]
    linear_combination (u.speed * (Real.sin b * Real.cos u.wheelAngle - Real.cos b * Real.sin u.wheelAngle) +
      u.speed * Real.sin b * (100 / 15) * (85 / 100) * Real.cos u.wheelAngle) * hs + u.speed * (100 / 15) * hb
  · intro hp
    have : u.speed * (Real.cos b * Real.cos u.heading - Real.sin b * Real.sin u.heading) * Real.cos u.heading +
        u.speed * (Real.sin b * Real.cos u.heading + Real.cos b * Real.sin u.heading) * Real.sin u.heading =
        u.speed * Real.cos b := by linear_combination u.speed * Real.cos b * hs
    rw [this]
    positivity

theorem drive_speed_le (v : Vehicle) (dt t : ℝ) (r c : Bool) (hm : 0 ≤ v.maxSpeed) (h : |v.speed| ≤ v.maxSpeed) :
    |(drive v dt t r c).speed| ≤ v.maxSpeed := by
  unfold drive
  split_ifs
  · exact h
  · exact h
  · simpa using hm
  · exact abs_le.mpr (clamp_mem (by linarith))

theorem step_maxSpeed (v : Vehicle) (dt : ℝ) (c : Control) : (step v dt c).maxSpeed = v.maxSpeed := by
  cases c with
  | target s h => rfl
  | binary t s =>
    show (steer _ _ _ _ _).maxSpeed = _
    simp [steer_fields, drive_fields]
  | analog t s =>
    show (steer _ _ _ _ _).maxSpeed = _
    simp [steer_fields, drive_fields]
  | accSteer a s =>
    show (wheelsTo _ _).maxSpeed = _
    unfold wheelsTo accelerated
    split_ifs <;> rfl

theorem step_speed_le (v : Vehicle) (dt : ℝ) (c : Control) (hm : 0 ≤ v.maxSpeed) (h : |v.speed| ≤ v.maxSpeed) :
    |(step v dt c).speed| ≤ v.maxSpeed := by
  cases c with
  | target s h => exact abs_le.mpr (clamp_mem (by linarith))
  | binary t s =>
    show |(steer _ _ _ _ _).speed| ≤ _
    rw [(steer_fields _ _ _ _ _).2.2.2.2.2.2.2.1]
    exact drive_speed_le v dt _ _ _ hm h
  | analog t s =>
    show |(steer _ _ _ _ _).speed| ≤ _
    rw [(steer_fields _ _ _ _ _).2.2.2.2.2.2.2.1]
    exact drive_speed_le v dt _ _ _ hm h
  | accSteer a s =>
    have ha : |(accelerated v dt a).speed| ≤ v.maxSpeed := by
      unfold accelerated
      split_ifs
      · exact h
      · exact abs_le.mpr (clamp_mem (by linarith))
    show |(wheelsTo _ _).speed| ≤ _
    unfold wheelsTo
    split_ifs <;> exact ha

/-- C98, top speed: a vehicle within its top speed stays within it, forwards and backwards, whatever the controls and the time steps. -/
theorem speed_bounded (cs : List (ℝ × Control)) (v : Vehicle) (hm : 0 ≤ v.maxSpeed) (h : |v.speed| ≤ v.maxSpeed) :
    |(run v cs).speed| ≤ v.maxSpeed := by
  induction cs generalizing v with
  | nil => exact h
  | cons c cs ih =>
    have e := step_maxSpeed v c.1 c.2
    have := ih (step v c.1 c.2) (e ▸ hm) (e ▸ step_speed_le v c.1 c.2 hm h)
    rwa [e] at this

theorem scaleAt_mem {k : ℝ} (hk : 0 ≤ k) (s : ℝ) : 0 < scaleAt k s ∧ scaleAt k s ≤ 1 := by
  unfold scaleAt
  have : 0 ≤ k * s * s := by
    rw [mul_assoc]
    exact mul_nonneg hk (mul_self_nonneg s)
  constructor
  · positivity
  · rw [div_le_one (by linarith)]
    linarith

theorem maxAngle_pos : 0 < maxAngle := by
  unfold maxAngle
  have := Real.pi_pos
  positivity

theorem step_steeringScale (v : Vehicle) (dt : ℝ) (c : Control) :
    (step v dt c).steeringScale = v.steeringScale ∧ (step v dt c).steeringDisabled = v.steeringDisabled := by
  cases c with
  | target s h => exact ⟨rfl, rfl⟩
  | binary t s =>
    show (steer _ _ _ _ _).steeringScale = _ ∧ (steer _ _ _ _ _).steeringDisabled = _
    simp [steer_fields, drive_fields]
  | analog t s =>
    show (steer _ _ _ _ _).steeringScale = _ ∧ (steer _ _ _ _ _).steeringDisabled = _
    simp [steer_fields, drive_fields]
  | accSteer a s =>
    show (wheelsTo _ _).steeringScale = _ ∧ (wheelsTo _ _).steeringDisabled = _
    unfold wheelsTo accelerated
    split_ifs with h h2 h2 <;> simp_all

theorem clamp_scale {x s m : ℝ} (h0 : 0 < s) (h1 : s ≤ 1) (hm : 0 < m) : |clamp x (-s * m) (s * m)| ≤ m := by
  have h2 : s * m ≤ m := by nlinarith
  have h3 : 0 < s * m := mul_pos h0 hm
  have := clamp_mem (x := x) (lo := -s * m) (hi := s * m) (by linarith)
  exact abs_le.mpr ⟨by linarith, by linarith⟩

theorem step_wheel_le (v : Vehicle) (dt : ℝ) (c : Control) (hk : 0 ≤ v.steeringScale) (h : |v.wheelAngle| ≤ Real.pi / 3) :
    |(step v dt c).wheelAngle| ≤ Real.pi / 3 := by
  have em : Real.pi / 3 = maxAngle := by
    unfold maxAngle
    ring
  rw [em] at h ⊢
  have hs : ∀ (u : Vehicle) (k s : ℝ) (b : Bool), 0 ≤ k → u.wheelAngle = v.wheelAngle → |(steer u dt k s b).wheelAngle| ≤ maxAngle := by
    intro u k s b hk hu
    unfold steer
    split_ifs
    · rw [hu]
      exact h
    · exact clamp_scale (scaleAt_mem hk _).1 (scaleAt_mem hk _).2 maxAngle_pos
  cases c with
  | target s h => exact clamp_scale (scaleAt_mem hk _).1 (scaleAt_mem hk _).2 maxAngle_pos
  | binary t s => exact hs _ _ _ _ hk (by simp [drive_fields])
  | analog t s => exact hs _ _ _ _ (by norm_num) (by simp [drive_fields])
  | accSteer a s =>
    show |(wheelsTo _ _).wheelAngle| ≤ _
    unfold wheelsTo
    split_ifs
    · unfold accelerated
      split_ifs <;> exact h
    · have := clamp_mem (x := s) (lo := -maxAngle) (hi := maxAngle) (by linarith [maxAngle_pos])
      exact abs_le.mpr this

/-- C98, wheels: the front wheels never turn by more than 60 degrees. -/
theorem wheels_bounded (cs : List (ℝ × Control)) (v : Vehicle) (hk : 0 ≤ v.steeringScale) (h : |v.wheelAngle| ≤ Real.pi / 3) :
    |(run v cs).wheelAngle| ≤ Real.pi / 3 := by
  induction cs generalizing v with
  | nil => exact h
  | cons c cs ih =>
    have e := (step_steeringScale v c.1 c.2).1
    exact ih (step v c.1 c.2) (e ▸ hk) (step_wheel_le v c.1 c.2 hk h)

/-- The speed and the handbrake after a step with the keys. -/
theorem binary_speed (v : Vehicle) (dt : ℝ) (t s : Key) :
    (driveBinary v dt t s).speed = (drive v dt t.val (t == .none) (t == .none)).speed ∧
      (driveBinary v dt t s).handbrake = (drive v dt t.val (t == .none) (t == .none)).handbrake ∧
      (driveBinary v dt t s).maxSpeed = v.maxSpeed ∧ (driveBinary v dt t s).throttleDisabled = v.throttleDisabled ∧
      (driveBinary v dt t s).engineBrake = v.engineBrake ∧ (driveBinary v dt t s).maxDec = v.maxDec := by
  unfold driveBinary update
  simp [steer_fields, drive_fields]

/-- Steps with the same keys, whatever the steering. -/
noncomputable def hold (v : Vehicle) (dt : ℝ) (t : Key) (s : ℕ → Key) : ℕ → Vehicle
  | 0 => v
  | n + 1 => driveBinary (hold v dt t s n) dt t (s n)

theorem hold_fields (v : Vehicle) (dt : ℝ) (t : Key) (s : ℕ → Key) (n : ℕ) :
    (hold v dt t s n).maxSpeed = v.maxSpeed ∧ (hold v dt t s n).throttleDisabled = v.throttleDisabled ∧
      (hold v dt t s n).engineBrake = v.engineBrake ∧ (hold v dt t s n).maxDec = v.maxDec := by
  induction n with
  | zero => exact ⟨rfl, rfl, rfl, rfl⟩
  | succ n ih =>
    have := binary_speed (hold v dt t s n) dt t (s n)
    simp only [hold]
    rw [this.2.2.1, this.2.2.2.1, this.2.2.2.2.1, this.2.2.2.2.2]
    exact ih

theorem drive_coast (v : Vehicle) (dt : ℝ) (hd : v.throttleDisabled = false) (hh : v.handbrake = false) (he : 0 ≤ v.engineBrake)
    (he1 : v.engineBrake ≤ 1) (hm : |v.speed| ≤ v.maxSpeed) :
    (drive v dt 0 true true).speed = v.speed * (1 - v.engineBrake) ∧ (drive v dt 0 true true).handbrake = false := by
  have hp : pedalSpeed v dt 0 = v.speed := by
    unfold pedalSpeed
    ring
  have hb := abs_le.mp hm
  have hk : |v.speed * (1 - v.engineBrake)| ≤ v.maxSpeed := by
    rw [abs_mul, abs_of_nonneg (by linarith : (0 : ℝ) ≤ 1 - v.engineBrake)]
    nlinarith [abs_nonneg v.speed]
  unfold drive
  rw [hd, hh, hp]
  simp only [Bool.false_eq_true, if_false]
  rw [if_neg (by intro h; linarith [h.1, h.2])]
  constructor
  · show dragged v true v.speed = _
    unfold dragged
    rw [if_pos rfl]
    exact clamp_id (abs_le.mp hk).1 (abs_le.mp hk).2
  · rfl

theorem coast_aux (v : Vehicle) (dt : ℝ) (s : ℕ → Key) (hd : v.throttleDisabled = false) (hh : v.handbrake = false)
    (he : 0 ≤ v.engineBrake) (he1 : v.engineBrake ≤ 1) (hm : |v.speed| ≤ v.maxSpeed) (n : ℕ) :
    (hold v dt .none s n).speed = v.speed * (1 - v.engineBrake) ^ n ∧ (hold v dt .none s n).handbrake = false := by
  induction n with
  | zero => simp [hold, hh]
  | succ n ih =>
    have hf := hold_fields v dt .none s n
    have hb := binary_speed (hold v dt .none s n) dt .none (s n)
    simp only [hold]
    rw [hb.1, hb.2.1]
    have hm' : |(hold v dt .none s n).speed| ≤ v.maxSpeed := by
      rw [ih.1, abs_mul]
      have h1 : |(1 - v.engineBrake) ^ n| ≤ 1 := by
        rw [abs_of_nonneg (pow_nonneg (by linarith) n)]
        exact pow_le_one₀ (by linarith) (by linarith)
      nlinarith [abs_nonneg v.speed]
    have := drive_coast (hold v dt .none s n) dt (hf.2.1.trans hd) ih.2 (by rw [hf.2.2.1]; exact he) (by rw [hf.2.2.1]; exact he1)
      (by rw [hf.1]; exact hm')
    refine ⟨?_, this.2⟩
    have e := this.1
    rw [hf.2.2.1, ih.1] at e
    show (drive (hold v dt .none s n) dt 0 true true).speed = _
    rw [e]
    ring

/-- C98, coasting: without throttle the speed falls by the engine brake factor in every step, whatever the steering, and tends to zero. -/
theorem coast (v : Vehicle) (dt : ℝ) (s : ℕ → Key) (hd : v.throttleDisabled = false) (hh : v.handbrake = false)
    (he : 0 < v.engineBrake) (he1 : v.engineBrake ≤ 1) (hm : |v.speed| ≤ v.maxSpeed) :
    (∀ n, (hold v dt .none s n).speed = v.speed * (1 - v.engineBrake) ^ n) ∧
      Filter.Tendsto (fun n => (hold v dt .none s n).speed) Filter.atTop (nhds 0) := by
  have h := fun n => (coast_aux v dt s hd hh he.le he1 hm n).1
  refine ⟨h, ?_⟩
  simp only [h]
  have := (tendsto_pow_atTop_nhds_zero_of_lt_one (r := 1 - v.engineBrake) (by linarith) (by linarith)).const_mul v.speed
  simpa using this

/-- C98, negation: the slowing down does not depend on time: one second of coasting slows a vehicle down less in one step than in a hundred. -/
theorem coast_rate_fails (v : Vehicle) (s : ℕ → Key) (hd : v.throttleDisabled = false) (hh : v.handbrake = false)
    (he : 0 < v.engineBrake) (he1 : v.engineBrake < 1) (hm : |v.speed| ≤ v.maxSpeed) (h0 : 0 < v.speed) :
    (hold v (1 / 100) .none s 100).speed < (hold v 1 .none s 1).speed := by
  rw [(coast v _ s hd hh he he1.le hm).1, (coast v _ s hd hh he he1.le hm).1]
  have : (1 - v.engineBrake) ^ 100 < (1 - v.engineBrake) ^ 1 :=
    pow_lt_pow_right_of_lt_one₀ (by linarith) (by linarith) (by norm_num)
  nlinarith

theorem val_minus : Key.minus.val = -1 := rfl

theorem drive_brake (v : Vehicle) (dt : ℝ) (r c : Bool) (hd : v.throttleDisabled = false) (hh : v.handbrake = false)
    (h : 0 ≤ v.speed - v.maxDec * dt) (hc : c = false) (hm : v.speed ≤ v.maxSpeed) (ha : 0 ≤ v.maxDec * dt) :
    (drive v dt (-1) r c).speed = v.speed - v.maxDec * dt ∧ (drive v dt (-1) r c).handbrake = false := by
  have hp : pedalSpeed v dt (-1) = v.speed - v.maxDec * dt := by
    unfold pedalSpeed
    rw [if_pos (by norm_num)]
    ring
  unfold drive
  rw [hd, hh, hp]
  simp only [Bool.false_eq_true, if_false]
  rw [if_neg (by intro h'; linarith [h'.2])]
  constructor
  · show dragged v c _ = _
    unfold dragged
    rw [hc, if_neg (by simp)]
    exact clamp_id (by linarith) (by linarith)
  · rfl

theorem brake_aux (v : Vehicle) (dt : ℝ) (s : ℕ → Key) (hd : v.throttleDisabled = false) (hh : v.handbrake = false)
    (hm : v.speed ≤ v.maxSpeed) (ha : 0 < v.maxDec * dt) (n : ℕ) (hn : n * (v.maxDec * dt) ≤ v.speed) :
    (hold v dt .minus s n).speed = v.speed - n * (v.maxDec * dt) ∧ (hold v dt .minus s n).handbrake = false := by
  induction n with
  | zero => simp [hold, hh]
  | succ n ih =>
    push_cast at hn
    have ih := ih (by linarith)
    have hf := hold_fields v dt .minus s n
    have hb := binary_speed (hold v dt .minus s n) dt .minus (s n)
    have hn0 : (0 : ℝ) ≤ n * (v.maxDec * dt) := by positivity
    have := drive_brake (hold v dt .minus s n) dt (Key.minus == Key.none) (Key.minus == Key.none) (hf.2.1.trans hd) ih.2
      (by rw [ih.1, hf.2.2.2]; linarith) rfl (by rw [ih.1, hf.1]; linarith) (by rw [hf.2.2.2]; linarith)
    simp only [hold]
    rw [hb.1, hb.2.1, val_minus]
    refine ⟨?_, this.2⟩
    rw [this.1, ih.1, hf.2.2.2]
    push_cast
    ring

theorem drive_held (v : Vehicle) (dt t : ℝ) (r c : Bool) (hh : v.handbrake = true) (hr : r = false) :
    (drive v dt t r c).speed = v.speed ∧ (drive v dt t r c).handbrake = true := by
  unfold drive
  split_ifs <;> simp_all

/-- C98, the vehicle stays put: once braking has stopped the vehicle, neither brake nor throttle moves it until a step with neither. -/
theorem stays_stopped (v : Vehicle) (dt : ℝ) (t : Key) (s : ℕ → Key) (hh : v.handbrake = true) (h0 : v.speed = 0) (ht : t ≠ .none) (n : ℕ) :
    (hold v dt t s n).speed = 0 ∧ (hold v dt t s n).handbrake = true := by
  induction n with
  | zero => exact ⟨h0, hh⟩
  | succ n ih =>
    have hb := binary_speed (hold v dt t s n) dt t (s n)
    have := drive_held (hold v dt t s n) dt t.val (t == .none) (t == .none) ih.2 (by simpa using ht)
    simp only [hold]
    rw [hb.1, hb.2.1, this.1]
    exact ⟨ih.1, this.2⟩

/-- C98, braking: with the brake held the speed falls by the deceleration times the step in every step; when the next step would make it
negative the vehicle stands instead, and stands as long as the brake is held. -/
theorem brake_partial (v : Vehicle) (dt : ℝ) (s : ℕ → Key) (hd : v.throttleDisabled = false) (hh : v.handbrake = false)
    (hm : v.speed ≤ v.maxSpeed) (ha : 0 < v.maxDec * dt) (k : ℕ) (h1 : k * (v.maxDec * dt) < v.speed)
    (h2 : v.speed < (k + 1) * (v.maxDec * dt)) :
    (∀ n ≤ k, (hold v dt .minus s n).speed = v.speed - n * (v.maxDec * dt)) ∧
      ∀ n, k < n → (hold v dt .minus s n).speed = 0 := by
  constructor
  · intro n hn
    have hc : (n : ℝ) ≤ k := by exact_mod_cast hn
    exact (brake_aux v dt s hd hh hm ha n (by nlinarith)).1
  · have hf := hold_fields v dt .minus s k
    have hk := brake_aux v dt s hd hh hm ha k h1.le
    have hb := binary_speed (hold v dt .minus s k) dt .minus (s k)
    have h0 : (hold v dt .minus s (k + 1)).speed = 0 ∧ (hold v dt .minus s (k + 1)).handbrake = true := by
      simp only [hold]
      rw [hb.1, hb.2.1, val_minus]
      have hp : pedalSpeed (hold v dt .minus s k) dt (-1) = v.speed - (k + 1) * (v.maxDec * dt) := by
        unfold pedalSpeed
        rw [if_pos (by norm_num), hk.1, hf.2.2.2]
        ring
      have hpos : (hold v dt .minus s k).speed > 0 ∧ pedalSpeed (hold v dt .minus s k) dt (-1) < 0 := by
        rw [hk.1, hp]
        constructor <;> linarith
      unfold drive
      rw [hf.2.1, hd, hk.2]
      simp only [Bool.false_eq_true, if_false]
      rw [if_pos hpos]
      exact ⟨rfl, rfl⟩
    intro n hn
    obtain ⟨j, rfl⟩ := Nat.exists_eq_add_of_lt hn
    have e : ∀ j, (hold v dt .minus s (k + 1 + j)).speed = 0 ∧ (hold v dt .minus s (k + 1 + j)).handbrake = true := by
      intro j
      induction j with
      | zero => exact h0
      | succ j ih =>
        have hb := binary_speed (hold v dt .minus s (k + 1 + j)) dt .minus (s (k + 1 + j))
        have := drive_held (hold v dt .minus s (k + 1 + j)) dt (Key.minus).val (Key.minus == .none) (Key.minus == .none) ih.2 rfl
        rw [← Nat.add_assoc]
        simp only [hold]
        rw [hb.1, hb.2.1, this.1]
        exact ⟨ih.1, this.2⟩
    have := (e j).1
    rwa [show k + 1 + j = k + j + 1 by omega] at this

/-- C98, negation: a vehicle whose braking happens to end exactly at standstill does not stop: with the brake still held it drives
backwards. -/
theorem brake_exact_fails (v : Vehicle) (dt : ℝ) (s : ℕ → Key) (hd : v.throttleDisabled = false) (hh : v.handbrake = false)
    (hm : v.speed ≤ v.maxSpeed) (ha : 0 < v.maxDec * dt) (k : ℕ) (h : v.speed = k * (v.maxDec * dt)) (hmax : 0 < v.maxSpeed) :
    (hold v dt .minus s (k + 1)).speed < 0 := by
  have hf := hold_fields v dt .minus s k
  have hk := brake_aux v dt s hd hh hm ha k h.ge
  have hb := binary_speed (hold v dt .minus s k) dt .minus (s k)
  have hz : (hold v dt .minus s k).speed = 0 := by rw [hk.1, h]; ring
  simp only [hold]
  rw [hb.1, val_minus]
  have hp : pedalSpeed (hold v dt .minus s k) dt (-1) = -(v.maxDec * dt) := by
    unfold pedalSpeed
    rw [if_pos (by norm_num), hz, hf.2.2.2]
    ring
  have hneg : ¬((hold v dt .minus s k).speed > 0 ∧ pedalSpeed (hold v dt .minus s k) dt (-1) < 0) := by
    rw [hz]
    intro h'
    exact lt_irrefl _ h'.1
  unfold drive
  rw [hf.2.1, hd, hk.2]
  simp only [Bool.false_eq_true, if_false]
  rw [if_neg hneg]
  show dragged _ (Key.minus == Key.none) _ < 0
  unfold dragged
  rw [if_neg (by decide), hp, hf.1]
  unfold clamp
  exact min_lt_of_right_lt (max_lt (by linarith) (by linarith))

/-- Ten metres per second, brake held, steps of a tenth of a second: the vehicle comes to a stop after five steps and then reverses. -/
example (s : ℕ → Key) : (hold (new 0 0 0 5 10) (1 / 10) .minus s 6).speed < 0 :=
  brake_exact_fails _ _ s rfl rfl (by norm_num [new]) (by norm_num [new]) 5 (by norm_num [new]) (by norm_num [new])

/-- From eleven metres per second it stands after six steps. -/
example (s : ℕ → Key) : (hold (new 0 0 0 5 11) (1 / 10) .minus s 100).speed = 0 :=
  (brake_partial _ _ s rfl rfl (by norm_num [new]) (by norm_num [new]) 5 (by norm_num [new]) (by norm_num [new])).2 100 (by norm_num)

/-- Steps toward a target speed. -/
noncomputable def seek (v : Vehicle) (dt target : ℝ) (h : ℕ → ℝ) : ℕ → Vehicle
  | 0 => v
  | n + 1 => driveTarget (seek v dt target h n) dt target (h n)

theorem seek_fields (v : Vehicle) (dt target : ℝ) (h : ℕ → ℝ) (n : ℕ) :
    (seek v dt target h n).maxSpeed = v.maxSpeed ∧ (seek v dt target h n).maxAcc = v.maxAcc := by
  induction n with
  | zero => exact ⟨rfl, rfl⟩
  | succ n ih => exact ih

theorem seek_succ (v : Vehicle) (dt target : ℝ) (h : ℕ → ℝ) (n : ℕ) :
    (seek v dt target h (n + 1)).speed = speedToward (seek v dt target h n) dt target := rfl

/-- One step toward a target: the error shrinks, keeps its sign, and changes by at most the acceleration times the step. -/
theorem toward_step (v : Vehicle) (dt target : ℝ) (hk : 0 < v.maxAcc * dt) (hdt : 0 < dt) (hk1 : v.maxAcc * dt ≤ 1)
    (ht : |target| ≤ v.maxSpeed) (hs : |v.speed| ≤ v.maxSpeed) :
    |target - speedToward v dt target| ≤ max (|target - v.speed| * (1 - v.maxAcc * dt)) (|target - v.speed| - v.maxAcc * dt) ∧
      0 ≤ (target - speedToward v dt target) * (target - v.speed) ∧ |speedToward v dt target - v.speed| ≤ v.maxAcc * dt := by
  have ha : 0 < v.maxAcc := pos_of_mul_pos_left hk hdt.le
  have hb := abs_le.mp ht
  have hv := abs_le.mp hs
  unfold speedToward
  rcases le_or_gt (target - v.speed) (-1) with h1 | h1
  · have hc : clamp (v.maxAcc * (target - v.speed)) (-v.maxAcc) v.maxAcc = -v.maxAcc := clamp_lo (by linarith) (by nlinarith)
    rw [hc, clamp_id (by linarith) (by linarith)]
    have e1 : target - (v.speed + -v.maxAcc * dt) ≤ 0 := by linarith
    have e2 : target - v.speed ≤ 0 := by linarith
    rw [abs_of_nonpos e1, abs_of_nonpos e2]
    refine ⟨le_max_of_le_right (by linarith), mul_nonneg_of_nonpos_of_nonpos e1 e2, ?_⟩
    rw [abs_le]
    constructor <;> linarith
  · rcases le_or_gt 1 (target - v.speed) with h2 | h2
    · have hc : clamp (v.maxAcc * (target - v.speed)) (-v.maxAcc) v.maxAcc = v.maxAcc := clamp_hi (by linarith) (by nlinarith)
      rw [hc, clamp_id (by linarith) (by linarith)]
      have e1 : 0 ≤ target - (v.speed + v.maxAcc * dt) := by linarith
      have e2 : 0 ≤ target - v.speed := by linarith
      rw [abs_of_nonneg e1, abs_of_nonneg e2]
      refine ⟨le_max_of_le_right (by linarith), mul_nonneg e1 e2, ?_⟩
      rw [abs_le]
      constructor <;> linarith
    · have hc : clamp (v.maxAcc * (target - v.speed)) (-v.maxAcc) v.maxAcc = v.maxAcc * (target - v.speed) :=
        clamp_id (by nlinarith) (by nlinarith)
      rw [hc]
      have e : v.speed + v.maxAcc * (target - v.speed) * dt = v.speed + (v.maxAcc * dt) * (target - v.speed) := by ring
      rw [e]
      generalize v.maxAcc * dt = k at *
      rw [clamp_id (by rcases le_total 0 (target - v.speed) <;> nlinarith) (by rcases le_total 0 (target - v.speed) <;> nlinarith)]
      have e1 : target - (v.speed + k * (target - v.speed)) = (target - v.speed) * (1 - k) := by ring
      have e2 : v.speed + k * (target - v.speed) - v.speed = k * (target - v.speed) := by ring
      rw [e1, e2, abs_mul, abs_mul, abs_of_nonneg (by linarith : (0 : ℝ) ≤ 1 - k), abs_of_pos hk]
      have h3 : |target - v.speed| ≤ 1 := abs_le.mpr ⟨h1.le, h2.le⟩
      refine ⟨le_max_left _ _, ?_, by nlinarith⟩
      nlinarith [mul_self_nonneg (target - v.speed)]

theorem seek_speed_le (v : Vehicle) (dt target : ℝ) (h : ℕ → ℝ) (hs : |v.speed| ≤ v.maxSpeed) (n : ℕ) :
    |(seek v dt target h n).speed| ≤ v.maxSpeed := by
  have hm : 0 ≤ v.maxSpeed := (abs_nonneg _).trans hs
  induction n with
  | zero => exact hs
  | succ n ih =>
    have hf := seek_fields v dt target h n
    have := step_speed_le (seek v dt target h n) dt (.target target (h n)) (by rw [hf.1]; exact hm) (by rw [hf.1]; exact ih)
    rwa [hf.1] at this

/-- C98, target speed: if the acceleration limit times the step is at most one metre per second, the speed approaches the target without
ever passing it or moving away from it, changes by at most the limit in each step, and tends to the target. -/
theorem target_partial (v : Vehicle) (dt target : ℝ) (h : ℕ → ℝ) (hdt : 0 < dt) (ha : 0 < v.maxAcc) (hk1 : v.maxAcc * dt ≤ 1)
    (ht : |target| ≤ v.maxSpeed) (hs : |v.speed| ≤ v.maxSpeed) :
    (∀ n, |target - (seek v dt target h (n + 1)).speed| ≤ |target - (seek v dt target h n).speed| ∧
        0 ≤ (target - (seek v dt target h (n + 1)).speed) * (target - (seek v dt target h n).speed) ∧
        |(seek v dt target h (n + 1)).speed - (seek v dt target h n).speed| ≤ v.maxAcc * dt) ∧
      Filter.Tendsto (fun n => (seek v dt target h n).speed) Filter.atTop (nhds target) := by
  have hk : 0 < v.maxAcc * dt := mul_pos ha hdt
  have hst : ∀ n, _ := fun n => by
    have hf := seek_fields v dt target h n
    have := toward_step (seek v dt target h n) dt target (by rw [hf.2]; exact hk) hdt (by rw [hf.2]; exact hk1)
      (by rw [hf.1]; exact ht) (by rw [hf.1]; exact seek_speed_le v dt target h hs n)
    rw [hf.2, ← seek_succ] at this
    exact this
  generalize v.maxAcc * dt = k at *
  have hmono : ∀ n, |target - (seek v dt target h (n + 1)).speed| ≤ |target - (seek v dt target h n).speed| := by
    intro n
    have hn := abs_nonneg (target - (seek v dt target h n).speed)
    exact (hst n).1.trans (max_le (by nlinarith) (by linarith))
  refine ⟨fun n => ⟨hmono n, (hst n).2⟩, ?_⟩
  set M := max |target - v.speed| 1 with hM
  have hM1 : 1 ≤ M := le_max_right _ _
  have hle : ∀ n, |target - (seek v dt target h n).speed| ≤ M := by
    intro n
    induction n with
    | zero => exact le_max_left _ _
    | succ n ih => exact (hmono n).trans ih
  have hkM : k / M ≤ 1 := by
    rw [div_le_one (by linarith)]
    linarith
  have hkM0 : 0 < k / M := by positivity
  have hgeo : ∀ n, |target - (seek v dt target h n).speed| ≤ |target - v.speed| * (1 - k / M) ^ n := by
    intro n
    induction n with
    | zero => simp [seek]
    | succ n ih =>
      have hn := abs_nonneg (target - (seek v dt target h n).speed)
      have h1 : |target - (seek v dt target h (n + 1)).speed| ≤ |target - (seek v dt target h n).speed| * (1 - k / M) := by
        have hd : k / M ≤ k := by
          rw [div_le_iff₀ (by linarith)]
          nlinarith
        refine (hst n).1.trans (max_le (by nlinarith) ?_)
        have : |target - (seek v dt target h n).speed| * (k / M) ≤ k := by
          have := mul_le_mul_of_nonneg_right (hle n) hkM0.le
          rwa [mul_div_cancel₀ _ (by linarith : M ≠ 0)] at this
        linarith
      refine h1.trans ?_
      rw [pow_succ, ← mul_assoc]
      exact mul_le_mul_of_nonneg_right ih (by linarith)
  have hz : Filter.Tendsto (fun n => |target - v.speed| * (1 - k / M) ^ n) Filter.atTop (nhds 0) := by
    have := (tendsto_pow_atTop_nhds_zero_of_lt_one (r := 1 - k / M) (by linarith) (by linarith)).const_mul |target - v.speed|
    simpa using this
  rw [tendsto_iff_dist_tendsto_zero]
  refine squeeze_zero (fun _ => dist_nonneg) (fun n => ?_) hz
  rw [Real.dist_eq, abs_sub_comm]
  exact hgeo n

/-- C98, negation: with the default limit of 20 m/s² and steps of a tenth of a second the speed swings between one metre per second above
and below the target for ever. -/
theorem target_swings_fails (v : Vehicle) (dt target : ℝ) (h : ℕ → ℝ) (ha : 0 < v.maxAcc) (hk : v.maxAcc * dt = 2)
    (h1 : v.speed = target + 1) (hm : |target| + 1 ≤ v.maxSpeed) (n : ℕ) :
    (seek v dt target h n).speed = target + (-1) ^ n := by
  have hb := abs_le.mp (le_refl |target|)
  induction n with
  | zero => simpa [seek] using h1
  | succ n ih =>
    rw [seek_succ]
    have hf := seek_fields v dt target h n
    unfold speedToward
    rw [hf.1, hf.2, ih]
    have e : target - (target + (-1) ^ n) = -(-1) ^ n := by ring
    rw [e]
    rcases Nat.even_or_odd n with hn | hn
    · rw [hn.neg_one_pow, (hn.add_one).neg_one_pow]
      have hc : clamp (v.maxAcc * -1) (-v.maxAcc) v.maxAcc = -v.maxAcc := clamp_lo (by linarith) (by linarith)
      rw [hc, clamp_id (by linarith) (by linarith)]
      linarith
    · rw [hn.neg_one_pow, (hn.add_one).neg_one_pow]
      have hc : clamp (v.maxAcc * - -1) (-v.maxAcc) v.maxAcc = v.maxAcc := clamp_hi (by linarith) (by linarith)
      rw [hc, clamp_id (by linarith) (by linarith)]
      linarith

example (h : ℕ → ℝ) (n : ℕ) : (seek (new 0 0 0 5 21) (1 / 10) 20 h n).speed = 20 + (-1) ^ n :=
  target_swings_fails _ _ _ h (by norm_num [new]) (by norm_num [new]) (by norm_num [new]) (by norm_num [new]) n

example (h : ℕ → ℝ) : Filter.Tendsto (fun n => (seek (new 0 0 0 5 0) (1 / 100) 20 h n).speed) Filter.atTop (nhds 20) :=
  (target_partial _ _ _ h (by norm_num) (by norm_num [new]) (by norm_num [new]) (by norm_num [new]) (by norm_num [new])).2

theorem clamp_abs {x m : ℝ} (hm : 0 ≤ m) : |clamp x (-m) m| ≤ |x| := by
  rcases le_total x (-m) with h | h
  · rw [clamp_lo (by linarith) h, abs_neg, abs_of_nonneg hm, abs_of_nonpos (by linarith)]
    linarith
  · rcases le_total x m with h2 | h2
    · rw [clamp_id h h2]
    · rw [clamp_hi (by linarith) h2, abs_of_nonneg hm, abs_of_nonneg (by linarith)]
      exact h2

theorem binary_wheel (v : Vehicle) (dt : ℝ) (t s : Key) (hd : v.steeringDisabled = false) :
    ∃ m, 0 ≤ v.steeringScale → 0 ≤ m ∧
      (driveBinary v dt t s).wheelAngle =
        clamp ((v.wheelAngle + m * v.steeringRate * s.val * dt) * (if s == .none then 1 - v.returnFactor * dt else 1))
          (-(m * maxAngle)) (m * maxAngle) := by
  refine ⟨scaleAt v.steeringScale (driveBinary v dt t s).speed, fun hk => ⟨(scaleAt_mem hk _).1.le, ?_⟩⟩
  rw [(binary_speed v dt t s).1]
  show (steer _ _ _ _ _).wheelAngle = _
  unfold steer
  rw [if_neg (by simp [drive_fields, hd])]
  show steered _ _ _ _ _ = _
  unfold steered
  simp [drive_fields]

theorem hold_wheel_fields (v : Vehicle) (dt : ℝ) (t : Key) (s : ℕ → Key) (n : ℕ) :
    (hold v dt t s n).steeringScale = v.steeringScale ∧ (hold v dt t s n).steeringDisabled = v.steeringDisabled ∧
      (hold v dt t s n).returnFactor = v.returnFactor := by
  induction n with
  | zero => exact ⟨rfl, rfl, rfl⟩
  | succ n ih =>
    have : (hold v dt t s (n + 1)).steeringScale = (hold v dt t s n).steeringScale ∧
        (hold v dt t s (n + 1)).steeringDisabled = (hold v dt t s n).steeringDisabled ∧
        (hold v dt t s (n + 1)).returnFactor = (hold v dt t s n).returnFactor := by
      simp only [hold]
      unfold driveBinary update
      simp [steer_fields, drive_fields]
    rw [this.1, this.2.1, this.2.2]
    exact ih

/-- C98, self alignment: with no steering key the wheels return toward straight in every step, by the return factor times the step at
least; if that product is below two they get straight in the end. -/
theorem wheels_return_partial (v : Vehicle) (dt : ℝ) (t : Key) (hd : v.steeringDisabled = false) (hk : 0 ≤ v.steeringScale)
    (h0 : 0 < v.returnFactor * dt) (h2 : v.returnFactor * dt < 2) :
    (∀ n, |(hold v dt t (fun _ => .none) n).wheelAngle| ≤ |v.wheelAngle| * |1 - v.returnFactor * dt| ^ n) ∧
      Filter.Tendsto (fun n => (hold v dt t (fun _ => .none) n).wheelAngle) Filter.atTop (nhds 0) := by
  have hle : ∀ n, |(hold v dt t (fun _ => .none) n).wheelAngle| ≤ |v.wheelAngle| * |1 - v.returnFactor * dt| ^ n := by
    intro n
    induction n with
    | zero => simp [hold]
    | succ n ih =>
      have hf := hold_wheel_fields v dt t (fun _ => .none) n
      obtain ⟨m, hm⟩ := binary_wheel (hold v dt t (fun _ => .none) n) dt t .none (hf.2.1.trans hd)
      obtain ⟨hm0, e⟩ := hm (by rw [hf.1]; exact hk)
      simp only [hold]
      rw [e, hf.2.2]
      refine (clamp_abs (mul_nonneg hm0 maxAngle_pos.le)).trans ?_
      rw [if_pos (by decide), show Key.none.val = 0 from rfl, mul_zero, zero_mul, add_zero, abs_mul, pow_succ, ← mul_assoc]
      exact mul_le_mul_of_nonneg_right ih (abs_nonneg _)
  refine ⟨hle, ?_⟩
  have hr : |1 - v.returnFactor * dt| < 1 := abs_lt.mpr ⟨by linarith, by linarith⟩
  have hz : Filter.Tendsto (fun n => |v.wheelAngle| * |1 - v.returnFactor * dt| ^ n) Filter.atTop (nhds 0) := by
    have := (tendsto_pow_atTop_nhds_zero_of_lt_one (abs_nonneg _) hr).const_mul |v.wheelAngle|
    simpa using this
  exact squeeze_zero_norm hle hz

/-- C98, negation: with long steps the wheels swing further out instead: a standing vehicle with wheels at a tenth of a radian and steps of
a second has them at three tenths to the other side after one step. -/
theorem wheels_swing_fails :
    (driveBinary { new 0 0 0 5 0 with wheelAngle := 1 / 10 } 1 .none .none).wheelAngle = -(3 / 10) := by
  have hs : (drive { new 0 0 0 5 0 with wheelAngle := 1 / 10 } 1 Key.none.val (Key.none == .none) (Key.none == .none)).speed = 0 := by
    have := (drive_coast { new 0 0 0 5 0 with wheelAngle := 1 / 10 } 1 rfl rfl (by norm_num [new]) (by norm_num [new])
      (by norm_num [new])).1
    refine this.trans ?_
    simp [new]
  show (steer _ _ _ _ _).wheelAngle = _
  unfold steer
  rw [if_neg (by simp [drive_fields, new])]
  show steered _ _ _ _ _ = _
  unfold steered
  rw [hs]
  simp only [drive_fields]
  have hp := Real.two_le_pi
  have hsc : scaleAt (new 0 0 0 5 0).steeringScale 0 = 1 := by simp [scaleAt]
  rw [hsc, if_pos (by decide), clamp_id]
  · norm_num [new, Key.val]
  · norm_num [new, Key.val, maxAngle]
    linarith
  · norm_num [new, Key.val, maxAngle]
    linarith

/-- C98, steering: pressing a steering key turns the wheels toward that side, up to the limit for the speed. -/
theorem steers (v : Vehicle) (dt : ℝ) (t : Key) (hd : v.steeringDisabled = false) (hk : 0 ≤ v.steeringScale) (hdt : 0 ≤ dt)
    (hr : 0 ≤ v.steeringRate) :
    (driveBinary v dt t .minus).wheelAngle ≤ max v.wheelAngle (-(scaleAt v.steeringScale (driveBinary v dt t .minus).speed * maxAngle)) ∧
      min v.wheelAngle (scaleAt v.steeringScale (driveBinary v dt t .plus).speed * maxAngle) ≤ (driveBinary v dt t .plus).wheelAngle := by
  have key : ∀ s : Key, s ≠ .none → (driveBinary v dt t s).wheelAngle =
      clamp (v.wheelAngle + scaleAt v.steeringScale (driveBinary v dt t s).speed * v.steeringRate * s.val * dt)
        (-(scaleAt v.steeringScale (driveBinary v dt t s).speed * maxAngle))
        (scaleAt v.steeringScale (driveBinary v dt t s).speed * maxAngle) := by
    intro s hs
    rw [(binary_speed v dt t s).1]
    show (steer _ _ _ _ _).wheelAngle = _
    unfold steer
    rw [if_neg (by simp [drive_fields, hd])]
    show steered _ _ _ _ _ = _
    unfold steered
    simp [drive_fields, hs]
  rw [key _ (by decide), key _ (by decide)]
  have p1 := (scaleAt_mem hk (driveBinary v dt t .minus).speed).1
  have p2 := (scaleAt_mem hk (driveBinary v dt t .plus).speed).1
  generalize scaleAt v.steeringScale (driveBinary v dt t .minus).speed = a at *
  generalize scaleAt v.steeringScale (driveBinary v dt t .plus).speed = b at *
  constructor
  · have : 0 ≤ a * v.steeringRate * dt := by positivity
    unfold clamp
    refine (min_le_right _ _).trans (max_le (le_max_right _ _) (le_max_of_le_left ?_))
    show _ + a * v.steeringRate * (-1) * dt ≤ _
    linarith
  · have : 0 ≤ b * v.steeringRate * dt := by positivity
    unfold clamp
    refine le_min (min_le_right _ _) (le_max_of_le_right ((min_le_left _ _).trans ?_))
    show _ ≤ _ + b * v.steeringRate * 1 * dt
    linarith

/-- C98, disabled controls: disabling the throttle keeps the speed, disabling the steering keeps the wheel angle, for the keys, the analog
controls and acceleration with steering angle. -/
theorem disabled_keeps (v : Vehicle) (dt : ℝ) (c : Control) (hc : ∀ s h, c ≠ .target s h) :
    (v.throttleDisabled = true → (step v dt c).speed = v.speed) ∧
      (v.steeringDisabled = true → (step v dt c).wheelAngle = v.wheelAngle) := by
  have hdr : ∀ t r c, v.throttleDisabled = true → drive v dt t r c = v := by
    intro t r c h
    unfold drive
    rw [if_pos h]
  have hst : ∀ u : Vehicle, u.steeringDisabled = v.steeringDisabled → u.wheelAngle = v.wheelAngle → v.steeringDisabled = true →
      ∀ k s b, (steer u dt k s b).wheelAngle = v.wheelAngle := by
    intro u h1 h2 h3 k s b
    unfold steer
    rw [if_pos (h1.trans h3), h2]
  cases c with
  | target s h => exact absurd rfl (hc s h)
  | binary t s =>
    refine ⟨fun h => ?_, fun h => ?_⟩
    · show (steer _ _ _ _ _).speed = _
      rw [(steer_fields _ _ _ _ _).2.2.2.2.2.2.2.1, hdr _ _ _ h]
    · exact hst _ (by simp [drive_fields]) (by simp [drive_fields]) h _ _ _
  | analog t s =>
    refine ⟨fun h => ?_, fun h => ?_⟩
    · show (steer _ _ _ _ _).speed = _
      rw [(steer_fields _ _ _ _ _).2.2.2.2.2.2.2.1, hdr _ _ _ h]
    · exact hst _ (by simp [drive_fields]) (by simp [drive_fields]) h _ _ _
  | accSteer a s =>
    refine ⟨fun h => ?_, fun h => ?_⟩
    · show (wheelsTo _ _).speed = _
      unfold wheelsTo accelerated
      rw [if_pos h]
      split_ifs <;> rfl
    · show (wheelsTo _ _).wheelAngle = _
      unfold wheelsTo accelerated
      split_ifs <;> simp_all

/-- C98, negation: after disabling the throttle only, the vehicle reports that the throttle is enabled; after disabling the steering only,
that the throttle is disabled. -/
theorem throttle_flag_fails (v : Vehicle) :
    getThrottleDisabled (setSteeringDisabled (setThrottleDisabled v true) false) = false ∧
      getThrottleDisabled (setSteeringDisabled (setThrottleDisabled v false) true) = true := ⟨rfl, rfl⟩

/-- The analog brake: as with the keys, the vehicle does not reverse in the step in which it stops, and stands until the pedal is let go. -/
theorem analog_brake_stops (v : Vehicle) (dt t s : ℝ) (hd : v.throttleDisabled = false) (hm : 0 ≤ v.maxSpeed) (h0 : 0 < v.speed)
    (hh : v.handbrake = false) :
    0 ≤ (driveAnalog v dt t s).speed ∨ 1 < v.engineBrake ∧ |t| < small := by
  show 0 ≤ (steer _ _ _ _ _).speed ∨ _
  rw [(steer_fields _ _ _ _ _).2.2.2.2.2.2.2.1]
  unfold drive
  rw [hd, hh]
  simp only [Bool.false_eq_true, if_false]
  split_ifs with h1
  · exact Or.inl le_rfl
  · have hp : 0 ≤ pedalSpeed v dt t := by
      by_contra hc
      exact h1 ⟨h0, lt_of_not_ge hc⟩
    by_cases ht : |t| < small ∧ 1 < v.engineBrake
    · exact Or.inr ⟨ht.2, ht.1⟩
    · left
      show 0 ≤ dragged _ _ _
      unfold dragged
      have : 0 ≤ (if decide (|t| < small) = true then pedalSpeed v dt t * (1 - v.engineBrake) else pedalSpeed v dt t) := by
        split_ifs with h2
        · have h3 : ¬1 < v.engineBrake := fun h4 => ht ⟨by simpa using h2, h4⟩
          exact mul_nonneg hp (by linarith)
        · exact hp
      unfold clamp
      exact le_min hm (le_max_of_le_right this)

/-- C98, acceleration: a pedal pressed by a share `t` of its way raises the speed by that share of the acceleration limit times the step, up
to the top speed; the throttle key is the pedal fully pressed; an acceleration requested directly is followed likewise. -/
theorem accelerates (v : Vehicle) (dt t s a : ℝ) (k : Key) (hd : v.throttleDisabled = false) (hh : v.handbrake = false)
    (hs : |v.speed| ≤ v.maxSpeed) (hdt : 0 ≤ dt) (hm : 0 ≤ v.maxAcc) (ht : small < t) (ha : 0 ≤ a) :
    (driveAnalog v dt t s).speed = min v.maxSpeed (v.speed + t * v.maxAcc * dt) ∧
      (driveBinary v dt .plus k).speed = min v.maxSpeed (v.speed + v.maxAcc * dt) ∧
      (driveAccSteer v dt a s).speed = min v.maxSpeed (v.speed + a * dt) := by
  have hb := abs_le.mp hs
  have h0 : 0 < small := by norm_num [small]
  have key : ∀ t r c, 0 ≤ t → c = false → (drive v dt t r c).speed = min v.maxSpeed (v.speed + t * v.maxAcc * dt) := by
    intro t r c h1 h2
    have hp : pedalSpeed v dt t = v.speed + t * v.maxAcc * dt := by
      unfold pedalSpeed
      rw [if_neg (by linarith)]
      ring
    have hn : 0 ≤ t * v.maxAcc * dt := by positivity
    unfold drive
    rw [hd, hh, hp]
    simp only [Bool.false_eq_true, if_false]
    rw [if_neg (by intro h; linarith [h.1, h.2])]
    show dragged v c _ = _
    unfold dragged clamp
    rw [h2, if_neg (by simp), max_eq_right (by linarith)]
  refine ⟨?_, ?_, ?_⟩
  · show (steer _ _ _ _ _).speed = _
    rw [(steer_fields _ _ _ _ _).2.2.2.2.2.2.2.1]
    refine key _ _ _ (by linarith) ?_
    rw [decide_eq_false_iff_not, abs_of_pos (by linarith)]
    linarith
  · rw [(binary_speed v dt .plus k).1]
    have := key 1 (Key.plus == .none) (Key.plus == .none) (by norm_num) rfl
    rw [one_mul] at this
    exact this
  · have e : (driveAccSteer v dt a s).speed = (accelerated v dt a).speed := by
      show (wheelsTo _ _).speed = _
      unfold wheelsTo
      split_ifs <;> rfl
    rw [e]
    unfold accelerated
    rw [hd]
    simp only [Bool.false_eq_true, if_false]
    unfold clamp
    rw [max_eq_right (by nlinarith)]

/-- The analog pedal: a vehicle stopped by braking stands while the brake is applied. -/
theorem analog_stays_stopped (v : Vehicle) (dt t s : ℝ) (hh : v.handbrake = true) (h0 : v.speed = 0) (ht : t ≤ -small) :
    (driveAnalog v dt t s).speed = 0 ∧ (driveAnalog v dt t s).handbrake = true := by
  have hs : 0 < small := by norm_num [small]
  have hr : decide (|t| < small ∨ t > small) = false := by
    rw [decide_eq_false_iff_not, abs_of_nonpos (by linarith)]
    push Not
    constructor <;> linarith
  have := drive_held v dt t (decide (|t| < small ∨ t > small)) (decide (|t| < small)) hh hr
  constructor
  · show (steer _ _ _ _ _).speed = _
    rw [(steer_fields _ _ _ _ _).2.2.2.2.2.2.2.1, this.1, h0]
  · show (steer _ _ _ _ _).handbrake = _
    rw [(steer_fields _ _ _ _ _).2.2.2.2.2.2.2.2.1, this.2]

/-- Half throttle for a second takes a standing vehicle to ten metres per second. -/
example : (driveAnalog (new 0 0 0 5 0) 1 (1 / 2) 0).speed = 10 := by
  rw [(accelerates (new 0 0 0 5 0) 1 (1 / 2) 0 0 .none rfl rfl (by norm_num [new]) (by norm_num) (by norm_num [new])
    (by norm_num [small]) le_rfl).1]
  norm_num [new]

/-- A vehicle with an angle of 60 degrees meets the hypotheses of `no_slip`. -/
example : (new 0 0 0 5 10).length ≠ 0 ∧ Real.cos (step (new 0 0 0 5 10) 1 (.accSteer 0 (Real.pi / 3))).wheelAngle ≠ 0 := by
  have hp := Real.pi_pos
  have e : (step (new 0 0 0 5 10) 1 (.accSteer 0 (Real.pi / 3))).wheelAngle = Real.pi / 3 := by
    show (wheelsTo _ _).wheelAngle = _
    unfold wheelsTo accelerated
    rw [if_neg (by simp [new]), if_neg (by simp [new])]
    show clamp _ _ _ = _
    unfold maxAngle
    exact clamp_id (by linarith) (by linarith)
  rw [e, Real.cos_pi_div_three]
  norm_num [new]

/-- Any controls on a new vehicle keep it within 70 m/s and 60 degrees. -/
example (cs : List (ℝ × Control)) : |(run (new 0 0 0 5 10) cs).speed| ≤ 70 ∧ |(run (new 0 0 0 5 10) cs).wheelAngle| ≤ Real.pi / 3 :=
  ⟨speed_bounded cs _ (by norm_num [new]) (by norm_num [new]),
    wheels_bounded cs _ (by norm_num [new]) (by simp only [new, abs_zero]; linarith [Real.pi_pos])⟩

/-- Coasting from ten metres per second. -/
example (s : ℕ → Key) : (hold (new 0 0 0 5 10) (1 / 100) .none s 2).speed = 998001 / 100000 := by
  rw [(coast (new 0 0 0 5 10) (1 / 100) s rfl rfl (by norm_num [new]) (by norm_num [new]) (by norm_num [new])).1]
  norm_num [new]

end Verif.Vehicle

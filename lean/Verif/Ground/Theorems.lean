import Verif.Ground.Model
import Verif.Geom.AngleTheorems
import Verif.Geom.LineTheorems
import Mathlib.Analysis.Real.Pi.Bounds
import Mathlib.Analysis.SpecialFunctions.Trigonometric.Bounds

/-
C104: the reported motion of an entity agrees with its movement. C105: trailers stay coupled, the rear axle does not
slip sideways. C106: the trail of an entity.
-/
namespace Verif.Ground
open Verif.Geom Real

theorem small_eq : small = 1 / 1000000 := rfl

/-! ### Motion -/

theorem motion_parts (b : Bits) (o : Old) (dt : ℝ) (k : Kin) :
    (motion b o dt k).x = k.x ∧ (motion b o dt k).y = k.y ∧ (motion b o dt k).z = k.z ∧ (motion b o dt k).h = k.h := by
  unfold motion setRateAcc setRate setAcc setSpeed setVel velHeading velMoved
  split_ifs <;> exact ⟨rfl, rfl, rfl, rfl⟩

theorem motion_vel (b : Bits) (o : Old) {dt : ℝ} (hdt : dt > small) (k : Kin) :
    (motion b o dt k).vx = (setVel b o dt k).vx ∧ (motion b o dt k).vy = (setVel b o dt k).vy ∧
    (motion b o dt k).vz = (setVel b o dt k).vz := by
  unfold motion
  rw [if_pos hdt]
  unfold setRateAcc setRate setAcc setSpeed
  split_ifs <;> exact ⟨rfl, rfl, rfl⟩

/-- C104: the velocity times the time step is the movement in the step, unless a velocity was reported or the entity was
teleported. -/
theorem velocity (b : Bits) (o : Old) {dt : ℝ} (hdt : dt > 1 / 1000000) (k : Kin) (h1 : b.vel = false)
    (h2 : b.teleport = false) :
    o.x + (motion b o dt k).vx * dt = k.x ∧ o.y + (motion b o dt k).vy * dt = k.y ∧
    o.z + (motion b o dt k).vz * dt = k.z := by
  have hp : dt ≠ 0 := by
    intro h; rw [h] at hdt; norm_num at hdt
  obtain ⟨e1, e2, e3⟩ := motion_vel b o (by rw [small_eq]; exact hdt) k
  rw [e1, e2, e3]
  unfold setVel velMoved
  rw [h1, h2]
  simp only [Bool.false_eq_true, if_false]
  refine ⟨?_, ?_, ?_⟩ <;> rw [div_mul_cancel₀ _ hp] <;> ring

/-- C104: after a teleport the velocity is along the heading, with the speed the entity had been given. -/
theorem velocity_teleport (b : Bits) (o : Old) {dt : ℝ} (hdt : dt > 1 / 1000000) (k : Kin) (h1 : b.vel = false)
    (h2 : b.teleport = true) :
    (motion b o dt k).vx = k.speed * cos k.h ∧ (motion b o dt k).vy = k.speed * sin k.h ∧ (motion b o dt k).vz = 0 := by
  obtain ⟨e1, e2, e3⟩ := motion_vel b o (by rw [small_eq]; exact hdt) k
  rw [e1, e2, e3]
  unfold setVel velHeading
  rw [h1, h2]
  exact ⟨rfl, rfl, rfl⟩

/-- C104: in a step without time the velocity is along the heading, and all else is kept. -/
theorem no_time (b : Bits) (o : Old) {dt : ℝ} (hdt : dt ≤ 1 / 1000000) (k : Kin) (h1 : b.vel = false) :
    motion b o dt k = { k with vx := k.speed * cos k.h, vy := k.speed * sin k.h, vz := 0 } := by
  unfold motion
  rw [if_neg (by rw [small_eq]; linarith), h1]
  rfl

/-- C104: the speed is the length of the velocity in the plane, unless it was set. -/
theorem speed (b : Bits) (o : Old) {dt : ℝ} (hdt : dt > 1 / 1000000) (k : Kin) (h : b.speed = false) :
    0 ≤ (motion b o dt k).speed ∧
    (motion b o dt k).speed ^ 2 = (motion b o dt k).vx ^ 2 + (motion b o dt k).vy ^ 2 := by
  obtain ⟨e1, e2, _⟩ := motion_vel b o (by rw [small_eq]; exact hdt) k
  have e : (motion b o dt k).speed = sqrt ((setVel b o dt k).vx * (setVel b o dt k).vx
      + (setVel b o dt k).vy * (setVel b o dt k).vy) := by
    unfold motion
    rw [if_pos (by rw [small_eq]; exact hdt)]
    unfold setRateAcc setRate setAcc setSpeed
    rw [h]
    split_ifs <;> first | rfl | simp_all
  rw [e1, e2, e]
  refine ⟨sqrt_nonneg _, ?_⟩
  rw [sq_sqrt (by nlinarith [sq_nonneg (setVel b o dt k).vx, sq_nonneg (setVel b o dt k).vy])]
  ring

/-- C104: the acceleration times the time step is the change of the velocity, unless it was reported. -/
theorem acceleration (b : Bits) (o : Old) {dt : ℝ} (hdt : dt > 1 / 1000000) (k : Kin) (h : b.acc = false) :
    o.vx + (motion b o dt k).ax * dt = (motion b o dt k).vx ∧ o.vy + (motion b o dt k).ay * dt = (motion b o dt k).vy ∧
    o.vz + (motion b o dt k).az * dt = (motion b o dt k).vz := by
  have hp : dt ≠ 0 := by
    intro h; rw [h] at hdt; norm_num at hdt
  have hd : dt > small := by rw [small_eq]; exact hdt
  obtain ⟨e1, e2, e3⟩ := motion_vel b o hd k
  have e : (motion b o dt k).ax = ((setVel b o dt k).vx - o.vx) / dt ∧
      (motion b o dt k).ay = ((setVel b o dt k).vy - o.vy) / dt ∧
      (motion b o dt k).az = ((setVel b o dt k).vz - o.vz) / dt := by
    unfold motion
    rw [if_pos hd]
    unfold setRateAcc setRate setAcc setSpeed
    rw [h]
    split_ifs <;> first | exact ⟨rfl, rfl, rfl⟩ | simp_all
  rw [e1, e2, e3, e.1, e.2.1, e.2.2]
  refine ⟨?_, ?_, ?_⟩ <;> rw [div_mul_cancel₀ _ hp] <;> ring

theorem rateNew_eq (b : Bits) (o : Old) (dt : ℝ) (k : Kin) :
    rateNew o dt (setAcc b o dt (setSpeed b (setVel b o dt k))) = rateNew o dt k := by
  unfold rateNew setAcc setSpeed setVel velHeading velMoved
  split_ifs <;> rfl

/-- C104: turning at the heading rate for the time step leads from the old heading to the new one, whole turns aside, the
short way round. -/
theorem heading_rate (b : Bits) (o : Old) {dt : ℝ} (hdt : dt > 1 / 1000000) (k : Kin) (h : b.rate = false) :
    (∃ n : ℤ, o.h + (motion b o dt k).hRate * dt = k.h + n * (2 * π)) ∧ |(motion b o dt k).hRate * dt| ≤ π := by
  have hp : dt ≠ 0 := by
    intro h; rw [h] at hdt; norm_num at hdt
  have hd : dt > small := by rw [small_eq]; exact hdt
  have e : (motion b o dt k).hRate = rateNew o dt k := by
    rw [← rateNew_eq b o dt k]
    unfold motion
    rw [if_pos hd]
    unfold setRateAcc setRate
    rw [h]
    split_ifs <;> first | rfl | simp_all
  rw [e]
  unfold rateNew
  rw [div_mul_cancel₀ _ hp]
  obtain ⟨⟨n, hn⟩, _⟩ := angleDiff_spec pi_pos k.h o.h
  refine ⟨⟨n, by rw [hn]; ring⟩, ?_⟩
  have := (absAngleDiff_spec pi_pos k.h o.h)
  rw [← this.1]
  exact this.2.2

theorem rateAcc_eq (b : Bits) (o : Old) {dt : ℝ} (hd : dt > small) (k : Kin) (h : b.rateAcc = false) :
    (motion b o dt k).hAcc = angleDiff π (rateNew o dt k) o.hRate / dt := by
  have e : rateNew o dt (setRate b o dt (setAcc b o dt (setSpeed b (setVel b o dt k)))) = rateNew o dt k := by
    rw [← rateNew_eq b o dt k]
    unfold setRate rateNew
    split_ifs <;> rfl
  unfold motion
  rw [if_pos hd]
  unfold setRateAcc
  rw [h]
  simp only [Bool.false_eq_true, if_false]
  rw [e]

theorem angleDiff_id {a b : ℝ} (h : |a - b| < π) : angleDiff π a b = a - b := by
  obtain ⟨h1, _⟩ := angleDiff_spec pi_pos a b
  have h2 := absAngleDiff_spec pi_pos a b
  have h3 : |angleDiff π a b| ≤ π := by rw [← h2.1]; exact h2.2.2
  have h4 := abs_lt.mp h
  have h5 := abs_le.mp h3
  exact turns_unique pi_pos h1 (by linarith) (by linarith)

/-- C104: the angular acceleration times the time step is the change of the heading rate, if that is less than pi rad/s.
Missing: larger changes. -/
theorem angular_acceleration_partial (b : Bits) (o : Old) {dt : ℝ} (hdt : dt > 1 / 1000000) (k : Kin)
    (h1 : b.rate = false) (h2 : b.rateAcc = false) (h : |(motion b o dt k).hRate - o.hRate| < π) :
    o.hRate + (motion b o dt k).hAcc * dt = (motion b o dt k).hRate := by
  have hp : dt ≠ 0 := by
    intro h; rw [h] at hdt; norm_num at hdt
  have hd : dt > small := by rw [small_eq]; exact hdt
  have e : (motion b o dt k).hRate = rateNew o dt k := by
    rw [← rateNew_eq b o dt k]
    unfold motion
    rw [if_pos hd]
    unfold setRateAcc setRate
    rw [h1]
    split_ifs <;> first | rfl | simp_all
  rw [e] at h ⊢
  rw [rateAcc_eq b o hd k h2, div_mul_cancel₀ _ hp, angleDiff_id h]
  ring

/-- An entity that turns by 2 rad within half a second after going straight. -/
noncomputable def turning : Kin := ⟨0, 0, 0, 2, 0, 0, 0, 0, 0, 0, 0, 0, 0⟩

/-- C104: a change of the heading rate from 0 to 4 rad/s is reported as a negative angular acceleration: rates are
subtracted like angles. -/
theorem angular_acceleration_fails : ¬∀ (b : Bits) (o : Old) (dt : ℝ) (k : Kin), dt > 1 / 1000000 → b.rate = false →
    b.rateAcc = false → o.hRate < (motion b o dt k).hRate → 0 < (motion b o dt k).hAcc := by
  intro h
  have h3 : (3 : ℝ) < π := pi_gt_three
  have h4 : π < 4 := by linarith [pi_lt_d2]
  let b : Bits := ⟨false, false, false, false, false, false⟩
  let o : Old := ⟨0, 0, 0, 0, 0, 0, 0, 0⟩
  have hd : (1 / 2 : ℝ) > small := by rw [small_eq]; norm_num
  have hr : rateNew o (1 / 2) turning = 4 := by
    unfold rateNew
    show angleDiff π 2 0 / (1 / 2) = 4
    rw [angleDiff_id (by rw [sub_zero, abs_of_pos (by norm_num)]; linarith)]
    norm_num
  have e : (motion b o (1 / 2) turning).hRate = 4 := by
    rw [← hr, ← rateNew_eq b o (1 / 2) turning]
    unfold motion
    rw [if_pos hd]
    unfold setRateAcc setRate
    rfl
  have ea := rateAcc_eq b o hd turning rfl
  rw [hr] at ea
  have hw : angleDiff π 4 0 = 4 - 2 * π := by
    obtain ⟨h1, _⟩ := angleDiff_spec pi_pos (4 : ℝ) 0
    have h2 := absAngleDiff_spec pi_pos (4 : ℝ) 0
    have h5 : |angleDiff π 4 0| ≤ π := by rw [← h2.1]; exact h2.2.2
    have h6 := abs_le.mp h5
    have h7 : Turns π (angleDiff π 4 0) (4 - 2 * π) := by
      obtain ⟨n, hn⟩ := h1
      exact ⟨n + 1, by rw [hn]; push_cast; ring⟩
    exact turns_unique pi_pos h7 (by linarith) (by linarith)
  have := h b o (1 / 2) turning (by norm_num) rfl rfl (by rw [e]; show (0 : ℝ) < 4; norm_num)
  rw [ea] at this
  change 0 < angleDiff π 4 0 / (1 / 2) at this
  rw [hw] at this
  linarith

/-- C104: values reported during the step are left alone. -/
theorem reported_kept (b : Bits) (o : Old) (dt : ℝ) (k : Kin) :
    (b.vel = true → (motion b o dt k).vx = k.vx ∧ (motion b o dt k).vy = k.vy ∧ (motion b o dt k).vz = k.vz) ∧
    (b.speed = true → (motion b o dt k).speed = k.speed) ∧
    (b.acc = true → (motion b o dt k).ax = k.ax ∧ (motion b o dt k).ay = k.ay ∧ (motion b o dt k).az = k.az) ∧
    (b.rate = true → (motion b o dt k).hRate = k.hRate) ∧
    (b.rateAcc = true → (motion b o dt k).hAcc = k.hAcc) := by
  unfold motion setRateAcc setRate setAcc setSpeed setVel velHeading velMoved
  refine ⟨?_, ?_, ?_, ?_, ?_⟩ <;> intro h <;> simp only [h, if_true] <;> split_ifs <;>
    first | exact ⟨rfl, rfl, rfl⟩ | rfl

/-! ### Whole runs -/

/-- Specification: the sum of velocity times time step over a run, along x. -/
noncomputable def sumX : St → List Frame → ℝ
  | _, [] => 0
  | s, f :: r => (motion f.bits s.old f.dt f.kin).vx * f.dt + sumX (step s f) r

/-- Specification: the same along y. -/
noncomputable def sumY : St → List Frame → ℝ
  | _, [] => 0
  | s, f :: r => (motion f.bits s.old f.dt f.kin).vy * f.dt + sumY (step s f) r

/-- C104: over any number of steps the velocities add up to the movement. -/
theorem path_run : ∀ (fs : List Frame) (s : St),
    (∀ f ∈ fs, f.dt > 1 / 1000000 ∧ f.bits.vel = false ∧ f.bits.teleport = false) →
    s.old.x + sumX s fs = (run s fs).old.x ∧ s.old.y + sumY s fs = (run s fs).old.y
  | [], s, _ => by simp [sumX, sumY, run]
  | f :: r, s, h => by
    obtain ⟨h1, h2, h3⟩ := h f (by simp)
    have hv := velocity f.bits s.old h1 f.kin h2 h3
    have ih := path_run r (step s f) fun g hg => h g (by simp [hg])
    have hp := motion_parts f.bits s.old f.dt f.kin
    have hx : (step s f).old.x = f.kin.x := hp.1
    have hy : (step s f).old.y = f.kin.y := hp.2.1
    constructor
    · show s.old.x + ((motion f.bits s.old f.dt f.kin).vx * f.dt + sumX (step s f) r) = (run (step s f) r).old.x
      rw [← ih.1, hx]; linarith [hv.1]
    · show s.old.y + ((motion f.bits s.old f.dt f.kin).vy * f.dt + sumY (step s f) r) = (run (step s f) r).old.y
      rw [← ih.2, hy]; linarith [hv.2.1]

/-- C104: the odometer grows by the length of the movement in each step, and not by a teleport. -/
theorem odometer_step (s : St) (f : Frame) :
    (f.bits.teleport = false →
      (step s f).odo = s.odo + sqrt ((f.kin.x - s.old.x) ^ 2 + (f.kin.y - s.old.y) ^ 2)) ∧
    (f.bits.teleport = true → (step s f).odo = s.odo) := by
  constructor <;> intro h
  · show odoStep f.bits s.old f.kin s.odo = _
    unfold odoStep
    rw [h]
    simp only [Bool.false_eq_true, if_false]
    rw [abs_of_nonneg (sqrt_nonneg _)]
    congr 2; ring
  · show odoStep f.bits s.old f.kin s.odo = _
    unfold odoStep
    rw [h]; rfl

/-- C104: the odometer never decreases. -/
theorem odometer_mono : ∀ (fs : List Frame) (s : St), s.odo ≤ (run s fs).odo
  | [], _ => le_refl _
  | f :: r, s => by
    refine le_trans ?_ (odometer_mono r (step s f))
    rcases hb : f.bits.teleport
    · rw [(odometer_step s f).1 hb]; linarith [sqrt_nonneg ((f.kin.x - s.old.x) ^ 2 + (f.kin.y - s.old.y) ^ 2)]
    · rw [(odometer_step s f).2 hb]

theorem triangle (a b c d : ℝ) : sqrt ((a + c) ^ 2 + (b + d) ^ 2) ≤ sqrt (a ^ 2 + b ^ 2) + sqrt (c ^ 2 + d ^ 2) := by
  have h := norm_add_le (⟨a, b⟩ : ℂ) ⟨c, d⟩
  rw [Complex.norm_eq_sqrt_sq_add_sq, Complex.norm_eq_sqrt_sq_add_sq, Complex.norm_eq_sqrt_sq_add_sq] at h
  simpa using h

/-- C104: without teleports, the odometer counts at least the distance from start to end. -/
theorem odometer_distance : ∀ (fs : List Frame) (s : St), (∀ f ∈ fs, f.bits.teleport = false) →
    sqrt (((run s fs).old.x - s.old.x) ^ 2 + ((run s fs).old.y - s.old.y) ^ 2) ≤ (run s fs).odo - s.odo
  | [], s, _ => by simp [run]
  | f :: r, s, h => by
    have ih := odometer_distance r (step s f) fun g hg => h g (by simp [hg])
    have ho := (odometer_step s f).1 (h f (by simp))
    have hp := motion_parts f.bits s.old f.dt f.kin
    have hx : (step s f).old.x = f.kin.x := hp.1
    have hy : (step s f).old.y = f.kin.y := hp.2.1
    rw [hx, hy] at ih
    have ht := triangle ((run (step s f) r).old.x - f.kin.x) ((run (step s f) r).old.y - f.kin.y)
      (f.kin.x - s.old.x) (f.kin.y - s.old.y)
    rw [show (run (step s f) r).old.x - f.kin.x + (f.kin.x - s.old.x) = (run (step s f) r).old.x - s.old.x by ring,
      show (run (step s f) r).old.y - f.kin.y + (f.kin.y - s.old.y) = (run (step s f) r).old.y - s.old.y by ring] at ht
    show sqrt (((run (step s f) r).old.x - s.old.x) ^ 2 + ((run (step s f) r).old.y - s.old.y) ^ 2)
      ≤ (run (step s f) r).odo - s.odo
    linarith

/-- An entity that moves 1 m in 0.1 s has velocity 10 m/s. -/
example : (motion ⟨false, false, false, false, false, false⟩ ⟨0, 0, 0, 0, 0, 0, 0, 0⟩ (1 / 10)
    ⟨1, 0, 0, 0, 0, 0, 0, 0, 0, 0, 0, 0, 0⟩).vx = 10 := by
  have := (velocity ⟨false, false, false, false, false, false⟩ ⟨0, 0, 0, 0, 0, 0, 0, 0⟩ (dt := 1 / 10) (by norm_num)
    ⟨1, 0, 0, 0, 0, 0, 0, 0, 0, 0, 0, 0, 0⟩ rfl rfl).1
  simp only at this
  linarith

/-! ### Wheels -/

/-- C104: the steering angle is that of a vehicle whose rear axle rolls with its speed while it turns at the heading
rate: `tan(angle) * speed = rate * wheel base`. -/
theorem steering {rate axle rear speed : ℝ} (old : ℝ) (hs : 1 / 1000000 < |speed|) (hr : rear ≠ 0) :
    tan (wheelAngle old rate axle rear speed) * rear = rate * axle ∧ |wheelAngle old rate axle rear speed| < π / 2 := by
  have hp := pi_pos
  have hrp : 0 < |rear| := abs_pos.mpr hr
  have ht : tan (atan2 (rate * axle) (|rear|)) = rate * axle / |rear| := by
    unfold atan2
    rw [Complex.tan_arg]
  have ha : |(atan2 (rate * axle) (|rear|))| < π / 2 := by
    unfold atan2
    rw [Complex.abs_arg_lt_pi_div_two_iff]
    exact Or.inl hrp
  have e : wheelAngle old rate axle rear speed = sign rear * atan2 (rate * axle) (|rear|) := by
    unfold wheelAngle
    rw [if_pos (by rw [small_eq]; exact hs)]
  rw [e]
  unfold sign
  rcases lt_or_gt_of_ne hr with h | h
  · rw [if_pos h, neg_one_mul, tan_neg, ht, abs_neg, abs_of_neg h]
    rw [abs_of_neg h] at ha
    exact ⟨by field_simp, ha⟩
  · rw [if_neg (by linarith), one_mul, ht, abs_of_pos h]
    rw [abs_of_pos h] at ha
    exact ⟨by field_simp, ha⟩

/-- C104: a standing vehicle keeps its steering angle. -/
theorem steering_standing (old rate axle rear : ℝ) {speed : ℝ} (hs : |speed| ≤ 1 / 1000000) :
    wheelAngle old rate axle rear speed = old := by
  unfold wheelAngle
  rw [if_neg (by rw [small_eq]; linarith)]

/-- C104: the wheels roll without slip on a radius of 0.35 m: rotation times radius changes by the way covered, backwards
for a rear axle that goes backwards; whole turns are dropped. -/
theorem rolling (rot rear speed dt : ℝ) :
    (∃ n : ℤ, (wheelRot rot rear speed dt - rot - n * (2 * π)) * (35 / 100)
      = (if rear < 0 then -|speed| else |speed|) * dt) ∧
    |wheelRot rot rear speed dt| < 2 * π := by
  constructor
  · obtain ⟨n, hn⟩ := fmod_turns π (rot + sign rear * |speed| * dt / (35 / 100))
    refine ⟨n, ?_⟩
    unfold wheelRot
    rw [hn]
    unfold sign
    split_ifs <;> ring
  · have := fmod_range (x := rot + sign rear * |speed| * dt / (35 / 100)) (m := 2 * π) (by linarith [pi_pos])
    exact abs_lt.mpr this

/-- A vehicle with 3 m wheel base that goes 10 m/s backwards and turns at 1 rad/s. -/
example : tan (wheelAngle 0 1 3 (-10) (-10)) = -(3 / 10) := by
  have := (steering (rate := 1) (axle := 3) (rear := -10) (speed := -10) 0 (by norm_num) (by norm_num)).1
  linarith

/-! ### Trailers -/

/-- Specification: the point `d` metres ahead of the reference point. -/
noncomputable def ahead (p : Body) (d : ℝ) : ℝ × ℝ := (p.x + d * cos p.h, p.y + d * sin p.h)

theorem hitchOf_eq (p : Body) (d : ℝ) : hitchOf p d = ahead p d := by
  unfold hitchOf ahead rotate
  apply Prod.ext <;> simp only <;> ring

theorem setLength_far {x y l : ℝ} (h : x * x + y * y > 1 / 1000000) :
    vecSetLength x y l = (x * (l / sqrt (x * x + y * y)), y * (l / sqrt (x * x + y * y))) := by
  have e : vecLength x y = sqrt (x * x + y * y) := by
    unfold vecLength
    rw [if_pos (by rw [small_eq]; exact h)]
  have hb : vecLength x y > small := by
    rw [e, small_eq]
    apply lt_sqrt_of_sq_lt
    linarith
  unfold vecSetLength
  rw [if_pos hb, e]

/-- C105: after a step the coupler of the trailer is at the hitch of the vehicle that tows it, wherever that went, unless
the trailer was within 1 mm of the hitch. -/
theorem link {v0 : ℝ × ℝ} {t : Trailer} (hc : 0 < t.coup)
    (hd : (t.pos.x - v0.1) ^ 2 + (t.pos.y - v0.2) ^ 2 > 1 / 1000000) :
    ahead (towed v0 t) t.coup = v0 ∧ 0 ≤ (towed v0 t).h ∧ (towed v0 t).h < 2 * π := by
  have hd' : (t.pos.x - v0.1) * (t.pos.x - v0.1) + (t.pos.y - v0.2) * (t.pos.y - v0.2) > 1 / 1000000 := by nlinarith
  have hv : towVec v0 t = _ := setLength_far (l := t.coup) hd'
  set r := sqrt ((t.pos.x - v0.1) * (t.pos.x - v0.1) + (t.pos.y - v0.2) * (t.pos.y - v0.2)) with hr
  have hrp : 0 < r := sqrt_pos.mpr (by linarith)
  have hrr : r ^ 2 = (t.pos.x - v0.1) * (t.pos.x - v0.1) + (t.pos.y - v0.2) * (t.pos.y - v0.2) :=
    sq_sqrt (by linarith)
  have hlen : sqrt ((towVec v0 t).1 ^ 2 + (towVec v0 t).2 ^ 2) = t.coup := by
    rw [hv]
    simp only
    rw [show ((t.pos.x - v0.1) * (t.coup / r)) ^ 2 + ((t.pos.y - v0.2) * (t.coup / r)) ^ 2
        = (t.coup / r) ^ 2 * r ^ 2 by rw [hrr]; ring,
      ← mul_pow, div_mul_cancel₀ _ hrp.ne', sqrt_sq hc.le]
  have hdir := atan2_direction (towVec v0 t).1 (towVec v0 t).2
  rw [hlen] at hdir
  have ht : (towed v0 t).h = interval2PI π (atan2 (towVec v0 t).2 (towVec v0 t).1 + π) := rfl
  have hi := interval2PI_direction (atan2 (towVec v0 t).2 (towVec v0 t).1 + π)
  have hs := interval2PI_spec pi_pos (atan2 (towVec v0 t).2 (towVec v0 t).1 + π)
  rw [cos_add_pi, sin_add_pi] at hi
  refine ⟨?_, by rw [ht]; exact hs.1, by rw [ht]; exact hs.2.1⟩
  unfold ahead
  rw [ht, hi.1, hi.2]
  apply Prod.ext
  · show v0.1 + (towVec v0 t).1 + t.coup * -cos (atan2 (towVec v0 t).2 (towVec v0 t).1) = v0.1
    linarith [hdir.1]
  · show v0.2 + (towVec v0 t).2 + t.coup * -sin (atan2 (towVec v0 t).2 (towVec v0 t).1) = v0.2
    linarith [hdir.2]

/-- Specification: all links of a combination are coupled. -/
def Coupled (tow : Body) (hitch : ℝ) : List Trailer → Prop
  | [] => True
  | t :: r => ahead t.pos t.coup = ahead tow hitch ∧ Coupled t.pos t.hitch r

/-- No trailer is within 1 mm of the hitch it is about to be pulled by. -/
def Apart (tow : Body) (hitch : ℝ) : List Trailer → Prop
  | [] => True
  | t :: r => (t.pos.x - (ahead tow hitch).1) ^ 2 + (t.pos.y - (ahead tow hitch).2) ^ 2 > 1 / 1000000 ∧
      Apart (towed (ahead tow hitch) t) t.hitch r

/-- C105: after a step all trailers of a combination are coupled and have the speed of the first vehicle. -/
theorem coupled : ∀ (ts : List Trailer) (tow : Body) (hitch speed : ℝ), (∀ t ∈ ts, 0 < t.coup) → Apart tow hitch ts →
    Coupled tow hitch (pull tow hitch speed ts) ∧ (∀ t ∈ pull tow hitch speed ts, t.speed = speed) ∧
    (pull tow hitch speed ts).length = ts.length
  | [], _, _, _, _, _ => ⟨trivial, by simp [pull], rfl⟩
  | t :: r, tow, hitch, speed, hc, ha => by
    have hl := link (v0 := ahead tow hitch) (hc t (by simp)) ha.1
    obtain ⟨i1, i2, i3⟩ := coupled r (towed (ahead tow hitch) t) t.hitch speed (fun u hu => hc u (by simp [hu])) ha.2
    unfold pull
    rw [hitchOf_eq]
    refine ⟨⟨hl.1, i1⟩, ?_, by simp [i3]⟩
    intro u hu
    rcases List.mem_cons.mp hu with rfl | hu
    · rfl
    · exact i2 u hu

/-- C105: a trailer is turned only as far as the hitch moves: its reference point stays on the line to the hitch. -/
theorem follows {v0 : ℝ × ℝ} {t : Trailer} (hc : 0 < t.coup)
    (hd : (t.pos.x - v0.1) ^ 2 + (t.pos.y - v0.2) ^ 2 > 1 / 1000000) :
    ∃ c > 0, (towed v0 t).x - v0.1 = c * (t.pos.x - v0.1) ∧ (towed v0 t).y - v0.2 = c * (t.pos.y - v0.2) := by
  have hd' : (t.pos.x - v0.1) * (t.pos.x - v0.1) + (t.pos.y - v0.2) * (t.pos.y - v0.2) > 1 / 1000000 := by nlinarith
  have hv : towVec v0 t = _ := setLength_far (l := t.coup) hd'
  refine ⟨t.coup / sqrt ((t.pos.x - v0.1) * (t.pos.x - v0.1) + (t.pos.y - v0.2) * (t.pos.y - v0.2)),
    div_pos hc (sqrt_pos.mpr (by linarith)), ?_, ?_⟩
  · show v0.1 + (towVec v0 t).1 - v0.1 = _
    rw [hv]; ring
  · show v0.2 + (towVec v0 t).2 - v0.2 = _
    rw [hv]; ring

/-- C105: trailers put in line are coupled, with the heading and speed of the first vehicle. -/
theorem aligned : ∀ (ts : List Trailer) (tow : Body) (hitch speed : ℝ),
    Coupled tow hitch (align tow.h tow hitch speed ts) ∧
    ∀ t ∈ align tow.h tow hitch speed ts, t.pos.h = tow.h ∧ t.speed = speed
  | [], _, _, _ => ⟨trivial, by simp [align]⟩
  | t :: r, tow, hitch, speed => by
    have ih := aligned r (neutral tow.h tow hitch t) t.hitch speed
    have hh : (neutral tow.h tow hitch t).h = tow.h := rfl
    rw [hh] at ih
    have hl : ahead (neutral tow.h tow hitch t) t.coup = ahead tow hitch := by
      unfold ahead neutral rotate
      apply Prod.ext <;> simp only <;> ring
    unfold align
    refine ⟨⟨hl, ih.1⟩, ?_⟩
    intro u hu
    rcases List.mem_cons.mp hu with rfl | hu
    · exact ⟨rfl, rfl⟩
    · exact ih.2 u hu

/-- A trailer 5 m behind the hitch of a vehicle that moved 1 m. -/
example : Apart ⟨1, 0, 0⟩ (-2) [⟨⟨-7, 0, 0⟩, 5, 0, 0⟩] := by
  refine ⟨?_, trivial⟩
  unfold ahead
  simp only [cos_zero, sin_zero]
  norm_num

/-! ### Rear axle -/

theorem axle_dir {x y rx ry : ℝ} :
    sqrt ((x - rx) ^ 2 + (y - ry) ^ 2) * cos (axleHeading x y rx ry) = x - rx ∧
    sqrt ((x - rx) ^ 2 + (y - ry) ^ 2) * sin (axleHeading x y rx ry) = y - ry := by
  unfold axleHeading
  rw [(interval2PI_direction _).1, (interval2PI_direction _).2]
  exact atan2_direction (x - rx) (y - ry)

/-- C105: the rear axle of a vehicle with an offset reference point keeps its distance to the reference point, and moves
along the heading only: no sideways slip. Its speed times the time step is the way it moved, negative backwards. -/
theorem rear_axle (x y rx ry off : ℝ) {dt : ℝ} (hdt : dt > 1 / 1000000) :
    ahead ⟨(axlePos x y rx ry off).1, (axlePos x y rx ry off).2, axleHeading x y rx ry⟩ off = (x, y) ∧
    (axlePos x y rx ry off).1 = rx + axleSpeed x y rx ry off dt * dt * cos (axleHeading x y rx ry) ∧
    (axlePos x y rx ry off).2 = ry + axleSpeed x y rx ry off dt * dt * sin (axleHeading x y rx ry) ∧
    axleSpeed x y rx ry off dt * dt = sqrt ((x - rx) ^ 2 + (y - ry) ^ 2) - off := by
  obtain ⟨d1, d2⟩ := axle_dir (x := x) (y := y) (rx := rx) (ry := ry)
  have hp : dt ≠ 0 := by
    intro h; rw [h] at hdt; norm_num at hdt
  have hcs := sin_sq_add_cos_sq (axleHeading x y rx ry)
  have p1 : (axlePos x y rx ry off).1 = x - off * cos (axleHeading x y rx ry) := by
    unfold axlePos rotate; simp only; ring
  have p2 : (axlePos x y rx ry off).2 = y - off * sin (axleHeading x y rx ry) := by
    unfold axlePos rotate; simp only; ring
  have hm : max small dt = dt := max_eq_right (by rw [small_eq]; linarith)
  have hsp : axleSpeed x y rx ry off dt * dt = sqrt ((x - rx) ^ 2 + (y - ry) ^ 2) - off := by
    unfold axleSpeed
    rw [hm, projectSigned_eq]
    have r1 : (rotate 1 0 (axleHeading x y rx ry)).1 = cos (axleHeading x y rx ry) := by unfold rotate; simp
    have r2 : (rotate 1 0 (axleHeading x y rx ry)).2 = sin (axleHeading x y rx ry) := by unfold rotate; simp
    rw [r1, r2, p1, p2]
    set c := cos (axleHeading x y rx ry)
    set s := sin (axleHeading x y rx ry)
    set d := sqrt ((x - rx) ^ 2 + (y - ry) ^ 2)
    have h1 : c * c + s * s = 1 := by linarith
    rw [h1, if_pos (by rw [small_eq]; norm_num), sqrt_one, div_one]
    have e : ((x - off * c - rx) / dt * c + (y - off * s - ry) / dt * s) * dt
        = (x - off * c - rx) * c + (y - off * s - ry) * s := by
      field_simp
    rw [e]
    have : (x - off * c - rx) * c + (y - off * s - ry) * s = (x - rx) * c + (y - ry) * s - off * (c * c + s * s) := by ring
    rw [this, h1, ← d1, ← d2]
    linear_combination d * h1
  refine ⟨?_, ?_, ?_, hsp⟩
  · unfold ahead
    apply Prod.ext
    · simp only; rw [p1]; ring
    · simp only; rw [p2]; ring
  · rw [hsp, p1]; linarith [d1]
  · rw [hsp, p2]; linarith [d2]

/-- C105: a vehicle with offset reference point whose heading changes leaves its trailer behind: the trailer is placed
with the heading from before. -/
theorem offset_decouples_fails : ¬∀ (tow : Body) (hitch speed rx ry : ℝ) (ts : List Trailer), (∀ t ∈ ts, 0 < t.coup) →
    Apart tow hitch ts → Coupled (towStep tow hitch speed rx ry ts).1 hitch (towStep tow hitch speed rx ry ts).2 := by
  intro h
  let t : Trailer := ⟨⟨-10, 0, 0⟩, 5, 0, 0⟩
  have ha : Apart ⟨0, 0, 0⟩ (-1) [t] := by
    refine ⟨?_, trivial⟩
    show ((-10 : ℝ) - (ahead ⟨0, 0, 0⟩ (-1)).1) ^ 2 + (0 - (ahead ⟨0, 0, 0⟩ (-1)).2) ^ 2 > 1 / 1000000
    unfold ahead
    simp only [cos_zero, sin_zero]
    norm_num
  have hc : ∀ u ∈ [t], 0 < u.coup := by
    intro u hu
    rw [List.mem_singleton.mp hu]
    show (0 : ℝ) < 5
    norm_num
  have h1 := h ⟨0, 0, 0⟩ (-1) 0 0 (-1) [t] hc ha
  have h2 := (coupled [t] ⟨0, 0, 0⟩ (-1) 0 hc ha).1
  have h3 : ahead (towStep ⟨0, 0, 0⟩ (-1) 0 0 (-1) [t]).1 (-1) = ahead ⟨0, 0, 0⟩ (-1) := h1.1.symm.trans h2.1
  have d := axle_dir (x := 0) (y := 0) (rx := 0) (ry := -1)
  have hh : cos (axleHeading 0 0 0 (-1)) = 0 := by
    have := d.1
    norm_num at this
    exact this
  have h4 := congrArg Prod.fst h3
  unfold ahead towStep at h4
  simp only at h4
  rw [hh, cos_zero] at h4
  norm_num at h4

/-- A vehicle with its reference point 2 m ahead of the rear axle, moved from 2 m to 3 m ahead. -/
example : axleSpeed 3 0 0 0 2 1 = 1 := by
  have := (rear_axle 3 0 0 0 2 (dt := 1) (by norm_num)).2.2.2
  rw [show ((3 : ℝ) - 0) ^ 2 + (0 - 0) ^ 2 = 3 ^ 2 by norm_num, sqrt_sq (by norm_num)] at this
  linarith

/-! ### Trail -/

/-- Specification: consecutive vertices are at least the sampling time apart (less 1e-6). -/
def Spaced (dt : ℝ) (t : List Vertex) : Prop := t.IsChain fun a b => b.time - a.time > dt - 1 / 1000000

theorem spaced_step {dt : ℝ} (n : Vertex) {t : List Vertex} (h : Spaced dt t) : Spaced dt (trailStep dt n t) := by
  unfold trailStep
  rcases hl : t.getLast? with _ | l
  · have : t = [] := List.getLast?_eq_none_iff.mp hl
    subst this
    simp [Spaced]
  · simp only
    unfold Spaced
    rw [List.isChain_append]
    refine ⟨h, ?_, ?_⟩
    · unfold trailNew fill
      split_ifs <;> simp [List.isChain_cons]
    · intro a ha b hb
      rw [hl] at ha
      have : a = l := by simpa using ha.symm
      subst this
      unfold trailNew fill at hb
      rw [small_eq] at hb
      split_ifs at hb with h1 h2 h3
      · simp at hb
        rw [← hb]; simp only; linarith
      · simp at hb
        rw [← hb]; exact h1
      · simp at hb
      · simp at hb

/-- C106: the samples of the trail are at least the sampling time apart, so in the order of time. -/
theorem trail_spaced (dt : ℝ) : ∀ (fs t : List Vertex), Spaced dt t → Spaced dt (trail dt t fs)
  | [], _, h => h
  | f :: r, _, h => trail_spaced dt r _ (spaced_step f h)

/-- C106: after each step in which the entity moves, the last sample is the current state or younger than the sampling
time. -/
theorem trail_recent (dt : ℝ) (n : Vertex) (t : List Vertex) (hs : 1 / 1000000 < |n.speed|) :
    ∃ l, (trailStep dt n t).getLast? = some l ∧ (l = n ∨ n.time - l.time ≤ dt - 1 / 1000000) := by
  unfold trailStep
  rcases hl : t.getLast? with _ | l
  · exact ⟨n, by simp, Or.inl rfl⟩
  · simp only
    unfold trailNew
    rw [small_eq]
    by_cases h1 : n.time - l.time > dt - 1 / 1000000
    · rw [if_pos h1, if_pos (Or.inr hs)]
      exact ⟨n, by simp, Or.inl rfl⟩
    · rw [if_neg h1]
      exact ⟨l, by simp [hl], Or.inr (by linarith)⟩

/-- C106: samples are kept for good. -/
theorem trail_keeps (dt : ℝ) : ∀ (fs t : List Vertex), t <+: trail dt t fs
  | [], t => List.prefix_refl t
  | f :: r, t => by
    refine List.IsPrefix.trans ?_ (trail_keeps dt r (trailStep dt f t))
    unfold trailStep
    rcases t.getLast? with _ | l <;> exact List.prefix_append _ _

/-- C106: while the steps are no longer than the sampling time, each sample of a moving entity is a state it was in. -/
theorem trail_true_aux {dt : ℝ} (hdt : 1 / 1000000 ≤ dt) (fs : List Vertex) : ∀ (done t : List Vertex) (p : Vertex),
    (∀ v ∈ t, v ∈ done) → t.getLast? ≠ none → p ∈ done →
    (∀ l ∈ t.getLast?, p.time - l.time ≤ dt - 1 / 1000000) →
    (p :: fs).IsChain (fun a b => b.time - a.time ≤ dt) →
    (∀ f ∈ fs, 1 / 1000000 < |f.speed|) → ∀ v ∈ trail dt t fs, v ∈ done ++ fs := by
  induction fs with
  | nil => intro done t p h _ _ _ _ _ v hv; simpa using h v hv
  | cons f r ih =>
    intro done t p h hne hp hlast hchain hmov v hv
    obtain ⟨l, hl⟩ := Option.ne_none_iff_exists'.mp hne
    have hc := List.isChain_cons_cons.mp hchain
    have hlt := hlast l (by simp [hl])
    have hnofill : fill dt f.time l = [] := by
      unfold fill
      rw [small_eq, if_neg]
      linarith [hc.1]
    have hstep : ∀ v ∈ trailStep dt f t, v ∈ done ++ [f] := by
      intro w hw
      unfold trailStep at hw
      rw [hl] at hw
      simp only [List.mem_append] at hw
      rcases hw with hw | hw
      · exact List.mem_append.mpr (Or.inl (h w hw))
      · unfold trailNew at hw
        rw [hnofill] at hw
        split_ifs at hw
        · exact List.mem_append.mpr (Or.inr (by simpa using hw))
        · simp at hw
        · simp at hw
    obtain ⟨l', hl', hrec⟩ := trail_recent dt f t (hmov f (by simp))
    have := ih (done ++ [f]) (trailStep dt f t) f hstep (by rw [hl']; simp) (by simp) (by
      intro q hq
      rw [hl'] at hq
      have : q = l' := by simpa using hq.symm
      subst this
      rcases hrec with rfl | hrec
      · linarith
      · exact hrec) hc.2 (fun g hg => hmov g (by simp [hg])) v hv
    simpa using this

/-- C106: while the steps are no longer than the sampling time, each sample of a moving entity is a state the entity was
in. Missing: longer steps. -/
theorem trail_true_partial {dt : ℝ} (hdt : 1 / 1000000 ≤ dt) (fs : List Vertex)
    (hc : fs.IsChain fun a b => b.time - a.time ≤ dt) (hm : ∀ f ∈ fs, 1 / 1000000 < |f.speed|) :
    ∀ v ∈ trail dt [] fs, v ∈ fs := by
  cases fs with
  | nil => intro v hv; exact absurd hv (by simp [trail])
  | cons f r =>
    intro v hv
    have := trail_true_aux hdt r [f] [f] f (by simp) (by simp) (by simp) (by
      intro l hl
      have : l = f := by simpa using hl.symm
      subst this
      linarith) hc (fun g hg => hm g (by simp [hg])) v hv
    simpa using this

/-- A moving entity with steps of 0.1 s. -/
example : ∀ v ∈ trail (1 / 5) [] [⟨0, 10, 0⟩, ⟨1 / 10, 10, 1⟩, ⟨2 / 10, 10, 2⟩],
    v ∈ [(⟨0, 10, 0⟩ : Vertex), ⟨1 / 10, 10, 1⟩, ⟨2 / 10, 10, 2⟩] :=
  trail_true_partial (by norm_num) _ (by simp only [List.isChain_cons_cons, List.isChain_singleton]; norm_num)
    (by intro f hf; simp at hf; rcases hf with rfl | rfl | rfl <;> norm_num)

/-- C106: an entity that goes 10 m/s and makes a step of 1 s leaves a sample at 0.8 s (with the default sampling time)
where it was at 0 s. -/
theorem trail_true_fails : ¬∀ (dt : ℝ) (fs : List Vertex), 1 / 1000000 ≤ dt → (∀ f ∈ fs, 1 / 1000000 < |f.speed|) →
    (∀ f ∈ fs, f.x = f.speed * f.time) → (∀ f ∈ fs, ∀ g ∈ fs, f.speed = g.speed) →
    ∀ v ∈ trail dt [] fs, v.x = v.speed * v.time := by
  intro h
  have := h (1 / 5) [⟨0, 10, 0⟩, ⟨1, 10, 10⟩] (by norm_num) (by intro f hf; simp at hf; rcases hf with rfl | rfl <;> norm_num)
    (by intro f hf; simp at hf; rcases hf with rfl | rfl <;> norm_num)
    (by intro f hf g hg; simp at hf hg; rcases hf with rfl | rfl <;> rcases hg with rfl | rfl <;> rfl)
    ⟨4 / 5, 10, 0⟩ (by
      have e : trailNew (1 / 5) ⟨1, 10, 10⟩ ⟨0, 10, 0⟩ = [⟨4 / 5, 10, 0⟩, ⟨1, 10, 10⟩] := by
        unfold trailNew fill
        rw [small_eq]
        norm_num
      show _ ∈ trailStep (1 / 5) ⟨1, 10, 10⟩ [⟨0, 10, 0⟩]
      unfold trailStep
      show _ ∈ [⟨0, 10, 0⟩] ++ trailNew (1 / 5) ⟨1, 10, 10⟩ ⟨0, 10, 0⟩
      rw [e]
      simp)
  norm_num at this

/-- Two samples a fifth of a second apart. -/
example : Spaced (1 / 5) (trail (1 / 5) [] [⟨0, 10, 0⟩, ⟨1 / 10, 10, 1⟩, ⟨1 / 5, 10, 2⟩]) :=
  trail_spaced _ _ _ (by simp [Spaced])

end Verif.Ground

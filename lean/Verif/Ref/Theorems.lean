import Verif.Ref.Model
import Verif.Ref.Linear
import Verif.Vehicle.Theorems
import Verif.Geom.AngleTheorems
/-
Theorems about following a reference entity.
-/
namespace Verif.Ref
open Real Filter Topology

/-- The vehicle stands in the direction `h`, on the line through `(x, y)` in this direction, `e` ahead of that point. -/
structure OnLine (v : Vehicle.Vehicle) (x y h e : ℝ) : Prop where
  heading : v.heading = h
  range : 0 ≤ h ∧ h < 2 * π
  x : v.x = x + e * cos h
  y : v.y = y + e * sin h

/-- The controls are not disabled. -/
structure Live (v : Vehicle.Vehicle) (m : ℝ) : Prop where
  throttle : v.throttleDisabled = false
  steering : v.steeringDisabled = false
  maxSpeed : v.maxSpeed = m

theorem fmod_small {h : ℝ} (h0 : 0 ≤ h) (h1 : h < 2 * π) : Geom.fmod h (2 * π) = h := by
  obtain ⟨a, b⟩ := Geom.fmod_nonneg (m := 2 * π) two_pi_pos h0
  exact Geom.turns_unique pi_pos (Geom.fmod_turns π h) (by linarith) (by linarith)

theorem turned_small {h : ℝ} (h0 : 0 ≤ h) (h1 : h < 2 * π) : Vehicle.turned h = h := by
  unfold Vehicle.turned
  rw [fmod_small h0 h1, if_neg (not_lt.2 h0)]

theorem intervalPI_zero : Geom.intervalPI π (0 : ℝ) = 0 := by
  unfold Geom.intervalPI Geom.wrapPi
  rw [fmod_small le_rfl two_pi_pos, if_neg (by linarith [pi_pos]), if_neg (by linarith [pi_pos])]

theorem atan2_zero {x : ℝ} (h : 0 ≤ x) : Geom.atan2 0 x = 0 := Complex.arg_ofReal_of_nonneg h

theorem atan2_back {x : ℝ} (h : x < 0) : Geom.atan2 0 x = π := Complex.arg_ofReal_of_neg h

theorem atan2_pos {x y : ℝ} (h : 0 < y) : 0 < Geom.atan2 y x := by
  have h1 : 0 ≤ Geom.atan2 y x := Complex.arg_nonneg_iff.2 h.le
  refine lt_of_le_of_ne h1 (fun e => ?_)
  have := (Complex.arg_eq_zero_iff.1 e.symm).2
  simp only at this
  linarith

theorem atan2_neg {x y : ℝ} (h : y < 0) : Geom.atan2 y x < 0 := Complex.arg_neg_iff.2 h

theorem curvature_zero {r : Target} (h : r.hRate = 0) : curvature r = 0 := by
  unfold curvature absLimit
  rw [h]
  norm_num

theorem errX_line {r : Target} {v : Vehicle.Vehicle} {e : ℝ} (h : OnLine v r.x r.y r.h e) : errX r v = e := by
  unfold errX Geom.lineAngleDist
  rw [h.x, h.y, h.heading, sin_add_pi_div_two, cos_add_pi_div_two]
  linear_combination e * sin_sq_add_cos_sq r.h

theorem errY_line {p : Params} {r : Target} {v : Vehicle.Vehicle} {e : ℝ} (h : OnLine v r.x r.y r.h e) : errY p r v = 0 := by
  unfold errY Geom.lineAngleDist
  rw [h.x, h.y, h.heading]
  split <;> ring

theorem errH_line {r : Target} {v : Vehicle.Vehicle} {e : ℝ} (h : OnLine v r.x r.y r.h e) : errH r v = 0 := by
  unfold errH
  rw [h.heading, sub_self, intervalPI_zero]

theorem steering_line {p : Params} {r : Target} {v : Vehicle.Vehicle} {e : ℝ} (h : OnLine v r.x r.y r.h e) (hr : r.hRate = 0) :
    steering p (errY p r v) (errH r v * Geom.sign v.speed) v.speed (curvature r) = Geom.atan2 0 (p.stabilizer + v.speed) := by
  unfold steering
  rw [errY_line h, errH_line h, curvature_zero hr]
  simp

/-- What a step does. -/
theorem step_live {p : Params} {r : Target} {v : Vehicle.Vehicle} {dt m : ℝ} (hl : Live v m) :
    (step p r dt v).speed = Vehicle.clamp (v.speed + acceleration p.stiffness (errX r v) (v.speed - r.speed) * dt) (-m) m ∧
    (step p r dt v).wheelAngle = Vehicle.clamp (steering p (errY p r v) (errH r v * Geom.sign v.speed) v.speed (curvature r)) (-Vehicle.maxAngle) Vehicle.maxAngle ∧
    (step p r dt v).headingDot = (step p r dt v).speed * sin (Vehicle.slipOf (step p r dt v).wheelAngle) / (v.length * (15 / 100)) ∧
    (step p r dt v).heading = Vehicle.turned (v.heading + dt * (step p r dt v).headingDot) ∧
    (step p r dt v).x = v.x + dt * ((step p r dt v).speed * cos (Vehicle.slipOf (step p r dt v).wheelAngle + v.heading)) ∧
    (step p r dt v).y = v.y + dt * ((step p r dt v).speed * sin (Vehicle.slipOf (step p r dt v).wheelAngle + v.heading)) ∧
    Live (step p r dt v) m ∧ (step p r dt v).length = v.length := by
  obtain ⟨h1, h2, h3⟩ := hl
  unfold step Vehicle.driveAccSteer Vehicle.wheelsTo Vehicle.accelerated
  simp only [h1, h2, h3, Bool.false_eq_true, if_false]
  exact ⟨rfl, rfl, rfl, rfl, rfl, rfl, ⟨rfl, rfl, rfl⟩, rfl⟩

/-- One step on the line of a reference entity that drives straight. -/
theorem line_step {p : Params} {r : Target} {v : Vehicle.Vehicle} {dt m e : ℝ} (hl : Live v m) (h : OnLine v r.x r.y r.h e) (hr : r.hRate = 0)
    (hs : 0 ≤ p.stabilizer + v.speed) (h1 : -m ≤ v.speed + acceleration p.stiffness e (v.speed - r.speed) * dt)
    (h2 : v.speed + acceleration p.stiffness e (v.speed - r.speed) * dt ≤ m) :
    (step p r dt v).speed = v.speed + acceleration p.stiffness e (v.speed - r.speed) * dt ∧ (step p r dt v).wheelAngle = 0 ∧
    OnLine (step p r dt v) r.x r.y r.h (e + (step p r dt v).speed * dt) ∧ Live (step p r dt v) m := by
  obtain ⟨a1, a2, a3, a4, a5, a6, a7, -⟩ := step_live (p := p) (r := r) (dt := dt) hl
  rw [errX_line h, Vehicle.clamp_id h1 h2] at a1
  have hw : (step p r dt v).wheelAngle = 0 := by
    rw [a2, steering_line h hr, atan2_zero hs, Vehicle.clamp_id] <;> linarith [Vehicle.maxAngle_pos]
  have hsl : Vehicle.slipOf (step p r dt v).wheelAngle = 0 := by
    rw [hw]
    simp [Vehicle.slipOf]
  rw [hsl] at a3 a5 a6
  rw [a3] at a4
  simp only [sin_zero, mul_zero, zero_div, add_zero, zero_add] at a4 a5 a6
  rw [h.heading] at a4 a5 a6
  refine ⟨a1, hw, ⟨?_, h.range, ?_, ?_⟩, a7⟩
  · rw [a4, turned_small h.range.1 h.range.2]
  · rw [a5, h.x]
    ring
  · rw [a6, h.y]
    ring

/-- A reference entity that drives straight at constant speed. -/
noncomputable def straight (x y h w dt : ℝ) (n : ℕ) : Target := ⟨x + n * (w * dt) * cos h, y + n * (w * dt) * sin h, h, w, 0⟩

/-- The vehicle behaves as a mass on a spring, as long as its speed stays in the limits. -/
theorem run_line {p : Params} {v : Vehicle.Vehicle} {x y h w dt m e u : ℝ} (hl : Live v m) (hv : OnLine v x y h e) (hu : v.speed = w + u) (hk : 0 ≤ p.stiffness)
    (hst : 0 ≤ p.stabilizer) (n : ℕ)
    (hlim : ∀ k ≤ n, 0 ≤ w + (linRun (√p.stiffness) dt (e, u) k).2 ∧ w + (linRun (√p.stiffness) dt (e, u) k).2 ≤ m) :
    OnLine (run p (straight x y h w dt) dt v n) (straight x y h w dt n).x (straight x y h w dt n).y h (linRun (√p.stiffness) dt (e, u) n).1 ∧
    (run p (straight x y h w dt) dt v n).speed = w + (linRun (√p.stiffness) dt (e, u) n).2 ∧ Live (run p (straight x y h w dt) dt v n) m := by
  induction n with
  | zero =>
    refine ⟨⟨hv.heading, hv.range, ?_, ?_⟩, hu, hl⟩
    · show v.x = x + (0 : ℕ) * (w * dt) * cos h + e * cos h
      rw [hv.x]
      simp
    · show v.y = y + (0 : ℕ) * (w * dt) * sin h + e * sin h
      rw [hv.y]
      simp
  | succ n ih =>
    obtain ⟨i1, i2, i3⟩ := ih (fun k hk' => hlim k (hk'.trans (Nat.le_succ n)))
    have hsq : √p.stiffness ^ 2 = p.stiffness := Real.sq_sqrt hk
    have e2 : (run p (straight x y h w dt) dt v n).speed +
        acceleration p.stiffness (linRun (√p.stiffness) dt (e, u) n).1 ((run p (straight x y h w dt) dt v n).speed - (straight x y h w dt n).speed) * dt =
        w + (linRun (√p.stiffness) dt (e, u) (n + 1)).2 := by
      rw [i2]
      show w + _ + acceleration p.stiffness _ (w + _ - w) * dt = w + (lin _ dt (linRun (√p.stiffness) dt (e, u) n)).2
      unfold lin acceleration
      rw [hsq]
      ring
    obtain ⟨b1, b2⟩ := hlim (n + 1) le_rfl
    obtain ⟨s1, s2, s3, s4⟩ := line_step (p := p) (r := straight x y h w dt n) (dt := dt) i3 i1 rfl
      (by rw [i2]; linarith [(hlim n (Nat.le_succ n)).1]) (by rw [e2]; linarith) (by rw [e2]; linarith)
    rw [e2] at s1
    refine ⟨⟨s3.heading, s3.range, ?_, ?_⟩, s1, s4⟩
    · show (step p (straight x y h w dt n) dt (run p (straight x y h w dt) dt v n)).x = _
      rw [s3.x, s1]
      show x + n * (w * dt) * cos h + _ * cos h = x + ((n + 1 : ℕ) : ℝ) * (w * dt) * cos h + (lin _ dt (linRun (√p.stiffness) dt (e, u) n)).1 * cos h
      have : (linRun (√p.stiffness) dt (e, u) (n + 1)).2 = (lin (√p.stiffness) dt (linRun (√p.stiffness) dt (e, u) n)).2 := rfl
      rw [this]
      unfold lin
      push_cast
      ring
    · show (step p (straight x y h w dt n) dt (run p (straight x y h w dt) dt v n)).y = _
      rw [s3.y, s1]
      show y + n * (w * dt) * sin h + _ * sin h = y + ((n + 1 : ℕ) : ℝ) * (w * dt) * sin h + (lin _ dt (linRun (√p.stiffness) dt (e, u) n)).1 * sin h
      have : (linRun (√p.stiffness) dt (e, u) (n + 1)).2 = (lin (√p.stiffness) dt (linRun (√p.stiffness) dt (e, u) n)).2 := rfl
      rw [this]
      unfold lin
      push_cast
      ring

/-- Distance to the reference entity. -/
noncomputable def gap (v : Vehicle.Vehicle) (r : Target) : ℝ := √((v.x - r.x) ^ 2 + (v.y - r.y) ^ 2)

theorem gap_line {v : Vehicle.Vehicle} {r : Target} {h e : ℝ} (hv : OnLine v r.x r.y h e) : gap v r = |e| := by
  unfold gap
  rw [hv.x, hv.y, ← Real.sqrt_sq_eq_abs]
  congr 1
  linear_combination e ^ 2 * sin_sq_add_cos_sq h

/-- **The reference entity is reached**: on a straight line, the distance to a reference entity of constant speed and the difference of the speeds vanish in time, if the
time step is small enough for the stiffness and the speed stays in the limits. -/
theorem follows_partial {p : Params} {v : Vehicle.Vehicle} {x y h w dt m e u : ℝ} (hl : Live v m) (hv : OnLine v x y h e) (hu : v.speed = w + u)
    (hk : 0 < p.stiffness) (hst : 0 ≤ p.stabilizer) (hdt : 0 < dt) (hs : (√p.stiffness * dt) ^ 2 + 4 * (√p.stiffness * dt) < 4)
    (hlim : ∀ n, 0 ≤ w + (linRun (√p.stiffness) dt (e, u) n).2 ∧ w + (linRun (√p.stiffness) dt (e, u) n).2 ≤ m) :
    Tendsto (fun n => gap (run p (straight x y h w dt) dt v n) (straight x y h w dt n)) atTop (𝓝 0) ∧
    Tendsto (fun n => (run p (straight x y h w dt) dt v n).speed) atTop (𝓝 w) ∧ ∀ n, (run p (straight x y h w dt) dt v n).heading = h := by
  have hr := fun n => run_line hl hv hu hk.le hst n (fun k _ => hlim k)
  obtain ⟨t1, t2⟩ := lin_tendsto (Real.sqrt_pos.2 hk) hdt hs (e, u)
  refine ⟨?_, ?_, fun n => (hr n).1.heading⟩
  · refine Tendsto.congr (fun n => (gap_line (r := straight x y h w dt n) (hr n).1).symm) ?_
    simpa using t1.abs
  · refine Tendsto.congr (fun n => (hr n).2.1.symm) ?_
    simpa using t2.const_add w

/-- **From behind**: a vehicle that starts with the speed of the reference entity (or somewhat faster) behind it catches up and never passes it; the distance
never grows, if time step times root of the stiffness is at most one half and the limit of the speed allows it. -/
theorem catches_up {p : Params} {v : Vehicle.Vehicle} {x y h w dt m d u : ℝ} (hl : Live v m) (hv : OnLine v x y h (-d)) (hu : v.speed = w + u) (hw : 0 ≤ w)
    (hd : 0 ≤ d) (hu0 : 0 ≤ u) (hud : u ≤ √p.stiffness * d) (hm : w + √p.stiffness * d ≤ m)
    (hk : 0 < p.stiffness) (hst : 0 ≤ p.stabilizer) (hdt : 0 < dt) (hs : √p.stiffness * dt ≤ 1 / 2) :
    Tendsto (fun n => gap (run p (straight x y h w dt) dt v n) (straight x y h w dt n)) atTop (𝓝 0) ∧
    Tendsto (fun n => (run p (straight x y h w dt) dt v n).speed) atTop (𝓝 w) ∧
    ∀ n, ∃ e, OnLine (run p (straight x y h w dt) dt v n) (straight x y h w dt n).x (straight x y h w dt n).y h e ∧ e ≤ 0 ∧
      gap (run p (straight x y h w dt) dt v (n + 1)) (straight x y h w dt (n + 1)) ≤ gap (run p (straight x y h w dt) dt v n) (straight x y h w dt n) ∧
      w ≤ (run p (straight x y h w dt) dt v n).speed ∧ (run p (straight x y h w dt) dt v n).speed ≤ w + √p.stiffness * d := by
  have hc : 0 < √p.stiffness := Real.sqrt_pos.2 hk
  have hb := lin_behind hc hdt hs (s := (-d, u)) (by simpa using hd) hu0 (by simpa using hud)
  have hup : ∀ n, (linRun (√p.stiffness) dt (-d, u) n).2 ≤ √p.stiffness * d := by
    intro n
    obtain ⟨a1, -, -, -, a5⟩ := hb n
    have := mul_le_mul_of_nonneg_left a1 hc.le
    simp only at this
    linarith
  have hlim : ∀ n, 0 ≤ w + (linRun (√p.stiffness) dt (-d, u) n).2 ∧ w + (linRun (√p.stiffness) dt (-d, u) n).2 ≤ m := by
    intro n
    exact ⟨by linarith [(hb n).2.2.2.1], by linarith [hup n]⟩
  have hA : 0 < √p.stiffness * dt := mul_pos hc hdt
  obtain ⟨f1, f2, -⟩ := follows_partial hl hv hu hk hst hdt (by nlinarith) hlim
  have hr := fun n => run_line hl hv hu hk.le hst n (fun k _ => hlim k)
  refine ⟨f1, f2, fun n => ⟨_, (hr n).1, (hb n).2.2.1, ?_, ?_, ?_⟩⟩
  · rw [gap_line (r := straight x y h w dt (n + 1)) (hr (n + 1)).1, gap_line (r := straight x y h w dt n) (hr n).1,
      abs_of_nonpos (hb n).2.2.1, abs_of_nonpos (hb (n + 1)).2.2.1]
    linarith [(hb n).2.1]
  · rw [(hr n).2.1]
    linarith [(hb n).2.2.2.1]
  · rw [(hr n).2.1]
    linarith [hup n]

theorem linRun_scale (c dt δ e u : ℝ) (n : ℕ) :
    linRun c dt (δ * e, δ * u) n = (δ * (linRun c dt (e, u) n).1, δ * (linRun c dt (e, u) n).2) := by
  induction n with
  | zero => rfl
  | succ n ih =>
    show lin c dt (linRun c dt (δ * e, δ * u) n) = _
    rw [ih]
    show _ = (δ * (lin c dt (linRun c dt (e, u) n)).1, δ * (lin c dt (linRun c dt (e, u) n)).2)
    unfold lin
    ext <;> simp only <;> ring

theorem bounded_upto (f : ℕ → ℝ) (N : ℕ) : ∃ M, 0 < M ∧ ∀ n ≤ N, |f n| ≤ M := by
  induction N with
  | zero => exact ⟨|f 0| + 1, by positivity, fun n hn => by rw [Nat.le_zero.1 hn]; linarith⟩
  | succ N ih =>
    obtain ⟨M, hM, h⟩ := ih
    refine ⟨M + |f (N + 1)|, by positivity, fun n hn => ?_⟩
    rcases Nat.lt_or_ge N n with h' | h'
    · rw [show n = N + 1 by omega]
      linarith
    · linarith [h n h', abs_nonneg (f (N + 1))]

/-- With larger time steps the vehicle is not kept near the reference entity: for any number of steps there are a distance and a speed from which the distance grows by
the same factor above 1 in all these steps (until the limits of the speed are reached), on alternating sides. -/
theorem swings_fails {p : Params} {x y h w dt m : ℝ} (hk : 0 < p.stiffness) (hst : 0 ≤ p.stabilizer) (hdt : 0 < dt)
    (hs : (√p.stiffness * dt) ^ 2 + 4 * (√p.stiffness * dt) > 4) (hw : 0 < w) (hm : w < m) (N : ℕ) :
    ∃ e u q : ℝ, 0 < e ∧ q < -1 ∧ ∀ v : Vehicle.Vehicle, Live v m → OnLine v x y h e → v.speed = w + u →
      ∀ n ≤ N, OnLine (run p (straight x y h w dt) dt v n) (straight x y h w dt n).x (straight x y h w dt n).y h (q ^ n * e) := by
  obtain ⟨u, q, hq, hrun⟩ := lin_unstable (Real.sqrt_pos.2 hk) hdt hs 1
  obtain ⟨M, hM, hb⟩ := bounded_upto (fun n => (linRun (√p.stiffness) dt (1, u) n).2) N
  have hmin : 0 < min w (m - w) := lt_min hw (by linarith)
  have hδ : 0 < min w (m - w) / M := div_pos hmin hM
  refine ⟨min w (m - w) / M, min w (m - w) / M * u, q, hδ, hq, fun v hl hv hu n hn => ?_⟩
  have hsc := linRun_scale (√p.stiffness) dt (min w (m - w) / M) 1 u
  rw [mul_one] at hsc
  refine (fun this => ?_ : _ → OnLine _ _ _ _ _) (run_line (dt := dt) hl hv hu hk.le hst n ?_).1
  · rw [hsc, hrun] at this
    simpa [mul_comm] using this
  · intro k hk'
    rw [hsc]
    have hb' := hb k (hk'.trans hn)
    simp only at hb' ⊢
    have hle : |min w (m - w) / M * (linRun (√p.stiffness) dt (1, u) k).2| ≤ min w (m - w) := by
      rw [abs_mul, abs_of_pos hδ, div_mul_eq_mul_div, div_le_iff₀ hM]
      exact mul_le_mul_of_nonneg_left hb' hmin.le
    have := abs_le.1 hle
    have h1 := min_le_left w (m - w)
    have h2 := min_le_right w (m - w)
    constructor <;> linarith [this.1, this.2]

/-- The vehicle drives beside the axis of the reference entity in the same direction, `a` ahead and `b` to the left. -/
structure Beside (v : Vehicle.Vehicle) (r : Target) (a b : ℝ) : Prop where
  heading : v.heading = r.h
  x : v.x = r.x + a * cos r.h - b * sin r.h
  y : v.y = r.y + a * sin r.h + b * cos r.h

theorem errY_beside {p : Params} {r : Target} {v : Vehicle.Vehicle} {a b : ℝ} (h : Beside v r a b) : errY p r v = -b := by
  unfold errY Geom.lineAngleDist
  rw [h.x, h.y, h.heading]
  split <;> linear_combination -b * sin_sq_add_cos_sq r.h

theorem slip_sign {a : ℝ} (ha : |a| ≤ π / 3) : (0 < a → 0 < sin (Vehicle.slipOf a)) ∧ (a < 0 → sin (Vehicle.slipOf a) < 0) := by
  have hb := abs_le.1 ha
  have hp := pi_pos
  unfold Vehicle.slipOf
  constructor
  · intro h
    have ht := tan_pos_of_pos_of_lt_pi_div_two h (by linarith)
    have h0 : 0 < arctan (15 / 100 * tan a) := arctan_pos.2 (by positivity)
    exact sin_pos_of_pos_of_lt_pi h0 (by linarith [arctan_lt_pi_div_two (15 / 100 * tan a)])
  · intro h
    have ht := tan_neg_of_neg_of_pi_div_two_lt h (by linarith)
    have h0 : arctan (15 / 100 * tan a) < 0 := arctan_lt_zero.2 (by linarith)
    exact sin_neg_of_neg_of_neg_pi_lt h0 (by linarith [neg_pi_div_two_lt_arctan (15 / 100 * tan a)])

/-- **Towards the axis of the reference entity**: a vehicle that drives forward beside a reference entity that drives straight turns its wheels, at most by 60 degrees,
towards the axis of the reference entity, moves and turns to that side in this step if its speed stays positive. -/
theorem towards {p : Params} {r : Target} {v : Vehicle.Vehicle} {dt m a b : ℝ} (hl : Live v m) (h : Beside v r a b) (hr : r.hRate = 0)
    (hc : 0 < p.crossGain) (hdt : 0 < dt) (hL : 0 < v.length) :
    |(step p r dt v).wheelAngle| ≤ π / 3 ∧
    (b < 0 → 0 < (step p r dt v).wheelAngle) ∧ (0 < b → (step p r dt v).wheelAngle < 0) ∧
    (0 < (step p r dt v).speed → ∃ a' b', (step p r dt v).x = r.x + a' * cos r.h - b' * sin r.h ∧ (step p r dt v).y = r.y + a' * sin r.h + b' * cos r.h ∧
      (b < 0 → b < b' ∧ 0 < (step p r dt v).headingDot) ∧ (0 < b → b' < b ∧ (step p r dt v).headingDot < 0)) := by
  obtain ⟨a1, a2, a3, a4, a5, a6, a7, -⟩ := step_live (p := p) (r := r) (dt := dt) hl
  have hm : Vehicle.maxAngle = π / 3 := by
    unfold Vehicle.maxAngle
    ring
  have hm0 := Vehicle.maxAngle_pos
  have hst : steering p (errY p r v) (errH r v * Geom.sign v.speed) v.speed (curvature r) = Geom.atan2 (p.crossGain * -b) (p.stabilizer + v.speed) := by
    unfold steering errH
    rw [errY_beside h, curvature_zero hr, h.heading, sub_self, intervalPI_zero]
    simp
  rw [hst] at a2
  have hw : |(step p r dt v).wheelAngle| ≤ π / 3 := by
    rw [a2, ← hm]
    obtain ⟨c1, c2⟩ := Vehicle.clamp_mem (x := Geom.atan2 (p.crossGain * -b) (p.stabilizer + v.speed)) (show -Vehicle.maxAngle ≤ Vehicle.maxAngle by linarith)
    exact abs_le.2 ⟨c1, c2⟩
  have hpos : b < 0 → 0 < (step p r dt v).wheelAngle := by
    intro hb
    have := atan2_pos (x := p.stabilizer + v.speed) (mul_pos hc (neg_pos.2 hb))
    rw [a2]
    unfold Vehicle.clamp
    exact lt_min hm0 (lt_max_of_lt_right this)
  have hneg : 0 < b → (step p r dt v).wheelAngle < 0 := by
    intro hb
    have := atan2_neg (x := p.stabilizer + v.speed) (y := p.crossGain * -b) (by nlinarith [mul_pos hc hb])
    rw [a2]
    unfold Vehicle.clamp
    exact min_lt_of_right_lt (max_lt (by linarith) this)
  refine ⟨hw, hpos, hneg, fun hs => ?_⟩
  generalize hS : (step p r dt v).speed = S at *
  generalize hA : Vehicle.slipOf (step p r dt v).wheelAngle = A at *
  obtain ⟨g1, g2⟩ := slip_sign hw
  rw [hA] at g1 g2
  rw [h.heading] at a5 a6
  refine ⟨a + dt * S * cos A, b + dt * S * sin A, ?_, ?_, ?_, ?_⟩
  · rw [a5, h.x, cos_add]
    ring
  · rw [a6, h.y, sin_add]
    ring
  · intro hb
    have := g1 (hpos hb)
    refine ⟨by nlinarith [mul_pos (mul_pos hdt hs) this], ?_⟩
    rw [a3]
    exact div_pos (mul_pos hs this) (by positivity)
  · intro hb
    have := g2 (hneg hb)
    refine ⟨by nlinarith [mul_pos (mul_pos hdt hs) (neg_pos.2 this)], ?_⟩
    rw [a3]
    exact div_neg_of_neg_of_pos (mul_neg_of_pos_of_neg hs this) (by positivity)

/-- A vehicle that drives backwards faster than the stabilizer, exactly where its reference entity is and as fast, gets its wheels turned to the left end. -/
theorem reverse_fails {p : Params} {r : Target} {v : Vehicle.Vehicle} {dt m : ℝ} (hl : Live v m) (h : OnLine v r.x r.y r.h 0) (hr : r.hRate = 0)
    (hv : p.stabilizer + v.speed < 0) : (step p r dt v).wheelAngle = π / 3 := by
  obtain ⟨-, a2, -⟩ := step_live (p := p) (r := r) (dt := dt) hl
  have hm : Vehicle.maxAngle = π / 3 := by
    unfold Vehicle.maxAngle
    ring
  rw [a2, steering_line h hr, atan2_back hv, hm, Vehicle.clamp_hi] <;> linarith [pi_pos]

/-- The maximum acceleration of the vehicle is not respected: a standing vehicle can have its maximum speed after one step. -/
theorem acceleration_fails {p : Params} {v : Vehicle.Vehicle} {dt m : ℝ} (hl : Live v m) (hm : 0 ≤ m) (h0 : v.speed = 0) (hk : 0 < p.stiffness) (hdt : 0 < dt) :
    ∃ r : Target, r.speed = 0 ∧ (step p r dt v).speed = m := by
  refine ⟨⟨v.x + m / (p.stiffness * dt) * cos v.heading, v.y + m / (p.stiffness * dt) * sin v.heading, v.heading, 0, 0⟩, rfl, ?_⟩
  obtain ⟨a1, -⟩ := step_live (p := p) (r := ⟨v.x + m / (p.stiffness * dt) * cos v.heading, v.y + m / (p.stiffness * dt) * sin v.heading, v.heading, 0, 0⟩)
    (dt := dt) hl
  have he : errX ⟨v.x + m / (p.stiffness * dt) * cos v.heading, v.y + m / (p.stiffness * dt) * sin v.heading, v.heading, 0, 0⟩ v = -(m / (p.stiffness * dt)) := by
    unfold errX Geom.lineAngleDist
    rw [sin_add_pi_div_two, cos_add_pi_div_two]
    linear_combination -(m / (p.stiffness * dt)) * sin_sq_add_cos_sq v.heading
  rw [a1, he, h0]
  have : (0 : ℝ) + acceleration p.stiffness (-(m / (p.stiffness * dt))) (0 - 0) * dt = m := by
    unfold acceleration
    have := hk.ne'
    field_simp
    ring
  rw [this]
  exact Vehicle.clamp_id (by linarith) le_rfl

/-- A vehicle 10 m behind a reference entity at 20 m/s, stiffness 4 and a time step of 0.1 s. -/
example : ∃ v : Vehicle.Vehicle, Live v 70 ∧ OnLine v 0 0 0 (-10) ∧ v.speed = 20 + 0 ∧ (20 : ℝ) + √4 * 10 ≤ 70 ∧ √4 * (1 / 10) ≤ (1 / 2 : ℝ) := by
  have h4 : √(4 : ℝ) = 2 := by
    rw [show (4 : ℝ) = 2 ^ 2 by norm_num]
    exact Real.sqrt_sq (by norm_num)
  refine ⟨Vehicle.new (-10) 0 0 5 20, ⟨rfl, rfl, rfl⟩, ⟨rfl, ⟨le_rfl, two_pi_pos⟩, ?_, ?_⟩, ?_, ?_, ?_⟩
  · simp [Vehicle.new]
  · simp [Vehicle.new]
  · simp [Vehicle.new]
  · rw [h4]; norm_num
  · rw [h4]; norm_num

/-- With stiffness 100 a time step of 0.1 s is too large. -/
example : (√(100 : ℝ) * (1 / 10)) ^ 2 + 4 * (√100 * (1 / 10)) > 4 := by
  have : √(100 : ℝ) = 10 := by
    rw [show (100 : ℝ) = 10 ^ 2 by norm_num]
    exact Real.sqrt_sq (by norm_num)
  rw [this]
  norm_num

end Verif.Ref

import Verif.Sloppy.Model
import Mathlib.Tactic.Linarith
import Mathlib.Tactic.Positivity
/-
Theorems about the sloppy driver.
-/
namespace Verif.Sloppy
open Real

/-- Random numbers and time step inside their limits (ControllerSloppyDriver.cpp:83, 88). -/
def Input.Ok (i : Input) : Prop := 1 / 2 ≤ i.r1 ∧ i.r1 ≤ 3 / 2 ∧ -(35 / 100) ≤ i.r2 ∧ i.r2 ≤ 35 / 100 ∧ 0 ≤ i.dt

/-- A speed inside the band around `v`. -/
def Band (sloppiness v x : ℝ) : Prop := (1 - 35 / 100 * sloppiness) * v ≤ x ∧ x ≤ (1 + 35 / 100 * sloppiness) * v

/-- The invariant. -/
structure Inv (sl v : ℝ) (s : Long) : Prop where
  ref : s.ref = v
  factor : 1 - 35 / 100 * sl ≤ s.factor ∧ s.factor ≤ 1 + 35 / 100 * sl
  init : Band sl v s.init
  start : s.timer.start ≤ s.time
  duration : 1 / 1000000 < s.timer.duration

theorem notice_inv {sl v speed dt : ℝ} {s : Long} (h : Inv sl v s) (hc : s.cur = speed) (hdt : 0 ≤ dt) : Inv sl v (notice dt speed s) := by
  refine ⟨?_, h.factor, h.init, ?_, h.duration⟩
  · show (if |speed - s.cur| > 1 / 1000 then speed else s.ref) = v
    rw [hc, sub_self, abs_zero, if_neg (by norm_num), h.ref]
  · show s.timer.start ≤ s.time + dt
    linarith [h.start]

theorem band_factor {sl v f : ℝ} (hv : 0 ≤ v) (h : 1 - 35 / 100 * sl ≤ f ∧ f ≤ 1 + 35 / 100 * sl) : Band sl v (v * f) :=
  ⟨by nlinarith [mul_le_mul_of_nonneg_right h.1 hv], by nlinarith [mul_le_mul_of_nonneg_right h.2 hv]⟩

theorem new_factor {sl r2 : ℝ} (h0 : 0 ≤ sl) (h1 : -(35 / 100) ≤ r2) (h2 : r2 ≤ 35 / 100) :
    1 - 35 / 100 * sl ≤ 1 + sl * r2 ∧ 1 + sl * r2 ≤ 1 + 35 / 100 * sl :=
  ⟨by nlinarith [mul_le_mul_of_nonneg_left h1 h0], by nlinarith [mul_le_mul_of_nonneg_left h2 h0]⟩

theorem restart_inv {sl v r1 r2 : ℝ} {s : Long} (h : Inv sl v s) (hv : 0 ≤ v) (h0 : 0 ≤ sl) (hr1 : 1 / 2 ≤ r1) (h1 : -(35 / 100) ≤ r2) (h2 : r2 ≤ 35 / 100) :
    Inv sl v (restart sl r1 r2 s) ∧ (restart sl r1 r2 s).timer.expired (restart sl r1 r2 s).time = false := by
  unfold restart
  split
  · refine ⟨⟨h.ref, new_factor h0 h1 h2, ?_, le_refl _, ?_⟩, ?_⟩
    · show Band sl v (s.ref * s.factor)
      rw [h.ref]
      exact band_factor hv h.factor
    · show 1 / 1000000 < 3 * r1
      linarith
    · simp only [Timer.expired, sub_self, decide_eq_false_iff_not, not_lt, gt_iff_lt]
      linarith
  · rename_i hn
    exact ⟨h, by simpa using hn⟩

theorem target_band {sl v : ℝ} {s : Long} (h : Inv sl v s) (hv : 0 ≤ v) (h0 : 0 ≤ sl) (h1 : sl ≤ 1) (hn : s.timer.expired s.time = false) :
    Band sl v (target s) := by
  have hd := h.duration
  simp only [Timer.expired, decide_eq_false_iff_not, not_lt, gt_iff_lt] at hn
  have hd0 : 0 < s.timer.duration := lt_trans (by norm_num) hd
  have hw0 : 0 ≤ s.timer.elapsed s.time / s.timer.duration := div_nonneg (by unfold Timer.elapsed; linarith [h.start]) hd0.le
  have hw1 : s.timer.elapsed s.time / s.timer.duration ≤ 1 := by
    rw [div_le_one hd0]
    unfold Timer.elapsed
    linarith
  generalize hw : s.timer.elapsed s.time / s.timer.duration = w at hw0 hw1
  obtain ⟨i1, i2⟩ := h.init
  obtain ⟨f1, f2⟩ := band_factor hv h.factor
  have e : s.factor * s.ref = v * s.factor := by rw [h.ref, mul_comm]
  have a : 0 ≤ 1 - w := by linarith
  have lo : 0 ≤ (1 - 35 / 100 * sl) * v := mul_nonneg (by linarith) hv
  have b1 : (1 - 35 / 100 * sl) * v ≤ s.init * (1 - w) + s.factor * s.ref * w := by
    rw [e]
    nlinarith [mul_le_mul_of_nonneg_right i1 a, mul_le_mul_of_nonneg_right f1 hw0]
  have b2 : s.init * (1 - w) + s.factor * s.ref * w ≤ (1 + 35 / 100 * sl) * v := by
    rw [e]
    nlinarith [mul_le_mul_of_nonneg_right i2 a, mul_le_mul_of_nonneg_right f2 hw0]
  unfold target
  simp only [hw]
  rw [max_eq_left (le_trans lo b1)]
  exact ⟨b1, b2⟩

theorem longStep_inv {sl v speed : ℝ} {s : Long} {i : Input} (h : Inv sl v s) (hc : s.cur = speed) (hv : 0 ≤ v) (h0 : 0 ≤ sl) (h1 : sl ≤ 1) (hi : i.Ok) :
    Inv sl v (longStep sl i.r1 i.r2 i.dt speed s).1 ∧ Band sl v (longStep sl i.r1 i.r2 i.dt speed s).2.1 ∧
    (longStep sl i.r1 i.r2 i.dt speed s).1.cur = (longStep sl i.r1 i.r2 i.dt speed s).2.1 := by
  obtain ⟨a, b⟩ := restart_inv (r1 := i.r1) (r2 := i.r2) (notice_inv (dt := i.dt) h hc hi.2.2.2.2) hv h0 hi.1 hi.2.2.1 hi.2.2.2.1
  exact ⟨⟨a.ref, a.factor, a.init, a.start, a.duration⟩, target_band a hv h0 h1 b, rfl⟩

theorem longRun_band {sl v : ℝ} (hv : 0 ≤ v) (h0 : 0 ≤ sl) (h1 : sl ≤ 1) : ∀ (l : List Input) {s : Long} {speed : ℝ}, Inv sl v s → s.cur = speed → (∀ i ∈ l, i.Ok) →
    (∀ x ∈ (longRun sl s speed l).1, Band sl v x) ∧ 0 ≤ (longRun sl s speed l).2 ∧ (longRun sl s speed l).2 ≤ (1 + 35 / 100 * sl) * v * (l.map (·.dt)).sum
  | [], _, _, _, _, _ => by simp [longRun]
  | i :: l, s, speed, h, hc, hi => by
    have hio := hi i (by simp)
    obtain ⟨a, b, c⟩ := longStep_inv h hc hv h0 h1 hio
    obtain ⟨r1, r2, r3⟩ := longRun_band hv h0 h1 l a c (fun j hj => hi j (by simp [hj]))
    have hdt := hio.2.2.2.2
    have lo : 0 ≤ (1 - 35 / 100 * sl) * v := mul_nonneg (by linarith) hv
    have hx : 0 ≤ (longStep sl i.r1 i.r2 i.dt speed s).2.1 := le_trans lo b.1
    have m : 0 ≤ (longStep sl i.r1 i.r2 i.dt speed s).2.2 ∧ (longStep sl i.r1 i.r2 i.dt speed s).2.2 ≤ (1 + 35 / 100 * sl) * v * i.dt := by
      have hy : 0 ≤ (1 + 35 / 100 * sl) * v * i.dt := mul_nonneg (mul_nonneg (by linarith) hv) hdt
      show 0 ≤ (if |(longStep sl i.r1 i.r2 i.dt speed s).2.1| > 1 / 1000000 then (longStep sl i.r1 i.r2 i.dt speed s).2.1 * i.dt else 0) ∧
        (if |(longStep sl i.r1 i.r2 i.dt speed s).2.1| > 1 / 1000000 then (longStep sl i.r1 i.r2 i.dt speed s).2.1 * i.dt else 0) ≤ _
      split
      · exact ⟨mul_nonneg hx hdt, mul_le_mul_of_nonneg_right b.2 hdt⟩
      · exact ⟨le_rfl, hy⟩
    refine ⟨?_, ?_, ?_⟩
    · intro x hx
      rcases List.mem_cons.1 hx with rfl | hx
      · exact b
      · exact r1 x hx
    · exact add_nonneg m.1 r2
    · show (longStep sl i.r1 i.r2 i.dt speed s).2.2 + _ ≤ _
      rw [List.map_cons, List.sum_cons, mul_add]
      exact add_le_add m.2 r3

/-- **The speed stays near the one at activation**: with a sloppiness from 0 to 1, as long as nobody else sets the speed, it is always at most 35 % times the
sloppiness away from the speed at activation, whenever the controller is activated and whatever the random numbers and time steps; the distance driven is at
most what the highest of these speeds gives. -/
theorem speed_band {sl v time : ℝ} (hv : 0 ≤ v) (h0 : 0 ≤ sl) (h1 : sl ≤ 1) (ht : 0 ≤ time) (l : List Input) (hl : ∀ i ∈ l, i.Ok) :
    (∀ x ∈ (longRun sl (activateLong time v) v l).1, (1 - 35 / 100 * sl) * v ≤ x ∧ x ≤ (1 + 35 / 100 * sl) * v) ∧
    0 ≤ (longRun sl (activateLong time v) v l).2 ∧ (longRun sl (activateLong time v) v l).2 ≤ (1 + 35 / 100 * sl) * v * (l.map (·.dt)).sum := by
  have hi : Inv sl v (activateLong time v) := by
    refine ⟨rfl, ⟨?_, ?_⟩, ⟨?_, ?_⟩, ht, by norm_num [activateLong]⟩
    · show 1 - 35 / 100 * sl ≤ 1
      linarith
    · show (1 : ℝ) ≤ 1 + 35 / 100 * sl
      linarith
    · show (1 - 35 / 100 * sl) * v ≤ v
      nlinarith [mul_nonneg h0 hv]
    · show v ≤ (1 + 35 / 100 * sl) * v
      nlinarith [mul_nonneg h0 hv]
  exact longRun_band hv h0 h1 l hi rfl hl

/-- **A speed set by somebody else is adopted**: if the speed is changed by more than 1 mm/s, and the timer has run out in that step, the speed is in
the band around the new speed from then on. -/
theorem speed_adopted {sl v : ℝ} {s : Long} {i : Input} (hv : 0 ≤ v) (h0 : 0 ≤ sl) (h1 : sl ≤ 1) (hi : i.Ok)
    (hf : 1 - 35 / 100 * sl ≤ s.factor ∧ s.factor ≤ 1 + 35 / 100 * sl) (hc : |v - s.cur| > 1 / 1000)
    (he : s.timer.expired (s.time + i.dt) = true) (l : List Input) (hl : ∀ j ∈ l, j.Ok) :
    ∀ x ∈ (longRun sl s v (i :: l)).1, (1 - 35 / 100 * sl) * v ≤ x ∧ x ≤ (1 + 35 / 100 * sl) * v := by
  have e : restart sl i.r1 i.r2 (notice i.dt v s) =
      { notice i.dt v s with ref := v, timer := ⟨s.time + i.dt, 3 * i.r1⟩, init := v * s.factor, factor := 1 + sl * i.r2 } := by
    have hr : (notice i.dt v s).ref = v := if_pos hc
    have : (notice i.dt v s).timer.expired (notice i.dt v s).time = true := he
    rw [restart, if_pos this, hr]
    rfl
  have inv : Inv sl v (restart sl i.r1 i.r2 (notice i.dt v s)) := by
    rw [e]
    refine ⟨rfl, new_factor h0 hi.2.2.1 hi.2.2.2.1, band_factor hv hf, le_refl _, ?_⟩
    show 1 / 1000000 < 3 * i.r1
    linarith [hi.1]
  have hn : (restart sl i.r1 i.r2 (notice i.dt v s)).timer.expired (restart sl i.r1 i.r2 (notice i.dt v s)).time = false := by
    rw [e]
    have hq : s.time + i.dt - (s.time + i.dt) ≤ 3 * i.r1 - 1 / 1000000 := by linarith [hi.1]
    show decide _ = false
    exact decide_eq_false (not_lt.2 hq)
  have b := target_band inv hv h0 h1 hn
  intro x hx
  rcases List.mem_cons.1 hx with rfl | hx
  · exact b
  · exact (longRun_band hv h0 h1 l (s := (longStep sl i.r1 i.r2 i.dt v s).1) ⟨inv.ref, inv.factor, inv.init, inv.start, inv.duration⟩ rfl hl).1 x hx

example : (⟨1, 1 / 10, 1 / 100⟩ : Input).Ok := by
  refine ⟨?_, ?_, ?_, ?_, ?_⟩ <;> norm_num

/-! ### Sideways -/

/-- The offset aimed at is between 0 and 7.5 m times the square of the sloppiness. -/
structure LInv (sl : ℝ) (s : Lat) : Prop where
  fuzz0 : 0 ≤ s.fuzz0 ∧ s.fuzz0 ≤ 15 / 2 * sl ^ 2
  fuzz : 0 ≤ s.fuzz ∧ s.fuzz ≤ 15 / 2 * sl ^ 2
  start : s.timer.start ≤ s.time
  duration : 1 / 1000000 < s.timer.duration

theorem restartLat_inv {sl r1 r2 dt : ℝ} {s : Lat} (h : LInv sl s) (h0 : 0 ≤ sl) (h1 : sl ≤ 1) (a1 : 1 / 2 ≤ r1) (a2 : r1 ≤ 3 / 2) (b1 : 1 / 2 ≤ r2)
    (hdt : 0 ≤ dt) : LInv sl (restartLat sl r1 r2 { s with time := s.time + dt }) ∧
    (restartLat sl r1 r2 { s with time := s.time + dt }).timer.expired (restartLat sl r1 r2 { s with time := s.time + dt }).time = false := by
  unfold restartLat
  split
  · refine ⟨⟨h.fuzz, ?_, le_refl _, ?_⟩, ?_⟩
    · show 0 ≤ 5 * sl * min sl 1 * r1 ∧ 5 * sl * min sl 1 * r1 ≤ 15 / 2 * sl ^ 2
      rw [min_eq_left h1]
      have : 0 ≤ sl * sl := mul_nonneg h0 h0
      constructor <;> nlinarith [mul_le_mul_of_nonneg_left a2 this, mul_le_mul_of_nonneg_left a1 this]
    · show 1 / 1000000 < 3 / 2 * r2
      linarith
    · simp only [Timer.expired, sub_self, decide_eq_false_iff_not, not_lt, gt_iff_lt]
      linarith
  · rename_i hn
    refine ⟨⟨h.fuzz0, h.fuzz, ?_, h.duration⟩, by simpa using hn⟩
    show s.timer.start ≤ s.time + dt
    linarith [h.start]

theorem fuzz_range {sl : ℝ} {s : Lat} (h : LInv sl s) (hn : s.timer.expired s.time = false) : 0 ≤ fuzzNow s ∧ fuzzNow s ≤ 15 / 2 * sl ^ 2 := by
  have hd := h.duration
  simp only [Timer.expired, decide_eq_false_iff_not, not_lt, gt_iff_lt] at hn
  have hd0 : 0 < s.timer.duration := lt_trans (by norm_num) hd
  have hw0 : 0 ≤ s.timer.elapsed s.time / s.timer.duration := div_nonneg (by unfold Timer.elapsed; linarith [h.start]) hd0.le
  have hw1 : s.timer.elapsed s.time / s.timer.duration ≤ 1 := by
    rw [div_le_one hd0]
    unfold Timer.elapsed
    linarith
  unfold fuzzNow
  rw [mul_div_assoc]
  generalize s.timer.elapsed s.time / s.timer.duration = w at hw0 hw1
  obtain ⟨⟨p1, p2⟩, ⟨q1, q2⟩, _, _⟩ := h
  have a : 0 ≤ 1 - w := by linarith
  constructor
  · nlinarith [mul_nonneg p1 a, mul_nonneg q1 hw0]
  · nlinarith [mul_le_mul_of_nonneg_right p2 a, mul_le_mul_of_nonneg_right q2 hw0]

/-- **The offset aimed at**: in every step, 0 to 7.5 m times the square of the sloppiness, to one side only; and stays so. -/
theorem fuzz_step {sl r1 r2 dt speed road : ℝ} {override : Bool} {s : Lat} (h : LInv sl s) (h0 : 0 ≤ sl) (h1 : sl ≤ 1) (a1 : 1 / 2 ≤ r1) (a2 : r1 ≤ 3 / 2)
    (b1 : 1 / 2 ≤ r2) (hdt : 0 ≤ dt) :
    (0 ≤ fuzzNow (latStep override sl r1 r2 dt speed road s).1 ∧ fuzzNow (latStep override sl r1 r2 dt speed road s).1 ≤ 15 / 2 * sl ^ 2) ∧
    LInv sl (latStep override sl r1 r2 dt speed road s).1 := by
  obtain ⟨i, e⟩ := restartLat_inv (r2 := r2) h h0 h1 a1 a2 b1 hdt
  have key : ∀ q : Lat, q.fuzz0 = (restartLat sl r1 r2 { s with time := s.time + dt }).fuzz0 → q.fuzz = (restartLat sl r1 r2 { s with time := s.time + dt }).fuzz →
      q.timer = (restartLat sl r1 r2 { s with time := s.time + dt }).timer → q.time = (restartLat sl r1 r2 { s with time := s.time + dt }).time →
      (0 ≤ fuzzNow q ∧ fuzzNow q ≤ 15 / 2 * sl ^ 2) ∧ LInv sl q := by
    intro q k1 k2 k3 k4
    have hq : LInv sl q := ⟨by rw [k1]; exact i.fuzz0, by rw [k2]; exact i.fuzz, by rw [k3, k4]; exact i.start, by rw [k3]; exact i.duration⟩
    exact ⟨fuzz_range hq (by rw [k3, k4]; exact e), hq⟩
  unfold latStep
  simp only
  split
  · exact key _ rfl rfl rfl rfl
  · exact key _ rfl rfl rfl rfl

/-- Straight in the lane of the road's direction with nothing aimed at. -/
def Straight (s : Lat) : Prop := s.t = 0 ∧ s.h = 0 ∧ s.hRelative = 0 ∧ s.fuzz0 = 0 ∧ s.fuzz = 0

/-- **Without sloppiness nothing happens sideways** to a vehicle that is aligned with a road (in override mode: a road in the direction of the x axis): it is not moved
and not turned, ever. -/
theorem straight_partial {r1 r2 dt speed road : ℝ} {override : Bool} {s : Lat} (h : Straight s) (hr : override = true → road = 0) :
    (latStep override 0 r1 r2 dt speed road s).2 = 0 ∧ Straight (latStep override 0 r1 r2 dt speed road s).1 := by
  obtain ⟨h1, h2, h3, h4, h5⟩ := h
  set q := restartLat 0 r1 r2 { s with time := s.time + dt } with hq
  have e : q.t = 0 ∧ q.h = 0 ∧ q.hRelative = 0 ∧ q.fuzz0 = 0 ∧ q.fuzz = 0 := by
    rw [hq]
    unfold restartLat
    split
    · exact ⟨h1, h2, h3, h5, by simp⟩
    · exact ⟨h1, h2, h3, h4, h5⟩
  obtain ⟨e1, e2, e3, e4, e5⟩ := e
  have hp : ¬ ((0 : ℝ) > π) := not_lt.2 pi_pos.le
  have ht : turn override dt speed q = 0 := by
    unfold turn fuzzNow
    rw [e1, e2, e3, e4, e5]
    simp [hp]
  unfold latStep
  simp only [← hq, ht, e1, e2, e3, add_zero, sin_zero, mul_zero]
  split
  · refine ⟨rfl, rfl, rfl, ?_, e4, e5⟩
    cases override with
    | false => rfl
    | true => simp [hr rfl]
  · exact ⟨rfl, e1, e2, e3, e4, e5⟩

/-- A vehicle that drives straight in a lane against the direction of the road (angle to the road: half a turn) is turned away from its lane, in both modes,
even without sloppiness. -/
theorem left_lane_fails {r1 r2 dt speed road : ℝ} (override : Bool) (hdt : 0 < dt) (hv : 1 / 1000000 < speed) (he : dt ≤ 3 / 2 - 1 / 1000000) :
    (latStep override 0 r1 r2 dt speed road (activateLat 0 π)).1.h = π - π / 20 * dt * speed := by
  have hx : restartLat 0 r1 r2 { activateLat 0 π with time := (activateLat 0 π).time + dt } = { activateLat 0 π with time := (activateLat 0 π).time + dt } := by
    unfold restartLat
    rw [if_neg]
    simp only [Timer.expired, activateLat, decide_eq_true_eq, not_lt, gt_iff_lt]
    linarith
  unfold latStep
  simp only [hx, if_pos (gt_iff_lt.2 hv)]
  unfold turn fuzzNow
  cases override <;> simp [activateLat] <;> ring

/-- In override mode the angle to the road is used as a heading in the world: on a road with another direction, a vehicle straight in its lane gets turned by
that direction in the first step. -/
theorem override_heading_fails {r1 r2 dt speed road : ℝ} (hv : 1 / 1000000 < speed) (hdt : 0 ≤ dt) (he : dt ≤ 3 / 2 - 1 / 1000000) :
    (latStep true 0 r1 r2 dt speed road (activateLat 0 0)).1.hRelative = -road := by
  have hx : restartLat 0 r1 r2 { activateLat 0 0 with time := (activateLat 0 0).time + dt } = { activateLat 0 0 with time := (activateLat 0 0).time + dt } := by
    unfold restartLat
    rw [if_neg]
    simp only [Timer.expired, activateLat, decide_eq_true_eq, not_lt, gt_iff_lt]
    linarith
  have hp : ¬ ((0 : ℝ) > π) := not_lt.2 pi_pos.le
  unfold latStep
  simp only [hx, if_pos (gt_iff_lt.2 hv)]
  unfold turn fuzzNow
  simp [activateLat, hp]

example : Straight (activateLat 0 0) := ⟨rfl, rfl, rfl, rfl, rfl⟩
example : LInv 1 (activateLat 0 0) := by
  refine ⟨⟨?_, ?_⟩, ⟨?_, ?_⟩, ?_, ?_⟩ <;> norm_num [activateLat]

end Verif.Sloppy

import Verif.Loom.Model
import Verif.Vehicle.Theorems
/-
Theorems about the looming controller.
-/
namespace Verif.Loom
open Vehicle (clamp small drive dragged pedalSpeed driveAnalog)

/-! ### The vehicle in front -/

/-- An entity that counts: linked lane, ahead, not far to the side. -/
def Counts (front : ℝ) (o : Other) : Prop := o.found ∧ o.lane = 0 ∧ 0 < gapTo front o ∧ gapTo front o < 10000000000 ∧ |o.dt| < 5

theorem choose_spec (front : ℝ) (q : Search) (h1 : q.tangent = false) (h2 : q.intersection = false) : ∀ (os : List Other) (l : Lead), minGap l ≤ 10000000000 →
    minGap (choose front q l os) ≤ minGap l ∧ (∀ o ∈ os, Counts front o → minGap (choose front q l os) ≤ gapTo front o) ∧
    (choose front q l os = l ∨ ∃ o ∈ os, Counts front o ∧ choose front q l os = some (gapTo front o, o.speed))
  | [], l, _ => ⟨le_rfl, by simp, Or.inl rfl⟩
  | o :: os, l, hl => by
    unfold choose
    by_cases hc : o.found ∧ o.lane = 0 ∧ gapTo front o > 0 ∧ gapTo front o < minGap l ∧ |o.dt| < 5
    · rw [if_pos hc, if_neg (by simp [h1, h2])]
      have ho : Counts front o := ⟨hc.1, hc.2.1, hc.2.2.1, hc.2.2.2.1.trans_le hl, hc.2.2.2.2⟩
      obtain ⟨a, b, c⟩ := choose_spec front q h1 h2 os (some (gapTo front o, o.speed)) (hc.2.2.2.1.le.trans hl)
      have a' : minGap (choose front q (some (gapTo front o, o.speed)) os) ≤ gapTo front o := a
      refine ⟨a'.trans hc.2.2.2.1.le, ?_, ?_⟩
      · intro x hx hxc
        rcases List.mem_cons.1 hx with rfl | hx
        · exact a'
        · exact b x hx hxc
      · right
        rcases c with c | ⟨x, hx, hc'⟩
        · exact ⟨o, by simp, ho, c⟩
        · exact ⟨x, by simp [hx], hc'⟩
    · rw [if_neg hc]
      obtain ⟨a, b, c⟩ := choose_spec front q h1 h2 os l hl
      refine ⟨a, ?_, ?_⟩
      · intro x hx hxc
        rcases List.mem_cons.1 hx with rfl | hx
        · refine a.trans (not_lt.1 (fun hlt => hc ⟨hxc.1, hxc.2.1, hxc.2.2.1, hlt, hxc.2.2.2.2⟩))
        · exact b x hx hxc
      · rcases c with c | ⟨x, hx, hc'⟩
        · exact Or.inl c
        · exact Or.inr ⟨x, by simp [hx], hc'⟩

/-- **The nearest entity ahead in the lane is followed**, whatever the order of the entities, if there is neither a tangent point nor an intersection ahead. -/
theorem nearest_partial (front : ℝ) (q : Search) (h1 : q.tangent = false) (h2 : q.intersection = false) (os : List Other) :
    (choose front q none os = none ∧ ∀ o ∈ os, ¬ Counts front o) ∨
    ∃ o ∈ os, Counts front o ∧ choose front q none os = some (gapTo front o, o.speed) ∧ ∀ x ∈ os, Counts front x → gapTo front o ≤ gapTo front x := by
  obtain ⟨-, b, c⟩ := choose_spec front q h1 h2 os none le_rfl
  rcases c with c | ⟨o, ho, hc, e⟩
  · refine Or.inl ⟨c, fun o ho hc => ?_⟩
    have := b o ho hc
    rw [c] at this
    exact absurd this (not_le.2 hc.2.2.2.1)
  · refine Or.inr ⟨o, ho, hc, e, fun x hx hxc => ?_⟩
    have := b x hx hxc
    rw [e] at this
    exact this

/-- An entity in the lane, `ds` ahead. -/
noncomputable def ahead (ds speed : ℝ) : Other := ⟨true, ds, 0, 0, true, 4, 0, speed⟩

/-- In a curve (tangent point 20 m ahead), of two vehicles 50 m and 12 m ahead the one that comes first in the list of entities is followed, though it is
the farther one: at 15 m/s, with the standing vehicle 8 m in front of its bumper, the controller accelerates. -/
theorem nearest_fails :
    choose 2 ⟨true, 20, false, 0⟩ none [ahead 54 15, ahead 12 0] = some (50, 15) ∧ Counts 2 (ahead 12 0) ∧ gapTo 2 (ahead 12 0) = 8 ∧
    accel 15 (3 / 2) 15 (some (50, 15)) > 0 ∧ accel 15 (3 / 2) 15 (some (8, 0)) < 0 := by
  have g1 : gapTo 2 (ahead 54 15) = 50 := by norm_num [gapTo, ahead]
  have g2 : gapTo 2 (ahead 12 0) = 8 := by norm_num [gapTo, ahead]
  refine ⟨?_, ⟨rfl, rfl, by rw [g2]; norm_num, by rw [g2]; norm_num, by norm_num [ahead]⟩, g2, ?_, ?_⟩
  · unfold choose
    rw [g1, if_pos ⟨rfl, rfl, by norm_num, by norm_num [minGap], by norm_num [ahead]⟩, if_pos ⟨by norm_num, Or.inr ⟨rfl, by norm_num⟩⟩]
    rfl
  · norm_num [accel, followDist]
  · norm_num [accel, followDist]

/-! ### Acceleration -/

theorem followDist_pos {timeGap v lead : ℝ} (h : 0 ≤ timeGap) : 3 ≤ followDist timeGap v lead := by
  unfold followDist
  linarith [mul_nonneg h (abs_nonneg (max v lead))]

/-- The weight of the set speed. -/
noncomputable def weight (timeGap v gap lead : ℝ) : ℝ := min 1 ((gap - followDist timeGap v lead) / followDist timeGap v lead)

theorem accel_some {set timeGap v gap lead : ℝ} (h1 : 1 ≤ gap) : accel set timeGap v (some (gap, lead)) =
    weight timeGap v gap lead - weight timeGap v gap lead * (v - set) - (1 - weight timeGap v gap lead) * (v - min set lead) := if_neg (not_lt.2 h1)

/-- The throttle asks for no more than the set speed plus 1 m/s. -/
theorem accel_le (set timeGap v : ℝ) (l : Lead) : accel set timeGap v l ≤ max 0 (set + 1 - v) := by
  match l with
  | none =>
    refine le_max_of_le_right ?_
    show set - v ≤ _
    linarith
  | some (gap, lead) =>
    rcases lt_or_ge gap 1 with h1 | h1
    · exact le_max_of_le_left (if_pos h1).le
    · refine le_max_of_le_right ?_
      rw [accel_some h1]
      have hf1 : weight timeGap v gap lead ≤ 1 := min_le_left _ _
      generalize weight timeGap v gap lead = f at hf1
      have hm : min set lead ≤ set := min_le_left _ _
      nlinarith [mul_nonneg (show 0 ≤ 1 - f by linarith) (show 0 ≤ set - min set lead by linarith)]

/-- **Too close means braking**: nearer than the distance to keep (but not nearer than 1 m), and at least as fast as the vehicle in front or the set speed. -/
theorem brakes_partial {set timeGap v gap lead : ℝ} (ht : 0 ≤ timeGap) (h1 : 1 ≤ gap) (hg : gap < followDist timeGap v lead) (hv : min set lead ≤ v) :
    accel set timeGap v (some (gap, lead)) < 0 := by
  have hd := followDist_pos (v := v) (lead := lead) ht
  have hlt : (gap - followDist timeGap v lead) / followDist timeGap v lead < 0 := div_neg_of_neg_of_pos (by linarith) (by linarith)
  rw [accel_some h1]
  unfold weight
  rw [min_eq_right (by linarith)]
  generalize (gap - followDist timeGap v lead) / followDist timeGap v lead = f at hlt
  have hm : min set lead ≤ set := min_le_left _ _
  nlinarith [mul_nonneg (show 0 ≤ -f by linarith) (show 0 ≤ set - min set lead by linarith)]

/-- **The distance to keep**: driving as fast as a vehicle in front that is not faster than the set speed, the throttle is zero at the distance to keep, negative below and
positive above. -/
theorem follow_sign {set timeGap v gap : ℝ} (ht : 0 ≤ timeGap) (h1 : 1 ≤ gap) (hv : v ≤ set) :
    (accel set timeGap v (some (gap, v)) = 0 ↔ gap = followDist timeGap v v) ∧ (accel set timeGap v (some (gap, v)) < 0 ↔ gap < followDist timeGap v v) := by
  have hd := followDist_pos (v := v) (lead := v) ht
  have e : accel set timeGap v (some (gap, v)) = min 1 ((gap - followDist timeGap v v) / followDist timeGap v v) * (1 + set - v) := by
    rw [accel_some h1, min_eq_right hv]
    unfold weight
    ring
  have hp : 0 < 1 + set - v := by linarith
  have hD : 0 < followDist timeGap v v := by linarith
  rw [e]
  constructor
  · rw [mul_eq_zero, or_iff_left hp.ne']
    constructor
    · intro h
      rcases min_choice 1 ((gap - followDist timeGap v v) / followDist timeGap v v) with h' | h'
      · rw [h'] at h
        exact absurd h one_ne_zero
      · rw [h'] at h
        have := (div_eq_zero_iff.1 h).resolve_right hD.ne'
        linarith
    · intro h
      rw [← h, sub_self, zero_div, min_eq_right zero_le_one]
  · rw [mul_neg_iff_of_pos_right' hp]
    constructor
    · intro h
      have := (min_lt_iff.1 h).resolve_left (by norm_num)
      have := (div_neg_iff.1 this).resolve_left (fun h => absurd h.2 (not_lt.2 hD.le))
      linarith [this.1]
    · intro h
      exact min_lt_of_right_lt (div_neg_of_neg_of_pos (by linarith) hD)
where
  mul_neg_iff_of_pos_right' {a b : ℝ} (h : 0 < b) : (a * b < 0) = (a < 0) := by
    apply propext
    constructor
    · intro hh
      by_contra hn
      exact absurd hh (not_lt.2 (mul_nonneg (not_lt.1 hn) h.le))
    · exact fun hh => mul_neg_of_neg_of_pos hh h

/-! ### Speed -/

/-- Limits of the vehicle. -/
structure Ok (v : Vehicle.Vehicle) (dt : ℝ) : Prop where
  acc : 0 ≤ v.maxAcc
  dec : 0 ≤ v.maxDec
  step : v.maxAcc * dt ≤ 1
  dt : 0 ≤ dt
  drag : 0 ≤ v.engineBrake ∧ v.engineBrake ≤ 1
  speed : 0 ≤ v.maxSpeed

theorem analog_fields (v : Vehicle.Vehicle) (dt t s : ℝ) : (driveAnalog v dt t s).maxAcc = v.maxAcc ∧ (driveAnalog v dt t s).maxDec = v.maxDec ∧
    (driveAnalog v dt t s).engineBrake = v.engineBrake ∧ (driveAnalog v dt t s).maxSpeed = v.maxSpeed := by
  unfold driveAnalog Vehicle.update Vehicle.steer drive
  split_ifs <;> simp

theorem analog_speed (v : Vehicle.Vehicle) (dt t s : ℝ) : ∃ r c, (driveAnalog v dt t s).speed = (drive v dt t r c).speed := by
  exact ⟨_, _, (Vehicle.steer_fields _ _ _ _ _).2.2.2.2.2.2.2.1⟩

theorem drive_le {v : Vehicle.Vehicle} {dt t M : ℝ} {r c : Bool} (h : Ok v dt) (hM : 0 ≤ M) (hv : v.speed ≤ M) (ht : t ≤ max 0 (M - v.speed)) :
    (drive v dt t r c).speed ≤ M := by
  have hp : pedalSpeed v dt t ≤ M := by
    unfold pedalSpeed
    split
    · rename_i hn
      nlinarith [mul_nonneg (mul_nonneg h.dec (neg_nonneg.2 hn.le)) h.dt]
    · rename_i hn
      have ht0 : 0 ≤ t := not_lt.1 hn
      have ht' : t ≤ M - v.speed := by
        rcases le_max_iff.1 ht with h' | h'
        · linarith
        · exact h'
      nlinarith [mul_le_mul_of_nonneg_left h.step ht0]
  unfold drive
  split
  · exact hv
  · split
    · exact hv
    · split
      · exact hM
      · show dragged v c _ ≤ M
        unfold dragged clamp
        refine min_le_of_right_le (max_le (by linarith [h.speed]) ?_)
        split
        · rcases le_total 0 (pedalSpeed v dt t) with h0 | h0
          · nlinarith [mul_nonneg h0 h.drag.1]
          · nlinarith [mul_nonneg (neg_nonneg.2 h0) (show 0 ≤ 1 - v.engineBrake by linarith [h.drag.2])]
        · exact hp

theorem clamp_throttle {x M : ℝ} (h : x ≤ max 0 M) : clamp x (-1) 1 ≤ max 0 M := by
  unfold clamp
  exact min_le_of_right_le (max_le (le_max_of_le_left (by norm_num)) h)

theorem step_le {set timeGap dt s M : ℝ} {l : Lead} {v : Vehicle.Vehicle} (h : Ok v dt) (hM : 0 ≤ M) (hs : set + 1 ≤ M) (hv : v.speed ≤ M) :
    (step set timeGap dt s l v).speed ≤ M := by
  obtain ⟨r, c, e⟩ := analog_speed v dt (clamp (accel set timeGap v.speed l) (-1) 1) s
  unfold step
  rw [e]
  exact drive_le h hM hv (clamp_throttle ((accel_le set timeGap v.speed l).trans (max_le_max le_rfl (by linarith))))

/-- **The set speed is exceeded by 1 m/s at most**, or by what the vehicle had at activation, whatever the vehicles in front do, if one time step of full throttle gives at
most 1 m/s. -/
theorem speed_partial {set timeGap M : ℝ} (hM : 0 ≤ M) (hs : set + 1 ≤ M) : ∀ (l : List (ℝ × ℝ × Lead)) (v : Vehicle.Vehicle), (∀ i ∈ l, Ok v i.1) → v.speed ≤ M →
    (run set timeGap v l).speed ≤ M
  | [], _, _, hv => hv
  | (dt, s, le) :: l, v, h, hv => by
    have h0 := h (dt, s, le) (by simp)
    refine speed_partial hM hs l _ (fun i hi => ?_) (step_le h0 hM hs hv)
    have h1 := h i (by simp [hi])
    obtain ⟨f1, f2, f3, f4⟩ := analog_fields v dt (clamp (accel set timeGap v.speed le) (-1) 1) s
    constructor
    · show 0 ≤ (driveAnalog _ _ _ _).maxAcc
      rw [f1]; exact h1.acc
    · show 0 ≤ (driveAnalog _ _ _ _).maxDec
      rw [f2]; exact h1.dec
    · show (driveAnalog _ _ _ _).maxAcc * i.1 ≤ 1
      rw [f1]; exact h1.step
    · exact h1.dt
    · show 0 ≤ (driveAnalog _ _ _ _).engineBrake ∧ (driveAnalog _ _ _ _).engineBrake ≤ 1
      rw [f3]; exact h1.drag
    · show 0 ≤ (driveAnalog _ _ _ _).maxSpeed
      rw [f4]; exact h1.speed

/-- The vehicle can be driven. -/
structure Free (v : Vehicle.Vehicle) : Prop where
  throttle : v.throttleDisabled = false
  handbrake : v.handbrake = false
  speed : |v.speed| ≤ v.maxSpeed

theorem free_speed {v : Vehicle.Vehicle} {dt t s : ℝ} (h : Free v) (hn : ¬ (v.speed > 0 ∧ pedalSpeed v dt t < 0)) (ht : small ≤ |t|) :
    (driveAnalog v dt t s).speed = clamp (pedalSpeed v dt t) (-v.maxSpeed) v.maxSpeed := by
  show (Vehicle.steer _ _ _ _ _).speed = _
  rw [(Vehicle.steer_fields _ _ _ _ _).2.2.2.2.2.2.2.1]
  unfold drive
  rw [h.throttle, h.handbrake]
  simp only [Bool.false_eq_true, if_false]
  rw [if_neg hn]
  show dragged v _ _ = _
  unfold dragged
  rw [if_neg]
  simpa using ht

/-- **Without a vehicle in front the speed moves towards the set speed** and not past it. -/
theorem set_speed {set timeGap dt s : ℝ} {v : Vehicle.Vehicle} (h : Free v) (hs0 : 0 ≤ set) (hs1 : set ≤ v.maxSpeed) (hdt : 0 < dt) (ha : 0 < v.maxAcc)
    (hd : 0 < v.maxDec) (h1 : v.maxAcc * dt ≤ 1) (h2 : v.maxDec * dt ≤ 1) :
    (v.speed < set - small → v.speed < (step set timeGap dt s none v).speed ∧ (step set timeGap dt s none v).speed ≤ set) ∧
    (set + small < v.speed → (step set timeGap dt s none v).speed < v.speed ∧ set ≤ (step set timeGap dt s none v).speed) := by
  have hb := abs_le.1 h.speed
  have hsm : 0 < small := by norm_num [small]
  have hsm1 : small < 1 := by norm_num [small]
  constructor
  · intro hv
    have ht : small ≤ clamp (set - v.speed) (-1) 1 := by
      unfold clamp
      exact le_min hsm1.le (le_max_of_le_right (by linarith))
    have ht2 : clamp (set - v.speed) (-1) 1 ≤ set - v.speed := by
      unfold clamp
      exact min_le_of_right_le (max_le (by linarith) le_rfl)
    unfold step
    show v.speed < (driveAnalog v dt (clamp (set - v.speed) (-1) 1) s).speed ∧ (driveAnalog v dt (clamp (set - v.speed) (-1) 1) s).speed ≤ set
    generalize clamp (set - v.speed) (-1) 1 = t at ht ht2
    have hp : pedalSpeed v dt t = v.speed + v.maxAcc * t * dt := by
      unfold pedalSpeed
      rw [if_neg (by linarith)]
    have k1 : 0 < v.maxAcc * t * dt := mul_pos (mul_pos ha (by linarith)) hdt
    have k2 : v.maxAcc * t * dt ≤ t := by nlinarith [mul_le_mul_of_nonneg_left h1 (show 0 ≤ t by linarith)]
    rw [free_speed h (by rw [hp]; intro hh; linarith [hh.1, hh.2]) (by rw [abs_of_pos (by linarith)]; exact ht), hp, Vehicle.clamp_id (by linarith) (by linarith)]
    constructor <;> linarith
  · intro hv
    have ht : clamp (set - v.speed) (-1) 1 ≤ -small := by
      unfold clamp
      exact min_le_of_right_le (max_le (by linarith) (by linarith))
    have ht2 : set - v.speed ≤ clamp (set - v.speed) (-1) 1 := by
      unfold clamp
      exact le_min (by linarith) (le_max_right _ _)
    unfold step
    show (driveAnalog v dt (clamp (set - v.speed) (-1) 1) s).speed < v.speed ∧ set ≤ (driveAnalog v dt (clamp (set - v.speed) (-1) 1) s).speed
    generalize clamp (set - v.speed) (-1) 1 = t at ht ht2
    have hp : pedalSpeed v dt t = v.speed + v.maxDec * t * dt := by
      unfold pedalSpeed
      rw [if_pos (by linarith)]
    have k1 : v.maxDec * t * dt < 0 := mul_neg_of_neg_of_pos (mul_neg_of_pos_of_neg hd (by linarith)) hdt
    have k2 : t ≤ v.maxDec * t * dt := by nlinarith [mul_le_mul_of_nonneg_left h2 (show 0 ≤ -t by linarith)]
    rw [free_speed h (by rw [hp]; intro hh; linarith [hh.1, hh.2]) (by rw [abs_of_neg (by linarith)]; linarith), hp, Vehicle.clamp_id (by linarith) (by linarith)]
    constructor <;> linarith

/-- At a gap below 1 m the controller does not brake, however fast the vehicle is and however slow the one in front: only the drag of one step is lost. -/
theorem no_brake_fails {set timeGap dt s gap lead : ℝ} {v : Vehicle.Vehicle} (h : Free v) (hv : 0 < v.speed) (hd : 0 ≤ v.engineBrake ∧ v.engineBrake ≤ 1) (hg : gap < 1) :
    (step set timeGap dt s (some (gap, lead)) v).speed = v.speed * (1 - v.engineBrake) := by
  have hb := abs_le.1 h.speed
  have ha : accel set timeGap v.speed (some (gap, lead)) = 0 := if_pos hg
  unfold step
  rw [ha, Vehicle.clamp_id (by norm_num) (by norm_num)]
  show (Vehicle.steer _ _ _ _ _).speed = _
  rw [(Vehicle.steer_fields _ _ _ _ _).2.2.2.2.2.2.2.1]
  have hp : pedalSpeed v dt 0 = v.speed := by
    unfold pedalSpeed
    ring
  unfold drive
  rw [h.throttle, h.handbrake, hp]
  simp only [Bool.false_eq_true, if_false]
  rw [if_neg (by intro hh; linarith [hh.1, hh.2])]
  show dragged v _ _ = _
  unfold dragged
  rw [if_pos (by norm_num [small])]
  exact Vehicle.clamp_id (by nlinarith [mul_nonneg hv.le (show 0 ≤ 1 - v.engineBrake by linarith)]) (by nlinarith [mul_nonneg hv.le hd.1])

/-- With a vehicle far in front, the controller accelerates beyond the set speed. -/
theorem exceeds_fails {set timeGap dt s gap lead : ℝ} {v : Vehicle.Vehicle} (h : Free v) (hv : v.speed = set) (hs : set + v.maxAcc * dt ≤ v.maxSpeed)
    (ht : 0 ≤ timeGap) (hdt : 0 < dt) (ha : 0 < v.maxAcc) (h1 : 1 ≤ gap) (hg : 2 * followDist timeGap set lead ≤ gap) :
    (step set timeGap dt s (some (gap, lead)) v).speed = set + v.maxAcc * dt := by
  have hd := followDist_pos (v := set) (lead := lead) ht
  have hb := abs_le.1 h.speed
  have e : accel set timeGap v.speed (some (gap, lead)) = 1 := by
    rw [accel_some h1, hv]
    unfold weight
    rw [min_eq_left]
    · simp
    · rw [le_div_iff₀ (by linarith)]
      linarith
  unfold step
  rw [e, Vehicle.clamp_id (by norm_num) (by norm_num)]
  have hp : pedalSpeed v dt 1 = set + v.maxAcc * dt := by
    unfold pedalSpeed
    rw [if_neg (by norm_num), hv]
    ring
  have := mul_pos ha hdt
  rw [free_speed h (by rw [hp]; intro hh; linarith [hh.1, hh.2]) (by norm_num [small]), hp, Vehicle.clamp_id (by linarith) hs]

/-- A vehicle that stands 2 m behind a standing one drives backwards, with full deceleration. -/
theorem reverses_fails {dt s : ℝ} {v : Vehicle.Vehicle} (h : Free v) (hv : v.speed = 0) (hdt : 0 < dt) (hd : 0 < v.maxDec) (hm : v.maxDec * dt ≤ v.maxSpeed) :
    (step 20 (3 / 2) dt s (some (2, 0)) v).speed = -(v.maxDec * dt) := by
  have e : accel 20 (3 / 2) v.speed (some (2, 0)) = -7 := by
    rw [hv]
    norm_num [accel, followDist]
  unfold step
  rw [e, Vehicle.clamp_lo (by norm_num) (by norm_num)]
  have hp : pedalSpeed v dt (-1) = -(v.maxDec * dt) := by
    unfold pedalSpeed
    rw [if_pos (by norm_num), hv]
    ring
  have := mul_pos hd hdt
  rw [free_speed h (by rw [hv]; intro hh; linarith [hh.1]) (by norm_num [small]), hp, Vehicle.clamp_id (by linarith) (by linarith)]

example : Free (Vehicle.new 0 0 0 5 15) ∧ Ok (Vehicle.new 0 0 0 5 15) (1 / 20) :=
  ⟨⟨rfl, rfl, by norm_num [Vehicle.new]⟩, ⟨by norm_num [Vehicle.new], by norm_num [Vehicle.new], by norm_num [Vehicle.new], by norm_num,
    by norm_num [Vehicle.new], by norm_num [Vehicle.new]⟩⟩
example : (1 : ℝ) ≤ 10 ∧ (10 : ℝ) < followDist (3 / 2) 15 10 ∧ min (20 : ℝ) 10 ≤ 15 := by norm_num [followDist]
example : ∃ o : Other, Counts 2 o := ⟨ahead 12 0, rfl, rfl, by norm_num [gapTo, ahead], by norm_num [gapTo, ahead], by norm_num [ahead]⟩

end Verif.Loom

import Verif.Geom.SensorModel
import Verif.Geom.LineTheorems
import Mathlib.Analysis.Real.Pi.Bounds
/-
The object sensor (C64).
-/
namespace Verif.Geom
open Real

/-- The object is at distance `d` from the sensor, seen under the angle `b` from the heading of the
host (positive to the left). -/
def SeenAt (host : SensorObj) (s : Sensor) (o : SensorObj) (d b : ℝ) : Prop :=
  o.x = host.x + (s.x * cos host.h - s.y * sin host.h) + d * cos (host.h + b) ∧
  o.y = host.y + (s.x * sin host.h + s.y * cos host.h) + d * sin (host.h + b)

theorem seen_off {host : SensorObj} {s : Sensor} {o : SensorObj} {d b : ℝ}
    (h : SeenAt host s o d b) :
    offX host s o = d * cos (host.h + b) ∧ offY host s o = d * sin (host.h + b) := by
  obtain ⟨h1, h2⟩ := h
  unfold offX offY sensorX sensorY rotate
  constructor
  · simp only; linarith
  · simp only; linarith

/-- Every object is seen under exactly one such angle, up to whole turns. -/
theorem seen_exists (host : SensorObj) (s : Sensor) (o : SensorObj) :
    ∃ d b, 0 ≤ d ∧ SeenAt host s o d b := by
  obtain ⟨h1, h2⟩ := atan2_direction (offX host s o) (offY host s o)
  refine ⟨sqrt (offX host s o ^ 2 + offY host s o ^ 2),
    atan2 (offY host s o) (offX host s o) - host.h, sqrt_nonneg _, ?_, ?_⟩
  · rw [add_sub_cancel, h1]
    unfold offX sensorX rotate
    simp only; ring
  · rw [add_sub_cancel, h2]
    unfold offY sensorY rotate
    simp only; ring

/-- The angle found for the object is the angle to the heading without its sign. -/
theorem sensorAngle_eq {host : SensorObj} {s : Sensor} {o : SensorObj} {d b : ℝ}
    (h : SeenAt host s o d b) (hd : small ≤ d) (hb : |b| ≤ π) : sensorAngle host s o = |b| := by
  have hs := small_pos
  obtain ⟨h1, h2⟩ := seen_off h
  have hd0 : 0 < d := by linarith
  have hu := sin_sq_add_cos_sq (host.h + b)
  have hlen : sqrt (offX host s o * offX host s o + offY host s o * offY host s o) = d := by
    rw [h1, h2, show d * cos (host.h + b) * (d * cos (host.h + b))
      + d * sin (host.h + b) * (d * sin (host.h + b)) = d ^ 2 by linear_combination d ^ 2 * hu]
    exact sqrt_sq hd0.le
  have hn : normalize (offX host s o) (offY host s o)
      = (cos (host.h + b), sin (host.h + b)) := by
    unfold normalize
    rw [hlen, if_neg (not_lt.mpr hd), h1, h2, mul_div_cancel_left₀ _ hd0.ne',
      mul_div_cancel_left₀ _ hd0.ne']
  unfold sensorAngle rotate dot2
  rw [hn]
  simp only
  rw [show (1 * cos host.h - 0 * sin host.h) * cos (host.h + b)
      + (1 * sin host.h + 0 * cos host.h) * sin (host.h + b) = cos (|b|) by
    rw [cos_abs, show cos b = cos ((host.h + b) - host.h) by rw [add_sub_cancel_left], cos_sub]
    ring]
  exact arccos_cos (abs_nonneg b) hb

theorem absDiff_small {a b : ℝ} (h : |a - b| ≤ π) : absAngleDiff π a b = |a - b| := by
  have hp := pi_pos
  rw [(absAngleDiff_spec hp a b).1]
  obtain ⟨h1, h2⟩ := angleDiff_spec hp a b
  exact le_antisymm (h2 _ (Turns.refl _ _)) (smallest h h1)

/-- C64: a sensor that looks straight ahead detects exactly the other, visible, real objects between
its near and far distance that are less than half the opening angle off its axis. -/
theorem detects_ahead_partial {host : SensorObj} {s : Sensor} {o : SensorObj} {d b : ℝ}
    (hh : s.h = 0) (hn : 0 ≤ s.near) (hf : 0 ≤ s.far) (h : SeenAt host s o d b) (hd : small ≤ d)
    (hb : |b| ≤ π) :
    detects host s o ↔ o.id ≠ host.id ∧ o.ghost = false ∧ o.visible = true ∧ s.near ≤ d ∧ d ≤ s.far ∧
      |b| < s.fovH / 2 := by
  have hs := small_pos
  have hd0 : 0 ≤ d := by linarith
  obtain ⟨h1, h2⟩ := seen_off h
  have hu := sin_sq_add_cos_sq (host.h + b)
  have e : offX host s o * offX host s o + offY host s o * offY host s o = d * d := by
    rw [h1, h2]; linear_combination d ^ 2 * hu
  unfold detects
  rw [e, sensorAngle_eq h hd hb, hh, absDiff_small (by rw [sub_zero, abs_abs]; exact hb), sub_zero,
    abs_abs, not_or, not_or, not_lt, not_lt, ← mul_self_le_mul_self_iff hn hd0,
    ← mul_self_le_mul_self_iff hd0 hf, Bool.not_eq_true]
  tauto

/-- C64: in general, for a mounting angle from 0 to pi, the object is treated as if it were to the
left of the heading. -/
theorem detects_left_partial {host : SensorObj} {s : Sensor} {o : SensorObj} {d b : ℝ}
    (h0 : 0 ≤ s.h) (h1 : s.h ≤ π) (hn : 0 ≤ s.near) (hf : 0 ≤ s.far) (h : SeenAt host s o d b)
    (hd : small ≤ d) (hb : |b| ≤ π) :
    detects host s o ↔ o.id ≠ host.id ∧ o.ghost = false ∧ o.visible = true ∧ s.near ≤ d ∧ d ≤ s.far ∧
      |(|b| - s.h)| < s.fovH / 2 := by
  have hs := small_pos
  have hd0 : 0 ≤ d := by linarith
  obtain ⟨g1, g2⟩ := seen_off h
  have hu := sin_sq_add_cos_sq (host.h + b)
  have e : offX host s o * offX host s o + offY host s o * offY host s o = d * d := by
    rw [g1, g2]; linear_combination d ^ 2 * hu
  have hw : |(|b| - s.h)| ≤ π := abs_le.mpr ⟨by linarith [abs_nonneg b], by linarith⟩
  unfold detects
  rw [e, sensorAngle_eq h hd hb, absDiff_small hw, not_or, not_or, not_lt, not_lt,
    ← mul_self_le_mul_self_iff hn hd0, ← mul_self_le_mul_self_iff hd0 hf, Bool.not_eq_true]
  tauto

/-- C64 fails: whatever the mounting angle, an object is detected exactly if the same object mirrored
to the other side of the heading of the host is. -/
theorem detects_mirrored_fails {host : SensorObj} {s : Sensor} {o o' : SensorObj} {d b : ℝ}
    (hid : o'.id = o.id) (hg : o'.ghost = o.ghost) (hv : o'.visible = o.visible)
    (h : SeenAt host s o d b) (h' : SeenAt host s o' d (-b)) (hd : small ≤ d) (hb : |b| ≤ π) :
    detects host s o ↔ detects host s o' := by
  have hs := small_pos
  obtain ⟨g1, g2⟩ := seen_off h
  obtain ⟨k1, k2⟩ := seen_off h'
  have hu := sin_sq_add_cos_sq (host.h + b)
  have hu' := sin_sq_add_cos_sq (host.h + -b)
  have e : offX host s o * offX host s o + offY host s o * offY host s o = d * d := by
    rw [g1, g2]; linear_combination d ^ 2 * hu
  have e' : offX host s o' * offX host s o' + offY host s o' * offY host s o' = d * d := by
    rw [k1, k2]; linear_combination d ^ 2 * hu'
  unfold detects
  rw [e, e', sensorAngle_eq h hd hb, sensorAngle_eq h' hd (by rwa [abs_neg]), abs_neg, hid, hg, hv]

/-- An object at a place. -/
noncomputable def objAt (id : ℤ) (x y : ℝ) : SensorObj :=
  ⟨id, false, true, x, y, 0, 0, 0, 0, 0, 0, 0, 0⟩

/-- A sensor at the origin of the host, looking at the angle `h`, opening angle 90 degrees. -/
noncomputable def quarter (h : ℝ) : Sensor := ⟨0, 0, 0, h, 1, 100, π / 2, 10⟩

/-- C64 fails: a sensor looking to the left detects the object right of the host. -/
theorem detects_wrong_side_fails : detects (objAt 0 0 0) (quarter (π / 2)) (objAt 1 0 (-10)) := by
  have hp := pi_pos
  have hs : SeenAt (objAt 0 0 0) (quarter (π / 2)) (objAt 1 0 (-10)) 10 (-(π / 2)) := by
    unfold SeenAt objAt quarter
    simp
  rw [detects_left_partial (by show 0 ≤ π / 2; linarith) (by show π / 2 ≤ π; linarith)
    (by show (0 : ℝ) ≤ 1; norm_num) (by show (0 : ℝ) ≤ 100; norm_num) hs (by norm_num [small])
    (by rw [abs_neg, abs_of_pos (by linarith)]; linarith)]
  refine ⟨by decide, rfl, rfl, ?_, ?_, ?_⟩
  · show (1 : ℝ) ≤ 10; norm_num
  · show (10 : ℝ) ≤ 100; norm_num
  · show |(|-(π / 2)| - π / 2)| < π / 2 / 2
    rw [abs_neg, abs_of_pos (by linarith : 0 < π / 2), sub_self, abs_zero]
    linarith

/-- C64 fails: a sensor looking to the right does not detect the object it points at. -/
theorem detects_right_fails : ¬ detects (objAt 0 0 0) (quarter (-(π / 2))) (objAt 1 0 (-10)) := by
  have hp := pi_pos
  have hs : SeenAt (objAt 0 0 0) (quarter (-(π / 2))) (objAt 1 0 (-10)) 10 (-(π / 2)) := by
    unfold SeenAt objAt quarter
    simp
  have ha := sensorAngle_eq hs (by norm_num [small])
    (by rw [abs_neg, abs_of_pos (by linarith)]; linarith)
  rintro ⟨-, -, -, h⟩
  rw [ha, abs_neg, abs_of_pos (by linarith : 0 < π / 2)] at h
  have e : absAngleDiff π (π / 2) (quarter (-(π / 2))).h = π := by
    show absAngleDiff π (π / 2) (-(π / 2)) = π
    rw [absDiff_small] <;> rw [show π / 2 - -(π / 2) = π by ring, abs_of_pos hp]
  rw [e] at h
  have h' : π < π / 2 / 2 := h
  linarith

/-- The hits the sensor is supposed to report: those of the detected objects, in order. -/
theorem updateLoop_eq (host : SensorObj) (s : Sensor) (p : SensorObj → Bool)
    (hp : ∀ o, p o = true ↔ detects host s o) (objs : List SensorObj) (acc : List Hit)
    (ha : acc.length ≤ s.maxObj) :
    updateLoop host s objs acc =
      if acc.length + (objs.filter p).length ≤ s.maxObj
      then some (acc ++ (objs.filter p).map (hitOf host s)) else none := by
  induction objs generalizing acc with
  | nil => simp [updateLoop, ha]
  | cons o os ih =>
    unfold updateLoop
    by_cases h : detects host s o
    · have hpo := (hp o).mpr h
      rw [if_pos h, List.filter_cons_of_pos hpo]
      by_cases hl : acc.length < s.maxObj
      · rw [if_pos hl, ih _ (by simp; omega)]
        simp only [List.length_append, List.length_cons, List.length_nil, List.map_cons,
          List.append_assoc, List.cons_append, List.nil_append]
        congr 1
        rw [eq_iff_iff]
        constructor <;> intro g <;> omega
      · rw [if_neg hl, if_neg]
        simp only [List.length_cons]
        omega
    · have hpo : ¬ p o = true := fun g => h ((hp o).mp g)
      rw [if_neg h, List.filter_cons_of_neg hpo, ih _ ha]

/-- C64: as long as there are at most `maxObj` objects to detect, the list is exactly the detected
objects in the order of the scenario; otherwise memory behind the list is overwritten. -/
theorem update_exact (host : SensorObj) (s : Sensor) (objs : List SensorObj) (p : SensorObj → Bool)
    (hp : ∀ o, p o = true ↔ detects host s o) :
    ((objs.filter p).length ≤ s.maxObj →
      ∃ hits, update host s objs = some hits ∧ fetch hits = (objs.filter p).map SensorObj.id) ∧
    (s.maxObj < (objs.filter p).length → update host s objs = none) := by
  have e := updateLoop_eq host s p hp objs [] (Nat.zero_le _)
  simp only [List.length_nil, Nat.zero_add, List.nil_append] at e
  unfold update
  rw [e]
  constructor
  · intro h
    rw [if_pos h]
    refine ⟨_, rfl, ?_⟩
    unfold fetch
    rw [List.map_map]
    rfl
  · intro h
    rw [if_neg (not_le.mpr h)]

/-- Neither the host nor a ghost nor an invisible object is ever reported. -/
theorem update_sound {host : SensorObj} {s : Sensor} {objs : List SensorObj} {hits : List Hit}
    (h : update host s objs = some hits) :
    hits.length ≤ s.maxObj ∧ ∀ i ∈ fetch hits, ∃ o ∈ objs, o.id = i ∧ i ≠ host.id ∧ o.ghost = false ∧
      o.visible = true := by
  classical
  have hp : ∀ o, decide (detects host s o) = true ↔ detects host s o := fun o => decide_eq_true_iff
  have e := updateLoop_eq host s _ hp objs [] (Nat.zero_le _)
  simp only [List.length_nil, Nat.zero_add, List.nil_append] at e
  unfold update at h
  rw [e] at h
  split_ifs at h with g
  rw [Option.some.injEq] at h
  subst h
  refine ⟨by rwa [List.length_map], fun i hi => ?_⟩
  unfold fetch at hi
  rw [List.map_map, List.mem_map] at hi
  obtain ⟨o, ho, rfl⟩ := hi
  rw [List.mem_filter] at ho
  have hd := (hp o).mp ho.2
  exact ⟨o, ho.1, rfl, fun c => hd.1 (Or.inl c),
    by by_contra c; exact hd.1 (Or.inr (by simpa using c)), hd.2.1⟩

/-- C64 fails: two objects ahead of a sensor for one object. -/
theorem update_overflow_fails :
    update (objAt 0 0 0) ⟨0, 0, 0, 0, 1, 100, π / 2, 1⟩ [objAt 1 10 0, objAt 2 20 0] = none := by
  classical
  have hp := pi_pos
  have hd : ∀ (i : ℤ) (x : ℝ), i ≠ 0 → 1 ≤ x → x ≤ 100 →
      detects (objAt 0 0 0) ⟨0, 0, 0, 0, 1, 100, π / 2, 1⟩ (objAt i x 0) := by
    intro i x hi h1 h2
    have hs : SeenAt (objAt 0 0 0) ⟨0, 0, 0, 0, 1, 100, π / 2, 1⟩ (objAt i x 0) x 0 := by
      unfold SeenAt objAt
      simp
    rw [detects_ahead_partial rfl (by show (0 : ℝ) ≤ 1; norm_num) (by show (0 : ℝ) ≤ 100; norm_num) hs
      (by norm_num [small]; linarith) (by rw [abs_zero]; exact hp.le)]
    exact ⟨hi, rfl, rfl, h1, h2, by rw [abs_zero]; show 0 < π / 2 / 2; linarith⟩
  refine (update_exact _ _ _ (fun o => decide (detects _ _ o)) (fun o => decide_eq_true_iff)).2 ?_
  have e1 := hd 1 10 (by decide) (by norm_num) (by norm_num)
  have e2 := hd 2 20 (by decide) (by norm_num) (by norm_num)
  rw [List.filter_cons_of_pos (by exact decide_eq_true e1),
    List.filter_cons_of_pos (by exact decide_eq_true e2)]
  show 1 < 2
  omega

/-- C64: the reported place is in the frame of the sensor: the object is that far along and across
the axis of the sensor. The reported relative velocity is, too. -/
theorem hit_local (host : SensorObj) (s : Sensor) (o : SensorObj) :
    sensorX host s + (hitOf host s o).x * cos (host.h + s.h) - (hitOf host s o).y * sin (host.h + s.h)
      = o.x ∧
    sensorY host s + (hitOf host s o).x * sin (host.h + s.h) + (hitOf host s o).y * cos (host.h + s.h)
      = o.y ∧
    (hitOf host s o).velX * cos (host.h + s.h) - (hitOf host s o).velY * sin (host.h + s.h)
      = o.velX - host.velX ∧
    (hitOf host s o).velX * sin (host.h + s.h) + (hitOf host s o).velY * cos (host.h + s.h)
      = o.velY - host.velY ∧
    (hitOf host s o).accX * cos (host.h + s.h) - (hitOf host s o).accY * sin (host.h + s.h)
      = o.accX - host.accX ∧
    (hitOf host s o).accX * sin (host.h + s.h) + (hitOf host s o).accY * cos (host.h + s.h)
      = o.accY - host.accY ∧
    Turns π (hitOf host s o).yaw (o.h - (host.h + s.h)) ∧ |(hitOf host s o).yaw| ≤ π := by
  have hp := pi_pos
  have hu := sin_sq_add_cos_sq (host.h + s.h)
  obtain ⟨-, -, hc, hsn⟩ := angleSum_spec host.h s.h
  have hy := angleDiff_spec hp o.h (angleSum π host.h s.h)
  have hab := absAngleDiff_spec hp o.h (angleSum π host.h s.h)
  have hts := (interval2PI_spec hp (host.h + s.h)).2.2
  unfold hitOf rotate global2Local offX offY
  simp only [cos_neg, sin_neg, hc, hsn]
  refine ⟨?_, ?_, ?_, ?_, ?_, ?_, ?_, ?_⟩
  · linear_combination (o.x - sensorX host s) * hu
  · linear_combination (o.y - sensorY host s) * hu
  · linear_combination (o.velX - host.velX) * hu
  · linear_combination (o.velY - host.velY) * hu
  · linear_combination (o.accX - host.accX) * hu
  · linear_combination (o.accY - host.accY) * hu
  · refine hy.1.trans ?_
    obtain ⟨k, hk⟩ := hts
    exact ⟨-k, by unfold angleSum; rw [hk]; push_cast; ring⟩
  · rw [← hab.1]; exact hab.2.2

/-- C64 fails: the relative yaw rate is wrapped like an angle: an object turning faster than the host
by 3.5 rad/s is reported to turn slower. -/
theorem yaw_rate_fails (host : SensorObj) (s : Sensor) (o : SensorObj)
    (h : o.hRate - host.hRate = 7 / 2) : (hitOf host s o).yawRate < 0 := by
  have hp := pi_gt_three
  have hq := pi_lt_d2
  have hs := angleDiff_spec pi_pos o.hRate host.hRate
  have hab := absAngleDiff_spec pi_pos o.hRate host.hRate
  show angleDiff π o.hRate host.hRate < 0
  rw [h] at hs
  have hb := abs_le.mp (hab.1 ▸ hab.2.2)
  have : angleDiff π o.hRate host.hRate = 7 / 2 - 2 * π := by
    refine turns_unique pi_pos (hs.1.trans (turns_down π _).symm) ?_ ?_ <;> linarith
  rw [this]
  linarith

end Verif.Geom

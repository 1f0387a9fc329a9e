import Verif.Geom.AngleModel
import Mathlib.Tactic.Linarith
import Mathlib.Tactic.Ring
import Mathlib.Tactic.FieldSimp
import Mathlib.Tactic.Positivity
/-
C34: angle normalisation.
-/
namespace Verif.Geom

section
variable {K : Type} [Field K] [LinearOrder K] [IsStrictOrderedRing K] [FloorRing K]

/-- The specification: two angles differ by a whole number of turns. -/
def Turns (pi a b : K) : Prop := ∃ k : ℤ, a = b + k * (2 * pi)

theorem Turns.refl (pi a : K) : Turns pi a a := ⟨0, by simp⟩

theorem Turns.symm {pi a b : K} (h : Turns pi a b) : Turns pi b a := by
  obtain ⟨k, h⟩ := h
  exact ⟨-k, by push_cast; linarith⟩

theorem Turns.trans {pi a b c : K} (h : Turns pi a b) (g : Turns pi b c) : Turns pi a c := by
  obtain ⟨k, h⟩ := h
  obtain ⟨l, g⟩ := g
  exact ⟨k + l, by push_cast; linarith⟩

theorem Turns.add {pi a b : K} (h : Turns pi a b) (c : K) : Turns pi (a + c) (b + c) := by
  obtain ⟨k, h⟩ := h
  exact ⟨k, by linarith⟩

theorem turns_up (pi a : K) : Turns pi (a + 2 * pi) a := ⟨1, by push_cast; ring⟩

theorem turns_down (pi a : K) : Turns pi (a - 2 * pi) a := ⟨-1, by push_cast; ring⟩

theorem fmod_turns (pi x : K) : Turns pi (fmod x (2 * pi)) x :=
  ⟨-truncZ (x / (2 * pi)), by unfold fmod; push_cast; ring⟩

theorem fmod_nonneg {x m : K} (hm : 0 < m) (hx : 0 ≤ x) : 0 ≤ fmod x m ∧ fmod x m < m := by
  unfold fmod truncZ
  rw [if_neg (not_lt.mpr (div_nonneg hx hm.le))]
  have h1 := Int.floor_le (x / m)
  have h2 := Int.lt_floor_add_one (x / m)
  rw [le_div_iff₀ hm] at h1
  rw [div_lt_iff₀ hm] at h2
  constructor <;> nlinarith

theorem fmod_neg {x m : K} (hm : 0 < m) (hx : x < 0) : -m < fmod x m ∧ fmod x m ≤ 0 := by
  unfold fmod truncZ
  rw [if_pos (div_neg_of_neg_of_pos hx hm)]
  have h1 := Int.le_ceil (x / m)
  have h2 := Int.ceil_lt_add_one (x / m)
  rw [div_le_iff₀ hm] at h1
  rw [← sub_lt_iff_lt_add, lt_div_iff₀ hm] at h2
  constructor <;> nlinarith

theorem fmod_range {x m : K} (hm : 0 < m) : -m < fmod x m ∧ fmod x m < m := by
  rcases lt_or_ge x 0 with h | h
  · exact ⟨(fmod_neg hm h).1, (fmod_neg hm h).2.trans_lt hm⟩
  · exact ⟨by linarith [(fmod_nonneg hm h).1], (fmod_nonneg hm h).2⟩

/-- Two angles less than a turn apart that differ by whole turns are equal. -/
theorem turns_unique {pi a b : K} (hpi : 0 < pi) (h : Turns pi a b) (h1 : a - b < 2 * pi)
    (h2 : b - a < 2 * pi) : a = b := by
  obtain ⟨k, hk⟩ := h
  have hp : 0 < 2 * pi := by linarith
  have a1 : (k : K) * (2 * pi) < 1 * (2 * pi) := by linarith
  have a2 : (-1 : K) * (2 * pi) < k * (2 * pi) := by linarith
  have b1 := lt_of_mul_lt_mul_right a1 hp.le
  have b2 := lt_of_mul_lt_mul_right a2 hp.le
  have c1 : k < 1 := by exact_mod_cast b1
  have c2 : -1 < k := by exact_mod_cast b2
  have : k = 0 := by omega
  rw [hk, this]; simp

/-- C34, `[0, 2pi)`: the result is in the interval and differs from the input by whole turns. -/
theorem interval2PI_spec {pi : K} (hpi : 0 < pi) (a : K) :
    0 ≤ interval2PI pi a ∧ interval2PI pi a < 2 * pi ∧ Turns pi (interval2PI pi a) a := by
  have hr := fmod_range (x := a) (m := 2 * pi) (by linarith)
  have ht := fmod_turns pi a
  unfold interval2PI interval2PIRnd
  split_ifs with h
  · refine ⟨?_, ?_, (turns_up pi _).trans ht⟩
    · show 0 ≤ _ + _; linarith
    · show _ + _ < _; linarith
  · exact ⟨not_lt.mp h, hr.2, ht⟩

/-- C34: the result is a function of the direction: inputs that differ by whole turns, and only
those, give the same result. -/
theorem interval2PI_eq_iff {pi : K} (hpi : 0 < pi) (a b : K) :
    interval2PI pi a = interval2PI pi b ↔ Turns pi a b := by
  have ha := interval2PI_spec hpi a
  have hb := interval2PI_spec hpi b
  constructor
  · intro h
    exact ha.2.2.symm.trans (h ▸ hb.2.2)
  · intro h
    exact turns_unique hpi (ha.2.2.trans (h.trans hb.2.2.symm)) (by linarith) (by linarith)

/-- C34 with rounding: whatever the rounding, if it is monotone and exact at 0 and at the constant,
the result is in the closed interval. -/
theorem interval2PI_rounded {pi : K} (hpi : 0 < pi) {rnd : K → K} (hm : Monotone rnd)
    (h0 : rnd 0 = 0) (h2 : rnd (2 * pi) = 2 * pi) (a : K) :
    0 ≤ interval2PIRnd rnd pi a ∧ interval2PIRnd rnd pi a ≤ 2 * pi := by
  have hr := fmod_range (x := a) (m := 2 * pi) (by linarith)
  unfold interval2PIRnd
  split_ifs with h
  · constructor
    · rw [← h0]; exact hm (by linarith)
    · conv_rhs => rw [← h2]
      exact hm (by linarith)
  · exact ⟨not_lt.mp h, hr.2.le⟩

theorem wrapPi_spec {pi : K} {d : K} (h1 : -(2 * pi) < d) (h2 : d < 2 * pi) :
    -pi ≤ wrapPi pi d ∧ wrapPi pi d ≤ pi ∧ Turns pi (wrapPi pi d) d := by
  unfold wrapPi
  split_ifs with x y
  · exact ⟨by linarith, by linarith, turns_up pi d⟩
  · exact ⟨by linarith, by linarith, turns_down pi d⟩
  · exact ⟨not_lt.mp x, not_lt.mp y, Turns.refl pi d⟩

/-- C34, `[-pi, pi]`: the result is in the interval and differs from the input by whole turns. -/
theorem intervalPI_spec {pi : K} (hpi : 0 < pi) (a : K) :
    -pi ≤ intervalPI pi a ∧ intervalPI pi a ≤ pi ∧ Turns pi (intervalPI pi a) a := by
  have hr := fmod_range (x := a) (m := 2 * pi) (by linarith)
  obtain ⟨x, y, z⟩ := wrapPi_spec hr.1 hr.2
  exact ⟨x, y, z.trans (fmod_turns pi a)⟩

/-- C34: inputs that differ by whole turns give the same result, except at the ends of the
interval. -/
theorem intervalPI_eq {pi : K} (hpi : 0 < pi) {a b : K} (h : Turns pi a b) :
    intervalPI pi a = intervalPI pi b ∨ |intervalPI pi a| = pi ∧ |intervalPI pi b| = pi := by
  have ha := intervalPI_spec hpi a
  have hb := intervalPI_spec hpi b
  have ht : Turns pi (intervalPI pi a) (intervalPI pi b) := ha.2.2.trans (h.trans hb.2.2.symm)
  by_cases h1 : intervalPI pi a - intervalPI pi b < 2 * pi
  · by_cases h2 : intervalPI pi b - intervalPI pi a < 2 * pi
    · exact Or.inl (turns_unique hpi ht h1 h2)
    · right
      rw [show intervalPI pi a = -pi by linarith, show intervalPI pi b = pi by linarith, abs_neg,
        abs_of_pos hpi]
      exact ⟨rfl, rfl⟩
  · right
    rw [show intervalPI pi a = pi by linarith, show intervalPI pi b = -pi by linarith, abs_neg,
      abs_of_pos hpi]
    exact ⟨rfl, rfl⟩

/-- C34 fails for the half-open interval `(-pi, pi]`: `-pi` is not changed; and `pi` and `-pi`, the
same direction, are kept apart. -/
theorem intervalPI_half_open_fails {pi : K} (hpi : 0 < pi) :
    intervalPI pi (-pi) = -pi ∧ intervalPI pi pi = pi := by
  have e : ∀ x : K, |x| = pi → fmod x (2 * pi) = x := by
    intro x hx
    apply turns_unique hpi (fmod_turns pi x)
    all_goals
      rcases lt_or_ge x 0 with h | h
      · have := fmod_neg (m := 2 * pi) (by linarith) h
        rw [abs_of_neg h] at hx
        linarith
      · have := fmod_nonneg (m := 2 * pi) (by linarith) h
        rw [abs_of_nonneg h] at hx
        linarith
  unfold intervalPI wrapPi
  rw [e _ (by rw [abs_neg, abs_of_pos hpi]), e _ (abs_of_pos hpi)]
  constructor
  · rw [if_neg (by linarith), if_neg (by linarith)]
  · rw [if_neg (by linarith), if_neg (by linarith)]

/-- A value of magnitude at most pi has the smallest magnitude among all angles that differ from it
by whole turns. -/
theorem smallest {pi : K} {r : K} (hr : |r| ≤ pi) {c : K} (h : Turns pi c r) : |r| ≤ |c| := by
  obtain ⟨k, rfl⟩ := h
  have hp : 0 ≤ pi := (abs_nonneg r).trans hr
  by_cases hk : k = 0
  · simp [hk]
  · have h1 : (1 : K) ≤ |(k : K)| := by
      rw [← Int.cast_abs]
      exact_mod_cast Int.one_le_abs hk
    have h2 : 2 * pi ≤ |(k : K) * (2 * pi)| := by
      rw [abs_mul, abs_of_nonneg (by linarith : 0 ≤ 2 * pi)]
      nlinarith
    have h3 : |(k : K) * (2 * pi)| ≤ |r + k * (2 * pi)| + |r| := by
      have := abs_add_le (r + k * (2 * pi)) (-r)
      rw [abs_neg] at this
      simpa using this
    linarith

/-- C34, difference: it differs from `angle1 - angle2` by whole turns, and no other such value has a
smaller magnitude. -/
theorem angleDiff_spec {pi : K} (hpi : 0 < pi) (a b : K) :
    Turns pi (angleDiff pi a b) (a - b) ∧
      ∀ c, Turns pi c (a - b) → |angleDiff pi a b| ≤ |c| := by
  have hr := fmod_range (x := a - b) (m := 2 * pi) (by linarith)
  obtain ⟨x, y, z⟩ := wrapPi_spec hr.1 hr.2
  have ht : Turns pi (angleDiff pi a b) (a - b) := z.trans (fmod_turns pi _)
  exact ⟨ht, fun c hc => smallest (abs_le.mpr ⟨x, y⟩) (hc.trans ht.symm)⟩

theorem interval2PI_id {pi : K} (hpi : 0 < pi) {x : K} (h0 : 0 ≤ x) (h1 : x < 2 * pi) :
    interval2PI pi x = x := by
  have h := interval2PI_spec hpi x
  exact turns_unique hpi h.2.2 (by linarith) (by linarith)

/-- C34, absolute difference: the magnitude of the difference, in `[0, pi]`. -/
theorem absAngleDiff_spec {pi : K} (hpi : 0 < pi) (a b : K) :
    absAngleDiff pi a b = |angleDiff pi a b| ∧ 0 ≤ absAngleDiff pi a b ∧ absAngleDiff pi a b ≤ pi := by
  have hr := fmod_range (x := a - b) (m := 2 * pi) (by linarith)
  have key : absAngleDiff pi a b = |angleDiff pi a b| := by
    unfold absAngleDiff angleDiff liftNeg wrapPi
    generalize fmod (a - b) (2 * pi) = d at *
    split_ifs <;> rw [interval2PI_id hpi (by linarith) (by linarith)] <;>
      first
        | rw [abs_of_nonneg (by linarith)] <;> linarith
        | rw [abs_of_nonpos (by linarith)] <;> linarith
  obtain ⟨x, y, -⟩ := wrapPi_spec hr.1 hr.2
  exact ⟨key, key ▸ abs_nonneg _, key ▸ abs_le.mpr ⟨x, y⟩⟩

/-- C34: the absolute difference does not depend on the order. -/
theorem absAngleDiff_comm {pi : K} (hpi : 0 < pi) (a b : K) :
    absAngleDiff pi a b = absAngleDiff pi b a := by
  rw [(absAngleDiff_spec hpi a b).1, (absAngleDiff_spec hpi b a).1]
  have h1 := angleDiff_spec hpi a b
  have h2 := angleDiff_spec hpi b a
  have flip : ∀ {c x y : K}, Turns pi c (x - y) → Turns pi (-c) (y - x) := by
    rintro c x y ⟨k, rfl⟩
    exact ⟨-k, by push_cast; ring⟩
  apply le_antisymm
  · have := h1.2 _ (flip h2.1)
    rwa [abs_neg] at this
  · have := h2.2 _ (flip h1.1)
    rwa [abs_neg] at this

end

/-! ### With the double constant -/

/-- C34 fails for the half-open interval `[0, 2pi)` on doubles: for -2^-60, a tiny negative angle, the
sum is rounded to the constant `2 * M_PI` itself, which is outside the interval. -/
theorem interval2PI_rounding_fails :
    interval2PIRnd roundDouble (twoMPI / 2) (-1 / 2 ^ 60) = twoMPI := by
  have e : fmod (-1 / 2 ^ 60 : ℚ) (2 * (twoMPI / 2)) = -1 / 2 ^ 60 := by
    apply turns_unique (pi := twoMPI / 2) (by norm_num [twoMPI]) (fmod_turns _ _)
    all_goals
      have := fmod_neg (x := (-1 / 2 ^ 60 : ℚ)) (m := 2 * (twoMPI / 2)) (by norm_num [twoMPI])
        (by norm_num)
      have h2 : (1 : ℚ) / 2 ^ 60 < 2 * (twoMPI / 2) := by norm_num [twoMPI]
      have h3 : (0 : ℚ) < 1 / 2 ^ 60 := by norm_num
      have h4 : (-1 : ℚ) / 2 ^ 60 = -(1 / 2 ^ 60) := by ring
      linarith
  unfold interval2PIRnd
  rw [e, if_pos (by norm_num)]
  have hf : ⌊((-1 / 2 ^ 60 + 2 * (twoMPI / 2)) * 2 ^ 50 : ℚ)⌋ = 7074237752028439 := by
    rw [Int.floor_eq_iff]
    norm_num [twoMPI]
  unfold roundDouble
  simp only [hf]
  norm_num [twoMPI]

/-! ### Directions -/

open Real

theorem turns_cos {a b : ℝ} (h : Turns π a b) : cos a = cos b ∧ sin a = sin b := by
  obtain ⟨k, rfl⟩ := h
  exact ⟨Real.cos_add_int_mul_two_pi b k, Real.sin_add_int_mul_two_pi b k⟩

/-- C34: normalisation does not change the direction. -/
theorem interval2PI_direction (a : ℝ) :
    cos (interval2PI π a) = cos a ∧ sin (interval2PI π a) = sin a :=
  turns_cos (interval2PI_spec pi_pos a).2.2

/-- C34: an angle is reported as forward exactly if its direction does not point backwards. -/
theorem isForward_iff (a : ℝ) : isForward π a = true ↔ 0 ≤ cos a := by
  obtain ⟨h0, h1, h2⟩ := interval2PI_spec pi_pos a
  rw [← (interval2PI_direction a).1]
  unfold isForward
  generalize interval2PI π a = b at *
  have hp := pi_pos
  rcases le_or_gt b (π / 2) with c | c
  · have : 0 ≤ cos b := cos_nonneg_of_neg_pi_div_two_le_of_le (by linarith) c
    simp [not_lt.mpr c, this]
  · rcases lt_or_ge b (3 * (π / 2)) with d | d
    · have : cos b < 0 := cos_neg_of_pi_div_two_lt_of_lt c (by linarith)
      simp [c, d, this]
    · have : 0 ≤ cos b := by
        rw [← cos_sub_two_pi]
        exact cos_nonneg_of_neg_pi_div_two_le_of_le (by linarith) (by linarith)
      simp [not_lt.mpr d, this]

/-- C34: the sum of two angles has the direction of the sum and is in `[0, 2pi)`. -/
theorem angleSum_spec (a b : ℝ) : 0 ≤ angleSum π a b ∧ angleSum π a b < 2 * π ∧
    cos (angleSum π a b) = cos (a + b) ∧ sin (angleSum π a b) = sin (a + b) :=
  ⟨(interval2PI_spec pi_pos _).1, (interval2PI_spec pi_pos _).2.1, interval2PI_direction _⟩

theorem liftAngle_spec {a : ℝ} (h0 : -π < a) (h1 : a ≤ π) :
    0 ≤ liftAngle a ∧ liftAngle a < 2 * π ∧ cos (liftAngle a) = cos a ∧ sin (liftAngle a) = sin a := by
  have hp := pi_pos
  unfold liftAngle
  split_ifs with h
  · exact ⟨by linarith, by linarith, cos_add_two_pi a, sin_add_two_pi a⟩
  · exact ⟨not_lt.mp h, by linarith, rfl, rfl⟩

theorem atan2_direction (x y : ℝ) :
    sqrt (x ^ 2 + y ^ 2) * cos (atan2 y x) = x ∧ sqrt (x ^ 2 + y ^ 2) * sin (atan2 y x) = y := by
  have e : ‖(⟨x, y⟩ : ℂ)‖ = sqrt (x ^ 2 + y ^ 2) := by
    rw [Complex.norm_eq_sqrt_sq_add_sq]
  have h1 := Complex.norm_mul_cos_arg ⟨x, y⟩
  have h2 := Complex.norm_mul_sin_arg ⟨x, y⟩
  rw [e] at h1 h2
  exact ⟨h1, h2⟩

/-- C34: the angle of a vector is in `[0, 2pi)`. -/
theorem angleOfVector_range (x y : ℝ) : 0 ≤ angleOfVector x y ∧ angleOfVector x y < 2 * π := by
  have hp := pi_pos
  have h : ∀ a b, 0 ≤ liftAngle (atan2 a b) ∧ liftAngle (atan2 a b) < 2 * π := fun a b =>
    ⟨(liftAngle_spec (Complex.neg_pi_lt_arg _) (Complex.arg_le_pi _)).1,
      (liftAngle_spec (Complex.neg_pi_lt_arg _) (Complex.arg_le_pi _)).2.1⟩
  unfold angleOfVector
  split_ifs
  · exact ⟨le_rfl, by linarith⟩
  · exact h _ _
  · exact h _ _

/-- C34: the angle of a vector is its direction, unless the x coordinate is tiny. -/
theorem angleOfVector_direction (x y : ℝ) (hx : small ≤ |x|) :
    sqrt (x ^ 2 + y ^ 2) * cos (angleOfVector x y) = x ∧
      sqrt (x ^ 2 + y ^ 2) * sin (angleOfVector x y) = y := by
  have h := liftAngle_spec (Complex.neg_pi_lt_arg ⟨x, y⟩) (Complex.arg_le_pi _)
  unfold angleOfVector
  rw [if_neg (not_lt.mpr hx)]
  rw [show liftAngle (atan2 y x) = liftAngle (Complex.arg ⟨x, y⟩) from rfl, h.2.2.1, h.2.2.2]
  exact atan2_direction x y

/-- C34: for a tiny x coordinate the angle is the direction of a vector that differs by at most 2e-6
in the x coordinate. -/
theorem angleOfVector_near (x y : ℝ) (hy : small ≤ |y|) :
    ∃ x', |x' - x| ≤ 2 * small ∧ sqrt (x' ^ 2 + y ^ 2) * cos (angleOfVector x y) = x' ∧
      sqrt (x' ^ 2 + y ^ 2) * sin (angleOfVector x y) = y := by
  have hs : 0 < small := by norm_num [small]
  by_cases hx : small ≤ |x|
  · exact ⟨x, by rw [sub_self, abs_zero]; linarith, angleOfVector_direction x y hx⟩
  · refine ⟨sign x * small, ?_, ?_⟩
    · have := abs_lt.mp (not_le.mp hx)
      unfold sign
      split_ifs <;> rw [abs_le] <;> constructor <;> linarith
    · have h := liftAngle_spec (Complex.neg_pi_lt_arg ⟨sign x * small, y⟩) (Complex.arg_le_pi _)
      unfold angleOfVector
      rw [if_pos (not_le.mp hx), if_neg (not_lt.mpr hy)]
      rw [show liftAngle (atan2 y (sign x * small)) = liftAngle (Complex.arg ⟨sign x * small, y⟩)
        from rfl, h.2.2.1, h.2.2.2]
      exact atan2_direction _ y

/-- Concrete cases: -7 is brought into both intervals. -/
example : 0 ≤ interval2PI π (-7) ∧ interval2PI π (-7) < 2 * π :=
  ⟨(interval2PI_spec pi_pos _).1, (interval2PI_spec pi_pos _).2.1⟩

example : Turns π (7 * π) π ∧ intervalPI π (7 * π) = π := by
  have ht : Turns π (7 * π) π := ⟨3, by push_cast; ring⟩
  refine ⟨ht, ?_⟩
  have hp := pi_pos
  have h := fmod_nonneg (x := 7 * π) (m := 2 * π) (by linarith) (by linarith)
  have e : fmod (7 * π) (2 * π) = π :=
    turns_unique pi_pos ((fmod_turns π _).trans ht) (by linarith) (by linarith)
  unfold intervalPI wrapPi
  rw [e, if_neg (by linarith), if_neg (lt_irrefl _)]

end Verif.Geom

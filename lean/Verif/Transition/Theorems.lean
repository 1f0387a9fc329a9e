import Verif.Transition.Lemmas
import Mathlib.Analysis.SpecialFunctions.Trigonometric.Deriv

/-
C30: transition dynamics start at the start value, end at the target value, move monotonically in
between, and the parameter stays in its range.
-/
namespace Verif.Transition

/-- The transition at parameter value `p`. -/
def TD.at (d : TD) (p : ℝ) : TD := { d with paramVal := p }

theorem Timed.at {d : TD} (h : Timed d) (p : ℝ) : Timed (d.at p) := h

/-- An example used below: cubic, 4 s, from 2 to 10. -/
noncomputable def exTD : TD := ⟨.cubic, .time, 2, 10, 4, 1, 0, 0⟩

theorem exTD_timed : Timed exTD := by
  refine ⟨Or.inr (Or.inl rfl), ?_⟩
  show small ≤ 4
  unfold small; norm_num

/-! ### The curve -/

/-- C30: at parameter 0 the value is the start value. -/
theorem value_at_zero {d : TD} (h : Timed d) : (d.at 0).evaluate = d.startVal := by
  rw [evaluate_eq (h.at 0)]
  simp [TD.at, weight_zero h.1]

/-- C30: at the end of the parameter range the value is the target value. -/
theorem value_at_end {d : TD} (h : Timed d) : (d.at d.paramTargetVal).evaluate = d.targetVal := by
  rw [evaluate_eq (h.at _)]
  simp [TD.at, div_self h.pos.ne', weight_one h.1]

/-- C30: an increasing transition increases. -/
theorem value_mono {d : TD} (h : Timed d) (hd : d.startVal ≤ d.targetVal) {p q : ℝ} (h0 : 0 ≤ p)
    (hpq : p ≤ q) (h1 : q ≤ d.paramTargetVal) : (d.at p).evaluate ≤ (d.at q).evaluate := by
  rw [evaluate_eq (h.at p), evaluate_eq (h.at q)]
  have hw := weight_mono h.1 (frac_mem h h0 (hpq.trans h1)).1
    (div_le_div_of_nonneg_right hpq h.pos.le) (frac_mem h (h0.trans hpq) h1).2
  have := mul_le_mul_of_nonneg_left hw (sub_nonneg.mpr hd)
  simp only [TD.at]
  linarith

/-- C30: a decreasing transition decreases. -/
theorem value_anti {d : TD} (h : Timed d) (hd : d.targetVal ≤ d.startVal) {p q : ℝ} (h0 : 0 ≤ p)
    (hpq : p ≤ q) (h1 : q ≤ d.paramTargetVal) : (d.at q).evaluate ≤ (d.at p).evaluate := by
  rw [evaluate_eq (h.at p), evaluate_eq (h.at q)]
  have hw := weight_mono h.1 (frac_mem h h0 (hpq.trans h1)).1
    (div_le_div_of_nonneg_right hpq h.pos.le) (frac_mem h (h0.trans hpq) h1).2
  have := mul_le_mul_of_nonneg_left hw (sub_nonneg.mpr hd)
  simp only [TD.at]
  linarith

/-- C30: the value stays between start and target. -/
theorem value_between {d : TD} (h : Timed d) {p : ℝ} (h0 : 0 ≤ p) (h1 : p ≤ d.paramTargetVal) :
    min d.startVal d.targetVal ≤ (d.at p).evaluate ∧
      (d.at p).evaluate ≤ max d.startVal d.targetVal := by
  rcases le_total d.startVal d.targetVal with hd | hd
  · rw [min_eq_left hd, max_eq_right hd]
    have a := value_mono h hd le_rfl h0 h1
    have b := value_mono h hd h0 h1 le_rfl
    rw [value_at_zero h] at a
    rw [value_at_end h] at b
    exact ⟨a, b⟩
  · rw [min_eq_right hd, max_eq_left hd]
    have a := value_anti h hd le_rfl h0 h1
    have b := value_anti h hd h0 h1 le_rfl
    rw [value_at_zero h] at a
    rw [value_at_end h] at b
    exact ⟨b, a⟩

/-- C30: halfway through the range the value is halfway between start and target. -/
theorem value_mid {d : TD} (h : Timed d) :
    (d.at (d.paramTargetVal / 2)).evaluate = (d.startVal + d.targetVal) / 2 := by
  rw [evaluate_eq (h.at _)]
  have e : d.paramTargetVal / 2 / d.paramTargetVal = 1 / 2 := by
    field_simp [h.pos.ne']
  have w := weight_symm h.1 (1 / 2)
  norm_num at w
  simp only [TD.at, e]
  have w2 : weight d.shape (1 / 2) = 1 / 2 := by linarith
  rw [w2]; ring

example : (exTD.at 0).evaluate = 2 ∧ (exTD.at 4).evaluate = 10 ∧ (exTD.at 2).evaluate = 6 := by
  refine ⟨value_at_zero exTD_timed, value_at_end exTD_timed, ?_⟩
  have := value_mid exTD_timed
  simp only [exTD] at this ⊢
  norm_num at this
  exact this

/-- C30: the step shape, and every time or distance shape with an empty range, has the target value
at once, whatever the parameter. -/
theorem value_immediate {d : TD} (h : d.shape = .step ∨ (d.dim ≠ .rate ∧ d.paramTargetVal < small))
    (p : ℝ) : (d.at p).evaluate = d.targetVal := by
  unfold TD.evaluate TD.evaluateAs
  rw [if_pos (show (d.at p).isStep from h)]
  rfl

example : ((⟨.linear, .time, 2, 10, 0, 1, 0, 0⟩ : TD).at 0).evaluate = 10 :=
  value_immediate (Or.inr ⟨by decide, small_pos⟩) 0

/-! ### The parameter -/

/-- The parameter stays in its range however the transition is stepped. -/
theorem param_in_range (d : TD) (hT : 0 ≤ d.paramTargetVal) (h0 : 0 ≤ d.paramVal)
    (h1 : d.paramVal ≤ d.paramTargetVal) (ds : List ℝ) :
    0 ≤ (ds.foldl TD.step d).paramVal ∧ (ds.foldl TD.step d).paramVal ≤ d.paramTargetVal := by
  induction ds generalizing d with
  | nil => exact ⟨h0, h1⟩
  | cons x xs ih =>
    have := limitParam_mem (v := d.paramVal + x / d.scaleFactor) hT
    exact ih (d.step x) hT this.1 this.2

/-- One step brings the parameter back into its range, whatever it was before. -/
theorem param_after_step (d : TD) (hT : 0 ≤ d.paramTargetVal) (x : ℝ) :
    0 ≤ (d.step x).paramVal ∧ (d.step x).paramVal ≤ d.paramTargetVal :=
  limitParam_mem hT

/-- C30: during any sequence of steps the value stays between start and target. -/
theorem value_between_steps {d : TD} (h : Timed d) (h0 : 0 ≤ d.paramVal)
    (h1 : d.paramVal ≤ d.paramTargetVal) (ds : List ℝ) :
    min d.startVal d.targetVal ≤ (ds.foldl TD.step d).evaluate ∧
      (ds.foldl TD.step d).evaluate ≤ max d.startVal d.targetVal := by
  have hr := param_in_range d h.pos.le h0 h1 ds
  have e : ∀ (l : List ℝ) (d : TD), l.foldl TD.step d = d.at (l.foldl TD.step d).paramVal := by
    intro l
    induction l with
    | nil => intro d; rfl
    | cons x xs ih => intro d; exact ih (d.step x)
  rw [e]
  exact value_between h hr.1 hr.2

example : 2 ≤ ([1, -5, 7, 3].foldl TD.step exTD).evaluate ∧
    ([1, -5, 7, 3].foldl TD.step exTD).evaluate ≤ 10 := by
  have := value_between_steps exTD_timed (le_refl (0 : ℝ)) (by show (0:ℝ) ≤ 4; norm_num)
    [1, -5, 7, 3]
  rwa [show exTD.startVal = 2 from rfl, show exTD.targetVal = 10 from rfl,
    min_eq_left (by norm_num), max_eq_right (by norm_num)] at this

/-- C30: forward steps never move the parameter back, and once the steps add up to the range times
the scale factor the parameter is at the end. -/
theorem param_progress (d : TD) (hT : 0 ≤ d.paramTargetVal) (h0 : 0 ≤ d.paramVal)
    (h1 : d.paramVal ≤ d.paramTargetVal) (hs : 0 < d.scaleFactor) (ds : List ℝ)
    (hd : ∀ x ∈ ds, 0 ≤ x) :
    (ds.foldl TD.step d).paramVal = min d.paramTargetVal (d.paramVal + ds.sum / d.scaleFactor) := by
  induction ds generalizing d with
  | nil => simp [min_eq_right h1]
  | cons x xs ih =>
    have hx : 0 ≤ x / d.scaleFactor := div_nonneg (hd x (by simp)) hs.le
    have hxs : 0 ≤ xs.sum := List.sum_nonneg fun y hy => hd y (by simp [hy])
    have hp : (d.step x).paramVal = min d.paramTargetVal (d.paramVal + x / d.scaleFactor) := by
      show limitParam _ _ = _
      unfold limitParam
      split_ifs with a b
      · exact (min_eq_left (le_of_lt a)).symm
      · exact absurd b (by linarith)
      · exact (min_eq_right (by linarith)).symm
    have hm := limitParam_mem (v := d.paramVal + x / d.scaleFactor) hT
    have := ih (d.step x) hT hm.1 hm.2 hs fun y hy => hd y (by simp [hy])
    rw [List.foldl_cons, this, hp]
    have hq : 0 ≤ xs.sum / d.scaleFactor := div_nonneg hxs hs.le
    show min d.paramTargetVal (_ + xs.sum / d.scaleFactor) = _
    rw [List.sum_cons, add_div]
    rcases le_total d.paramTargetVal (d.paramVal + x / d.scaleFactor) with c | c
    · rw [min_eq_left c, min_eq_left (by linarith), min_eq_left (by linarith)]
    · rw [min_eq_right c]; congr 1; ring

example : ([1, 2, 3].foldl TD.step exTD).paramVal = 4 := by
  rw [param_progress exTD (by norm_num [exTD]) (by norm_num [exTD]) (by norm_num [exTD])
    (by norm_num [exTD]) _ (by simp)]
  norm_num [exTD]

/-! ### The slope -/

/-- C30: the reported rate is the derivative of the value with respect to the parameter. -/
theorem prim_is_derivative {d : TD} (h : Timed d) (p : ℝ) :
    HasDerivAt (fun q => (d.at q).evaluate) (d.at p).prim p := by
  have e : (fun q => (d.at q).evaluate) = fun q => d.startVal
      + (d.targetVal - d.startVal) * weight d.shape (q / d.paramTargetVal) := by
    funext q; rw [evaluate_eq (h.at q)]; rfl
  have hT := h.pos.ne'
  rw [e]
  unfold TD.prim
  rw [if_neg (h.at p).not_isStep]
  rcases h.1 with hs | hs | hs
  · simp only [TD.at, hs, weight, avoidZero_of_ge h.2]
    have h1 : HasDerivAt (fun q : ℝ => q / d.paramTargetVal) (1 / d.paramTargetVal) p :=
      (hasDerivAt_id p).div_const _
    have h2 := (h1.const_mul (d.targetVal - d.startVal)).const_add d.startVal
    refine h2.congr_deriv ?_
    ring
  · simp only [TD.at, hs, weight, avoidZero_of_ge h.2]
    have h1 : HasDerivAt (fun q : ℝ => q / d.paramTargetVal) (1 / d.paramTargetVal) p :=
      (hasDerivAt_id p).div_const _
    have h2 := (((h1.pow 2).mul ((h1.const_mul 2).const_sub 3)).const_mul
      (d.targetVal - d.startVal)).const_add d.startVal
    refine h2.congr_deriv ?_
    simp only [Pi.pow_apply, Nat.add_one_sub_one, pow_one]
    push_cast
    field_simp
    ring
  · simp only [TD.at, hs, weight, avoidZero_of_ge h.2]
    have h1 : HasDerivAt (fun q : ℝ => Real.pi * (q / d.paramTargetVal))
        (Real.pi * (1 / d.paramTargetVal)) p :=
      ((hasDerivAt_id p).div_const _).const_mul _
    have h2 := (((h1.cos.const_sub 1).div_const 2).const_mul
      (d.targetVal - d.startVal)).const_add d.startVal
    refine h2.congr_deriv ?_
    rw [show Real.pi * p / d.paramTargetVal = Real.pi * (p / d.paramTargetVal) by ring]
    field_simp

/-- The reported rate is at most the total change times the largest slope over the range. -/
theorem prim_bound {d : TD} (h : Timed d) {p : ℝ} (h0 : 0 ≤ p) (h1 : p ≤ d.paramTargetVal) :
    |(d.at p).prim| ≤ |d.targetVal - d.startVal| * slope d.shape / d.paramTargetVal := by
  have hT := h.pos
  unfold TD.prim
  rw [if_neg (h.at p).not_isStep]
  rcases h.1 with hs | hs | hs <;> simp only [TD.at, hs, slope, avoidZero_of_ge h.2]
  · rw [abs_div, abs_of_pos hT, mul_one]
  · rw [abs_div, abs_of_pos (pow_pos hT 3), div_le_div_iff₀ (pow_pos hT 3) hT]
    have e : |6 * (d.targetVal - d.startVal) * (d.paramTargetVal - p) * p|
        = |d.targetVal - d.startVal| * (6 * (d.paramTargetVal - p) * p) := by
      rw [show 6 * (d.targetVal - d.startVal) * (d.paramTargetVal - p) * p
        = (d.targetVal - d.startVal) * (6 * (d.paramTargetVal - p) * p) by ring, abs_mul,
        abs_of_nonneg (a := 6 * (d.paramTargetVal - p) * p)]
      exact mul_nonneg (mul_nonneg (by norm_num) (by linarith)) h0
    rw [e, mul_assoc, mul_assoc _ (3 / 2 : ℝ)]
    apply mul_le_mul_of_nonneg_left _ (abs_nonneg _)
    have : 6 * (d.paramTargetVal - p) * p ≤ 3 / 2 * d.paramTargetVal ^ 2 := by
      nlinarith [sq_nonneg (d.paramTargetVal - 2 * p)]
    nlinarith
  · rw [abs_div, abs_of_pos (by linarith : 0 < 2 * d.paramTargetVal), abs_mul, abs_mul,
      abs_of_pos Real.pi_pos, div_le_div_iff₀ (by linarith) hT]
    have hsin := Real.abs_sin_le_one (Real.pi * p / d.paramTargetVal)
    have : Real.pi * |d.targetVal - d.startVal| * |Real.sin (Real.pi * p / d.paramTargetVal)|
        ≤ Real.pi * |d.targetVal - d.startVal| * 1 :=
      mul_le_mul_of_nonneg_left hsin (mul_nonneg Real.pi_pos.le (abs_nonneg _))
    nlinarith

theorem primPeak_abs {d : TD} (h : Timed d) (hd : d.dim ≠ .rate) :
    |d.primPeak| = |d.targetVal - d.startVal| * slope d.shape / d.paramTargetVal := by
  have hT := h.pos
  unfold TD.primPeak
  rw [if_neg hd, if_neg h.not_isStep]
  rcases h.1 with hs | hs | hs <;> simp only [hs, slope, avoidZero_of_ge h.2]
  · rw [abs_div, abs_of_pos hT, mul_one]
  · rw [abs_div, abs_of_pos hT, abs_mul]
    norm_num
    ring
  · rw [abs_div, abs_of_pos (by linarith : 0 < 2 * d.paramTargetVal), abs_mul,
      abs_of_pos Real.pi_pos]
    field_simp

/-- C30: the peak rate of a transition over time or distance bounds the rate everywhere, and is
attained halfway. -/
theorem peak_is_peak {d : TD} (h : Timed d) (hd : d.dim ≠ .rate) :
    (∀ p, 0 ≤ p → p ≤ d.paramTargetVal → |(d.at p).prim| ≤ |d.primPeak|) ∧
      (d.at (d.paramTargetVal / 2)).prim = d.primPeak := by
  refine ⟨fun p h0 h1 => by rw [primPeak_abs h hd]; exact prim_bound h h0 h1, ?_⟩
  have hT := h.pos
  unfold TD.prim TD.primPeak
  rw [if_neg hd, if_neg h.not_isStep, if_neg (h.at _).not_isStep]
  rcases h.1 with hs | hs | hs <;> simp only [TD.at, hs, avoidZero_of_ge h.2]
  · field_simp; ring
  · rw [show Real.pi * (d.paramTargetVal / 2) / d.paramTargetVal = Real.pi / 2 by field_simp,
      Real.sin_pi_div_two, mul_one]

example : |exTD.primPeak| = 3 := by
  rw [primPeak_abs exTD_timed (by decide)]
  norm_num [exTD, slope]

/-! ### Limited and prescribed rates -/

theorem sign_mul_self (x : ℝ) : sign x * x = |x| := by
  unfold sign; split_ifs with h
  · rw [abs_of_neg h]; ring
  · rw [abs_of_nonneg (not_lt.mp h)]; ring

theorem sign_sq (x : ℝ) : sign x * sign x = 1 := by unfold sign; split_ifs <;> norm_num

/-- The parameter range found from a rate: the total change times the largest slope over the rate. -/
theorem paramByPrimPeak_eq {d : TD} (h : Smooth d.shape) {r : ℝ} (hr : r ≠ 0) :
    d.signRate.paramByPrimPeak (sign (d.targetVal - d.startVal) * |r|)
      = |d.targetVal - d.startVal| * slope d.shape / |r| := by
  have hr' : |r| ≠ 0 := abs_ne_zero.mpr hr
  have key : (d.targetVal - d.startVal) / (sign (d.targetVal - d.startVal) * |r|)
      = |d.targetVal - d.startVal| / |r| := by
    have hs : sign (d.targetVal - d.startVal) ≠ 0 := by unfold sign; split_ifs <;> norm_num
    rw [← sign_mul_self (d.targetVal - d.startVal), div_eq_div_iff (mul_ne_zero hs hr') hr']
    have := sign_sq (d.targetVal - d.startVal)
    linear_combination (-(d.targetVal - d.startVal) * |r|) * this
  unfold TD.paramByPrimPeak
  rcases h with hs | hs | hs <;> simp only [TD.signRate, hs, slope]
  · rw [key, mul_one]
  · rw [mul_div_assoc, key]; ring
  · rw [mul_div_mul_comm, key]; ring

/-- C30: with a prescribed rate the range is chosen such that the rate is never exceeded, and the
transition takes time. -/
theorem rate_respected {d : TD} (hs : Smooth d.shape) (hd : d.dim = .rate) (hr : small ≤ |d.rate|) :
    Timed d.updateRate ∧ d.updateRate.startVal = d.startVal ∧ d.updateRate.targetVal = d.targetVal ∧
      ∀ p, 0 ≤ p → p ≤ d.updateRate.paramTargetVal → |(d.updateRate.at p).prim| ≤ |d.rate| := by
  have hr0 : d.rate ≠ 0 := by
    intro h0; rw [h0, abs_zero] at hr; exact absurd small_pos (not_lt.mpr hr)
  have hrp : 0 < |d.rate| := abs_pos.mpr hr0
  have hc : d.dim = .rate ∧ ¬ |d.signRate.rate| < small := by
    refine ⟨hd, ?_⟩
    show ¬ |sign _ * (|d.rate|)| < small
    rw [sign_abs_le, abs_abs]; exact not_lt.mpr hr
  have hv : d.signRate.paramByPrimPeak d.signRate.rate
      = |d.targetVal - d.startVal| * slope d.shape / |d.rate| := paramByPrimPeak_eq hs hr0
  have hnn : 0 ≤ |d.targetVal - d.startVal| * slope d.shape / |d.rate| :=
    div_nonneg (mul_nonneg (abs_nonneg _) (by have := slope_pos hs; linarith)) hrp.le
  have hu : d.updateRate = ⟨d.shape, d.dim, d.startVal, d.targetVal,
      max small (|d.targetVal - d.startVal| * slope d.shape / |d.rate|), d.scaleFactor, d.paramVal,
      d.signRate.rate⟩ := by
    unfold TD.updateRate
    rw [if_pos hc, hv, avoidZero_of_nonneg hnn]
  have ht : Timed d.updateRate := by rw [hu]; exact ⟨hs, le_max_left _ _⟩
  refine ⟨ht, by rw [hu], by rw [hu], fun p h0 h1 => ?_⟩
  refine (prim_bound ht h0 h1).trans ?_
  rw [div_le_iff₀ ht.pos]
  rw [hu]
  show |d.targetVal - d.startVal| * slope d.shape ≤ |d.rate| * max small _
  have := mul_le_mul_of_nonneg_left (le_max_right small
    (|d.targetVal - d.startVal| * slope d.shape / |d.rate|)) hrp.le
  rw [mul_div_cancel₀ _ hrp.ne'] at this
  exact this

/-- Lane change rates prescribed as a rate: linear from 0 to -8 at rate 2. -/
noncomputable def exRate : TD := ⟨.linear, .rate, 0, -8, 0, 1, 0, 2⟩

example : exRate.updateRate.paramTargetVal = 4 ∧ Timed exRate.updateRate := by
  refine ⟨?_, (rate_respected (Or.inl rfl) rfl (by norm_num [small, exRate])).1⟩
  have h : exRate.dim = .rate ∧ ¬ |exRate.signRate.rate| < small := by
    norm_num [small, exRate, TD.signRate, sign]
  unfold TD.updateRate
  rw [if_pos h]
  norm_num [exRate, TD.signRate, TD.paramByPrimPeak, sign, avoidZero, maxM, small]

/-- The values at two parameters differ by at most the peak rate times the distance between them. -/
theorem value_lip {d : TD} (h : Timed d) {p q : ℝ} (hp0 : 0 ≤ p) (hp1 : p ≤ d.paramTargetVal)
    (hq0 : 0 ≤ q) (hq1 : q ≤ d.paramTargetVal) :
    |(d.at p).evaluate - (d.at q).evaluate|
      ≤ |d.targetVal - d.startVal| * slope d.shape / d.paramTargetVal * |p - q| := by
  rw [evaluate_eq (h.at p), evaluate_eq (h.at q)]
  simp only [TD.at]
  have hw := weight_lip h.1 (frac_mem h hp0 hp1).1 (frac_mem h hp0 hp1).2 (frac_mem h hq0 hq1).1
    (frac_mem h hq0 hq1).2
  rw [← sub_div, abs_div, abs_of_pos h.pos] at hw
  rw [show d.startVal + (d.targetVal - d.startVal) * weight d.shape (p / d.paramTargetVal)
    - (d.startVal + (d.targetVal - d.startVal) * weight d.shape (q / d.paramTargetVal))
    = (d.targetVal - d.startVal) * (weight d.shape (p / d.paramTargetVal)
      - weight d.shape (q / d.paramTargetVal)) by ring, abs_mul]
  refine (mul_le_mul_of_nonneg_left hw (abs_nonneg _)).trans (le_of_eq ?_)
  ring

/-- C30: after a maximum rate has been set, a step of length `x ≥ 0` changes the value by at most
the maximum rate times `x`. This holds for transitions over time and distance. -/
theorem max_rate_respected {d : TD} (h : Timed d) (hd : d.dim ≠ .rate) {m : ℝ} (hm : small ≤ |m|)
    (h0 : 0 ≤ d.paramVal) (h1 : d.paramVal ≤ d.paramTargetVal) {x : ℝ} (hx : 0 ≤ x) :
    |((d.setMaxRate m).step x).evaluate - (d.setMaxRate m).evaluate| ≤ |m| * x := by
  have hmp : 0 < |m| := lt_of_lt_of_le small_pos hm
  have haz : |avoidZero m| = |m| := by rw [abs_avoidZero, max_eq_right hm]
  have hpk := primPeak_abs h hd
  -- the scale factor
  have hsc : 0 < (d.setMaxRate m).scaleFactor ∧
      |d.primPeak| ≤ |m| * (d.setMaxRate m).scaleFactor := by
    unfold TD.setMaxRate
    split_ifs with hc
    · show 0 < |d.primPeak| / |avoidZero m| ∧ _ ≤ |m| * (|d.primPeak| / |avoidZero m|)
      rw [haz]
      refine ⟨div_pos (hmp.trans hc) hmp, le_of_eq ?_⟩
      rw [mul_div_cancel₀ _ hmp.ne']
    · exact ⟨one_pos, by rw [mul_one]; exact not_lt.mp hc⟩
  have hsame : ∃ s, d.setMaxRate m = { d with scaleFactor := s } := by
    unfold TD.setMaxRate
    split_ifs
    · exact ⟨_, rfl⟩
    · exact ⟨_, rfl⟩
  obtain ⟨s, hse⟩ := hsame
  rw [hse] at hsc ⊢
  have hT : Timed { d with scaleFactor := s } := h
  have hl := limitParam_mem (v := d.paramVal + x / s) h.pos.le
  have hv := value_lip hT hl.1 hl.2 h0 h1
  have hdist : |limitParam (d.paramVal + x / s) d.paramTargetVal - d.paramVal| ≤ x / s := by
    have hxs : 0 ≤ x / s := div_nonneg hx hsc.1.le
    unfold limitParam
    split_ifs with a b
    · rw [abs_of_nonneg (by linarith)]; linarith
    · exact absurd b (by linarith)
    · rw [abs_of_nonneg (by linarith)]; linarith
  have hpos : 0 ≤ |d.targetVal - d.startVal| * slope d.shape / d.paramTargetVal := by
    rw [← hpk]; exact abs_nonneg _
  refine (hv.trans (mul_le_mul_of_nonneg_left hdist hpos)).trans ?_
  show |d.targetVal - d.startVal| * slope d.shape / d.paramTargetVal * (x / s) ≤ |m| * x
  rw [← hpk]
  have h2 := mul_le_mul_of_nonneg_right hsc.2 (div_nonneg hx hsc.1.le)
  refine h2.trans (le_of_eq ?_)
  show |m| * s * (x / s) = |m| * x
  rw [mul_assoc, mul_div_cancel₀ _ (ne_of_gt hsc.1)]

example : (exTD.setMaxRate 1).scaleFactor = 3 ∧ small ≤ |(1 : ℝ)| := by
  have hp : |exTD.primPeak| = 3 := by
    rw [primPeak_abs exTD_timed (by decide)]; norm_num [exTD, slope]
  constructor
  · unfold TD.setMaxRate
    rw [if_pos (by rw [hp]; norm_num), hp]
    norm_num [avoidZero, sign, maxM, small]
  · norm_num [small]

/-! ### What the scenario reader makes -/

/-- The transition as `Start` of an action sets it up: what was read from the file, reset, with the
given start and target values. -/
noncomputable def started (s : Shape) (dm : Dim) (v a b : ℝ) : TD :=
  (((parseTD s dm v).reset).setStartVal a).setTargetVal b

theorem updateRate_cases (d : TD) :
    d.updateRate.shape = d.shape ∧ d.updateRate.dim = d.dim ∧ d.updateRate.startVal = d.startVal ∧
      d.updateRate.targetVal = d.targetVal ∧ d.updateRate.scaleFactor = d.scaleFactor ∧
      d.updateRate.paramVal = d.paramVal ∧ |d.updateRate.rate| = |d.rate| ∧
      (d.dim ≠ .rate ∨ |d.rate| < small → d.updateRate.paramTargetVal = d.paramTargetVal) := by
  have ha : |d.signRate.rate| = |d.rate| := by
    show |sign _ * (|d.rate|)| = _
    rw [sign_abs_le, abs_abs]
  unfold TD.updateRate
  split_ifs with h
  · refine ⟨rfl, rfl, rfl, rfl, rfl, rfl, ha, fun h2 => ?_⟩
    rcases h2 with h2 | h2
    · exact absurd h.1 h2
    · rw [ha] at h; exact absurd h2 h.2
  · exact ⟨rfl, rfl, rfl, rfl, rfl, rfl, ha, fun _ => rfl⟩

theorem parse_cases (s : Shape) (dm : Dim) (v : ℝ) :
    (parseTD s dm v).shape = s ∧ (parseTD s dm v).dim = dm ∧
    (dm = .rate → |(parseTD s dm v).rate| = |if s = .step then 0 else v|) ∧
    (dm ≠ .rate ∨ |if s = .step then 0 else v| < small →
      (parseTD s dm v).paramTargetVal = if dm = .rate then 0 else if s = .step then 0 else v) := by
  unfold parseTD
  generalize (if s = Shape.step then (0 : ℝ) else v) = c
  unfold TD.setParamTargetVal
  by_cases h : dm = .rate
  · rw [if_neg (by simpa using h), if_pos h]
    have := updateRate_cases (TD.putRate ⟨s, dm, initTD.startVal, initTD.targetVal,
      initTD.paramTargetVal, initTD.scaleFactor, initTD.paramVal, initTD.rate⟩ c)
    exact ⟨this.1, this.2.1, fun _ => this.2.2.2.2.2.2.1, this.2.2.2.2.2.2.2⟩
  · rw [if_pos (by simpa using h), if_neg h]
    exact ⟨rfl, rfl, fun h2 => absurd h2 h, fun _ => rfl⟩

/-- C30, for every transition a scenario file can describe (shape step, linear, sinusoidal or
cubic; time, distance or rate; any value) and any start and target values: at the start the
parameter is 0, and
* a step, or a time or distance below 1e-6, gives the target value at once;
* a rate below 1e-6 gives the start value for ever;
* in all other cases the value starts at the start value, and reaches the target value at the end of
  a range of at least 1e-6. -/
theorem reader_transitions (s : Shape) (hs : s ≠ .undefined) (dm : Dim) (v a b : ℝ) :
    (started s dm v a b).paramVal = 0 ∧ (started s dm v a b).startVal = a ∧
    (started s dm v a b).targetVal = b ∧
    ((s = .step ∨ (dm ≠ .rate ∧ v < small)) → ∀ p, ((started s dm v a b).at p).evaluate = b) ∧
    ((s ≠ .step ∧ dm = .rate ∧ |v| < small) →
      (started s dm v a b).paramTargetVal = 0 ∧ (started s dm v a b).evaluate = a) ∧
    ((s ≠ .step ∧ ((dm ≠ .rate ∧ small ≤ v) ∨ (dm = .rate ∧ small ≤ |v|))) →
      Timed (started s dm v a b) ∧ (started s dm v a b).evaluate = a ∧
        ((started s dm v a b).at (started s dm v a b).paramTargetVal).evaluate = b) := by
  have h0 := parse_cases s dm v
  have h1 := updateRate_cases ((parseTD s dm v).reset.putStart a)
  have h2 := updateRate_cases (((parseTD s dm v).reset.setStartVal a).putTarget b)
  have eshape : (started s dm v a b).shape = s := (h2.1.trans h1.1).trans h0.1
  have edim : (started s dm v a b).dim = dm := (h2.2.1.trans h1.2.1).trans h0.2.1
  have estart : (started s dm v a b).startVal = a := h2.2.2.1.trans h1.2.2.1
  have etarget : (started s dm v a b).targetVal = b := h2.2.2.2.1
  have eparam : (started s dm v a b).paramVal = 0 := h2.2.2.2.2.2.1.trans h1.2.2.2.2.2.1
  have edim1 : ((parseTD s dm v).reset.setStartVal a).dim = dm := h1.2.1.trans h0.2.1
  have erate1 : |((parseTD s dm v).reset.setStartVal a).rate| = |(parseTD s dm v).rate| :=
    h1.2.2.2.2.2.2.1
  -- the range when it is not derived from a rate
  have hrange : s ≠ .step → (dm ≠ .rate ∨ |v| < small) →
      (started s dm v a b).paramTargetVal = if dm = .rate then 0 else v := by
    intro hst hc
    have hp := h0.2.2
    simp only [if_neg hst] at hp
    have g1 : dm ≠ .rate ∨ |(parseTD s dm v).rate| < small := by
      by_cases hdm : dm = .rate
      · right; rw [hp.1 hdm]; exact hc.resolve_left (by simpa using hdm)
      · exact Or.inl hdm
    have q1 := h1.2.2.2.2.2.2.2 (g1.imp (fun g => by
      show (parseTD s dm v).dim ≠ _; rw [h0.2.1]; exact g) id)
    have q2 := h2.2.2.2.2.2.2.2 (g1.imp (fun g => by
      show ((parseTD s dm v).reset.setStartVal a).dim ≠ _; rw [edim1]; exact g) (fun g => by
      show |((parseTD s dm v).reset.setStartVal a).rate| < small; rw [erate1]; exact g))
    exact (q2.trans q1).trans (hp.2 hc)
  refine ⟨eparam, estart, etarget, ?_, ?_, ?_⟩
  · intro h p
    rw [value_immediate _ p, etarget]
    rcases h with h | h
    · left; rw [eshape, h]
    · by_cases hst : s = .step
      · left; rw [eshape, hst]
      · right
        rw [edim, hrange hst (Or.inl h.1), if_neg h.1]
        exact h
  · rintro ⟨hst, hdm, hv⟩
    have hT := hrange hst (Or.inr hv)
    rw [if_pos hdm] at hT
    refine ⟨hT, ?_⟩
    unfold TD.evaluate TD.evaluateAs
    have hns : ¬ (started s dm v a b).isStep := by
      rintro (x | ⟨x, _⟩)
      · rw [eshape] at x; exact hst x
      · rw [edim] at x; exact x hdm
    rw [if_neg hns, if_pos rfl, eparam, estart, eshape]
    cases s with
    | linear => simp
    | cubic => simp
    | sinusoidal => simp
    | step => exact absurd rfl hst
    | undefined => exact absurd rfl hs
  · rintro ⟨hst, hv⟩
    have hsm : Smooth s := by
      cases s with
      | linear => exact Or.inl rfl
      | cubic => exact Or.inr (Or.inl rfl)
      | sinusoidal => exact Or.inr (Or.inr rfl)
      | step => exact absurd rfl hst
      | undefined => exact absurd rfl hs
    have ht : Timed (started s dm v a b) := by
      rcases hv with ⟨hdm, hv⟩ | ⟨hdm, hv⟩
      · refine ⟨by rw [eshape]; exact hsm, ?_⟩
        rw [hrange hst (Or.inl hdm), if_neg hdm]
        exact hv
      · have hrate : |((parseTD s dm v).reset.setStartVal a).rate| = |v| := by
          rw [erate1, h0.2.2.1 hdm, if_neg hst]
        exact (rate_respected (d := ((parseTD s dm v).reset.setStartVal a).putTarget b)
          (by show Smooth ((parseTD s dm v).reset.setStartVal a).shape
              rw [show ((parseTD s dm v).reset.setStartVal a).shape = s from h1.1.trans h0.1]
              exact hsm)
          (edim1.trans hdm)
          (by show small ≤ |((parseTD s dm v).reset.setStartVal a).rate|
              rw [hrate]; exact hv)).1
    refine ⟨ht, ?_, ?_⟩
    · have := value_at_zero ht
      rw [estart] at this
      rw [show (started s dm v a b).at 0 = started s dm v a b by unfold TD.at; rw [← eparam]] at this
      exact this
    · rw [value_at_end ht, etarget]

example : Timed (started .sinusoidal .rate 3 20 5) ∧ (started .sinusoidal .rate 3 20 5).evaluate = 20 :=
  have h := (reader_transitions .sinusoidal (by decide) .rate 3 20 5).2.2.2.2.2
    ⟨by decide, Or.inr ⟨rfl, by norm_num [small]⟩⟩
  ⟨h.1, h.2.1⟩

end Verif.Transition

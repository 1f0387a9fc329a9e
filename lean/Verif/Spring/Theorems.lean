import Verif.Spring.Model
import Mathlib.Analysis.SpecificLimits.Basic
import Mathlib.Topology.Algebra.Order.LiminfLimsup
import Mathlib.Analysis.SpecificLimits.Normed
import Mathlib.Tactic.LinearCombination
/-
The damped spring comes to rest at its target; distance actions keep their limits and reach the distance.
-/
namespace Verif.Spring
open Real Filter

/-! The spring -/

/-- Spec: the spring after `n` steps of length `h`. -/
def Spring.after (s : Spring) (h : ℝ) : Nat → Spring
  | 0 => s
  | n + 1 => (s.after h n).update h

/-- Spec: one step of the motion of a mass on a critically damped spring: deviation and velocity. -/
def swing (w h : ℝ) (p : ℝ × ℝ) : ℝ × ℝ :=
  (p.1 + (p.2 + (-(w * w) * p.1 - 2 * w * p.2) * h) * h, p.2 + (-(w * w) * p.1 - 2 * w * p.2) * h)

/-- A component of the motion. -/
def mode (w h l : ℝ) (p : ℝ × ℝ) : ℝ := (l - 1 + (w * h) ^ 2) * (p.2 * h) - (w * h) ^ 2 * p.1

/-- It is multiplied by a factor in each step. -/
theorem mode_step (w h l : ℝ) (hl : l ^ 2 - (2 - 2 * (w * h) - (w * h) ^ 2) * l + (1 - 2 * (w * h)) = 0)
    (p : ℝ × ℝ) : mode w h l (swing w h p) = l * mode w h l p := by
  unfold mode swing
  simp only
  linear_combination (-(p.2 * h)) * hl

/-- The discriminant. -/
noncomputable def disc (r : ℝ) : ℝ := sqrt (r ^ 3 * (r + 4))

noncomputable def slow (r : ℝ) : ℝ := ((2 - 2 * r - r ^ 2) + disc r) / 2
noncomputable def fast (r : ℝ) : ℝ := ((2 - 2 * r - r ^ 2) - disc r) / 2

theorem disc_sq (r : ℝ) (hr : 0 < r) : disc r ^ 2 = r ^ 3 * (r + 4) := sq_sqrt (by positivity)

theorem disc_pos (r : ℝ) (hr : 0 < r) : 0 < disc r := sqrt_pos.mpr (by positivity)

theorem slow_root (r : ℝ) (hr : 0 < r) : slow r ^ 2 - (2 - 2 * r - r ^ 2) * slow r + (1 - 2 * r) = 0 := by
  have := disc_sq r hr
  unfold slow
  linear_combination (1 / 4) * this

theorem fast_root (r : ℝ) (hr : 0 < r) : fast r ^ 2 - (2 - 2 * r - r ^ 2) * fast r + (1 - 2 * r) = 0 := by
  have := disc_sq r hr
  unfold fast
  linear_combination (1 / 4) * this

theorem slow_lt (r : ℝ) (hr : 0 < r) : slow r < 1 := by
  have h1 := disc_sq r hr
  have h2 := disc_pos r hr
  have : disc r < 2 * r + r ^ 2 := by
    apply lt_of_pow_lt_pow_left₀ 2 (by positivity)
    rw [h1]
    nlinarith [pow_pos hr 2]
  unfold slow
  linarith

theorem fast_lt_slow (r : ℝ) (hr : 0 < r) : fast r < slow r := by
  have := disc_pos r hr
  unfold fast slow
  linarith

theorem fast_gt (r : ℝ) (hr : 0 < r) (hs : r ^ 2 + 4 * r < 4) : -1 < fast r := by
  have h1 := disc_sq r hr
  have : disc r < 4 - 2 * r - r ^ 2 := by
    apply lt_of_pow_lt_pow_left₀ 2 (by nlinarith)
    rw [h1]
    nlinarith
  unfold fast
  linarith

theorem fast_le (r : ℝ) (hr : 0 < r) (hs : 4 ≤ r ^ 2 + 4 * r) : fast r ≤ -1 := by
  have h1 := disc_sq r hr
  have h2 := disc_pos r hr
  have : 4 - 2 * r - r ^ 2 ≤ disc r := by
    by_contra h
    have h := not_le.mp h
    nlinarith
  unfold fast
  linarith

theorem fast_pos (r : ℝ) (hr : 0 < r) (hs : 2 * r < 1) : 0 < fast r := by
  have h1 := disc_sq r hr
  have : disc r < 2 - 2 * r - r ^ 2 := by
    apply lt_of_pow_lt_pow_left₀ 2 (by nlinarith)
    rw [h1]
    nlinarith
  unfold fast
  linarith

/-- Deviation and velocity from the components. -/
theorem from_modes (w h : ℝ) (hw : 0 < w) (hh : 0 < h) (p : ℝ × ℝ) :
    p.2 * h = (mode w h (slow (w * h)) p - mode w h (fast (w * h)) p) / disc (w * h) ∧
    p.1 = ((slow (w * h) - 1 + (w * h) ^ 2) * (p.2 * h) - mode w h (slow (w * h)) p) / (w * h) ^ 2 := by
  have hr : 0 < w * h := mul_pos hw hh
  have hd := (disc_pos _ hr).ne'
  constructor
  · rw [eq_div_iff hd]
    unfold mode slow fast
    ring
  · rw [eq_div_iff (by positivity)]
    unfold mode
    ring

/-- Spec: the motion. -/
def swings (w h : ℝ) (p : ℝ × ℝ) : Nat → ℝ × ℝ
  | 0 => p
  | n + 1 => swing w h (swings w h p n)

theorem mode_after (w h l : ℝ) (hl : l ^ 2 - (2 - 2 * (w * h) - (w * h) ^ 2) * l + (1 - 2 * (w * h)) = 0)
    (p : ℝ × ℝ) (n : Nat) : mode w h l (swings w h p n) = l ^ n * mode w h l p := by
  induction n with
  | zero => simp [swings]
  | succ n ih => rw [swings, mode_step w h l hl, ih, pow_succ]; ring

theorem root_abs (r : ℝ) (hr : 0 < r) (hs : r ^ 2 + 4 * r < 4) : |slow r| < 1 ∧ |fast r| < 1 := by
  have h1 := slow_lt r hr
  have h2 := fast_lt_slow r hr
  have h3 := fast_gt r hr hs
  constructor <;> rw [abs_lt] <;> constructor <;> linarith

theorem swings_tendsto (w h : ℝ) (hw : 0 < w) (hh : 0 < h) (hs : (w * h) ^ 2 + 4 * (w * h) < 4) (p : ℝ × ℝ) :
    Tendsto (fun n => (swings w h p n).1) atTop (nhds 0) ∧ Tendsto (fun n => (swings w h p n).2) atTop (nhds 0) := by
  have hr : 0 < w * h := mul_pos hw hh
  obtain ⟨a1, a2⟩ := root_abs _ hr hs
  have t1 : Tendsto (fun n => mode w h (slow (w * h)) (swings w h p n)) atTop (nhds 0) := by
    simp only [mode_after w h _ (slow_root _ hr)]
    simpa using (tendsto_pow_atTop_nhds_zero_of_abs_lt_one a1).mul_const (mode w h (slow (w * h)) p)
  have t2 : Tendsto (fun n => mode w h (fast (w * h)) (swings w h p n)) atTop (nhds 0) := by
    simp only [mode_after w h _ (fast_root _ hr)]
    simpa using (tendsto_pow_atTop_nhds_zero_of_abs_lt_one a2).mul_const (mode w h (fast (w * h)) p)
  have tv : Tendsto (fun n => (swings w h p n).2 * h) atTop (nhds 0) := by
    have := (t1.sub t2).div_const (disc (w * h))
    simp only [sub_zero, zero_div] at this
    exact this.congr fun n => ((from_modes w h hw hh (swings w h p n)).1).symm
  constructor
  · have := ((tv.const_mul (slow (w * h) - 1 + (w * h) ^ 2)).sub t1).div_const ((w * h) ^ 2)
    simp only [mul_zero, sub_zero, zero_div] at this
    exact this.congr fun n => ((from_modes w h hw hh (swings w h p n)).2).symm
  · have := tv.mul_const (1 / h)
    simp only [zero_mul] at this
    refine this.congr fun n => ?_
    field_simp

/-- Deviations stay in proportion to the ones at the start. -/
theorem swings_bounded (w h : ℝ) (hw : 0 < w) (hh : 0 < h) (hs : (w * h) ^ 2 + 4 * (w * h) < 4) :
    ∃ C, 0 < C ∧ ∀ p n, |(swings w h p n).1| ≤ C * (|p.1| + |p.2|) ∧ |(swings w h p n).2| ≤ C * (|p.1| + |p.2|) := by
  have hr : 0 < w * h := mul_pos hw hh
  obtain ⟨a1, a2⟩ := root_abs _ hr hs
  have hm : ∀ l, |l| < 1 → ∀ p : ℝ × ℝ, |mode w h l p| ≤ ((2 + (w * h) ^ 2) * h + (w * h) ^ 2) * (|p.1| + |p.2|) := by
    intro l hl p
    unfold mode
    have hl' := abs_lt.mp hl
    have e1 : |l - 1 + (w * h) ^ 2| ≤ 2 + (w * h) ^ 2 := by
      rw [abs_le]
      constructor <;> nlinarith [sq_nonneg (w * h)]
    calc |(l - 1 + (w * h) ^ 2) * (p.2 * h) - (w * h) ^ 2 * p.1|
        ≤ |(l - 1 + (w * h) ^ 2) * (p.2 * h)| + |(w * h) ^ 2 * p.1| := abs_sub _ _
      _ = |l - 1 + (w * h) ^ 2| * (|p.2| * h) + (w * h) ^ 2 * |p.1| := by
          rw [abs_mul, abs_mul, abs_mul, abs_of_pos hh, abs_of_nonneg (sq_nonneg (w * h))]
      _ ≤ (2 + (w * h) ^ 2) * (|p.2| * h) + (w * h) ^ 2 * |p.1| := by
          have := mul_le_mul_of_nonneg_right e1 (mul_nonneg (abs_nonneg p.2) hh.le)
          linarith
      _ ≤ _ := by
          have h1 := abs_nonneg p.1
          have h2 := abs_nonneg p.2
          have h3 := sq_nonneg (w * h)
          nlinarith [mul_nonneg (mul_nonneg (by positivity : (0 : ℝ) ≤ 2 + (w * h) ^ 2) hh.le) h1, mul_nonneg h3 h2]
  set B := (2 + (w * h) ^ 2) * h + (w * h) ^ 2 with hB
  have hBpos : 0 < B := by positivity
  have hd := disc_pos _ hr
  have hma : ∀ l, |l| < 1 → l ^ 2 - (2 - 2 * (w * h) - (w * h) ^ 2) * l + (1 - 2 * (w * h)) = 0 →
      ∀ p n, |mode w h l (swings w h p n)| ≤ B * (|p.1| + |p.2|) := by
    intro l hl hroot p n
    rw [mode_after w h l hroot, abs_mul, abs_pow]
    calc |l| ^ n * |mode w h l p| ≤ 1 * |mode w h l p| :=
          mul_le_mul_of_nonneg_right (pow_le_one₀ (abs_nonneg l) hl.le) (abs_nonneg _)
      _ ≤ _ := by rw [one_mul]; exact hm l hl p
  have hv : ∀ p n, |(swings w h p n).2 * h| ≤ 2 * B / disc (w * h) * (|p.1| + |p.2|) := by
    intro p n
    have b1 := hma _ a1 (slow_root _ hr) p n
    have b2 := hma _ a2 (fast_root _ hr) p n
    rw [(from_modes w h hw hh (swings w h p n)).1, abs_div, abs_of_pos hd, div_le_iff₀ hd]
    have := abs_sub (mode w h (slow (w * h)) (swings w h p n)) (mode w h (fast (w * h)) (swings w h p n))
    have e : 2 * B / disc (w * h) * (|p.1| + |p.2|) * disc (w * h) = 2 * (B * (|p.1| + |p.2|)) := by
      field_simp
    rw [e]
    linarith
  set D := 2 * B / disc (w * h) with hD
  have hDpos : 0 < D := by positivity
  have hx : ∀ p n, |(swings w h p n).1| ≤ ((2 + (w * h) ^ 2) * D + B) / (w * h) ^ 2 * (|p.1| + |p.2|) := by
    intro p n
    have b1 := hma _ a1 (slow_root _ hr) p n
    have b2 := hv p n
    have a1' := abs_lt.mp a1
    have e1 : |slow (w * h) - 1 + (w * h) ^ 2| ≤ 2 + (w * h) ^ 2 := by
      rw [abs_le]
      constructor <;> nlinarith [sq_nonneg (w * h)]
    have hsq : 0 < (w * h) ^ 2 := by positivity
    rw [(from_modes w h hw hh (swings w h p n)).2, abs_div, abs_of_pos hsq, div_le_iff₀ hsq]
    have e : ((2 + (w * h) ^ 2) * D + B) / (w * h) ^ 2 * (|p.1| + |p.2|) * (w * h) ^ 2 =
        (2 + (w * h) ^ 2) * (D * (|p.1| + |p.2|)) + B * (|p.1| + |p.2|) := by
      field_simp
    rw [e]
    calc |(slow (w * h) - 1 + (w * h) ^ 2) * ((swings w h p n).2 * h) - mode w h (slow (w * h)) (swings w h p n)|
        ≤ |(slow (w * h) - 1 + (w * h) ^ 2) * ((swings w h p n).2 * h)| + |mode w h (slow (w * h)) (swings w h p n)| :=
          abs_sub _ _
      _ ≤ _ := by
          rw [abs_mul]
          have := mul_le_mul e1 b2 (abs_nonneg _) (by positivity)
          linarith
  refine ⟨max (((2 + (w * h) ^ 2) * D + B) / (w * h) ^ 2) (D / h), ?_, ?_⟩
  · exact lt_of_lt_of_le (by positivity) (le_max_left _ _)
  · intro p n
    have hs0 : 0 ≤ |p.1| + |p.2| := by positivity
    constructor
    · exact le_trans (hx p n) (mul_le_mul_of_nonneg_right (le_max_left _ _) hs0)
    · have h2 : |(swings w h p n).2| ≤ D / h * (|p.1| + |p.2|) := by
        have := hv p n
        rw [abs_mul, abs_of_pos hh] at this
        rw [div_mul_eq_mul_div, le_div_iff₀ hh]
        exact this
      exact le_trans h2 (mul_le_mul_of_nonneg_right (le_max_right _ _) hs0)

theorem after_params (s : Spring) (h : ℝ) (n : Nat) : (s.after h n).x0 = s.x0 ∧ (s.after h n).t = s.t ∧
    (s.after h n).d = s.d := by
  induction n with
  | zero => exact ⟨rfl, rfl, rfl⟩
  | succ n ih => exact ih

theorem after_swings (s : Spring) (h : ℝ) (ht : 0 ≤ s.t) (hd : s.d = 2 * sqrt s.t) (n : Nat) :
    ((s.after h n).x - s.x0, (s.after h n).v) = swings (sqrt s.t) h (s.x - s.x0, s.v) n := by
  induction n with
  | zero => rfl
  | succ n ih =>
    obtain ⟨h1, h2, h3⟩ := after_params s h n
    rw [swings, ← ih, swing, mul_self_sqrt ht]
    simp only [Spring.after, Spring.update, Spring.vel, Spring.force, h1, h2, h3, hd]
    refine Prod.ext ?_ ?_ <;> simp only <;> ring

/-- A critically damped spring comes to rest at its target from any state, if the time step is less than
`(2 √2 - 2) / √tension`. -/
theorem spring_converges (s : Spring) (h : ℝ) (ht : 0 < s.t) (hd : s.d = 2 * sqrt s.t) (hh : 0 < h)
    (hs : sqrt s.t * h < 2 * sqrt 2 - 2) :
    Tendsto (fun n => (s.after h n).x) atTop (nhds s.x0) ∧ Tendsto (fun n => (s.after h n).v) atTop (nhds 0) := by
  have hw : 0 < sqrt s.t := sqrt_pos.mpr ht
  have hr : 0 < sqrt s.t * h := mul_pos hw hh
  have h2 : sqrt 2 ^ 2 = 2 := sq_sqrt (by norm_num)
  have hs' : (sqrt s.t * h) ^ 2 + 4 * (sqrt s.t * h) < 4 := by nlinarith
  obtain ⟨t1, t2⟩ := swings_tendsto (sqrt s.t) h hw hh hs' (s.x - s.x0, s.v)
  constructor
  · have := t1.add_const s.x0
    rw [zero_add] at this
    refine this.congr fun n => ?_
    rw [← after_swings s h ht.le hd n]
    simp
  · refine t2.congr fun n => ?_
    rw [← after_swings s h ht.le hd n]

/-- With greater time steps it does not: released off its target it never comes to rest there. -/
theorem spring_fails (x x0 t h : ℝ) (ht : 0 < t) (hh : 0 < h) (hs : 2 * sqrt 2 - 2 ≤ sqrt t * h) (hx : x ≠ x0) :
    ¬ (Tendsto (fun n => ((criticallyDamped x x0 t).after h n).x) atTop (nhds x0) ∧
      Tendsto (fun n => ((criticallyDamped x x0 t).after h n).v) atTop (nhds 0)) := by
  have hw : 0 < sqrt t := sqrt_pos.mpr ht
  have hr : 0 < sqrt t * h := mul_pos hw hh
  have h2 : sqrt 2 ^ 2 = 2 := sq_sqrt (by norm_num)
  have hsp := sqrt_nonneg 2
  have hs' : 4 ≤ (sqrt t * h) ^ 2 + 4 * (sqrt t * h) := by nlinarith
  have hf := fast_le _ hr hs'
  have hsw := after_swings (criticallyDamped x x0 t) h ht.le rfl
  simp only [criticallyDamped] at hsw
  rintro ⟨t1, t2⟩
  have tm : Tendsto (fun n => mode (sqrt t) h (fast (sqrt t * h)) (swings (sqrt t) h (x - x0, 0) n)) atTop (nhds 0) := by
    have e1 : Tendsto (fun n => ((criticallyDamped x x0 t).after h n).x - x0) atTop (nhds 0) := by
      have := t1.sub_const x0
      rwa [sub_self] at this
    have := (((t2.mul_const h).const_mul (fast (sqrt t * h) - 1 + (sqrt t * h) ^ 2))).sub
      (e1.const_mul ((sqrt t * h) ^ 2))
    simp only [zero_mul, mul_zero, sub_zero] at this
    refine this.congr fun n => ?_
    rw [← hsw n]
    rfl
  have hm0 : mode (sqrt t) h (fast (sqrt t * h)) (x - x0, 0) ≠ 0 := by
    unfold mode
    simp only [zero_mul, mul_zero, zero_sub, ne_eq, neg_eq_zero, mul_eq_zero, not_or]
    exact ⟨by positivity, sub_ne_zero.mpr hx⟩
  have hbig : ∀ n, |mode (sqrt t) h (fast (sqrt t * h)) (x - x0, 0)| ≤
      |mode (sqrt t) h (fast (sqrt t * h)) (swings (sqrt t) h (x - x0, 0) n)| := by
    intro n
    rw [mode_after _ _ _ (fast_root _ hr), abs_mul, abs_pow]
    have : 1 ≤ |fast (sqrt t * h)| := by rw [abs_of_neg (by linarith)]; linarith
    exact le_mul_of_one_le_left (abs_nonneg _) (one_le_pow₀ this)
  have := ge_of_tendsto (tm.abs) (Eventually.of_forall hbig)
  rw [abs_zero] at this
  exact absurd (abs_nonpos_iff.mp this) hm0

/-- Released at rest it does not overshoot if the time step is less than `1 / (2 √tension)`: it stays on its side of the target. -/
theorem spring_no_overshoot (x x0 t h : ℝ) (ht : 0 < t) (hh : 0 < h) (hs : 2 * (sqrt t * h) < 1) (n : Nat) :
    (x0 < x → x0 < ((criticallyDamped x x0 t).after h n).x) ∧
    (x < x0 → ((criticallyDamped x x0 t).after h n).x < x0) := by
  have hw : 0 < sqrt t := sqrt_pos.mpr ht
  have hr : 0 < sqrt t * h := mul_pos hw hh
  have hsw := after_swings (criticallyDamped x x0 t) h ht.le rfl n
  simp only [criticallyDamped] at hsw
  -- the deviation is the one at the start times a positive factor
  have key : ∃ c, 0 < c ∧ (swings (sqrt t) h (x - x0, 0) n).1 = c * (x - x0) := by
    obtain ⟨f1, f2⟩ := from_modes (sqrt t) h hw hh (swings (sqrt t) h (x - x0, 0) n)
    rw [f1, mode_after _ _ _ (slow_root _ hr), mode_after _ _ _ (fast_root _ hr)] at f2
    have hm : ∀ l, mode (sqrt t) h l (x - x0, 0) = -((sqrt t * h) ^ 2 * (x - x0)) := by
      intro l; unfold mode; simp
    rw [hm, hm] at f2
    have hd := disc_pos _ hr
    have hsl := fast_lt_slow _ hr
    have hfp := fast_pos _ hr hs
    have hslp : 0 < slow (sqrt t * h) := by linarith
    have hpow : fast (sqrt t * h) ^ n ≤ slow (sqrt t * h) ^ n := pow_le_pow_left₀ hfp.le hsl.le n
    have hfpow : 0 < fast (sqrt t * h) ^ n := pow_pos hfp n
    have hspow : 0 < slow (sqrt t * h) ^ n := pow_pos hslp n
    refine ⟨((1 - (sqrt t * h) ^ 2 - fast (sqrt t * h)) * slow (sqrt t * h) ^ n
      - (1 - (sqrt t * h) ^ 2 - slow (sqrt t * h)) * fast (sqrt t * h) ^ n) / disc (sqrt t * h), ?_, ?_⟩
    · apply div_pos _ hd
      have e1 : 0 < 1 - (sqrt t * h) ^ 2 - fast (sqrt t * h) := by
        unfold fast
        nlinarith
      rcases le_total 0 (1 - (sqrt t * h) ^ 2 - slow (sqrt t * h)) with h' | h'
      · have : (1 - (sqrt t * h) ^ 2 - slow (sqrt t * h)) * fast (sqrt t * h) ^ n ≤
            (1 - (sqrt t * h) ^ 2 - slow (sqrt t * h)) * slow (sqrt t * h) ^ n := mul_le_mul_of_nonneg_left hpow h'
        nlinarith
      · have : (1 - (sqrt t * h) ^ 2 - slow (sqrt t * h)) * fast (sqrt t * h) ^ n ≤ 0 :=
          mul_nonpos_of_nonpos_of_nonneg h' hfpow.le
        have := mul_pos e1 hspow
        linarith
    · rw [f2]
      have hdd : disc (sqrt t * h) = slow (sqrt t * h) - fast (sqrt t * h) := by unfold slow fast; ring
      have hne : slow (sqrt t * h) - fast (sqrt t * h) ≠ 0 := by linarith
      have hq : (sqrt t * h) ^ 2 ≠ 0 := by positivity
      rw [hdd]
      generalize slow (sqrt t * h) = a at *
      generalize fast (sqrt t * h) = b at *
      generalize (sqrt t * h) ^ 2 = q at *
      field_simp
      ring
  obtain ⟨c, hc, he⟩ := key
  rw [← hsw] at he
  simp only at he
  constructor
  · intro h'
    have := mul_pos hc (sub_pos.mpr h')
    change _ = _ at he
    simp only [criticallyDamped]
    linarith
  · intro h'
    have := mul_pos hc (sub_pos.mpr h')
    simp only [criticallyDamped]
    nlinarith

/-- Without damping the spring goes on swinging: this energy stays the same. -/
theorem spring_undamped (s : Spring) (h : ℝ) (hd : s.d = 0) (n : Nat) :
    (s.after h n).v ^ 2 + s.t * ((s.after h n).x - s.x0) ^ 2 - s.t * h * ((s.after h n).x - s.x0) * (s.after h n).v =
      s.v ^ 2 + s.t * (s.x - s.x0) ^ 2 - s.t * h * (s.x - s.x0) * s.v := by
  induction n with
  | zero => rfl
  | succ n ih =>
    obtain ⟨h1, h2, h3⟩ := after_params s h n
    rw [← ih]
    simp only [Spring.after, Spring.update, Spring.vel, Spring.force, h1, h2, h3, hd]
    ring

/-- A critically damped spring stays so when its tension is changed; setting the damping ends this. -/
theorem spring_tension (s : Spring) (t d : ℝ) :
    (s.critical = true → (s.setTension t).d = 2 * sqrt t ∧ (s.setTension t).critical = true) ∧
    ((s.setDamping d).setTension t).d = d ∧ ((s.setDamping d).setOptimalDamping.setTension t).d = 2 * sqrt t ∧
    (s.setTension t).t = t ∧ (s.setTension t).x = s.x ∧ (s.setTension t).v = s.v := by
  refine ⟨?_, ?_, ?_, ?_, ?_, ?_⟩
  · intro h; simp [Spring.setTension, h]
  · simp [Spring.setTension, Spring.setDamping]
  · simp [Spring.setTension, Spring.setDamping, Spring.setOptimalDamping]
  all_goals (unfold Spring.setTension; split <;> rfl)

end Verif.Spring

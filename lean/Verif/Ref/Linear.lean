import Mathlib.Analysis.SpecificLimits.Basic
import Mathlib.Analysis.SpecialFunctions.Pow.Real
import Mathlib.Tactic.Linarith
import Mathlib.Tactic.LinearCombination
import Mathlib.Tactic.FieldSimp
import Mathlib.Tactic.Positivity
/-
A mass on a spring with critical damping, in steps: first the speed, then the position.
-/
namespace Verif.Ref
open Real Filter Topology

/-- One step of distance and relative speed with `c` the root of the stiffness. -/
def lin (c dt : ℝ) (s : ℝ × ℝ) : ℝ × ℝ :=
  (s.1 + (s.2 + (-(c ^ 2) * s.1 - 2 * c * s.2) * dt) * dt, s.2 + (-(c ^ 2) * s.1 - 2 * c * s.2) * dt)

/-- After `n` steps. -/
def linRun (c dt : ℝ) (s : ℝ × ℝ) : ℕ → ℝ × ℝ
  | 0 => s
  | n + 1 => lin c dt (linRun c dt s n)

theorem lin_recurrence (c dt : ℝ) (s : ℝ × ℝ) (n : ℕ) :
    (linRun c dt s (n + 2)).1 = (2 - 2 * (c * dt) - (c * dt) ^ 2) * (linRun c dt s (n + 1)).1 - (1 - 2 * (c * dt)) * (linRun c dt s n).1 := by
  simp only [linRun, lin]
  ring

theorem geometric {f : ℕ → ℝ} {q : ℝ} (h : ∀ n, f (n + 1) = q * f n) (n : ℕ) : f n = q ^ n * f 0 := by
  induction n with
  | zero => simp
  | succ n ih => rw [h, ih]; ring

/-- Distances that follow a recurrence with two different factors below 1 vanish. -/
theorem recurrence_tendsto {e : ℕ → ℝ} {a b : ℝ} (h : ∀ n, e (n + 2) = (a + b) * e (n + 1) - a * b * e n) (hab : a ≠ b) (ha : |a| < 1) (hb : |b| < 1) :
    Tendsto e atTop (𝓝 0) := by
  have hp : ∀ n, (fun n => e (n + 1) - b * e n) (n + 1) = a * (fun n => e (n + 1) - b * e n) n := fun n => by
    show e (n + 2) - b * e (n + 1) = a * (e (n + 1) - b * e n)
    rw [h]
    ring
  have hq : ∀ n, (fun n => e (n + 1) - a * e n) (n + 1) = b * (fun n => e (n + 1) - a * e n) n := fun n => by
    show e (n + 2) - a * e (n + 1) = b * (e (n + 1) - a * e n)
    rw [h]
    ring
  have hd : a - b ≠ 0 := sub_ne_zero.2 hab
  have he : ∀ n, e n = (a ^ n * (e 1 - b * e 0) - b ^ n * (e 1 - a * e 0)) / (a - b) := by
    intro n
    have p := geometric (f := fun n => e (n + 1) - b * e n) hp n
    have q := geometric (f := fun n => e (n + 1) - a * e n) hq n
    simp only [zero_add] at p q
    rw [eq_div_iff hd, ← p, ← q]
    ring
  have t := (((tendsto_pow_atTop_nhds_zero_of_abs_lt_one ha).mul_const (e 1 - b * e 0)).sub
    ((tendsto_pow_atTop_nhds_zero_of_abs_lt_one hb).mul_const (e 1 - a * e 0))).div_const (a - b)
  simp only [zero_mul, sub_zero, zero_div] at t
  exact t.congr (fun n => (he n).symm)

/-- Root of the discriminant. -/
noncomputable def disc (A : ℝ) : ℝ := √(A ^ 3 * (A + 4))

theorem disc_sq {A : ℝ} (h : 0 < A) : disc A ^ 2 = A ^ 3 * (A + 4) := Real.sq_sqrt (by positivity)

theorem disc_pos {A : ℝ} (h : 0 < A) : 0 < disc A := Real.sqrt_pos.2 (by positivity)

/-- **The spring comes to rest**: distance and relative speed vanish if `(c·dt)² + 4·c·dt < 4`. -/
theorem lin_tendsto {c dt : ℝ} (hc : 0 < c) (hdt : 0 < dt) (hs : (c * dt) ^ 2 + 4 * (c * dt) < 4) (s : ℝ × ℝ) :
    Tendsto (fun n => (linRun c dt s n).1) atTop (𝓝 0) ∧ Tendsto (fun n => (linRun c dt s n).2) atTop (𝓝 0) := by
  have hA : 0 < c * dt := mul_pos hc hdt
  have hD := disc_pos hA
  have hD2 := disc_sq hA
  have k1 : disc (c * dt) < 2 * (c * dt) + (c * dt) ^ 2 := by
    apply lt_of_pow_lt_pow_left₀ 2 (by positivity)
    rw [hD2]
    nlinarith [mul_pos hA hA]
  have hA1 : c * dt < 1 := by
    by_contra hx
    nlinarith [not_lt.1 hx]
  have k2 : disc (c * dt) < 4 - 2 * (c * dt) - (c * dt) ^ 2 := by
    apply lt_of_pow_lt_pow_left₀ 2 (by nlinarith)
    rw [hD2]
    nlinarith
  have e1 : Tendsto (fun n => (linRun c dt s n).1) atTop (𝓝 0) := by
    refine recurrence_tendsto (a := ((2 - 2 * (c * dt) - (c * dt) ^ 2) + disc (c * dt)) / 2) (b := ((2 - 2 * (c * dt) - (c * dt) ^ 2) - disc (c * dt)) / 2) ?_ ?_ ?_ ?_
    · intro n
      have hp : ((2 - 2 * (c * dt) - (c * dt) ^ 2) + disc (c * dt)) / 2 * (((2 - 2 * (c * dt) - (c * dt) ^ 2) - disc (c * dt)) / 2) = 1 - 2 * (c * dt) := by
        linear_combination (-1 / 4) * hD2
      rw [lin_recurrence, hp]
      ring
    · intro h
      linarith
    · rw [abs_lt]
      constructor <;> linarith
    · rw [abs_lt]
      constructor <;> linarith
  refine ⟨e1, ?_⟩
  have hshift : Tendsto (fun n => ((linRun c dt s (n + 1)).1 - (linRun c dt s n).1) / dt) atTop (𝓝 0) := by
    have := ((e1.comp (tendsto_add_atTop_nat 1)).sub e1).div_const dt
    simpa using this
  have : Tendsto (fun n => (linRun c dt s (n + 1)).2) atTop (𝓝 0) := by
    refine hshift.congr (fun n => ?_)
    simp only [linRun, lin]
    field_simp
    ring
  exact (tendsto_add_atTop_iff_nat 1).1 this

/-- **With larger time steps it swings up**: if `(c·dt)² + 4·c·dt > 4`, for every distance there is a relative speed from which the distance changes its sign and
grows by the same factor above 1 in every step. -/
theorem lin_unstable {c dt : ℝ} (hc : 0 < c) (hdt : 0 < dt) (hs : (c * dt) ^ 2 + 4 * (c * dt) > 4) (e : ℝ) :
    ∃ u q : ℝ, q < -1 ∧ ∀ n, (linRun c dt (e, u) n).1 = q ^ n * e := by
  have hA : 0 < c * dt := mul_pos hc hdt
  have hD := disc_pos hA
  have hD2 := disc_sq hA
  have hh : 1 / 2 < c * dt := by
    by_contra hx
    nlinarith [not_lt.1 hx]
  have k2 : 4 - 2 * (c * dt) - (c * dt) ^ 2 < disc (c * dt) := by
    rcases lt_or_ge (4 - 2 * (c * dt) - (c * dt) ^ 2) 0 with h | h
    · linarith
    · apply lt_of_pow_lt_pow_left₀ 2 hD.le
      rw [hD2]
      nlinarith
  have hne : 1 - 2 * (c * dt) ≠ 0 := by linarith
  refine ⟨((((2 - 2 * (c * dt) - (c * dt) ^ 2) - disc (c * dt)) / 2 - 1) * e + (c * dt) ^ 2 * e) / ((1 - 2 * (c * dt)) * dt),
    ((2 - 2 * (c * dt) - (c * dt) ^ 2) - disc (c * dt)) / 2, by linarith, ?_⟩
  generalize hq : ((2 - 2 * (c * dt) - (c * dt) ^ 2) - disc (c * dt)) / 2 = q
  have hq2 : q ^ 2 = (2 - 2 * (c * dt) - (c * dt) ^ 2) * q - (1 - 2 * (c * dt)) := by
    rw [← hq]
    linear_combination (1 / 4) * hD2
  generalize hu : ((q - 1) * e + (c * dt) ^ 2 * e) / ((1 - 2 * (c * dt)) * dt) = u
  have hu' : (1 - 2 * (c * dt)) * dt * u = (q - 1) * e + (c * dt) ^ 2 * e := by
    rw [← hu, mul_comm, div_mul_cancel₀ _ (mul_ne_zero hne hdt.ne')]
  have h1 : (linRun c dt (e, u) 1).1 = q * e := by
    simp only [linRun, lin]
    linear_combination hu'
  have both : ∀ n, (linRun c dt (e, u) n).1 = q ^ n * e ∧ (linRun c dt (e, u) (n + 1)).1 = q ^ (n + 1) * e := by
    intro n
    induction n with
    | zero => exact ⟨by simp [linRun], by simpa using h1⟩
    | succ n ih =>
      refine ⟨ih.2, ?_⟩
      rw [lin_recurrence, ih.1, ih.2]
      linear_combination -(q ^ n * e) * hq2
  exact fun n => (both n).1

/-- From behind with small steps: no overshoot. -/
theorem lin_behind {c dt : ℝ} (hc : 0 < c) (hdt : 0 < dt) (hs : c * dt ≤ 1 / 2) {s : ℝ × ℝ} (h1 : s.1 ≤ 0) (h2 : 0 ≤ s.2) (h3 : s.2 ≤ -c * s.1) (n : ℕ) :
    s.1 ≤ (linRun c dt s n).1 ∧ (linRun c dt s n).1 ≤ (linRun c dt s (n + 1)).1 ∧ (linRun c dt s n).1 ≤ 0 ∧ 0 ≤ (linRun c dt s n).2 ∧
    (linRun c dt s n).2 ≤ -c * (linRun c dt s n).1 := by
  have hA : 0 < c * dt := mul_pos hc hdt
  have stp : ∀ t : ℝ × ℝ, t.1 ≤ 0 → 0 ≤ t.2 → t.2 ≤ -c * t.1 →
      t.1 ≤ (lin c dt t).1 ∧ (lin c dt t).1 ≤ 0 ∧ 0 ≤ (lin c dt t).2 ∧ (lin c dt t).2 ≤ -c * (lin c dt t).1 := by
    rintro ⟨e, u⟩ a1 a2 a3
    simp only at a1 a2 a3
    have hu : (lin c dt (e, u)).2 = (1 - 2 * (c * dt)) * u + c * (c * dt) * -e := by
      simp only [lin]
      ring
    have he : (lin c dt (e, u)).1 = e + (lin c dt (e, u)).2 * dt := rfl
    have hce : 0 ≤ c * -e := mul_nonneg hc.le (by linarith)
    have lo : 0 ≤ (lin c dt (e, u)).2 := by
      rw [hu]
      have := mul_nonneg (show 0 ≤ 1 - 2 * (c * dt) by linarith) a2
      nlinarith [mul_nonneg hce hA.le]
    have hi : (lin c dt (e, u)).2 ≤ c * -e * (1 - c * dt) := by
      rw [hu]
      have := mul_le_mul_of_nonneg_left a3 (show 0 ≤ 1 - 2 * (c * dt) by linarith)
      nlinarith
    generalize (lin c dt (e, u)).2 = u' at *
    have hm := mul_le_mul_of_nonneg_right hi hdt.le
    refine ⟨?_, ?_, lo, ?_⟩
    · rw [he]
      nlinarith [mul_nonneg lo hdt.le]
    · rw [he]
      nlinarith [mul_nonneg (show 0 ≤ -e by linarith) hA.le, mul_nonneg (mul_nonneg (show 0 ≤ -e by linarith) hA.le) hA.le,
        mul_nonneg (show 0 ≤ -e by linarith) (show 0 ≤ 1 - c * dt by linarith)]
    · rw [he]
      have hq := mul_le_mul_of_nonneg_right hi (show 0 ≤ 1 + c * dt by linarith)
      nlinarith [mul_nonneg hce (mul_nonneg hA.le hA.le)]
  have inv : ∀ n, s.1 ≤ (linRun c dt s n).1 ∧ (linRun c dt s n).1 ≤ 0 ∧ 0 ≤ (linRun c dt s n).2 ∧ (linRun c dt s n).2 ≤ -c * (linRun c dt s n).1 := by
    intro n
    induction n with
    | zero => exact ⟨le_rfl, h1, h2, h3⟩
    | succ n ih =>
      obtain ⟨i0, i1, i2, i3⟩ := ih
      obtain ⟨j0, j1, j2, j3⟩ := stp _ i1 i2 i3
      exact ⟨i0.trans j0, j1, j2, j3⟩
  obtain ⟨i0, i1, i2, i3⟩ := inv n
  exact ⟨i0, (stp _ i1 i2 i3).1, i1, i2, i3⟩

end Verif.Ref

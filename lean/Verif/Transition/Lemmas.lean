import Verif.Transition.Model
import Mathlib.Analysis.SpecialFunctions.Trigonometric.Bounds
import Mathlib.Tactic.Linarith
import Mathlib.Tactic.Ring
import Mathlib.Tactic.FieldSimp
import Mathlib.Tactic.Positivity

/-
Lemmas on the model of `TransitionDynamics`.
-/
namespace Verif.Transition

theorem small_pos : 0 < small := by unfold small; norm_num

theorem sign_abs_le (x y : ℝ) : |sign x * y| = |y| := by
  unfold sign; split_ifs <;> simp

theorem maxM_eq (x y : ℝ) : maxM x y = max x y := by
  unfold maxM; split_ifs with h
  · exact (max_eq_right h.le).symm
  · exact (max_eq_left (not_lt.mp h)).symm

theorem minM_eq (x y : ℝ) : minM x y = min x y := by
  unfold minM; split_ifs with h
  · exact (min_eq_right h.le).symm
  · exact (min_eq_left (not_lt.mp h)).symm

theorem avoidZero_of_ge {x : ℝ} (h : small ≤ x) : avoidZero x = x := by
  have h0 : 0 ≤ x := small_pos.le.trans h
  unfold avoidZero sign
  rw [if_neg (not_lt.mpr h0), maxM_eq, abs_of_nonneg h0, max_eq_right h, one_mul]

theorem abs_avoidZero (x : ℝ) : |avoidZero x| = max small |x| := by
  unfold avoidZero
  rw [sign_abs_le, maxM_eq, abs_of_nonneg]
  exact small_pos.le.trans (le_max_left _ _)

theorem abs_avoidZero_ge (x : ℝ) : |x| ≤ |avoidZero x| := by
  rw [abs_avoidZero]; exact le_max_right _ _

theorem avoidZero_of_nonneg {x : ℝ} (h : 0 ≤ x) : avoidZero x = max small x := by
  unfold avoidZero sign
  rw [if_neg (not_lt.mpr h), maxM_eq, abs_of_nonneg h, one_mul]

/-- The interpolation weight of a shape as a function of the fraction `u` of the parameter range:
the mathematical curve named in the comment of OSCPrivateAction.cpp:28-57. -/
noncomputable def weight (s : Shape) (u : ℝ) : ℝ :=
  match s with
  | .linear => u
  | .cubic => u ^ 2 * (3 - 2 * u)
  | .sinusoidal => (1 - Real.cos (Real.pi * u)) / 2
  | _ => 1

/-- The largest slope of the weight. -/
noncomputable def slope (s : Shape) : ℝ :=
  match s with
  | .linear => 1
  | .cubic => 3 / 2
  | .sinusoidal => Real.pi / 2
  | _ => 0

/-- One of the three shapes that take time. -/
def Smooth (s : Shape) : Prop := s = .linear ∨ s = .cubic ∨ s = .sinusoidal

theorem weight_zero {s : Shape} (h : Smooth s) : weight s 0 = 0 := by
  rcases h with rfl | rfl | rfl <;> simp [weight]

theorem weight_one {s : Shape} (h : Smooth s) : weight s 1 = 1 := by
  rcases h with rfl | rfl | rfl <;> simp [weight] <;> norm_num

theorem weight_mono {s : Shape} (h : Smooth s) {u v : ℝ} (hu : 0 ≤ u) (huv : u ≤ v) (hv : v ≤ 1) :
    weight s u ≤ weight s v := by
  rcases h with rfl | rfl | rfl
  · exact huv
  · simp only [weight]
    have h1 : 0 ≤ (v - u) * (u * (1 - u) + v * (1 - v)) := by
      apply mul_nonneg (by linarith)
      have := mul_nonneg hu (by linarith : 0 ≤ 1 - u)
      have := mul_nonneg (by linarith : 0 ≤ v) (by linarith : 0 ≤ 1 - v)
      linarith
    have h2 : 0 ≤ (v - u) * (u * (1 - v) + v * (1 - u)) := by
      apply mul_nonneg (by linarith)
      have := mul_nonneg hu (by linarith : 0 ≤ 1 - v)
      have := mul_nonneg (by linarith : 0 ≤ v) (by linarith : 0 ≤ 1 - u)
      linarith
    nlinarith
  · simp only [weight]
    have := Real.cos_le_cos_of_nonneg_of_le_pi (x := Real.pi * u) (y := Real.pi * v)
      (by have := Real.pi_pos; positivity)
      (by have := Real.pi_pos; nlinarith) (by have := Real.pi_pos; nlinarith)
    linarith

theorem weight_symm {s : Shape} (h : Smooth s) (u : ℝ) : weight s (1 - u) = 1 - weight s u := by
  rcases h with rfl | rfl | rfl
  · rfl
  · simp only [weight]; ring
  · simp only [weight]
    rw [show Real.pi * (1 - u) = Real.pi - Real.pi * u by ring, Real.cos_pi_sub]; ring

theorem weight_mem {s : Shape} (h : Smooth s) {u : ℝ} (hu : 0 ≤ u) (hv : u ≤ 1) :
    0 ≤ weight s u ∧ weight s u ≤ 1 := by
  constructor
  · have := weight_mono h le_rfl hu hv; rwa [weight_zero h] at this
  · have := weight_mono h hu hv le_rfl; rwa [weight_one h] at this

theorem slope_pos {s : Shape} (h : Smooth s) : 1 ≤ slope s := by
  rcases h with rfl | rfl | rfl <;> simp only [slope]
  · rfl
  · norm_num
  · have := Real.two_le_pi; linarith

theorem weight_lip {s : Shape} (h : Smooth s) {u v : ℝ} (hu : 0 ≤ u) (hu1 : u ≤ 1) (hv : 0 ≤ v)
    (hv1 : v ≤ 1) : |weight s u - weight s v| ≤ slope s * |u - v| := by
  rcases h with rfl | rfl | rfl
  · simp [weight, slope]
  · simp only [weight, slope]
    have e : u ^ 2 * (3 - 2 * u) - v ^ 2 * (3 - 2 * v)
        = (3 * (u + v) - 2 * (u ^ 2 + u * v + v ^ 2)) * (u - v) := by ring
    rw [e, abs_mul]
    apply mul_le_mul_of_nonneg_right _ (abs_nonneg _)
    rw [abs_le]
    constructor
    · nlinarith [mul_nonneg hu (by linarith : 0 ≤ 1 - u), mul_nonneg hv (by linarith : 0 ≤ 1 - v),
        mul_nonneg hu (by linarith : 0 ≤ 1 - v), mul_nonneg hv (by linarith : 0 ≤ 1 - u)]
    · nlinarith [sq_nonneg (1 - u - v), sq_nonneg (u - v)]
  · simp only [weight, slope]
    have e := Real.abs_cos_sub_cos_le (Real.pi * v) (Real.pi * u)
    have e2 : (1 - Real.cos (Real.pi * u)) / 2 - (1 - Real.cos (Real.pi * v)) / 2
        = (Real.cos (Real.pi * v) - Real.cos (Real.pi * u)) / 2 := by ring
    rw [e2, abs_div, abs_of_pos (by norm_num : (0:ℝ) < 2)]
    rw [show Real.pi * v - Real.pi * u = Real.pi * (v - u) by ring, abs_mul,
      abs_of_pos Real.pi_pos, abs_sub_comm v u] at e
    linarith

/-- A transition that takes time: one of the smooth shapes over a range of at least 1e-6. -/
def Timed (d : TD) : Prop := Smooth d.shape ∧ small ≤ d.paramTargetVal

theorem Timed.pos {d : TD} (h : Timed d) : 0 < d.paramTargetVal := lt_of_lt_of_le small_pos h.2

theorem Timed.not_isStep {d : TD} (h : Timed d) : ¬ d.isStep := by
  rintro (h1 | ⟨_, h2⟩)
  · rcases h.1 with h | h | h <;> rw [h1] at h <;> cases h
  · exact absurd h.2 (not_le.mpr h2)

theorem evaluate_eq {d : TD} (h : Timed d) :
    d.evaluate = d.startVal
      + (d.targetVal - d.startVal) * weight d.shape (d.paramVal / d.paramTargetVal) := by
  unfold TD.evaluate TD.evaluateAs
  rw [if_neg h.not_isStep, avoidZero_of_ge h.2]
  rcases h.1 with hs | hs | hs <;> simp only [hs, weight, if_true]
  · ring
  · ring
  · rw [show Real.pi * d.paramVal / d.paramTargetVal = Real.pi * (d.paramVal / d.paramTargetVal) by
      ring]
    ring

/-- The fraction of the range at a parameter in the range is between 0 and 1. -/
theorem frac_mem {d : TD} (h : Timed d) {p : ℝ} (h0 : 0 ≤ p) (h1 : p ≤ d.paramTargetVal) :
    0 ≤ p / d.paramTargetVal ∧ p / d.paramTargetVal ≤ 1 :=
  ⟨div_nonneg h0 h.pos.le, (div_le_one h.pos).mpr h1⟩

theorem limitParam_mem {v t : ℝ} (ht : 0 ≤ t) : 0 ≤ limitParam v t ∧ limitParam v t ≤ t := by
  unfold limitParam
  split_ifs with h1 h2
  · exact ⟨ht, le_rfl⟩
  · exact ⟨le_rfl, ht⟩
  · exact ⟨not_lt.mp h2, not_lt.mp h1⟩

theorem limitParam_of_mem {v t : ℝ} (h0 : 0 ≤ v) (h1 : v ≤ t) : limitParam v t = v := by
  unfold limitParam
  rw [if_neg (not_lt.mpr h1), if_neg (not_lt.mpr h0)]

theorem limitParam_of_ge {v t : ℝ} (ht : t ≤ v) : limitParam v t = t ∨ (v = t ∧ v < 0 ∧ limitParam v t = 0) := by
  unfold limitParam
  by_cases h : v > t
  · left; rw [if_pos h]
  · have e : v = t := le_antisymm (not_lt.mp h) ht
    rw [if_neg h]
    by_cases h2 : v < 0
    · right; exact ⟨e, h2, by rw [if_pos h2]⟩
    · left; rw [if_neg h2]; exact e

end Verif.Transition

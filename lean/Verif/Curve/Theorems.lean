import Verif.Curve.Model
import Mathlib.MeasureTheory.Integral.IntervalIntegral.FundThmCalculus
import Mathlib.Analysis.SpecialFunctions.Trigonometric.Deriv
import Mathlib.Analysis.Calculus.MeanValue
import Mathlib.Analysis.SpecialFunctions.Sqrt
/-
Road geometries: lines, arcs and spirals are the curves of unit speed with the given start and curvature;
polynomial geometries; places beside the reference line.
-/
namespace Verif.Curve
open Real

/-! Spec -/

/-- Spec: on `D`, `f` moves with unit speed in the direction of its heading, and the heading turns with rate
`k`: the parameter of `f` is the distance travelled and `k` is the curvature. -/
structure Follows (f : ℝ → Pose) (k : ℝ → ℝ) (D : Set ℝ) : Prop where
  x : ∀ s ∈ D, HasDerivWithinAt (fun s => (f s).x) (cos (f s).h) D s
  y : ∀ s ∈ D, HasDerivWithinAt (fun s => (f s).y) (sin (f s).h) D s
  h : ∀ s ∈ D, HasDerivWithinAt (fun s => (f s).h) (k s) D s

/-! Lines and arcs -/

theorem line_deriv (o : Pose) (s : ℝ) : HasDerivAt (fun s => (line o s).x) (cos (line o s).h) s ∧
    HasDerivAt (fun s => (line o s).y) (sin (line o s).h) s ∧
    HasDerivAt (fun s => (line o s).h) 0 s := by
  refine ⟨?_, ?_, ?_⟩
  · simpa [line] using ((hasDerivAt_id s).mul_const (cos o.h)).const_add o.x
  · simpa [line] using ((hasDerivAt_id s).mul_const (sin o.h)).const_add o.y
  · simpa [line] using hasDerivAt_const s o.h

/-- A line starts at the start of the geometry and goes straight on with the heading given; the distance along it is
the distance travelled. -/
theorem line_follows (o : Pose) (D : Set ℝ) : line o 0 = o ∧ Follows (line o) lineCurvature D := by
  refine ⟨by simp [line], ?_, ?_, ?_⟩
  · exact fun s _ => (line_deriv o s).1.hasDerivWithinAt
  · exact fun s _ => (line_deriv o s).2.1.hasDerivWithinAt
  · exact fun s _ => (line_deriv o s).2.2.hasDerivWithinAt

theorem arc_small (o : Pose) (k : ℝ) (hk : |k| < small) : arc o k = line o := by
  funext s
  simp only [arc, if_pos hk, line]

/-- The local coordinates on an arc, scaled: for both signs they are `sin (s k) / k` and `(1 - cos (s k)) / k`. -/
theorem arc_local (k a : ℝ) (hk : small ≤ |k|) :
    radius k * arcX k a = sin a / k ∧ radius k * arcY k a = (1 - cos a) / k := by
  have h0 : (0 : ℝ) < small := by norm_num [small]
  have hr : radius k = |1 / k| := by rw [radius, if_neg (not_lt.mpr hk)]
  have h3 : 3 * (Real.pi / 2) = Real.pi + Real.pi / 2 := by ring
  rcases lt_trichotomy k 0 with h | h | h
  · rw [hr, abs_of_neg (one_div_neg.mpr h), arcX, arcY, if_pos h, if_pos h, cos_add_pi_div_two, sin_add_pi_div_two]
    constructor <;> field_simp <;> ring
  · rw [h, abs_zero] at hk; linarith
  · rw [hr, abs_of_pos (one_div_pos.mpr h), arcX, arcY, if_neg (not_lt.mpr h.le), if_neg (not_lt.mpr h.le), h3,
      ← add_assoc, cos_add_pi_div_two, sin_add_pi_div_two, sin_add_pi, cos_add_pi]
    constructor <;> field_simp <;> ring

theorem arc_eq (o : Pose) (k : ℝ) (hk : small ≤ |k|) (s : ℝ) : arc o k s =
    ⟨o.x + (sin (s * k) / k * cos o.h - (1 - cos (s * k)) / k * sin o.h),
      o.y + (sin (s * k) / k * sin o.h + (1 - cos (s * k)) / k * cos o.h), o.h + s * k⟩ := by
  obtain ⟨h1, h2⟩ := arc_local k (s * k) hk
  rw [arc, if_neg (not_lt.mpr hk), mul_sub, mul_add, ← mul_assoc, ← mul_assoc, ← mul_assoc, ← mul_assoc, h1, h2]

theorem arc_deriv (o : Pose) (k : ℝ) (hk : small ≤ |k|) (s : ℝ) :
    HasDerivAt (fun s => (arc o k s).x) (cos (arc o k s).h) s ∧
    HasDerivAt (fun s => (arc o k s).y) (sin (arc o k s).h) s ∧
    HasDerivAt (fun s => (arc o k s).h) k s := by
  have h0 : (0 : ℝ) < small := by norm_num [small]
  have hne : k ≠ 0 := by rintro rfl; rw [abs_zero] at hk; linarith
  have hid : HasDerivAt (fun s : ℝ => s * k) k s := by simpa using (hasDerivAt_id s).mul_const k
  have hs : HasDerivAt (fun s => sin (s * k) / k) (cos (s * k)) s := by
    have := (hid.sin).div_const k
    simpa [hne] using this
  have hc : HasDerivAt (fun s => (1 - cos (s * k)) / k) (sin (s * k)) s := by
    have := ((hid.cos).const_sub 1).div_const k
    simpa [hne] using this
  simp only [arc_eq o k hk]
  refine ⟨?_, ?_, ?_⟩
  · have := ((hs.mul_const (cos o.h)).sub (hc.mul_const (sin o.h))).const_add o.x
    rw [cos_add]
    exact this.congr_deriv (by ring)
  · have := ((hs.mul_const (sin o.h)).add (hc.mul_const (cos o.h))).const_add o.y
    rw [sin_add]
    exact this.congr_deriv (by ring)
  · simpa using hid.const_add o.h

/-- An arc starts at the start of the geometry; the distance along it is the distance travelled and its heading turns with
its curvature, in both directions. -/
theorem arc_follows (o : Pose) (k : ℝ) (hk : small ≤ |k|) (D : Set ℝ) :
    arc o k 0 = o ∧ Follows (arc o k) (arcCurvature k) D := by
  refine ⟨by simp [arc_eq o k hk], ?_, ?_, ?_⟩
  · exact fun s _ => (arc_deriv o k hk s).1.hasDerivWithinAt
  · exact fun s _ => (arc_deriv o k hk s).2.1.hasDerivWithinAt
  · exact fun s _ => (arc_deriv o k hk s).2.2.hasDerivWithinAt

/-! Spirals -/

theorem fresnelC_deriv (t : ℝ) : HasDerivAt fresnelC (cos (Real.pi / 2 * t ^ 2)) t :=
  ((by fun_prop : Continuous fun u : ℝ => cos (Real.pi / 2 * u ^ 2)).integral_hasStrictDerivAt 0 t).hasDerivAt

theorem fresnelS_deriv (t : ℝ) : HasDerivAt fresnelS (sin (Real.pi / 2 * t ^ 2)) t :=
  ((by fun_prop : Continuous fun u : ℝ => sin (Real.pi / 2 * u ^ 2)).integral_hasStrictDerivAt 0 t).hasDerivAt

theorem spiralScale_pos (c : ℝ) (hc : c ≠ 0) : 0 < spiralScale c := by
  have := abs_pos.mpr hc
  have := Real.pi_pos
  unfold spiralScale
  positivity

theorem spiralScale_sq (c : ℝ) (hc : c ≠ 0) : spiralScale c ^ 2 = Real.pi / |c| := by
  have h1 := abs_pos.mpr hc
  unfold spiralScale
  rw [mul_pow, div_pow, sq_sqrt h1.le, sq_sqrt Real.pi_pos.le]
  ring

theorem scaled (s c : ℝ) (hc : c ≠ 0) : Real.pi / 2 * (s / spiralScale c) ^ 2 = s * s * |c| * (1 / 2) := by
  have h1 := abs_pos.mpr hc
  have := Real.pi_pos
  rw [div_pow, spiralScale_sq c hc]
  field_simp

theorem odr_deriv (c : ℝ) (hc : c ≠ 0) (s : ℝ) :
    HasDerivAt (fun s => (odrSpiral s c).x) (cos (odrSpiral s c).h) s ∧
    HasDerivAt (fun s => (odrSpiral s c).y) (sin (odrSpiral s c).h) s ∧
    HasDerivAt (fun s => (odrSpiral s c).h) (s * c) s := by
  have ha := spiralScale_pos c hc
  have hd : HasDerivAt (fun s : ℝ => s / spiralScale c) (1 / spiralScale c) s := (hasDerivAt_id s).div_const _
  have hx : HasDerivAt (fun s => fresnelC (s / spiralScale c) * spiralScale c)
      (cos (s * s * |c| * (1 / 2))) s := by
    have := ((fresnelC_deriv (s / spiralScale c)).comp s hd).mul_const (spiralScale c)
    rw [scaled s c hc] at this
    exact this.congr_deriv (by field_simp)
  have hy : HasDerivAt (fun s => fresnelS (s / spiralScale c) * spiralScale c)
      (sin (s * s * |c| * (1 / 2))) s := by
    have := ((fresnelS_deriv (s / spiralScale c)).comp s hd).mul_const (spiralScale c)
    rw [scaled s c hc] at this
    exact this.congr_deriv (by field_simp)
  refine ⟨?_, ?_, ?_⟩
  · simp only [odrSpiral]
    rcases lt_or_gt_of_ne hc with h | h
    · rw [abs_of_neg h, show s * s * -c * (1 / 2) = -(s * s * c * (1 / 2)) by ring, cos_neg] at hx
      exact hx
    · rw [abs_of_pos h] at hx
      exact hx
  · simp only [odrSpiral]
    rcases lt_or_gt_of_ne hc with h | h
    · simp only [if_pos h]
      rw [abs_of_neg h, show s * s * -c * (1 / 2) = -(s * s * c * (1 / 2)) by ring, sin_neg] at hy
      have := hy.mul_const (-1)
      exact this.congr_deriv (by ring)
    · simp only [if_neg (not_lt.mpr h.le)]
      rw [abs_of_pos h] at hy
      exact hy
  · simp only [odrSpiral]
    have := (((hasDerivAt_id s).mul (hasDerivAt_id s)).mul_const c).mul_const (1 / 2 : ℝ)
    refine HasDerivAt.congr_deriv (this.congr_of_eventuallyEq (Filter.Eventually.of_forall fun s => rfl)) ?_
    simp only [id]
    ring

/-- The transformation to the start of the geometry keeps unit speed and curvature. -/
theorem place_deriv (g : Spiral) (q : ℝ → Pose) (k s : ℝ)
    (hx : HasDerivAt (fun s => (q s).x) (cos (q s).h) s) (hy : HasDerivAt (fun s => (q s).y) (sin (q s).h) s)
    (hh : HasDerivAt (fun s => (q s).h) k s) :
    HasDerivAt (fun s => (g.place (q s)).x) (cos (g.place (q s)).h) s ∧
    HasDerivAt (fun s => (g.place (q s)).y) (sin (g.place (q s)).h) s ∧
    HasDerivAt (fun s => (g.place (q s)).h) k s := by
  have h1 : HasDerivAt (fun s => g.x2 (q s)) (cos (q s).h * cos (-g.p0.h) - sin (q s).h * sin (-g.p0.h)) s :=
    ((hx.sub_const g.p0.x).mul_const _).sub ((hy.sub_const g.p0.y).mul_const _)
  have h2 : HasDerivAt (fun s => g.y2 (q s)) (cos (q s).h * sin (-g.p0.h) + sin (q s).h * cos (-g.p0.h)) s :=
    ((hx.sub_const g.p0.x).mul_const _).add ((hy.sub_const g.p0.y).mul_const _)
  rw [← cos_add] at h1
  rw [add_comm (_ * _) (_ * _), ← sin_add] at h2
  refine ⟨?_, ?_, ?_⟩
  · have := ((h1.mul_const (cos g.o.h)).const_add g.o.x).sub (h2.mul_const (sin g.o.h))
    simp only [Spiral.place]
    rw [← cos_add] at this
    rw [show (q s).h - g.p0.h + g.o.h = (q s).h + -g.p0.h + g.o.h by ring]
    exact this
  · have := ((h1.mul_const (sin g.o.h)).const_add g.o.y).add (h2.mul_const (cos g.o.h))
    simp only [Spiral.place]
    rw [add_comm (_ * _) (_ * _), ← sin_add] at this
    rw [show (q s).h - g.p0.h + g.o.h = (q s).h + -g.p0.h + g.o.h by ring]
    exact this
  · exact (hh.sub_const g.p0.h).add_const g.o.h

theorem follows_of_deriv (f : ℝ → Pose) (k : ℝ → ℝ) (D : Set ℝ)
    (h : ∀ s, HasDerivAt (fun s => (f s).x) (cos (f s).h) s ∧ HasDerivAt (fun s => (f s).y) (sin (f s).h) s ∧
      HasDerivAt (fun s => (f s).h) (k s) s) : Follows f k D :=
  ⟨fun s _ => (h s).1.hasDerivWithinAt, fun s _ => (h s).2.1.hasDerivWithinAt, fun s _ => (h s).2.2.hasDerivWithinAt⟩

/-- The curvature the points of a spiral have: it is that of a straight line or of an arc if the curvatures at the ends
differ by less than 1e-6, and a start curvature of at most 1e-6 is left out. -/
noncomputable def actual (c0 c1 len s : ℝ) : ℝ :=
  if |c1 - c0| < small then (if |c0| < small then 0 else c0)
  else (if |c0| > small then c0 else 0) + s / len * (c1 - c0)

theorem small_pos : (0 : ℝ) < small := by norm_num [small]

theorem odr_zero (c : ℝ) : odrSpiral 0 c = ⟨0, 0, 0⟩ := by
  simp [odrSpiral, fresnelC, fresnelS]

theorem p0_eq (c0 c : ℝ) : spiralP0 c0 c = odrSpiral (spiralS0 c0 c) c := by
  unfold spiralP0 spiralS0
  by_cases h : |c0| > small
  · simp only [if_pos h]
  · simp only [if_neg h, odr_zero]

theorem raw_follows (o : Pose) (len c0 c1 : ℝ) (hl : 0 < len) (D : Set ℝ) :
    (mkSpiral o len c0 c1).raw 0 = o ∧ Follows (mkSpiral o len c0 c1).raw (actual c0 c1 len) D := by
  by_cases h1 : |c1 - c0| < small
  · by_cases h2 : |c0| < small
    · have hr : (mkSpiral o len c0 c1).raw = line o := by
        funext s
        simp only [Spiral.raw, mkSpiral, spiralKind, if_pos h1, if_pos h2]
      have hk : actual c0 c1 len = lineCurvature := by
        funext s
        simp only [actual, if_pos h1, if_pos h2, lineCurvature]
      rw [hr, hk]
      exact line_follows o D
    · have hr : (mkSpiral o len c0 c1).raw = arc o c0 := by
        funext s
        simp only [Spiral.raw, mkSpiral, spiralKind, if_pos h1, if_neg h2]
      have hk : actual c0 c1 len = arcCurvature c0 := by
        funext s
        simp only [actual, if_pos h1, if_neg h2, arcCurvature]
      rw [hr, hk]
      exact arc_follows o c0 (not_lt.mp h2) D
  · have hne : c1 - c0 ≠ 0 := by
      intro h
      rw [h, abs_zero] at h1
      exact h1 small_pos
    have hc : (c1 - c0) / len ≠ 0 := div_ne_zero hne hl.ne'
    have hr : ∀ s, (mkSpiral o len c0 c1).raw s =
        (mkSpiral o len c0 c1).place (odrSpiral (spiralS0 c0 ((c1 - c0) / len) + s) ((c1 - c0) / len)) := by
      intro s
      simp only [Spiral.raw, mkSpiral, spiralKind, if_neg h1]
    constructor
    · rw [hr, add_zero, ← p0_eq]
      simp [Spiral.place, Spiral.x2, Spiral.y2, mkSpiral]
    · apply follows_of_deriv
      intro s
      have hd : HasDerivAt (fun s : ℝ => spiralS0 c0 ((c1 - c0) / len) + s) 1 s :=
        (hasDerivAt_id s).const_add _
      obtain ⟨e1, e2, e3⟩ := odr_deriv _ hc (spiralS0 c0 ((c1 - c0) / len) + s)
      have hk : actual c0 c1 len s =
          (spiralS0 c0 ((c1 - c0) / len) + s) * ((c1 - c0) / len) := by
        simp only [actual, if_neg h1, spiralS0]
        by_cases h2 : |c0| > small
        · simp only [if_pos h2]
          field_simp
        · simp only [if_neg h2]
          ring
      have f1 := e1.comp s hd
      have f2 := e2.comp s hd
      have f3 := e3.comp s hd
      rw [mul_one] at f1 f2 f3
      rw [← hk] at f3
      have := place_deriv (mkSpiral o len c0 c1)
        (fun s => odrSpiral (spiralS0 c0 ((c1 - c0) / len) + s) ((c1 - c0) / len)) _ s f1 f2 f3
      simpa only [hr] using this

theorem follows_congr (f g : ℝ → Pose) (k : ℝ → ℝ) (D : Set ℝ) (hg : Follows g k D) (he : ∀ s ∈ D, f s = g s) :
    Follows f k D := by
  refine ⟨?_, ?_, ?_⟩
  · intro s hs
    rw [he s hs]
    exact (hg.x s hs).congr (fun t ht => by rw [he t ht]) (by rw [he s hs])
  · intro s hs
    rw [he s hs]
    exact (hg.y s hs).congr (fun t ht => by rw [he t ht]) (by rw [he s hs])
  · intro s hs
    exact (hg.h s hs).congr (fun t ht => by rw [he t ht]) (by rw [he s hs])

theorem eval_raw (g : Spiral) (s : ℝ) (hs : s ∈ Set.Icc 0 g.len) : g.eval s = g.raw s := by
  rw [Spiral.eval, min_eq_left hs.2, max_eq_left hs.1]

/-- A spiral starts at the start of the geometry, the distance along it is the distance travelled, and its curvature goes
evenly from the one given for its start to the one for its end, up to 2e-6: it is exactly so if the curvatures are equal
or differ by at least 1e-6 and the curvature at the start is 0 or greater than 1e-6. -/
theorem spiral_follows (o : Pose) (len c0 c1 : ℝ) (hl : 0 < len) :
    (mkSpiral o len c0 c1).eval 0 = o ∧
    ∃ k, Follows (mkSpiral o len c0 c1).eval k (Set.Icc 0 len) ∧
      (∀ s ∈ Set.Icc 0 len, |k s - (c0 + (c1 - c0) * (s / len))| ≤ 2 * small) ∧
      ((c1 = c0 ∨ small ≤ |c1 - c0|) → (c0 = 0 ∨ small < |c0|) →
        ∀ s, k s = c0 + (c1 - c0) * (s / len)) := by
  obtain ⟨h0, hf⟩ := raw_follows o len c0 c1 hl (Set.Icc 0 len)
  have hlen : (mkSpiral o len c0 c1).len = len := rfl
  refine ⟨?_, actual c0 c1 len, ?_, ?_, ?_⟩
  · rw [eval_raw _ 0 ⟨le_refl _, by rw [hlen]; exact hl.le⟩]
    exact h0
  · exact follows_congr _ _ _ _ hf (fun s hs => eval_raw _ s (by rw [hlen]; exact hs))
  · intro s hs
    have hw0 : 0 ≤ s / len := div_nonneg hs.1 hl.le
    have hw1 : s / len ≤ 1 := (div_le_one hl).mpr hs.2
    have hsm := small_pos
    unfold actual
    have hb : |c1 - c0| < small → |(c1 - c0) * (s / len)| ≤ small := by
      intro h
      rw [abs_mul, abs_of_nonneg hw0]
      nlinarith [abs_nonneg (c1 - c0)]
    split
    · rename_i h
      have := abs_le.mp (hb h)
      split
      · rename_i h2
        have := abs_lt.mp h2
        rw [abs_le]
        constructor <;> linarith
      · rw [abs_le]
        constructor <;> linarith
    · split
      · rw [abs_le]
        constructor <;> nlinarith
      · rename_i h2
        have := abs_le.mp (not_lt.mp h2)
        rw [abs_le]
        constructor <;> nlinarith
  · intro ha hb s
    unfold actual
    rcases ha with rfl | ha
    · rw [sub_self, abs_zero, if_pos small_pos]
      rcases hb with rfl | hb
      · simp [small_pos]
      · rw [if_neg (not_lt.mpr hb.le)]; ring
    · rw [if_neg (not_lt.mpr ha)]
      rcases hb with rfl | hb
      · simp; ring
      · rw [if_pos hb]; ring

/-- The curvature reported along a spiral. -/
theorem spiral_curvature (o : Pose) (len c0 c1 : ℝ) (hl : 0 < len) (s : ℝ) (hs : s ∈ Set.Icc 0 len) :
    |(mkSpiral o len c0 c1).curvature s - (c0 + (c1 - c0) * (s / len))| ≤ 2 * small := by
  have hw0 : 0 ≤ s / len := div_nonneg hs.1 hl.le
  have hw1 : s / len ≤ 1 := (div_le_one hl).mpr hs.2
  have hsm := small_pos
  have hb : |c1 - c0| < small → |(c1 - c0) * (s / len)| ≤ small := by
    intro h
    rw [abs_mul, abs_of_nonneg hw0]
    nlinarith [abs_nonneg (c1 - c0)]
  by_cases h : |c1 - c0| < small
  · have := abs_le.mp (hb h)
    by_cases h2 : |c0| < small
    · have := abs_lt.mp h2
      simp only [Spiral.curvature, mkSpiral, spiralKind, if_pos h, if_pos h2]
      rw [abs_le]
      constructor <;> linarith
    · simp only [Spiral.curvature, mkSpiral, spiralKind, if_pos h, if_neg h2]
      rw [abs_le]
      constructor <;> linarith
  · simp only [Spiral.curvature, mkSpiral, spiralKind, if_neg h]
    rw [abs_le]
    constructor <;> nlinarith

/-- Beyond its ends a spiral stays at them. -/
theorem spiral_ends (o : Pose) (len c0 c1 : ℝ) (hl : 0 < len) (s : ℝ) :
    (s ≤ 0 → (mkSpiral o len c0 c1).eval s = o) ∧
    (len ≤ s → (mkSpiral o len c0 c1).eval s = (mkSpiral o len c0 c1).eval len) := by
  have h0 := (spiral_follows o len c0 c1 hl).1
  constructor
  · intro h
    refine Eq.trans ?_ h0
    have hlen : (mkSpiral o len c0 c1).len = len := rfl
    rw [Spiral.eval, Spiral.eval, hlen, min_eq_left (by linarith), max_eq_right h, min_eq_left hl.le, max_self]
  · intro h
    have hlen : (mkSpiral o len c0 c1).len = len := rfl
    rw [Spiral.eval, Spiral.eval, hlen, min_eq_right h, min_self]

/-! Uniqueness -/

theorem const_of_deriv (f : ℝ → ℝ) (len : ℝ) (h : ∀ s ∈ Set.Icc 0 len, HasDerivWithinAt f 0 (Set.Icc 0 len) s)
    (s : ℝ) (hs : s ∈ Set.Icc 0 len) : f s = f 0 := by
  have hl : (0 : ℝ) ≤ len := le_trans hs.1 hs.2
  exact constant_of_has_deriv_right_zero (fun x hx => (h x hx).continuousWithinAt)
    (fun x hx => ((h x ⟨hx.1, hx.2.le⟩).mono_of_mem_nhdsWithin
      (Filter.mem_of_superset (Icc_mem_nhdsGE hx.2) (Set.Icc_subset_Icc_left hx.1)))) s hs

/-- Start and curvature determine the road: two curves that follow the same curvature from the same start are the
same. -/
theorem follows_unique (f g : ℝ → Pose) (k : ℝ → ℝ) (len : ℝ) (hf : Follows f k (Set.Icc 0 len))
    (hg : Follows g k (Set.Icc 0 len)) (h0 : f 0 = g 0) : ∀ s ∈ Set.Icc 0 len, f s = g s := by
  have hh : ∀ s ∈ Set.Icc 0 len, (f s).h = (g s).h := by
    intro s hs
    have := const_of_deriv (fun s => (f s).h - (g s).h) len (fun s hs => by
      have := (hf.h s hs).sub (hg.h s hs)
      rw [sub_self] at this
      exact this) s hs
    simp only [h0, sub_self] at this
    linarith
  intro s hs
  have h1 := const_of_deriv (fun s => (f s).x - (g s).x) len (fun s hs => by
    have := (hf.x s hs).sub (hg.x s hs)
    rw [hh s hs, sub_self] at this
    exact this) s hs
  have h2 := const_of_deriv (fun s => (f s).y - (g s).y) len (fun s hs => by
    have := (hf.y s hs).sub (hg.y s hs)
    rw [hh s hs, sub_self] at this
    exact this) s hs
  simp only [h0, sub_self] at h1 h2
  have h3 := hh s hs
  cases hfs : f s
  cases hgs : g s
  rw [hfs, hgs] at h1 h2 h3
  simp only at h1 h2 h3
  rw [show _ = _ from h3, sub_eq_zero.mp h1, sub_eq_zero.mp h2]

/-! Places beside the reference line -/

/-- A place beside the reference line is `t` away from it, at a right angle to the heading there, on the left if `t` is
positive; the heading is that of the reference line. -/
theorem beside_perpendicular (p : Pose) (t : ℝ) :
    (beside p t).h = p.h ∧
    ((beside p t).x - p.x) ^ 2 + ((beside p t).y - p.y) ^ 2 = t ^ 2 ∧
    ((beside p t).x - p.x) * cos p.h + ((beside p t).y - p.y) * sin p.h = 0 ∧
    cos p.h * ((beside p t).y - p.y) - sin p.h * ((beside p t).x - p.x) = t := by
  have := sin_sq_add_cos_sq p.h
  refine ⟨rfl, ?_, ?_, ?_⟩
  · simp only [beside]
    linear_combination t ^ 2 * this
  · simp only [beside]
    ring
  · simp only [beside]
    linear_combination t * this

/-- Along a road a place at lateral distance `t` moves in the direction of the heading, `1 - k t` as fast. -/
theorem beside_deriv (f : ℝ → Pose) (k : ℝ → ℝ) (hf : Follows f k Set.univ) (t s : ℝ) :
    HasDerivAt (fun s => (beside (f s) t).x) ((1 - k s * t) * cos (f s).h) s ∧
    HasDerivAt (fun s => (beside (f s) t).y) ((1 - k s * t) * sin (f s).h) s ∧
    HasDerivAt (fun s => (beside (f s) t).h) (k s) s := by
  have hx := hasDerivWithinAt_univ.mp (hf.x s trivial)
  have hy := hasDerivWithinAt_univ.mp (hf.y s trivial)
  have hh := hasDerivWithinAt_univ.mp (hf.h s trivial)
  refine ⟨?_, ?_, hh⟩
  · have := hx.add ((hh.cos.mul_const 0).sub (hh.sin.mul_const t))
    exact this.congr_deriv (by ring)
  · have := hy.add ((hh.sin.mul_const 0).add (hh.cos.mul_const t))
    exact this.congr_deriv (by ring)

/-- On an arc, moving by the change of road coordinate found for a distance moves exactly that distance at the lateral position, and the
curvature reported for the lane is the one of the path there. -/
theorem arc_lane_distance (o : Pose) (k t s : ℝ) (hk : small < |k|) (ht : k * t < 1) :
    Follows (fun d => beside (arc o k (s + distanceToDS k t d)) t) (fun _ => laneCurvature k t) Set.univ := by
  have hp : 0 < 1 - k * t := by linarith
  have hne : k ≠ 0 := by rintro rfl; rw [abs_zero] at hk; linarith [small_pos]
  have hd : ∀ d, HasDerivAt (fun d => s + distanceToDS k t d) (1 / (1 - k * t)) d := by
    intro d
    simp only [distanceToDS, if_pos hk]
    simpa using ((hasDerivAt_id d).mul_const (1 / (1 - k * t))).const_add s
  have hc : laneCurvature k t = k * (1 / (1 - k * t)) := by
    rw [laneCurvature, if_pos hk]
    have : 1 / k - t = (1 - k * t) / k := by field_simp
    rw [this]
    field_simp
  apply follows_of_deriv
  intro d
  obtain ⟨h1, h2, h3⟩ := beside_deriv _ _ (arc_follows o k hk.le Set.univ).2 t (s + distanceToDS k t d)
  refine ⟨?_, ?_, ?_⟩
  · refine (h1.comp d (hd d)).congr_deriv ?_
    simp only [arcCurvature, beside]
    field_simp
  · refine (h2.comp d (hd d)).congr_deriv ?_
    simp only [arcCurvature, beside]
    field_simp
  · refine (h3.comp d (hd d)).congr_deriv ?_
    rw [hc]
    rfl

/-- On any road, and with the curvature where the movement starts: at its start a movement at a lateral position proceeds
with the speed asked for, up to 1e-6 of the lateral distance, in the direction of the road. -/
theorem lane_speed (f : ℝ → Pose) (k : ℝ → ℝ) (hf : Follows f k Set.univ) (t s : ℝ) (ht : k s * t < 1) :
    ∃ m, |m - 1| ≤ small * |t| ∧ (small < |k s| → m = 1) ∧
    HasDerivAt (fun d => (beside (f (s + distanceToDS (k s) t d)) t).x) (m * cos (f s).h) 0 ∧
    HasDerivAt (fun d => (beside (f (s + distanceToDS (k s) t d)) t).y) (m * sin (f s).h) 0 := by
  have hp : 0 < 1 - k s * t := by linarith
  have h00 : s + distanceToDS (k s) t 0 = s := by simp [distanceToDS]
  obtain ⟨h1, h2, _⟩ := beside_deriv f k hf t (s + distanceToDS (k s) t 0)
  by_cases hk : small < |k s|
  · have hd : HasDerivAt (fun d => s + distanceToDS (k s) t d) (1 / (1 - k s * t)) 0 := by
      simp only [distanceToDS, if_pos hk]
      simpa using ((hasDerivAt_id (0 : ℝ)).mul_const (1 / (1 - k s * t))).const_add s
    refine ⟨1, by simpa using mul_nonneg small_pos.le (abs_nonneg t), fun _ => rfl, ?_, ?_⟩
    · refine (h1.comp 0 hd).congr_deriv ?_
      rw [h00]
      field_simp
    · refine (h2.comp 0 hd).congr_deriv ?_
      rw [h00]
      field_simp
  · have hd : HasDerivAt (fun d => s + distanceToDS (k s) t d) 1 0 := by
      simp only [distanceToDS, if_neg hk]
      simpa using (hasDerivAt_id (0 : ℝ)).const_add s
    refine ⟨1 - k s * t, ?_, fun h => absurd h hk, ?_, ?_⟩
    · rw [sub_sub_cancel_left, abs_neg, abs_mul]
      exact mul_le_mul_of_nonneg_right (not_lt.mp hk) (abs_nonneg t)
    · refine (h1.comp 0 hd).congr_deriv ?_
      rw [h00]
      ring
    · refine (h2.comp 0 hd).congr_deriv ?_
      rw [h00]
      ring

/-! Polynomials -/

theorem poly_deriv (f : Poly) (p : ℝ) : HasDerivAt f.eval (f.scale * f.prim p) p ∧
    HasDerivAt f.prim (f.scale * f.primPrim p) p := by
  have hq : HasDerivAt (fun p : ℝ => p * f.scale) f.scale p := by simpa using (hasDerivAt_id p).mul_const f.scale
  constructor
  · have := (((hq.mul_const f.b).const_add f.a).add ((hq.mul hq).mul_const f.c)).add
      (((hq.mul hq).mul hq).mul_const f.d)
    refine (this.congr_of_eventuallyEq (Filter.Eventually.of_forall fun p => ?_)).congr_deriv ?_
    · simp [Poly.eval]
    · simp only [Poly.prim, Pi.mul_apply]
      ring
  · have := (((hq.const_mul 2).mul_const f.c).const_add f.b).add
      ((((hq.const_mul 3).mul hq)).mul_const f.d)
    refine (this.congr_of_eventuallyEq (Filter.Eventually.of_forall fun p => ?_)).congr_deriv ?_
    · simp [Poly.prim]
    · simp only [Poly.primPrim]
      ring

/-- Spec: the curve of a polynomial geometry: local coordinates at `q`. -/
def cubic (a b c d q : ℝ) : ℝ := a + b * q + c * q ^ 2 + d * q ^ 3

/-- A position on a parametric polynomial is the point of its curve at the parameter found, which is taken relative to the length if the
range is normalized. -/
theorem param_point (o : Pose) (len aU bU cU dU aV bV cV dV : ℝ) (n : Bool) (p : ℝ) :
    ((mkParam o len aU bU cU dU aV bV cV dV n).at p).x =
      o.x + cubic aU bU cU dU (if n then p / len else p) * cos o.h
        - cubic aV bV cV dV (if n then p / len else p) * sin o.h ∧
    ((mkParam o len aU bU cU dU aV bV cV dV n).at p).y =
      o.y + cubic aU bU cU dU (if n then p / len else p) * sin o.h
        + cubic aV bV cV dV (if n then p / len else p) * cos o.h := by
  cases n <;>
    simp [Param.at, place, mkParam, Poly.eval, cubic] <;> constructor <;> ring

theorem norm_arg (a b : ℝ) : sqrt (a ^ 2 + b ^ 2) * cos (Complex.arg ⟨a, b⟩) = a ∧
    sqrt (a ^ 2 + b ^ 2) * sin (Complex.arg ⟨a, b⟩) = b := by
  have hn : ‖(⟨a, b⟩ : ℂ)‖ = sqrt (a ^ 2 + b ^ 2) := by
    rw [Complex.norm_eq_sqrt_sq_add_sq]
  rw [← hn]
  exact ⟨Complex.norm_mul_cos_arg _, Complex.norm_mul_sin_arg _⟩

/-- The heading on a parametric polynomial is the direction in which the curve goes on. -/
theorem param_tangent (g : Param) (hs : g.v.scale = g.u.scale) (p : ℝ) :
    HasDerivAt (fun p => (g.at p).x)
      (g.u.scale * sqrt (g.u.prim p ^ 2 + g.v.prim p ^ 2) * cos (g.at p).h) p ∧
    HasDerivAt (fun p => (g.at p).y)
      (g.u.scale * sqrt (g.u.prim p ^ 2 + g.v.prim p ^ 2) * sin (g.at p).h) p := by
  obtain ⟨n1, n2⟩ := norm_arg (g.u.prim p) (g.v.prim p)
  have hu := (poly_deriv g.u p).1
  have hv := (poly_deriv g.v p).1
  rw [hs] at hv
  constructor
  · have := ((hu.mul_const (cos g.o.h)).const_add g.o.x).sub (hv.mul_const (sin g.o.h))
    refine this.congr_deriv ?_
    simp only [Param.at, place, cos_add]
    linear_combination -g.u.scale * cos g.o.h * n1 + g.u.scale * sin g.o.h * n2
  · have := ((hu.mul_const (sin g.o.h)).const_add g.o.y).add (hv.mul_const (cos g.o.h))
    refine this.congr_deriv ?_
    simp only [Param.at, place, sin_add]
    linear_combination -g.u.scale * sin g.o.h * n1 - g.u.scale * cos g.o.h * n2

/-- Spec: the curvature of the curve `(u, v)`. -/
noncomputable def bend (u v : Poly) (p : ℝ) : ℝ :=
  (u.prim p * v.primPrim p - v.prim p * u.primPrim p) / (sqrt (u.prim p ^ 2 + v.prim p ^ 2)) ^ 3

/-- It is the rate at which the heading of the geometry turns with the distance travelled. -/
theorem param_turn (g : Param) (hs : g.v.scale = g.u.scale) (p : ℝ) (hu : 0 < g.u.prim p) :
    HasDerivAt (fun p => (g.at p).h)
      (g.u.scale * sqrt (g.u.prim p ^ 2 + g.v.prim p ^ 2) * bend g.u g.v p) p := by
  have du := (poly_deriv g.u p).2
  have dv := (poly_deriv g.v p).2
  rw [hs] at dv
  have hev : ∀ᶠ q in nhds p, (g.at q).h = g.o.h + arctan (g.v.prim q / g.u.prim q) := by
    filter_upwards [du.continuousAt.eventually (lt_mem_nhds hu)] with q hq
    simp only [Param.at, place]
    rw [Complex.arg_of_re_nonneg (by exact hq.le), arctan_eq_arcsin]
    congr 2
    have hn : ‖(⟨g.u.prim q, g.v.prim q⟩ : ℂ)‖ = sqrt (g.u.prim q ^ 2 + g.v.prim q ^ 2) := by
      rw [Complex.norm_eq_sqrt_sq_add_sq]
    rw [hn]
    have h1 : 1 + (g.v.prim q / g.u.prim q) ^ 2 = (g.u.prim q ^ 2 + g.v.prim q ^ 2) / g.u.prim q ^ 2 := by
      field_simp
    rw [h1, sqrt_div (by positivity), sqrt_sq hq.le]
    have : 0 < sqrt (g.u.prim q ^ 2 + g.v.prim q ^ 2) := sqrt_pos.mpr (by positivity)
    field_simp
  have := ((dv.div du hu.ne').arctan).const_add g.o.h
  refine (this.congr_of_eventuallyEq hev).congr_deriv ?_
  have hpos : 0 < g.u.prim p ^ 2 + g.v.prim p ^ 2 := by positivity
  have hsq : sqrt (g.u.prim p ^ 2 + g.v.prim p ^ 2) ^ 2 = g.u.prim p ^ 2 + g.v.prim p ^ 2 := sq_sqrt hpos.le
  have hsp : 0 < sqrt (g.u.prim p ^ 2 + g.v.prim p ^ 2) := sqrt_pos.mpr hpos
  have hb : sqrt (g.u.prim p ^ 2 + g.v.prim p ^ 2) * bend g.u g.v p =
      (g.u.prim p * g.v.primPrim p - g.v.prim p * g.u.primPrim p) / (g.u.prim p ^ 2 + g.v.prim p ^ 2) := by
    calc sqrt (g.u.prim p ^ 2 + g.v.prim p ^ 2) * bend g.u g.v p =
        (g.u.prim p * g.v.primPrim p - g.v.prim p * g.u.primPrim p) / sqrt (g.u.prim p ^ 2 + g.v.prim p ^ 2) ^ 2 := by
          unfold bend
          generalize sqrt (g.u.prim p ^ 2 + g.v.prim p ^ 2) = r at hsp
          field_simp
      _ = _ := by rw [hsq]
  rw [mul_assoc g.u.scale (sqrt _), hb]
  simp only [Pi.div_apply]
  have : 1 + (g.v.prim p / g.u.prim p) ^ 2 = (g.u.prim p ^ 2 + g.v.prim p ^ 2) / g.u.prim p ^ 2 := by
    field_simp
  rw [this]
  field_simp

theorem pow_three_halves (a : ℝ) (ha : 0 ≤ a) : a ^ (3 / 2 : ℝ) = sqrt a ^ 3 := by
  rw [sqrt_eq_rpow, ← rpow_natCast, ← rpow_mul ha]
  norm_num

/-- The curvature reported for a distance is that of the curve where the parameter equals the distance. -/
theorem param_curvature_partial (g : Param) (s : ℝ) (h : small ≤ sqrt (g.u.prim s ^ 2 + g.v.prim s ^ 2) ^ 3) :
    g.curvature s = bend g.u g.v s := by
  have : (g.u.prim s ^ 2 + g.v.prim s ^ 2) ^ (3 / 2 : ℝ) = sqrt (g.u.prim s ^ 2 + g.v.prim s ^ 2) ^ 3 :=
    pow_three_halves _ (by positivity)
  rw [Param.curvature, this, if_neg (not_lt.mpr h), bend]

/-! The parameter found for a distance -/

/-- Spec: the curve does not stop: at the middle of each hundredth of the parameter range its speed is not 0. -/
def Moving (g : Param) : Prop := ∀ i, i < steps → 0 < g.speed ((i + 1 : Nat) * g.pStep - 1 / 2 * g.pStep)

theorem pStep_pos (g : Param) (hl : 0 < g.len) : 0 < g.pStep := by
  unfold Param.pStep steps
  split
  · norm_num
  · have : (0 : ℝ) < ((100 : ℕ) : ℝ) := by norm_num
    positivity

theorem lenAt_lt (g : Param) (hl : 0 < g.len) (hm : Moving g) (i : Nat) (hi : i < steps) :
    g.lenAt i < g.lenAt (i + 1) := by
  have := mul_pos (pStep_pos g hl) (hm i hi)
  simp only [Param.lenAt]
  linarith

theorem lenAt_mono (g : Param) (hl : 0 < g.len) (hm : Moving g) (i j : Nat) (hij : i < j) (hj : j ≤ steps) :
    g.lenAt i < g.lenAt j := by
  induction j with
  | zero => omega
  | succ j ih =>
    have h1 := lenAt_lt g hl hm j (by omega)
    rcases Nat.lt_succ_iff_lt_or_eq.mp hij with h | rfl
    · exact lt_trans (ih h (by omega)) h1
    · exact h1

theorem lenAt_pos (g : Param) (hl : 0 < g.len) (hm : Moving g) : 0 < g.lenAt steps :=
  lenAt_mono g hl hm 0 steps (by decide) (le_refl _)

theorem mapS_mono (g : Param) (hl : 0 < g.len) (hm : Moving g) (i j : Nat) (hij : i < j) (hj : j ≤ steps) :
    g.mapS i < g.mapS j :=
  mul_lt_mul_of_pos_right (lenAt_mono g hl hm i j hij hj) (div_pos hl (lenAt_pos g hl hm))

theorem mapS_mono_le (g : Param) (hl : 0 < g.len) (hm : Moving g) (i j : Nat) (hij : i ≤ j) (hj : j ≤ steps) :
    g.mapS i ≤ g.mapS j := by
  rcases Nat.lt_or_eq_of_le hij with h | rfl
  · exact (mapS_mono g hl hm i j h hj).le
  · exact le_refl _

theorem mapS_zero (g : Param) : g.mapS 0 = 0 := by simp [Param.mapS, Param.lenAt]

theorem mapS_end (g : Param) (hl : 0 < g.len) (hm : Moving g) : g.mapS steps = g.len := by
  have := lenAt_pos g hl hm
  unfold Param.mapS
  field_simp

theorem mapP_mono (g : Param) (hl : 0 < g.len) (i j : Nat) (hij : i < j) : g.mapP i < g.mapP j := by
  have h : (i : ℝ) < j := by exact_mod_cast hij
  have h100 : (0 : ℝ) < (steps : ℝ) := by norm_num [steps]
  unfold Param.mapP
  exact div_lt_div_of_pos_right (mul_lt_mul_of_pos_right h hl) h100

theorem mapP_zero (g : Param) : g.mapP 0 = 0 := by simp [Param.mapP]

theorem mapP_end (g : Param) : g.mapP steps = g.len := by
  have h100 : (steps : ℝ) ≠ 0 := by norm_num [steps]
  unfold Param.mapP
  field_simp

/-- Spec: linear interpolation in cell `i`. -/
noncomputable def interp (g : Param) (i : Nat) (s : ℝ) : ℝ :=
  g.mapP i + (s - g.mapS i) / (g.mapS (i + 1) - g.mapS i) * (g.mapP (i + 1) - g.mapP i)

theorem s2pLoop_cell (g : Param) (hl : 0 < g.len) (hm : Moving g) (s : ℝ) (i : Nat) (hi : i < steps)
    (h1 : g.mapS i ≤ s) (h2 : s < g.mapS (i + 1)) :
    ∀ n j, j + n = steps → j ≤ i → g.s2pLoop s n j = interp g i s := by
  intro n
  induction n with
  | zero => intro j hj hji; omega
  | succ n ih =>
    intro j hj hji
    unfold Param.s2pLoop
    rcases Nat.lt_or_eq_of_le hji with h | rfl
    · have := mapS_mono_le g hl hm (j + 1) i h (by omega)
      rw [if_neg (by intro h'; linarith)]
      exact ih (j + 1) (by omega) (by omega)
    · rw [if_pos h2]
      rfl

theorem s2p_cell (g : Param) (hl : 0 < g.len) (hm : Moving g) (s : ℝ) (i : Nat) (hi : i < steps)
    (h1 : g.mapS i ≤ s) (h2 : s < g.mapS (i + 1)) : g.s2p s = interp g i s :=
  s2pLoop_cell g hl hm s i hi h1 h2 steps 0 (by omega) (by omega)

theorem s2p_beyond (g : Param) (hl : 0 < g.len) (hm : Moving g) (s : ℝ) (hs : g.len ≤ s) : g.s2p s = g.len := by
  have : ∀ n j, j + n = steps → g.s2pLoop s n j = g.len := by
    intro n
    induction n with
    | zero => intro j _; exact mapP_end g
    | succ n ih =>
      intro j hj
      unfold Param.s2pLoop
      have := mapS_mono_le g hl hm (j + 1) steps (by omega) (le_refl _)
      rw [mapS_end g hl hm] at this
      rw [if_neg (by intro h'; linarith)]
      exact ih (j + 1) (by omega)
  exact this steps 0 (by omega)

/-- Every value below the last knot is in a cell. -/
theorem cell (f : Nat → ℝ) (s : ℝ) (h0 : f 0 ≤ s) : ∀ n, s < f n → ∃ i, i < n ∧ f i ≤ s ∧ s < f (i + 1) := by
  intro n
  induction n with
  | zero => intro h; linarith
  | succ n ih =>
    intro h
    by_cases hn : s < f n
    · obtain ⟨i, hi, h1, h2⟩ := ih hn
      exact ⟨i, by omega, h1, h2⟩
    · exact ⟨n, by omega, not_lt.mp hn, h⟩

theorem interp_bounds (g : Param) (hl : 0 < g.len) (hm : Moving g) (s : ℝ) (i : Nat) (hi : i < steps)
    (h1 : g.mapS i ≤ s) (h2 : s < g.mapS (i + 1)) : g.mapP i ≤ interp g i s ∧ interp g i s < g.mapP (i + 1) := by
  have hs := mapS_mono g hl hm i (i + 1) (by omega) (by omega)
  have hp := mapP_mono g hl i (i + 1) (by omega)
  have hw0 : 0 ≤ (s - g.mapS i) / (g.mapS (i + 1) - g.mapS i) := div_nonneg (by linarith) (by linarith)
  have hw1 : (s - g.mapS i) / (g.mapS (i + 1) - g.mapS i) < 1 := (div_lt_one (by linarith)).mpr (by linarith)
  unfold interp
  constructor <;> nlinarith

/-- Along a parametric polynomial the parameter grows from 0 at the start to the whole range at the end, without turning back and
without leaving anything out; beyond the end it stays there. -/
theorem param_passes (g : Param) (hl : 0 < g.len) (hm : Moving g) :
    g.s2p 0 = 0 ∧ (∀ s, g.len ≤ s → g.s2p s = g.len) ∧ StrictMonoOn g.s2p (Set.Icc 0 g.len) ∧
    g.s2p '' Set.Icc 0 g.len = Set.Icc 0 g.len := by
  have hend := s2p_beyond g hl hm
  have hcell : ∀ s, 0 ≤ s → s < g.len → ∃ i, i < steps ∧ g.mapS i ≤ s ∧ s < g.mapS (i + 1) := by
    intro s h0 h1
    exact cell g.mapS s (by rw [mapS_zero]; exact h0) steps (by rw [mapS_end g hl hm]; exact h1)
  have hP : ∀ i, i ≤ steps → g.mapP i ≤ g.len := by
    intro i hi
    rcases Nat.lt_or_eq_of_le hi with h | rfl
    · exact (mapP_end g ▸ mapP_mono g hl i steps h).le
    · exact (mapP_end g).le
  have hP0 : ∀ i, 0 ≤ g.mapP i := by
    intro i
    rcases Nat.eq_zero_or_pos i with rfl | h
    · exact (mapP_zero g).ge
    · exact (mapP_zero g ▸ mapP_mono g hl 0 i h).le
  have hstart : g.s2p 0 = 0 := by
    rw [s2p_cell g hl hm 0 0 (by decide) (mapS_zero g).le
      (by have := mapS_mono g hl hm 0 1 (by omega) (by decide); rw [mapS_zero] at this; exact this)]
    simp [interp, mapS_zero, mapP_zero]
  have hmono : StrictMonoOn g.s2p (Set.Icc 0 g.len) := by
    intro a ha b hb hab
    obtain ⟨i, hi, a1, a2⟩ := hcell a ha.1 (lt_of_lt_of_le hab hb.2)
    rw [s2p_cell g hl hm a i hi a1 a2]
    have hai := interp_bounds g hl hm a i hi a1 a2
    rcases lt_or_eq_of_le hb.2 with hb' | rfl
    · obtain ⟨j, hj, b1, b2⟩ := hcell b hb.1 hb'
      rw [s2p_cell g hl hm b j hj b1 b2]
      have hbj := interp_bounds g hl hm b j hj b1 b2
      rcases lt_trichotomy i j with h | rfl | h
      · have : g.mapP (i + 1) ≤ g.mapP j := by
          rcases Nat.lt_or_eq_of_le (Nat.succ_le_of_lt h) with h' | h'
          · exact (mapP_mono g hl _ _ h').le
          · exact le_of_eq (congrArg g.mapP h')
        linarith
      · have hs := mapS_mono g hl hm i (i + 1) (by omega) (by omega)
        have hp := mapP_mono g hl i (i + 1) (by omega)
        unfold interp
        have : (a - g.mapS i) / (g.mapS (i + 1) - g.mapS i) < (b - g.mapS i) / (g.mapS (i + 1) - g.mapS i) :=
          div_lt_div_of_pos_right (by linarith) (by linarith)
        nlinarith
      · have := mapS_mono_le g hl hm (j + 1) i h (by omega)
        linarith
    · rw [hend _ (le_refl _)]
      have := hP (i + 1) hi
      linarith
  refine ⟨hstart, hend, hmono, ?_⟩
  apply Set.eq_of_subset_of_subset
  · rintro _ ⟨s, hs, rfl⟩
    rcases lt_or_eq_of_le hs.2 with h | rfl
    · obtain ⟨i, hi, h1, h2⟩ := hcell s hs.1 h
      have := interp_bounds g hl hm s i hi h1 h2
      rw [s2p_cell g hl hm s i hi h1 h2]
      exact ⟨le_trans (hP0 i) this.1, le_trans this.2.le (hP (i + 1) hi)⟩
    · rw [hend _ (le_refl _)]
      exact ⟨hl.le, le_refl _⟩
  · intro p hp
    rcases lt_or_eq_of_le hp.2 with h | rfl
    · obtain ⟨i, hi, h1, h2⟩ := cell g.mapP p (by rw [mapP_zero]; exact hp.1) steps (by rw [mapP_end]; exact h)
      have hs := mapS_mono g hl hm i (i + 1) (by omega) (by omega)
      have hpp : 0 < g.mapP (i + 1) - g.mapP i := by linarith
      have hw0 : 0 ≤ (p - g.mapP i) / (g.mapP (i + 1) - g.mapP i) := div_nonneg (by linarith) hpp.le
      have hw1 : (p - g.mapP i) / (g.mapP (i + 1) - g.mapP i) < 1 := (div_lt_one hpp).mpr (by linarith)
      have b1 : g.mapS i ≤ g.mapS i + (p - g.mapP i) / (g.mapP (i + 1) - g.mapP i) * (g.mapS (i + 1) - g.mapS i) := by
        nlinarith
      have b2 : g.mapS i + (p - g.mapP i) / (g.mapP (i + 1) - g.mapP i) * (g.mapS (i + 1) - g.mapS i) <
          g.mapS (i + 1) := by nlinarith
      have c1 := mapS_mono_le g hl hm 0 i (by omega) (by omega)
      have c2 := mapS_mono_le g hl hm (i + 1) steps hi (le_refl _)
      rw [mapS_zero] at c1
      rw [mapS_end g hl hm] at c2
      refine ⟨_, ⟨le_trans c1 b1, le_trans b2.le c2⟩, ?_⟩
      rw [s2p_cell g hl hm _ i hi b1 b2, interp]
      have hss : g.mapS (i + 1) - g.mapS i ≠ 0 := by linarith
      have := hpp.ne'
      field_simp
      ring
    · exact ⟨g.len, ⟨hl.le, le_refl _⟩, hend _ (le_refl _)⟩

/-- Each hundredth of the parameter range is given a part of the length that is proportional to the speed of the curve in the
middle of it, and the parts make up the whole length. -/
theorem param_parts (o : Pose) (len aU bU cU dU aV bV cV dV : ℝ) (n : Bool) (hl : 0 < len) (g : Param)
    (hg : g = mkParam o len aU bU cU dU aV bV cV dV n) (hm : Moving g) :
    g.mapS 0 = 0 ∧ g.mapS steps = len ∧ (∀ i, i ≤ steps → g.s2p (g.mapS i) = i * (len / steps)) ∧
    ∃ c, 0 < c ∧ ∀ i, g.mapS (i + 1) - g.mapS i =
      c * sqrt (g.u.prim ((i + 1 / 2) * (len / steps)) ^ 2 + g.v.prim ((i + 1 / 2) * (len / steps)) ^ 2) := by
  have hgl : g.len = len := by rw [hg]; rfl
  have hl' : 0 < g.len := by rw [hgl]; exact hl
  have h100 : (steps : ℝ) ≠ 0 := by norm_num [steps]
  refine ⟨mapS_zero g, by rw [mapS_end g hl' hm, hgl], ?_, g.pStep * (g.len / g.lenAt steps), ?_, ?_⟩
  · intro i hi
    rcases Nat.lt_or_eq_of_le hi with h | rfl
    · rw [s2p_cell g hl' hm _ i h (le_refl _) (mapS_mono g hl' hm i (i + 1) (by omega) (by omega)), interp]
      simp only [sub_self, zero_div, zero_mul, add_zero, Param.mapP, hgl]
      ring
    · rw [mapS_end g hl' hm, s2p_beyond g hl' hm _ (le_refl _), hgl]
      field_simp
  · exact mul_pos (pStep_pos g hl') (div_pos hl' (lenAt_pos g hl' hm))
  · intro i
    have : g.speed ((i + 1 : Nat) * g.pStep - 1 / 2 * g.pStep) =
        sqrt (g.u.prim ((i + 1 / 2) * (len / steps)) ^ 2 + g.v.prim ((i + 1 / 2) * (len / steps)) ^ 2) := by
      subst hg
      have hne := hl.ne'
      cases n
      · simp only [Param.speed, mkParam, Poly.prim, Param.pStep]
        push_cast
        congr 1
        ring
      · simp only [Param.speed, mkParam, Poly.prim, Param.pStep]
        push_cast
        have e : ((i : ℝ) + 1 / 2) * (len / steps) * (1 / len) = (i + 1) * (1 / steps) - 1 / 2 * (1 / steps) := by
          field_simp
          ring
        rw [e]
        congr 1
        ring
    rw [← this]
    simp only [Param.mapS, Param.lenAt]
    ring

/-- If the speed of the curve is the same everywhere, the parameter is the distance: the geometry follows its curve with unit speed. -/
theorem param_even (g : Param) (hl : 0 < g.len) (c : ℝ) (hc : 0 < c)
    (hs : ∀ i, i < steps → g.speed ((i + 1 : Nat) * g.pStep - 1 / 2 * g.pStep) = c) (s : ℝ)
    (h : s ∈ Set.Icc 0 g.len) : g.s2p s = s := by
  have hm : Moving g := fun i hi => by rw [hs i hi]; exact hc
  have hst : (0 : ℝ) < steps := by norm_num [steps]
  have hlen : ∀ i, i ≤ steps → g.lenAt i = i * (g.pStep * c) := by
    intro i
    induction i with
    | zero => intro _; simp [Param.lenAt]
    | succ i ih =>
      intro hi
      rw [Param.lenAt, hs i (by omega), ih (by omega)]
      push_cast
      ring
  have hp := pStep_pos g hl
  have hmap : ∀ i, i ≤ steps → g.mapS i = g.mapP i := by
    intro i hi
    rw [Param.mapS, hlen i hi, hlen steps (le_refl _), Param.mapP]
    field_simp
  rcases lt_or_eq_of_le h.2 with h' | h'
  · obtain ⟨i, hi, h1, h2⟩ := cell g.mapS s (by rw [mapS_zero]; exact h.1) steps
      (by rw [mapS_end g hl hm]; exact h')
    have hss := mapS_mono g hl hm i (i + 1) (by omega) (by omega)
    have : g.mapS (i + 1) - g.mapS i ≠ 0 := by linarith
    rw [s2p_cell g hl hm s i hi h1 h2, interp, ← hmap i hi.le, ← hmap (i + 1) hi]
    field_simp
    ring
  · rw [s2p_beyond g hl hm s h'.ge, h']

/-! Cubic polynomials -/

/-- A position on a cubic polynomial is on its curve, and the heading there is the direction of the curve. -/
theorem poly3_on_curve (o : Pose) (a b c d len ds : ℝ) (h : a = 0 ∨ small < ds) (hl : small < len) :
    ∃ u, (poly3 o ⟨a, b, c, d, 1⟩ len ds).x = o.x + u * cos o.h - cubic a b c d u * sin o.h ∧
      (poly3 o ⟨a, b, c, d, 1⟩ len ds).y = o.y + u * sin o.h + cubic a b c d u * cos o.h ∧
      HasDerivAt (cubic a b c d) (tan ((poly3 o ⟨a, b, c, d, 1⟩ len ds).h - o.h)) u ∧
      |(poly3 o ⟨a, b, c, d, 1⟩ len ds).h - o.h| < Real.pi / 2 := by
  have hv : (poly3Local ⟨a, b, c, d, 1⟩ len ds).2 = cubic a b c d (poly3Local ⟨a, b, c, d, 1⟩ len ds).1 := by
    unfold poly3Local
    split
    · simp only [Poly.eval, cubic]; ring
    · split
      · simp only [Poly.eval, cubic]; ring
      · rcases h with rfl | h
        · simp [cubic]
        · rename_i h'
          exact absurd h h'
  have hd : ∀ u, HasDerivAt (cubic a b c d) ((⟨a, b, c, d, 1⟩ : Poly).prim u) u := by
    intro u
    have := (poly_deriv ⟨a, b, c, d, 1⟩ u).1
    simp only [one_mul] at this
    refine this.congr_of_eventuallyEq (Filter.Eventually.of_forall fun q => ?_)
    simp only [Poly.eval, cubic]
    ring
  refine ⟨(poly3Local ⟨a, b, c, d, 1⟩ len ds).1, ?_, ?_, ?_, ?_⟩
  · rw [← hv]; rfl
  · rw [← hv]; rfl
  · simp only [poly3, place, add_sub_cancel_left, tan_arctan]
    exact hd _
  · simp only [poly3, place, add_sub_cancel_left]
    exact abs_lt.mpr ⟨neg_pi_div_two_lt_arctan _, arctan_lt_pi_div_two _⟩

/-- The polynomial 0: a straight road. -/
def flat : Poly := ⟨0, 0, 0, 0, 1⟩

theorem flat_eval (u : ℝ) : flat.eval u = 0 := by simp [flat, Poly.eval]

theorem flat_u (len ds : ℝ) (h0 : small < ds) (hd : ds < len) (hc : ds < 10 ∨ len ≤ 20) :
    poly3U flat len ds = min 10 ds := by
  have hsm := small_pos
  have hst : 0 < min 10 ds := lt_min (by norm_num) (by linarith)
  have hle : min 10 ds ≤ ds := min_le_right _ _
  have hlt : min 10 ds < len := by linarith
  have hceil : 2 ≤ Nat.ceil (len / min 10 ds) := by
    have : (1 : ℝ) < len / min 10 ds := (one_lt_div hst).mpr hlt
    have := Nat.lt_ceil.mpr (show ((1 : ℕ) : ℝ) < len / min 10 ds by simpa using this)
    omega
  obtain ⟨m, hm⟩ : ∃ m, Nat.ceil (len / min 10 ds) + 1 = m + 3 := ⟨Nat.ceil (len / min 10 ds) - 2, by omega⟩
  have hsq : ∀ x : ℝ, 0 ≤ x → sqrt (x * x) = x := fun x hx => sqrt_mul_self hx
  rw [poly3U, hm]
  rw [poly3Loop]
  simp only [flat_eval, Nat.cast_zero, zero_mul, sub_zero, mul_zero, add_zero, sqrt_zero]
  rw [if_pos (by linarith), if_neg (by intro h; linarith)]
  rw [poly3Loop]
  simp only [flat_eval, Nat.cast_zero, zero_add, Nat.cast_one, one_mul, sub_zero, mul_zero, add_zero, hsq _ hst.le]
  rw [if_pos hlt, if_neg (by intro h; linarith)]
  rw [poly3Loop]
  have e2 : ((1 + 1 : ℕ) : ℝ) * min 10 ds - min 10 ds = min 10 ds := by push_cast; ring
  simp only [flat_eval, e2, sub_zero, mul_zero, add_zero, hsq _ hst.le]
  by_cases h2 : ((1 + 1 : ℕ) : ℝ) * min 10 ds < len
  · rw [if_pos h2]
    rcases hc with hc | hc
    · have he : min 10 ds = ds := min_eq_right hc.le
      rw [he, if_pos (by linarith), max_eq_left h0.le]
      have : ds ≠ 0 := by linarith
      field_simp
      ring
    · push_cast at h2
      have he : min 10 ds = ds := by
        rcases le_total 10 ds with h | h
        · rw [min_eq_left h] at h2; linarith
        · exact min_eq_right h
      rw [he, if_pos (by linarith), max_eq_left h0.le]
      have : ds ≠ 0 := by linarith
      field_simp
      ring
  · rw [if_neg h2]

/-- On a straight cubic polynomial of at most 10 m positions are where they should be, up to 1e-6. -/
theorem poly3_short_partial (o : Pose) (len ds : ℝ) (hl : len ≤ 10) (h0 : 0 ≤ ds) (hd : ds ≤ len) :
    ∃ e, |e| ≤ 2 * small ∧ (poly3 o flat len ds).x = o.x + (ds + e) * cos o.h ∧
      (poly3 o flat len ds).y = o.y + (ds + e) * sin o.h ∧ (poly3 o flat len ds).h = o.h := by
  have hsm := small_pos
  have hv : (poly3Local flat len ds).2 = 0 := by
    unfold poly3Local
    split
    · exact flat_eval _
    · split
      · exact flat_eval _
      · rfl
  have hu : |(poly3Local flat len ds).1 - ds| ≤ 2 * small := by
    unfold poly3Local poly3Max
    split
    · rename_i h
      simp only
      split
      · rename_i h'
        rw [flat_u len (len - small) h' (by linarith) (Or.inl (by linarith)), min_eq_right (by linarith), abs_le]
        constructor <;> linarith
      · rename_i h'
        rw [abs_le]
        constructor <;> linarith
    · rename_i h
      split
      · rename_i h'
        simp only
        rw [flat_u len ds h' (by linarith) (Or.inl (by linarith)), min_eq_right (by linarith), sub_self, abs_zero]
        linarith
      · rename_i h'
        simp only
        rw [abs_le]
        constructor <;> linarith
  refine ⟨(poly3Local flat len ds).1 - ds, hu, ?_, ?_, ?_⟩
  · simp only [poly3, place, hv]; ring
  · simp only [poly3, place, hv]; ring
  · simp [poly3, place, flat, Poly.prim]

/-- On longer ones they are not: with a length of 10 to 20 m, from 10 m on everything is at 10 m. -/
theorem poly3_fails (o : Pose) (len ds : ℝ) (hl : 10 + small ≤ len) (hl' : len ≤ 20) (hd : 10 ≤ ds) :
    poly3 o flat len ds = ⟨o.x + 10 * cos o.h, o.y + 10 * sin o.h, o.h⟩ := by
  have hsm := small_pos
  have hs10 : small < 10 := by norm_num [small]
  have hv : (poly3Local flat len ds).2 = 0 := by
    unfold poly3Local
    split
    · exact flat_eval _
    · split
      · exact flat_eval _
      · rfl
  have hu : (poly3Local flat len ds).1 = 10 := by
    unfold poly3Local poly3Max
    split
    · simp only
      rw [if_pos (by linarith), flat_u len (len - small) (by linarith) (by linarith) (Or.inr hl'),
        min_eq_left (by linarith)]
    · rename_i h
      rw [if_pos (by linarith)]
      simp only
      rw [flat_u len ds (by linarith) (by linarith) (Or.inr hl'), min_eq_left hd]
  simp [poly3, place, hv, hu]
  simp [flat, Poly.prim]

/-- The curvature reported for a cubic polynomial is not that of its curve where the curve has a slope: here 1 instead of
less than 1/2. -/
theorem poly3_curvature_fails : poly3Curvature ⟨0, 1, 1 / 2, 0, 1⟩ 0 = 1 ∧
    bend ⟨0, 1, 0, 0, 1⟩ ⟨0, 1, 1 / 2, 0, 1⟩ 0 < 1 / 2 := by
  constructor
  · norm_num [poly3Curvature, Poly.primPrim]
  · have h2 : sqrt 2 ^ 2 = 2 := sq_sqrt (by norm_num)
    have h3 : 1 < sqrt 2 := by
      have := sqrt_nonneg 2
      nlinarith
    have : bend ⟨0, 1, 0, 0, 1⟩ ⟨0, 1, 1 / 2, 0, 1⟩ 0 = 1 / sqrt 2 ^ 3 := by
      norm_num [bend, Poly.prim, Poly.primPrim]
    rw [this]
    have e : sqrt 2 ^ 3 = 2 * sqrt 2 := by rw [pow_succ, h2]
    rw [e, div_lt_div_iff₀ (by positivity) (by norm_num)]
    linarith

/-! Curvature along parametric polynomials -/

/-- A road that bends less and less: `v = p² / 20`, 20 m. -/
noncomputable def bow : Param := mkParam ⟨0, 0, 0⟩ 20 0 1 0 0 0 0 (1 / 20) 0 false

theorem bow_speed (pm : ℝ) : bow.speed pm = sqrt (1 + (pm / 10) ^ 2) := by
  simp only [Param.speed, bow, mkParam]
  congr 1
  ring

theorem bow_moving : Moving bow := by
  intro i _
  rw [bow_speed]
  exact sqrt_pos.mpr (by positivity)

theorem bow_shift (m : Nat) (hm : 0 < m) : ∀ i, 0 < i → bow.lenAt i < bow.lenAt (m + i) - bow.lenAt m := by
  have hp : 0 < bow.pStep := pStep_pos bow (by norm_num [bow, mkParam])
  intro i
  induction i with
  | zero => intro h; omega
  | succ i ih =>
    intro _
    have hlt : bow.speed ((i + 1 : Nat) * bow.pStep - 1 / 2 * bow.pStep)
        < bow.speed ((m + i + 1 : Nat) * bow.pStep - 1 / 2 * bow.pStep) := by
      rw [bow_speed, bow_speed]
      apply sqrt_lt_sqrt (by positivity)
      have h0 : 0 ≤ ((i + 1 : Nat) * bow.pStep - 1 / 2 * bow.pStep) / 10 := by
        push_cast
        have : (0 : ℝ) ≤ i := Nat.cast_nonneg i
        have : 0 ≤ (i : ℝ) * bow.pStep := by positivity
        apply div_nonneg _ (by norm_num)
        nlinarith
      have h1 : ((i + 1 : Nat) * bow.pStep - 1 / 2 * bow.pStep) / 10 <
          ((m + i + 1 : Nat) * bow.pStep - 1 / 2 * bow.pStep) / 10 := by
        push_cast
        have : (0 : ℝ) < m := by exact_mod_cast hm
        have := mul_pos this hp
        apply div_lt_div_of_pos_right _ (by norm_num)
        nlinarith
      nlinarith
    have hmul := mul_lt_mul_of_pos_left hlt hp
    rw [show m + (i + 1) = (m + i) + 1 by omega]
    simp only [Param.lenAt]
    rcases Nat.eq_zero_or_pos i with rfl | h
    · simp only [Param.lenAt, add_zero] at hmul ⊢
      linarith
    · have := ih h
      linarith

theorem bow_half : bow.lenAt 50 < bow.lenAt steps / 2 := by
  have := bow_shift 50 (by omega) 50 (by omega)
  rw [show (50 + 50 : Nat) = steps from rfl] at this
  linarith

/-- The curvature reported at a distance is not that of the road there: halfway through the parameter range the road bends
less than reported. -/
theorem param_curvature_fails : ∃ s, 0 < s ∧ s < bow.len ∧ bow.eval s = bow.at 10 ∧
    bend bow.u bow.v 10 < bow.curvature s := by
  have hl : (0 : ℝ) < bow.len := by norm_num [bow, mkParam]
  have hlen : bow.len = 20 := rfl
  have hm := bow_moving
  have hpos := mapS_mono bow hl hm 0 50 (by omega) (by decide)
  rw [mapS_zero] at hpos
  have hlt := mapS_mono bow hl hm 50 steps (by decide) (le_refl _)
  rw [mapS_end bow hl hm] at hlt
  have hs10 : bow.mapS 50 < 10 := by
    have h1 := bow_half
    have h2 := lenAt_pos bow hl hm
    rw [Param.mapS, hlen, ← mul_div_assoc, div_lt_iff₀ h2]
    linarith
  have hprim : ∀ s, bow.u.prim s = 1 ∧ bow.v.prim s = s / 10 ∧ bow.u.primPrim s = 0 ∧ bow.v.primPrim s = 1 / 10 := by
    intro s
    refine ⟨?_, ?_, ?_, ?_⟩ <;> simp only [bow, mkParam, Poly.prim, Poly.primPrim] <;> norm_num <;> ring
  have hbend : ∀ s, bend bow.u bow.v s = 1 / 10 / sqrt (1 + (s / 10) ^ 2) ^ 3 := by
    intro s
    obtain ⟨h1, h2, h3, h4⟩ := hprim s
    rw [bend, h1, h2, h3, h4]
    norm_num
  refine ⟨bow.mapS 50, hpos, hlt, ?_, ?_⟩
  · have hcell := s2p_cell bow hl hm (bow.mapS 50) 50 (by decide) (le_refl _)
      (mapS_mono bow hl hm 50 51 (by omega) (by decide))
    rw [Param.eval, hcell, interp]
    simp only [sub_self, zero_div, zero_mul, add_zero, Param.mapP, hlen]
    norm_num [steps]
  · obtain ⟨h1, h2, _, _⟩ := hprim (bow.mapS 50)
    have h1le : 1 ≤ sqrt (1 + (bow.mapS 50 / 10) ^ 2) := by
      rw [one_le_sqrt]
      nlinarith [sq_nonneg (bow.mapS 50 / 10)]
    rw [param_curvature_partial, hbend, hbend]
    · apply div_lt_div_of_pos_left (by norm_num) (by positivity)
      apply pow_lt_pow_left₀ _ (sqrt_nonneg _) (by norm_num)
      apply sqrt_lt_sqrt (by positivity)
      have ha : 0 < bow.mapS 50 / 10 := by positivity
      have hb : bow.mapS 50 / 10 < 10 / 10 := div_lt_div_of_pos_right hs10 (by norm_num)
      nlinarith
    · rw [h1, h2, one_pow]
      calc small ≤ 1 := by norm_num [small]
        _ = 1 ^ 3 := by norm_num
        _ ≤ _ := pow_le_pow_left₀ (by norm_num) h1le 3

/-- An arc with a curvature of less than 1e-6 is straight, but its curvature is reported. -/
theorem flat_arc_fails (o : Pose) (k s : ℝ) (hk : |k| < small) (hne : k ≠ 0) :
    arc o k s = line o s ∧ arcCurvature k s ≠ lineCurvature s :=
  ⟨by rw [arc_small o k hk], hne⟩

/-! Examples -/

-- a left bend of radius 10 m from (1, 2), heading north: after a quarter turn it is at (-9, 12) heading west
example : (arc ⟨1, 2, Real.pi / 2⟩ (1 / 10) (5 * Real.pi)).x = -9 := by
  rw [arc_eq _ _ (by rw [abs_of_pos] <;> norm_num [small])]
  have : 5 * Real.pi * (1 / 10) = Real.pi / 2 := by ring
  simp only [this, sin_pi_div_two, cos_pi_div_two]
  norm_num

-- the hypotheses of `spiral_follows`: a spiral from straight to a left bend of radius 50 m
example : (0 : ℝ) < 30 ∧ small ≤ |1 / 50 - (0 : ℝ)| := by
  refine ⟨by norm_num, ?_⟩
  rw [abs_of_pos] <;> norm_num [small]

-- a lane 3 m to the right of an arc
example : small < |(1 / 10 : ℝ)| ∧ (1 / 10 : ℝ) * (-3) < 1 ∧ laneCurvature (1 / 10) (-3) = 1 / 13 := by
  have : small < |(1 / 10 : ℝ)| := by rw [abs_of_pos] <;> norm_num [small]
  refine ⟨this, by norm_num, ?_⟩
  rw [laneCurvature, if_pos this]
  norm_num

-- a parametric polynomial that moves everywhere
example : (0 : ℝ) < bow.len ∧ Moving bow ∧ 0 < bow.u.prim 3 := by
  refine ⟨by norm_num [bow, mkParam], bow_moving, ?_⟩
  norm_num [bow, mkParam, Poly.prim]

-- one with the same speed everywhere: a straight road of 20 m given with a normalized parameter
example (i : Nat) : (mkParam ⟨0, 0, 0⟩ 20 0 20 0 0 0 0 0 0 true).speed
    ((i + 1 : Nat) * (mkParam ⟨0, 0, 0⟩ 20 0 20 0 0 0 0 0 0 true).pStep
      - 1 / 2 * (mkParam ⟨0, 0, 0⟩ 20 0 20 0 0 0 0 0 0 true).pStep) = 20 := by
  simp [Param.speed, mkParam]

end Verif.Curve

import Verif.Geom.LineModel
import Verif.Geom.AngleTheorems
import Mathlib.Tactic.LinearCombination
/-
Points, lines and circles in the plane.
-/
namespace Verif.Geom

theorem small_pos : 0 < small := by norm_num [small]

/-- The square of the distance. -/
theorem pointDist_sq (x0 y0 x1 y1 : ℝ) :
    pointDist x0 y0 x1 y1 ^ 2 = (x1 - x0) ^ 2 + (y1 - y0) ^ 2 := by
  unfold pointDist
  rw [Real.sq_sqrt (by nlinarith [mul_self_nonneg (x1 - x0), mul_self_nonneg (y1 - y0)])]
  ring

theorem pointDist_nonneg (x0 y0 x1 y1 : ℝ) : 0 ≤ pointDist x0 y0 x1 y1 := Real.sqrt_nonneg _

theorem pointDist_le_iff (x0 y0 x1 y1 x2 y2 : ℝ) :
    pointDist x0 y0 x1 y1 ≤ pointDist x0 y0 x2 y2 ↔
      (x1 - x0) ^ 2 + (y1 - y0) ^ 2 ≤ (x2 - x0) ^ 2 + (y2 - y0) ^ 2 := by
  rw [← pointDist_sq, ← pointDist_sq]
  exact (pow_le_pow_iff_left₀ (pointDist_nonneg _ _ _ _) (pointDist_nonneg _ _ _ _) two_ne_zero).symm

/-! ### Projection on a line and distance from a segment -/

/-- A segment the code treats as a line: not shorter than 1e-6 in both coordinates. -/
def Proper (x1 y1 x2 y2 : ℝ) : Prop := ¬(|x2 - x1| < small ∧ |y2 - y1| < small)

theorem Proper.pos {x1 y1 x2 y2 : ℝ} (h : Proper x1 y1 x2 y2) :
    0 < (y2 - y1) * (y2 - y1) + (x2 - x1) * (x2 - x1) := by
  have hs := small_pos
  rcases not_and_or.mp h with h | h
  · have : x2 - x1 ≠ 0 := by
      intro e; rw [e, abs_zero] at h; exact h hs
    have := mul_self_pos.mpr this
    nlinarith [mul_self_nonneg (y2 - y1)]
  · have : y2 - y1 ≠ 0 := by
      intro e; rw [e, abs_zero] at h; exact h hs
    have := mul_self_pos.mpr this
    nlinarith [mul_self_nonneg (x2 - x1)]

/-- The parameter of the foot of the perpendicular. -/
noncomputable def foot (x y x1 y1 x2 y2 : ℝ) : ℝ :=
  ((x - x1) * (x2 - x1) + (y - y1) * (y2 - y1)) / ((y2 - y1) * (y2 - y1) + (x2 - x1) * (x2 - x1))

theorem foot_mul {x1 y1 x2 y2 : ℝ} (h : Proper x1 y1 x2 y2) (x y : ℝ) :
    foot x y x1 y1 x2 y2 * ((y2 - y1) * (y2 - y1) + (x2 - x1) * (x2 - x1))
      = (x - x1) * (x2 - x1) + (y - y1) * (y2 - y1) :=
  div_mul_cancel₀ _ h.pos.ne'

/-- C65: the projection is a point of the line, and the difference to it is perpendicular to the
line. -/
theorem project_spec {x1 y1 x2 y2 : ℝ} (h : Proper x1 y1 x2 y2) (x y : ℝ) :
    (∃ t, projectOnLine x y x1 y1 x2 y2 = (x1 + t * (x2 - x1), y1 + t * (y2 - y1))) ∧
    (x - (projectOnLine x y x1 y1 x2 y2).1) * (x2 - x1)
      + (y - (projectOnLine x y x1 y1 x2 y2).2) * (y2 - y1) = 0 := by
  have hp := h.pos
  have e : projectOnLine x y x1 y1 x2 y2
      = (x1 + foot x y x1 y1 x2 y2 * (x2 - x1), y1 + foot x y x1 y1 x2 y2 * (y2 - y1)) := by
    have hf := foot_mul h x y
    unfold projectOnLine
    rw [if_neg h]
    have hk := div_mul_cancel₀ ((y2 - y1) * (x - x1) - (x2 - x1) * (y - y1)) hp.ne'
    generalize foot x y x1 y1 x2 y2 = f at *
    generalize ((y2 - y1) * (x - x1) - (x2 - x1) * (y - y1))
      / ((y2 - y1) * (y2 - y1) + (x2 - x1) * (x2 - x1)) = k at *
    ext
    · refine mul_right_cancel₀ hp.ne' ?_
      simp only
      linear_combination (-(y2 - y1)) * hk - (x2 - x1) * hf
    · refine mul_right_cancel₀ hp.ne' ?_
      simp only
      linear_combination (x2 - x1) * hk - (y2 - y1) * hf
  refine ⟨⟨_, e⟩, ?_⟩
  rw [e]
  have hf := foot_mul h x y
  simp only
  linear_combination -hf

theorem project_eq {x1 y1 x2 y2 : ℝ} (h : Proper x1 y1 x2 y2) (x y : ℝ) :
    projectOnLine x y x1 y1 x2 y2
      = (x1 + foot x y x1 y1 x2 y2 * (x2 - x1), y1 + foot x y x1 y1 x2 y2 * (y2 - y1)) := by
  have hp := h.pos
  obtain ⟨⟨t, ht⟩, ho⟩ := project_spec h x y
  have : t = foot x y x1 y1 x2 y2 := by
    rw [ht] at ho
    unfold foot
    rw [eq_div_iff hp.ne']
    linarith
  rw [ht, this]

/-- C65: no point of the line is closer than the projection. -/
theorem project_nearest {x1 y1 x2 y2 : ℝ} (h : Proper x1 y1 x2 y2) (x y t : ℝ) :
    pointDist x y (projectOnLine x y x1 y1 x2 y2).1 (projectOnLine x y x1 y1 x2 y2).2
      ≤ pointDist x y (x1 + t * (x2 - x1)) (y1 + t * (y2 - y1)) := by
  rw [pointDist_le_iff]
  obtain ⟨⟨u, hu⟩, ho⟩ := project_spec h x y
  rw [hu] at ho ⊢
  simp only at ho ⊢
  have e : (x1 + t * (x2 - x1) - x) ^ 2 + (y1 + t * (y2 - y1) - y) ^ 2
      = (x1 + u * (x2 - x1) - x) ^ 2 + (y1 + u * (y2 - y1) - y) ^ 2
        + (t - u) ^ 2 * ((x2 - x1) ^ 2 + (y2 - y1) ^ 2)
        - 2 * (t - u) * ((x - (x1 + u * (x2 - x1))) * (x2 - x1)
          + (y - (y1 + u * (y2 - y1))) * (y2 - y1)) := by ring
  rw [e, ho]
  nlinarith [mul_nonneg (sq_nonneg (t - u)) (add_nonneg (sq_nonneg (x2 - x1)) (sq_nonneg (y2 - y1)))]

theorem inside_iff {a b t : ℝ} (hne : b - a ≠ 0) :
    (if b > a then ¬(a + t * (b - a) < a ∨ a + t * (b - a) > b)
      else ¬(a + t * (b - a) > a ∨ a + t * (b - a) < b)) ↔ 0 ≤ t ∧ t ≤ 1 := by
  split_ifs with h
  · have hp : 0 < b - a := by linarith
    rw [not_or, not_lt, not_lt]
    constructor
    · rintro ⟨p, q⟩
      constructor
      · by_contra hn
        have := mul_neg_of_neg_of_pos (not_le.mp hn) hp
        linarith
      · by_contra hn
        have := mul_pos (sub_pos.mpr (not_le.mp hn)) hp
        nlinarith
    · rintro ⟨p, q⟩
      have h1 := mul_nonneg p hp.le
      have h2 := mul_le_mul_of_nonneg_right q hp.le
      constructor <;> linarith
  · have hp : b - a < 0 := lt_of_le_of_ne (by linarith) hne
    rw [not_or, not_lt, not_lt]
    constructor
    · rintro ⟨p, q⟩
      constructor
      · by_contra hn
        have := mul_pos_of_neg_of_neg (not_le.mp hn) hp
        linarith
      · by_contra hn
        have := mul_neg_of_pos_of_neg (sub_pos.mpr (not_le.mp hn)) hp
        nlinarith
    · rintro ⟨p, q⟩
      have h1 := mul_nonpos_of_nonneg_of_nonpos p hp.le
      have h2 := mul_le_mul_of_nonpos_right q hp.le
      constructor <;> linarith

theorem betweenRaw_line {x1 y1 x2 y2 : ℝ} (h : Proper x1 y1 x2 y2) (t : ℝ) :
    ((betweenRaw (x1 + t * (x2 - x1)) (y1 + t * (y2 - y1)) x1 y1 x2 y2).1 ↔ 0 ≤ t ∧ t ≤ 1) ∧
    (betweenRaw (x1 + t * (x2 - x1)) (y1 + t * (y2 - y1)) x1 y1 x2 y2).2 = t := by
  have hs := small_pos
  unfold betweenRaw
  rw [if_neg (fun g => h g.symm)]
  by_cases c : |x2 - x1| < |y2 - y1|
  · rw [if_pos c]
    have hne : y2 - y1 ≠ 0 := by
      intro e; rw [e, abs_zero] at c; exact absurd c (not_lt.mpr (abs_nonneg _))
    refine ⟨inside_iff hne, ?_⟩
    show (y1 + t * (y2 - y1) - y1) / (y2 - y1) = t
    rw [add_sub_cancel_left, mul_div_cancel_right₀ _ hne]
  · rw [if_neg c]
    have hne : x2 - x1 ≠ 0 := by
      intro e
      rw [e, abs_zero] at c
      have hy : y2 - y1 = 0 := by
        by_contra hn
        exact c (abs_pos.mpr hn)
      exact h ⟨by rw [e, abs_zero]; exact hs, by rw [hy, abs_zero]; exact hs⟩
    refine ⟨inside_iff hne, ?_⟩
    show (x1 + t * (x2 - x1) - x1) / (x2 - x1) = t
    rw [add_sub_cancel_left, mul_div_cancel_right₀ _ hne]

/-- C65: a point of the line is reported to be between the end points exactly if it is, with the
fraction of the way; before the first end point with the negative distance from it, after the second
with the distance from it. -/
theorem between_line {x1 y1 x2 y2 : ℝ} (h : Proper x1 y1 x2 y2) (t : ℝ) :
    let r := between (x1 + t * (x2 - x1)) (y1 + t * (y2 - y1)) x1 y1 x2 y2
    (r.1 ↔ 0 ≤ t ∧ t ≤ 1) ∧ (r.1 → r.2 = t) ∧
      (t < 0 → r.2 = -pointDist (x1 + t * (x2 - x1)) (y1 + t * (y2 - y1)) x1 y1) ∧
      (1 < t → r.2 = pointDist (x1 + t * (x2 - x1)) (y1 + t * (y2 - y1)) x2 y2) := by
  obtain ⟨h1, h2⟩ := betweenRaw_line h t
  intro r
  by_cases hin : (betweenRaw (x1 + t * (x2 - x1)) (y1 + t * (y2 - y1)) x1 y1 x2 y2).1
  · have e : r = betweenRaw (x1 + t * (x2 - x1)) (y1 + t * (y2 - y1)) x1 y1 x2 y2 := by
      show between _ _ _ _ _ _ = _
      unfold between
      rw [if_neg (not_not.mpr hin)]
    have := h1.mp hin
    rw [e]
    exact ⟨h1, fun _ => h2, fun hn => absurd this.1 (not_le.mpr hn),
      fun hn => absurd this.2 (not_le.mpr hn)⟩
  · have e : r = ((betweenRaw (x1 + t * (x2 - x1)) (y1 + t * (y2 - y1)) x1 y1 x2 y2).1,
        if t < 0 then -pointDist (x1 + t * (x2 - x1)) (y1 + t * (y2 - y1)) x1 y1
        else pointDist (x1 + t * (x2 - x1)) (y1 + t * (y2 - y1)) x2 y2) := by
      show between _ _ _ _ _ _ = _
      unfold between
      rw [if_pos hin, h2]
    rw [e]
    refine ⟨h1, fun g => absurd g hin, fun hn => if_pos hn, fun hn => if_neg ?_⟩
    linarith

theorem pointDist_pos_of {x1 y1 x2 y2 t : ℝ} (h : Proper x1 y1 x2 y2) (ht : t < 0) :
    0 < pointDist (x1 + t * (x2 - x1)) (y1 + t * (y2 - y1)) x1 y1 := by
  have hp := h.pos
  refine Real.sqrt_pos.mpr ?_
  have : 0 < t * t := mul_self_pos.mpr ht.ne
  have := mul_pos this hp
  nlinarith

/-- What `DistanceFromPointToEdge2D` finds: the foot of the perpendicular, moved into the segment. -/
theorem edgePoint_eq {x1 y1 x2 y2 : ℝ} (h : Proper x1 y1 x2 y2) (x y : ℝ) :
    edgePoint x y x1 y1 x2 y2 =
      (x1 + max 0 (min 1 (foot x y x1 y1 x2 y2)) * (x2 - x1),
        y1 + max 0 (min 1 (foot x y x1 y1 x2 y2)) * (y2 - y1)) := by
  have hb := between_line h (foot x y x1 y1 x2 y2)
  have hp := project_eq h x y
  unfold edgePoint
  rw [hp]
  generalize foot x y x1 y1 x2 y2 = t at *
  obtain ⟨h1, h2, h3, h4⟩ := hb
  split_ifs with c d
  · have := h1.mp c
    rw [min_eq_right this.2, max_eq_right this.1]
  · have ht : t < 0 := by
      by_contra hn
      have : 1 < t := by
        by_contra hm
        exact c (h1.mpr ⟨not_lt.mp hn, not_lt.mp hm⟩)
      rw [h4 this] at d
      exact absurd d (not_lt.mpr (pointDist_nonneg _ _ _ _))
    rw [min_eq_right (by linarith), max_eq_left (by linarith)]
    simp
  · have ht : 1 < t := by
      by_contra hn
      have : t < 0 := by
        by_contra hm
        exact c (h1.mpr ⟨not_lt.mp hm, not_lt.mp hn⟩)
      rw [h3 this] at d
      have := pointDist_pos_of h this
      exact d (by linarith)
    rw [min_eq_left (by linarith), max_eq_right zero_le_one]
    simp

/-- C65: the distance from a segment is the distance to the point returned, which is a point of the
segment, and no point of the segment is closer. -/
theorem edge_distance {x1 y1 x2 y2 : ℝ} (h : Proper x1 y1 x2 y2) (x y : ℝ) :
    edgeDist x y x1 y1 x2 y2
      = pointDist x y (edgePoint x y x1 y1 x2 y2).1 (edgePoint x y x1 y1 x2 y2).2 ∧
    (∃ s, 0 ≤ s ∧ s ≤ 1 ∧
      edgePoint x y x1 y1 x2 y2 = (x1 + s * (x2 - x1), y1 + s * (y2 - y1))) ∧
    ∀ s, 0 ≤ s → s ≤ 1 →
      edgeDist x y x1 y1 x2 y2 ≤ pointDist x y (x1 + s * (x2 - x1)) (y1 + s * (y2 - y1)) := by
  have he := edgePoint_eq h x y
  have hp := h.pos
  refine ⟨rfl, ⟨_, le_max_left _ _, max_le zero_le_one (min_le_left _ _), he⟩, fun s h0 h1 => ?_⟩
  unfold edgeDist
  rw [he, pointDist_le_iff]
  simp only
  have key : ∀ u : ℝ, (x1 + u * (x2 - x1) - x) ^ 2 + (y1 + u * (y2 - y1) - y) ^ 2
      = (u - foot x y x1 y1 x2 y2) ^ 2 * ((y2 - y1) * (y2 - y1) + (x2 - x1) * (x2 - x1))
        + ((x1 + foot x y x1 y1 x2 y2 * (x2 - x1) - x) ^ 2
          + (y1 + foot x y x1 y1 x2 y2 * (y2 - y1) - y) ^ 2) := by
    intro u
    have ho := (project_spec h x y).2
    rw [project_eq h x y] at ho
    simp only at ho
    linear_combination (-2 * (u - foot x y x1 y1 x2 y2)) * ho
  rw [key, key s]
  have : (max 0 (min 1 (foot x y x1 y1 x2 y2)) - foot x y x1 y1 x2 y2) ^ 2
      ≤ (s - foot x y x1 y1 x2 y2) ^ 2 := by
    generalize foot x y x1 y1 x2 y2 = f
    rcases le_total f 0 with c | c
    · rw [min_eq_right (by linarith), max_eq_left c]
      nlinarith
    · rcases le_total f 1 with d | d
      · rw [min_eq_right d, max_eq_right c]
        nlinarith [sq_nonneg (s - f)]
      · rw [min_eq_left d, max_eq_right zero_le_one]
        nlinarith
  have := mul_le_mul_of_nonneg_right this hp.le
  linarith

/-- C65: for a segment shorter than 1e-6 in both coordinates the first end point is taken; the
distance is wrong by at most 2e-6. -/
theorem edge_distance_tiny {x1 y1 x2 y2 : ℝ} (h : ¬ Proper x1 y1 x2 y2) (x y : ℝ) :
    edgeDist x y x1 y1 x2 y2 = pointDist x y x1 y1 ∧
    ∀ s, 0 ≤ s → s ≤ 1 →
      edgeDist x y x1 y1 x2 y2
        ≤ pointDist x y (x1 + s * (x2 - x1)) (y1 + s * (y2 - y1)) + 2 * small := by
  have hc := not_not.mp h
  have hpr : projectOnLine x y x1 y1 x2 y2 = (x1, y1) := by
    unfold projectOnLine; rw [if_pos hc]
  have hb : (between x1 y1 x1 y1 x2 y2).1 := by
    have : (betweenRaw x1 y1 x1 y1 x2 y2) = (True, 0) := by
      unfold betweenRaw; rw [if_pos hc.symm]
    unfold between
    rw [this, if_neg (not_not.mpr trivial)]
    trivial
  have he : edgePoint x y x1 y1 x2 y2 = (x1, y1) := by
    unfold edgePoint
    rw [hpr, if_pos hb]
  have hd : edgeDist x y x1 y1 x2 y2 = pointDist x y x1 y1 := by
    unfold edgeDist; rw [he]
  refine ⟨hd, fun s h0 h1 => ?_⟩
  rw [hd]
  have hs := small_pos
  obtain ⟨ha, hb'⟩ := hc
  have ha' := abs_lt.mp ha
  have hb'' := abs_lt.mp hb'
  generalize hD : pointDist x y (x1 + s * (x2 - x1)) (y1 + s * (y2 - y1)) = D
  have hD0 : 0 ≤ D := hD ▸ pointDist_nonneg _ _ _ _
  have hD2 : D ^ 2 = (x1 + s * (x2 - x1) - x) ^ 2 + (y1 + s * (y2 - y1) - y) ^ 2 := by
    rw [← hD, pointDist_sq]
  refine abs_le_of_sq_le_sq' ?_ (by linarith) |>.2
  rw [pointDist_sq]
  have hux : |s * (x2 - x1)| ≤ small := by
    rw [abs_mul, abs_of_nonneg h0]
    nlinarith [abs_nonneg (x2 - x1)]
  have huy : |s * (y2 - y1)| ≤ small := by
    rw [abs_mul, abs_of_nonneg h0]
    nlinarith [abs_nonneg (y2 - y1)]
  generalize s * (x2 - x1) = u at *
  generalize s * (y2 - y1) = v at *
  have hax : |x1 + u - x| ≤ D := abs_le_of_sq_le_sq (by rw [hD2]; nlinarith [sq_nonneg (y1 + v - y)]) hD0
  have hay : |y1 + v - y| ≤ D := abs_le_of_sq_le_sq (by rw [hD2]; nlinarith [sq_nonneg (x1 + u - x)]) hD0
  have hpx : -(u * (x1 + u - x)) ≤ small * D := by
    calc _ ≤ |u * (x1 + u - x)| := neg_le_abs _
      _ = |u| * |x1 + u - x| := abs_mul _ _
      _ ≤ small * D := mul_le_mul hux hax (abs_nonneg _) hs.le
  have hpy : -(v * (y1 + v - y)) ≤ small * D := by
    calc _ ≤ |v * (y1 + v - y)| := neg_le_abs _
      _ = |v| * |y1 + v - y| := abs_mul _ _
      _ ≤ small * D := mul_le_mul huy hay (abs_nonneg _) hs.le
  have hu2 : u ^ 2 ≤ small ^ 2 := by
    rw [← sq_abs u]; exact pow_le_pow_left₀ (abs_nonneg _) hux 2
  have hv2 : v ^ 2 ≤ small ^ 2 := by
    rw [← sq_abs v]; exact pow_le_pow_left₀ (abs_nonneg _) huy 2
  nlinarith

/-- The distance from (3, 4) to the segment from the origin to (0, 4): 3, at (0, 4). -/
example : Proper 0 0 0 4 ∧ edgePoint 3 4 0 0 0 4 = (0, 4) := by
  have h : Proper 0 0 0 4 := by
    unfold Proper small; norm_num
  refine ⟨h, ?_⟩
  rw [edgePoint_eq h]
  norm_num [foot]

/-! ### Signed projections and distances -/

/-- C65: the signed length of the projection on a vector is the scalar product with the unit vector
(0 for a vector shorter than 1e-3). -/
theorem projectSigned_eq (x0 y0 x1 y1 : ℝ) :
    projectSigned x0 y0 x1 y1 =
      if x1 * x1 + y1 * y1 > small then (x0 * x1 + y0 * y1) / Real.sqrt (x1 * x1 + y1 * y1) else 0 := by
  have hs := small_pos
  unfold projectSigned projectOnVector dot2
  by_cases hl : x1 * x1 + y1 * y1 > small
  · rw [if_pos hl, if_pos hl]
    have hp : 0 < x1 * x1 + y1 * y1 := by linarith
    have hsq : 0 < Real.sqrt (x1 * x1 + y1 * y1) := Real.sqrt_pos.mpr hp
    have hss : Real.sqrt (x1 * x1 + y1 * y1) ^ 2 = x1 * x1 + y1 * y1 := Real.sq_sqrt hp.le
    generalize hk : (x0 * x1 + y0 * y1) / (x1 * x1 + y1 * y1) = k
    have hd : x0 * x1 + y0 * y1 = k * (x1 * x1 + y1 * y1) := by
      rw [← hk, div_mul_cancel₀ _ hp.ne']
    have hlen : Real.sqrt (x1 * k * (x1 * k) + y1 * k * (y1 * k))
        = |k| * Real.sqrt (x1 * x1 + y1 * y1) := by
      rw [show x1 * k * (x1 * k) + y1 * k * (y1 * k) = k ^ 2 * (x1 * x1 + y1 * y1) by ring,
        Real.sqrt_mul (sq_nonneg k), Real.sqrt_sq_eq_abs]
    have hr : (x0 * x1 + y0 * y1) / Real.sqrt (x1 * x1 + y1 * y1)
        = k * Real.sqrt (x1 * x1 + y1 * y1) := by
      rw [div_eq_iff hsq.ne', hd]; linear_combination (-k) * hss
    simp only
    rw [hlen, hr]
    rcases lt_trichotomy k 0 with c | c | c
    · rw [if_pos, abs_of_neg c]
      · ring
      · have hne : x1 ≠ 0 ∨ y1 ≠ 0 := by
          by_contra hn
          obtain ⟨a, b⟩ := not_or.mp hn
          rw [not_not.mp a, not_not.mp b] at hp
          norm_num at hp
        unfold sign
        rcases hne with g | g
        · left
          rcases lt_or_gt_of_ne g with q | q
          · have := mul_pos_of_neg_of_neg q c
            rw [if_neg (by linarith), if_pos q]; norm_num
          · have := mul_neg_of_pos_of_neg q c
            rw [if_pos this, if_neg (by linarith)]; norm_num
        · right
          rcases lt_or_gt_of_ne g with q | q
          · have := mul_pos_of_neg_of_neg q c
            rw [if_neg (by linarith), if_pos q]; norm_num
          · have := mul_neg_of_pos_of_neg q c
            rw [if_pos this, if_neg (by linarith)]; norm_num
    · rw [c]; simp
    · rw [if_neg, abs_of_pos c]
      have e : ∀ z : ℝ, sign (z * k) = sign z := by
        intro z
        unfold sign
        by_cases hz : z < 0
        · rw [if_pos (mul_neg_of_neg_of_pos hz c), if_pos hz]
        · rw [if_neg (not_lt.mpr (mul_nonneg (not_lt.mp hz) c.le)), if_neg hz]
      rw [e, e]
      simp
  · rw [if_neg hl, if_neg hl]
    simp

/-- C65: the signed distance from a line is the distance from the projection on it, positive to the
left of the direction of the line. -/
theorem lineDistSigned_spec {x1 y1 x2 y2 : ℝ} (h : Proper x1 y1 x2 y2) (x y : ℝ) :
    |lineDistSigned x y x1 y1 x2 y2|
      = pointDist x y (projectOnLine x y x1 y1 x2 y2).1 (projectOnLine x y x1 y1 x2 y2).2 ∧
    (0 < lineDistSigned x y x1 y1 x2 y2 ↔ 0 < (x2 - x1) * (y - y1) - (y2 - y1) * (x - x1)) := by
  have hp := h.pos
  have hL : 0 < (x2 - x1) * (x2 - x1) + (y2 - y1) * (y2 - y1) := by linarith
  have hsq := Real.sqrt_pos.mpr hL
  constructor
  · unfold lineDistSigned cross2
    rw [abs_div, abs_of_pos hsq, div_eq_iff hsq.ne', project_eq h]
    unfold pointDist
    have hf := foot_mul h x y
    generalize foot x y x1 y1 x2 y2 = f at *
    rw [← Real.sqrt_mul (add_nonneg (mul_self_nonneg _) (mul_self_nonneg _)), ← Real.sqrt_sq_eq_abs]
    congr 1
    linear_combination (-(f * ((y2 - y1) * (y2 - y1) + (x2 - x1) * (x2 - x1))
      - ((x - x1) * (x2 - x1) + (y - y1) * (y2 - y1)))) * hf
  · unfold lineDistSigned cross2
    rw [lt_div_iff₀ hsq, zero_mul]
    constructor <;> intro g <;> linarith

/-- C65: the side of a vector is -1 exactly to its right. -/
theorem sideOfVec_spec (px py x1 y1 x2 y2 : ℝ) :
    sideOfVec px py x1 y1 x2 y2
      = if (x2 - x1) * (py - y1) - (y2 - y1) * (px - x1) < 0 then -1 else 1 := by
  unfold sideOfVec sign cross2
  rfl

/-- C65: the distance from a line given by a point and an angle is the distance from the projection
on it; it is positive to the right. -/
theorem lineAngleDist_spec (x y x1 y1 a : ℝ) :
    |lineAngleDist x y x1 y1 a| = pointDist x y
      (projectOnLine x y x1 y1 (x1 + Real.cos a) (y1 + Real.sin a)).1
      (projectOnLine x y x1 y1 (x1 + Real.cos a) (y1 + Real.sin a)).2 ∧
    lineAngleDist x y x1 y1 a = -lineDistSigned x y x1 y1 (x1 + Real.cos a) (y1 + Real.sin a) := by
  have hu := Real.sin_sq_add_cos_sq a
  have hpr : Proper x1 y1 (x1 + Real.cos a) (y1 + Real.sin a) := by
    rintro ⟨h1, h2⟩
    rw [add_sub_cancel_left] at h1 h2
    have hs : small < 1 / 2 := by norm_num [small]
    have h1' := abs_lt.mp h1
    have h2' := abs_lt.mp h2
    nlinarith
  have e : lineAngleDist x y x1 y1 a
      = -lineDistSigned x y x1 y1 (x1 + Real.cos a) (y1 + Real.sin a) := by
    unfold lineAngleDist lineDistSigned cross2
    rw [add_sub_cancel_left, add_sub_cancel_left,
      show Real.cos a * Real.cos a + Real.sin a * Real.sin a = 1 by linarith, Real.sqrt_one]
    ring
  exact ⟨by rw [e, abs_neg]; exact (lineDistSigned_spec hpr x y).1, e⟩

/-! ### Intersections -/

/-- C66: the point returned is on both lines, and it is the only common point; there is no answer
exactly if the cross product of the directions is below 1e-6. -/
theorem lineIntersection_spec (ax1 ay1 ax2 ay2 bx1 by1 bx2 by2 : ℝ) :
    (lineIntersection ax1 ay1 ax2 ay2 bx1 by1 bx2 by2 = none ↔
      |(ax2 - ax1) * (by2 - by1) - (ay2 - ay1) * (bx2 - bx1)| < small) ∧
    ∀ p, lineIntersection ax1 ay1 ax2 ay2 bx1 by1 bx2 by2 = some p →
      (∃ t, p = (ax1 + t * (ax2 - ax1), ay1 + t * (ay2 - ay1))) ∧
      (∃ u, p = (bx1 + u * (bx2 - bx1), by1 + u * (by2 - by1))) ∧
      ∀ t u, (ax1 + t * (ax2 - ax1), ay1 + t * (ay2 - ay1))
        = (bx1 + u * (bx2 - bx1), by1 + u * (by2 - by1)) →
        p = (ax1 + t * (ax2 - ax1), ay1 + t * (ay2 - ay1)) := by
  have hs := small_pos
  have e : (ax1 - ax2) * (by1 - by2) - (ay1 - ay2) * (bx1 - bx2)
      = (ax2 - ax1) * (by2 - by1) - (ay2 - ay1) * (bx2 - bx1) := by ring
  unfold lineIntersection
  rw [e]
  constructor
  · split_ifs with h
    · simp [h]
    · simp [h]
  · intro p hp
    split_ifs at hp with h
    have hD : (ax2 - ax1) * (by2 - by1) - (ay2 - ay1) * (bx2 - bx1) ≠ 0 := by
      intro h0; rw [h0, abs_zero] at h; exact h hs
    generalize hDd : (ax2 - ax1) * (by2 - by1) - (ay2 - ay1) * (bx2 - bx1) = D at *
    rw [Option.some.injEq] at hp
    refine ⟨⟨_, hp.symm⟩, ⟨((ax2 - ax1) * (ay1 - by1) - (ay2 - ay1) * (ax1 - bx1)) / D, ?_⟩, ?_⟩
    · rw [← hp]
      have h1 := div_mul_cancel₀ ((ax1 - bx1) * (by1 - by2) - (ay1 - by1) * (bx1 - bx2)) hD
      have h2 := div_mul_cancel₀ ((ax2 - ax1) * (ay1 - by1) - (ay2 - ay1) * (ax1 - bx1)) hD
      generalize ((ax1 - bx1) * (by1 - by2) - (ay1 - by1) * (bx1 - bx2)) / D = t at *
      generalize ((ax2 - ax1) * (ay1 - by1) - (ay2 - ay1) * (ax1 - bx1)) / D = u at *
      ext
      · refine mul_right_cancel₀ hD ?_
        simp only
        linear_combination (ax2 - ax1) * h1 - (bx2 - bx1) * h2 - (ax1 - bx1) * hDd
      · refine mul_right_cancel₀ hD ?_
        simp only
        linear_combination (ay2 - ay1) * h1 - (by2 - by1) * h2 - (ay1 - by1) * hDd
    · intro t u htu
      rw [← hp]
      have h1 := congrArg Prod.fst htu
      have h2 := congrArg Prod.snd htu
      simp only at h1 h2
      have : ((ax1 - bx1) * (by1 - by2) - (ay1 - by1) * (bx1 - bx2)) / D = t := by
        rw [div_eq_iff hD, ← hDd]
        linear_combination (by2 - by1) * (-h1) + (bx2 - bx1) * h2
      rw [this]

theorem circle_quadratic (p0x p0y p1x p1y cx cy r t : ℝ) :
    (p0x + t * (p1x - p0x) - cx) ^ 2 + (p0y + t * (p1y - p0y) - cy) ^ 2 - r ^ 2
      = circleA p0x p0y p1x p1y * t ^ 2 + circleB p0x p0y p1x p1y cx cy * t
        + circleC p0x p0y cx cy r := by
  unfold circleA circleB circleC
  ring

/-- C66: if two points are returned they are on the line and on the circle, and every common point of
line and circle is one of them. -/
theorem circle_two {p0x p0y p1x p1y cx cy r : ℝ} {a b : ℝ × ℝ}
    (hne : (p0x, p0y) ≠ (p1x, p1y))
    (h : circleIntersections p0x p0y p1x p1y cx cy r = some [a, b]) (t : ℝ) :
    (p0x + t * (p1x - p0x) - cx) ^ 2 + (p0y + t * (p1y - p0y) - cy) ^ 2 = r ^ 2 ↔
      ((p0x + t * (p1x - p0x), p0y + t * (p1y - p0y)) = a ∨
        (p0x + t * (p1x - p0x), p0y + t * (p1y - p0y)) = b) := by
  have hq := circle_quadratic p0x p0y p1x p1y cx cy r t
  have hd : p1x - p0x ≠ 0 ∨ p1y - p0y ≠ 0 := by
    by_contra hn
    obtain ⟨u, v⟩ := not_or.mp hn
    exact hne (Prod.ext (by simp only; linarith [not_not.mp u]) (by simp only; linarith [not_not.mp v]))
  have hA : 0 < circleA p0x p0y p1x p1y := by
    unfold circleA
    rcases hd with g | g
    · nlinarith [mul_self_pos.mpr g, mul_self_nonneg (p1y - p0y)]
    · nlinarith [mul_self_pos.mpr g, mul_self_nonneg (p1x - p0x)]
  unfold circleIntersections circlePoints at h
  generalize circleA p0x p0y p1x p1y = A at *
  generalize circleB p0x p0y p1x p1y cx cy = B at *
  generalize circleC p0x p0y cx cy r = C at *
  by_cases h1 : B * B - 4 * A * C < -small
  · rw [if_pos h1] at h; simp at h
  by_cases h2 : |B * B - 4 * A * C - 0| < small
  · rw [if_neg h1, if_pos h2] at h; simp at h
  by_cases h3 : B * B - 4 * A * C < 0
  · rw [if_neg h1, if_neg h2, if_pos h3] at h; simp at h
  rw [if_neg h1, if_neg h2, if_neg h3] at h
  have h4 : 0 ≤ B * B - 4 * A * C := not_lt.mp h3
  have hsq := Real.mul_self_sqrt h4
  rw [Option.some.injEq, List.cons.injEq, List.cons.injEq] at h
  obtain ⟨ha, hb, -⟩ := h
  have hroot : ∀ s : ℝ, s * s = B * B - 4 * A * C → ((2 * A * t + B) ^ 2 = s ^ 2 ↔
      A * t ^ 2 + B * t + C = 0) := by
    intro s hs
    constructor
    · intro g
      have : 4 * A * (A * t ^ 2 + B * t + C) = 0 := by
        linear_combination g + hs
      exact (mul_eq_zero.mp this).resolve_left (by positivity)
    · intro g
      linear_combination 4 * A * g - hs
  have hpt : ∀ s : ℝ, (p0x + t * (p1x - p0x), p0y + t * (p1y - p0y))
      = (p0x + s * (p1x - p0x), p0y + s * (p1y - p0y)) ↔ t = s := by
    intro s
    constructor
    · intro g
      have g1 := congrArg Prod.fst g
      have g2 := congrArg Prod.snd g
      simp only at g1 g2
      rcases hd with q | q
      · have : (t - s) * (p1x - p0x) = 0 := by linarith
        linarith [(mul_eq_zero.mp this).resolve_right q]
      · have : (t - s) * (p1y - p0y) = 0 := by linarith
        linarith [(mul_eq_zero.mp this).resolve_right q]
    · rintro rfl; rfl
  rw [← ha, ← hb, hpt, hpt, eq_div_iff (by positivity), eq_div_iff (by positivity)]
  have h0 := hroot _ hsq
  rw [sq_eq_sq_iff_eq_or_eq_neg] at h0
  constructor
  · intro g
    have : A * t ^ 2 + B * t + C = 0 := by linarith
    rcases h0.mpr this with q | q
    · left; linarith
    · right; linarith
  · intro g
    have : A * t ^ 2 + B * t + C = 0 := by
      apply h0.mp
      rcases g with q | q
      · left; linarith
      · right; linarith
    linarith

/-- C66: if no point is returned, line and circle have no common point. -/
theorem circle_none {p0x p0y p1x p1y cx cy r : ℝ}
    (h : circleIntersections p0x p0y p1x p1y cx cy r = some []) (t : ℝ) :
    (p0x + t * (p1x - p0x) - cx) ^ 2 + (p0y + t * (p1y - p0y) - cy) ^ 2 ≠ r ^ 2 := by
  have hq := circle_quadratic p0x p0y p1x p1y cx cy r t
  have hs := small_pos
  intro g
  rw [g, sub_self] at hq
  unfold circleIntersections circlePoints at h
  generalize circleA p0x p0y p1x p1y = A at *
  generalize circleB p0x p0y p1x p1y cx cy = B at *
  generalize circleC p0x p0y cx cy r = C at *
  by_cases h1 : B * B - 4 * A * C < -small
  · have e : (2 * A * t + B) ^ 2 = B * B - 4 * A * C := by linear_combination (-4 * A) * hq
    have := sq_nonneg (2 * A * t + B)
    linarith
  · rw [if_neg h1] at h
    split_ifs at h <;> simp at h

/-- C66: if one point is returned it is the point of the line closest to the centre, and it is on the
circle up to 1e-6 over four times the squared length of the given piece of the line. -/
theorem circle_one {p0x p0y p1x p1y cx cy r : ℝ} {a : ℝ × ℝ}
    (hne : (p0x, p0y) ≠ (p1x, p1y))
    (h : circleIntersections p0x p0y p1x p1y cx cy r = some [a]) :
    |(a.1 - cx) ^ 2 + (a.2 - cy) ^ 2 - r ^ 2|
      < small / (4 * ((p1x - p0x) ^ 2 + (p1y - p0y) ^ 2)) ∧
    ∀ t, (a.1 - cx) ^ 2 + (a.2 - cy) ^ 2
      ≤ (p0x + t * (p1x - p0x) - cx) ^ 2 + (p0y + t * (p1y - p0y) - cy) ^ 2 := by
  have hq := circle_quadratic p0x p0y p1x p1y cx cy r
  have hd : p1x - p0x ≠ 0 ∨ p1y - p0y ≠ 0 := by
    by_contra hn
    obtain ⟨u, v⟩ := not_or.mp hn
    exact hne (Prod.ext (by simp only; linarith [not_not.mp u]) (by simp only; linarith [not_not.mp v]))
  have hA : 0 < circleA p0x p0y p1x p1y := by
    unfold circleA
    rcases hd with g | g
    · nlinarith [mul_self_pos.mpr g, mul_self_nonneg (p1y - p0y)]
    · nlinarith [mul_self_pos.mpr g, mul_self_nonneg (p1x - p0x)]
  have hAe : (p1x - p0x) ^ 2 + (p1y - p0y) ^ 2 = circleA p0x p0y p1x p1y := by
    unfold circleA; ring
  rw [hAe]
  unfold circleIntersections circlePoints at h
  generalize circleA p0x p0y p1x p1y = A at *
  generalize circleB p0x p0y p1x p1y cx cy = B at *
  generalize circleC p0x p0y cx cy r = C at *
  by_cases h1 : B * B - 4 * A * C < -small
  · rw [if_pos h1] at h; simp at h
  by_cases h2 : |B * B - 4 * A * C - 0| < small
  · rw [if_neg h1, if_pos h2, Option.some.injEq, List.cons.injEq] at h
    rw [← h.1]
    simp only
    have hv := hq (-B / (2 * A))
    have hval : A * (-B / (2 * A)) ^ 2 + B * (-B / (2 * A)) + C = -(B * B - 4 * A * C) / (4 * A) := by
      field_simp
      ring
    rw [hval] at hv
    rw [sub_zero] at h2
    constructor
    · rw [hv, abs_div, abs_neg, abs_of_pos (by positivity : 0 < 4 * A)]
      exact div_lt_div_of_pos_right h2 (by positivity)
    · intro t
      have ht := hq t
      have : A * t ^ 2 + B * t + C - -(B * B - 4 * A * C) / (4 * A)
          = (2 * A * t + B) ^ 2 / (4 * A) := by
        field_simp
        ring
      have : 0 ≤ (2 * A * t + B) ^ 2 / (4 * A) := by positivity
      linarith
  · rw [if_neg h1, if_neg h2] at h
    split_ifs at h <;> simp at h

/-- C66 fails where the discriminant is exactly -1e-6: line and circle have no common point, but the
code takes the root of a negative number. -/
theorem circle_nan_fails : circleIntersections 0 0 (1 / 1000) 0 0 (Real.sqrt 1.25) 1 = none := by
  have h : Real.sqrt 1.25 * Real.sqrt 1.25 = 1.25 := Real.mul_self_sqrt (by norm_num)
  have hd : circleB 0 0 (1 / 1000) 0 0 (Real.sqrt 1.25) * circleB 0 0 (1 / 1000) 0 0 (Real.sqrt 1.25)
      - 4 * circleA 0 0 (1 / 1000) 0 * circleC 0 0 0 (Real.sqrt 1.25) 1 = -(1 / 1000000) := by
    unfold circleA circleB circleC
    nlinarith
  unfold circleIntersections circlePoints
  rw [hd]
  norm_num [small]

/-- A line through the centre. -/
example : ∃ a b, circleIntersections 0 0 1 0 0 0 2 = some [a, b] := by
  unfold circleIntersections circlePoints circleA circleB circleC
  rw [if_neg (by norm_num [small]), if_neg (by norm_num [small]), if_neg (by norm_num)]
  exact ⟨_, _, rfl⟩

/-! ### Frames -/

/-- C66: local and global coordinates are inverse to each other, if `Global2LocalCoordinates` gets
the negative heading (as all its callers do). -/
theorem frames_inverse (xh yh h x y : ℝ) :
    local2Global xh yh h (global2Local x y xh yh (-h)).1 (global2Local x y xh yh (-h)).2 = (x, y) ∧
    global2Local (local2Global xh yh h x y).1 (local2Global xh yh h x y).2 xh yh (-h) = (x, y) := by
  have hu := Real.sin_sq_add_cos_sq h
  unfold local2Global global2Local
  simp only [Real.cos_neg, Real.sin_neg]
  constructor
  · ext
    · simp only
      linear_combination (x - xh) * hu
    · simp only
      linear_combination (y - yh) * hu
  · ext
    · simp only
      linear_combination x * hu
    · simp only
      linear_combination y * hu

/-- C66 fails if the heading itself is given, as the name of the parameter (`angleHost`) suggests. -/
theorem frames_positive_fails :
    local2Global 0 0 (Real.pi / 2) (global2Local 1 0 0 0 (Real.pi / 2)).1
      (global2Local 1 0 0 0 (Real.pi / 2)).2 = (-1, 0) := by
  unfold local2Global global2Local
  simp

/-- C66: rotation turns by the angle: it is the local to global map at the origin, keeps the length
and adds up. -/
theorem rotate_spec (x y a b : ℝ) :
    rotate x y a = local2Global 0 0 a x y ∧
    (rotate x y a).1 ^ 2 + (rotate x y a).2 ^ 2 = x ^ 2 + y ^ 2 ∧
    rotate (rotate x y a).1 (rotate x y a).2 b = rotate x y (a + b) := by
  have hu := Real.sin_sq_add_cos_sq a
  unfold rotate local2Global
  simp only [Real.cos_neg, Real.sin_neg]
  refine ⟨?_, ?_, ?_⟩
  · ext
    · simp only; ring
    · simp only; ring
  · linear_combination (x ^ 2 + y ^ 2) * hu
  · rw [Real.cos_add, Real.sin_add]
    ext
    · simp only; ring
    · simp only; ring

end Verif.Geom

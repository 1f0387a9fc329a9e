import Verif.Geom.LineTheorems
/-
`IsPointWithinSectorBetweenTwoLines`, CommonMini.cpp:733-769, and the use of it in the search for the road of a point,
RoadManager.cpp:9160-9208: between which vertices of a road a point lies, and how far along.

Simplifications: doubles are real numbers; results written through references are returned.
-/
namespace Verif.Geom

/-- `DistanceFromPointToLine2D`, CommonMini.cpp:594-608. -/
noncomputable def lineDist (x3 y3 x1 y1 x2 y2 : ℝ) : ℝ :=
  pointDist x3 y3 (projectOnLine x3 y3 x1 y1 x2 y2).1 (projectOnLine x3 y3 x1 y1 x2 y2).2

/-- `SE_Vector::Cross`, CommonMini.hpp:335-338. -/
def vecCross (x y vx vy : ℝ) : ℝ := x * vy - vx * y

open Classical in
/-- `IsPointWithinSectorBetweenTwoLines`, CommonMini.cpp:733-769: inside and `sNorm`. The lines go through (ax, ay), (ax2, ay2) and
(bx, b_y), (bx2, by2). -/
noncomputable def sector (px py ax ay ax2 ay2 bx b_y bx2 by2 : ℝ) : Bool × ℝ :=
  let d0 := vecCross (px - ax) (py - ay) (ax2 - ax) (ay2 - ay)
  let d1 := vecCross (px - bx) (py - b_y) (bx2 - bx) (by2 - b_y)
  let dist0 := lineDist px py ax ay ax2 ay2
  let dist1 := lineDist px py bx b_y bx2 by2
  let sNorm := dist0 / max small (dist0 + dist1)
  if d0 > 0 ∧ d1 < 0 then (true, sNorm)
  else if d0 < 0 ∧ d1 > 0 then (true, -sNorm)
  else if dist0 < dist1 then (false, -dist0)
  else (false, dist1)

open Classical in
/-- A segment of a road, RoadManager.cpp:9161-9163: from vertex (ax, ay) with normal (nx, ny) to vertex (bx, b_y) with normal (mx, my). -/
noncomputable def segmentAt (px py ax ay nx ny bx b_y mx my : ℝ) : Bool × ℝ :=
  let r := sector px py ax ay (ax + nx) (ay + ny) bx b_y (bx + mx) (b_y + my)
  (r.1 && decide (r.2 ≥ 0), r.2)

/-- The height of a point, RoadManager.cpp:9199-9203. -/
noncomputable def segmentZ (r : Bool × ℝ) (za zb : ℝ) : ℝ := if r.1 then (1 - r.2) * za + r.2 * zb else zb

/-! ## Specification -/

/-- How far the point is from the first vertex in the direction of which (nx, ny) is the left normal. -/
def ahead (px py ax ay nx ny : ℝ) : ℝ := (px - ax) * ny - (py - ay) * nx

/-! ## Lemmas -/

theorem lineDist_unit (px py ax ay nx ny : ℝ) (h : nx ^ 2 + ny ^ 2 = 1) :
    lineDist px py ax ay (ax + nx) (ay + ny) = |ahead px py ax ay nx ny| := by
  have hp : ¬ (|ax + nx - ax| < small ∧ |ay + ny - ay| < small) := by
    rintro ⟨h1, h2⟩
    rw [add_sub_cancel_left] at h1 h2
    have a := abs_lt.mp h1
    have b := abs_lt.mp h2
    norm_num [small] at a b
    nlinarith
  unfold lineDist pointDist projectOnLine
  rw [if_neg hp]
  simp only [add_sub_cancel_left]
  have e : ny * ny + nx * nx = 1 := by linarith [h, sq nx, sq ny]
  rw [e, div_one]
  rw [← Real.sqrt_sq_eq_abs]
  congr 1
  unfold ahead
  linear_combination ((px - ax) * ny - (py - ay) * nx) ^ 2 * h

theorem segmentAt_cases (px py ax ay nx ny bx b_y mx my : ℝ) (hn : nx ^ 2 + ny ^ 2 = 1) (hm : mx ^ 2 + my ^ 2 = 1) :
    let u := ahead px py ax ay nx ny
    let v := ahead px py bx b_y mx my
    (0 < u → v < 0 → segmentAt px py ax ay nx ny bx b_y mx my = (true, u / max small (u - v))) ∧
    (u < 0 → 0 < v → segmentAt px py ax ay nx ny bx b_y mx my = (false, -(-u / max small (v - u)))) ∧
    (¬ (0 < u ∧ v < 0) → ¬ (u < 0 ∧ 0 < v) → |u| < |v| → segmentAt px py ax ay nx ny bx b_y mx my = (false, -|u|)) ∧
    (¬ (0 < u ∧ v < 0) → ¬ (u < 0 ∧ 0 < v) → |v| ≤ |u| → segmentAt px py ax ay nx ny bx b_y mx my = (false, |v|)) := by
  intro u v
  have hu : vecCross (px - ax) (py - ay) (ax + nx - ax) (ay + ny - ay) = u := by
    simp only [vecCross, u, ahead]
    ring
  have hv : vecCross (px - bx) (py - b_y) (bx + mx - bx) (b_y + my - b_y) = v := by
    simp only [vecCross, v, ahead]
    ring
  have hd0 : lineDist px py ax ay (ax + nx) (ay + ny) = |u| := lineDist_unit _ _ _ _ _ _ hn
  have hd1 : lineDist px py bx b_y (bx + mx) (b_y + my) = |v| := lineDist_unit _ _ _ _ _ _ hm
  have hmax : ∀ z : ℝ, 0 < max small z := fun z => lt_of_lt_of_le small_pos (le_max_left _ _)
  unfold segmentAt sector
  simp only [hu, hv, hd0, hd1]
  refine ⟨?_, ?_, ?_, ?_⟩
  · intro h1 h2
    rw [if_pos ⟨h1, h2⟩, abs_of_pos h1, abs_of_neg h2, ← sub_eq_add_neg]
    have := div_pos h1 (hmax (u - v))
    simp [this.le]
  · intro h1 h2
    rw [if_neg (by rintro ⟨a, -⟩; exact lt_asymm a h1), if_pos ⟨h1, h2⟩, abs_of_neg h1, abs_of_pos h2]
    have e : -u + v = v - u := by ring
    rw [e]
    have : 0 < -u / max small (v - u) := div_pos (by linarith) (hmax _)
    have : ¬ (-(-u / max small (v - u)) ≥ 0) := by linarith
    simp only [this, decide_false, Bool.and_false]
  · intro h1 h2 h3
    rw [if_neg h1, if_neg h2, if_pos h3]
    simp
  · intro h1 h2 h3
    rw [if_neg h1, if_neg h2, if_neg (not_lt.mpr h3)]
    simp

/-! ## Theorems -/

/-- C185: beside a straight segment of a road (of length `len`, at least a millionth) a point is on the segment exactly if it is
strictly between the perpendiculars at its ends, and `sNorm` is how far along the segment it is, as a fraction; beyond the ends
it is the signed distance along the road to the closer end. -/
theorem segment_straight (px py ax ay nx ny len : ℝ) (hn : nx ^ 2 + ny ^ 2 = 1) (hl : 1 / 1000000 ≤ len) :
    let u := ahead px py ax ay nx ny
    let r := segmentAt px py ax ay nx ny (ax + len * ny) (ay - len * nx) nx ny
    (r.1 = true ↔ 0 < u ∧ u < len) ∧ (0 < u → u < len → r.2 = u / len) ∧ (u ≤ 0 → r.2 = u) ∧ (len ≤ u → r.2 = u - len) := by
  intro u r
  have hl0 : 0 < len := by linarith
  have hv : ahead px py (ax + len * ny) (ay - len * nx) nx ny = u - len := by
    simp only [u, ahead]
    linear_combination (-len) * hn
  obtain ⟨c1, c2, c3, c4⟩ := segmentAt_cases px py ax ay nx ny (ax + len * ny) (ay - len * nx) nx ny hn hn
  rw [hv] at c1 c2 c3 c4
  change (0 < u → u - len < 0 → r = (true, u / max small (u - (u - len)))) at c1
  change (¬ (0 < u ∧ u - len < 0) → ¬ (u < 0 ∧ 0 < u - len) → |u| < |u - len| → r = (false, -|u|)) at c3
  change (¬ (0 < u ∧ u - len < 0) → ¬ (u < 0 ∧ 0 < u - len) → |u - len| ≤ |u| → r = (false, |u - len|)) at c4
  have hmax : max small (u - (u - len)) = len := by
    rw [sub_sub_cancel]
    exact max_eq_right (by norm_num [small] at *; linarith)
  rw [hmax] at c1
  rcases le_or_gt u 0 with h | h
  · have e : r = (false, -|u|) := c3 (fun a => by linarith [a.1]) (fun a => by linarith [a.1, a.2])
      (by rw [abs_of_nonpos h, abs_of_neg (by linarith)]; linarith)
    rw [abs_of_nonpos h, neg_neg] at e
    rw [e]
    refine ⟨⟨fun a => by simp at a, fun a => by linarith [a.1]⟩, fun a => by linarith, fun _ => rfl, fun a => by linarith⟩
  · rcases lt_or_ge u len with h' | h'
    · have e := c1 h (by linarith)
      rw [e]
      exact ⟨⟨fun _ => ⟨h, h'⟩, fun _ => rfl⟩, fun _ _ => rfl, fun a => by linarith, fun a => by linarith⟩
    · have e : r = (false, |u - len|) := c4 (fun a => by linarith [a.2]) (fun a => by linarith [a.1, a.2])
        (by rw [abs_of_pos h, abs_of_nonneg (by linarith)]; linarith)
      rw [abs_of_nonneg (by linarith : 0 ≤ u - len)] at e
      rw [e]
      refine ⟨⟨fun a => by simp at a, fun a => by linarith [a.2]⟩, fun _ a => by linarith, fun a => by linarith, fun _ => rfl⟩

/-- C185: on a straight segment the height is that of the straight line between its ends. -/
theorem segment_height (px py ax ay nx ny len za zb : ℝ) (hn : nx ^ 2 + ny ^ 2 = 1) (hl : 1 / 1000000 ≤ len)
    (h0 : 0 < ahead px py ax ay nx ny) (h1 : ahead px py ax ay nx ny < len) :
    segmentZ (segmentAt px py ax ay nx ny (ax + len * ny) (ay - len * nx) nx ny) za zb =
      za + ahead px py ax ay nx ny * ((zb - za) / len) := by
  obtain ⟨a, b, -, -⟩ := segment_straight px py ax ay nx ny len hn hl
  unfold segmentZ
  rw [if_pos (a.mpr ⟨h0, h1⟩), b h0 h1]
  have : len ≠ 0 := by linarith
  field_simp
  ring

/-- C185: with any (unit) normals, a point on a segment is ahead of the first normal and behind the second one, and divides the way
between them in the ratio of its distances to them, if these add up to a millionth; the height found lies between those of the ends. -/
theorem segment_ratio (px py ax ay nx ny bx b_y mx my za zb : ℝ) (hn : nx ^ 2 + ny ^ 2 = 1) (hm : mx ^ 2 + my ^ 2 = 1) :
    let u := ahead px py ax ay nx ny
    let v := ahead px py bx b_y mx my
    let r := segmentAt px py ax ay nx ny bx b_y mx my
    (r.1 = true ↔ 0 < u ∧ v < 0) ∧
    (r.1 = true → 0 < r.2 ∧ r.2 < 1 ∧ (1 / 1000000 ≤ u - v → (1 - r.2) * u = r.2 * -v) ∧
      min za zb ≤ segmentZ r za zb ∧ segmentZ r za zb ≤ max za zb) := by
  intro u v r
  obtain ⟨c1, c2, c3, c4⟩ := segmentAt_cases px py ax ay nx ny bx b_y mx my hn hm
  change (0 < u → v < 0 → r = (true, u / max small (u - v))) at c1
  change (u < 0 → 0 < v → r = (false, -(-u / max small (v - u)))) at c2
  change (¬ (0 < u ∧ v < 0) → ¬ (u < 0 ∧ 0 < v) → |u| < |v| → r = (false, -|u|)) at c3
  change (¬ (0 < u ∧ v < 0) → ¬ (u < 0 ∧ 0 < v) → |v| ≤ |u| → r = (false, |v|)) at c4
  have hiff : r.1 = true ↔ 0 < u ∧ v < 0 := by
    constructor
    · intro h
      by_contra hc
      by_cases h2 : u < 0 ∧ 0 < v
      · rw [c2 h2.1 h2.2] at h; simp at h
      · rcases lt_or_ge |u| |v| with h3 | h3
        · rw [c3 hc h2 h3] at h; simp at h
        · rw [c4 hc h2 h3] at h; simp at h
    · rintro ⟨h1, h2⟩
      rw [c1 h1 h2]
  refine ⟨hiff, fun h => ?_⟩
  obtain ⟨h1, h2⟩ := hiff.mp h
  have e := c1 h1 h2
  have hM : u - v ≤ max small (u - v) := le_max_right _ _
  have hMp : 0 < max small (u - v) := lt_of_lt_of_le small_pos (le_max_left _ _)
  have hr0 : 0 < r.2 := by
    rw [e]
    exact div_pos h1 hMp
  have hr1 : r.2 < 1 := by
    rw [e]
    rw [div_lt_one hMp]
    linarith
  refine ⟨hr0, hr1, ?_, ?_, ?_⟩
  · intro hs
    have hmax : max small (u - v) = u - v := max_eq_right (by norm_num [small] at *; linarith)
    rw [e, hmax]
    have : u - v ≠ 0 := by linarith
    field_simp
    ring
  · unfold segmentZ
    rw [if_pos h]
    have a := min_le_left za zb
    have b := min_le_right za zb
    nlinarith
  · unfold segmentZ
    rw [if_pos h]
    have a := le_max_left za zb
    have b := le_max_right za zb
    nlinarith

/-- C185: no point is on two consecutive segments, and a point between the outer normals is on one of them unless it is exactly
on the normal they share. What is missing: points exactly on it, see `segment_gap_fails`. -/
theorem segment_chain_partial (px py ax ay nx ny bx b_y mx my cx cy kx ky : ℝ) (hn : nx ^ 2 + ny ^ 2 = 1) (hm : mx ^ 2 + my ^ 2 = 1)
    (hk : kx ^ 2 + ky ^ 2 = 1) :
    ¬ ((segmentAt px py ax ay nx ny bx b_y mx my).1 = true ∧ (segmentAt px py bx b_y mx my cx cy kx ky).1 = true) ∧
    (0 < ahead px py ax ay nx ny → ahead px py cx cy kx ky < 0 → ahead px py bx b_y mx my ≠ 0 →
      (segmentAt px py ax ay nx ny bx b_y mx my).1 = true ∨ (segmentAt px py bx b_y mx my cx cy kx ky).1 = true) := by
  have h1 := (segment_ratio px py ax ay nx ny bx b_y mx my 0 0 hn hm).1
  have h2 := (segment_ratio px py bx b_y mx my cx cy kx ky 0 0 hm hk).1
  rw [h1, h2]
  constructor
  · rintro ⟨⟨-, a⟩, b, -⟩
    linarith
  · intro a b c
    rcases lt_or_gt_of_ne c with d | d
    · exact .inl ⟨a, d⟩
    · exact .inr ⟨d, b⟩

/-- C185: a point beside a straight road of two segments, exactly where they meet, is on none of them. -/
theorem segment_gap_fails : ¬ ∀ px py ax ay nx ny bx b_y mx my cx cy kx ky : ℝ, nx ^ 2 + ny ^ 2 = 1 → mx ^ 2 + my ^ 2 = 1 → kx ^ 2 + ky ^ 2 = 1 →
    0 < ahead px py ax ay nx ny → ahead px py cx cy kx ky < 0 →
      (segmentAt px py ax ay nx ny bx b_y mx my).1 = true ∨ (segmentAt px py bx b_y mx my cx cy kx ky).1 = true := by
  intro h
  have := h 10 1 0 0 0 1 10 0 0 1 20 0 0 1 (by norm_num) (by norm_num) (by norm_num) (by norm_num [ahead]) (by norm_num [ahead])
  have h1 := (segment_ratio 10 1 0 0 0 1 10 0 0 1 0 0 (by norm_num) (by norm_num)).1
  have h2 := (segment_ratio 10 1 10 0 0 1 20 0 0 1 0 0 (by norm_num) (by norm_num)).1
  rw [h1, h2] at this
  norm_num [ahead] at this

/-- A point 3 m along and 1 m beside a road of 10 m to the east. -/
example : segmentAt 3 1 0 0 0 1 (0 + 10 * 1) (0 - 10 * 0) 0 1 = (true, 3 / 10) := by
  have h := segment_straight 3 1 0 0 0 1 10 (by norm_num) (by norm_num)
  have e : ahead 3 1 0 0 0 1 = 3 := by norm_num [ahead]
  simp only [e] at h
  exact Prod.ext (h.1.mpr (by norm_num)) (h.2.1 (by norm_num) (by norm_num))

/-- A point 2 m before it. -/
example : segmentAt (-2) 1 0 0 0 1 (0 + 10 * 1) (0 - 10 * 0) 0 1 = (false, -2) := by
  have h := segment_straight (-2) 1 0 0 0 1 10 (by norm_num) (by norm_num)
  have e : ahead (-2) 1 0 0 0 1 = -2 := by norm_num [ahead]
  simp only [e] at h
  refine Prod.ext ?_ (h.2.2.1 (by norm_num))
  simpa using (not_congr h.1).mpr (by norm_num)

end Verif.Geom

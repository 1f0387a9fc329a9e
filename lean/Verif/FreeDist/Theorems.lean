import Verif.FreeDist.Lemmas
/-
Free space distance: the distance of two boxes, and of a box and a point, in the plane.
-/
namespace Verif.FreeDist

open Verif.Geom

theorem shrink_eq (m d : ℝ) : shrink m d = min m d := by
  unfold shrink
  split_ifs with h
  · rw [min_eq_right h.le]
  · rw [min_eq_left (not_lt.mp h)]

theorem overSides_spec (p : ℝ × ℝ) (b : Box) (m : ℝ) :
    overSides p b m ≤ m ∧ (∀ k, overSides p b m ≤ toSide p b k) ∧
    (overSides p b m = m ∨ ∃ k, overSides p b m = toSide p b k) := by
  unfold overSides
  simp only [List.foldl_cons, List.foldl_nil, shrink_eq]
  refine ⟨?_, fun k => ?_, ?_⟩
  · simp
  · fin_cases k <;> simp
  · rcases min_choice (min (min (min m (toSide p b 0)) (toSide p b 1)) (toSide p b 2)) (toSide p b 3) with h | h
    · rw [h]
      rcases min_choice (min (min m (toSide p b 0)) (toSide p b 1)) (toSide p b 2) with h | h
      · rw [h]
        rcases min_choice (min m (toSide p b 0)) (toSide p b 1) with h | h
        · rw [h]
          rcases min_choice m (toSide p b 0) with h | h
          · exact Or.inl h
          · exact Or.inr ⟨0, h⟩
        · exact Or.inr ⟨1, h⟩
      · exact Or.inr ⟨2, h⟩
    · exact Or.inr ⟨3, h⟩

theorem overCorners_spec (a b : Box) (m : ℝ) :
    overCorners a b m ≤ m ∧ (∀ j k, overCorners a b m ≤ toSide (vertex a j) b k) ∧
    (overCorners a b m = m ∨ ∃ j k, overCorners a b m = toSide (vertex a j) b k) := by
  unfold overCorners
  simp only [List.foldl_cons, List.foldl_nil]
  obtain ⟨a1, b1, c1⟩ := overSides_spec (vertex a 0) b m
  generalize overSides (vertex a 0) b m = m1 at *
  obtain ⟨a2, b2, c2⟩ := overSides_spec (vertex a 1) b m1
  generalize overSides (vertex a 1) b m1 = m2 at *
  obtain ⟨a3, b3, c3⟩ := overSides_spec (vertex a 2) b m2
  generalize overSides (vertex a 2) b m2 = m3 at *
  obtain ⟨a4, b4, c4⟩ := overSides_spec (vertex a 3) b m3
  generalize overSides (vertex a 3) b m3 = m4 at *
  refine ⟨by linarith, fun j k => ?_, ?_⟩
  · fin_cases j
    · exact (by linarith : m4 ≤ m1).trans (b1 k)
    · exact (by linarith : m4 ≤ m2).trans (b2 k)
    · exact (by linarith : m4 ≤ m3).trans (b3 k)
    · exact b4 k
  · rcases c4 with c4 | ⟨k, c4⟩
    · rw [c4]
      rcases c3 with c3 | ⟨k, c3⟩
      · rw [c3]
        rcases c2 with c2 | ⟨k, c2⟩
        · rw [c2]
          rcases c1 with c1 | ⟨k, c1⟩
          · exact Or.inl c1
          · exact Or.inr ⟨0, k, c1⟩
        · exact Or.inr ⟨1, k, c2⟩
      · exact Or.inr ⟨2, k, c3⟩
    · exact Or.inr ⟨3, k, c4⟩

theorem Sized.pos {b : Box} (h : Sized b) : 0 < b.len ∧ 0 < b.wid :=
  ⟨lt_of_lt_of_le (by norm_num) h.len, lt_of_lt_of_le (by norm_num) h.wid⟩

theorem vertex_in {c : Box} (h1 : 0 < c.len) (h2 : 0 < c.wid) (j : Fin 4) : Inside c 0 (vertex c j).1 (vertex c j).2 := by
  obtain ⟨u, v, hu, hv, e⟩ := vertex_inside h1 h2 j
  rw [e]
  exact inside_at hu hv

theorem proj_eq (b : Box) (n : ℝ × ℝ) (j : Fin 4) : proj b n j = n.1 * (vertex b j).1 + n.2 * (vertex b j).2 := by
  unfold proj vertex dot2
  ring

theorem lo_spec (b : Box) (n : ℝ × ℝ) : (∃ j, lo b n = proj b n j) ∧ ∀ j, lo b n ≤ proj b n j := by
  unfold lo
  constructor
  · rcases min_choice (proj b n 3) (min (proj b n 2) (min (proj b n 1) (proj b n 0))) with h | h
    · exact ⟨3, h⟩
    · rw [h]
      rcases min_choice (proj b n 2) (min (proj b n 1) (proj b n 0)) with h | h
      · exact ⟨2, h⟩
      · rw [h]
        rcases min_choice (proj b n 1) (proj b n 0) with h | h
        · exact ⟨1, h⟩
        · exact ⟨0, h⟩
  · intro j
    fin_cases j <;> simp

theorem hi_spec (b : Box) (n : ℝ × ℝ) : (∃ j, hi b n = proj b n j) ∧ ∀ j, proj b n j ≤ hi b n := by
  unfold hi
  constructor
  · rcases max_choice (proj b n 3) (max (proj b n 2) (max (proj b n 1) (proj b n 0))) with h | h
    · exact ⟨3, h⟩
    · rw [h]
      rcases max_choice (proj b n 2) (max (proj b n 1) (proj b n 0)) with h | h
      · exact ⟨2, h⟩
      · rw [h]
        rcases max_choice (proj b n 1) (proj b n 0) with h | h
        · exact ⟨1, h⟩
        · exact ⟨0, h⟩
  · intro j
    fin_cases j <;> simp

/-- A point of the box is between the extreme corners on every axis. -/
theorem inside_lohi {b : Box} {px py : ℝ} (h : Inside b 0 px py) (n : ℝ × ℝ) :
    lo b n ≤ n.1 * px + n.2 * py ∧ n.1 * px + n.2 * py ≤ hi b n := by
  obtain ⟨u, v, hu, hv, rfl, rfl⟩ := h
  rw [add_zero, abs_le] at hu hv
  have hlo := (lo_spec b n).2
  have hhi := (hi_spec b n).2
  have key : ∀ j, proj b n j = n.1 * b.x + n.2 * b.y + (corner b j).1 * (n.1 * Real.cos b.h + n.2 * Real.sin b.h)
      + (corner b j).2 * (n.2 * Real.cos b.h - n.1 * Real.sin b.h) := by
    intro j
    unfold proj rotate dot2
    ring
  have e : ∀ u v : ℝ, n.1 * (b.x + ((b.cx + u) * Real.cos b.h - (b.cy + v) * Real.sin b.h))
      + n.2 * (b.y + ((b.cx + u) * Real.sin b.h + (b.cy + v) * Real.cos b.h))
      = n.1 * b.x + n.2 * b.y + (b.cx + u) * (n.1 * Real.cos b.h + n.2 * Real.sin b.h)
        + (b.cy + v) * (n.2 * Real.cos b.h - n.1 * Real.sin b.h) := by
    intro u v
    ring
  rw [e]
  have l0 := hlo 0; have l1 := hlo 1; have l2 := hlo 2; have l3 := hlo 3
  have g0 := hhi 0; have g1 := hhi 1; have g2 := hhi 2; have g3 := hhi 3
  rw [key] at l0 l1 l2 l3 g0 g1 g2 g3
  simp only [corner] at l0 l1 l2 l3 g0 g1 g2 g3
  generalize n.1 * Real.cos b.h + n.2 * Real.sin b.h = α at *
  generalize n.2 * Real.cos b.h - n.1 * Real.sin b.h = β at *
  rcases le_total 0 α with hα | hα <;> rcases le_total 0 β with hβ | hβ <;> constructor <;> nlinarith

theorem noGap_of_common {a b : Box} {px py : ℝ} (h1 : Inside a 0 px py) (h2 : Inside b 0 px py) : noGap a b := by
  have hs := small_pos
  have key : ∀ {a b : Box}, Inside a 0 px py → Inside b 0 px py → ∀ n, ¬ gapOn a b n := by
    intro a b h1 h2 n
    have i1 := inside_lohi h1 n
    have i2 := inside_lohi h2 n
    rintro (⟨x1, x2⟩ | ⟨x1, x2⟩) <;> linarith
  exact ⟨key h1 h2 _, key h1 h2 _, key h2 h1 _, key h2 h1 _⟩

theorem gap_of_beyond {a b : Box} (ha : Sized a) (hb : Sized b) {n : ℝ × ℝ}
    (h : Beyond a b n.1 n.2 ∨ Beyond b a n.1 n.2) : gapOn a b n ∧ gapOn b a n := by
  have key : ∀ {a b : Box}, Sized a → Sized b → Beyond a b n.1 n.2 →
      lo a n < lo b n - small ∧ hi a n < lo b n - small ∧ hi b n > hi a n + small := by
    intro a b ha hb h
    have hs : small = 1 / 1000000 := rfl
    obtain ⟨⟨i, ei⟩, hi'⟩ := hi_spec a n
    obtain ⟨⟨j, ej⟩, hj'⟩ := lo_spec b n
    have := h _ _ _ _ (vertex_in ha.pos.1 ha.pos.2 i) (vertex_in hb.pos.1 hb.pos.2 j)
    rw [← proj_eq, ← proj_eq, ← ei, ← ej, ← hs] at this
    have l1 := (lo_spec a n).2 i
    have l2 := (hi_spec b n).2 j
    refine ⟨?_, ?_, ?_⟩ <;> linarith
  rcases h with h | h
  · obtain ⟨h1, h2, h3⟩ := key ha hb h
    exact ⟨Or.inl ⟨h1, h2⟩, Or.inr ⟨h3, by linarith⟩⟩
  · obtain ⟨h1, h2, h3⟩ := key hb ha h
    exact ⟨Or.inr ⟨h3, by linarith⟩, Or.inl ⟨h1, h2⟩⟩

theorem gap_of_separated {a b : Box} (ha : Sized a) (hb : Sized b) (h : Separated a b) : ¬ noGap a b := by
  obtain ⟨dx, dy, hby, t, ht, hd⟩ := h
  rintro ⟨g0, g1, g2, g3⟩
  have e1 : ∀ t, rotate 1 0 t = (Real.cos t, Real.sin t) := by intro t; simp [rotate]
  have e0 : ∀ t, rotate 0 1 t = (-Real.sin t, Real.cos t) := by intro t; simp [rotate]
  rw [e0] at g0 g2
  rw [e1] at g1 g3
  obtain ⟨x1, x2⟩ := gap_of_beyond ha hb (n := (dx, dy)) hby
  rcases ht with rfl | rfl <;> rcases hd with ⟨rfl, rfl⟩ | ⟨rfl, rfl⟩ <;> first | exact g0 x1 | exact g1 x1 | exact g2 x2 | exact g3 x2

/-- C180: the free space distance of two objects is the distance of the boxes. No point of the one is closer to a point
of the other. Unless it is 0 (or 1e10, which stands for everything beyond), two points are that far apart. It is 0 if
the boxes have a point in common, and not 0 if there is a gap of more than a millionth along a side of a box. -/
theorem free_distance {a b : Box} (ha : Sized a) (hb : Sized b) :
    (∀ px py qx qy, Inside a 0 px py → Inside b 0 qx qy → freeDist a (some b) ≤ apart px py qx qy) ∧
    freeDist a (some b) ≤ 10000000000 ∧
    (freeDist a (some b) ≠ 0 → freeDist a (some b) < 10000000000 →
      ∃ px py qx qy, Inside a 0 px py ∧ Inside b 0 qx qy ∧ freeDist a (some b) = apart px py qx qy) ∧
    ((∃ px py, Inside a 0 px py ∧ Inside b 0 px py) → freeDist a (some b) = 0) ∧
    (Separated a b → 0 < freeDist a (some b)) := by
  obtain ⟨hla, hwa⟩ := ha.pos
  obtain ⟨hlb, hwb⟩ := hb.pos
  by_cases hg : noGap a b
  · have e : freeDist a (some b) = 0 := by simp only [freeDist, if_pos hg]
    rw [e]
    exact ⟨fun _ _ _ _ _ _ => Real.sqrt_nonneg _, by norm_num, fun h => absurd rfl h, fun _ => rfl,
      fun h => absurd hg (gap_of_separated ha hb h)⟩
  have hd : ∀ px py, Inside a 0 px py → ¬ Inside b 0 px py := fun px py h h' => hg (noGap_of_common h h')
  simp only [freeDist, if_neg hg]
  obtain ⟨a1, b1, c1⟩ := overCorners_spec a b large
  generalize overCorners a b large = m1 at *
  obtain ⟨a2, b2, c2⟩ := overCorners_spec b a m1
  generalize overCorners b a m1 = m2 at *
  have hlarge : large = 10000000000 := rfl
  have att : m2 < 10000000000 → ∃ px py qx qy, Inside a 0 px py ∧ Inside b 0 qx qy ∧ m2 = apart px py qx qy := by
    intro hlt
    rcases c2 with c2 | ⟨j, k, c2⟩
    · rcases c1 with c1 | ⟨j, k, c1⟩
      · rw [c2, c1, hlarge] at hlt
        exact absurd hlt (lt_irrefl _)
      · obtain ⟨s1, s2, -⟩ := toSide_spec hb (vertex a j) k
        exact ⟨_, _, _, _, vertex_in hla hwa j, side_inside hlb hwb s1, by rw [c2, c1, s2]⟩
    · obtain ⟨s1, s2, -⟩ := toSide_spec ha (vertex b j) k
      exact ⟨_, _, _, _, side_inside hla hwa s1, vertex_in hlb hwb j, by rw [c2, s2, apart_comm]⟩
  refine ⟨?_, by linarith, fun _ => att, fun ⟨px, py, h, h'⟩ => absurd h' (hd px py h), fun _ => ?_⟩
  · intro px py qx qy hp hq
    rcases closest_corner hla hwa hlb hwb hd with ⟨j, k, q, hs, hm⟩ | ⟨j, k, q, hs, hm⟩
    · exact (a2.trans (b1 j k)).trans (((toSide_spec hb (vertex a j) k).2.2 q hs).trans (hm px py qx qy hp hq))
    · exact (b2 j k).trans (((toSide_spec ha (vertex b j) k).2.2 q hs).trans (hm px py qx qy hp hq))
  · by_cases hlt : m2 < 10000000000
    · obtain ⟨px, py, qx, qy, hp, hq, e⟩ := att hlt
      rw [e]
      refine lt_of_le_of_ne (Real.sqrt_nonneg _) fun h0 => ?_
      have h0' := (Real.sqrt_eq_zero (by positivity)).mp h0.symm
      have e1 : px = qx := by nlinarith [sq_nonneg (px - qx), sq_nonneg (py - qy)]
      have e2 : py = qy := by nlinarith [sq_nonneg (px - qx), sq_nonneg (py - qy)]
      subst e1 e2
      exact hd _ _ hp hq
    · exact lt_of_lt_of_le (by norm_num) (not_lt.mp hlt)

/-- C180: without a target the distance is 1e10. -/
theorem free_distance_none (a : Box) : freeDist a none = 10000000000 := rfl

/-- A distance found by the loops is not 0. -/
theorem zero_attained {a b : Box} (ha : Sized a) (hb : Sized b) (hg : ¬ noGap a b) (h0 : freeDist b (some a) = 0) : False := by
  have hc : noGap b a → noGap a b := fun ⟨h1, h2, h3, h4⟩ => ⟨h3, h4, h1, h2⟩
  have hd : ∀ px py, Inside a 0 px py → ¬ Inside b 0 px py := fun px py h h' => hg (noGap_of_common h h')
  simp only [freeDist, if_neg fun h => hg (hc h)] at h0
  have pos : ∀ {a b : Box}, Sized a → Sized b → (∀ px py, Inside a 0 px py → ¬ Inside b 0 px py) →
      ∀ j k, toSide (vertex a j) b k ≠ 0 := by
    intro a b ha hb hd j k h
    obtain ⟨s1, s2, -⟩ := toSide_spec hb (vertex a j) k
    rw [h] at s2
    have h0' := (Real.sqrt_eq_zero (by positivity)).mp s2.symm
    have e1 : (vertex a j).1 = (onSide (vertex a j) b k).1 := by
      nlinarith [sq_nonneg ((vertex a j).1 - (onSide (vertex a j) b k).1), sq_nonneg ((vertex a j).2 - (onSide (vertex a j) b k).2)]
    have e2 : (vertex a j).2 = (onSide (vertex a j) b k).2 := by
      nlinarith [sq_nonneg ((vertex a j).1 - (onSide (vertex a j) b k).1), sq_nonneg ((vertex a j).2 - (onSide (vertex a j) b k).2)]
    refine hd _ _ (vertex_in ha.pos.1 ha.pos.2 j) ?_
    rw [e1, e2]
    exact side_inside hb.pos.1 hb.pos.2 s1
  rcases (overCorners_spec a b (overCorners b a large)).2.2 with c | ⟨j, k, c⟩ <;> rw [c] at h0
  · rcases (overCorners_spec b a large).2.2 with d | ⟨j, k, d⟩ <;> rw [d] at h0
    · exact absurd h0 (by norm_num [large])
    · exact pos hb ha (fun px py h h' => hd px py h' h) j k h0
  · exact pos ha hb hd j k h0

/-- C180: it does not matter from which of the two the distance is measured. -/
theorem free_distance_symm {a b : Box} (ha : Sized a) (hb : Sized b) : freeDist a (some b) = freeDist b (some a) := by
  have hc : noGap a b ↔ noGap b a := ⟨fun ⟨h1, h2, h3, h4⟩ => ⟨h3, h4, h1, h2⟩, fun ⟨h1, h2, h3, h4⟩ => ⟨h3, h4, h1, h2⟩⟩
  by_cases hg : noGap a b
  · simp only [freeDist, if_pos hg, if_pos (hc.mp hg)]
  have key : ∀ {a b : Box}, Sized a → Sized b → freeDist b (some a) ≠ 0 →
      freeDist a (some b) ≤ freeDist b (some a) := by
    intro a b ha hb h0
    obtain ⟨h1, h2, -⟩ := free_distance ha hb
    obtain ⟨-, g2, g3, -⟩ := free_distance hb ha
    rcases g2.lt_or_eq with g | g
    · obtain ⟨px, py, qx, qy, hp, hq, e⟩ := g3 h0 g
      rw [e, apart_comm]
      exact h1 _ _ _ _ hq hp
    · rw [g]
      exact h2
  exact le_antisymm (key ha hb fun h => zero_attained ha hb hg h)
    (key hb ha fun h => zero_attained hb ha (fun h' => hg (hc.mpr h')) h)

/-! ## Distance to a point -/

/-- Coordinates of a point seen from the object. -/
theorem lohi (b : Box) (hl : 0 ≤ b.len) (hw : 0 ≤ b.wid) :
    lo b (rotate 1 0 b.h) = b.x * Real.cos b.h + b.y * Real.sin b.h + b.cx - b.len / 2 ∧
    hi b (rotate 1 0 b.h) = b.x * Real.cos b.h + b.y * Real.sin b.h + b.cx + b.len / 2 ∧
    lo b (rotate 0 1 b.h) = b.y * Real.cos b.h - b.x * Real.sin b.h + b.cy - b.wid / 2 ∧
    hi b (rotate 0 1 b.h) = b.y * Real.cos b.h - b.x * Real.sin b.h + b.cy + b.wid / 2 := by
  have sc := Real.sin_sq_add_cos_sq b.h
  have p1 : ∀ j, proj b (rotate 1 0 b.h) j = b.x * Real.cos b.h + b.y * Real.sin b.h + (corner b j).1 := by
    intro j
    unfold proj rotate dot2
    linear_combination (corner b j).1 * sc
  have p0 : ∀ j, proj b (rotate 0 1 b.h) j = b.y * Real.cos b.h - b.x * Real.sin b.h + (corner b j).2 := by
    intro j
    unfold proj rotate dot2
    linear_combination (corner b j).2 * sc
  unfold lo hi
  simp only [p1, p0, corner]
  refine ⟨?_, ?_, ?_, ?_⟩ <;> apply le_antisymm <;>
    simp only [min_le_iff, le_min_iff, max_le_iff, le_max_iff]
  · right; left; linarith
  · refine ⟨?_, ?_, ?_, ?_⟩ <;> linarith
  · refine ⟨?_, ?_, ?_, ?_⟩ <;> linarith
  · left; linarith
  · left; linarith
  · refine ⟨?_, ?_, ?_, ?_⟩ <;> linarith
  · refine ⟨?_, ?_, ?_, ?_⟩ <;> linarith
  · right; right; left; linarith

/-- C180: a point is taken to be in the box exactly if it is in it up to a millionth. -/
theorem pointHit_iff {b : Box} (hl : 0 ≤ b.len) (hw : 0 ≤ b.wid) (p : ℝ × ℝ) :
    pointHit b p ↔ Inside b (1 / 1000000) p.1 p.2 := by
  have sc := Real.sin_sq_add_cos_sq b.h
  obtain ⟨l1, h1, l0, h0⟩ := lohi b hl hw
  have hs : small = 1 / 1000000 := rfl
  unfold pointHit pointGap
  rw [l1, h1, l0, h0, hs]
  have d1 : dot2 p.1 p.2 (rotate 1 0 b.h).1 (rotate 1 0 b.h).2 = p.1 * Real.cos b.h + p.2 * Real.sin b.h := by
    unfold rotate dot2; ring
  have d0 : dot2 p.1 p.2 (rotate 0 1 b.h).1 (rotate 0 1 b.h).2 = p.2 * Real.cos b.h - p.1 * Real.sin b.h := by
    unfold rotate dot2; ring
  rw [d1, d0]
  constructor
  · rintro ⟨g0, g1⟩
    push Not at g0 g1
    refine ⟨(p.1 - b.x) * Real.cos b.h + (p.2 - b.y) * Real.sin b.h - b.cx,
      (p.2 - b.y) * Real.cos b.h - (p.1 - b.x) * Real.sin b.h - b.cy, ?_, ?_, ?_, ?_⟩
    · rw [abs_le]
      constructor
      · by_contra hc
        have := g1.2 (by linarith)
        linarith
      · by_contra hc
        have := g1.1 (by linarith)
        linarith
    · rw [abs_le]
      constructor
      · by_contra hc
        have := g0.2 (by linarith)
        linarith
      · by_contra hc
        have := g0.1 (by linarith)
        linarith
    · linear_combination -(p.1 - b.x) * sc
    · linear_combination -(p.2 - b.y) * sc
  · rintro ⟨u, v, hu, hv, e1, e2⟩
    rw [abs_le] at hu hv
    have i1 : p.1 * Real.cos b.h + p.2 * Real.sin b.h = b.x * Real.cos b.h + b.y * Real.sin b.h + b.cx + u := by
      rw [e1, e2]; linear_combination (b.cx + u) * sc
    have i0 : p.2 * Real.cos b.h - p.1 * Real.sin b.h = b.y * Real.cos b.h - b.x * Real.sin b.h + b.cy + v := by
      rw [e1, e2]; linear_combination (b.cy + v) * sc
    rw [i1, i0]
    constructor <;> rintro (⟨x1, x2⟩ | ⟨x1, x2⟩) <;> linarith

/-- The point of the box closest to a point outside of it is on a side. -/
theorem closest_side {b : Box} (hl : 0 < b.len) (hw : 0 < b.wid) {px py : ℝ} (hp : ¬ Inside b 0 px py) :
    ∃ k q, OnSide b k q ∧ ∀ qx qy, Inside b 0 qx qy → apart px py q.1 q.2 ≤ apart px py qx qy := by
  have sc := Real.sin_sq_add_cos_sq b.h
  obtain ⟨u, hu⟩ : ∃ u, u = (px - b.x) * Real.cos b.h + (py - b.y) * Real.sin b.h - b.cx := ⟨_, rfl⟩
  obtain ⟨v, hv⟩ : ∃ v, v = (py - b.y) * Real.cos b.h - (px - b.x) * Real.sin b.h - b.cy := ⟨_, rfl⟩
  have ex : px = b.x + ((b.cx + u) * Real.cos b.h - (b.cy + v) * Real.sin b.h) := by
    rw [hu, hv]; linear_combination -(px - b.x) * sc
  have ey : py = b.y + ((b.cx + u) * Real.sin b.h + (b.cy + v) * Real.cos b.h) := by
    rw [hu, hv]; linear_combination -(py - b.y) * sc
  have hout : ¬ (|u| ≤ b.len / 2 ∧ |v| ≤ b.wid / 2) := fun h => hp ⟨u, v, by linarith [h.1], by linarith [h.2], ex, ey⟩
  have dist : ∀ u' v', (px - (at' b u' v').1) ^ 2 + (py - (at' b u' v').2) ^ 2 = (u - u') ^ 2 + (v - v') ^ 2 := by
    intro u' v'
    unfold at'
    simp only
    rw [ex, ey]
    linear_combination ((u - u') ^ 2 + (v - v') ^ 2) * sc
  have clampIn : ∀ {L x : ℝ}, 0 < L → |max (-L) (min L x)| ≤ L := by
    intro L x hL
    rw [abs_le]
    exact ⟨le_max_left _ _, max_le (by linarith) (min_le_left _ _)⟩
  have clampOut : ∀ {L x : ℝ}, 0 < L → ¬ |x| ≤ L → |max (-L) (min L x)| = L := by
    intro L x hL hx
    rw [not_le, lt_abs] at hx
    rcases hx with hx | hx
    · rw [min_eq_left hx.le, max_eq_right (by linarith), abs_of_pos hL]
    · rw [min_eq_right (by linarith), max_eq_left (by linarith), abs_neg, abs_of_pos hL]
  have clampNear : ∀ {L x y : ℝ}, 0 < L → |y| ≤ L → (x - max (-L) (min L x)) ^ 2 ≤ (x - y) ^ 2 := by
    intro L x y hL hy
    rw [abs_le] at hy
    rcases le_total x (-L) with c | c
    · rw [min_eq_right (by linarith), max_eq_left c]
      nlinarith
    · rcases le_total L x with d | d
      · rw [min_eq_left d, max_eq_right (by linarith)]
        nlinarith
      · rw [min_eq_right d, max_eq_right c]
        nlinarith [sq_nonneg (x - y)]
  have hl2 : 0 < b.len / 2 := by linarith
  have hw2 : 0 < b.wid / 2 := by linarith
  obtain ⟨k, hk⟩ := side_ext hl hw (clampIn hl2 (x := u)) (clampIn hw2 (x := v)) (by
    by_cases c : |u| ≤ b.len / 2
    · exact Or.inr (clampOut hw2 fun h => hout ⟨c, h⟩)
    · exact Or.inl (clampOut hl2 c))
  refine ⟨k, _, hk, ?_⟩
  rintro qx qy ⟨u', v', hu', hv', rfl, rfl⟩
  rw [apart_le_iff, dist]
  have := dist u' v'
  unfold at' at this
  simp only at this
  rw [this]
  have i1 := clampNear hl2 (x := u) (y := u') (by linarith)
  have i2 := clampNear hw2 (x := v) (y := v') (by linarith)
  linarith

/-- What is known about the loop over the sides after some of them. -/
theorem rounds (b : Box) (p : ℝ × ℝ) : ∀ (l : List (Fin 4)) (r : PointDist),
    (l.foldl (pointRound b p) r).dist ≤ r.dist ∧
    (∀ k ∈ l, (l.foldl (pointRound b p) r).dist ≤ toSide p b k) ∧
    (l.foldl (pointRound b p) r = r ∨ ∃ k, l.foldl (pointRound b p) r =
      ⟨toSide p b k, (rotate (p.1 - (onSide p b k).1) (p.2 - (onSide p b k).2) (-b.h)).2,
        (rotate (p.1 - (onSide p b k).1) (p.2 - (onSide p b k).2) (-b.h)).1⟩)
  | [], r => ⟨le_refl _, by simp, Or.inl rfl⟩
  | k :: l, r => by
    obtain ⟨h1, h2, h3⟩ := rounds b p l (pointRound b p r k)
    simp only [List.foldl_cons]
    have hr : (pointRound b p r k).dist ≤ r.dist ∧ (pointRound b p r k).dist ≤ toSide p b k := by
      unfold pointRound
      split_ifs with c
      · exact ⟨c.le, le_refl _⟩
      · exact ⟨le_refl _, not_lt.mp c⟩
    refine ⟨h1.trans hr.1, ?_, ?_⟩
    · intro k' hk'
      rcases List.mem_cons.mp hk' with rfl | hk'
      · exact h1.trans hr.2
      · exact h2 k' hk'
    · rcases h3 with h3 | h3
      · rw [h3]
        unfold pointRound
        split_ifs with c
        · exact Or.inr ⟨k, rfl⟩
        · exact Or.inl rfl
      · exact Or.inr h3

/-- C180: the free space distance of an object and a point not in its box (up to a millionth): no point of the box is
closer, and there is a point of the box at this distance from which the point is `long` ahead and `lat` to the left. -/
theorem free_distance_point {b : Box} (hb : Sized b) {px py : ℝ} (hp : ¬ Inside b (1 / 1000000) px py) :
    (∀ qx qy, Inside b 0 qx qy → (freeDistPoint b (px, py)).dist ≤ apart px py qx qy) ∧
    (freeDistPoint b (px, py)).dist ≤ 10000000000 ∧
    ((freeDistPoint b (px, py)).dist < 10000000000 → ∃ qx qy, Inside b 0 qx qy ∧
      (freeDistPoint b (px, py)).dist = apart px py qx qy ∧
      px = qx + ((freeDistPoint b (px, py)).long * Real.cos b.h - (freeDistPoint b (px, py)).lat * Real.sin b.h) ∧
      py = qy + ((freeDistPoint b (px, py)).long * Real.sin b.h + (freeDistPoint b (px, py)).lat * Real.cos b.h)) := by
  obtain ⟨hl, hw⟩ := hb.pos
  have sc := Real.sin_sq_add_cos_sq b.h
  have hn : ¬ pointHit b (px, py) := fun h => hp ((pointHit_iff hl.le hw.le _).mp h)
  unfold freeDistPoint
  rw [if_neg hn]
  obtain ⟨h1, h2, h3⟩ := rounds b (px, py) [0, 1, 2, 3] ⟨large, large, large⟩
  generalize List.foldl (pointRound b (px, py)) ⟨large, large, large⟩ [0, 1, 2, 3] = r at *
  have hlarge : large = 10000000000 := rfl
  refine ⟨?_, by rw [← hlarge]; exact h1, fun hlt => ?_⟩
  · intro qx qy hq
    have hp0 : ¬ Inside b 0 px py := by
      rintro ⟨u, v, hu, hv, e1, e2⟩
      exact hp ⟨u, v, hu.trans (by norm_num), hv.trans (by norm_num), e1, e2⟩
    obtain ⟨k, q, hs, hm⟩ := closest_side hl hw hp0
    refine (h2 k (by fin_cases k <;> simp)).trans (((toSide_spec hb (px, py) k).2.2 q hs).trans (hm qx qy hq))
  · rcases h3 with h3 | ⟨k, h3⟩
    · rw [h3, hlarge] at hlt
      exact absurd hlt (lt_irrefl _)
    · obtain ⟨s1, s2, -⟩ := toSide_spec hb (px, py) k
      refine ⟨_, _, side_inside hl hw s1, by rw [h3]; exact s2, ?_, ?_⟩
      · rw [h3]
        simp only [rotate, Real.cos_neg, Real.sin_neg]
        linear_combination -(px - (onSide (px, py) b k).1) * sc
      · rw [h3]
        simp only [rotate, Real.cos_neg, Real.sin_neg]
        linear_combination -(py - (onSide (px, py) b k).2) * sc

/-- C180: a point in the box (up to a millionth) is at distance 0. -/
theorem free_distance_point_inside {b : Box} (hb : Sized b) {px py : ℝ} (hp : Inside b (1 / 1000000) px py) :
    (freeDistPoint b (px, py)).dist = 0 ∧ (freeDistPoint b (px, py)).lat = 0 ∧ (freeDistPoint b (px, py)).long = 0 := by
  obtain ⟨hl, hw⟩ := hb.pos
  unfold freeDistPoint
  rw [if_pos ((pointHit_iff hl.le hw.le _).mpr hp)]
  exact ⟨rfl, rfl, rfl⟩

/-! ## Hypotheses can be met -/

/-- A car 5 m long and 2 m wide at the origin, one 10 m ahead, turned by a quarter turn. -/
noncomputable def car : Box := ⟨0, 0, 0, 1, 0, 5, 2⟩
@[inherit_doc car]
noncomputable def other : Box := ⟨10, 0, Real.pi / 2, 1, 0, 5, 2⟩

theorem car_other_separated : Separated car other := by
  refine ⟨1, 0, Or.inl ?_, 0, Or.inl rfl, Or.inl ⟨by simp, by simp⟩⟩
  rintro px py qx qy ⟨u, v, hu, -, e1, -⟩ ⟨u', v', -, hv', e1', -⟩
  simp only [car, other, Real.cos_zero, Real.sin_zero, Real.cos_pi_div_two, Real.sin_pi_div_two] at *
  rw [abs_le] at hu hv'
  linarith

example : Sized car ∧ Sized other ∧ Separated car other ∧ freeDist car (some other) = 11 / 2 := by
  have s1 : Sized car := ⟨by norm_num [car], by norm_num [car]⟩
  have s2 : Sized other := ⟨by norm_num [other], by norm_num [other]⟩
  refine ⟨s1, s2, car_other_separated, ?_⟩
  obtain ⟨h1, -, h3, -, h5⟩ := free_distance s1 s2
  have i1 : Inside car 0 (7 / 2) 0 := ⟨5 / 2, 0, by norm_num [car, abs_le], by norm_num [car], by norm_num [car], by norm_num [car]⟩
  have i2 : Inside other 0 9 0 := ⟨-1, 1, by norm_num [other, abs_le], by norm_num [other],
    by simp only [other, Real.cos_pi_div_two, Real.sin_pi_div_two]; norm_num,
    by simp only [other, Real.cos_pi_div_two, Real.sin_pi_div_two]; norm_num⟩
  have e : apart (7 / 2) 0 9 0 = 11 / 2 := by
    unfold apart
    rw [show ((7 / 2 - 9 : ℝ) ^ 2 + (0 - 0) ^ 2) = (11 / 2) ^ 2 by norm_num, Real.sqrt_sq (by norm_num)]
  have hle := h1 _ _ _ _ i1 i2
  rw [e] at hle
  obtain ⟨px, py, qx, qy, ⟨u, v, hu, -, e1, -⟩, ⟨u', v', -, hv', e1', -⟩, eq⟩ :=
    h3 (h5 car_other_separated).ne' (by linarith)
  refine le_antisymm hle ?_
  rw [eq]
  unfold apart
  refine Real.le_sqrt_of_sq_le ?_
  simp only [car, other, Real.cos_zero, Real.sin_zero, Real.cos_pi_div_two, Real.sin_pi_div_two] at *
  rw [abs_le] at hu hv'
  nlinarith [sq_nonneg (py - qy)]

example : ¬ Inside car (1 / 1000000) 6 0 ∧ Inside car (1 / 1000000) 3 0 := by
  constructor
  · rintro ⟨u, v, hu, -, e1, -⟩
    simp only [car, Real.cos_zero, Real.sin_zero] at *
    rw [abs_le] at hu
    linarith
  · exact ⟨2, 0, by norm_num [car, abs_le], by norm_num [car], by norm_num [car], by norm_num [car]⟩

end Verif.FreeDist

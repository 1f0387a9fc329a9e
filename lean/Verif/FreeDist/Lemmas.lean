import Verif.FreeDist.Spec
import Verif.Geom.LineTheorems
import Mathlib.Topology.Order.Compact
import Mathlib.Topology.Instances.Real.Lemmas
/-
Closest points of two boxes.
-/
namespace Verif.FreeDist

open Verif.Geom

theorem apart_eq (px py qx qy : ℝ) : apart px py qx qy = pointDist px py qx qy := by
  unfold apart pointDist
  congr 1
  ring

theorem apart_comm (px py qx qy : ℝ) : apart px py qx qy = apart qx qy px py := by
  unfold apart
  congr 1
  ring

theorem apart_le_iff (px py qx qy ax ay bx bz : ℝ) :
    apart px py qx qy ≤ apart ax ay bx bz ↔ (px - qx) ^ 2 + (py - qy) ^ 2 ≤ (ax - bx) ^ 2 + (ay - bz) ^ 2 := by
  unfold apart
  rw [Real.sqrt_le_sqrt_iff (by positivity)]

/-- The point of the box with the coordinates `u`, `v` from its centre. -/
noncomputable def at' (b : Box) (u v : ℝ) : ℝ × ℝ :=
  (b.x + ((b.cx + u) * Real.cos b.h - (b.cy + v) * Real.sin b.h),
    b.y + ((b.cx + u) * Real.sin b.h + (b.cy + v) * Real.cos b.h))

theorem inside_at {b : Box} {u v : ℝ} (hu : |u| ≤ b.len / 2) (hv : |v| ≤ b.wid / 2) :
    Inside b 0 (at' b u v).1 (at' b u v).2 := ⟨u, v, by simpa using hu, by simpa using hv, rfl, rfl⟩

theorem vertex_eq (b : Box) : ∀ j : Fin 4, vertex b j = at' b ((corner b j).1 - b.cx) ((corner b j).2 - b.cy) := by
  intro j
  unfold vertex at' rotate
  ext <;> simp only <;> ring

/-- A corner is a point of the box with both coordinates extreme; the four combinations all occur. -/
theorem vertex_ext (b : Box) {u v : ℝ} (hu : |u| = b.len / 2) (hv : |v| = b.wid / 2) :
    ∃ j, vertex b j = at' b u v := by
  rcases abs_choice u with a | a <;> rcases abs_choice v with c | c <;> rw [a] at hu <;> rw [c] at hv
  · exact ⟨0, by rw [vertex_eq, hu, hv]; simp [corner]⟩
  · exact ⟨3, by
      rw [vertex_eq, show v = -(b.wid / 2) by linarith, hu]
      simp only [corner]
      congr 1 <;> ring⟩
  · exact ⟨1, by
      rw [vertex_eq, show u = -(b.len / 2) by linarith, hv]
      simp only [corner]
      congr 1 <;> ring⟩
  · exact ⟨2, by
      rw [vertex_eq, show u = -(b.len / 2) by linarith, show v = -(b.wid / 2) by linarith]
      simp only [corner]
      congr 1 <;> ring⟩

/-- The point is on side `k`. -/
def OnSide (b : Box) (k : Fin 4) (p : ℝ × ℝ) : Prop :=
  ∃ s, 0 ≤ s ∧ s ≤ 1 ∧ p = ((vertex b k).1 + s * ((vertex b (next k)).1 - (vertex b k).1),
    (vertex b k).2 + s * ((vertex b (next k)).2 - (vertex b k).2))

/-- A point with one extreme coordinate is on a side. -/
theorem side_ext {b : Box} (hl : 0 < b.len) (hw : 0 < b.wid) {u v : ℝ} (hu : |u| ≤ b.len / 2) (hv : |v| ≤ b.wid / 2)
    (h : |u| = b.len / 2 ∨ |v| = b.wid / 2) : ∃ k, OnSide b k (at' b u v) := by
  have hu' := abs_le.mp hu
  have hv' := abs_le.mp hv
  rcases h with h | h
  · rcases abs_choice u with a | a <;> rw [a] at h
    · refine ⟨3, (v + b.wid / 2) / b.wid, div_nonneg (by linarith) hw.le, (div_le_one hw).mpr (by linarith), ?_⟩
      rw [vertex_eq, vertex_eq, h]
      simp only [next, corner, at']
      ext <;> simp only <;> field_simp <;> ring
    · have h' : u = -(b.len / 2) := by linarith
      refine ⟨1, (b.wid / 2 - v) / b.wid, div_nonneg (by linarith) hw.le, (div_le_one hw).mpr (by linarith), ?_⟩
      rw [vertex_eq, vertex_eq, h']
      simp only [next, corner, at']
      ext <;> simp only <;> field_simp <;> ring
  · rcases abs_choice v with a | a <;> rw [a] at h
    · refine ⟨0, (b.len / 2 - u) / b.len, div_nonneg (by linarith) hl.le, (div_le_one hl).mpr (by linarith), ?_⟩
      rw [vertex_eq, vertex_eq, h]
      simp only [next, corner, at']
      ext <;> simp only <;> field_simp <;> ring
    · have h' : v = -(b.wid / 2) := by linarith
      refine ⟨2, (u + b.len / 2) / b.len, div_nonneg (by linarith) hl.le, (div_le_one hl).mpr (by linarith), ?_⟩
      rw [vertex_eq, vertex_eq, h']
      simp only [next, corner, at']
      ext <;> simp only <;> field_simp <;> ring

/-- A corner is in the box. -/
theorem vertex_inside {b : Box} (hl : 0 < b.len) (hw : 0 < b.wid) (j : Fin 4) :
    ∃ u v, |u| ≤ b.len / 2 ∧ |v| ≤ b.wid / 2 ∧ vertex b j = at' b u v := by
  refine ⟨_, _, ?_, ?_, vertex_eq b j⟩ <;> rw [abs_le] <;> fin_cases j <;> simp only [corner] <;>
    constructor <;> linarith

/-- A point of a side is in the box. -/
theorem side_inside {b : Box} (hl : 0 < b.len) (hw : 0 < b.wid) {k : Fin 4} {p : ℝ × ℝ} (h : OnSide b k p) :
    Inside b 0 p.1 p.2 := by
  obtain ⟨s, h0, h1, rfl⟩ := h
  obtain ⟨u, v, hu, hv, e⟩ := vertex_inside hl hw k
  obtain ⟨u', v', hu', hv', e'⟩ := vertex_inside hl hw (next k)
  rw [e, e']
  refine ⟨u + s * (u' - u), v + s * (v' - v), ?_, ?_, ?_, ?_⟩
  · rw [abs_le] at *
    constructor <;> nlinarith
  · rw [abs_le] at *
    constructor <;> nlinarith
  · simp only [at']; ring
  · simp only [at']; ring

/-- The sides are long enough for the distance to be exact. -/
theorem side_proper {b : Box} (h : Sized b) (k : Fin 4) :
    Proper (vertex b k).1 (vertex b k).2 (vertex b (next k)).1 (vertex b (next k)).2 := by
  rintro ⟨h1, h2⟩
  have hl := h.len
  have hw := h.wid
  have hc := Real.sin_sq_add_cos_sq b.h
  have hs : small = 1 / 1000000 := rfl
  rw [hs] at h1 h2
  have key : ∀ {m c s : ℝ}, s ^ 2 + c ^ 2 = 1 → 2 / 1000000 ≤ m → |m * c| < 1 / 1000000 → |m * s| < 1 / 1000000 → False := by
    intro m c s hcs hm ha hb
    have a1 := sq_lt_sq' (abs_lt.mp ha).1 (abs_lt.mp ha).2
    have a2 := sq_lt_sq' (abs_lt.mp hb).1 (abs_lt.mp hb).2
    have a3 : (m * c) ^ 2 + (m * s) ^ 2 = m * m := by linear_combination m ^ 2 * hcs
    have a4 := mul_self_le_mul_self (by norm_num : (0 : ℝ) ≤ 2 / 1000000) hm
    linarith
  rw [vertex_eq, vertex_eq] at h1 h2
  fin_cases k <;> simp only [next, corner, at'] at h1 h2
  · refine key hc hl ?_ ?_ <;> [convert h1 using 1; convert h2 using 1] <;> rw [← abs_neg] <;> congr 1 <;> ring
  · refine key (by rw [add_comm]; exact hc) hw (c := Real.sin b.h) (s := Real.cos b.h) ?_ ?_ <;>
      [convert h1 using 1; (convert h2 using 1; rw [← abs_neg])] <;> congr 1 <;> ring
  · refine key hc hl ?_ ?_ <;> [convert h1 using 1; convert h2 using 1] <;> congr 1 <;> ring
  · refine key (by rw [add_comm]; exact hc) hw (c := Real.sin b.h) (s := Real.cos b.h) ?_ ?_ <;>
      [(convert h1 using 1; rw [← abs_neg]); convert h2 using 1] <;> congr 1 <;> ring

/-- The distance to a side is attained, and minimal on it. -/
theorem toSide_spec {b : Box} (h : Sized b) (p : ℝ × ℝ) (k : Fin 4) :
    OnSide b k (onSide p b k) ∧ toSide p b k = apart p.1 p.2 (onSide p b k).1 (onSide p b k).2 ∧
    ∀ q, OnSide b k q → toSide p b k ≤ apart p.1 p.2 q.1 q.2 := by
  obtain ⟨h1, h2, h3⟩ := edge_distance (side_proper h k) p.1 p.2
  refine ⟨h2, by rw [apart_eq]; exact h1, ?_⟩
  rintro q ⟨s, h0, h1', rfl⟩
  rw [apart_eq]
  exact h3 s h0 h1'

/-! ## Closest points -/

/-- A coordinate at which the distance is least is extreme, or the distance does not change there. -/
theorem stationary {L u G : ℝ} (hu : |u| ≤ L) (h : ∀ x, |x| ≤ L → 0 ≤ 2 * G * (x - u) + (x - u) ^ 2) :
    |u| = L ∨ G = 0 := by
  by_contra hn
  push Not at hn
  obtain ⟨h1, h2⟩ := hn
  have hlt : |u| < L := lt_of_le_of_ne hu h1
  have hG := abs_pos.mpr h2
  have hlt' := abs_lt.mp hlt
  set e := min (L - |u|) |G| with he
  have e0 : 0 < e := lt_min (by linarith) hG
  have e1 : e ≤ L - |u| := min_le_left _ _
  have e2 : e ≤ |G| := min_le_right _ _
  rcases abs_cases G with ⟨a, b⟩ | ⟨a, b⟩
  · have := h (u - e) (by
      calc |u - e| ≤ |u| + |e| := abs_sub _ _
        _ ≤ L := by rw [abs_of_pos e0]; linarith)
    rw [a] at e2 hG
    nlinarith
  · have := h (u + e) (by
      calc |u + e| ≤ |u| + |e| := abs_add_le _ _
        _ ≤ L := by rw [abs_of_pos e0]; linarith)
    rw [a] at e2 hG
    nlinarith

/-- Two coordinates can be moved together until one of them is extreme. -/
theorem slide {L M u w σ : ℝ} (hu : |u| ≤ L) (hw : |w| ≤ M) (hσ : σ = 1 ∨ σ = -1) :
    ∃ t, |u + t| ≤ L ∧ |w + σ * t| ≤ M ∧ (|u + t| = L ∨ |w + σ * t| = M) := by
  have hu' := abs_le.mp hu
  have hw' := abs_le.mp hw
  have hL := (abs_nonneg u).trans hu
  have hM := (abs_nonneg w).trans hw
  rcases hσ with rfl | rfl
  · rcases le_total (L - u) (M - w) with c | c
    · refine ⟨L - u, by rw [show u + (L - u) = L by ring, abs_of_nonneg hL], abs_le.mpr ⟨by linarith, by linarith⟩,
        Or.inl (by rw [show u + (L - u) = L by ring, abs_of_nonneg hL])⟩
    · refine ⟨M - w, abs_le.mpr ⟨by linarith, by linarith⟩, by rw [show w + 1 * (M - w) = M by ring, abs_of_nonneg hM],
        Or.inr (by rw [show w + 1 * (M - w) = M by ring, abs_of_nonneg hM])⟩
  · rcases le_total (L - u) (w + M) with c | c
    · refine ⟨L - u, by rw [show u + (L - u) = L by ring, abs_of_nonneg hL], abs_le.mpr ⟨by linarith, by linarith⟩,
        Or.inl (by rw [show u + (L - u) = L by ring, abs_of_nonneg hL])⟩
    · refine ⟨w + M, abs_le.mpr ⟨by linarith, by linarith⟩,
        by rw [show w + -1 * (w + M) = -M by ring, abs_neg, abs_of_nonneg hM],
        Or.inr (by rw [show w + -1 * (w + M) = -M by ring, abs_neg, abs_of_nonneg hM])⟩

/-- Squared distance of two points of the boxes. -/
noncomputable def gap2 (a b : Box) (u v w z : ℝ) : ℝ :=
  ((at' a u v).1 - (at' b w z).1) ^ 2 + ((at' a u v).2 - (at' b w z).2) ^ 2

theorem gap2_continuous (a b : Box) : Continuous fun q : (ℝ × ℝ) × (ℝ × ℝ) => gap2 a b q.1.1 q.1.2 q.2.1 q.2.2 := by
  unfold gap2 at'
  fun_prop

/-- There are closest points. -/
theorem closest_exists (a b : Box) (hla : 0 < a.len) (hwa : 0 < a.wid) (hlb : 0 < b.len) (hwb : 0 < b.wid) :
    ∃ u v w z, |u| ≤ a.len / 2 ∧ |v| ≤ a.wid / 2 ∧ |w| ≤ b.len / 2 ∧ |z| ≤ b.wid / 2 ∧
      ∀ u' v' w' z', |u'| ≤ a.len / 2 → |v'| ≤ a.wid / 2 → |w'| ≤ b.len / 2 → |z'| ≤ b.wid / 2 →
        gap2 a b u v w z ≤ gap2 a b u' v' w' z' := by
  have hc : IsCompact ((Set.Icc (-(a.len / 2)) (a.len / 2) ×ˢ Set.Icc (-(a.wid / 2)) (a.wid / 2)) ×ˢ
      (Set.Icc (-(b.len / 2)) (b.len / 2) ×ˢ Set.Icc (-(b.wid / 2)) (b.wid / 2))) :=
    (isCompact_Icc.prod isCompact_Icc).prod (isCompact_Icc.prod isCompact_Icc)
  obtain ⟨q, hq, hm⟩ := hc.exists_isMinOn
    ⟨((0, 0), (0, 0)), by simp only [Set.mem_prod, Set.mem_Icc]; refine ⟨⟨?_, ?_⟩, ?_, ?_⟩ <;> constructor <;> linarith⟩
    (gap2_continuous a b).continuousOn
  simp only [Set.mem_prod, Set.mem_Icc] at hq
  refine ⟨q.1.1, q.1.2, q.2.1, q.2.2, abs_le.mpr hq.1.1, abs_le.mpr hq.1.2, abs_le.mpr hq.2.1, abs_le.mpr hq.2.2, ?_⟩
  intro u' v' w' z' h1 h2 h3 h4
  exact hm (a := ((u', v'), (w', z'))) (by
    simp only [Set.mem_prod, Set.mem_Icc]
    exact ⟨⟨abs_le.mp h1, abs_le.mp h2⟩, abs_le.mp h3, abs_le.mp h4⟩)

/-- Moving one coordinate. -/
theorem gap2_u (a b : Box) (u v w z x : ℝ) : gap2 a b x v w z = gap2 a b u v w z +
    (2 * (((at' a u v).1 - (at' b w z).1) * Real.cos a.h + ((at' a u v).2 - (at' b w z).2) * Real.sin a.h) * (x - u)
      + (x - u) ^ 2) := by
  unfold gap2 at'
  linear_combination (x - u) ^ 2 * Real.sin_sq_add_cos_sq a.h

@[inherit_doc gap2_u]
theorem gap2_v (a b : Box) (u v w z x : ℝ) : gap2 a b u x w z = gap2 a b u v w z +
    (2 * (((at' a u v).2 - (at' b w z).2) * Real.cos a.h - ((at' a u v).1 - (at' b w z).1) * Real.sin a.h) * (x - v)
      + (x - v) ^ 2) := by
  unfold gap2 at'
  linear_combination (x - v) ^ 2 * Real.sin_sq_add_cos_sq a.h

theorem gap2_comm (a b : Box) (u v w z : ℝ) : gap2 a b u v w z = gap2 b a w z u v := by
  unfold gap2
  ring

/-- Orthogonal to both axes means zero. -/
theorem no_dir {c s p q : ℝ} (h : s ^ 2 + c ^ 2 = 1) (h1 : p * c + q * s = 0) (h2 : q * c - p * s = 0) :
    p ^ 2 + q ^ 2 = 0 := by
  have : (p * c + q * s) ^ 2 + (q * c - p * s) ^ 2 = p ^ 2 + q ^ 2 := by linear_combination (p ^ 2 + q ^ 2) * h
  rw [← this, h1, h2]
  ring

/-- Two directions orthogonal to a third are parallel. -/
theorem parallel {c s c' s' p q : ℝ} (h : s ^ 2 + c ^ 2 = 1) (h' : s' ^ 2 + c' ^ 2 = 1) (hd : p ^ 2 + q ^ 2 ≠ 0)
    (h1 : p * c + q * s = 0) (h2 : p * c' + q * s' = 0) : ∃ σ : ℝ, (σ = 1 ∨ σ = -1) ∧ c = σ * c' ∧ s = σ * s' := by
  have hx : c * s' - s * c' = 0 := by
    have : (p ^ 2 + q ^ 2) * (c * s' - s * c') = 0 := by
      linear_combination (p * s' - q * c') * h1 + (q * c - p * s) * h2
    exact (mul_eq_zero.mp this).resolve_left hd
  have hσ : (c * c' + s * s') ^ 2 = 1 := by
    have : (c * c' + s * s') ^ 2 + (c * s' - s * c') ^ 2 = 1 := by
      linear_combination (s' ^ 2 + c' ^ 2) * h + h'
    rw [hx] at this
    linarith
  refine ⟨c * c' + s * s', sq_eq_one_iff.mp hσ, ?_, ?_⟩
  · linear_combination -c * h' + s' * hx
  · linear_combination -s * h' - c' * hx

/-- Closest points of boxes without a common point: one of them can be taken to be a corner, the other one on a side. -/
theorem closest_corner {a b : Box} (hla : 0 < a.len) (hwa : 0 < a.wid) (hlb : 0 < b.len) (hwb : 0 < b.wid)
    (hd : ∀ px py, Inside a 0 px py → ¬ Inside b 0 px py) :
    (∃ j k q, OnSide b k q ∧ ∀ px py qx qy, Inside a 0 px py → Inside b 0 qx qy →
      apart (vertex a j).1 (vertex a j).2 q.1 q.2 ≤ apart px py qx qy) ∨
    (∃ j k q, OnSide a k q ∧ ∀ px py qx qy, Inside a 0 px py → Inside b 0 qx qy →
      apart (vertex b j).1 (vertex b j).2 q.1 q.2 ≤ apart px py qx qy) := by
  obtain ⟨u, v, w, z, hu, hv, hw, hz, hm⟩ := closest_exists a b hla hwa hlb hwb
  -- it is enough to find such a pair with the same distance
  suffices H : ∃ u' v' w' z', |u'| ≤ a.len / 2 ∧ |v'| ≤ a.wid / 2 ∧ |w'| ≤ b.len / 2 ∧ |z'| ≤ b.wid / 2 ∧
      gap2 a b u' v' w' z' = gap2 a b u v w z ∧
      ((|u'| = a.len / 2 ∧ |v'| = a.wid / 2 ∧ (|w'| = b.len / 2 ∨ |z'| = b.wid / 2)) ∨
       (|w'| = b.len / 2 ∧ |z'| = b.wid / 2 ∧ (|u'| = a.len / 2 ∨ |v'| = a.wid / 2))) by
    obtain ⟨u', v', w', z', h1, h2, h3, h4, he, hc⟩ := H
    have hle : ∀ px py qx qy, Inside a 0 px py → Inside b 0 qx qy →
        gap2 a b u' v' w' z' ≤ (px - qx) ^ 2 + (py - qy) ^ 2 := by
      rintro px py qx qy ⟨x1, y1, g1, g2, rfl, rfl⟩ ⟨x2, y2, g3, g4, rfl, rfl⟩
      rw [he]
      exact hm x1 y1 x2 y2 (by linarith) (by linarith) (by linarith) (by linarith)
    rcases hc with ⟨c1, c2, c3⟩ | ⟨c1, c2, c3⟩
    · left
      obtain ⟨j, hj⟩ := vertex_ext a c1 c2
      obtain ⟨k, hk⟩ := side_ext hlb hwb h3 h4 c3
      refine ⟨j, k, _, hk, fun px py qx qy hp hq => ?_⟩
      rw [hj, apart_le_iff]
      exact hle px py qx qy hp hq
    · right
      obtain ⟨j, hj⟩ := vertex_ext b c1 c2
      obtain ⟨k, hk⟩ := side_ext hla hwa h1 h2 c3
      refine ⟨j, k, _, hk, fun px py qx qy hp hq => ?_⟩
      rw [hj, apart_comm, apart_le_iff]
      exact hle px py qx qy hp hq
  have sc := Real.sin_sq_add_cos_sq a.h
  have sc' := Real.sin_sq_add_cos_sq b.h
  obtain ⟨p, hp⟩ : ∃ p, p = (at' a u v).1 - (at' b w z).1 := ⟨_, rfl⟩
  obtain ⟨q, hq⟩ : ∃ q, q = (at' a u v).2 - (at' b w z).2 := ⟨_, rfl⟩
  have hne : p ^ 2 + q ^ 2 ≠ 0 := by
    intro h0
    have e1 : p = 0 := by nlinarith [sq_nonneg p, sq_nonneg q]
    have e2 : q = 0 := by nlinarith [sq_nonneg p, sq_nonneg q]
    refine hd _ _ (inside_at hu hv) ?_
    rw [show (at' a u v).1 = (at' b w z).1 by linarith, show (at' a u v).2 = (at' b w z).2 by linarith]
    exact inside_at hw hz
  have g1 : |u| = a.len / 2 ∨ p * Real.cos a.h + q * Real.sin a.h = 0 := by
    refine stationary hu fun x hx => ?_
    have := hm x v w z hx hv hw hz
    rw [gap2_u a b u v w z x, ← hp, ← hq] at this
    linarith
  have g2 : |v| = a.wid / 2 ∨ q * Real.cos a.h - p * Real.sin a.h = 0 := by
    refine stationary hv fun x hx => ?_
    have := hm u x w z hu hx hw hz
    rw [gap2_v a b u v w z x, ← hp, ← hq] at this
    linarith
  have g3 : |w| = b.len / 2 ∨ -(p * Real.cos b.h + q * Real.sin b.h) = 0 := by
    refine stationary hw fun x hx => ?_
    have := hm u v x z hu hv hx hz
    rw [gap2_comm, gap2_comm a b u v x z, gap2_u b a w z u v x] at this
    rw [hp, hq]
    linarith
  have g4 : |z| = b.wid / 2 ∨ -(q * Real.cos b.h - p * Real.sin b.h) = 0 := by
    refine stationary hz fun x hx => ?_
    have := hm u v w x hu hv hw hx
    rw [gap2_comm, gap2_comm a b u v w x, gap2_v b a w z u v x] at this
    rw [hp, hq]
    linarith
  have ga : |u| = a.len / 2 ∨ |v| = a.wid / 2 := by
    rcases g1 with g1 | g1
    · exact Or.inl g1
    · rcases g2 with g2 | g2
      · exact Or.inr g2
      · exact absurd (no_dir sc g1 g2) hne
  have gb : |w| = b.len / 2 ∨ |z| = b.wid / 2 := by
    rcases g3 with g3 | g3
    · exact Or.inl g3
    · rcases g4 with g4 | g4
      · exact Or.inr g4
      · exact absurd (no_dir sc' (by linarith) (by linarith)) hne
  -- both corners
  by_cases ca : |u| = a.len / 2 ∧ |v| = a.wid / 2
  · exact ⟨u, v, w, z, hu, hv, hw, hz, rfl, Or.inl ⟨ca.1, ca.2, gb⟩⟩
  by_cases cb : |w| = b.len / 2 ∧ |z| = b.wid / 2
  · exact ⟨u, v, w, z, hu, hv, hw, hz, rfl, Or.inr ⟨cb.1, cb.2, ga⟩⟩
  -- two sides facing each other
  rcases ga with ga | ga <;> rcases gb with gb | gb
  · have n2 := g2.resolve_left fun h => ca ⟨ga, h⟩
    have n4 := g4.resolve_left fun h => cb ⟨gb, h⟩
    obtain ⟨σ, hσ, e1, e2⟩ := parallel (c := -Real.sin a.h) (s := Real.cos a.h) (c' := -Real.sin b.h) (s' := Real.cos b.h)
      (by linarith) (by linarith) hne (by linarith) (by linarith)
    obtain ⟨t, t1, t2, t3⟩ := slide hv hz (σ := σ) hσ
    have hσ2 : σ * σ = 1 := by rcases hσ with rfl | rfl <;> norm_num
    refine ⟨u, v + t, w, z + σ * t, hu, t1, hw, t2, ?_, ?_⟩
    · unfold gap2 at'
      simp only
      have i1 : Real.sin a.h = σ * Real.sin b.h := by linarith
      rw [i1, e2]
      ring
    · rcases t3 with t3 | t3
      · exact Or.inl ⟨ga, t3, Or.inl gb⟩
      · exact Or.inr ⟨gb, t3, Or.inl ga⟩
  · have n2 := g2.resolve_left fun h => ca ⟨ga, h⟩
    have n3 := g3.resolve_left fun h => cb ⟨h, gb⟩
    obtain ⟨σ, hσ, e1, e2⟩ := parallel (c := -Real.sin a.h) (s := Real.cos a.h) (c' := Real.cos b.h) (s' := Real.sin b.h)
      (by linarith) (by linarith) hne (by linarith) (by linarith)
    obtain ⟨t, t1, t2, t3⟩ := slide hv hw (σ := σ) hσ
    refine ⟨u, v + t, w + σ * t, z, hu, t1, t2, hz, ?_, ?_⟩
    · unfold gap2 at'
      simp only
      have i1 : Real.sin a.h = -(σ * Real.cos b.h) := by linarith
      rw [i1, e2]
      ring
    · rcases t3 with t3 | t3
      · exact Or.inl ⟨ga, t3, Or.inr gb⟩
      · exact Or.inr ⟨t3, gb, Or.inl ga⟩
  · have n1 := g1.resolve_left fun h => ca ⟨h, ga⟩
    have n4 := g4.resolve_left fun h => cb ⟨gb, h⟩
    obtain ⟨σ, hσ, e1, e2⟩ := parallel (c := Real.cos a.h) (s := Real.sin a.h) (c' := -Real.sin b.h) (s' := Real.cos b.h)
      (by linarith) (by linarith) hne (by linarith) (by linarith)
    obtain ⟨t, t1, t2, t3⟩ := slide hu hz (σ := σ) hσ
    refine ⟨u + t, v, w, z + σ * t, t1, hv, hw, t2, ?_, ?_⟩
    · unfold gap2 at'
      simp only
      rw [e1, e2]
      ring
    · rcases t3 with t3 | t3
      · exact Or.inl ⟨t3, ga, Or.inl gb⟩
      · exact Or.inr ⟨gb, t3, Or.inr ga⟩
  · have n1 := g1.resolve_left fun h => ca ⟨h, ga⟩
    have n3 := g3.resolve_left fun h => cb ⟨h, gb⟩
    obtain ⟨σ, hσ, e1, e2⟩ := parallel (c := Real.cos a.h) (s := Real.sin a.h) (c' := Real.cos b.h) (s' := Real.sin b.h)
      (by linarith) (by linarith) hne (by linarith) (by linarith)
    obtain ⟨t, t1, t2, t3⟩ := slide hu hw (σ := σ) hσ
    refine ⟨u + t, v, w + σ * t, z, t1, hv, t2, hz, ?_, ?_⟩
    · unfold gap2 at'
      simp only
      rw [e1, e2]
      ring
    · rcases t3 with t3 | t3
      · exact Or.inl ⟨t3, ga, Or.inr gb⟩
      · exact Or.inr ⟨t3, gb, Or.inr ga⟩

end Verif.FreeDist

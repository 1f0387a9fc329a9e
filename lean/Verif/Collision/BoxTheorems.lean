import Mathlib.Analysis.Convex.Radon
import Mathlib.LinearAlgebra.Dimension.Constructions
import Mathlib.Tactic.Linarith
import Mathlib.Tactic.Ring
import Verif.Collision.BoxModel

namespace Verif.Collision

open Verif.Common

/-! ## Specification -/

/-- The point is in the bounding box enlarged by `e` on every side: seen from the box it is at most half the length (plus `e`)
ahead of or behind the centre and at most half the width (plus `e`) to the side of it. -/
def Covers (b : Box) (e : Rat) (px py : Rat) : Prop :=
  ∃ u v : Rat, -(b.len / 2 + e) ≤ u ∧ u ≤ b.len / 2 + e ∧ -(b.wid / 2 + e) ≤ v ∧ v ≤ b.wid / 2 + e ∧
    px = b.x + ((b.cx + u) * b.c - (b.cy + v) * b.s) ∧ py = b.y + ((b.cx + u) * b.s + (b.cy + v) * b.c)

/-- The object has a heading and a box that is not inside out. -/
structure Box.Ok (b : Box) : Prop where
  unit : b.c * b.c + b.s * b.s = 1
  len : 0 ≤ b.len
  wid : 0 ≤ b.wid

/-! ## Projections -/

/-- Centre of the box in the plane. -/
def mid (b : Box) : Rat × Rat := (b.x + (b.cx * b.c - b.cy * b.s), b.y + (b.cx * b.s + b.cy * b.c))

/-- Half extent of the box on an axis. -/
def rad (b : Box) (e : Rat) (n : Rat × Rat) : Rat :=
  |n.1 * b.c + n.2 * b.s| * (b.len / 2 + e) + |n.2 * b.c - n.1 * b.s| * (b.wid / 2 + e)

/-- Product with an axis. -/
def onAxis (n p : Rat × Rat) : Rat := n.1 * p.1 + n.2 * p.2

theorem minR_eq (x y : Rat) : minR x y = min y x := by
  unfold minR; rw [min_def]; split <;> split <;> linarith

theorem maxR_eq (x y : Rat) : maxR x y = max y x := by
  unfold maxR; rw [max_def]; split <;> split <;> linarith

theorem absR_eq (x : Rat) : absR x = |x| := by
  unfold absR
  split
  · rw [abs_of_neg (by assumption)]
  · rw [abs_of_nonneg (by linarith)]

theorem lohi_eq {b : Box} (h : b.Ok) (n : Rat × Rat) :
    lo b n = onAxis n (mid b) - rad b 0 n ∧ hi b n = onAxis n (mid b) + rad b 0 n := by
  have hl := h.len
  have hw := h.wid
  have p0 : proj b n 0 = onAxis n (mid b) + (n.1 * b.c + n.2 * b.s) * (b.len / 2) + (n.2 * b.c - n.1 * b.s) * (b.wid / 2) := by
    simp only [proj, dot, rotate, vertex, onAxis, mid]; ring
  have p1 : proj b n 1 = onAxis n (mid b) - (n.1 * b.c + n.2 * b.s) * (b.len / 2) + (n.2 * b.c - n.1 * b.s) * (b.wid / 2) := by
    simp only [proj, dot, rotate, vertex, onAxis, mid]; ring
  have p2 : proj b n 2 = onAxis n (mid b) - (n.1 * b.c + n.2 * b.s) * (b.len / 2) - (n.2 * b.c - n.1 * b.s) * (b.wid / 2) := by
    simp only [proj, dot, rotate, vertex, onAxis, mid]; ring
  have p3 : proj b n 3 = onAxis n (mid b) + (n.1 * b.c + n.2 * b.s) * (b.len / 2) - (n.2 * b.c - n.1 * b.s) * (b.wid / 2) := by
    simp only [proj, dot, rotate, vertex, onAxis, mid]; ring
  unfold lo hi rad
  rw [p0, p1, p2, p3]
  simp only [minR_eq, maxR_eq, add_zero]
  generalize n.1 * b.c + n.2 * b.s = f
  generalize n.2 * b.c - n.1 * b.s = g
  generalize onAxis n (mid b) = m
  have hF : 0 ≤ b.len / 2 := by linarith
  have hG : 0 ≤ b.wid / 2 := by linarith
  generalize b.len / 2 = F at *
  generalize b.wid / 2 = G at *
  rcases le_total 0 f with hf | hf <;> rcases le_total 0 g with hg | hg
  · rw [abs_of_nonneg hf, abs_of_nonneg hg]
    have a1 := mul_nonneg hf hF
    have a2 := mul_nonneg hg hG
    constructor
    · apply le_antisymm
      · simp only [min_le_iff]; exact Or.inl (Or.inr (by linarith))
      · simp only [le_min_iff]; refine ⟨⟨⟨?_, ?_⟩, ?_⟩, ?_⟩ <;> linarith
    · apply le_antisymm
      · simp only [max_le_iff]; refine ⟨⟨⟨?_, ?_⟩, ?_⟩, ?_⟩ <;> linarith
      · simp only [le_max_iff]; exact Or.inl (Or.inl (Or.inl (by linarith)))
  · rw [abs_of_nonneg hf, abs_of_nonpos hg]
    have a1 := mul_nonneg hf hF
    have a2 := mul_nonneg (neg_nonneg.2 hg) hG
    have e2 : -g * G = -(g * G) := by ring
    rw [e2] at *
    constructor
    · apply le_antisymm
      · simp only [min_le_iff]; exact Or.inl (Or.inl (Or.inr (by linarith)))
      · simp only [le_min_iff]; refine ⟨⟨⟨?_, ?_⟩, ?_⟩, ?_⟩ <;> linarith
    · apply le_antisymm
      · simp only [max_le_iff]; refine ⟨⟨⟨?_, ?_⟩, ?_⟩, ?_⟩ <;> linarith
      · simp only [le_max_iff]; exact Or.inr (by linarith)
  · rw [abs_of_nonpos hf, abs_of_nonneg hg]
    have a1 := mul_nonneg (neg_nonneg.2 hf) hF
    have a2 := mul_nonneg hg hG
    have e2 : -f * F = -(f * F) := by ring
    rw [e2] at *
    constructor
    · apply le_antisymm
      · simp only [min_le_iff]; exact Or.inr (by linarith)
      · simp only [le_min_iff]; refine ⟨⟨⟨?_, ?_⟩, ?_⟩, ?_⟩ <;> linarith
    · apply le_antisymm
      · simp only [max_le_iff]; refine ⟨⟨⟨?_, ?_⟩, ?_⟩, ?_⟩ <;> linarith
      · simp only [le_max_iff]; exact Or.inl (Or.inl (Or.inr (by linarith)))
  · rw [abs_of_nonpos hf, abs_of_nonpos hg]
    have a1 := mul_nonneg (neg_nonneg.2 hf) hF
    have a2 := mul_nonneg (neg_nonneg.2 hg) hG
    have e2 : -f * F = -(f * F) := by ring
    have e3 : -g * G = -(g * G) := by ring
    rw [e2] at *
    rw [e3] at *
    constructor
    · apply le_antisymm
      · simp only [min_le_iff]; exact Or.inl (Or.inl (Or.inl (by linarith)))
      · simp only [le_min_iff]; refine ⟨⟨⟨?_, ?_⟩, ?_⟩, ?_⟩ <;> linarith
    · apply le_antisymm
      · simp only [max_le_iff]; refine ⟨⟨⟨?_, ?_⟩, ?_⟩, ?_⟩ <;> linarith
      · simp only [le_max_iff]; exact Or.inl (Or.inr (by linarith))

theorem rad_nonneg {b : Box} (h : b.Ok) {e : Rat} (he : 0 ≤ e) (n : Rat × Rat) : 0 ≤ rad b e n := by
  have hl := h.len
  have hw := h.wid
  unfold rad
  have := mul_nonneg (abs_nonneg (n.1 * b.c + n.2 * b.s)) (show 0 ≤ b.len / 2 + e by linarith)
  have := mul_nonneg (abs_nonneg (n.2 * b.c - n.1 * b.s)) (show 0 ≤ b.wid / 2 + e by linarith)
  linarith

theorem gapOn_iff {a b : Box} (ha : a.Ok) (hb : b.Ok) (n : Rat × Rat) :
    gapOn a b n = true ↔ rad a 0 n + rad b 0 n + small < |onAxis n (mid a) - onAxis n (mid b)| := by
  have h1 := rad_nonneg ha le_rfl n
  have h2 := rad_nonneg hb le_rfl n
  unfold gapOn ahead
  rw [(lohi_eq ha n).1, (lohi_eq ha n).2, (lohi_eq hb n).1, (lohi_eq hb n).2, lt_abs]
  simp only [Bool.or_eq_true, Bool.and_eq_true, decide_eq_true_eq]
  constructor
  · rintro (⟨-, h⟩ | ⟨-, h⟩)
    · right; linarith
    · left; linarith
  · rintro (h | h)
    · right; constructor <;> linarith
    · left; constructor <;> linarith

/-! ## Boxes as intersections of strips -/

/-- Longitudinal direction. -/
def along (b : Box) : Rat × Rat := (b.c, b.s)
/-- Lateral direction. -/
def across (b : Box) : Rat × Rat := (-b.s, b.c)

theorem axis_eq (b : Box) : axis b 0 = across b ∧ axis b 1 = along b := by
  constructor <;> simp [axis, rotate, across, along]

/-- A strip across the plane. -/
def strip (n : Rat × Rat) (m r : Rat) : Set (ℚ × ℚ) := {p | m - r ≤ onAxis n p ∧ onAxis n p ≤ m + r}

theorem strip_convex (n : Rat × Rat) (m r : Rat) : Convex ℚ (strip n m r) := by
  intro p hp q hq s t hs ht hst
  obtain ⟨h1, h2⟩ := hp
  obtain ⟨h3, h4⟩ := hq
  have e : onAxis n (s • p + t • q) = s * onAxis n p + t * onAxis n q := by
    simp only [onAxis, Prod.fst_add, Prod.snd_add, Prod.smul_fst, Prod.smul_snd, smul_eq_mul]; ring
  have t1 := mul_le_mul_of_nonneg_left h1 hs
  have t2 := mul_le_mul_of_nonneg_left h2 hs
  have t3 := mul_le_mul_of_nonneg_left h3 ht
  have t4 := mul_le_mul_of_nonneg_left h4 ht
  have ht' : t = 1 - s := by linarith
  show m - r ≤ onAxis n (s • p + t • q) ∧ onAxis n (s • p + t • q) ≤ m + r
  rw [e]
  subst ht'
  constructor <;> linarith

theorem covers_iff {b : Box} (h : b.Ok) {e px py : Rat} :
    Covers b e px py ↔ (px, py) ∈ strip (along b) (onAxis (along b) (mid b)) (b.len / 2 + e) ∧
      (px, py) ∈ strip (across b) (onAxis (across b) (mid b)) (b.wid / 2 + e) := by
  have hu := h.unit
  unfold Covers
  simp only [strip, Set.mem_ofPred_eq, onAxis, along, across, mid]
  constructor
  · rintro ⟨u, v, h1, h2, h3, h4, rfl, rfl⟩
    have e1 : b.c * (b.x + ((b.cx + u) * b.c - (b.cy + v) * b.s)) + b.s * (b.y + ((b.cx + u) * b.s + (b.cy + v) * b.c)) =
        b.c * (b.x + (b.cx * b.c - b.cy * b.s)) + b.s * (b.y + (b.cx * b.s + b.cy * b.c)) + u * (b.c * b.c + b.s * b.s) := by ring
    have e2 : -b.s * (b.x + ((b.cx + u) * b.c - (b.cy + v) * b.s)) + b.c * (b.y + ((b.cx + u) * b.s + (b.cy + v) * b.c)) =
        -b.s * (b.x + (b.cx * b.c - b.cy * b.s)) + b.c * (b.y + (b.cx * b.s + b.cy * b.c)) + v * (b.c * b.c + b.s * b.s) := by ring
    rw [e1, e2, hu]
    refine ⟨⟨?_, ?_⟩, ?_, ?_⟩ <;> linarith
  · rintro ⟨⟨h1, h2⟩, h3, h4⟩
    refine ⟨(px - b.x - (b.cx * b.c - b.cy * b.s)) * b.c + (py - b.y - (b.cx * b.s + b.cy * b.c)) * b.s,
      (py - b.y - (b.cx * b.s + b.cy * b.c)) * b.c - (px - b.x - (b.cx * b.c - b.cy * b.s)) * b.s, ?_, ?_, ?_, ?_, ?_, ?_⟩
    · linarith
    · linarith
    · linarith
    · linarith
    · have : px = b.x + (b.cx * b.c - b.cy * b.s) + (px - b.x - (b.cx * b.c - b.cy * b.s)) * (b.c * b.c + b.s * b.s) := by rw [hu]; ring
      linarith
    · have : py = b.y + (b.cx * b.s + b.cy * b.c) + (py - b.y - (b.cx * b.s + b.cy * b.c)) * (b.c * b.c + b.s * b.s) := by rw [hu]; ring
      linarith

/-- A point in a box is within the half extent of the box on any axis. -/
theorem covers_axis {b : Box} (n : Rat × Rat) {e px py : Rat} (hc : Covers b e px py) :
    |onAxis n (px, py) - onAxis n (mid b)| ≤ rad b e n := by
  obtain ⟨u, v, h1, h2, h3, h4, rfl, rfl⟩ := hc
  have hu : |u| ≤ b.len / 2 + e := abs_le.2 ⟨h1, h2⟩
  have hv : |v| ≤ b.wid / 2 + e := abs_le.2 ⟨h3, h4⟩
  have e1 : onAxis n (b.x + ((b.cx + u) * b.c - (b.cy + v) * b.s), b.y + ((b.cx + u) * b.s + (b.cy + v) * b.c)) - onAxis n (mid b) =
      (n.1 * b.c + n.2 * b.s) * u + (n.2 * b.c - n.1 * b.s) * v := by simp only [onAxis, mid]; ring
  rw [e1]
  refine (abs_add_le _ _).trans ?_
  rw [abs_mul, abs_mul]
  unfold rad
  exact add_le_add (mul_le_mul_of_nonneg_left hu (abs_nonneg _)) (mul_le_mul_of_nonneg_left hv (abs_nonneg _))

/-- On any axis the box reaches every value within its half extent. -/
theorem reach {b : Box} (h : b.Ok) {e : Rat} (he : 0 ≤ e) (n : Rat × Rat) {t : Rat} (ht : |t - onAxis n (mid b)| ≤ rad b e n) :
    ∃ px py, Covers b e px py ∧ onAxis n (px, py) = t := by
  have hl := h.len
  have hw := h.wid
  obtain ⟨t1, t2⟩ := abs_le.1 ht
  have hr := rad_nonneg h he n
  rcases hr.eq_or_lt with h0 | h0
  · refine ⟨(mid b).1, (mid b).2, ⟨0, 0, ?_, ?_, ?_, ?_, ?_, ?_⟩, ?_⟩
    · linarith
    · linarith
    · linarith
    · linarith
    · simp [mid]
    · simp [mid]
    · show onAxis n (mid b) = t
      linarith
  · -- scale the extreme corner
    obtain ⟨k, hk1, hk2, hk⟩ : ∃ k : Rat, -1 ≤ k ∧ k ≤ 1 ∧ k * rad b e n = t - onAxis n (mid b) := by
      refine ⟨(t - onAxis n (mid b)) / rad b e n, ?_, ?_, ?_⟩
      · rw [le_div_iff₀ h0]; linarith
      · rw [div_le_iff₀ h0]; linarith
      · rw [div_mul_cancel₀]; exact h0.ne'
    have sgn : ∀ f : Rat, ∃ σ : Rat, -1 ≤ σ ∧ σ ≤ 1 ∧ σ * f = |f| := by
      intro f
      rcases le_total 0 f with hf | hf
      · exact ⟨1, by norm_num, by norm_num, by rw [abs_of_nonneg hf]; ring⟩
      · exact ⟨-1, by norm_num, by norm_num, by rw [abs_of_nonpos hf]; ring⟩
    obtain ⟨σ, hσ1, hσ2, hσ⟩ := sgn (n.1 * b.c + n.2 * b.s)
    obtain ⟨τ, hτ1, hτ2, hτ⟩ := sgn (n.2 * b.c - n.1 * b.s)
    have bound : ∀ σ F : Rat, -1 ≤ σ → σ ≤ 1 → 0 ≤ F → -F ≤ k * σ * F ∧ k * σ * F ≤ F := by
      intro σ F h1 h2 hF
      have : |k * σ| ≤ 1 := by
        rw [abs_mul]
        exact mul_le_one₀ (abs_le.2 ⟨hk1, hk2⟩) (abs_nonneg _) (abs_le.2 ⟨h1, h2⟩)
      obtain ⟨w1, w2⟩ := abs_le.1 this
      have := mul_le_mul_of_nonneg_right w1 hF
      have := mul_le_mul_of_nonneg_right w2 hF
      constructor <;> linarith
    have hF : 0 ≤ b.len / 2 + e := by linarith
    have hG : 0 ≤ b.wid / 2 + e := by linarith
    have b1 := bound σ _ hσ1 hσ2 hF
    have b2 := bound τ _ hτ1 hτ2 hG
    refine ⟨_, _, ⟨k * σ * (b.len / 2 + e), k * τ * (b.wid / 2 + e), b1.1, b1.2, b2.1, b2.2, rfl, rfl⟩, ?_⟩
    have e1 : onAxis n (b.x + ((b.cx + k * σ * (b.len / 2 + e)) * b.c - (b.cy + k * τ * (b.wid / 2 + e)) * b.s),
        b.y + ((b.cx + k * σ * (b.len / 2 + e)) * b.s + (b.cy + k * τ * (b.wid / 2 + e)) * b.c)) =
        onAxis n (mid b) + k * ((σ * (n.1 * b.c + n.2 * b.s)) * (b.len / 2 + e) + (τ * (n.2 * b.c - n.1 * b.s)) * (b.wid / 2 + e)) := by
      simp only [onAxis, mid]; ring
    rw [e1, hσ, hτ]
    have : k * (|n.1 * b.c + n.2 * b.s| * (b.len / 2 + e) + |n.2 * b.c - n.1 * b.s| * (b.wid / 2 + e)) = t - onAxis n (mid b) := hk
    linarith

/-! ## Four strips -/

/-- The strips of two boxes: length and width of the first, length and width of the second. -/
def strips (a b : Box) (e : Rat) : Fin 4 → Set (ℚ × ℚ)
  | 0 => strip (along a) (onAxis (along a) (mid a)) (a.len / 2 + e)
  | 1 => strip (across a) (onAxis (across a) (mid a)) (a.wid / 2 + e)
  | 2 => strip (along b) (onAxis (along b) (mid b)) (b.len / 2 + 0)
  | 3 => strip (across b) (onAxis (across b) (mid b)) (b.wid / 2 + 0)

theorem rad_own {b : Box} (h : b.Ok) (e : Rat) : rad b e (along b) = b.len / 2 + e ∧ rad b e (across b) = b.wid / 2 + e := by
  have hu := h.unit
  constructor
  · simp only [rad, along]
    rw [hu, show b.s * b.c - b.c * b.s = 0 by ring]; simp
  · simp only [rad, across]
    rw [show -b.s * b.c + b.c * b.s = 0 by ring, show b.c * b.c - -b.s * b.s = b.c * b.c + b.s * b.s by ring, hu]; simp

/-- Two intervals on an axis that overlap: a value in both. -/
theorem meet {m1 r1 m2 r2 : Rat} (h1 : 0 ≤ r1) (h2 : 0 ≤ r2) (h : |m1 - m2| ≤ r1 + r2) : ∃ t, |t - m1| ≤ r1 ∧ |t - m2| ≤ r2 := by
  obtain ⟨ha, hb⟩ := abs_le.1 h
  rcases le_total (m1 - r1) (m2 - r2) with hc | hc
  · exact ⟨m2 - r2, abs_le.2 ⟨by linarith, by linarith⟩, abs_le.2 ⟨by linarith, by linarith⟩⟩
  · exact ⟨m1 - r1, abs_le.2 ⟨by linarith, by linarith⟩, abs_le.2 ⟨by linarith, by linarith⟩⟩

/-- Boxes that overlap on all four axes have a common point. -/
theorem common_point {a b : Box} (ha : a.Ok) (hb : b.Ok) {e : Rat} (he : 0 ≤ e)
    (h : ∀ n ∈ [along a, across a, along b, across b], |onAxis n (mid a) - onAxis n (mid b)| ≤ rad a e n + rad b 0 n) :
    ∃ px py, Covers a e px py ∧ Covers b 0 px py := by
  have ra := rad_own ha e
  have rb := rad_own hb 0
  have third : ∀ k : Fin 4, ∃ x : ℚ × ℚ, ∀ i, i ≠ k → x ∈ strips a b e i := by
    -- a point of one box in a strip of the other
    have inA : ∀ n, n ∈ [along a, across a, along b, across b] → ∃ x : ℚ × ℚ, Covers a e x.1 x.2 ∧ |onAxis n x - onAxis n (mid b)| ≤ rad b 0 n := by
      intro n hn
      obtain ⟨t, ht1, ht2⟩ := meet (rad_nonneg ha he n) (rad_nonneg hb le_rfl n) (h n hn)
      obtain ⟨px, py, hc, hp⟩ := reach ha he n ht1
      exact ⟨(px, py), hc, by rw [hp]; exact ht2⟩
    have inB : ∀ n, n ∈ [along a, across a, along b, across b] → ∃ x : ℚ × ℚ, Covers b 0 x.1 x.2 ∧ |onAxis n x - onAxis n (mid a)| ≤ rad a e n := by
      intro n hn
      obtain ⟨t, ht1, ht2⟩ := meet (rad_nonneg ha he n) (rad_nonneg hb le_rfl n) (h n hn)
      obtain ⟨px, py, hc, hp⟩ := reach hb le_rfl n ht2
      exact ⟨(px, py), hc, by rw [hp]; exact ht1⟩
    have mk : ∀ {n : Rat × Rat} {x : ℚ × ℚ} {m r : Rat}, |onAxis n x - m| ≤ r → x ∈ strip n m r := by
      intro n x m r hx
      obtain ⟨h1, h2⟩ := abs_le.1 hx
      exact ⟨by linarith, by linarith⟩
    intro k
    match k with
    | 0 =>
      obtain ⟨x, hc, hx⟩ := inB (across a) (by simp)
      rw [ra.2] at hx
      obtain ⟨s1, s2⟩ := (covers_iff hb).1 hc
      exact ⟨x, fun i hi => match i, hi with
        | 0, hi => absurd rfl hi
        | 1, _ => mk hx
        | 2, _ => s1
        | 3, _ => s2⟩
    | 1 =>
      obtain ⟨x, hc, hx⟩ := inB (along a) (by simp)
      rw [ra.1] at hx
      obtain ⟨s1, s2⟩ := (covers_iff hb).1 hc
      exact ⟨x, fun i hi => match i, hi with
        | 0, _ => mk hx
        | 1, hi => absurd rfl hi
        | 2, _ => s1
        | 3, _ => s2⟩
    | 2 =>
      obtain ⟨x, hc, hx⟩ := inA (across b) (by simp)
      rw [rb.2] at hx
      obtain ⟨s1, s2⟩ := (covers_iff ha).1 hc
      exact ⟨x, fun i hi => match i, hi with
        | 0, _ => s1
        | 1, _ => s2
        | 2, hi => absurd rfl hi
        | 3, _ => mk hx⟩
    | 3 =>
      obtain ⟨x, hc, hx⟩ := inA (along b) (by simp)
      rw [rb.1] at hx
      obtain ⟨s1, s2⟩ := (covers_iff ha).1 hc
      exact ⟨x, fun i hi => match i, hi with
        | 0, _ => s1
        | 1, _ => s2
        | 2, _ => mk hx
        | 3, hi => absurd rfl hi⟩
  have hd : Module.finrank ℚ (ℚ × ℚ) = 2 := by rw [Module.finrank_prod]; simp
  have key := Convex.helly_theorem' (𝕜 := ℚ) (F := strips a b e) (s := Finset.univ)
    (by
      intro i _
      match i with
      | 0 => exact strip_convex _ _ _
      | 1 => exact strip_convex _ _ _
      | 2 => exact strip_convex _ _ _
      | 3 => exact strip_convex _ _ _)
    (by
      intro I _ hI
      rw [hd] at hI
      obtain ⟨k, hk⟩ : ∃ k, k ∉ I := by
        by_contra hc
        have hall : ∀ k, k ∈ I := by simpa using hc
        have : Finset.univ ⊆ I := fun k _ => hall k
        have := Finset.card_le_card this
        simp at this
        omega
      obtain ⟨x, hx⟩ := third k
      refine ⟨x, ?_⟩
      simp only [Set.mem_iInter]
      intro i hi
      exact hx i fun e => hk (e ▸ hi))
  obtain ⟨x, hx⟩ := key
  simp only [Set.mem_iInter] at hx
  have hm : ∀ i, x ∈ strips a b e i := fun i => hx i (Finset.mem_univ i)
  exact ⟨x.1, x.2, (covers_iff ha).2 ⟨hm 0, hm 1⟩, (covers_iff hb).2 ⟨hm 2, hm 3⟩⟩

/-! ## The overlap test -/

theorem gapOn_comm {a b : Box} (ha : a.Ok) (hb : b.Ok) (n : Rat × Rat) : gapOn a b n = gapOn b a n := by
  rw [Bool.eq_iff_iff, gapOn_iff ha hb, gapOn_iff hb ha, abs_sub_comm, add_comm (rad a 0 n)]

/-- It does not matter which of the two objects is asked. -/
theorem collision_symm (a b : Box) : collision a b = collision b a := by
  have h1 : farApart a b = farApart b a := by
    unfold farApart
    have e1 : (b.x - a.x) * (b.x - a.x) + (b.y - a.y) * (b.y - a.y) = (a.x - b.x) * (a.x - b.x) + (a.y - b.y) * (a.y - b.y) := by ring
    have e2 : (a.len + b.len) * (a.len + b.len) + (a.wid + b.wid) * (a.wid + b.wid) =
        (b.len + a.len) * (b.len + a.len) + (b.wid + a.wid) * (b.wid + a.wid) := by ring
    rw [e1, e2]
  have h2 : absR (a.z - b.z) = absR (b.z - a.z) := by rw [absR_eq, absR_eq, abs_sub_comm]
  have h3 : noGap a b = noGap b a := by
    unfold noGap
    generalize gapOn a b (axis a 0) = p
    generalize gapOn a b (axis a 1) = q
    generalize gapOn b a (axis b 0) = r
    generalize gapOn b a (axis b 1) = t
    cases p <;> cases q <;> cases r <;> cases t <;> rfl
  unfold collision
  rw [h1, h2, h3]

theorem noGap_iff {a b : Box} (ha : a.Ok) (hb : b.Ok) : noGap a b = true ↔
    ∀ n ∈ [along a, across a, along b, across b], |onAxis n (mid a) - onAxis n (mid b)| ≤ rad a 0 n + rad b 0 n + small := by
  have key : ∀ n, (!gapOn a b n) = true ↔ |onAxis n (mid a) - onAxis n (mid b)| ≤ rad a 0 n + rad b 0 n + small := by
    intro n
    rw [Bool.not_eq_true', ← Bool.not_eq_true, gapOn_iff ha hb, not_lt]
  unfold noGap
  rw [gapOn_comm hb ha (axis b 0), gapOn_comm hb ha (axis b 1)]
  simp only [Bool.and_eq_true, key, List.mem_cons, List.not_mem_nil, or_false, forall_eq_or_imp, forall_eq, (axis_eq a).1, (axis_eq a).2,
    (axis_eq b).1, (axis_eq b).2]
  tauto

/-- Enlarging a box by `e` enlarges its extent on an axis of length one by at least `e`. -/
theorem rad_grow {b : Box} (h : b.Ok) {e : Rat} (he : 0 ≤ e) {n : Rat × Rat} (hn : n.1 * n.1 + n.2 * n.2 = 1) : rad b 0 n + e ≤ rad b e n := by
  have hu := h.unit
  have e1 : (n.1 * b.c + n.2 * b.s) * (n.1 * b.c + n.2 * b.s) + (n.2 * b.c - n.1 * b.s) * (n.2 * b.c - n.1 * b.s) = 1 := by
    have : (n.1 * b.c + n.2 * b.s) * (n.1 * b.c + n.2 * b.s) + (n.2 * b.c - n.1 * b.s) * (n.2 * b.c - n.1 * b.s) =
        (n.1 * n.1 + n.2 * n.2) * (b.c * b.c + b.s * b.s) := by ring
    rw [this, hn, hu]; ring
  unfold rad
  generalize n.1 * b.c + n.2 * b.s = f at *
  generalize n.2 * b.c - n.1 * b.s = g at *
  have h1 := abs_nonneg f
  have h2 := abs_nonneg g
  have e2 : |f| * |f| + |g| * |g| = 1 := by rw [abs_mul_abs_self, abs_mul_abs_self]; exact e1
  have h3 : 1 ≤ |f| + |g| := by
    by_contra hc
    have hlt : |f| + |g| < 1 := not_le.1 hc
    have hfg := mul_nonneg h1 h2
    have : (|f| + |g|) * (|f| + |g|) < 1 := by
      have h0 : 0 ≤ |f| + |g| := by linarith
      have := mul_le_mul_of_nonneg_left hlt.le h0
      linarith
    have e3 : (|f| + |g|) * (|f| + |g|) = |f| * |f| + |g| * |g| + 2 * (|f| * |g|) := by ring
    linarith
  have := mul_le_mul_of_nonneg_right h3 he
  have e4 : |f| * (b.len / 2 + e) + |g| * (b.wid / 2 + e) = |f| * (b.len / 2 + 0) + |g| * (b.wid / 2 + 0) + (|f| + |g|) * e := by ring
  linarith

/-- A reported collision is real up to a millionth: a point of one box is in the other box or that close to it,
and the objects are within the elevation threshold. -/
theorem reported_touch {a b : Box} (ha : a.Ok) (hb : b.Ok) (h : collision a b = true) :
    |a.z - b.z| ≤ 5 / 2 ∧ ∃ px py, Covers a (1 / 1000000) px py ∧ Covers b 0 px py := by
  unfold collision at h
  split at h
  · simp at h
  split at h
  · simp at h
  rename_i hz
  rw [absR_eq, not_lt] at hz
  refine ⟨hz, ?_⟩
  have hg := (noGap_iff ha hb).1 h
  refine common_point ha hb (by norm_num) ?_
  intro n hn
  have hn1 : n.1 * n.1 + n.2 * n.2 = 1 := by
    have := ha.unit
    have := hb.unit
    simp only [List.mem_cons, List.not_mem_nil, or_false] at hn
    rcases hn with rfl | rfl | rfl | rfl <;> simp only [along, across] <;> linarith
  have := rad_grow ha (show (0:Rat) ≤ 1 / 1000000 by norm_num) hn1
  have := hg n hn
  unfold small at this
  linarith

/-- Boxes with a common point are never told apart by the axis test. -/
theorem shared_noGap {a b : Box} (ha : a.Ok) (hb : b.Ok) {px py : Rat} (h1 : Covers a 0 px py) (h2 : Covers b 0 px py) : noGap a b = true := by
  rw [noGap_iff ha hb]
  intro n _
  have c1 := covers_axis n h1
  have c2 := covers_axis n h2
  have hs : (0:Rat) ≤ small := by unfold small; norm_num
  have e : onAxis n (mid a) - onAxis n (mid b) = (onAxis n (px, py) - onAxis n (mid b)) - (onAxis n (px, py) - onAxis n (mid a)) := by ring
  rw [e]
  have := abs_sub (onAxis n (px, py) - onAxis n (mid b)) (onAxis n (px, py) - onAxis n (mid a))
  linarith

/-- Squared distance from the reference point to the farthest corner of the box. -/
def corner2 (b : Box) : Rat := (|b.cx| + b.len / 2) ^ 2 + (|b.cy| + b.wid / 2) ^ 2

/-- A point of the box is at most as far from the reference point as the farthest corner. -/
theorem covers_near {b : Box} (h : b.Ok) {px py : Rat} (hc : Covers b 0 px py) : (px - b.x) ^ 2 + (py - b.y) ^ 2 ≤ corner2 b := by
  obtain ⟨u, v, h1, h2, h3, h4, rfl, rfl⟩ := hc
  have hu := h.unit
  have e1 : (b.x + ((b.cx + u) * b.c - (b.cy + v) * b.s) - b.x) ^ 2 + (b.y + ((b.cx + u) * b.s + (b.cy + v) * b.c) - b.y) ^ 2 =
      ((b.cx + u) ^ 2 + (b.cy + v) ^ 2) * (b.c * b.c + b.s * b.s) := by ring
  rw [e1, hu, mul_one]
  have sq : ∀ p q F : Rat, -(F + 0) ≤ q → q ≤ F + 0 → (p + q) ^ 2 ≤ (|p| + F) ^ 2 := by
    intro p q F l1 l2
    have hq : |q| ≤ F := abs_le.2 ⟨by linarith, by linarith⟩
    have : |p + q| ≤ |p| + F := (abs_add_le p q).trans (by linarith)
    exact sq_le_sq' (by have := (abs_le.1 this).1; linarith) (abs_le.1 this).2
  have s1 := sq b.cx u _ h1 h2
  have s2 := sq b.cy v _ h3 h4
  unfold corner2
  linarith

/-- Two objects within the elevation threshold whose boxes have a common point are reported, if no corner is further
from its reference point than half the diagonal of the summed dimensions. -/
theorem touching_reported_partial {a b : Box} (ha : a.Ok) (hb : b.Ok) {px py : Rat} (h1 : Covers a 0 px py) (h2 : Covers b 0 px py)
    (hz : |a.z - b.z| ≤ 5 / 2) (ra : 4 * corner2 a ≤ (a.len + b.len) ^ 2 + (a.wid + b.wid) ^ 2)
    (rb : 4 * corner2 b ≤ (a.len + b.len) ^ 2 + (a.wid + b.wid) ^ 2) : collision a b = true := by
  have n1 := covers_near ha h1
  have n2 := covers_near hb h2
  unfold collision
  have hf : farApart a b = false := by
    unfold farApart
    rw [decide_eq_false_iff_not, gt_iff_lt, not_lt]
    have s1 := sq_nonneg ((px - a.x) + (px - b.x))
    have s2 := sq_nonneg ((py - a.y) + (py - b.y))
    have e1 : (b.x - a.x) * (b.x - a.x) = 2 * (px - a.x) ^ 2 + 2 * (px - b.x) ^ 2 - ((px - a.x) + (px - b.x)) ^ 2 := by ring
    have e2 : (b.y - a.y) * (b.y - a.y) = 2 * (py - a.y) ^ 2 + 2 * (py - b.y) ^ 2 - ((py - a.y) + (py - b.y)) ^ 2 := by ring
    have e3 : (a.len + b.len) * (a.len + b.len) + (a.wid + b.wid) * (a.wid + b.wid) = (a.len + b.len) ^ 2 + (a.wid + b.wid) ^ 2 := by ring
    linarith
  rw [hf, absR_eq]
  simp only [Bool.false_eq_true, if_false]
  rw [if_neg (show ¬|a.z - b.z| > elevationDiff from not_lt.2 hz)]
  exact shared_noGap ha hb h1 h2

/-- With the reference points in the centres of the boxes no overlap is missed. -/
theorem touching_centred_partial {a b : Box} (ha : a.Ok) (hb : b.Ok) (ca : a.cx = 0 ∧ a.cy = 0) (cb : b.cx = 0 ∧ b.cy = 0) {px py : Rat}
    (h1 : Covers a 0 px py) (h2 : Covers b 0 px py) (hz : |a.z - b.z| ≤ 5 / 2) : collision a b = true := by
  have la := ha.len
  have lb := hb.len
  have wa := ha.wid
  have wb := hb.wid
  have m1 := mul_nonneg la lb
  have m2 := mul_nonneg wa wb
  have q1 := sq_nonneg a.len
  have q2 := sq_nonneg b.len
  have q3 := sq_nonneg a.wid
  have q4 := sq_nonneg b.wid
  have e : (a.len + b.len) ^ 2 + (a.wid + b.wid) ^ 2 = a.len ^ 2 + b.len ^ 2 + a.wid ^ 2 + b.wid ^ 2 + 2 * (a.len * b.len) + 2 * (a.wid * b.wid) := by ring
  refine touching_reported_partial ha hb h1 h2 hz ?_ ?_
  · unfold corner2
    rw [ca.1, ca.2, abs_zero, e]
    have : 4 * ((0 + a.len / 2) ^ 2 + (0 + a.wid / 2) ^ 2) = a.len ^ 2 + a.wid ^ 2 := by ring
    linarith
  · unfold corner2
    rw [cb.1, cb.2, abs_zero, e]
    have : 4 * ((0 + b.len / 2) ^ 2 + (0 + b.wid / 2) ^ 2) = b.len ^ 2 + b.wid ^ 2 := by ring
    linarith

/-- A barrier of 20 m with its reference point at one end, and a box of 1 m x 2 m with its reference point at the rear,
standing askew at the other end of the barrier. -/
def barrier : Box := ⟨0, 0, 0, 1, 0, 10, 0, 20, 1 / 5⟩
/-- See `barrier`. -/
def askew : Box := ⟨20 + 41 / 29 - 1 / 10, -1 / 29, 0, -20 / 29, 21 / 29, 1 / 2, 0, 1, 2⟩

/-- Their boxes overlap, and no collision is reported. -/
theorem missed_witness : barrier.Ok ∧ askew.Ok ∧ Covers barrier 0 (20 - 1 / 10) 0 ∧ Covers askew 0 (20 - 1 / 10) 0 ∧
    collision barrier askew = false := by
  refine ⟨⟨by norm_num [barrier], by norm_num [barrier], by norm_num [barrier]⟩, ⟨by norm_num [askew], by norm_num [askew], by norm_num [askew]⟩,
    ⟨10 - 1 / 10, 0, ?_⟩, ⟨1 / 2, 1, ?_⟩, by decide +kernel⟩
  · norm_num [barrier]
  · norm_num [askew]

/-- Hence "boxes with a common point are reported" is not true of all boxes, not even with the reference point in the box. -/
theorem touching_reported_fails : ¬∀ (a b : Box), a.Ok → b.Ok → Covers a 0 a.x a.y → Covers b 0 b.x b.y → |a.z - b.z| ≤ 5 / 2 →
    (∃ px py, Covers a 0 px py ∧ Covers b 0 px py) → collision a b = true := by
  intro h
  obtain ⟨h1, h2, h3, h4, h5⟩ := missed_witness
  have := h barrier askew h1 h2 ⟨-10, 0, by norm_num [barrier]⟩ ⟨-1 / 2, 0, by norm_num [askew]⟩ (by norm_num [barrier, askew]) ⟨_, _, h3, h4⟩
  rw [h5] at this
  exact absurd this (by simp)

/-- Two cars, one turned by a right angle, bumper against door: hypotheses of `touching_reported_partial`. -/
example : (⟨0, 0, 0, 1, 0, 14 / 10, 0, 5, 2⟩ : Box).Ok ∧ (⟨5, -1, 0, 0, 1, 14 / 10, 0, 5, 2⟩ : Box).Ok ∧
    4 * corner2 ⟨0, 0, 0, 1, 0, 14 / 10, 0, 5, 2⟩ ≤ (5 + 5) ^ 2 + (2 + 2) ^ 2 ∧
    (∃ px py, Covers ⟨0, 0, 0, 1, 0, 14 / 10, 0, 5, 2⟩ 0 px py ∧ Covers ⟨48 / 10, -1, 0, 0, 1, 14 / 10, 0, 5, 2⟩ 0 px py) := by
  refine ⟨⟨by norm_num, by norm_num, by norm_num⟩, ⟨by norm_num, by norm_num, by norm_num⟩, ?_, 39 / 10, 0, ⟨5 / 2, 0, by norm_num⟩, ⟨-4 / 10, 9 / 10, by norm_num⟩⟩
  norm_num [corner2, abs_of_pos]

/-! ## Distances along and across -/

/-- The gap along an axis of the pivot is the least difference of two points of the boxes along the axis, signed, and 0 if there
is none above a millionth. -/
theorem gapDist_spec {a b : Box} (ha : a.Ok) (hb : b.Ok) (n : Rat × Rat) :
    (0 < gapDist a b n → (∀ px py qx qy, Covers a 0 px py → Covers b 0 qx qy → gapDist a b n ≤ onAxis n (qx, qy) - onAxis n (px, py)) ∧
      ∃ px py qx qy, Covers a 0 px py ∧ Covers b 0 qx qy ∧ onAxis n (qx, qy) - onAxis n (px, py) = gapDist a b n) ∧
    (gapDist a b n < 0 → (∀ px py qx qy, Covers a 0 px py → Covers b 0 qx qy → onAxis n (qx, qy) - onAxis n (px, py) ≤ gapDist a b n) ∧
      ∃ px py qx qy, Covers a 0 px py ∧ Covers b 0 qx qy ∧ onAxis n (qx, qy) - onAxis n (px, py) = gapDist a b n) ∧
    (gapDist a b n = 0 → ∃ px py qx qy, Covers a 0 px py ∧ Covers b 0 qx qy ∧ |onAxis n (qx, qy) - onAxis n (px, py)| ≤ 1 / 1000000) := by
  have r1 := rad_nonneg ha le_rfl n
  have r2 := rad_nonneg hb le_rfl n
  have la := lohi_eq ha n
  have lb := lohi_eq hb n
  have bnd : ∀ px py qx qy, Covers a 0 px py → Covers b 0 qx qy →
      lo b n - hi a n ≤ onAxis n (qx, qy) - onAxis n (px, py) ∧ onAxis n (qx, qy) - onAxis n (px, py) ≤ hi b n - lo a n := by
    intro px py qx qy h1 h2
    obtain ⟨u1, u2⟩ := abs_le.1 (covers_axis n h1)
    obtain ⟨v1, v2⟩ := abs_le.1 (covers_axis n h2)
    rw [la.1, la.2, lb.1, lb.2]
    constructor <;> linarith
  have att : ∀ t s, |t - onAxis n (mid a)| ≤ rad a 0 n → |s - onAxis n (mid b)| ≤ rad b 0 n →
      ∃ px py qx qy, Covers a 0 px py ∧ Covers b 0 qx qy ∧ onAxis n (px, py) = t ∧ onAxis n (qx, qy) = s := by
    intro t s ht hs
    obtain ⟨px, py, h1, h2⟩ := reach ha le_rfl n ht
    obtain ⟨qx, qy, h3, h4⟩ := reach hb le_rfl n hs
    exact ⟨px, py, qx, qy, h1, h3, h2, h4⟩
  have small_pos : (0:Rat) < small := by unfold small; norm_num
  by_cases hg : gapOn a b n = true
  · by_cases hh : ahead a b n = true
    · have e : gapDist a b n = lo b n - hi a n := by unfold gapDist; rw [if_pos hg, if_pos hh]
      have hp : hi a n < lo b n - small := by
        unfold ahead at hh
        simp only [Bool.and_eq_true, decide_eq_true_eq] at hh
        exact hh.2
      obtain ⟨px, py, qx, qy, c1, c2, e1, e2⟩ := att (hi a n) (lo b n) (by rw [la.2]; rw [add_sub_cancel_left, abs_of_nonneg r1])
        (by rw [lb.1, sub_sub_cancel_left, abs_neg, abs_of_nonneg r2])
      rw [e]
      refine ⟨fun _ => ⟨fun px py qx qy h1 h2 => (bnd px py qx qy h1 h2).1, px, py, qx, qy, c1, c2, by rw [e1, e2]⟩, ?_, ?_⟩ <;>
        intro h <;> exfalso <;> linarith
    · have e : gapDist a b n = -(lo a n - hi b n) := by unfold gapDist; rw [if_pos hg, if_neg hh]
      have hp : lo a n > hi b n + small := by
        unfold gapOn at hg
        simp only [Bool.or_eq_true, Bool.and_eq_true, decide_eq_true_eq] at hg
        rcases hg with hg | hg
        · exact absurd hg hh
        · exact hg.2
      obtain ⟨px, py, qx, qy, c1, c2, e1, e2⟩ := att (lo a n) (hi b n) (by rw [la.1, sub_sub_cancel_left, abs_neg, abs_of_nonneg r1])
        (by rw [lb.2, add_sub_cancel_left, abs_of_nonneg r2])
      rw [e]
      refine ⟨?_, fun _ => ⟨fun px py qx qy h1 h2 => by have := (bnd px py qx qy h1 h2).2; linarith, px, py, qx, qy, c1, c2, by rw [e1, e2]; ring⟩, ?_⟩ <;>
        intro h <;> exfalso <;> linarith
  · have e : gapDist a b n = 0 := by unfold gapDist; rw [if_neg hg]
    rw [gapOn_iff ha hb, not_lt] at hg
    rw [e]
    refine ⟨fun h => absurd h (lt_irrefl _), fun h => absurd h (lt_irrefl _), fun _ => ?_⟩
    obtain ⟨g1, g2⟩ := abs_le.1 hg
    have hsm : small = 1 / 1000000 := rfl
    rcases le_total |onAxis n (mid a) - onAxis n (mid b)| (rad a 0 n + rad b 0 n) with hc | hc
    · obtain ⟨t, t1, t2⟩ := meet r1 r2 hc
      obtain ⟨px, py, qx, qy, c1, c2, e1, e2⟩ := att t t t1 t2
      exact ⟨px, py, qx, qy, c1, c2, by rw [e1, e2, sub_self, abs_zero]; norm_num⟩
    · rcases le_abs.1 hc with hc' | hc'
      · obtain ⟨px, py, qx, qy, c1, c2, e1, e2⟩ := att (onAxis n (mid a) - rad a 0 n) (onAxis n (mid b) + rad b 0 n)
          (by rw [sub_sub_cancel_left, abs_neg, abs_of_nonneg r1]) (by rw [add_sub_cancel_left, abs_of_nonneg r2])
        exact ⟨px, py, qx, qy, c1, c2, by rw [e1, e2, abs_le]; constructor <;> linarith⟩
      · obtain ⟨px, py, qx, qy, c1, c2, e1, e2⟩ := att (onAxis n (mid a) + rad a 0 n) (onAxis n (mid b) - rad b 0 n)
          (by rw [add_sub_cancel_left, abs_of_nonneg r1]) (by rw [sub_sub_cancel_left, abs_neg, abs_of_nonneg r2])
        exact ⟨px, py, qx, qy, c1, c2, by rw [e1, e2, abs_le]; constructor <;> linarith⟩

/-- Coordinates of a point ahead of and to the left of an object. -/
def aheadOf (b : Box) (px py : Rat) : Rat := (px - b.x) * b.c + (py - b.y) * b.s
/-- See `aheadOf`. -/
def leftOf (b : Box) (px py : Rat) : Rat := (py - b.y) * b.c - (px - b.x) * b.s

/-- Longitudinal distance: how much further ahead (seen from the pivot) the nearest point of the target is than the nearest point of the
pivot; negative behind. -/
theorem long_gap {a b : Box} (ha : a.Ok) (hb : b.Ok) :
    (0 < distLong a b → (∀ px py qx qy, Covers a 0 px py → Covers b 0 qx qy → distLong a b ≤ aheadOf a qx qy - aheadOf a px py) ∧
      ∃ px py qx qy, Covers a 0 px py ∧ Covers b 0 qx qy ∧ aheadOf a qx qy - aheadOf a px py = distLong a b) ∧
    (distLong a b < 0 → (∀ px py qx qy, Covers a 0 px py → Covers b 0 qx qy → aheadOf a qx qy - aheadOf a px py ≤ distLong a b) ∧
      ∃ px py qx qy, Covers a 0 px py ∧ Covers b 0 qx qy ∧ aheadOf a qx qy - aheadOf a px py = distLong a b) ∧
    (distLong a b = 0 → ∃ px py qx qy, Covers a 0 px py ∧ Covers b 0 qx qy ∧ |aheadOf a qx qy - aheadOf a px py| ≤ 1 / 1000000) := by
  have h := gapDist_spec ha hb (axis a 1)
  have e : ∀ px py qx qy, onAxis (axis a 1) (qx, qy) - onAxis (axis a 1) (px, py) = aheadOf a qx qy - aheadOf a px py := by
    intro px py qx qy
    rw [(axis_eq a).2]
    simp only [onAxis, along, aheadOf]; ring
  simp only [e] at h
  exact h

/-- Lateral distance, positive to the left. -/
theorem lat_gap {a b : Box} (ha : a.Ok) (hb : b.Ok) :
    (0 < distLat a b → (∀ px py qx qy, Covers a 0 px py → Covers b 0 qx qy → distLat a b ≤ leftOf a qx qy - leftOf a px py) ∧
      ∃ px py qx qy, Covers a 0 px py ∧ Covers b 0 qx qy ∧ leftOf a qx qy - leftOf a px py = distLat a b) ∧
    (distLat a b < 0 → (∀ px py qx qy, Covers a 0 px py → Covers b 0 qx qy → leftOf a qx qy - leftOf a px py ≤ distLat a b) ∧
      ∃ px py qx qy, Covers a 0 px py ∧ Covers b 0 qx qy ∧ leftOf a qx qy - leftOf a px py = distLat a b) ∧
    (distLat a b = 0 → ∃ px py qx qy, Covers a 0 px py ∧ Covers b 0 qx qy ∧ |leftOf a qx qy - leftOf a px py| ≤ 1 / 1000000) := by
  have h := gapDist_spec ha hb (axis a 0)
  have e : ∀ px py qx qy, onAxis (axis a 0) (qx, qy) - onAxis (axis a 0) (px, py) = leftOf a qx qy - leftOf a px py := by
    intro px py qx qy
    rw [(axis_eq a).1]
    simp only [onAxis, across, leftOf]; ring
  simp only [e] at h
  exact h

/-- A car 20 m ahead in the same lane, and one beside. -/
example : distLong ⟨0, 0, 0, 1, 0, 14 / 10, 0, 5, 2⟩ ⟨20, 0, 0, 1, 0, 14 / 10, 0, 5, 2⟩ = 15 ∧
    distLat ⟨0, 0, 0, 1, 0, 14 / 10, 0, 5, 2⟩ ⟨20, 0, 0, 1, 0, 14 / 10, 0, 5, 2⟩ = 0 ∧
    distLat ⟨0, 0, 0, 1, 0, 14 / 10, 0, 5, 2⟩ ⟨3, -4, 0, 1, 0, 14 / 10, 0, 5, 2⟩ = -2 ∧
    distLong ⟨0, 0, 0, 1, 0, 14 / 10, 0, 5, 2⟩ ⟨3, -4, 0, 1, 0, 14 / 10, 0, 5, 2⟩ = 0 := by decide +kernel

/-! ## The test for a point -/

theorem pointGap_iff {b : Box} (hb : b.Ok) (x y : Rat) (n : Rat × Rat) :
    pointGap b x y n = true ↔ rad b 0 n + small < |onAxis n (x, y) - onAxis n (mid b)| := by
  have h1 := rad_nonneg hb le_rfl n
  have e : dot x y n.1 n.2 = onAxis n (x, y) := by simp only [dot, onAxis]; ring
  unfold pointGap
  rw [(lohi_eq hb n).1, (lohi_eq hb n).2, lt_abs, e]
  simp only [Bool.or_eq_true, Bool.and_eq_true, decide_eq_true_eq]
  constructor
  · rintro (⟨-, h⟩ | ⟨-, h⟩)
    · left; linarith
    · right; linarith
  · rintro (h | h)
    · left; constructor <;> linarith
    · right; constructor <;> linarith

/-- A point is reported exactly if it is in the box enlarged by a millionth. -/
theorem point_exact {b : Box} (hb : b.Ok) (x y : Rat) : pointCollision b x y = true ↔ Covers b (1 / 1000000) x y := by
  have key : ∀ n, (!pointGap b x y n) = true ↔ |onAxis n (x, y) - onAxis n (mid b)| ≤ rad b 0 n + small := by
    intro n
    rw [Bool.not_eq_true', ← Bool.not_eq_true, pointGap_iff hb, not_lt]
  unfold pointCollision
  rw [Bool.and_eq_true, key, key, (axis_eq b).1, (axis_eq b).2, (rad_own hb 0).1, (rad_own hb 0).2, covers_iff hb, abs_le, abs_le]
  have hsm : small = 1 / 1000000 := rfl
  rw [hsm]
  simp only [strip, Set.mem_ofPred_eq]
  constructor
  · rintro ⟨⟨h1, h2⟩, h3, h4⟩
    refine ⟨⟨?_, ?_⟩, ?_, ?_⟩ <;> linarith
  · rintro ⟨⟨h1, h2⟩, h3, h4⟩
    refine ⟨⟨?_, ?_⟩, ?_, ?_⟩ <;> linarith

example : pointCollision ⟨0, 0, 0, 3 / 5, 4 / 5, 14 / 10, 0, 5, 2⟩ (6 / 5) (8 / 5) = true ∧
    pointCollision ⟨0, 0, 0, 3 / 5, 4 / 5, 14 / 10, 0, 5, 2⟩ 3 0 = false := by decide +kernel

end Verif.Collision

import Mathlib.Analysis.Convex.Radon
import Mathlib.LinearAlgebra.Dimension.Constructions
import Verif.AABB.TriangleSigns

namespace Verif.AABB

/-! ## Points of a triangle by orientation -/

/-- To the left of all three sides. -/
def Inside (a b c p : Point) : Prop := 0 ≤ orient a b p ∧ 0 ≤ orient b c p ∧ 0 ≤ orient c a p

theorem orient_mean (p q a b c x : Point) : orient a b c * orient p q x =
    orient b c x * orient p q a + orient c a x * orient p q b + orient a b x * orient p q c := by
  unfold orient; ring

theorem orient_sum (a b c x : Point) : orient a b x + orient b c x + orient c a x = orient a b c := by unfold orient; ring

/-- Strictly to the right of a line with all corners means strictly to the right with all points. -/
theorem right_inside {p q a b c x : Point} (h : 0 < orient a b c) (hr : Right p q a b c) (hi : Inside a b c x) : orient p q x < 0 := by
  obtain ⟨h1, h2, h3⟩ := hr
  obtain ⟨i1, i2, i3⟩ := hi
  have e := orient_mean p q a b c x
  have s := orient_sum a b c x
  have t1 := mul_nonpos_of_nonneg_of_nonpos i2 h1.le
  have t2 := mul_nonpos_of_nonneg_of_nonpos i3 h2.le
  have t3 := mul_nonpos_of_nonneg_of_nonpos i1 h3.le
  have hle : orient a b c * orient p q x ≤ 0 := by linarith
  have hneg : orient a b c * orient p q x < 0 := by
    rcases hle.lt_or_eq with h' | h'
    · exact h'
    · exfalso
      have z1 : orient b c x * orient p q a = 0 := by linarith
      have z2 : orient c a x * orient p q b = 0 := by linarith
      have z3 : orient a b x * orient p q c = 0 := by linarith
      rcases mul_eq_zero.1 z1 with w1 | w1 <;> rcases mul_eq_zero.1 z2 with w2 | w2 <;> rcases mul_eq_zero.1 z3 with w3 | w3 <;> linarith
  by_contra hc
  have := mul_nonneg h.le (not_lt.1 hc)
  linarith

theorem orient_self (a b : Point) : orient a b a = 0 ∧ orient a b b = 0 := by constructor <;> unfold orient <;> ring

theorem orient_cycle (a b c : Point) : orient b c a = orient a b c ∧ orient c a b = orient a b c := by constructor <;> unfold orient <;> ring

/-- The points of a triangle with its corners in counterclockwise order. -/
theorem has_iff {t : Tri} {p : Point} (h : 0 < orient t.a t.b t.c) : t.Has p ↔ Inside t.a t.b t.c p := by
  constructor
  · rintro ⟨u, v, w, hu, hv, hw, h1, hx, hy⟩
    have e1 : orient t.a t.b p = w * orient t.a t.b t.c := by
      unfold orient; rw [hx, hy]
      have : u = 1 - v - w := by linarith
      subst this; ring
    have e2 : orient t.b t.c p = u * orient t.a t.b t.c := by
      unfold orient; rw [hx, hy]
      have : u = 1 - v - w := by linarith
      subst this; ring
    have e3 : orient t.c t.a p = v * orient t.a t.b t.c := by
      unfold orient; rw [hx, hy]
      have : u = 1 - v - w := by linarith
      subst this; ring
    exact ⟨e1 ▸ mul_nonneg hw h.le, e2 ▸ mul_nonneg hu h.le, e3 ▸ mul_nonneg hv h.le⟩
  · rintro ⟨i1, i2, i3⟩
    have hne : orient t.a t.b t.c ≠ 0 := ne_of_gt h
    refine ⟨orient t.b t.c p / orient t.a t.b t.c, orient t.c t.a p / orient t.a t.b t.c, orient t.a t.b p / orient t.a t.b t.c,
      div_nonneg i2 h.le, div_nonneg i3 h.le, div_nonneg i1 h.le, ?_, ?_, ?_⟩
    · rw [← add_div, ← add_div]
      have := orient_sum t.a t.b t.c p
      rw [show orient t.b t.c p + orient t.c t.a p + orient t.a t.b p = orient t.a t.b t.c by linarith]
      exact div_self hne
    · have : p.x * orient t.a t.b t.c = orient t.b t.c p * t.a.x + orient t.c t.a p * t.b.x + orient t.a t.b p * t.c.x := by
        unfold orient; ring
      rw [div_mul_eq_mul_div, div_mul_eq_mul_div, div_mul_eq_mul_div, ← add_div, ← add_div, eq_div_iff hne]
      exact this
    · have : p.y * orient t.a t.b t.c = orient t.b t.c p * t.a.y + orient t.c t.a p * t.b.y + orient t.a t.b p * t.c.y := by
        unfold orient; ring
      rw [div_mul_eq_mul_div, div_mul_eq_mul_div, div_mul_eq_mul_div, ← add_div, ← add_div, eq_div_iff hne]
      exact this

/-! ## Separated or not -/

/-- Separated triangles have no common point. -/
theorem separated_apart {a1 b1 c1 a2 b2 c2 p : Point} (hA : 0 < orient a1 b1 c1) (hB : 0 < orient a2 b2 c2)
    (hs : Separated a1 b1 c1 a2 b2 c2) (h1 : Inside a1 b1 c1 p) : ¬Inside a2 b2 c2 p := by
  intro h2
  obtain ⟨i1, i2, i3⟩ := h1
  obtain ⟨j1, j2, j3⟩ := h2
  rcases hs with h | h | h | h | h | h
  · have := right_inside hB h ⟨j1, j2, j3⟩; linarith
  · have := right_inside hB h ⟨j1, j2, j3⟩; linarith
  · have := right_inside hB h ⟨j1, j2, j3⟩; linarith
  · have := right_inside hA h ⟨i1, i2, i3⟩; linarith
  · have := right_inside hA h ⟨i1, i2, i3⟩; linarith
  · have := right_inside hA h ⟨i1, i2, i3⟩; linarith

/-- The half plane to the left of a line. -/
def left (p q : Point) : Set (ℚ × ℚ) := {x | 0 ≤ orient p q ⟨x.1, x.2⟩}

theorem left_convex (p q : Point) : Convex ℚ (left p q) := by
  intro x hx y hy s t hs ht hst
  have e : orient p q ⟨(s • x + t • y).1, (s • x + t • y).2⟩ = s * orient p q ⟨x.1, x.2⟩ + t * orient p q ⟨y.1, y.2⟩ := by
    have : s = 1 - t := by linarith
    subst this
    simp only [Prod.fst_add, Prod.snd_add, Prod.smul_fst, Prod.smul_snd, smul_eq_mul]
    unfold orient; ring
  show 0 ≤ orient p q ⟨(s • x + t • y).1, (s • x + t • y).2⟩
  rw [e]
  exact add_nonneg (mul_nonneg hs hx) (mul_nonneg ht hy)

/-- The three half planes of a triangle. -/
def sides (a b c : Point) : Fin 3 → Set (ℚ × ℚ)
  | 0 => left a b
  | 1 => left b c
  | 2 => left c a

/-- A corner that is in a given half plane, as a point common to the three half planes of its triangle. -/
theorem corner_in {a b c p q : Point} (h : 0 < orient a b c) (hr : ¬Right p q a b c) :
    ∃ x : ℚ × ℚ, x ∈ left p q ∧ ∀ i, x ∈ sides a b c i := by
  have hc := orient_cycle a b c
  have inA : ∀ i, ((a.x, a.y) : ℚ × ℚ) ∈ sides a b c i := by
    intro i
    match i with
    | 0 => exact (orient_self a b).1.ge
    | 1 => show 0 ≤ orient b c a; linarith
    | 2 => exact (orient_self c a).2.ge
  have inB : ∀ i, ((b.x, b.y) : ℚ × ℚ) ∈ sides a b c i := by
    intro i
    match i with
    | 0 => exact (orient_self a b).2.ge
    | 1 => exact (orient_self b c).1.ge
    | 2 => show 0 ≤ orient c a b; linarith
  have inC : ∀ i, ((c.x, c.y) : ℚ × ℚ) ∈ sides a b c i := by
    intro i
    match i with
    | 0 => show 0 ≤ orient a b c; linarith
    | 1 => exact (orient_self b c).2.ge
    | 2 => exact (orient_self c a).1.ge
  by_cases h1 : orient p q a < 0
  · by_cases h2 : orient p q b < 0
    · by_cases h3 : orient p q c < 0
      · exact absurd ⟨h1, h2, h3⟩ hr
      · exact ⟨(c.x, c.y), not_lt.1 h3, inC⟩
    · exact ⟨(b.x, b.y), not_lt.1 h2, inB⟩
  · exact ⟨(a.x, a.y), not_lt.1 h1, inA⟩

/-- Triangles that no side separates have a common point. -/
theorem common_point {a1 b1 c1 a2 b2 c2 : Point} (hA : 0 < orient a1 b1 c1) (hB : 0 < orient a2 b2 c2)
    (hs : ¬Separated a1 b1 c1 a2 b2 c2) : ∃ p, Inside a1 b1 c1 p ∧ Inside a2 b2 c2 p := by
  let F : Fin 3 ⊕ Fin 3 → Set (ℚ × ℚ) := Sum.elim (sides a1 b1 c1) (sides a2 b2 c2)
  have nr : ∀ {p q x y z : Point}, (Right p q x y z → Separated a1 b1 c1 a2 b2 c2) → ¬Right p q x y z := fun h h' => hs (h h')
  have w1 : ∀ j, ∃ x, x ∈ sides a2 b2 c2 j ∧ ∀ i, x ∈ sides a1 b1 c1 i := by
    intro j
    match j with
    | 0 => exact corner_in hA (nr fun h => Or.inr (Or.inr (Or.inr (Or.inl h))))
    | 1 => exact corner_in hA (nr fun h => Or.inr (Or.inr (Or.inr (Or.inr (Or.inl h)))))
    | 2 => exact corner_in hA (nr fun h => Or.inr (Or.inr (Or.inr (Or.inr (Or.inr h)))))
  have w2 : ∀ j, ∃ x, x ∈ sides a1 b1 c1 j ∧ ∀ i, x ∈ sides a2 b2 c2 i := by
    intro j
    match j with
    | 0 => exact corner_in hB (nr fun h => Or.inl h)
    | 1 => exact corner_in hB (nr fun h => Or.inr (Or.inl h))
    | 2 => exact corner_in hB (nr fun h => Or.inr (Or.inr (Or.inl h)))
  have hd : Module.finrank ℚ (ℚ × ℚ) = 2 := by rw [Module.finrank_prod]; simp
  have key := Convex.helly_theorem' (𝕜 := ℚ) (F := F) (s := Finset.univ)
    (by
      intro i _
      match i with
      | .inl 0 => exact left_convex _ _
      | .inl 1 => exact left_convex _ _
      | .inl 2 => exact left_convex _ _
      | .inr 0 => exact left_convex _ _
      | .inr 1 => exact left_convex _ _
      | .inr 2 => exact left_convex _ _)
    (by
      intro I _ hI
      rw [hd] at hI
      by_cases h1 : ∃ j, ∀ k, Sum.inr k ∈ I → k = j
      · obtain ⟨j, hj⟩ := h1
        obtain ⟨x, hx, hx'⟩ := w1 j
        refine ⟨x, ?_⟩
        simp only [Set.mem_iInter]
        intro i hi
        match i with
        | .inl i => exact hx' i
        | .inr i => rw [hj i hi]; exact hx
      · by_cases h2 : ∃ j, ∀ k, Sum.inl k ∈ I → k = j
        · obtain ⟨j, hj⟩ := h2
          obtain ⟨x, hx, hx'⟩ := w2 j
          refine ⟨x, ?_⟩
          simp only [Set.mem_iInter]
          intro i hi
          match i with
          | .inl i => rw [hj i hi]; exact hx
          | .inr i => exact hx' i
        · exfalso
          have two : ∀ (f : Fin 3 → Fin 3 ⊕ Fin 3), (¬∃ j, ∀ k, f k ∈ I → k = j) → ∃ k l, k ≠ l ∧ f k ∈ I ∧ f l ∈ I := by
            intro f hf
            have h0 := not_exists.1 hf 0
            obtain ⟨k, hk⟩ := not_forall.1 h0
            obtain ⟨hk, hk'⟩ := Classical.not_imp.1 hk
            obtain ⟨l, hl⟩ := not_forall.1 (not_exists.1 hf k)
            obtain ⟨hl, hl'⟩ := Classical.not_imp.1 hl
            exact ⟨l, k, hl', hl, hk⟩
          obtain ⟨k, l, hkl, hk, hl⟩ := two Sum.inr h1
          obtain ⟨k', l', hkl', hk', hl'⟩ := two Sum.inl h2
          have hsub : ({Sum.inr k, Sum.inr l, Sum.inl k', Sum.inl l'} : Finset (Fin 3 ⊕ Fin 3)) ⊆ I := by
            intro x hx
            simp only [Finset.mem_insert, Finset.mem_singleton] at hx
            rcases hx with rfl | rfl | rfl | rfl <;> assumption
          have hc := Finset.card_le_card hsub
          rw [Finset.card_insert_of_notMem (by simp [hkl]), Finset.card_insert_of_notMem (by simp),
            Finset.card_insert_of_notMem (by simp [hkl']), Finset.card_singleton] at hc
          omega)
  obtain ⟨x, hx⟩ := key
  simp only [Set.mem_iInter] at hx
  have hm : ∀ i, x ∈ F i := fun i => hx i (Finset.mem_univ i)
  exact ⟨⟨x.1, x.2⟩, ⟨hm (.inl 0), hm (.inl 1), hm (.inl 2)⟩, ⟨hm (.inr 0), hm (.inr 1), hm (.inr 2)⟩⟩

theorem separated_iff {a1 b1 c1 a2 b2 c2 : Point} (hA : 0 < orient a1 b1 c1) (hB : 0 < orient a2 b2 c2) :
    ¬Separated a1 b1 c1 a2 b2 c2 ↔ ∃ p, Inside a1 b1 c1 p ∧ Inside a2 b2 c2 p :=
  ⟨common_point hA hB, fun ⟨_, h1, h2⟩ hs => separated_apart hA hB hs h1 h2⟩

theorem separated_rotate (a1 b1 c1 a2 b2 c2 : Point) : Separated a1 b1 c1 a2 b2 c2 ↔ Separated a1 b1 c1 b2 c2 a2 := by
  have turn : ∀ p q, Right p q a2 b2 c2 ↔ Right p q b2 c2 a2 := fun p q =>
    ⟨fun h => ⟨h.2.1, h.2.2, h.1⟩, fun h => ⟨h.2.2, h.1, h.2.1⟩⟩
  unfold Separated
  rw [turn, turn, turn]
  constructor
  · rintro (h | h | h | h | h | h) <;> simp [h]
  · rintro (h | h | h | h | h | h) <;> simp [h]

/-! ## The test -/

/-- The first corner of the first triangle is beyond the first side of the second and beyond no other: here the code passes a wrong
corner to the edge test. -/
def BeyondFirst (a1 a2 b2 c2 : Point) : Prop := orient a2 b2 a1 < 0 ∧ 0 ≤ orient b2 c2 a1 ∧ 0 ≤ orient c2 a2 a1

theorem intersection2d_iff {a1 b1 c1 a2 b2 c2 : Point} (hA : 0 < orient a1 b1 c1) (hB : 0 < orient a2 b2 c2)
    (hn : ¬BeyondFirst a1 a2 b2 c2) : intersection2d a1 b1 c1 a2 b2 c2 = true ↔ ¬Separated a1 b1 c1 a2 b2 c2 := by
  have hB1 : 0 < orient b2 c2 a2 := by rw [(orient_cycle a2 b2 c2).1]; exact hB
  have hB2 : 0 < orient c2 a2 b2 := by rw [(orient_cycle a2 b2 c2).2]; exact hB
  unfold intersection2d
  by_cases h1 : orient a2 b2 a1 ≥ 0
  · rw [if_pos h1]
    by_cases h2 : orient b2 c2 a1 ≥ 0
    · rw [if_pos h2]
      by_cases h3 : orient c2 a2 a1 ≥ 0
      · simp only [h3, decide_true, Bool.true_or, true_iff]
        intro hs
        refine separated_apart hA hB hs (p := a1) ⟨(orient_self a1 b1).1.ge, ?_, (orient_self c1 a1).2.ge⟩ ⟨h1, h2, h3⟩
        rw [(orient_cycle a1 b1 c1).1]; exact hA.le
      · simp only [h3, decide_false, Bool.false_or]
        exact testEdges_iff hA hB h1 h2 (not_le.1 h3)
    · rw [if_neg h2]
      by_cases h3 : orient c2 a2 a1 ≥ 0
      · rw [if_pos h3, separated_rotate, separated_rotate]
        exact testEdges_iff hA hB2 h3 h1 (not_le.1 h2)
      · rw [if_neg h3]
        exact testVertex_iff hA hB h1 (not_le.1 h2) (not_le.1 h3)
  · rw [if_neg h1]
    by_cases h2 : orient b2 c2 a1 ≥ 0
    · rw [if_pos h2]
      by_cases h3 : orient c2 a2 a1 ≥ 0
      · exact absurd ⟨not_le.1 h1, h2, h3⟩ hn
      · rw [if_neg h3, separated_rotate]
        exact testVertex_iff hA hB1 h2 (not_le.1 h3) (not_le.1 h1)
    · rw [if_neg h2, separated_rotate, separated_rotate]
      have h3 : 0 ≤ orient c2 a2 a1 := by have := orient_sum a2 b2 c2 a1; linarith [not_le.1 h1, not_le.1 h2]
      exact testVertex_iff hA hB2 h3 (not_le.1 h1) (not_le.1 h2)

/-- The triangle with its corners in counterclockwise order. -/
def Tri.ccw (t : Tri) : Tri := if orient t.a t.b t.c < 0 then { t with b := t.c, c := t.b } else t

theorem ccw_has (t : Tri) (p : Point) : t.ccw.Has p ↔ t.Has p := by
  unfold Tri.ccw
  split
  · constructor
    · rintro ⟨u, v, w, hu, hv, hw, h1, hx, hy⟩
      exact ⟨u, w, v, hu, hw, hv, by linarith, by rw [hx]; ring, by rw [hy]; ring⟩
    · rintro ⟨u, v, w, hu, hv, hw, h1, hx, hy⟩
      exact ⟨u, w, v, hu, hw, hv, by linarith, by rw [hx]; ring, by rw [hy]; ring⟩
  · exact Iff.rfl

theorem ccw_pos {t : Tri} (h : orient t.a t.b t.c ≠ 0) : 0 < orient t.ccw.a t.ccw.b t.ccw.c := by
  unfold Tri.ccw
  split
  · rename_i hn
    show 0 < orient t.a t.c t.b
    have : orient t.a t.c t.b = -orient t.a t.b t.c := by unfold orient; ring
    rw [this]; linarith
  · rename_i hn
    exact lt_of_le_of_ne (not_lt.1 hn) (Ne.symm h)

theorem collide_ccw (t u : Tri) : t.collide u = intersection2d t.ccw.a t.ccw.b t.ccw.c u.ccw.a u.ccw.b u.ccw.c := by
  unfold Tri.collide overlap2d Tri.ccw
  split <;> split <;> rfl

/-- The overlap test of two triangles with area says yes exactly if they have a common point, unless the first corner of the first
triangle is beyond the first side of the second and no other side. -/
theorem overlap_exact_partial {t u : Tri} (ht : orient t.a t.b t.c ≠ 0) (hu : orient u.a u.b u.c ≠ 0)
    (hn : ¬BeyondFirst t.a u.ccw.a u.ccw.b u.ccw.c) : t.collide u = true ↔ ∃ p, t.Has p ∧ u.Has p := by
  have ha : t.ccw.a = t.a := by unfold Tri.ccw; split <;> rfl
  rw [collide_ccw, intersection2d_iff (ccw_pos ht) (ccw_pos hu) (by rw [ha]; exact hn), separated_iff (ccw_pos ht) (ccw_pos hu)]
  constructor
  · rintro ⟨p, h1, h2⟩
    exact ⟨p, (ccw_has t p).1 ((has_iff (ccw_pos ht)).2 h1), (ccw_has u p).1 ((has_iff (ccw_pos hu)).2 h2)⟩
  · rintro ⟨p, h1, h2⟩
    exact ⟨p, (has_iff (ccw_pos ht)).1 ((ccw_has t p).2 h1), (has_iff (ccw_pos hu)).1 ((ccw_has u p).2 h2)⟩

/-- A case the theorem covers, with and without overlap. -/
example : (⟨⟨0, 0⟩, ⟨2, 0⟩, ⟨0, 2⟩, none⟩ : Tri).collide ⟨⟨1, 0⟩, ⟨3, 1⟩, ⟨1, 3⟩, none⟩ = true ∧
    (⟨⟨0, 0⟩, ⟨2, 0⟩, ⟨0, 2⟩, none⟩ : Tri).collide ⟨⟨4, 0⟩, ⟨6, 1⟩, ⟨4, 3⟩, none⟩ = false ∧
    ¬(orient ⟨1, 0⟩ ⟨3, 1⟩ ⟨0, 0⟩ < 0 ∧ 0 ≤ orient ⟨3, 1⟩ ⟨1, 3⟩ ⟨0, 0⟩ ∧ 0 ≤ orient ⟨1, 3⟩ ⟨1, 0⟩ ⟨0, 0⟩) := by decide +kernel

/-- C23 to the end: a pair of a road triangle and an ellipse triangle with a common point leads to a reported triangle, with the same
exception. -/
theorem touching_reported_partial {t u : Tri} {p : Point} {T U : Tree} (hT : T.Hulls) (hU : U.Hulls) (h1 : boxOf t ∈ T.leaves)
    (h2 : boxOf u ∈ U.leaves) (ht : orient t.a t.b t.c ≠ 0) (hu : orient u.a u.b u.c ≠ 0)
    (hn : ¬BeyondFirst t.a u.ccw.a u.ccw.b u.ccw.c) (hp : t.Has p) (hq : u.Has p) :
    (u.geometry ≠ none → u ∈ processCandidates (intersect T U)) ∧ (u.geometry = none → t ∈ processCandidates (intersect T U)) := by
  have hm := touching_triangles_found hT hU h1 h2 hp hq
  have hc := (overlap_exact_partial ht hu hn).2 ⟨p, hp, hq⟩
  exact ⟨fun hg => processCandidates_mem.2 ⟨_, _, t, u, hm, rfl, rfl, hc, Or.inl ⟨hg, rfl⟩⟩,
    fun hg => processCandidates_mem.2 ⟨_, _, t, u, hm, rfl, rfl, hc, Or.inr ⟨hg, rfl⟩⟩⟩

end Verif.AABB

import Mathlib.Tactic.Linarith
import Mathlib.Tactic.Ring
import Verif.AABB.Theorems

/-
The triangle test decides whether some side of one of the triangles separates them. The proofs in this file are sign computations with the
two relations `lin4` and `gp5` between orientations; they were found by a search program and are checked here step by step.
-/
namespace Verif.AABB

theorem lin4 (a b c d : Point) : orient a b c - orient a b d + orient a c d - orient b c d = 0 := by unfold orient; ring

theorem gp5raw (e a b c d : Point) : orient e a b * orient e c d - orient e a c * orient e b d + orient e a d * orient e b c = 0 := by
  unfold orient; ring

/-- All three points are strictly to the right of the line from `p` to `q`. -/
def Right (p q x y z : Point) : Prop := orient p q x < 0 ∧ orient p q y < 0 ∧ orient p q z < 0

/-- Some side of one triangle has the whole other triangle strictly on its outer side (triangles given counterclockwise). -/
def Separated (a1 b1 c1 a2 b2 c2 : Point) : Prop :=
  Right a1 b1 a2 b2 c2 ∨ Right b1 c1 a2 b2 c2 ∨ Right c1 a1 a2 b2 c2 ∨
  Right a2 b2 a1 b1 c1 ∨ Right b2 c2 a1 b1 c1 ∨ Right c2 a2 a1 b1 c1

theorem gp_a1_b1_c1_a2_b2 (a1 b1 c1 a2 b2 c2 : Point) : (1) * ((orient a1 b1 c1) * (orient a1 a2 b2)) + (-1) * ((orient a1 b1 a2) * (orient a1 c1 b2)) + (1) * ((orient a1 b1 b2) * (orient a1 c1 a2)) = 0 := by unfold orient; ring

theorem gp_a1_b1_c1_a2_c2 (a1 b1 c1 a2 b2 c2 : Point) : (1) * ((orient a1 b1 c1) * (orient a1 a2 c2)) + (-1) * ((orient a1 b1 a2) * (orient a1 c1 c2)) + (1) * ((orient a1 b1 c2) * (orient a1 c1 a2)) = 0 := by unfold orient; ring

theorem gp_a1_b1_a2_b2_c2 (a1 b1 c1 a2 b2 c2 : Point) : (1) * ((orient a1 b1 a2) * (orient a1 b2 c2)) + (-1) * ((orient a1 b1 b2) * (orient a1 a2 c2)) + (1) * ((orient a1 b1 c2) * (orient a1 a2 b2)) = 0 := by unfold orient; ring

theorem gp_a1_c1_a2_b2_c2 (a1 b1 c1 a2 b2 c2 : Point) : (1) * ((orient a1 c1 a2) * (orient a1 b2 c2)) + (-1) * ((orient a1 c1 b2) * (orient a1 a2 c2)) + (1) * ((orient a1 c1 c2) * (orient a1 a2 b2)) = 0 := by unfold orient; ring

theorem gp_b1_a1_c1_a2_b2 (a1 b1 c1 a2 b2 c2 : Point) : (-1) * ((orient a1 b1 c1) * (orient b1 a2 b2)) + (1) * ((orient a1 b1 a2) * (orient b1 c1 b2)) + (-1) * ((orient a1 b1 b2) * (orient b1 c1 a2)) = 0 := by unfold orient; ring

theorem gp_b1_a1_c1_a2_c2 (a1 b1 c1 a2 b2 c2 : Point) : (-1) * ((orient a1 b1 c1) * (orient b1 a2 c2)) + (1) * ((orient a1 b1 a2) * (orient b1 c1 c2)) + (-1) * ((orient a1 b1 c2) * (orient b1 c1 a2)) = 0 := by unfold orient; ring

theorem gp_b1_a1_c1_b2_c2 (a1 b1 c1 a2 b2 c2 : Point) : (-1) * ((orient a1 b1 c1) * (orient b1 b2 c2)) + (1) * ((orient a1 b1 b2) * (orient b1 c1 c2)) + (-1) * ((orient a1 b1 c2) * (orient b1 c1 b2)) = 0 := by unfold orient; ring

theorem gp_b1_a1_a2_b2_c2 (a1 b1 c1 a2 b2 c2 : Point) : (-1) * ((orient a1 b1 a2) * (orient b1 b2 c2)) + (1) * ((orient a1 b1 b2) * (orient b1 a2 c2)) + (-1) * ((orient a1 b1 c2) * (orient b1 a2 b2)) = 0 := by unfold orient; ring

theorem gp_b1_c1_a2_b2_c2 (a1 b1 c1 a2 b2 c2 : Point) : (1) * ((orient b1 c1 a2) * (orient b1 b2 c2)) + (-1) * ((orient b1 c1 b2) * (orient b1 a2 c2)) + (1) * ((orient b1 c1 c2) * (orient b1 a2 b2)) = 0 := by unfold orient; ring

theorem gp_c1_a1_b1_a2_b2 (a1 b1 c1 a2 b2 c2 : Point) : (1) * ((orient a1 b1 c1) * (orient c1 a2 b2)) + (-1) * ((orient a1 c1 a2) * (orient b1 c1 b2)) + (1) * ((orient a1 c1 b2) * (orient b1 c1 a2)) = 0 := by unfold orient; ring

theorem gp_c1_a1_b1_a2_c2 (a1 b1 c1 a2 b2 c2 : Point) : (1) * ((orient a1 b1 c1) * (orient c1 a2 c2)) + (-1) * ((orient a1 c1 a2) * (orient b1 c1 c2)) + (1) * ((orient a1 c1 c2) * (orient b1 c1 a2)) = 0 := by unfold orient; ring

theorem gp_c1_a1_b1_b2_c2 (a1 b1 c1 a2 b2 c2 : Point) : (1) * ((orient a1 b1 c1) * (orient c1 b2 c2)) + (-1) * ((orient a1 c1 b2) * (orient b1 c1 c2)) + (1) * ((orient a1 c1 c2) * (orient b1 c1 b2)) = 0 := by unfold orient; ring

theorem gp_a2_a1_b1_c1_b2 (a1 b1 c1 a2 b2 c2 : Point) : (-1) * ((orient a1 b1 a2) * (orient c1 a2 b2)) + (1) * ((orient a1 c1 a2) * (orient b1 a2 b2)) + (-1) * ((orient a1 a2 b2) * (orient b1 c1 a2)) = 0 := by unfold orient; ring

theorem gp_a2_a1_b1_c1_c2 (a1 b1 c1 a2 b2 c2 : Point) : (-1) * ((orient a1 b1 a2) * (orient c1 a2 c2)) + (1) * ((orient a1 c1 a2) * (orient b1 a2 c2)) + (-1) * ((orient a1 a2 c2) * (orient b1 c1 a2)) = 0 := by unfold orient; ring

theorem gp_a2_a1_b1_b2_c2 (a1 b1 c1 a2 b2 c2 : Point) : (1) * ((orient a1 b1 a2) * (orient a2 b2 c2)) + (-1) * ((orient a1 a2 b2) * (orient b1 a2 c2)) + (1) * ((orient a1 a2 c2) * (orient b1 a2 b2)) = 0 := by unfold orient; ring

theorem gp_a2_a1_c1_b2_c2 (a1 b1 c1 a2 b2 c2 : Point) : (1) * ((orient a1 c1 a2) * (orient a2 b2 c2)) + (-1) * ((orient a1 a2 b2) * (orient c1 a2 c2)) + (1) * ((orient a1 a2 c2) * (orient c1 a2 b2)) = 0 := by unfold orient; ring

theorem gp_b2_a1_b1_c1_a2 (a1 b1 c1 a2 b2 c2 : Point) : (1) * ((orient a1 b1 b2) * (orient c1 a2 b2)) + (-1) * ((orient a1 c1 b2) * (orient b1 a2 b2)) + (1) * ((orient a1 a2 b2) * (orient b1 c1 b2)) = 0 := by unfold orient; ring

theorem gp_b2_a1_b1_a2_c2 (a1 b1 c1 a2 b2 c2 : Point) : (-1) * ((orient a1 b1 b2) * (orient a2 b2 c2)) + (1) * ((orient a1 a2 b2) * (orient b1 b2 c2)) + (-1) * ((orient a1 b2 c2) * (orient b1 a2 b2)) = 0 := by unfold orient; ring

theorem gp_b2_a1_c1_a2_c2 (a1 b1 c1 a2 b2 c2 : Point) : (-1) * ((orient a1 c1 b2) * (orient a2 b2 c2)) + (1) * ((orient a1 a2 b2) * (orient c1 b2 c2)) + (-1) * ((orient a1 b2 c2) * (orient c1 a2 b2)) = 0 := by unfold orient; ring

theorem gp_c2_a1_c1_a2_b2 (a1 b1 c1 a2 b2 c2 : Point) : (1) * ((orient a1 c1 c2) * (orient a2 b2 c2)) + (-1) * ((orient a1 a2 c2) * (orient c1 b2 c2)) + (1) * ((orient a1 b2 c2) * (orient c1 a2 c2)) = 0 := by unfold orient; ring

theorem gp_c2_b1_c1_a2_b2 (a1 b1 c1 a2 b2 c2 : Point) : (1) * ((orient b1 c1 c2) * (orient a2 b2 c2)) + (-1) * ((orient b1 a2 c2) * (orient c1 b2 c2)) + (1) * ((orient b1 b2 c2) * (orient c1 a2 c2)) = 0 := by unfold orient; ring

theorem o_a1_a2_b1 {a1 b1 c1 a2 b2 c2 : Point} : orient a1 a2 b1 = -(orient a1 b1 a2) := by unfold orient; ring

theorem o_a1_a2_c1 {a1 b1 c1 a2 b2 c2 : Point} : orient a1 a2 c1 = -(orient a1 c1 a2) := by unfold orient; ring

theorem o_a1_b2_b1 {a1 b1 c1 a2 b2 c2 : Point} : orient a1 b2 b1 = -(orient a1 b1 b2) := by unfold orient; ring

theorem o_a2_b2_a1 {a1 b1 c1 a2 b2 c2 : Point} : orient a2 b2 a1 = orient a1 a2 b2 := by unfold orient; ring

theorem o_a2_b2_b1 {a1 b1 c1 a2 b2 c2 : Point} : orient a2 b2 b1 = orient b1 a2 b2 := by unfold orient; ring

theorem o_a2_b2_c1 {a1 b1 c1 a2 b2 c2 : Point} : orient a2 b2 c1 = orient c1 a2 b2 := by unfold orient; ring

theorem o_b2_c2_a1 {a1 b1 c1 a2 b2 c2 : Point} : orient b2 c2 a1 = orient a1 b2 c2 := by unfold orient; ring

theorem o_b2_c2_b1 {a1 b1 c1 a2 b2 c2 : Point} : orient b2 c2 b1 = orient b1 b2 c2 := by unfold orient; ring

theorem o_b2_c2_c1 {a1 b1 c1 a2 b2 c2 : Point} : orient b2 c2 c1 = orient c1 b2 c2 := by unfold orient; ring

theorem o_c1_a1_a2 {a1 b1 c1 a2 b2 c2 : Point} : orient c1 a1 a2 = -(orient a1 c1 a2) := by unfold orient; ring

theorem o_c1_a1_b2 {a1 b1 c1 a2 b2 c2 : Point} : orient c1 a1 b2 = -(orient a1 c1 b2) := by unfold orient; ring

theorem o_c1_a1_c2 {a1 b1 c1 a2 b2 c2 : Point} : orient c1 a1 c2 = -(orient a1 c1 c2) := by unfold orient; ring

theorem o_c2_a2_a1 {a1 b1 c1 a2 b2 c2 : Point} : orient c2 a2 a1 = -(orient a1 a2 c2) := by unfold orient; ring

theorem o_c2_a2_b1 {a1 b1 c1 a2 b2 c2 : Point} : orient c2 a2 b1 = -(orient b1 a2 c2) := by unfold orient; ring

theorem o_c2_a2_c1 {a1 b1 c1 a2 b2 c2 : Point} : orient c2 a2 c1 = -(orient c1 a2 c2) := by unfold orient; ring

theorem o_c2_b2_b1 {a1 b1 c1 a2 b2 c2 : Point} : orient c2 b2 b1 = -(orient b1 b2 c2) := by unfold orient; ring

theorem o_c2_b2_c1 {a1 b1 c1 a2 b2 c2 : Point} : orient c2 b2 c1 = -(orient c1 b2 c2) := by unfold orient; ring

theorem o_c2_c1_b2 {a1 b1 c1 a2 b2 c2 : Point} : orient c2 c1 b2 = orient c1 b2 c2 := by unfold orient; ring

theorem leafE_0 {a1 b1 c1 a2 b2 c2 : Point} (h0 : 0 < orient a1 b1 c1) (h1 : 0 < orient a2 b2 c2) (h2 : 0 ≤ orient a2 b2 a1) (h3 : 0 ≤ orient b2 c2 a1) (h4 : orient c2 a2 a1 < 0) (h5 : 0 ≤ orient c2 a2 b1) (h6 : 0 ≤ orient a1 a2 b1) (h7 : 0 ≤ orient a1 b1 c2) :
    ¬Separated a1 b1 c1 a2 b2 c2 := by
  have ea1a2b1 := o_a1_a2_b1 (a1 := a1) (b1 := b1) (c1 := c1) (a2 := a2) (b2 := b2) (c2 := c2)
  have ea2b2a1 := o_a2_b2_a1 (a1 := a1) (b1 := b1) (c1 := c1) (a2 := a2) (b2 := b2) (c2 := c2)
  have eb2c2a1 := o_b2_c2_a1 (a1 := a1) (b1 := b1) (c1 := c1) (a2 := a2) (b2 := b2) (c2 := c2)
  have ec2a2a1 := o_c2_a2_a1 (a1 := a1) (b1 := b1) (c1 := c1) (a2 := a2) (b2 := b2) (c2 := c2)
  have ec2a2b1 := o_c2_a2_b1 (a1 := a1) (b1 := b1) (c1 := c1) (a2 := a2) (b2 := b2) (c2 := c2)
  rintro (⟨g0, g1, g2⟩ | ⟨g0, g1, g2⟩ | ⟨g0, g1, g2⟩ | ⟨g0, g1, g2⟩ | ⟨g0, g1, g2⟩ | ⟨g0, g1, g2⟩)
  · skip
    linarith
  · skip
    have f0 : 0 < orient a1 b1 c1 := by linarith
    have f1 : orient a1 b1 a2 ≤ 0 := by linarith
    have f3 : 0 ≤ orient a1 b1 c2 := by linarith
    have f8 : 0 < orient a1 a2 c2 := by linarith
    have f10 : orient b1 c1 a2 < 0 := by linarith
    have f12 : orient b1 c1 c2 < 0 := by linarith
    have f14 : orient b1 a2 c2 ≤ 0 := by linarith
    have s0 : orient a1 c1 a2 < 0 := by
      rcases lt_trichotomy (orient a1 c1 a2) 0 with hs | hs | hs
      · first | linarith | exact ne_of_lt hs | exact ne_of_gt hs
      · exfalso
        have r := lin4 a1 b1 c1 a2
        linarith
      · exfalso
        have r := lin4 a1 b1 c1 a2
        linarith
    have s1 : orient a1 b1 a2 = 0 := by
      rcases lt_trichotomy (orient a1 b1 a2) 0 with hs | hs | hs
      · exfalso
        have r := gp_b1_a1_c1_a2_c2 a1 b1 c1 a2 b2 c2
        have t1 := mul_nonpos_of_nonneg_of_nonpos (show 0 ≤ orient a1 b1 c1 by linarith) (show orient b1 a2 c2 ≤ 0 by linarith)
        have t2 := mul_pos_of_neg_of_neg (show orient a1 b1 a2 < 0 by linarith) (show orient b1 c1 c2 < 0 by linarith)
        have t3 := mul_nonpos_of_nonneg_of_nonpos (show 0 ≤ orient a1 b1 c2 by linarith) (show orient b1 c1 a2 ≤ 0 by linarith)
        linarith
      · first | linarith | exact ne_of_lt hs | exact ne_of_gt hs
      · exfalso; linarith
    have s2 : orient a1 b1 c2 = 0 := by
      rcases lt_trichotomy (orient a1 b1 c2) 0 with hs | hs | hs
      · exfalso; linarith
      · first | linarith | exact ne_of_lt hs | exact ne_of_gt hs
      · exfalso
        have r := gp_b1_a1_c1_a2_c2 a1 b1 c1 a2 b2 c2
        have t1 := mul_nonpos_of_nonneg_of_nonpos (show 0 ≤ orient a1 b1 c1 by linarith) (show orient b1 a2 c2 ≤ 0 by linarith)
        have t2 : (orient a1 b1 a2) * (orient b1 c1 c2) = 0 := by rw [show orient a1 b1 a2 = 0 by linarith]; ring
        have t3 := mul_neg_of_pos_of_neg (show 0 < orient a1 b1 c2 by linarith) (show orient b1 c1 a2 < 0 by linarith)
        linarith
    have s3 : orient b1 a2 c2 = 0 := by
      rcases lt_trichotomy (orient b1 a2 c2) 0 with hs | hs | hs
      · exfalso
        have r := gp_b1_a1_c1_a2_c2 a1 b1 c1 a2 b2 c2
        have t1 := mul_neg_of_pos_of_neg (show 0 < orient a1 b1 c1 by linarith) (show orient b1 a2 c2 < 0 by linarith)
        have t2 : (orient a1 b1 a2) * (orient b1 c1 c2) = 0 := by rw [show orient a1 b1 a2 = 0 by linarith]; ring
        have t3 : (orient a1 b1 c2) * (orient b1 c1 a2) = 0 := by rw [show orient a1 b1 c2 = 0 by linarith]; ring
        linarith
      · first | linarith | exact ne_of_lt hs | exact ne_of_gt hs
      · exfalso; linarith
    rcases lt_trichotomy (orient a1 b1 a2) 0 with hs | hs | hs
    · exfalso; linarith
    · exfalso
      have r := gp_a2_a1_b1_c1_c2 a1 b1 c1 a2 b2 c2
      have t1 : (orient a1 b1 a2) * (orient c1 a2 c2) = 0 := by rw [show orient a1 b1 a2 = 0 by linarith]; ring
      have t2 : (orient a1 c1 a2) * (orient b1 a2 c2) = 0 := by rw [show orient b1 a2 c2 = 0 by linarith]; ring
      have t3 := mul_neg_of_pos_of_neg (show 0 < orient a1 a2 c2 by linarith) (show orient b1 c1 a2 < 0 by linarith)
      linarith
    · exfalso; linarith
  · skip
    have ec1a1a2 := o_c1_a1_a2 (a1 := a1) (b1 := b1) (c1 := c1) (a2 := a2) (b2 := b2) (c2 := c2)
    have ec1a1b2 := o_c1_a1_b2 (a1 := a1) (b1 := b1) (c1 := c1) (a2 := a2) (b2 := b2) (c2 := c2)
    have ec1a1c2 := o_c1_a1_c2 (a1 := a1) (b1 := b1) (c1 := c1) (a2 := a2) (b2 := b2) (c2 := c2)
    have f0 : 0 < orient a1 b1 c1 := by linarith
    have f1 : orient a1 b1 a2 ≤ 0 := by linarith
    have f3 : 0 ≤ orient a1 b1 c2 := by linarith
    have f4 : 0 < orient a1 c1 a2 := by linarith
    have f6 : 0 < orient a1 c1 c2 := by linarith
    have f8 : 0 < orient a1 a2 c2 := by linarith
    rcases lt_trichotomy (orient a1 b1 c1) 0 with hs | hs | hs
    · exfalso; linarith
    · exfalso; linarith
    · exfalso
      have r := gp_a1_b1_c1_a2_c2 a1 b1 c1 a2 b2 c2
      have t1 := mul_pos (show 0 < orient a1 b1 c1 by linarith) (show 0 < orient a1 a2 c2 by linarith)
      have t2 := mul_nonpos_of_nonpos_of_nonneg (show orient a1 b1 a2 ≤ 0 by linarith) (show 0 ≤ orient a1 c1 c2 by linarith)
      have t3 := mul_nonneg (show 0 ≤ orient a1 b1 c2 by linarith) (show 0 ≤ orient a1 c1 a2 by linarith)
      linarith
  · skip
    have ea2b2b1 := o_a2_b2_b1 (a1 := a1) (b1 := b1) (c1 := c1) (a2 := a2) (b2 := b2) (c2 := c2)
    have ea2b2c1 := o_a2_b2_c1 (a1 := a1) (b1 := b1) (c1 := c1) (a2 := a2) (b2 := b2) (c2 := c2)
    linarith
  · skip
    have eb2c2b1 := o_b2_c2_b1 (a1 := a1) (b1 := b1) (c1 := c1) (a2 := a2) (b2 := b2) (c2 := c2)
    have eb2c2c1 := o_b2_c2_c1 (a1 := a1) (b1 := b1) (c1 := c1) (a2 := a2) (b2 := b2) (c2 := c2)
    linarith
  · skip
    have ec2a2c1 := o_c2_a2_c1 (a1 := a1) (b1 := b1) (c1 := c1) (a2 := a2) (b2 := b2) (c2 := c2)
    linarith

theorem leafE_1 {a1 b1 c1 a2 b2 c2 : Point} (h0 : 0 < orient a1 b1 c1) (h1 : 0 < orient a2 b2 c2) (h2 : 0 ≤ orient a2 b2 a1) (h3 : 0 ≤ orient b2 c2 a1) (h4 : orient c2 a2 a1 < 0) (h5 : 0 ≤ orient c2 a2 b1) (h6 : 0 ≤ orient a1 a2 b1) (h7 : orient a1 b1 c2 < 0) :
    Separated a1 b1 c1 a2 b2 c2 := by
  have ea1a2b1 := o_a1_a2_b1 (a1 := a1) (b1 := b1) (c1 := c1) (a2 := a2) (b2 := b2) (c2 := c2)
  have ea2b2a1 := o_a2_b2_a1 (a1 := a1) (b1 := b1) (c1 := c1) (a2 := a2) (b2 := b2) (c2 := c2)
  have eb2c2a1 := o_b2_c2_a1 (a1 := a1) (b1 := b1) (c1 := c1) (a2 := a2) (b2 := b2) (c2 := c2)
  have ec2a2a1 := o_c2_a2_a1 (a1 := a1) (b1 := b1) (c1 := c1) (a2 := a2) (b2 := b2) (c2 := c2)
  have ec2a2b1 := o_c2_a2_b1 (a1 := a1) (b1 := b1) (c1 := c1) (a2 := a2) (b2 := b2) (c2 := c2)
  refine Or.inl ⟨?_, ?_, ?_⟩
  · by_contra hc
    have g0 : 0 ≤ orient a1 b1 a2 := not_lt.1 hc
    have f1 : orient a1 b1 a2 = 0 := by linarith
    have f3 : orient a1 b1 c2 < 0 := by linarith
    have f8 : 0 < orient a1 a2 c2 := by linarith
    have f14 : orient b1 a2 c2 ≤ 0 := by linarith
    rcases lt_trichotomy (orient a1 b1 a2) 0 with hs | hs | hs
    · exfalso; linarith
    · exfalso
      have r := lin4 a1 b1 a2 c2
      linarith
    · exfalso; linarith
  · by_contra hc
    have g0 : 0 ≤ orient a1 b1 b2 := not_lt.1 hc
    have f1 : orient a1 b1 a2 ≤ 0 := by linarith
    have f2 : 0 ≤ orient a1 b1 b2 := by linarith
    have f3 : orient a1 b1 c2 < 0 := by linarith
    have f7 : 0 ≤ orient a1 a2 b2 := by linarith
    have f8 : 0 < orient a1 a2 c2 := by linarith
    have f9 : 0 ≤ orient a1 b2 c2 := by linarith
    have f14 : orient b1 a2 c2 ≤ 0 := by linarith
    have f19 : 0 < orient a2 b2 c2 := by linarith
    have s0 : orient a1 b1 a2 < 0 := by
      rcases lt_trichotomy (orient a1 b1 a2) 0 with hs | hs | hs
      · first | linarith | exact ne_of_lt hs | exact ne_of_gt hs
      · exfalso
        have r := lin4 a1 b1 a2 c2
        linarith
      · exfalso; linarith
    have s1 : 0 < orient b1 b2 c2 := by
      rcases lt_trichotomy (orient b1 b2 c2) 0 with hs | hs | hs
      · exfalso
        have r := lin4 a1 b1 b2 c2
        linarith
      · exfalso
        have r := lin4 a1 b1 b2 c2
        linarith
      · first | linarith | exact ne_of_lt hs | exact ne_of_gt hs
    have s2 : orient a1 b1 b2 = 0 := by
      rcases lt_trichotomy (orient a1 b1 b2) 0 with hs | hs | hs
      · exfalso; linarith
      · first | linarith | exact ne_of_lt hs | exact ne_of_gt hs
      · exfalso
        have r := gp_a1_b1_a2_b2_c2 a1 b1 c1 a2 b2 c2
        have t1 := mul_nonpos_of_nonpos_of_nonneg (show orient a1 b1 a2 ≤ 0 by linarith) (show 0 ≤ orient a1 b2 c2 by linarith)
        have t2 := mul_pos (show 0 < orient a1 b1 b2 by linarith) (show 0 < orient a1 a2 c2 by linarith)
        have t3 := mul_nonpos_of_nonpos_of_nonneg (show orient a1 b1 c2 ≤ 0 by linarith) (show 0 ≤ orient a1 a2 b2 by linarith)
        linarith
    have s3 : orient a1 a2 b2 = 0 := by
      rcases lt_trichotomy (orient a1 a2 b2) 0 with hs | hs | hs
      · exfalso; linarith
      · first | linarith | exact ne_of_lt hs | exact ne_of_gt hs
      · exfalso
        have r := gp_a1_b1_a2_b2_c2 a1 b1 c1 a2 b2 c2
        have t1 := mul_nonpos_of_nonpos_of_nonneg (show orient a1 b1 a2 ≤ 0 by linarith) (show 0 ≤ orient a1 b2 c2 by linarith)
        have t2 : (orient a1 b1 b2) * (orient a1 a2 c2) = 0 := by rw [show orient a1 b1 b2 = 0 by linarith]; ring
        have t3 := mul_neg_of_neg_of_pos (show orient a1 b1 c2 < 0 by linarith) (show 0 < orient a1 a2 b2 by linarith)
        linarith
    have s7 : orient b1 a2 b2 < 0 := by
      rcases lt_trichotomy (orient b1 a2 b2) 0 with hs | hs | hs
      · first | linarith | exact ne_of_lt hs | exact ne_of_gt hs
      · exfalso
        have r := gp_b1_a1_a2_b2_c2 a1 b1 c1 a2 b2 c2
        have t1 := mul_neg_of_neg_of_pos (show orient a1 b1 a2 < 0 by linarith) (show 0 < orient b1 b2 c2 by linarith)
        have t2 : (orient a1 b1 b2) * (orient b1 a2 c2) = 0 := by rw [show orient a1 b1 b2 = 0 by linarith]; ring
        have t3 : (orient a1 b1 c2) * (orient b1 a2 b2) = 0 := by rw [show orient b1 a2 b2 = 0 by linarith]; ring
        linarith
      · exfalso
        have r := gp_b1_a1_a2_b2_c2 a1 b1 c1 a2 b2 c2
        have t1 := mul_neg_of_neg_of_pos (show orient a1 b1 a2 < 0 by linarith) (show 0 < orient b1 b2 c2 by linarith)
        have t2 : (orient a1 b1 b2) * (orient b1 a2 c2) = 0 := by rw [show orient a1 b1 b2 = 0 by linarith]; ring
        have t3 := mul_neg_of_neg_of_pos (show orient a1 b1 c2 < 0 by linarith) (show 0 < orient b1 a2 b2 by linarith)
        linarith
    rcases lt_trichotomy (orient a1 b1 a2) 0 with hs | hs | hs
    · exfalso
      have r := gp_a2_a1_b1_b2_c2 a1 b1 c1 a2 b2 c2
      have t1 := mul_neg_of_neg_of_pos (show orient a1 b1 a2 < 0 by linarith) (show 0 < orient a2 b2 c2 by linarith)
      have t2 : (orient a1 a2 b2) * (orient b1 a2 c2) = 0 := by rw [show orient a1 a2 b2 = 0 by linarith]; ring
      have t3 := mul_neg_of_pos_of_neg (show 0 < orient a1 a2 c2 by linarith) (show orient b1 a2 b2 < 0 by linarith)
      linarith
    · exfalso; linarith
    · exfalso; linarith
  · by_contra hc
    have g0 : 0 ≤ orient a1 b1 c2 := not_lt.1 hc
    linarith

theorem leafE_2 {a1 b1 c1 a2 b2 c2 : Point} (h0 : 0 < orient a1 b1 c1) (h1 : 0 < orient a2 b2 c2) (h2 : 0 ≤ orient a2 b2 a1) (h3 : 0 ≤ orient b2 c2 a1) (h4 : orient c2 a2 a1 < 0) (h5 : 0 ≤ orient c2 a2 b1) (h6 : orient a1 a2 b1 < 0) (h7 : 0 ≤ orient b1 c1 a2) (h8 : 0 ≤ orient c1 a1 a2) :
    ¬Separated a1 b1 c1 a2 b2 c2 := by
  have ea1a2b1 := o_a1_a2_b1 (a1 := a1) (b1 := b1) (c1 := c1) (a2 := a2) (b2 := b2) (c2 := c2)
  have ea2b2a1 := o_a2_b2_a1 (a1 := a1) (b1 := b1) (c1 := c1) (a2 := a2) (b2 := b2) (c2 := c2)
  have eb2c2a1 := o_b2_c2_a1 (a1 := a1) (b1 := b1) (c1 := c1) (a2 := a2) (b2 := b2) (c2 := c2)
  have ec1a1a2 := o_c1_a1_a2 (a1 := a1) (b1 := b1) (c1 := c1) (a2 := a2) (b2 := b2) (c2 := c2)
  have ec2a2a1 := o_c2_a2_a1 (a1 := a1) (b1 := b1) (c1 := c1) (a2 := a2) (b2 := b2) (c2 := c2)
  have ec2a2b1 := o_c2_a2_b1 (a1 := a1) (b1 := b1) (c1 := c1) (a2 := a2) (b2 := b2) (c2 := c2)
  rintro (⟨g0, g1, g2⟩ | ⟨g0, g1, g2⟩ | ⟨g0, g1, g2⟩ | ⟨g0, g1, g2⟩ | ⟨g0, g1, g2⟩ | ⟨g0, g1, g2⟩)
  · skip
    linarith
  · skip
    linarith
  · skip
    have ec1a1b2 := o_c1_a1_b2 (a1 := a1) (b1 := b1) (c1 := c1) (a2 := a2) (b2 := b2) (c2 := c2)
    have ec1a1c2 := o_c1_a1_c2 (a1 := a1) (b1 := b1) (c1 := c1) (a2 := a2) (b2 := b2) (c2 := c2)
    linarith
  · skip
    have ea2b2b1 := o_a2_b2_b1 (a1 := a1) (b1 := b1) (c1 := c1) (a2 := a2) (b2 := b2) (c2 := c2)
    have ea2b2c1 := o_a2_b2_c1 (a1 := a1) (b1 := b1) (c1 := c1) (a2 := a2) (b2 := b2) (c2 := c2)
    linarith
  · skip
    have eb2c2b1 := o_b2_c2_b1 (a1 := a1) (b1 := b1) (c1 := c1) (a2 := a2) (b2 := b2) (c2 := c2)
    have eb2c2c1 := o_b2_c2_c1 (a1 := a1) (b1 := b1) (c1 := c1) (a2 := a2) (b2 := b2) (c2 := c2)
    linarith
  · skip
    have ec2a2c1 := o_c2_a2_c1 (a1 := a1) (b1 := b1) (c1 := c1) (a2 := a2) (b2 := b2) (c2 := c2)
    linarith

theorem leafE_3 {a1 b1 c1 a2 b2 c2 : Point} (h0 : 0 < orient a1 b1 c1) (h1 : 0 < orient a2 b2 c2) (h2 : 0 ≤ orient a2 b2 a1) (h3 : 0 ≤ orient b2 c2 a1) (h4 : orient c2 a2 a1 < 0) (h5 : 0 ≤ orient c2 a2 b1) (h6 : orient a1 a2 b1 < 0) (h7 : 0 ≤ orient b1 c1 a2) (h8 : orient c1 a1 a2 < 0) :
    Separated a1 b1 c1 a2 b2 c2 := by
  have ea1a2b1 := o_a1_a2_b1 (a1 := a1) (b1 := b1) (c1 := c1) (a2 := a2) (b2 := b2) (c2 := c2)
  have ea2b2a1 := o_a2_b2_a1 (a1 := a1) (b1 := b1) (c1 := c1) (a2 := a2) (b2 := b2) (c2 := c2)
  have eb2c2a1 := o_b2_c2_a1 (a1 := a1) (b1 := b1) (c1 := c1) (a2 := a2) (b2 := b2) (c2 := c2)
  have ec1a1a2 := o_c1_a1_a2 (a1 := a1) (b1 := b1) (c1 := c1) (a2 := a2) (b2 := b2) (c2 := c2)
  have ec2a2a1 := o_c2_a2_a1 (a1 := a1) (b1 := b1) (c1 := c1) (a2 := a2) (b2 := b2) (c2 := c2)
  have ec2a2b1 := o_c2_a2_b1 (a1 := a1) (b1 := b1) (c1 := c1) (a2 := a2) (b2 := b2) (c2 := c2)
  refine Or.inr (Or.inr (Or.inl ⟨?_, ?_, ?_⟩))
  · by_contra hc
    have g0 : 0 ≤ orient c1 a1 a2 := not_lt.1 hc
    linarith
  · by_contra hc
    have g0 : 0 ≤ orient c1 a1 b2 := not_lt.1 hc
    have ec1a1b2 := o_c1_a1_b2 (a1 := a1) (b1 := b1) (c1 := c1) (a2 := a2) (b2 := b2) (c2 := c2)
    have f0 : 0 < orient a1 b1 c1 := by linarith
    have f1 : 0 < orient a1 b1 a2 := by linarith
    have f4 : 0 < orient a1 c1 a2 := by linarith
    have f5 : orient a1 c1 b2 ≤ 0 := by linarith
    have f7 : 0 ≤ orient a1 a2 b2 := by linarith
    have f8 : 0 < orient a1 a2 c2 := by linarith
    have f9 : 0 ≤ orient a1 b2 c2 := by linarith
    have f10 : 0 ≤ orient b1 c1 a2 := by linarith
    have f14 : orient b1 a2 c2 ≤ 0 := by linarith
    have f19 : 0 < orient a2 b2 c2 := by linarith
    have s0 : 0 < orient a1 b1 c2 := by
      rcases lt_trichotomy (orient a1 b1 c2) 0 with hs | hs | hs
      · exfalso
        have r := lin4 a1 b1 a2 c2
        linarith
      · exfalso
        have r := lin4 a1 b1 a2 c2
        linarith
      · first | linarith | exact ne_of_lt hs | exact ne_of_gt hs
    have s1 : 0 < orient c1 a2 b2 := by
      rcases lt_trichotomy (orient c1 a2 b2) 0 with hs | hs | hs
      · exfalso
        have r := lin4 a1 c1 a2 b2
        linarith
      · exfalso
        have r := lin4 a1 c1 a2 b2
        linarith
      · first | linarith | exact ne_of_lt hs | exact ne_of_gt hs
    have s2 : orient a1 b1 b2 ≤ 0 := by
      rcases lt_trichotomy (orient a1 b1 b2) 0 with hs | hs | hs
      · first | linarith | exact ne_of_lt hs | exact ne_of_gt hs
      · first | linarith | exact ne_of_lt hs | exact ne_of_gt hs
      · exfalso
        have r := gp_a1_b1_c1_a2_b2 a1 b1 c1 a2 b2 c2
        have t1 := mul_nonneg (show 0 ≤ orient a1 b1 c1 by linarith) (show 0 ≤ orient a1 a2 b2 by linarith)
        have t2 := mul_nonpos_of_nonneg_of_nonpos (show 0 ≤ orient a1 b1 a2 by linarith) (show orient a1 c1 b2 ≤ 0 by linarith)
        have t3 := mul_pos (show 0 < orient a1 b1 b2 by linarith) (show 0 < orient a1 c1 a2 by linarith)
        linarith
    have s4 : orient a1 b1 b2 = 0 := by
      rcases lt_trichotomy (orient a1 b1 b2) 0 with hs | hs | hs
      · exfalso
        have r := gp_a1_b1_a2_b2_c2 a1 b1 c1 a2 b2 c2
        have t1 := mul_nonneg (show 0 ≤ orient a1 b1 a2 by linarith) (show 0 ≤ orient a1 b2 c2 by linarith)
        have t2 := mul_neg_of_neg_of_pos (show orient a1 b1 b2 < 0 by linarith) (show 0 < orient a1 a2 c2 by linarith)
        have t3 := mul_nonneg (show 0 ≤ orient a1 b1 c2 by linarith) (show 0 ≤ orient a1 a2 b2 by linarith)
        linarith
      · first | linarith | exact ne_of_lt hs | exact ne_of_gt hs
      · exfalso; linarith
    have s5 : orient a1 a2 b2 = 0 := by
      rcases lt_trichotomy (orient a1 a2 b2) 0 with hs | hs | hs
      · exfalso; linarith
      · first | linarith | exact ne_of_lt hs | exact ne_of_gt hs
      · exfalso
        have r := gp_a1_b1_a2_b2_c2 a1 b1 c1 a2 b2 c2
        have t1 := mul_nonneg (show 0 ≤ orient a1 b1 a2 by linarith) (show 0 ≤ orient a1 b2 c2 by linarith)
        have t2 : (orient a1 b1 b2) * (orient a1 a2 c2) = 0 := by rw [show orient a1 b1 b2 = 0 by linarith]; ring
        have t3 := mul_pos (show 0 < orient a1 b1 c2 by linarith) (show 0 < orient a1 a2 b2 by linarith)
        linarith
    have s10 : 0 < orient b1 a2 b2 := by
      rcases lt_trichotomy (orient b1 a2 b2) 0 with hs | hs | hs
      · exfalso
        have r := gp_a2_a1_b1_c1_b2 a1 b1 c1 a2 b2 c2
        have t1 := mul_pos (show 0 < orient a1 b1 a2 by linarith) (show 0 < orient c1 a2 b2 by linarith)
        have t2 := mul_neg_of_pos_of_neg (show 0 < orient a1 c1 a2 by linarith) (show orient b1 a2 b2 < 0 by linarith)
        have t3 : (orient a1 a2 b2) * (orient b1 c1 a2) = 0 := by rw [show orient a1 a2 b2 = 0 by linarith]; ring
        linarith
      · exfalso
        have r := gp_a2_a1_b1_c1_b2 a1 b1 c1 a2 b2 c2
        have t1 := mul_pos (show 0 < orient a1 b1 a2 by linarith) (show 0 < orient c1 a2 b2 by linarith)
        have t2 : (orient a1 c1 a2) * (orient b1 a2 b2) = 0 := by rw [show orient b1 a2 b2 = 0 by linarith]; ring
        have t3 : (orient a1 a2 b2) * (orient b1 c1 a2) = 0 := by rw [show orient a1 a2 b2 = 0 by linarith]; ring
        linarith
      · first | linarith | exact ne_of_lt hs | exact ne_of_gt hs
    rcases lt_trichotomy (orient a1 b1 a2) 0 with hs | hs | hs
    · exfalso; linarith
    · exfalso; linarith
    · exfalso
      have r := gp_a2_a1_b1_b2_c2 a1 b1 c1 a2 b2 c2
      have t1 := mul_pos (show 0 < orient a1 b1 a2 by linarith) (show 0 < orient a2 b2 c2 by linarith)
      have t2 : (orient a1 a2 b2) * (orient b1 a2 c2) = 0 := by rw [show orient a1 a2 b2 = 0 by linarith]; ring
      have t3 := mul_pos (show 0 < orient a1 a2 c2 by linarith) (show 0 < orient b1 a2 b2 by linarith)
      linarith
  · by_contra hc
    have g0 : 0 ≤ orient c1 a1 c2 := not_lt.1 hc
    have ec1a1c2 := o_c1_a1_c2 (a1 := a1) (b1 := b1) (c1 := c1) (a2 := a2) (b2 := b2) (c2 := c2)
    have f0 : 0 < orient a1 b1 c1 := by linarith
    have f1 : 0 < orient a1 b1 a2 := by linarith
    have f4 : 0 < orient a1 c1 a2 := by linarith
    have f6 : orient a1 c1 c2 ≤ 0 := by linarith
    have f8 : 0 < orient a1 a2 c2 := by linarith
    have f14 : orient b1 a2 c2 ≤ 0 := by linarith
    have s0 : 0 < orient a1 b1 c2 := by
      rcases lt_trichotomy (orient a1 b1 c2) 0 with hs | hs | hs
      · exfalso
        have r := lin4 a1 b1 a2 c2
        linarith
      · exfalso
        have r := lin4 a1 b1 a2 c2
        linarith
      · first | linarith | exact ne_of_lt hs | exact ne_of_gt hs
    rcases lt_trichotomy (orient a1 b1 c1) 0 with hs | hs | hs
    · exfalso; linarith
    · exfalso; linarith
    · exfalso
      have r := gp_a1_b1_c1_a2_c2 a1 b1 c1 a2 b2 c2
      have t1 := mul_pos (show 0 < orient a1 b1 c1 by linarith) (show 0 < orient a1 a2 c2 by linarith)
      have t2 := mul_nonpos_of_nonneg_of_nonpos (show 0 ≤ orient a1 b1 a2 by linarith) (show orient a1 c1 c2 ≤ 0 by linarith)
      have t3 := mul_pos (show 0 < orient a1 b1 c2 by linarith) (show 0 < orient a1 c1 a2 by linarith)
      linarith

theorem leafE_4 {a1 b1 c1 a2 b2 c2 : Point} (h0 : 0 < orient a1 b1 c1) (h1 : 0 < orient a2 b2 c2) (h2 : 0 ≤ orient a2 b2 a1) (h3 : 0 ≤ orient b2 c2 a1) (h4 : orient c2 a2 a1 < 0) (h5 : 0 ≤ orient c2 a2 b1) (h6 : orient a1 a2 b1 < 0) (h7 : orient b1 c1 a2 < 0) :
    Separated a1 b1 c1 a2 b2 c2 := by
  have ea1a2b1 := o_a1_a2_b1 (a1 := a1) (b1 := b1) (c1 := c1) (a2 := a2) (b2 := b2) (c2 := c2)
  have ea2b2a1 := o_a2_b2_a1 (a1 := a1) (b1 := b1) (c1 := c1) (a2 := a2) (b2 := b2) (c2 := c2)
  have eb2c2a1 := o_b2_c2_a1 (a1 := a1) (b1 := b1) (c1 := c1) (a2 := a2) (b2 := b2) (c2 := c2)
  have ec2a2a1 := o_c2_a2_a1 (a1 := a1) (b1 := b1) (c1 := c1) (a2 := a2) (b2 := b2) (c2 := c2)
  have ec2a2b1 := o_c2_a2_b1 (a1 := a1) (b1 := b1) (c1 := c1) (a2 := a2) (b2 := b2) (c2 := c2)
  refine Or.inr (Or.inl ⟨?_, ?_, ?_⟩)
  · by_contra hc
    have g0 : 0 ≤ orient b1 c1 a2 := not_lt.1 hc
    linarith
  · by_contra hc
    have g0 : 0 ≤ orient b1 c1 b2 := not_lt.1 hc
    have f0 : 0 < orient a1 b1 c1 := by linarith
    have f1 : 0 < orient a1 b1 a2 := by linarith
    have f7 : 0 ≤ orient a1 a2 b2 := by linarith
    have f8 : 0 < orient a1 a2 c2 := by linarith
    have f9 : 0 ≤ orient a1 b2 c2 := by linarith
    have f10 : orient b1 c1 a2 < 0 := by linarith
    have f11 : 0 ≤ orient b1 c1 b2 := by linarith
    have f14 : orient b1 a2 c2 ≤ 0 := by linarith
    have f19 : 0 < orient a2 b2 c2 := by linarith
    have s0 : 0 < orient a1 b1 c2 := by
      rcases lt_trichotomy (orient a1 b1 c2) 0 with hs | hs | hs
      · exfalso
        have r := lin4 a1 b1 a2 c2
        linarith
      · exfalso
        have r := lin4 a1 b1 a2 c2
        linarith
      · first | linarith | exact ne_of_lt hs | exact ne_of_gt hs
    have s1 : 0 ≤ orient a1 b1 b2 := by
      rcases lt_trichotomy (orient a1 b1 b2) 0 with hs | hs | hs
      · exfalso
        have r := gp_a1_b1_a2_b2_c2 a1 b1 c1 a2 b2 c2
        have t1 := mul_nonneg (show 0 ≤ orient a1 b1 a2 by linarith) (show 0 ≤ orient a1 b2 c2 by linarith)
        have t2 := mul_neg_of_neg_of_pos (show orient a1 b1 b2 < 0 by linarith) (show 0 < orient a1 a2 c2 by linarith)
        have t3 := mul_nonneg (show 0 ≤ orient a1 b1 c2 by linarith) (show 0 ≤ orient a1 a2 b2 by linarith)
        linarith
      · first | linarith | exact ne_of_lt hs | exact ne_of_gt hs
      · first | linarith | exact ne_of_lt hs | exact ne_of_gt hs
    have s2 : 0 ≤ orient b1 a2 b2 := by
      rcases lt_trichotomy (orient b1 a2 b2) 0 with hs | hs | hs
      · exfalso
        have r := gp_b1_a1_c1_a2_b2 a1 b1 c1 a2 b2 c2
        have t1 := mul_neg_of_pos_of_neg (show 0 < orient a1 b1 c1 by linarith) (show orient b1 a2 b2 < 0 by linarith)
        have t2 := mul_nonneg (show 0 ≤ orient a1 b1 a2 by linarith) (show 0 ≤ orient b1 c1 b2 by linarith)
        have t3 := mul_nonpos_of_nonneg_of_nonpos (show 0 ≤ orient a1 b1 b2 by linarith) (show orient b1 c1 a2 ≤ 0 by linarith)
        linarith
      · first | linarith | exact ne_of_lt hs | exact ne_of_gt hs
      · first | linarith | exact ne_of_lt hs | exact ne_of_gt hs
    rcases lt_trichotomy (orient a1 b1 a2) 0 with hs | hs | hs
    · exfalso; linarith
    · exfalso; linarith
    · exfalso
      have r := gp_a2_a1_b1_b2_c2 a1 b1 c1 a2 b2 c2
      have t1 := mul_pos (show 0 < orient a1 b1 a2 by linarith) (show 0 < orient a2 b2 c2 by linarith)
      have t2 := mul_nonpos_of_nonneg_of_nonpos (show 0 ≤ orient a1 a2 b2 by linarith) (show orient b1 a2 c2 ≤ 0 by linarith)
      have t3 := mul_nonneg (show 0 ≤ orient a1 a2 c2 by linarith) (show 0 ≤ orient b1 a2 b2 by linarith)
      linarith
  · by_contra hc
    have g0 : 0 ≤ orient b1 c1 c2 := not_lt.1 hc
    have f0 : 0 < orient a1 b1 c1 := by linarith
    have f1 : 0 < orient a1 b1 a2 := by linarith
    have f8 : 0 < orient a1 a2 c2 := by linarith
    have f10 : orient b1 c1 a2 < 0 := by linarith
    have f12 : 0 ≤ orient b1 c1 c2 := by linarith
    have f14 : orient b1 a2 c2 ≤ 0 := by linarith
    have s0 : 0 < orient a1 b1 c2 := by
      rcases lt_trichotomy (orient a1 b1 c2) 0 with hs | hs | hs
      · exfalso
        have r := lin4 a1 b1 a2 c2
        linarith
      · exfalso
        have r := lin4 a1 b1 a2 c2
        linarith
      · first | linarith | exact ne_of_lt hs | exact ne_of_gt hs
    rcases lt_trichotomy (orient a1 b1 c1) 0 with hs | hs | hs
    · exfalso; linarith
    · exfalso; linarith
    · exfalso
      have r := gp_b1_a1_c1_a2_c2 a1 b1 c1 a2 b2 c2
      have t1 := mul_nonpos_of_nonneg_of_nonpos (show 0 ≤ orient a1 b1 c1 by linarith) (show orient b1 a2 c2 ≤ 0 by linarith)
      have t2 := mul_nonneg (show 0 ≤ orient a1 b1 a2 by linarith) (show 0 ≤ orient b1 c1 c2 by linarith)
      have t3 := mul_neg_of_pos_of_neg (show 0 < orient a1 b1 c2 by linarith) (show orient b1 c1 a2 < 0 by linarith)
      linarith

theorem leafE_5 {a1 b1 c1 a2 b2 c2 : Point} (h0 : 0 < orient a1 b1 c1) (h1 : 0 < orient a2 b2 c2) (h2 : 0 ≤ orient a2 b2 a1) (h3 : 0 ≤ orient b2 c2 a1) (h4 : orient c2 a2 a1 < 0) (h5 : orient c2 a2 b1 < 0) (h6 : 0 ≤ orient c2 a2 c1) (h7 : 0 ≤ orient a1 a2 c1) (h8 : 0 ≤ orient a1 c1 c2) :
    ¬Separated a1 b1 c1 a2 b2 c2 := by
  have ea1a2c1 := o_a1_a2_c1 (a1 := a1) (b1 := b1) (c1 := c1) (a2 := a2) (b2 := b2) (c2 := c2)
  have ea2b2a1 := o_a2_b2_a1 (a1 := a1) (b1 := b1) (c1 := c1) (a2 := a2) (b2 := b2) (c2 := c2)
  have eb2c2a1 := o_b2_c2_a1 (a1 := a1) (b1 := b1) (c1 := c1) (a2 := a2) (b2 := b2) (c2 := c2)
  have ec2a2a1 := o_c2_a2_a1 (a1 := a1) (b1 := b1) (c1 := c1) (a2 := a2) (b2 := b2) (c2 := c2)
  have ec2a2b1 := o_c2_a2_b1 (a1 := a1) (b1 := b1) (c1 := c1) (a2 := a2) (b2 := b2) (c2 := c2)
  have ec2a2c1 := o_c2_a2_c1 (a1 := a1) (b1 := b1) (c1 := c1) (a2 := a2) (b2 := b2) (c2 := c2)
  rintro (⟨g0, g1, g2⟩ | ⟨g0, g1, g2⟩ | ⟨g0, g1, g2⟩ | ⟨g0, g1, g2⟩ | ⟨g0, g1, g2⟩ | ⟨g0, g1, g2⟩)
  · skip
    have f0 : 0 < orient a1 b1 c1 := by linarith
    have f1 : orient a1 b1 a2 < 0 := by linarith
    have f3 : orient a1 b1 c2 < 0 := by linarith
    have f4 : orient a1 c1 a2 ≤ 0 := by linarith
    have f6 : 0 ≤ orient a1 c1 c2 := by linarith
    have f8 : 0 < orient a1 a2 c2 := by linarith
    rcases lt_trichotomy (orient a1 b1 c1) 0 with hs | hs | hs
    · exfalso; linarith
    · exfalso; linarith
    · exfalso
      have r := gp_a1_b1_c1_a2_c2 a1 b1 c1 a2 b2 c2
      have t1 := mul_pos (show 0 < orient a1 b1 c1 by linarith) (show 0 < orient a1 a2 c2 by linarith)
      have t2 := mul_nonpos_of_nonpos_of_nonneg (show orient a1 b1 a2 ≤ 0 by linarith) (show 0 ≤ orient a1 c1 c2 by linarith)
      have t3 := mul_nonneg_of_nonpos_of_nonpos (show orient a1 b1 c2 ≤ 0 by linarith) (show orient a1 c1 a2 ≤ 0 by linarith)
      linarith
  · skip
    have f0 : 0 < orient a1 b1 c1 := by linarith
    have f4 : orient a1 c1 a2 ≤ 0 := by linarith
    have f6 : 0 ≤ orient a1 c1 c2 := by linarith
    have f8 : 0 < orient a1 a2 c2 := by linarith
    have f10 : orient b1 c1 a2 < 0 := by linarith
    have f12 : orient b1 c1 c2 < 0 := by linarith
    have f14 : 0 < orient b1 a2 c2 := by linarith
    have f17 : orient c1 a2 c2 ≤ 0 := by linarith
    have s1 : orient a1 c1 a2 = 0 := by
      rcases lt_trichotomy (orient a1 c1 a2) 0 with hs | hs | hs
      · exfalso
        have r := gp_c1_a1_b1_a2_c2 a1 b1 c1 a2 b2 c2
        have t1 := mul_nonpos_of_nonneg_of_nonpos (show 0 ≤ orient a1 b1 c1 by linarith) (show orient c1 a2 c2 ≤ 0 by linarith)
        have t2 := mul_pos_of_neg_of_neg (show orient a1 c1 a2 < 0 by linarith) (show orient b1 c1 c2 < 0 by linarith)
        have t3 := mul_nonpos_of_nonneg_of_nonpos (show 0 ≤ orient a1 c1 c2 by linarith) (show orient b1 c1 a2 ≤ 0 by linarith)
        linarith
      · first | linarith | exact ne_of_lt hs | exact ne_of_gt hs
      · exfalso; linarith
    have s2 : orient a1 c1 c2 = 0 := by
      rcases lt_trichotomy (orient a1 c1 c2) 0 with hs | hs | hs
      · exfalso; linarith
      · first | linarith | exact ne_of_lt hs | exact ne_of_gt hs
      · exfalso
        have r := gp_c1_a1_b1_a2_c2 a1 b1 c1 a2 b2 c2
        have t1 := mul_nonpos_of_nonneg_of_nonpos (show 0 ≤ orient a1 b1 c1 by linarith) (show orient c1 a2 c2 ≤ 0 by linarith)
        have t2 : (orient a1 c1 a2) * (orient b1 c1 c2) = 0 := by rw [show orient a1 c1 a2 = 0 by linarith]; ring
        have t3 := mul_neg_of_pos_of_neg (show 0 < orient a1 c1 c2 by linarith) (show orient b1 c1 a2 < 0 by linarith)
        linarith
    have s3 : orient c1 a2 c2 = 0 := by
      rcases lt_trichotomy (orient c1 a2 c2) 0 with hs | hs | hs
      · exfalso
        have r := gp_c1_a1_b1_a2_c2 a1 b1 c1 a2 b2 c2
        have t1 := mul_neg_of_pos_of_neg (show 0 < orient a1 b1 c1 by linarith) (show orient c1 a2 c2 < 0 by linarith)
        have t2 : (orient a1 c1 a2) * (orient b1 c1 c2) = 0 := by rw [show orient a1 c1 a2 = 0 by linarith]; ring
        have t3 : (orient a1 c1 c2) * (orient b1 c1 a2) = 0 := by rw [show orient a1 c1 c2 = 0 by linarith]; ring
        linarith
      · first | linarith | exact ne_of_lt hs | exact ne_of_gt hs
      · exfalso; linarith
    rcases lt_trichotomy (orient a1 b1 a2) 0 with hs | hs | hs
    · exfalso
      have r := gp_a2_a1_b1_c1_c2 a1 b1 c1 a2 b2 c2
      have t1 : (orient a1 b1 a2) * (orient c1 a2 c2) = 0 := by rw [show orient c1 a2 c2 = 0 by linarith]; ring
      have t2 : (orient a1 c1 a2) * (orient b1 a2 c2) = 0 := by rw [show orient a1 c1 a2 = 0 by linarith]; ring
      have t3 := mul_neg_of_pos_of_neg (show 0 < orient a1 a2 c2 by linarith) (show orient b1 c1 a2 < 0 by linarith)
      linarith
    · exfalso
      have r := gp_a2_a1_b1_c1_c2 a1 b1 c1 a2 b2 c2
      have t1 : (orient a1 b1 a2) * (orient c1 a2 c2) = 0 := by rw [show orient a1 b1 a2 = 0 by linarith]; ring
      have t2 : (orient a1 c1 a2) * (orient b1 a2 c2) = 0 := by rw [show orient a1 c1 a2 = 0 by linarith]; ring
      have t3 := mul_neg_of_pos_of_neg (show 0 < orient a1 a2 c2 by linarith) (show orient b1 c1 a2 < 0 by linarith)
      linarith
    · exfalso
      have r := gp_a2_a1_b1_c1_c2 a1 b1 c1 a2 b2 c2
      have t1 : (orient a1 b1 a2) * (orient c1 a2 c2) = 0 := by rw [show orient c1 a2 c2 = 0 by linarith]; ring
      have t2 : (orient a1 c1 a2) * (orient b1 a2 c2) = 0 := by rw [show orient a1 c1 a2 = 0 by linarith]; ring
      have t3 := mul_neg_of_pos_of_neg (show 0 < orient a1 a2 c2 by linarith) (show orient b1 c1 a2 < 0 by linarith)
      linarith
  · skip
    have ec1a1a2 := o_c1_a1_a2 (a1 := a1) (b1 := b1) (c1 := c1) (a2 := a2) (b2 := b2) (c2 := c2)
    have ec1a1b2 := o_c1_a1_b2 (a1 := a1) (b1 := b1) (c1 := c1) (a2 := a2) (b2 := b2) (c2 := c2)
    have ec1a1c2 := o_c1_a1_c2 (a1 := a1) (b1 := b1) (c1 := c1) (a2 := a2) (b2 := b2) (c2 := c2)
    linarith
  · skip
    have ea2b2b1 := o_a2_b2_b1 (a1 := a1) (b1 := b1) (c1 := c1) (a2 := a2) (b2 := b2) (c2 := c2)
    have ea2b2c1 := o_a2_b2_c1 (a1 := a1) (b1 := b1) (c1 := c1) (a2 := a2) (b2 := b2) (c2 := c2)
    linarith
  · skip
    have eb2c2b1 := o_b2_c2_b1 (a1 := a1) (b1 := b1) (c1 := c1) (a2 := a2) (b2 := b2) (c2 := c2)
    have eb2c2c1 := o_b2_c2_c1 (a1 := a1) (b1 := b1) (c1 := c1) (a2 := a2) (b2 := b2) (c2 := c2)
    linarith
  · skip
    linarith

theorem leafE_6 {a1 b1 c1 a2 b2 c2 : Point} (h0 : 0 < orient a1 b1 c1) (h1 : 0 < orient a2 b2 c2) (h2 : 0 ≤ orient a2 b2 a1) (h3 : 0 ≤ orient b2 c2 a1) (h4 : orient c2 a2 a1 < 0) (h5 : orient c2 a2 b1 < 0) (h6 : 0 ≤ orient c2 a2 c1) (h7 : 0 ≤ orient a1 a2 c1) (h8 : orient a1 c1 c2 < 0) (h9 : 0 ≤ orient b1 c1 c2) :
    ¬Separated a1 b1 c1 a2 b2 c2 := by
  have ea1a2c1 := o_a1_a2_c1 (a1 := a1) (b1 := b1) (c1 := c1) (a2 := a2) (b2 := b2) (c2 := c2)
  have ea2b2a1 := o_a2_b2_a1 (a1 := a1) (b1 := b1) (c1 := c1) (a2 := a2) (b2 := b2) (c2 := c2)
  have eb2c2a1 := o_b2_c2_a1 (a1 := a1) (b1 := b1) (c1 := c1) (a2 := a2) (b2 := b2) (c2 := c2)
  have ec2a2a1 := o_c2_a2_a1 (a1 := a1) (b1 := b1) (c1 := c1) (a2 := a2) (b2 := b2) (c2 := c2)
  have ec2a2b1 := o_c2_a2_b1 (a1 := a1) (b1 := b1) (c1 := c1) (a2 := a2) (b2 := b2) (c2 := c2)
  have ec2a2c1 := o_c2_a2_c1 (a1 := a1) (b1 := b1) (c1 := c1) (a2 := a2) (b2 := b2) (c2 := c2)
  rintro (⟨g0, g1, g2⟩ | ⟨g0, g1, g2⟩ | ⟨g0, g1, g2⟩ | ⟨g0, g1, g2⟩ | ⟨g0, g1, g2⟩ | ⟨g0, g1, g2⟩)
  · skip
    have f0 : 0 < orient a1 b1 c1 := by linarith
    have f1 : orient a1 b1 a2 < 0 := by linarith
    have f3 : orient a1 b1 c2 < 0 := by linarith
    have f4 : orient a1 c1 a2 ≤ 0 := by linarith
    have f6 : orient a1 c1 c2 < 0 := by linarith
    have f8 : 0 < orient a1 a2 c2 := by linarith
    have f12 : 0 ≤ orient b1 c1 c2 := by linarith
    have f14 : 0 < orient b1 a2 c2 := by linarith
    have f17 : orient c1 a2 c2 ≤ 0 := by linarith
    have s0 : orient a1 c1 a2 < 0 := by
      rcases lt_trichotomy (orient a1 c1 a2) 0 with hs | hs | hs
      · first | linarith | exact ne_of_lt hs | exact ne_of_gt hs
      · exfalso
        have r := lin4 a1 c1 a2 c2
        linarith
      · exfalso; linarith
    have s2 : 0 < orient b1 c1 a2 := by
      rcases lt_trichotomy (orient b1 c1 a2) 0 with hs | hs | hs
      · exfalso
        have r := gp_b1_a1_c1_a2_c2 a1 b1 c1 a2 b2 c2
        have t1 := mul_pos (show 0 < orient a1 b1 c1 by linarith) (show 0 < orient b1 a2 c2 by linarith)
        have t2 := mul_nonpos_of_nonpos_of_nonneg (show orient a1 b1 a2 ≤ 0 by linarith) (show 0 ≤ orient b1 c1 c2 by linarith)
        have t3 := mul_pos_of_neg_of_neg (show orient a1 b1 c2 < 0 by linarith) (show orient b1 c1 a2 < 0 by linarith)
        linarith
      · exfalso
        have r := gp_b1_a1_c1_a2_c2 a1 b1 c1 a2 b2 c2
        have t1 := mul_pos (show 0 < orient a1 b1 c1 by linarith) (show 0 < orient b1 a2 c2 by linarith)
        have t2 := mul_nonpos_of_nonpos_of_nonneg (show orient a1 b1 a2 ≤ 0 by linarith) (show 0 ≤ orient b1 c1 c2 by linarith)
        have t3 : (orient a1 b1 c2) * (orient b1 c1 a2) = 0 := by rw [show orient b1 c1 a2 = 0 by linarith]; ring
        linarith
      · first | linarith | exact ne_of_lt hs | exact ne_of_gt hs
    rcases lt_trichotomy (orient a1 b1 a2) 0 with hs | hs | hs
    · exfalso
      have r := gp_a2_a1_b1_c1_c2 a1 b1 c1 a2 b2 c2
      have t1 := mul_nonneg_of_nonpos_of_nonpos (show orient a1 b1 a2 ≤ 0 by linarith) (show orient c1 a2 c2 ≤ 0 by linarith)
      have t2 := mul_neg_of_neg_of_pos (show orient a1 c1 a2 < 0 by linarith) (show 0 < orient b1 a2 c2 by linarith)
      have t3 := mul_pos (show 0 < orient a1 a2 c2 by linarith) (show 0 < orient b1 c1 a2 by linarith)
      linarith
    · exfalso; linarith
    · exfalso; linarith
  · skip
    linarith
  · skip
    have ec1a1a2 := o_c1_a1_a2 (a1 := a1) (b1 := b1) (c1 := c1) (a2 := a2) (b2 := b2) (c2 := c2)
    have ec1a1b2 := o_c1_a1_b2 (a1 := a1) (b1 := b1) (c1 := c1) (a2 := a2) (b2 := b2) (c2 := c2)
    have ec1a1c2 := o_c1_a1_c2 (a1 := a1) (b1 := b1) (c1 := c1) (a2 := a2) (b2 := b2) (c2 := c2)
    linarith
  · skip
    have ea2b2b1 := o_a2_b2_b1 (a1 := a1) (b1 := b1) (c1 := c1) (a2 := a2) (b2 := b2) (c2 := c2)
    have ea2b2c1 := o_a2_b2_c1 (a1 := a1) (b1 := b1) (c1 := c1) (a2 := a2) (b2 := b2) (c2 := c2)
    linarith
  · skip
    have eb2c2b1 := o_b2_c2_b1 (a1 := a1) (b1 := b1) (c1 := c1) (a2 := a2) (b2 := b2) (c2 := c2)
    have eb2c2c1 := o_b2_c2_c1 (a1 := a1) (b1 := b1) (c1 := c1) (a2 := a2) (b2 := b2) (c2 := c2)
    linarith
  · skip
    linarith

theorem leafE_7 {a1 b1 c1 a2 b2 c2 : Point} (h0 : 0 < orient a1 b1 c1) (h1 : 0 < orient a2 b2 c2) (h2 : 0 ≤ orient a2 b2 a1) (h3 : 0 ≤ orient b2 c2 a1) (h4 : orient c2 a2 a1 < 0) (h5 : orient c2 a2 b1 < 0) (h6 : 0 ≤ orient c2 a2 c1) (h7 : 0 ≤ orient a1 a2 c1) (h8 : orient a1 c1 c2 < 0) (h9 : orient b1 c1 c2 < 0) :
    Separated a1 b1 c1 a2 b2 c2 := by
  have ea1a2c1 := o_a1_a2_c1 (a1 := a1) (b1 := b1) (c1 := c1) (a2 := a2) (b2 := b2) (c2 := c2)
  have ea2b2a1 := o_a2_b2_a1 (a1 := a1) (b1 := b1) (c1 := c1) (a2 := a2) (b2 := b2) (c2 := c2)
  have eb2c2a1 := o_b2_c2_a1 (a1 := a1) (b1 := b1) (c1 := c1) (a2 := a2) (b2 := b2) (c2 := c2)
  have ec2a2a1 := o_c2_a2_a1 (a1 := a1) (b1 := b1) (c1 := c1) (a2 := a2) (b2 := b2) (c2 := c2)
  have ec2a2b1 := o_c2_a2_b1 (a1 := a1) (b1 := b1) (c1 := c1) (a2 := a2) (b2 := b2) (c2 := c2)
  have ec2a2c1 := o_c2_a2_c1 (a1 := a1) (b1 := b1) (c1 := c1) (a2 := a2) (b2 := b2) (c2 := c2)
  refine Or.inr (Or.inl ⟨?_, ?_, ?_⟩)
  · by_contra hc
    have g0 : 0 ≤ orient b1 c1 a2 := not_lt.1 hc
    have f10 : 0 ≤ orient b1 c1 a2 := by linarith
    have f12 : orient b1 c1 c2 < 0 := by linarith
    have f14 : 0 < orient b1 a2 c2 := by linarith
    have f17 : orient c1 a2 c2 ≤ 0 := by linarith
    rcases lt_trichotomy (orient b1 c1 a2) 0 with hs | hs | hs
    · exfalso; linarith
    · exfalso
      have r := lin4 b1 c1 a2 c2
      linarith
    · exfalso
      have r := lin4 b1 c1 a2 c2
      linarith
  · by_contra hc
    have g0 : 0 ≤ orient b1 c1 b2 := not_lt.1 hc
    have f0 : 0 < orient a1 b1 c1 := by linarith
    have f4 : orient a1 c1 a2 ≤ 0 := by linarith
    have f6 : orient a1 c1 c2 < 0 := by linarith
    have f7 : 0 ≤ orient a1 a2 b2 := by linarith
    have f8 : 0 < orient a1 a2 c2 := by linarith
    have f9 : 0 ≤ orient a1 b2 c2 := by linarith
    have f11 : 0 ≤ orient b1 c1 b2 := by linarith
    have f12 : orient b1 c1 c2 < 0 := by linarith
    have f14 : 0 < orient b1 a2 c2 := by linarith
    have f17 : orient c1 a2 c2 ≤ 0 := by linarith
    have f19 : 0 < orient a2 b2 c2 := by linarith
    have s0 : orient a1 c1 a2 < 0 := by
      rcases lt_trichotomy (orient a1 c1 a2) 0 with hs | hs | hs
      · first | linarith | exact ne_of_lt hs | exact ne_of_gt hs
      · exfalso
        have r := lin4 a1 c1 a2 c2
        linarith
      · exfalso; linarith
    have s1 : orient b1 c1 a2 < 0 := by
      rcases lt_trichotomy (orient b1 c1 a2) 0 with hs | hs | hs
      · first | linarith | exact ne_of_lt hs | exact ne_of_gt hs
      · exfalso
        have r := lin4 b1 c1 a2 c2
        linarith
      · exfalso
        have r := lin4 b1 c1 a2 c2
        linarith
    have s2 : orient a1 c1 b2 ≤ 0 := by
      rcases lt_trichotomy (orient a1 c1 b2) 0 with hs | hs | hs
      · first | linarith | exact ne_of_lt hs | exact ne_of_gt hs
      · first | linarith | exact ne_of_lt hs | exact ne_of_gt hs
      · exfalso
        have r := gp_a1_c1_a2_b2_c2 a1 b1 c1 a2 b2 c2
        have t1 := mul_nonpos_of_nonpos_of_nonneg (show orient a1 c1 a2 ≤ 0 by linarith) (show 0 ≤ orient a1 b2 c2 by linarith)
        have t2 := mul_pos (show 0 < orient a1 c1 b2 by linarith) (show 0 < orient a1 a2 c2 by linarith)
        have t3 := mul_nonpos_of_nonpos_of_nonneg (show orient a1 c1 c2 ≤ 0 by linarith) (show 0 ≤ orient a1 a2 b2 by linarith)
        linarith
    have s3 : orient c1 a2 b2 ≤ 0 := by
      rcases lt_trichotomy (orient c1 a2 b2) 0 with hs | hs | hs
      · first | linarith | exact ne_of_lt hs | exact ne_of_gt hs
      · first | linarith | exact ne_of_lt hs | exact ne_of_gt hs
      · exfalso
        have r := gp_c1_a1_b1_a2_b2 a1 b1 c1 a2 b2 c2
        have t1 := mul_pos (show 0 < orient a1 b1 c1 by linarith) (show 0 < orient c1 a2 b2 by linarith)
        have t2 := mul_nonpos_of_nonpos_of_nonneg (show orient a1 c1 a2 ≤ 0 by linarith) (show 0 ≤ orient b1 c1 b2 by linarith)
        have t3 := mul_nonneg_of_nonpos_of_nonpos (show orient a1 c1 b2 ≤ 0 by linarith) (show orient b1 c1 a2 ≤ 0 by linarith)
        linarith
    have s4 : 0 ≤ orient c1 b2 c2 := by
      rcases lt_trichotomy (orient c1 b2 c2) 0 with hs | hs | hs
      · exfalso
        have r := gp_c1_a1_b1_b2_c2 a1 b1 c1 a2 b2 c2
        have t1 := mul_neg_of_pos_of_neg (show 0 < orient a1 b1 c1 by linarith) (show orient c1 b2 c2 < 0 by linarith)
        have t2 := mul_nonneg_of_nonpos_of_nonpos (show orient a1 c1 b2 ≤ 0 by linarith) (show orient b1 c1 c2 ≤ 0 by linarith)
        have t3 := mul_nonpos_of_nonpos_of_nonneg (show orient a1 c1 c2 ≤ 0 by linarith) (show 0 ≤ orient b1 c1 b2 by linarith)
        linarith
      · first | linarith | exact ne_of_lt hs | exact ne_of_gt hs
      · first | linarith | exact ne_of_lt hs | exact ne_of_gt hs
    have s5 : 0 < orient a1 a2 b2 := by
      rcases lt_trichotomy (orient a1 a2 b2) 0 with hs | hs | hs
      · exfalso; linarith
      · exfalso
        have r := gp_a2_a1_c1_b2_c2 a1 b1 c1 a2 b2 c2
        have t1 := mul_neg_of_neg_of_pos (show orient a1 c1 a2 < 0 by linarith) (show 0 < orient a2 b2 c2 by linarith)
        have t2 : (orient a1 a2 b2) * (orient c1 a2 c2) = 0 := by rw [show orient a1 a2 b2 = 0 by linarith]; ring
        have t3 := mul_nonpos_of_nonneg_of_nonpos (show 0 ≤ orient a1 a2 c2 by linarith) (show orient c1 a2 b2 ≤ 0 by linarith)
        linarith
      · first | linarith | exact ne_of_lt hs | exact ne_of_gt hs
    have s6 : orient c1 a2 c2 < 0 := by
      rcases lt_trichotomy (orient c1 a2 c2) 0 with hs | hs | hs
      · first | linarith | exact ne_of_lt hs | exact ne_of_gt hs
      · exfalso
        have r := gp_a2_a1_c1_b2_c2 a1 b1 c1 a2 b2 c2
        have t1 := mul_neg_of_neg_of_pos (show orient a1 c1 a2 < 0 by linarith) (show 0 < orient a2 b2 c2 by linarith)
        have t2 : (orient a1 a2 b2) * (orient c1 a2 c2) = 0 := by rw [show orient c1 a2 c2 = 0 by linarith]; ring
        have t3 := mul_nonpos_of_nonneg_of_nonpos (show 0 ≤ orient a1 a2 c2 by linarith) (show orient c1 a2 b2 ≤ 0 by linarith)
        linarith
      · exfalso; linarith
    have s8 : orient a1 c1 b2 = 0 := by
      rcases lt_trichotomy (orient a1 c1 b2) 0 with hs | hs | hs
      · exfalso
        have r := gp_b2_a1_c1_a2_c2 a1 b1 c1 a2 b2 c2
        have t1 := mul_neg_of_neg_of_pos (show orient a1 c1 b2 < 0 by linarith) (show 0 < orient a2 b2 c2 by linarith)
        have t2 := mul_nonneg (show 0 ≤ orient a1 a2 b2 by linarith) (show 0 ≤ orient c1 b2 c2 by linarith)
        have t3 := mul_nonpos_of_nonneg_of_nonpos (show 0 ≤ orient a1 b2 c2 by linarith) (show orient c1 a2 b2 ≤ 0 by linarith)
        linarith
      · first | linarith | exact ne_of_lt hs | exact ne_of_gt hs
      · exfalso; linarith
    have s9 : orient c1 b2 c2 = 0 := by
      rcases lt_trichotomy (orient c1 b2 c2) 0 with hs | hs | hs
      · exfalso; linarith
      · first | linarith | exact ne_of_lt hs | exact ne_of_gt hs
      · exfalso
        have r := gp_b2_a1_c1_a2_c2 a1 b1 c1 a2 b2 c2
        have t1 : (orient a1 c1 b2) * (orient a2 b2 c2) = 0 := by rw [show orient a1 c1 b2 = 0 by linarith]; ring
        have t2 := mul_pos (show 0 < orient a1 a2 b2 by linarith) (show 0 < orient c1 b2 c2 by linarith)
        have t3 := mul_nonpos_of_nonneg_of_nonpos (show 0 ≤ orient a1 b2 c2 by linarith) (show orient c1 a2 b2 ≤ 0 by linarith)
        linarith
    rcases lt_trichotomy (orient a1 c1 c2) 0 with hs | hs | hs
    · exfalso
      have r := gp_c2_a1_c1_a2_b2 a1 b1 c1 a2 b2 c2
      have t1 := mul_neg_of_neg_of_pos (show orient a1 c1 c2 < 0 by linarith) (show 0 < orient a2 b2 c2 by linarith)
      have t2 : (orient a1 a2 c2) * (orient c1 b2 c2) = 0 := by rw [show orient c1 b2 c2 = 0 by linarith]; ring
      have t3 := mul_nonpos_of_nonneg_of_nonpos (show 0 ≤ orient a1 b2 c2 by linarith) (show orient c1 a2 c2 ≤ 0 by linarith)
      linarith
    · exfalso; linarith
    · exfalso; linarith
  · by_contra hc
    have g0 : 0 ≤ orient b1 c1 c2 := not_lt.1 hc
    linarith

theorem leafE_8 {a1 b1 c1 a2 b2 c2 : Point} (h0 : 0 < orient a1 b1 c1) (h1 : 0 < orient a2 b2 c2) (h2 : 0 ≤ orient a2 b2 a1) (h3 : 0 ≤ orient b2 c2 a1) (h4 : orient c2 a2 a1 < 0) (h5 : orient c2 a2 b1 < 0) (h6 : 0 ≤ orient c2 a2 c1) (h7 : orient a1 a2 c1 < 0) :
    Separated a1 b1 c1 a2 b2 c2 := by
  have ea1a2c1 := o_a1_a2_c1 (a1 := a1) (b1 := b1) (c1 := c1) (a2 := a2) (b2 := b2) (c2 := c2)
  have ea2b2a1 := o_a2_b2_a1 (a1 := a1) (b1 := b1) (c1 := c1) (a2 := a2) (b2 := b2) (c2 := c2)
  have eb2c2a1 := o_b2_c2_a1 (a1 := a1) (b1 := b1) (c1 := c1) (a2 := a2) (b2 := b2) (c2 := c2)
  have ec2a2a1 := o_c2_a2_a1 (a1 := a1) (b1 := b1) (c1 := c1) (a2 := a2) (b2 := b2) (c2 := c2)
  have ec2a2b1 := o_c2_a2_b1 (a1 := a1) (b1 := b1) (c1 := c1) (a2 := a2) (b2 := b2) (c2 := c2)
  have ec2a2c1 := o_c2_a2_c1 (a1 := a1) (b1 := b1) (c1 := c1) (a2 := a2) (b2 := b2) (c2 := c2)
  refine Or.inr (Or.inr (Or.inl ⟨?_, ?_, ?_⟩))
  · by_contra hc
    have g0 : 0 ≤ orient c1 a1 a2 := not_lt.1 hc
    have ec1a1a2 := o_c1_a1_a2 (a1 := a1) (b1 := b1) (c1 := c1) (a2 := a2) (b2 := b2) (c2 := c2)
    linarith
  · by_contra hc
    have g0 : 0 ≤ orient c1 a1 b2 := not_lt.1 hc
    have ec1a1b2 := o_c1_a1_b2 (a1 := a1) (b1 := b1) (c1 := c1) (a2 := a2) (b2 := b2) (c2 := c2)
    have f4 : 0 < orient a1 c1 a2 := by linarith
    have f5 : orient a1 c1 b2 ≤ 0 := by linarith
    have f7 : 0 ≤ orient a1 a2 b2 := by linarith
    have f8 : 0 < orient a1 a2 c2 := by linarith
    have f9 : 0 ≤ orient a1 b2 c2 := by linarith
    have f17 : orient c1 a2 c2 ≤ 0 := by linarith
    have f19 : 0 < orient a2 b2 c2 := by linarith
    have s0 : 0 < orient c1 a2 b2 := by
      rcases lt_trichotomy (orient c1 a2 b2) 0 with hs | hs | hs
      · exfalso
        have r := lin4 a1 c1 a2 b2
        linarith
      · exfalso
        have r := lin4 a1 c1 a2 b2
        linarith
      · first | linarith | exact ne_of_lt hs | exact ne_of_gt hs
    have s1 : 0 < orient a1 c1 c2 := by
      rcases lt_trichotomy (orient a1 c1 c2) 0 with hs | hs | hs
      · exfalso
        have r := lin4 a1 c1 a2 c2
        linarith
      · exfalso
        have r := lin4 a1 c1 a2 c2
        linarith
      · first | linarith | exact ne_of_lt hs | exact ne_of_gt hs
    have s2 : orient a1 c1 b2 = 0 := by
      rcases lt_trichotomy (orient a1 c1 b2) 0 with hs | hs | hs
      · exfalso
        have r := gp_a1_c1_a2_b2_c2 a1 b1 c1 a2 b2 c2
        have t1 := mul_nonneg (show 0 ≤ orient a1 c1 a2 by linarith) (show 0 ≤ orient a1 b2 c2 by linarith)
        have t2 := mul_neg_of_neg_of_pos (show orient a1 c1 b2 < 0 by linarith) (show 0 < orient a1 a2 c2 by linarith)
        have t3 := mul_nonneg (show 0 ≤ orient a1 c1 c2 by linarith) (show 0 ≤ orient a1 a2 b2 by linarith)
        linarith
      · first | linarith | exact ne_of_lt hs | exact ne_of_gt hs
      · exfalso; linarith
    have s3 : orient a1 a2 b2 = 0 := by
      rcases lt_trichotomy (orient a1 a2 b2) 0 with hs | hs | hs
      · exfalso; linarith
      · first | linarith | exact ne_of_lt hs | exact ne_of_gt hs
      · exfalso
        have r := gp_a1_c1_a2_b2_c2 a1 b1 c1 a2 b2 c2
        have t1 := mul_nonneg (show 0 ≤ orient a1 c1 a2 by linarith) (show 0 ≤ orient a1 b2 c2 by linarith)
        have t2 : (orient a1 c1 b2) * (orient a1 a2 c2) = 0 := by rw [show orient a1 c1 b2 = 0 by linarith]; ring
        have t3 := mul_pos (show 0 < orient a1 c1 c2 by linarith) (show 0 < orient a1 a2 b2 by linarith)
        linarith
    rcases lt_trichotomy (orient a1 c1 a2) 0 with hs | hs | hs
    · exfalso; linarith
    · exfalso; linarith
    · exfalso
      have r := gp_a2_a1_c1_b2_c2 a1 b1 c1 a2 b2 c2
      have t1 := mul_pos (show 0 < orient a1 c1 a2 by linarith) (show 0 < orient a2 b2 c2 by linarith)
      have t2 : (orient a1 a2 b2) * (orient c1 a2 c2) = 0 := by rw [show orient a1 a2 b2 = 0 by linarith]; ring
      have t3 := mul_pos (show 0 < orient a1 a2 c2 by linarith) (show 0 < orient c1 a2 b2 by linarith)
      linarith
  · by_contra hc
    have g0 : 0 ≤ orient c1 a1 c2 := not_lt.1 hc
    have ec1a1c2 := o_c1_a1_c2 (a1 := a1) (b1 := b1) (c1 := c1) (a2 := a2) (b2 := b2) (c2 := c2)
    have f4 : 0 < orient a1 c1 a2 := by linarith
    have f6 : orient a1 c1 c2 ≤ 0 := by linarith
    have f8 : 0 < orient a1 a2 c2 := by linarith
    have f17 : orient c1 a2 c2 ≤ 0 := by linarith
    rcases lt_trichotomy (orient a1 c1 a2) 0 with hs | hs | hs
    · exfalso; linarith
    · exfalso; linarith
    · exfalso
      have r := lin4 a1 c1 a2 c2
      linarith

theorem leafE_9 {a1 b1 c1 a2 b2 c2 : Point} (h0 : 0 < orient a1 b1 c1) (h1 : 0 < orient a2 b2 c2) (h2 : 0 ≤ orient a2 b2 a1) (h3 : 0 ≤ orient b2 c2 a1) (h4 : orient c2 a2 a1 < 0) (h5 : orient c2 a2 b1 < 0) (h6 : orient c2 a2 c1 < 0) :
    Separated a1 b1 c1 a2 b2 c2 := by
  have ea2b2a1 := o_a2_b2_a1 (a1 := a1) (b1 := b1) (c1 := c1) (a2 := a2) (b2 := b2) (c2 := c2)
  have eb2c2a1 := o_b2_c2_a1 (a1 := a1) (b1 := b1) (c1 := c1) (a2 := a2) (b2 := b2) (c2 := c2)
  have ec2a2a1 := o_c2_a2_a1 (a1 := a1) (b1 := b1) (c1 := c1) (a2 := a2) (b2 := b2) (c2 := c2)
  have ec2a2b1 := o_c2_a2_b1 (a1 := a1) (b1 := b1) (c1 := c1) (a2 := a2) (b2 := b2) (c2 := c2)
  have ec2a2c1 := o_c2_a2_c1 (a1 := a1) (b1 := b1) (c1 := c1) (a2 := a2) (b2 := b2) (c2 := c2)
  refine Or.inr (Or.inr (Or.inr (Or.inr (Or.inr (⟨?_, ?_, ?_⟩)))))
  · by_contra hc
    have g0 : 0 ≤ orient c2 a2 a1 := not_lt.1 hc
    linarith
  · by_contra hc
    have g0 : 0 ≤ orient c2 a2 b1 := not_lt.1 hc
    linarith
  · by_contra hc
    have g0 : 0 ≤ orient c2 a2 c1 := not_lt.1 hc
    linarith

theorem leafV_0 {a1 b1 c1 a2 b2 c2 : Point} (h0 : 0 < orient a1 b1 c1) (h1 : 0 < orient a2 b2 c2) (h2 : 0 ≤ orient a2 b2 a1) (h3 : orient b2 c2 a1 < 0) (h4 : orient c2 a2 a1 < 0) (h5 : 0 ≤ orient c2 a2 b1) (h6 : orient c2 b2 b1 ≤ 0) (h7 : 0 < orient a1 a2 b1) (h8 : orient a1 b2 b1 ≤ 0) :
    ¬Separated a1 b1 c1 a2 b2 c2 := by
  have ea1a2b1 := o_a1_a2_b1 (a1 := a1) (b1 := b1) (c1 := c1) (a2 := a2) (b2 := b2) (c2 := c2)
  have ea1b2b1 := o_a1_b2_b1 (a1 := a1) (b1 := b1) (c1 := c1) (a2 := a2) (b2 := b2) (c2 := c2)
  have ea2b2a1 := o_a2_b2_a1 (a1 := a1) (b1 := b1) (c1 := c1) (a2 := a2) (b2 := b2) (c2 := c2)
  have eb2c2a1 := o_b2_c2_a1 (a1 := a1) (b1 := b1) (c1 := c1) (a2 := a2) (b2 := b2) (c2 := c2)
  have ec2a2a1 := o_c2_a2_a1 (a1 := a1) (b1 := b1) (c1 := c1) (a2 := a2) (b2 := b2) (c2 := c2)
  have ec2a2b1 := o_c2_a2_b1 (a1 := a1) (b1 := b1) (c1 := c1) (a2 := a2) (b2 := b2) (c2 := c2)
  have ec2b2b1 := o_c2_b2_b1 (a1 := a1) (b1 := b1) (c1 := c1) (a2 := a2) (b2 := b2) (c2 := c2)
  rintro (⟨g0, g1, g2⟩ | ⟨g0, g1, g2⟩ | ⟨g0, g1, g2⟩ | ⟨g0, g1, g2⟩ | ⟨g0, g1, g2⟩ | ⟨g0, g1, g2⟩)
  · skip
    linarith
  · skip
    have f0 : 0 < orient a1 b1 c1 := by linarith
    have f1 : orient a1 b1 a2 < 0 := by linarith
    have f2 : 0 ≤ orient a1 b1 b2 := by linarith
    have f10 : orient b1 c1 a2 < 0 := by linarith
    have f11 : orient b1 c1 b2 < 0 := by linarith
    have f12 : orient b1 c1 c2 < 0 := by linarith
    have f14 : orient b1 a2 c2 ≤ 0 := by linarith
    have f15 : 0 ≤ orient b1 b2 c2 := by linarith
    have s3 : orient a1 b1 c2 < 0 := by
      rcases lt_trichotomy (orient a1 b1 c2) 0 with hs | hs | hs
      · first | linarith | exact ne_of_lt hs | exact ne_of_gt hs
      · exfalso
        have r := gp_b1_a1_c1_a2_c2 a1 b1 c1 a2 b2 c2
        have t1 := mul_nonpos_of_nonneg_of_nonpos (show 0 ≤ orient a1 b1 c1 by linarith) (show orient b1 a2 c2 ≤ 0 by linarith)
        have t2 := mul_pos_of_neg_of_neg (show orient a1 b1 a2 < 0 by linarith) (show orient b1 c1 c2 < 0 by linarith)
        have t3 : (orient a1 b1 c2) * (orient b1 c1 a2) = 0 := by rw [show orient a1 b1 c2 = 0 by linarith]; ring
        linarith
      · exfalso
        have r := gp_b1_a1_c1_a2_c2 a1 b1 c1 a2 b2 c2
        have t1 := mul_nonpos_of_nonneg_of_nonpos (show 0 ≤ orient a1 b1 c1 by linarith) (show orient b1 a2 c2 ≤ 0 by linarith)
        have t2 := mul_pos_of_neg_of_neg (show orient a1 b1 a2 < 0 by linarith) (show orient b1 c1 c2 < 0 by linarith)
        have t3 := mul_neg_of_pos_of_neg (show 0 < orient a1 b1 c2 by linarith) (show orient b1 c1 a2 < 0 by linarith)
        linarith
    rcases lt_trichotomy (orient a1 b1 c1) 0 with hs | hs | hs
    · exfalso; linarith
    · exfalso; linarith
    · exfalso
      have r := gp_b1_a1_c1_b2_c2 a1 b1 c1 a2 b2 c2
      have t1 := mul_nonneg (show 0 ≤ orient a1 b1 c1 by linarith) (show 0 ≤ orient b1 b2 c2 by linarith)
      have t2 := mul_nonpos_of_nonneg_of_nonpos (show 0 ≤ orient a1 b1 b2 by linarith) (show orient b1 c1 c2 ≤ 0 by linarith)
      have t3 := mul_pos_of_neg_of_neg (show orient a1 b1 c2 < 0 by linarith) (show orient b1 c1 b2 < 0 by linarith)
      linarith
  · skip
    have ec1a1a2 := o_c1_a1_a2 (a1 := a1) (b1 := b1) (c1 := c1) (a2 := a2) (b2 := b2) (c2 := c2)
    have ec1a1b2 := o_c1_a1_b2 (a1 := a1) (b1 := b1) (c1 := c1) (a2 := a2) (b2 := b2) (c2 := c2)
    have ec1a1c2 := o_c1_a1_c2 (a1 := a1) (b1 := b1) (c1 := c1) (a2 := a2) (b2 := b2) (c2 := c2)
    have f0 : 0 < orient a1 b1 c1 := by linarith
    have f1 : orient a1 b1 a2 < 0 := by linarith
    have f2 : 0 ≤ orient a1 b1 b2 := by linarith
    have f4 : 0 < orient a1 c1 a2 := by linarith
    have f5 : 0 < orient a1 c1 b2 := by linarith
    have f7 : 0 ≤ orient a1 a2 b2 := by linarith
    have f8 : 0 < orient a1 a2 c2 := by linarith
    have f9 : orient a1 b2 c2 < 0 := by linarith
    have f19 : 0 < orient a2 b2 c2 := by linarith
    have s1 : 0 < orient a1 a2 b2 := by
      rcases lt_trichotomy (orient a1 a2 b2) 0 with hs | hs | hs
      · exfalso; linarith
      · exfalso
        have r := lin4 a1 a2 b2 c2
        linarith
      · first | linarith | exact ne_of_lt hs | exact ne_of_gt hs
    rcases lt_trichotomy (orient a1 b1 c1) 0 with hs | hs | hs
    · exfalso; linarith
    · exfalso; linarith
    · exfalso
      have r := gp_a1_b1_c1_a2_b2 a1 b1 c1 a2 b2 c2
      have t1 := mul_pos (show 0 < orient a1 b1 c1 by linarith) (show 0 < orient a1 a2 b2 by linarith)
      have t2 := mul_neg_of_neg_of_pos (show orient a1 b1 a2 < 0 by linarith) (show 0 < orient a1 c1 b2 by linarith)
      have t3 := mul_nonneg (show 0 ≤ orient a1 b1 b2 by linarith) (show 0 ≤ orient a1 c1 a2 by linarith)
      linarith
  · skip
    have ea2b2b1 := o_a2_b2_b1 (a1 := a1) (b1 := b1) (c1 := c1) (a2 := a2) (b2 := b2) (c2 := c2)
    have ea2b2c1 := o_a2_b2_c1 (a1 := a1) (b1 := b1) (c1 := c1) (a2 := a2) (b2 := b2) (c2 := c2)
    linarith
  · skip
    have eb2c2b1 := o_b2_c2_b1 (a1 := a1) (b1 := b1) (c1 := c1) (a2 := a2) (b2 := b2) (c2 := c2)
    have eb2c2c1 := o_b2_c2_c1 (a1 := a1) (b1 := b1) (c1 := c1) (a2 := a2) (b2 := b2) (c2 := c2)
    linarith
  · skip
    have ec2a2c1 := o_c2_a2_c1 (a1 := a1) (b1 := b1) (c1 := c1) (a2 := a2) (b2 := b2) (c2 := c2)
    linarith

theorem leafV_1 {a1 b1 c1 a2 b2 c2 : Point} (h0 : 0 < orient a1 b1 c1) (h1 : 0 < orient a2 b2 c2) (h2 : 0 ≤ orient a2 b2 a1) (h3 : orient b2 c2 a1 < 0) (h4 : orient c2 a2 a1 < 0) (h5 : 0 ≤ orient c2 a2 b1) (h6 : orient c2 b2 b1 ≤ 0) (h7 : 0 < orient a1 a2 b1) (h8 : 0 < orient a1 b2 b1) :
    Separated a1 b1 c1 a2 b2 c2 := by
  have ea1a2b1 := o_a1_a2_b1 (a1 := a1) (b1 := b1) (c1 := c1) (a2 := a2) (b2 := b2) (c2 := c2)
  have ea1b2b1 := o_a1_b2_b1 (a1 := a1) (b1 := b1) (c1 := c1) (a2 := a2) (b2 := b2) (c2 := c2)
  have ea2b2a1 := o_a2_b2_a1 (a1 := a1) (b1 := b1) (c1 := c1) (a2 := a2) (b2 := b2) (c2 := c2)
  have eb2c2a1 := o_b2_c2_a1 (a1 := a1) (b1 := b1) (c1 := c1) (a2 := a2) (b2 := b2) (c2 := c2)
  have ec2a2a1 := o_c2_a2_a1 (a1 := a1) (b1 := b1) (c1 := c1) (a2 := a2) (b2 := b2) (c2 := c2)
  have ec2a2b1 := o_c2_a2_b1 (a1 := a1) (b1 := b1) (c1 := c1) (a2 := a2) (b2 := b2) (c2 := c2)
  have ec2b2b1 := o_c2_b2_b1 (a1 := a1) (b1 := b1) (c1 := c1) (a2 := a2) (b2 := b2) (c2 := c2)
  refine Or.inl ⟨?_, ?_, ?_⟩
  · by_contra hc
    have g0 : 0 ≤ orient a1 b1 a2 := not_lt.1 hc
    linarith
  · by_contra hc
    have g0 : 0 ≤ orient a1 b1 b2 := not_lt.1 hc
    linarith
  · by_contra hc
    have g0 : 0 ≤ orient a1 b1 c2 := not_lt.1 hc
    have f2 : orient a1 b1 b2 < 0 := by linarith
    have f3 : 0 ≤ orient a1 b1 c2 := by linarith
    have f9 : orient a1 b2 c2 < 0 := by linarith
    have f15 : 0 ≤ orient b1 b2 c2 := by linarith
    rcases lt_trichotomy (orient a1 b1 b2) 0 with hs | hs | hs
    · exfalso
      have r := lin4 a1 b1 b2 c2
      linarith
    · exfalso; linarith
    · exfalso; linarith

theorem leafV_2 {a1 b1 c1 a2 b2 c2 : Point} (h0 : 0 < orient a1 b1 c1) (h1 : 0 < orient a2 b2 c2) (h2 : 0 ≤ orient a2 b2 a1) (h3 : orient b2 c2 a1 < 0) (h4 : orient c2 a2 a1 < 0) (h5 : 0 ≤ orient c2 a2 b1) (h6 : orient c2 b2 b1 ≤ 0) (h7 : orient a1 a2 b1 ≤ 0) (h8 : 0 ≤ orient a1 a2 c1) (h9 : 0 ≤ orient b1 c1 a2) :
    ¬Separated a1 b1 c1 a2 b2 c2 := by
  have ea1a2b1 := o_a1_a2_b1 (a1 := a1) (b1 := b1) (c1 := c1) (a2 := a2) (b2 := b2) (c2 := c2)
  have ea1a2c1 := o_a1_a2_c1 (a1 := a1) (b1 := b1) (c1 := c1) (a2 := a2) (b2 := b2) (c2 := c2)
  have ea2b2a1 := o_a2_b2_a1 (a1 := a1) (b1 := b1) (c1 := c1) (a2 := a2) (b2 := b2) (c2 := c2)
  have eb2c2a1 := o_b2_c2_a1 (a1 := a1) (b1 := b1) (c1 := c1) (a2 := a2) (b2 := b2) (c2 := c2)
  have ec2a2a1 := o_c2_a2_a1 (a1 := a1) (b1 := b1) (c1 := c1) (a2 := a2) (b2 := b2) (c2 := c2)
  have ec2a2b1 := o_c2_a2_b1 (a1 := a1) (b1 := b1) (c1 := c1) (a2 := a2) (b2 := b2) (c2 := c2)
  have ec2b2b1 := o_c2_b2_b1 (a1 := a1) (b1 := b1) (c1 := c1) (a2 := a2) (b2 := b2) (c2 := c2)
  rintro (⟨g0, g1, g2⟩ | ⟨g0, g1, g2⟩ | ⟨g0, g1, g2⟩ | ⟨g0, g1, g2⟩ | ⟨g0, g1, g2⟩ | ⟨g0, g1, g2⟩)
  · skip
    linarith
  · skip
    linarith
  · skip
    have ec1a1a2 := o_c1_a1_a2 (a1 := a1) (b1 := b1) (c1 := c1) (a2 := a2) (b2 := b2) (c2 := c2)
    have ec1a1b2 := o_c1_a1_b2 (a1 := a1) (b1 := b1) (c1 := c1) (a2 := a2) (b2 := b2) (c2 := c2)
    have ec1a1c2 := o_c1_a1_c2 (a1 := a1) (b1 := b1) (c1 := c1) (a2 := a2) (b2 := b2) (c2 := c2)
    linarith
  · skip
    have ea2b2b1 := o_a2_b2_b1 (a1 := a1) (b1 := b1) (c1 := c1) (a2 := a2) (b2 := b2) (c2 := c2)
    have ea2b2c1 := o_a2_b2_c1 (a1 := a1) (b1 := b1) (c1 := c1) (a2 := a2) (b2 := b2) (c2 := c2)
    linarith
  · skip
    have eb2c2b1 := o_b2_c2_b1 (a1 := a1) (b1 := b1) (c1 := c1) (a2 := a2) (b2 := b2) (c2 := c2)
    have eb2c2c1 := o_b2_c2_c1 (a1 := a1) (b1 := b1) (c1 := c1) (a2 := a2) (b2 := b2) (c2 := c2)
    linarith
  · skip
    have ec2a2c1 := o_c2_a2_c1 (a1 := a1) (b1 := b1) (c1 := c1) (a2 := a2) (b2 := b2) (c2 := c2)
    linarith

theorem leafV_3 {a1 b1 c1 a2 b2 c2 : Point} (h0 : 0 < orient a1 b1 c1) (h1 : 0 < orient a2 b2 c2) (h2 : 0 ≤ orient a2 b2 a1) (h3 : orient b2 c2 a1 < 0) (h4 : orient c2 a2 a1 < 0) (h5 : 0 ≤ orient c2 a2 b1) (h6 : orient c2 b2 b1 ≤ 0) (h7 : orient a1 a2 b1 ≤ 0) (h8 : 0 ≤ orient a1 a2 c1) (h9 : orient b1 c1 a2 < 0) :
    Separated a1 b1 c1 a2 b2 c2 := by
  have ea1a2b1 := o_a1_a2_b1 (a1 := a1) (b1 := b1) (c1 := c1) (a2 := a2) (b2 := b2) (c2 := c2)
  have ea1a2c1 := o_a1_a2_c1 (a1 := a1) (b1 := b1) (c1 := c1) (a2 := a2) (b2 := b2) (c2 := c2)
  have ea2b2a1 := o_a2_b2_a1 (a1 := a1) (b1 := b1) (c1 := c1) (a2 := a2) (b2 := b2) (c2 := c2)
  have eb2c2a1 := o_b2_c2_a1 (a1 := a1) (b1 := b1) (c1 := c1) (a2 := a2) (b2 := b2) (c2 := c2)
  have ec2a2a1 := o_c2_a2_a1 (a1 := a1) (b1 := b1) (c1 := c1) (a2 := a2) (b2 := b2) (c2 := c2)
  have ec2a2b1 := o_c2_a2_b1 (a1 := a1) (b1 := b1) (c1 := c1) (a2 := a2) (b2 := b2) (c2 := c2)
  have ec2b2b1 := o_c2_b2_b1 (a1 := a1) (b1 := b1) (c1 := c1) (a2 := a2) (b2 := b2) (c2 := c2)
  refine Or.inr (Or.inl ⟨?_, ?_, ?_⟩)
  · by_contra hc
    have g0 : 0 ≤ orient b1 c1 a2 := not_lt.1 hc
    linarith
  · by_contra hc
    have g0 : 0 ≤ orient b1 c1 b2 := not_lt.1 hc
    have f0 : 0 < orient a1 b1 c1 := by linarith
    have f1 : 0 ≤ orient a1 b1 a2 := by linarith
    have f8 : 0 < orient a1 a2 c2 := by linarith
    have f9 : orient a1 b2 c2 < 0 := by linarith
    have f10 : orient b1 c1 a2 < 0 := by linarith
    have f11 : 0 ≤ orient b1 c1 b2 := by linarith
    have f14 : orient b1 a2 c2 ≤ 0 := by linarith
    have f15 : 0 ≤ orient b1 b2 c2 := by linarith
    have s0 : 0 < orient a1 b1 c2 := by
      rcases lt_trichotomy (orient a1 b1 c2) 0 with hs | hs | hs
      · exfalso
        have r := lin4 a1 b1 a2 c2
        linarith
      · exfalso
        have r := lin4 a1 b1 a2 c2
        linarith
      · first | linarith | exact ne_of_lt hs | exact ne_of_gt hs
    have s1 : 0 < orient a1 b1 b2 := by
      rcases lt_trichotomy (orient a1 b1 b2) 0 with hs | hs | hs
      · exfalso
        have r := lin4 a1 b1 b2 c2
        linarith
      · exfalso
        have r := lin4 a1 b1 b2 c2
        linarith
      · first | linarith | exact ne_of_lt hs | exact ne_of_gt hs
    have s4 : 0 < orient a1 b1 a2 := by
      rcases lt_trichotomy (orient a1 b1 a2) 0 with hs | hs | hs
      · exfalso; linarith
      · exfalso
        have r := gp_b1_a1_c1_a2_c2 a1 b1 c1 a2 b2 c2
        have t1 := mul_nonpos_of_nonneg_of_nonpos (show 0 ≤ orient a1 b1 c1 by linarith) (show orient b1 a2 c2 ≤ 0 by linarith)
        have t2 : (orient a1 b1 a2) * (orient b1 c1 c2) = 0 := by rw [show orient a1 b1 a2 = 0 by linarith]; ring
        have t3 := mul_neg_of_pos_of_neg (show 0 < orient a1 b1 c2 by linarith) (show orient b1 c1 a2 < 0 by linarith)
        linarith
      · first | linarith | exact ne_of_lt hs | exact ne_of_gt hs
    have s5 : orient b1 c1 c2 < 0 := by
      rcases lt_trichotomy (orient b1 c1 c2) 0 with hs | hs | hs
      · first | linarith | exact ne_of_lt hs | exact ne_of_gt hs
      · exfalso
        have r := gp_b1_a1_c1_a2_c2 a1 b1 c1 a2 b2 c2
        have t1 := mul_nonpos_of_nonneg_of_nonpos (show 0 ≤ orient a1 b1 c1 by linarith) (show orient b1 a2 c2 ≤ 0 by linarith)
        have t2 : (orient a1 b1 a2) * (orient b1 c1 c2) = 0 := by rw [show orient b1 c1 c2 = 0 by linarith]; ring
        have t3 := mul_neg_of_pos_of_neg (show 0 < orient a1 b1 c2 by linarith) (show orient b1 c1 a2 < 0 by linarith)
        linarith
      · exfalso
        have r := gp_b1_a1_c1_a2_c2 a1 b1 c1 a2 b2 c2
        have t1 := mul_nonpos_of_nonneg_of_nonpos (show 0 ≤ orient a1 b1 c1 by linarith) (show orient b1 a2 c2 ≤ 0 by linarith)
        have t2 := mul_pos (show 0 < orient a1 b1 a2 by linarith) (show 0 < orient b1 c1 c2 by linarith)
        have t3 := mul_neg_of_pos_of_neg (show 0 < orient a1 b1 c2 by linarith) (show orient b1 c1 a2 < 0 by linarith)
        linarith
    rcases lt_trichotomy (orient a1 b1 c1) 0 with hs | hs | hs
    · exfalso; linarith
    · exfalso; linarith
    · exfalso
      have r := gp_b1_a1_c1_b2_c2 a1 b1 c1 a2 b2 c2
      have t1 := mul_nonneg (show 0 ≤ orient a1 b1 c1 by linarith) (show 0 ≤ orient b1 b2 c2 by linarith)
      have t2 := mul_neg_of_pos_of_neg (show 0 < orient a1 b1 b2 by linarith) (show orient b1 c1 c2 < 0 by linarith)
      have t3 := mul_nonneg (show 0 ≤ orient a1 b1 c2 by linarith) (show 0 ≤ orient b1 c1 b2 by linarith)
      linarith
  · by_contra hc
    have g0 : 0 ≤ orient b1 c1 c2 := not_lt.1 hc
    have f0 : 0 < orient a1 b1 c1 := by linarith
    have f1 : 0 ≤ orient a1 b1 a2 := by linarith
    have f8 : 0 < orient a1 a2 c2 := by linarith
    have f10 : orient b1 c1 a2 < 0 := by linarith
    have f12 : 0 ≤ orient b1 c1 c2 := by linarith
    have f14 : orient b1 a2 c2 ≤ 0 := by linarith
    have s0 : 0 < orient a1 b1 c2 := by
      rcases lt_trichotomy (orient a1 b1 c2) 0 with hs | hs | hs
      · exfalso
        have r := lin4 a1 b1 a2 c2
        linarith
      · exfalso
        have r := lin4 a1 b1 a2 c2
        linarith
      · first | linarith | exact ne_of_lt hs | exact ne_of_gt hs
    rcases lt_trichotomy (orient a1 b1 c1) 0 with hs | hs | hs
    · exfalso; linarith
    · exfalso; linarith
    · exfalso
      have r := gp_b1_a1_c1_a2_c2 a1 b1 c1 a2 b2 c2
      have t1 := mul_nonpos_of_nonneg_of_nonpos (show 0 ≤ orient a1 b1 c1 by linarith) (show orient b1 a2 c2 ≤ 0 by linarith)
      have t2 := mul_nonneg (show 0 ≤ orient a1 b1 a2 by linarith) (show 0 ≤ orient b1 c1 c2 by linarith)
      have t3 := mul_neg_of_pos_of_neg (show 0 < orient a1 b1 c2 by linarith) (show orient b1 c1 a2 < 0 by linarith)
      linarith

theorem leafV_4 {a1 b1 c1 a2 b2 c2 : Point} (h0 : 0 < orient a1 b1 c1) (h1 : 0 < orient a2 b2 c2) (h2 : 0 ≤ orient a2 b2 a1) (h3 : orient b2 c2 a1 < 0) (h4 : orient c2 a2 a1 < 0) (h5 : 0 ≤ orient c2 a2 b1) (h6 : orient c2 b2 b1 ≤ 0) (h7 : orient a1 a2 b1 ≤ 0) (h8 : orient a1 a2 c1 < 0) :
    Separated a1 b1 c1 a2 b2 c2 := by
  have ea1a2b1 := o_a1_a2_b1 (a1 := a1) (b1 := b1) (c1 := c1) (a2 := a2) (b2 := b2) (c2 := c2)
  have ea1a2c1 := o_a1_a2_c1 (a1 := a1) (b1 := b1) (c1 := c1) (a2 := a2) (b2 := b2) (c2 := c2)
  have ea2b2a1 := o_a2_b2_a1 (a1 := a1) (b1 := b1) (c1 := c1) (a2 := a2) (b2 := b2) (c2 := c2)
  have eb2c2a1 := o_b2_c2_a1 (a1 := a1) (b1 := b1) (c1 := c1) (a2 := a2) (b2 := b2) (c2 := c2)
  have ec2a2a1 := o_c2_a2_a1 (a1 := a1) (b1 := b1) (c1 := c1) (a2 := a2) (b2 := b2) (c2 := c2)
  have ec2a2b1 := o_c2_a2_b1 (a1 := a1) (b1 := b1) (c1 := c1) (a2 := a2) (b2 := b2) (c2 := c2)
  have ec2b2b1 := o_c2_b2_b1 (a1 := a1) (b1 := b1) (c1 := c1) (a2 := a2) (b2 := b2) (c2 := c2)
  refine Or.inr (Or.inr (Or.inl ⟨?_, ?_, ?_⟩))
  · by_contra hc
    have g0 : 0 ≤ orient c1 a1 a2 := not_lt.1 hc
    have ec1a1a2 := o_c1_a1_a2 (a1 := a1) (b1 := b1) (c1 := c1) (a2 := a2) (b2 := b2) (c2 := c2)
    linarith
  · by_contra hc
    have g0 : 0 ≤ orient c1 a1 b2 := not_lt.1 hc
    have ec1a1b2 := o_c1_a1_b2 (a1 := a1) (b1 := b1) (c1 := c1) (a2 := a2) (b2 := b2) (c2 := c2)
    have f0 : 0 < orient a1 b1 c1 := by linarith
    have f1 : 0 ≤ orient a1 b1 a2 := by linarith
    have f4 : 0 < orient a1 c1 a2 := by linarith
    have f5 : orient a1 c1 b2 ≤ 0 := by linarith
    have f7 : 0 ≤ orient a1 a2 b2 := by linarith
    have f8 : 0 < orient a1 a2 c2 := by linarith
    have f9 : orient a1 b2 c2 < 0 := by linarith
    have f14 : orient b1 a2 c2 ≤ 0 := by linarith
    have f15 : 0 ≤ orient b1 b2 c2 := by linarith
    have f19 : 0 < orient a2 b2 c2 := by linarith
    have s0 : 0 < orient a1 b1 c2 := by
      rcases lt_trichotomy (orient a1 b1 c2) 0 with hs | hs | hs
      · exfalso
        have r := lin4 a1 b1 a2 c2
        linarith
      · exfalso
        have r := lin4 a1 b1 a2 c2
        linarith
      · first | linarith | exact ne_of_lt hs | exact ne_of_gt hs
    have s1 : 0 < orient a1 b1 b2 := by
      rcases lt_trichotomy (orient a1 b1 b2) 0 with hs | hs | hs
      · exfalso
        have r := lin4 a1 b1 b2 c2
        linarith
      · exfalso
        have r := lin4 a1 b1 b2 c2
        linarith
      · first | linarith | exact ne_of_lt hs | exact ne_of_gt hs
    have s3 : 0 < orient a1 a2 b2 := by
      rcases lt_trichotomy (orient a1 a2 b2) 0 with hs | hs | hs
      · exfalso; linarith
      · exfalso
        have r := lin4 a1 a2 b2 c2
        linarith
      · first | linarith | exact ne_of_lt hs | exact ne_of_gt hs
    rcases lt_trichotomy (orient a1 b1 c1) 0 with hs | hs | hs
    · exfalso; linarith
    · exfalso; linarith
    · exfalso
      have r := gp_a1_b1_c1_a2_b2 a1 b1 c1 a2 b2 c2
      have t1 := mul_pos (show 0 < orient a1 b1 c1 by linarith) (show 0 < orient a1 a2 b2 by linarith)
      have t2 := mul_nonpos_of_nonneg_of_nonpos (show 0 ≤ orient a1 b1 a2 by linarith) (show orient a1 c1 b2 ≤ 0 by linarith)
      have t3 := mul_pos (show 0 < orient a1 b1 b2 by linarith) (show 0 < orient a1 c1 a2 by linarith)
      linarith
  · by_contra hc
    have g0 : 0 ≤ orient c1 a1 c2 := not_lt.1 hc
    have ec1a1c2 := o_c1_a1_c2 (a1 := a1) (b1 := b1) (c1 := c1) (a2 := a2) (b2 := b2) (c2 := c2)
    have f0 : 0 < orient a1 b1 c1 := by linarith
    have f1 : 0 ≤ orient a1 b1 a2 := by linarith
    have f4 : 0 < orient a1 c1 a2 := by linarith
    have f6 : orient a1 c1 c2 ≤ 0 := by linarith
    have f7 : 0 ≤ orient a1 a2 b2 := by linarith
    have f8 : 0 < orient a1 a2 c2 := by linarith
    have f9 : orient a1 b2 c2 < 0 := by linarith
    have f14 : orient b1 a2 c2 ≤ 0 := by linarith
    have f15 : 0 ≤ orient b1 b2 c2 := by linarith
    have f19 : 0 < orient a2 b2 c2 := by linarith
    have s0 : 0 < orient a1 b1 c2 := by
      rcases lt_trichotomy (orient a1 b1 c2) 0 with hs | hs | hs
      · exfalso
        have r := lin4 a1 b1 a2 c2
        linarith
      · exfalso
        have r := lin4 a1 b1 a2 c2
        linarith
      · first | linarith | exact ne_of_lt hs | exact ne_of_gt hs
    have s1 : 0 < orient a1 b1 b2 := by
      rcases lt_trichotomy (orient a1 b1 b2) 0 with hs | hs | hs
      · exfalso
        have r := lin4 a1 b1 b2 c2
        linarith
      · exfalso
        have r := lin4 a1 b1 b2 c2
        linarith
      · first | linarith | exact ne_of_lt hs | exact ne_of_gt hs
    have s3 : 0 < orient a1 a2 b2 := by
      rcases lt_trichotomy (orient a1 a2 b2) 0 with hs | hs | hs
      · exfalso; linarith
      · exfalso
        have r := lin4 a1 a2 b2 c2
        linarith
      · first | linarith | exact ne_of_lt hs | exact ne_of_gt hs
    have s4 : 0 < orient a1 b1 a2 := by
      rcases lt_trichotomy (orient a1 b1 a2) 0 with hs | hs | hs
      · exfalso; linarith
      · exfalso
        have r := gp_a1_b1_c1_a2_b2 a1 b1 c1 a2 b2 c2
        have t1 := mul_pos (show 0 < orient a1 b1 c1 by linarith) (show 0 < orient a1 a2 b2 by linarith)
        have t2 : (orient a1 b1 a2) * (orient a1 c1 b2) = 0 := by rw [show orient a1 b1 a2 = 0 by linarith]; ring
        have t3 := mul_pos (show 0 < orient a1 b1 b2 by linarith) (show 0 < orient a1 c1 a2 by linarith)
        linarith
      · first | linarith | exact ne_of_lt hs | exact ne_of_gt hs
    rcases lt_trichotomy (orient a1 b1 c1) 0 with hs | hs | hs
    · exfalso; linarith
    · exfalso; linarith
    · exfalso
      have r := gp_a1_b1_c1_a2_c2 a1 b1 c1 a2 b2 c2
      have t1 := mul_pos (show 0 < orient a1 b1 c1 by linarith) (show 0 < orient a1 a2 c2 by linarith)
      have t2 := mul_nonpos_of_nonneg_of_nonpos (show 0 ≤ orient a1 b1 a2 by linarith) (show orient a1 c1 c2 ≤ 0 by linarith)
      have t3 := mul_pos (show 0 < orient a1 b1 c2 by linarith) (show 0 < orient a1 c1 a2 by linarith)
      linarith

theorem leafV_5 {a1 b1 c1 a2 b2 c2 : Point} (h0 : 0 < orient a1 b1 c1) (h1 : 0 < orient a2 b2 c2) (h2 : 0 ≤ orient a2 b2 a1) (h3 : orient b2 c2 a1 < 0) (h4 : orient c2 a2 a1 < 0) (h5 : 0 ≤ orient c2 a2 b1) (h6 : 0 < orient c2 b2 b1) (h7 : orient a1 b2 b1 ≤ 0) (h8 : orient c2 b2 c1 ≤ 0) (h9 : 0 ≤ orient b1 c1 b2) :
    ¬Separated a1 b1 c1 a2 b2 c2 := by
  have ea1b2b1 := o_a1_b2_b1 (a1 := a1) (b1 := b1) (c1 := c1) (a2 := a2) (b2 := b2) (c2 := c2)
  have ea2b2a1 := o_a2_b2_a1 (a1 := a1) (b1 := b1) (c1 := c1) (a2 := a2) (b2 := b2) (c2 := c2)
  have eb2c2a1 := o_b2_c2_a1 (a1 := a1) (b1 := b1) (c1 := c1) (a2 := a2) (b2 := b2) (c2 := c2)
  have ec2a2a1 := o_c2_a2_a1 (a1 := a1) (b1 := b1) (c1 := c1) (a2 := a2) (b2 := b2) (c2 := c2)
  have ec2a2b1 := o_c2_a2_b1 (a1 := a1) (b1 := b1) (c1 := c1) (a2 := a2) (b2 := b2) (c2 := c2)
  have ec2b2b1 := o_c2_b2_b1 (a1 := a1) (b1 := b1) (c1 := c1) (a2 := a2) (b2 := b2) (c2 := c2)
  have ec2b2c1 := o_c2_b2_c1 (a1 := a1) (b1 := b1) (c1 := c1) (a2 := a2) (b2 := b2) (c2 := c2)
  rintro (⟨g0, g1, g2⟩ | ⟨g0, g1, g2⟩ | ⟨g0, g1, g2⟩ | ⟨g0, g1, g2⟩ | ⟨g0, g1, g2⟩ | ⟨g0, g1, g2⟩)
  · skip
    linarith
  · skip
    linarith
  · skip
    have ec1a1a2 := o_c1_a1_a2 (a1 := a1) (b1 := b1) (c1 := c1) (a2 := a2) (b2 := b2) (c2 := c2)
    have ec1a1b2 := o_c1_a1_b2 (a1 := a1) (b1 := b1) (c1 := c1) (a2 := a2) (b2 := b2) (c2 := c2)
    have ec1a1c2 := o_c1_a1_c2 (a1 := a1) (b1 := b1) (c1 := c1) (a2 := a2) (b2 := b2) (c2 := c2)
    have f0 : 0 < orient a1 b1 c1 := by linarith
    have f2 : 0 ≤ orient a1 b1 b2 := by linarith
    have f4 : 0 < orient a1 c1 a2 := by linarith
    have f5 : 0 < orient a1 c1 b2 := by linarith
    have f7 : 0 ≤ orient a1 a2 b2 := by linarith
    have f8 : 0 < orient a1 a2 c2 := by linarith
    have f9 : orient a1 b2 c2 < 0 := by linarith
    have f11 : 0 ≤ orient b1 c1 b2 := by linarith
    have f14 : orient b1 a2 c2 ≤ 0 := by linarith
    have f15 : orient b1 b2 c2 < 0 := by linarith
    have f19 : 0 < orient a2 b2 c2 := by linarith
    have s0 : 0 < orient a1 a2 b2 := by
      rcases lt_trichotomy (orient a1 a2 b2) 0 with hs | hs | hs
      · exfalso; linarith
      · exfalso
        have r := lin4 a1 a2 b2 c2
        linarith
      · first | linarith | exact ne_of_lt hs | exact ne_of_gt hs
    have s1 : 0 < orient a1 b1 a2 := by
      rcases lt_trichotomy (orient a1 b1 a2) 0 with hs | hs | hs
      · exfalso
        have r := gp_a1_b1_c1_a2_b2 a1 b1 c1 a2 b2 c2
        have t1 := mul_pos (show 0 < orient a1 b1 c1 by linarith) (show 0 < orient a1 a2 b2 by linarith)
        have t2 := mul_neg_of_neg_of_pos (show orient a1 b1 a2 < 0 by linarith) (show 0 < orient a1 c1 b2 by linarith)
        have t3 := mul_nonneg (show 0 ≤ orient a1 b1 b2 by linarith) (show 0 ≤ orient a1 c1 a2 by linarith)
        linarith
      · exfalso
        have r := gp_a1_b1_c1_a2_b2 a1 b1 c1 a2 b2 c2
        have t1 := mul_pos (show 0 < orient a1 b1 c1 by linarith) (show 0 < orient a1 a2 b2 by linarith)
        have t2 : (orient a1 b1 a2) * (orient a1 c1 b2) = 0 := by rw [show orient a1 b1 a2 = 0 by linarith]; ring
        have t3 := mul_nonneg (show 0 ≤ orient a1 b1 b2 by linarith) (show 0 ≤ orient a1 c1 a2 by linarith)
        linarith
      · first | linarith | exact ne_of_lt hs | exact ne_of_gt hs
    have s4 : orient b1 a2 b2 < 0 := by
      rcases lt_trichotomy (orient b1 a2 b2) 0 with hs | hs | hs
      · first | linarith | exact ne_of_lt hs | exact ne_of_gt hs
      · exfalso
        have r := gp_a2_a1_b1_b2_c2 a1 b1 c1 a2 b2 c2
        have t1 := mul_pos (show 0 < orient a1 b1 a2 by linarith) (show 0 < orient a2 b2 c2 by linarith)
        have t2 := mul_nonpos_of_nonneg_of_nonpos (show 0 ≤ orient a1 a2 b2 by linarith) (show orient b1 a2 c2 ≤ 0 by linarith)
        have t3 : (orient a1 a2 c2) * (orient b1 a2 b2) = 0 := by rw [show orient b1 a2 b2 = 0 by linarith]; ring
        linarith
      · exfalso
        have r := gp_a2_a1_b1_b2_c2 a1 b1 c1 a2 b2 c2
        have t1 := mul_pos (show 0 < orient a1 b1 a2 by linarith) (show 0 < orient a2 b2 c2 by linarith)
        have t2 := mul_nonpos_of_nonneg_of_nonpos (show 0 ≤ orient a1 a2 b2 by linarith) (show orient b1 a2 c2 ≤ 0 by linarith)
        have t3 := mul_pos (show 0 < orient a1 a2 c2 by linarith) (show 0 < orient b1 a2 b2 by linarith)
        linarith
    have s5 : 0 < orient a1 b1 b2 := by
      rcases lt_trichotomy (orient a1 b1 b2) 0 with hs | hs | hs
      · exfalso; linarith
      · exfalso
        have r := gp_b2_a1_b1_c1_a2 a1 b1 c1 a2 b2 c2
        have t1 : (orient a1 b1 b2) * (orient c1 a2 b2) = 0 := by rw [show orient a1 b1 b2 = 0 by linarith]; ring
        have t2 := mul_neg_of_pos_of_neg (show 0 < orient a1 c1 b2 by linarith) (show orient b1 a2 b2 < 0 by linarith)
        have t3 := mul_nonneg (show 0 ≤ orient a1 a2 b2 by linarith) (show 0 ≤ orient b1 c1 b2 by linarith)
        linarith
      · first | linarith | exact ne_of_lt hs | exact ne_of_gt hs
    rcases lt_trichotomy (orient a1 b1 b2) 0 with hs | hs | hs
    · exfalso; linarith
    · exfalso; linarith
    · exfalso
      have r := gp_b2_a1_b1_a2_c2 a1 b1 c1 a2 b2 c2
      have t1 := mul_pos (show 0 < orient a1 b1 b2 by linarith) (show 0 < orient a2 b2 c2 by linarith)
      have t2 := mul_neg_of_pos_of_neg (show 0 < orient a1 a2 b2 by linarith) (show orient b1 b2 c2 < 0 by linarith)
      have t3 := mul_pos_of_neg_of_neg (show orient a1 b2 c2 < 0 by linarith) (show orient b1 a2 b2 < 0 by linarith)
      linarith
  · skip
    have ea2b2b1 := o_a2_b2_b1 (a1 := a1) (b1 := b1) (c1 := c1) (a2 := a2) (b2 := b2) (c2 := c2)
    have ea2b2c1 := o_a2_b2_c1 (a1 := a1) (b1 := b1) (c1 := c1) (a2 := a2) (b2 := b2) (c2 := c2)
    linarith
  · skip
    have eb2c2b1 := o_b2_c2_b1 (a1 := a1) (b1 := b1) (c1 := c1) (a2 := a2) (b2 := b2) (c2 := c2)
    have eb2c2c1 := o_b2_c2_c1 (a1 := a1) (b1 := b1) (c1 := c1) (a2 := a2) (b2 := b2) (c2 := c2)
    linarith
  · skip
    have ec2a2c1 := o_c2_a2_c1 (a1 := a1) (b1 := b1) (c1 := c1) (a2 := a2) (b2 := b2) (c2 := c2)
    linarith

theorem leafV_6 {a1 b1 c1 a2 b2 c2 : Point} (h0 : 0 < orient a1 b1 c1) (h1 : 0 < orient a2 b2 c2) (h2 : 0 ≤ orient a2 b2 a1) (h3 : orient b2 c2 a1 < 0) (h4 : orient c2 a2 a1 < 0) (h5 : 0 ≤ orient c2 a2 b1) (h6 : 0 < orient c2 b2 b1) (h7 : orient a1 b2 b1 ≤ 0) (h8 : orient c2 b2 c1 ≤ 0) (h9 : orient b1 c1 b2 < 0) :
    Separated a1 b1 c1 a2 b2 c2 := by
  have ea1b2b1 := o_a1_b2_b1 (a1 := a1) (b1 := b1) (c1 := c1) (a2 := a2) (b2 := b2) (c2 := c2)
  have ea2b2a1 := o_a2_b2_a1 (a1 := a1) (b1 := b1) (c1 := c1) (a2 := a2) (b2 := b2) (c2 := c2)
  have eb2c2a1 := o_b2_c2_a1 (a1 := a1) (b1 := b1) (c1 := c1) (a2 := a2) (b2 := b2) (c2 := c2)
  have ec2a2a1 := o_c2_a2_a1 (a1 := a1) (b1 := b1) (c1 := c1) (a2 := a2) (b2 := b2) (c2 := c2)
  have ec2a2b1 := o_c2_a2_b1 (a1 := a1) (b1 := b1) (c1 := c1) (a2 := a2) (b2 := b2) (c2 := c2)
  have ec2b2b1 := o_c2_b2_b1 (a1 := a1) (b1 := b1) (c1 := c1) (a2 := a2) (b2 := b2) (c2 := c2)
  have ec2b2c1 := o_c2_b2_c1 (a1 := a1) (b1 := b1) (c1 := c1) (a2 := a2) (b2 := b2) (c2 := c2)
  refine Or.inr (Or.inl ⟨?_, ?_, ?_⟩)
  · by_contra hc
    have g0 : 0 ≤ orient b1 c1 a2 := not_lt.1 hc
    have f2 : 0 ≤ orient a1 b1 b2 := by linarith
    have f7 : 0 ≤ orient a1 a2 b2 := by linarith
    have f8 : 0 < orient a1 a2 c2 := by linarith
    have f9 : orient a1 b2 c2 < 0 := by linarith
    have f10 : 0 ≤ orient b1 c1 a2 := by linarith
    have f11 : orient b1 c1 b2 < 0 := by linarith
    have f14 : orient b1 a2 c2 ≤ 0 := by linarith
    have f15 : orient b1 b2 c2 < 0 := by linarith
    have f18 : 0 ≤ orient c1 b2 c2 := by linarith
    have f19 : 0 < orient a2 b2 c2 := by linarith
    have s0 : 0 < orient a1 a2 b2 := by
      rcases lt_trichotomy (orient a1 a2 b2) 0 with hs | hs | hs
      · exfalso; linarith
      · exfalso
        have r := lin4 a1 a2 b2 c2
        linarith
      · first | linarith | exact ne_of_lt hs | exact ne_of_gt hs
    have s1 : orient b1 c1 c2 < 0 := by
      rcases lt_trichotomy (orient b1 c1 c2) 0 with hs | hs | hs
      · first | linarith | exact ne_of_lt hs | exact ne_of_gt hs
      · exfalso
        have r := lin4 b1 c1 b2 c2
        linarith
      · exfalso
        have r := lin4 b1 c1 b2 c2
        linarith
    have s2 : orient b1 a2 b2 ≤ 0 := by
      rcases lt_trichotomy (orient b1 a2 b2) 0 with hs | hs | hs
      · first | linarith | exact ne_of_lt hs | exact ne_of_gt hs
      · first | linarith | exact ne_of_lt hs | exact ne_of_gt hs
      · exfalso
        have r := gp_b1_c1_a2_b2_c2 a1 b1 c1 a2 b2 c2
        have t1 := mul_nonpos_of_nonneg_of_nonpos (show 0 ≤ orient b1 c1 a2 by linarith) (show orient b1 b2 c2 ≤ 0 by linarith)
        have t2 := mul_nonneg_of_nonpos_of_nonpos (show orient b1 c1 b2 ≤ 0 by linarith) (show orient b1 a2 c2 ≤ 0 by linarith)
        have t3 := mul_neg_of_neg_of_pos (show orient b1 c1 c2 < 0 by linarith) (show 0 < orient b1 a2 b2 by linarith)
        linarith
    rcases lt_trichotomy (orient a1 b1 b2) 0 with hs | hs | hs
    · exfalso; linarith
    · exfalso
      have r := gp_b2_a1_b1_a2_c2 a1 b1 c1 a2 b2 c2
      have t1 : (orient a1 b1 b2) * (orient a2 b2 c2) = 0 := by rw [show orient a1 b1 b2 = 0 by linarith]; ring
      have t2 := mul_neg_of_pos_of_neg (show 0 < orient a1 a2 b2 by linarith) (show orient b1 b2 c2 < 0 by linarith)
      have t3 := mul_nonneg_of_nonpos_of_nonpos (show orient a1 b2 c2 ≤ 0 by linarith) (show orient b1 a2 b2 ≤ 0 by linarith)
      linarith
    · exfalso
      have r := gp_b2_a1_b1_a2_c2 a1 b1 c1 a2 b2 c2
      have t1 := mul_pos (show 0 < orient a1 b1 b2 by linarith) (show 0 < orient a2 b2 c2 by linarith)
      have t2 := mul_neg_of_pos_of_neg (show 0 < orient a1 a2 b2 by linarith) (show orient b1 b2 c2 < 0 by linarith)
      have t3 := mul_nonneg_of_nonpos_of_nonpos (show orient a1 b2 c2 ≤ 0 by linarith) (show orient b1 a2 b2 ≤ 0 by linarith)
      linarith
  · by_contra hc
    have g0 : 0 ≤ orient b1 c1 b2 := not_lt.1 hc
    linarith
  · by_contra hc
    have g0 : 0 ≤ orient b1 c1 c2 := not_lt.1 hc
    have f11 : orient b1 c1 b2 < 0 := by linarith
    have f12 : 0 ≤ orient b1 c1 c2 := by linarith
    have f15 : orient b1 b2 c2 < 0 := by linarith
    have f18 : 0 ≤ orient c1 b2 c2 := by linarith
    rcases lt_trichotomy (orient b1 c1 b2) 0 with hs | hs | hs
    · exfalso
      have r := lin4 b1 c1 b2 c2
      linarith
    · exfalso; linarith
    · exfalso; linarith

theorem leafV_7 {a1 b1 c1 a2 b2 c2 : Point} (h0 : 0 < orient a1 b1 c1) (h1 : 0 < orient a2 b2 c2) (h2 : 0 ≤ orient a2 b2 a1) (h3 : orient b2 c2 a1 < 0) (h4 : orient c2 a2 a1 < 0) (h5 : 0 ≤ orient c2 a2 b1) (h6 : 0 < orient c2 b2 b1) (h7 : orient a1 b2 b1 ≤ 0) (h8 : 0 < orient c2 b2 c1) :
    Separated a1 b1 c1 a2 b2 c2 := by
  have ea1b2b1 := o_a1_b2_b1 (a1 := a1) (b1 := b1) (c1 := c1) (a2 := a2) (b2 := b2) (c2 := c2)
  have ea2b2a1 := o_a2_b2_a1 (a1 := a1) (b1 := b1) (c1 := c1) (a2 := a2) (b2 := b2) (c2 := c2)
  have eb2c2a1 := o_b2_c2_a1 (a1 := a1) (b1 := b1) (c1 := c1) (a2 := a2) (b2 := b2) (c2 := c2)
  have ec2a2a1 := o_c2_a2_a1 (a1 := a1) (b1 := b1) (c1 := c1) (a2 := a2) (b2 := b2) (c2 := c2)
  have ec2a2b1 := o_c2_a2_b1 (a1 := a1) (b1 := b1) (c1 := c1) (a2 := a2) (b2 := b2) (c2 := c2)
  have ec2b2b1 := o_c2_b2_b1 (a1 := a1) (b1 := b1) (c1 := c1) (a2 := a2) (b2 := b2) (c2 := c2)
  have ec2b2c1 := o_c2_b2_c1 (a1 := a1) (b1 := b1) (c1 := c1) (a2 := a2) (b2 := b2) (c2 := c2)
  refine Or.inr (Or.inr (Or.inr (Or.inr (Or.inl ⟨?_, ?_, ?_⟩))))
  · by_contra hc
    have g0 : 0 ≤ orient b2 c2 a1 := not_lt.1 hc
    linarith
  · by_contra hc
    have g0 : 0 ≤ orient b2 c2 b1 := not_lt.1 hc
    have eb2c2b1 := o_b2_c2_b1 (a1 := a1) (b1 := b1) (c1 := c1) (a2 := a2) (b2 := b2) (c2 := c2)
    linarith
  · by_contra hc
    have g0 : 0 ≤ orient b2 c2 c1 := not_lt.1 hc
    have eb2c2c1 := o_b2_c2_c1 (a1 := a1) (b1 := b1) (c1 := c1) (a2 := a2) (b2 := b2) (c2 := c2)
    linarith

theorem leafV_8 {a1 b1 c1 a2 b2 c2 : Point} (h0 : 0 < orient a1 b1 c1) (h1 : 0 < orient a2 b2 c2) (h2 : 0 ≤ orient a2 b2 a1) (h3 : orient b2 c2 a1 < 0) (h4 : orient c2 a2 a1 < 0) (h5 : 0 ≤ orient c2 a2 b1) (h6 : 0 < orient c2 b2 b1) (h7 : 0 < orient a1 b2 b1) :
    Separated a1 b1 c1 a2 b2 c2 := by
  have ea1b2b1 := o_a1_b2_b1 (a1 := a1) (b1 := b1) (c1 := c1) (a2 := a2) (b2 := b2) (c2 := c2)
  have ea2b2a1 := o_a2_b2_a1 (a1 := a1) (b1 := b1) (c1 := c1) (a2 := a2) (b2 := b2) (c2 := c2)
  have eb2c2a1 := o_b2_c2_a1 (a1 := a1) (b1 := b1) (c1 := c1) (a2 := a2) (b2 := b2) (c2 := c2)
  have ec2a2a1 := o_c2_a2_a1 (a1 := a1) (b1 := b1) (c1 := c1) (a2 := a2) (b2 := b2) (c2 := c2)
  have ec2a2b1 := o_c2_a2_b1 (a1 := a1) (b1 := b1) (c1 := c1) (a2 := a2) (b2 := b2) (c2 := c2)
  have ec2b2b1 := o_c2_b2_b1 (a1 := a1) (b1 := b1) (c1 := c1) (a2 := a2) (b2 := b2) (c2 := c2)
  refine Or.inl ⟨?_, ?_, ?_⟩
  · by_contra hc
    have g0 : 0 ≤ orient a1 b1 a2 := not_lt.1 hc
    have f1 : 0 ≤ orient a1 b1 a2 := by linarith
    have f2 : orient a1 b1 b2 < 0 := by linarith
    have f7 : 0 ≤ orient a1 a2 b2 := by linarith
    have f8 : 0 < orient a1 a2 c2 := by linarith
    have f9 : orient a1 b2 c2 < 0 := by linarith
    have f14 : orient b1 a2 c2 ≤ 0 := by linarith
    have f19 : 0 < orient a2 b2 c2 := by linarith
    have s0 : 0 < orient b1 a2 b2 := by
      rcases lt_trichotomy (orient b1 a2 b2) 0 with hs | hs | hs
      · exfalso
        have r := lin4 a1 b1 a2 b2
        linarith
      · exfalso
        have r := lin4 a1 b1 a2 b2
        linarith
      · first | linarith | exact ne_of_lt hs | exact ne_of_gt hs
    have s1 : 0 < orient a1 b1 c2 := by
      rcases lt_trichotomy (orient a1 b1 c2) 0 with hs | hs | hs
      · exfalso
        have r := lin4 a1 b1 a2 c2
        linarith
      · exfalso
        have r := lin4 a1 b1 a2 c2
        linarith
      · first | linarith | exact ne_of_lt hs | exact ne_of_gt hs
    have s2 : 0 < orient a1 a2 b2 := by
      rcases lt_trichotomy (orient a1 a2 b2) 0 with hs | hs | hs
      · exfalso; linarith
      · exfalso
        have r := lin4 a1 a2 b2 c2
        linarith
      · first | linarith | exact ne_of_lt hs | exact ne_of_gt hs
    have s3 : 0 < orient a1 b1 a2 := by
      rcases lt_trichotomy (orient a1 b1 a2) 0 with hs | hs | hs
      · exfalso; linarith
      · exfalso
        have r := gp_a1_b1_a2_b2_c2 a1 b1 c1 a2 b2 c2
        have t1 : (orient a1 b1 a2) * (orient a1 b2 c2) = 0 := by rw [show orient a1 b1 a2 = 0 by linarith]; ring
        have t2 := mul_neg_of_neg_of_pos (show orient a1 b1 b2 < 0 by linarith) (show 0 < orient a1 a2 c2 by linarith)
        have t3 := mul_pos (show 0 < orient a1 b1 c2 by linarith) (show 0 < orient a1 a2 b2 by linarith)
        linarith
      · first | linarith | exact ne_of_lt hs | exact ne_of_gt hs
    rcases lt_trichotomy (orient a1 b1 a2) 0 with hs | hs | hs
    · exfalso; linarith
    · exfalso; linarith
    · exfalso
      have r := gp_a2_a1_b1_b2_c2 a1 b1 c1 a2 b2 c2
      have t1 := mul_pos (show 0 < orient a1 b1 a2 by linarith) (show 0 < orient a2 b2 c2 by linarith)
      have t2 := mul_nonpos_of_nonneg_of_nonpos (show 0 ≤ orient a1 a2 b2 by linarith) (show orient b1 a2 c2 ≤ 0 by linarith)
      have t3 := mul_pos (show 0 < orient a1 a2 c2 by linarith) (show 0 < orient b1 a2 b2 by linarith)
      linarith
  · by_contra hc
    have g0 : 0 ≤ orient a1 b1 b2 := not_lt.1 hc
    linarith
  · by_contra hc
    have g0 : 0 ≤ orient a1 b1 c2 := not_lt.1 hc
    have f2 : orient a1 b1 b2 < 0 := by linarith
    have f3 : 0 ≤ orient a1 b1 c2 := by linarith
    have f7 : 0 ≤ orient a1 a2 b2 := by linarith
    have f8 : 0 < orient a1 a2 c2 := by linarith
    have f9 : orient a1 b2 c2 < 0 := by linarith
    have f14 : orient b1 a2 c2 ≤ 0 := by linarith
    have f15 : orient b1 b2 c2 < 0 := by linarith
    have f19 : 0 < orient a2 b2 c2 := by linarith
    have s0 : 0 < orient a1 a2 b2 := by
      rcases lt_trichotomy (orient a1 a2 b2) 0 with hs | hs | hs
      · exfalso; linarith
      · exfalso
        have r := lin4 a1 a2 b2 c2
        linarith
      · first | linarith | exact ne_of_lt hs | exact ne_of_gt hs
    have s1 : 0 < orient a1 b1 a2 := by
      rcases lt_trichotomy (orient a1 b1 a2) 0 with hs | hs | hs
      · exfalso
        have r := gp_a1_b1_a2_b2_c2 a1 b1 c1 a2 b2 c2
        have t1 := mul_pos_of_neg_of_neg (show orient a1 b1 a2 < 0 by linarith) (show orient a1 b2 c2 < 0 by linarith)
        have t2 := mul_neg_of_neg_of_pos (show orient a1 b1 b2 < 0 by linarith) (show 0 < orient a1 a2 c2 by linarith)
        have t3 := mul_nonneg (show 0 ≤ orient a1 b1 c2 by linarith) (show 0 ≤ orient a1 a2 b2 by linarith)
        linarith
      · exfalso
        have r := gp_a1_b1_a2_b2_c2 a1 b1 c1 a2 b2 c2
        have t1 : (orient a1 b1 a2) * (orient a1 b2 c2) = 0 := by rw [show orient a1 b1 a2 = 0 by linarith]; ring
        have t2 := mul_neg_of_neg_of_pos (show orient a1 b1 b2 < 0 by linarith) (show 0 < orient a1 a2 c2 by linarith)
        have t3 := mul_nonneg (show 0 ≤ orient a1 b1 c2 by linarith) (show 0 ≤ orient a1 a2 b2 by linarith)
        linarith
      · first | linarith | exact ne_of_lt hs | exact ne_of_gt hs
    have s2 : 0 < orient a1 b1 c2 := by
      rcases lt_trichotomy (orient a1 b1 c2) 0 with hs | hs | hs
      · exfalso; linarith
      · exfalso
        have r := gp_b1_a1_a2_b2_c2 a1 b1 c1 a2 b2 c2
        have t1 := mul_neg_of_pos_of_neg (show 0 < orient a1 b1 a2 by linarith) (show orient b1 b2 c2 < 0 by linarith)
        have t2 := mul_nonneg_of_nonpos_of_nonpos (show orient a1 b1 b2 ≤ 0 by linarith) (show orient b1 a2 c2 ≤ 0 by linarith)
        have t3 : (orient a1 b1 c2) * (orient b1 a2 b2) = 0 := by rw [show orient a1 b1 c2 = 0 by linarith]; ring
        linarith
      · first | linarith | exact ne_of_lt hs | exact ne_of_gt hs
    have s3 : 0 < orient b1 a2 b2 := by
      rcases lt_trichotomy (orient b1 a2 b2) 0 with hs | hs | hs
      · exfalso
        have r := gp_b1_a1_a2_b2_c2 a1 b1 c1 a2 b2 c2
        have t1 := mul_neg_of_pos_of_neg (show 0 < orient a1 b1 a2 by linarith) (show orient b1 b2 c2 < 0 by linarith)
        have t2 := mul_nonneg_of_nonpos_of_nonpos (show orient a1 b1 b2 ≤ 0 by linarith) (show orient b1 a2 c2 ≤ 0 by linarith)
        have t3 := mul_neg_of_pos_of_neg (show 0 < orient a1 b1 c2 by linarith) (show orient b1 a2 b2 < 0 by linarith)
        linarith
      · exfalso
        have r := gp_b1_a1_a2_b2_c2 a1 b1 c1 a2 b2 c2
        have t1 := mul_neg_of_pos_of_neg (show 0 < orient a1 b1 a2 by linarith) (show orient b1 b2 c2 < 0 by linarith)
        have t2 := mul_nonneg_of_nonpos_of_nonpos (show orient a1 b1 b2 ≤ 0 by linarith) (show orient b1 a2 c2 ≤ 0 by linarith)
        have t3 : (orient a1 b1 c2) * (orient b1 a2 b2) = 0 := by rw [show orient b1 a2 b2 = 0 by linarith]; ring
        linarith
      · first | linarith | exact ne_of_lt hs | exact ne_of_gt hs
    rcases lt_trichotomy (orient a1 b1 a2) 0 with hs | hs | hs
    · exfalso; linarith
    · exfalso; linarith
    · exfalso
      have r := gp_a2_a1_b1_b2_c2 a1 b1 c1 a2 b2 c2
      have t1 := mul_pos (show 0 < orient a1 b1 a2 by linarith) (show 0 < orient a2 b2 c2 by linarith)
      have t2 := mul_nonpos_of_nonneg_of_nonpos (show 0 ≤ orient a1 a2 b2 by linarith) (show orient b1 a2 c2 ≤ 0 by linarith)
      have t3 := mul_pos (show 0 < orient a1 a2 c2 by linarith) (show 0 < orient b1 a2 b2 by linarith)
      linarith

theorem leafV_9 {a1 b1 c1 a2 b2 c2 : Point} (h0 : 0 < orient a1 b1 c1) (h1 : 0 < orient a2 b2 c2) (h2 : 0 ≤ orient a2 b2 a1) (h3 : orient b2 c2 a1 < 0) (h4 : orient c2 a2 a1 < 0) (h5 : orient c2 a2 b1 < 0) (h6 : 0 ≤ orient c2 a2 c1) (h7 : 0 ≤ orient b1 c1 c2) (h8 : 0 ≤ orient a1 a2 c1) :
    ¬Separated a1 b1 c1 a2 b2 c2 := by
  have ea1a2c1 := o_a1_a2_c1 (a1 := a1) (b1 := b1) (c1 := c1) (a2 := a2) (b2 := b2) (c2 := c2)
  have ea2b2a1 := o_a2_b2_a1 (a1 := a1) (b1 := b1) (c1 := c1) (a2 := a2) (b2 := b2) (c2 := c2)
  have eb2c2a1 := o_b2_c2_a1 (a1 := a1) (b1 := b1) (c1 := c1) (a2 := a2) (b2 := b2) (c2 := c2)
  have ec2a2a1 := o_c2_a2_a1 (a1 := a1) (b1 := b1) (c1 := c1) (a2 := a2) (b2 := b2) (c2 := c2)
  have ec2a2b1 := o_c2_a2_b1 (a1 := a1) (b1 := b1) (c1 := c1) (a2 := a2) (b2 := b2) (c2 := c2)
  have ec2a2c1 := o_c2_a2_c1 (a1 := a1) (b1 := b1) (c1 := c1) (a2 := a2) (b2 := b2) (c2 := c2)
  rintro (⟨g0, g1, g2⟩ | ⟨g0, g1, g2⟩ | ⟨g0, g1, g2⟩ | ⟨g0, g1, g2⟩ | ⟨g0, g1, g2⟩ | ⟨g0, g1, g2⟩)
  · skip
    have f0 : 0 < orient a1 b1 c1 := by linarith
    have f1 : orient a1 b1 a2 < 0 := by linarith
    have f3 : orient a1 b1 c2 < 0 := by linarith
    have f4 : orient a1 c1 a2 ≤ 0 := by linarith
    have f8 : 0 < orient a1 a2 c2 := by linarith
    have f12 : 0 ≤ orient b1 c1 c2 := by linarith
    have f14 : 0 < orient b1 a2 c2 := by linarith
    have f17 : orient c1 a2 c2 ≤ 0 := by linarith
    have s2 : orient a1 c1 c2 < 0 := by
      rcases lt_trichotomy (orient a1 c1 c2) 0 with hs | hs | hs
      · first | linarith | exact ne_of_lt hs | exact ne_of_gt hs
      · exfalso
        have r := gp_a1_b1_c1_a2_c2 a1 b1 c1 a2 b2 c2
        have t1 := mul_pos (show 0 < orient a1 b1 c1 by linarith) (show 0 < orient a1 a2 c2 by linarith)
        have t2 : (orient a1 b1 a2) * (orient a1 c1 c2) = 0 := by rw [show orient a1 c1 c2 = 0 by linarith]; ring
        have t3 := mul_nonneg_of_nonpos_of_nonpos (show orient a1 b1 c2 ≤ 0 by linarith) (show orient a1 c1 a2 ≤ 0 by linarith)
        linarith
      · exfalso
        have r := gp_a1_b1_c1_a2_c2 a1 b1 c1 a2 b2 c2
        have t1 := mul_pos (show 0 < orient a1 b1 c1 by linarith) (show 0 < orient a1 a2 c2 by linarith)
        have t2 := mul_neg_of_neg_of_pos (show orient a1 b1 a2 < 0 by linarith) (show 0 < orient a1 c1 c2 by linarith)
        have t3 := mul_nonneg_of_nonpos_of_nonpos (show orient a1 b1 c2 ≤ 0 by linarith) (show orient a1 c1 a2 ≤ 0 by linarith)
        linarith
    have s3 : 0 < orient b1 c1 a2 := by
      rcases lt_trichotomy (orient b1 c1 a2) 0 with hs | hs | hs
      · exfalso
        have r := gp_b1_a1_c1_a2_c2 a1 b1 c1 a2 b2 c2
        have t1 := mul_pos (show 0 < orient a1 b1 c1 by linarith) (show 0 < orient b1 a2 c2 by linarith)
        have t2 := mul_nonpos_of_nonpos_of_nonneg (show orient a1 b1 a2 ≤ 0 by linarith) (show 0 ≤ orient b1 c1 c2 by linarith)
        have t3 := mul_pos_of_neg_of_neg (show orient a1 b1 c2 < 0 by linarith) (show orient b1 c1 a2 < 0 by linarith)
        linarith
      · exfalso
        have r := gp_b1_a1_c1_a2_c2 a1 b1 c1 a2 b2 c2
        have t1 := mul_pos (show 0 < orient a1 b1 c1 by linarith) (show 0 < orient b1 a2 c2 by linarith)
        have t2 := mul_nonpos_of_nonpos_of_nonneg (show orient a1 b1 a2 ≤ 0 by linarith) (show 0 ≤ orient b1 c1 c2 by linarith)
        have t3 : (orient a1 b1 c2) * (orient b1 c1 a2) = 0 := by rw [show orient b1 c1 a2 = 0 by linarith]; ring
        linarith
      · first | linarith | exact ne_of_lt hs | exact ne_of_gt hs
    have s4 : orient a1 c1 a2 < 0 := by
      rcases lt_trichotomy (orient a1 c1 a2) 0 with hs | hs | hs
      · first | linarith | exact ne_of_lt hs | exact ne_of_gt hs
      · exfalso
        have r := gp_c1_a1_b1_a2_c2 a1 b1 c1 a2 b2 c2
        have t1 := mul_nonpos_of_nonneg_of_nonpos (show 0 ≤ orient a1 b1 c1 by linarith) (show orient c1 a2 c2 ≤ 0 by linarith)
        have t2 : (orient a1 c1 a2) * (orient b1 c1 c2) = 0 := by rw [show orient a1 c1 a2 = 0 by linarith]; ring
        have t3 := mul_neg_of_neg_of_pos (show orient a1 c1 c2 < 0 by linarith) (show 0 < orient b1 c1 a2 by linarith)
        linarith
      · exfalso; linarith
    rcases lt_trichotomy (orient a1 b1 a2) 0 with hs | hs | hs
    · exfalso
      have r := gp_a2_a1_b1_c1_c2 a1 b1 c1 a2 b2 c2
      have t1 := mul_nonneg_of_nonpos_of_nonpos (show orient a1 b1 a2 ≤ 0 by linarith) (show orient c1 a2 c2 ≤ 0 by linarith)
      have t2 := mul_neg_of_neg_of_pos (show orient a1 c1 a2 < 0 by linarith) (show 0 < orient b1 a2 c2 by linarith)
      have t3 := mul_pos (show 0 < orient a1 a2 c2 by linarith) (show 0 < orient b1 c1 a2 by linarith)
      linarith
    · exfalso; linarith
    · exfalso; linarith
  · skip
    linarith
  · skip
    have ec1a1a2 := o_c1_a1_a2 (a1 := a1) (b1 := b1) (c1 := c1) (a2 := a2) (b2 := b2) (c2 := c2)
    have ec1a1b2 := o_c1_a1_b2 (a1 := a1) (b1 := b1) (c1 := c1) (a2 := a2) (b2 := b2) (c2 := c2)
    have ec1a1c2 := o_c1_a1_c2 (a1 := a1) (b1 := b1) (c1 := c1) (a2 := a2) (b2 := b2) (c2 := c2)
    linarith
  · skip
    have ea2b2b1 := o_a2_b2_b1 (a1 := a1) (b1 := b1) (c1 := c1) (a2 := a2) (b2 := b2) (c2 := c2)
    have ea2b2c1 := o_a2_b2_c1 (a1 := a1) (b1 := b1) (c1 := c1) (a2 := a2) (b2 := b2) (c2 := c2)
    linarith
  · skip
    have eb2c2b1 := o_b2_c2_b1 (a1 := a1) (b1 := b1) (c1 := c1) (a2 := a2) (b2 := b2) (c2 := c2)
    have eb2c2c1 := o_b2_c2_c1 (a1 := a1) (b1 := b1) (c1 := c1) (a2 := a2) (b2 := b2) (c2 := c2)
    have f12 : 0 ≤ orient b1 c1 c2 := by linarith
    have f14 : 0 < orient b1 a2 c2 := by linarith
    have f15 : orient b1 b2 c2 < 0 := by linarith
    have f17 : orient c1 a2 c2 ≤ 0 := by linarith
    have f18 : orient c1 b2 c2 < 0 := by linarith
    have f19 : 0 < orient a2 b2 c2 := by linarith
    rcases lt_trichotomy (orient b1 c1 c2) 0 with hs | hs | hs
    · exfalso; linarith
    · exfalso
      have r := gp_c2_b1_c1_a2_b2 a1 b1 c1 a2 b2 c2
      have t1 : (orient b1 c1 c2) * (orient a2 b2 c2) = 0 := by rw [show orient b1 c1 c2 = 0 by linarith]; ring
      have t2 := mul_neg_of_pos_of_neg (show 0 < orient b1 a2 c2 by linarith) (show orient c1 b2 c2 < 0 by linarith)
      have t3 := mul_nonneg_of_nonpos_of_nonpos (show orient b1 b2 c2 ≤ 0 by linarith) (show orient c1 a2 c2 ≤ 0 by linarith)
      linarith
    · exfalso
      have r := gp_c2_b1_c1_a2_b2 a1 b1 c1 a2 b2 c2
      have t1 := mul_pos (show 0 < orient b1 c1 c2 by linarith) (show 0 < orient a2 b2 c2 by linarith)
      have t2 := mul_neg_of_pos_of_neg (show 0 < orient b1 a2 c2 by linarith) (show orient c1 b2 c2 < 0 by linarith)
      have t3 := mul_nonneg_of_nonpos_of_nonpos (show orient b1 b2 c2 ≤ 0 by linarith) (show orient c1 a2 c2 ≤ 0 by linarith)
      linarith
  · skip
    linarith

theorem leafV_10 {a1 b1 c1 a2 b2 c2 : Point} (h0 : 0 < orient a1 b1 c1) (h1 : 0 < orient a2 b2 c2) (h2 : 0 ≤ orient a2 b2 a1) (h3 : orient b2 c2 a1 < 0) (h4 : orient c2 a2 a1 < 0) (h5 : orient c2 a2 b1 < 0) (h6 : 0 ≤ orient c2 a2 c1) (h7 : 0 ≤ orient b1 c1 c2) (h8 : orient a1 a2 c1 < 0) :
    Separated a1 b1 c1 a2 b2 c2 := by
  have ea1a2c1 := o_a1_a2_c1 (a1 := a1) (b1 := b1) (c1 := c1) (a2 := a2) (b2 := b2) (c2 := c2)
  have ea2b2a1 := o_a2_b2_a1 (a1 := a1) (b1 := b1) (c1 := c1) (a2 := a2) (b2 := b2) (c2 := c2)
  have eb2c2a1 := o_b2_c2_a1 (a1 := a1) (b1 := b1) (c1 := c1) (a2 := a2) (b2 := b2) (c2 := c2)
  have ec2a2a1 := o_c2_a2_a1 (a1 := a1) (b1 := b1) (c1 := c1) (a2 := a2) (b2 := b2) (c2 := c2)
  have ec2a2b1 := o_c2_a2_b1 (a1 := a1) (b1 := b1) (c1 := c1) (a2 := a2) (b2 := b2) (c2 := c2)
  have ec2a2c1 := o_c2_a2_c1 (a1 := a1) (b1 := b1) (c1 := c1) (a2 := a2) (b2 := b2) (c2 := c2)
  refine Or.inr (Or.inr (Or.inl ⟨?_, ?_, ?_⟩))
  · by_contra hc
    have g0 : 0 ≤ orient c1 a1 a2 := not_lt.1 hc
    have ec1a1a2 := o_c1_a1_a2 (a1 := a1) (b1 := b1) (c1 := c1) (a2 := a2) (b2 := b2) (c2 := c2)
    linarith
  · by_contra hc
    have g0 : 0 ≤ orient c1 a1 b2 := not_lt.1 hc
    have ec1a1b2 := o_c1_a1_b2 (a1 := a1) (b1 := b1) (c1 := c1) (a2 := a2) (b2 := b2) (c2 := c2)
    have f4 : 0 < orient a1 c1 a2 := by linarith
    have f5 : orient a1 c1 b2 ≤ 0 := by linarith
    have f7 : 0 ≤ orient a1 a2 b2 := by linarith
    have f8 : 0 < orient a1 a2 c2 := by linarith
    have f9 : orient a1 b2 c2 < 0 := by linarith
    have f17 : orient c1 a2 c2 ≤ 0 := by linarith
    have f19 : 0 < orient a2 b2 c2 := by linarith
    have s0 : 0 < orient c1 a2 b2 := by
      rcases lt_trichotomy (orient c1 a2 b2) 0 with hs | hs | hs
      · exfalso
        have r := lin4 a1 c1 a2 b2
        linarith
      · exfalso
        have r := lin4 a1 c1 a2 b2
        linarith
      · first | linarith | exact ne_of_lt hs | exact ne_of_gt hs
    have s3 : 0 < orient a1 a2 b2 := by
      rcases lt_trichotomy (orient a1 a2 b2) 0 with hs | hs | hs
      · exfalso; linarith
      · exfalso
        have r := lin4 a1 a2 b2 c2
        linarith
      · first | linarith | exact ne_of_lt hs | exact ne_of_gt hs
    rcases lt_trichotomy (orient a1 c1 a2) 0 with hs | hs | hs
    · exfalso; linarith
    · exfalso; linarith
    · exfalso
      have r := gp_a2_a1_c1_b2_c2 a1 b1 c1 a2 b2 c2
      have t1 := mul_pos (show 0 < orient a1 c1 a2 by linarith) (show 0 < orient a2 b2 c2 by linarith)
      have t2 := mul_nonpos_of_nonneg_of_nonpos (show 0 ≤ orient a1 a2 b2 by linarith) (show orient c1 a2 c2 ≤ 0 by linarith)
      have t3 := mul_pos (show 0 < orient a1 a2 c2 by linarith) (show 0 < orient c1 a2 b2 by linarith)
      linarith
  · by_contra hc
    have g0 : 0 ≤ orient c1 a1 c2 := not_lt.1 hc
    have ec1a1c2 := o_c1_a1_c2 (a1 := a1) (b1 := b1) (c1 := c1) (a2 := a2) (b2 := b2) (c2 := c2)
    have f4 : 0 < orient a1 c1 a2 := by linarith
    have f6 : orient a1 c1 c2 ≤ 0 := by linarith
    have f8 : 0 < orient a1 a2 c2 := by linarith
    have f17 : orient c1 a2 c2 ≤ 0 := by linarith
    rcases lt_trichotomy (orient a1 c1 a2) 0 with hs | hs | hs
    · exfalso; linarith
    · exfalso; linarith
    · exfalso
      have r := lin4 a1 c1 a2 c2
      linarith

theorem leafV_11 {a1 b1 c1 a2 b2 c2 : Point} (h0 : 0 < orient a1 b1 c1) (h1 : 0 < orient a2 b2 c2) (h2 : 0 ≤ orient a2 b2 a1) (h3 : orient b2 c2 a1 < 0) (h4 : orient c2 a2 a1 < 0) (h5 : orient c2 a2 b1 < 0) (h6 : 0 ≤ orient c2 a2 c1) (h7 : orient b1 c1 c2 < 0) (h8 : 0 ≤ orient b1 c1 b2) (h9 : 0 ≤ orient c2 c1 b2) :
    ¬Separated a1 b1 c1 a2 b2 c2 := by
  have ea2b2a1 := o_a2_b2_a1 (a1 := a1) (b1 := b1) (c1 := c1) (a2 := a2) (b2 := b2) (c2 := c2)
  have eb2c2a1 := o_b2_c2_a1 (a1 := a1) (b1 := b1) (c1 := c1) (a2 := a2) (b2 := b2) (c2 := c2)
  have ec2a2a1 := o_c2_a2_a1 (a1 := a1) (b1 := b1) (c1 := c1) (a2 := a2) (b2 := b2) (c2 := c2)
  have ec2a2b1 := o_c2_a2_b1 (a1 := a1) (b1 := b1) (c1 := c1) (a2 := a2) (b2 := b2) (c2 := c2)
  have ec2a2c1 := o_c2_a2_c1 (a1 := a1) (b1 := b1) (c1 := c1) (a2 := a2) (b2 := b2) (c2 := c2)
  have ec2c1b2 := o_c2_c1_b2 (a1 := a1) (b1 := b1) (c1 := c1) (a2 := a2) (b2 := b2) (c2 := c2)
  rintro (⟨g0, g1, g2⟩ | ⟨g0, g1, g2⟩ | ⟨g0, g1, g2⟩ | ⟨g0, g1, g2⟩ | ⟨g0, g1, g2⟩ | ⟨g0, g1, g2⟩)
  · skip
    have f0 : 0 < orient a1 b1 c1 := by linarith
    have f1 : orient a1 b1 a2 < 0 := by linarith
    have f2 : orient a1 b1 b2 < 0 := by linarith
    have f7 : 0 ≤ orient a1 a2 b2 := by linarith
    have f8 : 0 < orient a1 a2 c2 := by linarith
    have f9 : orient a1 b2 c2 < 0 := by linarith
    have f11 : 0 ≤ orient b1 c1 b2 := by linarith
    have f12 : orient b1 c1 c2 < 0 := by linarith
    have f14 : 0 < orient b1 a2 c2 := by linarith
    have f17 : orient c1 a2 c2 ≤ 0 := by linarith
    have f19 : 0 < orient a2 b2 c2 := by linarith
    have s2 : 0 < orient a1 a2 b2 := by
      rcases lt_trichotomy (orient a1 a2 b2) 0 with hs | hs | hs
      · exfalso; linarith
      · exfalso
        have r := lin4 a1 a2 b2 c2
        linarith
      · first | linarith | exact ne_of_lt hs | exact ne_of_gt hs
    have s3 : orient b1 c1 a2 < 0 := by
      rcases lt_trichotomy (orient b1 c1 a2) 0 with hs | hs | hs
      · first | linarith | exact ne_of_lt hs | exact ne_of_gt hs
      · exfalso
        have r := lin4 b1 c1 a2 c2
        linarith
      · exfalso
        have r := lin4 b1 c1 a2 c2
        linarith
    have s5 : orient b1 a2 b2 < 0 := by
      rcases lt_trichotomy (orient b1 a2 b2) 0 with hs | hs | hs
      · first | linarith | exact ne_of_lt hs | exact ne_of_gt hs
      · exfalso
        have r := gp_b1_a1_c1_a2_b2 a1 b1 c1 a2 b2 c2
        have t1 : (orient a1 b1 c1) * (orient b1 a2 b2) = 0 := by rw [show orient b1 a2 b2 = 0 by linarith]; ring
        have t2 := mul_nonpos_of_nonpos_of_nonneg (show orient a1 b1 a2 ≤ 0 by linarith) (show 0 ≤ orient b1 c1 b2 by linarith)
        have t3 := mul_pos_of_neg_of_neg (show orient a1 b1 b2 < 0 by linarith) (show orient b1 c1 a2 < 0 by linarith)
        linarith
      · exfalso
        have r := gp_b1_a1_c1_a2_b2 a1 b1 c1 a2 b2 c2
        have t1 := mul_pos (show 0 < orient a1 b1 c1 by linarith) (show 0 < orient b1 a2 b2 by linarith)
        have t2 := mul_nonpos_of_nonpos_of_nonneg (show orient a1 b1 a2 ≤ 0 by linarith) (show 0 ≤ orient b1 c1 b2 by linarith)
        have t3 := mul_pos_of_neg_of_neg (show orient a1 b1 b2 < 0 by linarith) (show orient b1 c1 a2 < 0 by linarith)
        linarith
    rcases lt_trichotomy (orient a1 b1 a2) 0 with hs | hs | hs
    · exfalso
      have r := gp_a2_a1_b1_b2_c2 a1 b1 c1 a2 b2 c2
      have t1 := mul_neg_of_neg_of_pos (show orient a1 b1 a2 < 0 by linarith) (show 0 < orient a2 b2 c2 by linarith)
      have t2 := mul_pos (show 0 < orient a1 a2 b2 by linarith) (show 0 < orient b1 a2 c2 by linarith)
      have t3 := mul_neg_of_pos_of_neg (show 0 < orient a1 a2 c2 by linarith) (show orient b1 a2 b2 < 0 by linarith)
      linarith
    · exfalso; linarith
    · exfalso; linarith
  · skip
    linarith
  · skip
    have ec1a1a2 := o_c1_a1_a2 (a1 := a1) (b1 := b1) (c1 := c1) (a2 := a2) (b2 := b2) (c2 := c2)
    have ec1a1b2 := o_c1_a1_b2 (a1 := a1) (b1 := b1) (c1 := c1) (a2 := a2) (b2 := b2) (c2 := c2)
    have ec1a1c2 := o_c1_a1_c2 (a1 := a1) (b1 := b1) (c1 := c1) (a2 := a2) (b2 := b2) (c2 := c2)
    have f0 : 0 < orient a1 b1 c1 := by linarith
    have f5 : 0 < orient a1 c1 b2 := by linarith
    have f6 : 0 < orient a1 c1 c2 := by linarith
    have f11 : 0 ≤ orient b1 c1 b2 := by linarith
    have f12 : orient b1 c1 c2 < 0 := by linarith
    have f18 : 0 ≤ orient c1 b2 c2 := by linarith
    rcases lt_trichotomy (orient a1 b1 c1) 0 with hs | hs | hs
    · exfalso; linarith
    · exfalso; linarith
    · exfalso
      have r := gp_c1_a1_b1_b2_c2 a1 b1 c1 a2 b2 c2
      have t1 := mul_nonneg (show 0 ≤ orient a1 b1 c1 by linarith) (show 0 ≤ orient c1 b2 c2 by linarith)
      have t2 := mul_neg_of_pos_of_neg (show 0 < orient a1 c1 b2 by linarith) (show orient b1 c1 c2 < 0 by linarith)
      have t3 := mul_nonneg (show 0 ≤ orient a1 c1 c2 by linarith) (show 0 ≤ orient b1 c1 b2 by linarith)
      linarith
  · skip
    have ea2b2b1 := o_a2_b2_b1 (a1 := a1) (b1 := b1) (c1 := c1) (a2 := a2) (b2 := b2) (c2 := c2)
    have ea2b2c1 := o_a2_b2_c1 (a1 := a1) (b1 := b1) (c1 := c1) (a2 := a2) (b2 := b2) (c2 := c2)
    linarith
  · skip
    have eb2c2b1 := o_b2_c2_b1 (a1 := a1) (b1 := b1) (c1 := c1) (a2 := a2) (b2 := b2) (c2 := c2)
    have eb2c2c1 := o_b2_c2_c1 (a1 := a1) (b1 := b1) (c1 := c1) (a2 := a2) (b2 := b2) (c2 := c2)
    linarith
  · skip
    linarith

theorem leafV_12 {a1 b1 c1 a2 b2 c2 : Point} (h0 : 0 < orient a1 b1 c1) (h1 : 0 < orient a2 b2 c2) (h2 : 0 ≤ orient a2 b2 a1) (h3 : orient b2 c2 a1 < 0) (h4 : orient c2 a2 a1 < 0) (h5 : orient c2 a2 b1 < 0) (h6 : 0 ≤ orient c2 a2 c1) (h7 : orient b1 c1 c2 < 0) (h8 : 0 ≤ orient b1 c1 b2) (h9 : orient c2 c1 b2 < 0) :
    Separated a1 b1 c1 a2 b2 c2 := by
  have ea2b2a1 := o_a2_b2_a1 (a1 := a1) (b1 := b1) (c1 := c1) (a2 := a2) (b2 := b2) (c2 := c2)
  have eb2c2a1 := o_b2_c2_a1 (a1 := a1) (b1 := b1) (c1 := c1) (a2 := a2) (b2 := b2) (c2 := c2)
  have ec2a2a1 := o_c2_a2_a1 (a1 := a1) (b1 := b1) (c1 := c1) (a2 := a2) (b2 := b2) (c2 := c2)
  have ec2a2b1 := o_c2_a2_b1 (a1 := a1) (b1 := b1) (c1 := c1) (a2 := a2) (b2 := b2) (c2 := c2)
  have ec2a2c1 := o_c2_a2_c1 (a1 := a1) (b1 := b1) (c1 := c1) (a2 := a2) (b2 := b2) (c2 := c2)
  have ec2c1b2 := o_c2_c1_b2 (a1 := a1) (b1 := b1) (c1 := c1) (a2 := a2) (b2 := b2) (c2 := c2)
  refine Or.inr (Or.inr (Or.inr (Or.inr (Or.inl ⟨?_, ?_, ?_⟩))))
  · by_contra hc
    have g0 : 0 ≤ orient b2 c2 a1 := not_lt.1 hc
    linarith
  · by_contra hc
    have g0 : 0 ≤ orient b2 c2 b1 := not_lt.1 hc
    have eb2c2b1 := o_b2_c2_b1 (a1 := a1) (b1 := b1) (c1 := c1) (a2 := a2) (b2 := b2) (c2 := c2)
    have f11 : 0 ≤ orient b1 c1 b2 := by linarith
    have f12 : orient b1 c1 c2 < 0 := by linarith
    have f15 : 0 ≤ orient b1 b2 c2 := by linarith
    have f18 : orient c1 b2 c2 < 0 := by linarith
    rcases lt_trichotomy (orient b1 c1 b2) 0 with hs | hs | hs
    · exfalso; linarith
    · exfalso
      have r := lin4 b1 c1 b2 c2
      linarith
    · exfalso
      have r := lin4 b1 c1 b2 c2
      linarith
  · by_contra hc
    have g0 : 0 ≤ orient b2 c2 c1 := not_lt.1 hc
    have eb2c2c1 := o_b2_c2_c1 (a1 := a1) (b1 := b1) (c1 := c1) (a2 := a2) (b2 := b2) (c2 := c2)
    linarith

theorem leafV_13 {a1 b1 c1 a2 b2 c2 : Point} (h0 : 0 < orient a1 b1 c1) (h1 : 0 < orient a2 b2 c2) (h2 : 0 ≤ orient a2 b2 a1) (h3 : orient b2 c2 a1 < 0) (h4 : orient c2 a2 a1 < 0) (h5 : orient c2 a2 b1 < 0) (h6 : 0 ≤ orient c2 a2 c1) (h7 : orient b1 c1 c2 < 0) (h8 : orient b1 c1 b2 < 0) :
    Separated a1 b1 c1 a2 b2 c2 := by
  have ea2b2a1 := o_a2_b2_a1 (a1 := a1) (b1 := b1) (c1 := c1) (a2 := a2) (b2 := b2) (c2 := c2)
  have eb2c2a1 := o_b2_c2_a1 (a1 := a1) (b1 := b1) (c1 := c1) (a2 := a2) (b2 := b2) (c2 := c2)
  have ec2a2a1 := o_c2_a2_a1 (a1 := a1) (b1 := b1) (c1 := c1) (a2 := a2) (b2 := b2) (c2 := c2)
  have ec2a2b1 := o_c2_a2_b1 (a1 := a1) (b1 := b1) (c1 := c1) (a2 := a2) (b2 := b2) (c2 := c2)
  have ec2a2c1 := o_c2_a2_c1 (a1 := a1) (b1 := b1) (c1 := c1) (a2 := a2) (b2 := b2) (c2 := c2)
  refine Or.inr (Or.inl ⟨?_, ?_, ?_⟩)
  · by_contra hc
    have g0 : 0 ≤ orient b1 c1 a2 := not_lt.1 hc
    have f10 : 0 ≤ orient b1 c1 a2 := by linarith
    have f12 : orient b1 c1 c2 < 0 := by linarith
    have f14 : 0 < orient b1 a2 c2 := by linarith
    have f17 : orient c1 a2 c2 ≤ 0 := by linarith
    rcases lt_trichotomy (orient b1 c1 a2) 0 with hs | hs | hs
    · exfalso; linarith
    · exfalso
      have r := lin4 b1 c1 a2 c2
      linarith
    · exfalso
      have r := lin4 b1 c1 a2 c2
      linarith
  · by_contra hc
    have g0 : 0 ≤ orient b1 c1 b2 := not_lt.1 hc
    linarith
  · by_contra hc
    have g0 : 0 ≤ orient b1 c1 c2 := not_lt.1 hc
    linarith

theorem leafV_14 {a1 b1 c1 a2 b2 c2 : Point} (h0 : 0 < orient a1 b1 c1) (h1 : 0 < orient a2 b2 c2) (h2 : 0 ≤ orient a2 b2 a1) (h3 : orient b2 c2 a1 < 0) (h4 : orient c2 a2 a1 < 0) (h5 : orient c2 a2 b1 < 0) (h6 : orient c2 a2 c1 < 0) :
    Separated a1 b1 c1 a2 b2 c2 := by
  have ea2b2a1 := o_a2_b2_a1 (a1 := a1) (b1 := b1) (c1 := c1) (a2 := a2) (b2 := b2) (c2 := c2)
  have eb2c2a1 := o_b2_c2_a1 (a1 := a1) (b1 := b1) (c1 := c1) (a2 := a2) (b2 := b2) (c2 := c2)
  have ec2a2a1 := o_c2_a2_a1 (a1 := a1) (b1 := b1) (c1 := c1) (a2 := a2) (b2 := b2) (c2 := c2)
  have ec2a2b1 := o_c2_a2_b1 (a1 := a1) (b1 := b1) (c1 := c1) (a2 := a2) (b2 := b2) (c2 := c2)
  have ec2a2c1 := o_c2_a2_c1 (a1 := a1) (b1 := b1) (c1 := c1) (a2 := a2) (b2 := b2) (c2 := c2)
  refine Or.inr (Or.inr (Or.inr (Or.inr (Or.inr (⟨?_, ?_, ?_⟩)))))
  · by_contra hc
    have g0 : 0 ≤ orient c2 a2 a1 := not_lt.1 hc
    linarith
  · by_contra hc
    have g0 : 0 ≤ orient c2 a2 b1 := not_lt.1 hc
    linarith
  · by_contra hc
    have g0 : 0 ≤ orient c2 a2 c1 := not_lt.1 hc
    linarith

theorem testEdges_iff {a1 b1 c1 a2 b2 c2 : Point} (hA : 0 < orient a1 b1 c1) (hB : 0 < orient a2 b2 c2) (r1 : 0 ≤ orient a2 b2 a1) (r2 : 0 ≤ orient b2 c2 a1)
    (r3 : orient c2 a2 a1 < 0) : testEdges a1 b1 c1 a2 c2 = true ↔ ¬Separated a1 b1 c1 a2 b2 c2 := by
  unfold testEdges
  by_cases k0 : 0 ≤ orient c2 a2 b1
  · skip
    by_cases k1 : 0 ≤ orient a1 a2 b1
    · skip
      by_cases k2 : 0 ≤ orient a1 b1 c2
      · skip
        have L := leafE_0 hA hB r1 r2 r3 k0 k1 k2
        grind
      · rw [not_le] at k2
        have L := leafE_1 hA hB r1 r2 r3 k0 k1 k2
        grind
    · rw [not_le] at k1
      by_cases k2 : 0 ≤ orient b1 c1 a2
      · skip
        by_cases k3 : 0 ≤ orient c1 a1 a2
        · skip
          have L := leafE_2 hA hB r1 r2 r3 k0 k1 k2 k3
          grind
        · rw [not_le] at k3
          have L := leafE_3 hA hB r1 r2 r3 k0 k1 k2 k3
          grind
      · rw [not_le] at k2
        have L := leafE_4 hA hB r1 r2 r3 k0 k1 k2
        grind
  · rw [not_le] at k0
    by_cases k1 : 0 ≤ orient c2 a2 c1
    · skip
      by_cases k2 : 0 ≤ orient a1 a2 c1
      · skip
        by_cases k3 : 0 ≤ orient a1 c1 c2
        · skip
          have L := leafE_5 hA hB r1 r2 r3 k0 k1 k2 k3
          grind
        · rw [not_le] at k3
          by_cases k4 : 0 ≤ orient b1 c1 c2
          · skip
            have L := leafE_6 hA hB r1 r2 r3 k0 k1 k2 k3 k4
            grind
          · rw [not_le] at k4
            have L := leafE_7 hA hB r1 r2 r3 k0 k1 k2 k3 k4
            grind
      · rw [not_le] at k2
        have L := leafE_8 hA hB r1 r2 r3 k0 k1 k2
        grind
    · rw [not_le] at k1
      have L := leafE_9 hA hB r1 r2 r3 k0 k1
      grind

theorem testVertex_iff {a1 b1 c1 a2 b2 c2 : Point} (hA : 0 < orient a1 b1 c1) (hB : 0 < orient a2 b2 c2) (r1 : 0 ≤ orient a2 b2 a1) (r2 : orient b2 c2 a1 < 0)
    (r3 : orient c2 a2 a1 < 0) : testVertex a1 b1 c1 a2 b2 c2 = true ↔ ¬Separated a1 b1 c1 a2 b2 c2 := by
  unfold testVertex
  by_cases k0 : 0 ≤ orient c2 a2 b1
  · skip
    by_cases k1 : orient c2 b2 b1 ≤ 0
    · skip
      by_cases k2 : 0 < orient a1 a2 b1
      · skip
        by_cases k3 : orient a1 b2 b1 ≤ 0
        · skip
          have L := leafV_0 hA hB r1 r2 r3 k0 k1 k2 k3
          grind
        · rw [not_le] at k3
          have L := leafV_1 hA hB r1 r2 r3 k0 k1 k2 k3
          grind
      · rw [not_lt] at k2
        by_cases k3 : 0 ≤ orient a1 a2 c1
        · skip
          by_cases k4 : 0 ≤ orient b1 c1 a2
          · skip
            have L := leafV_2 hA hB r1 r2 r3 k0 k1 k2 k3 k4
            grind
          · rw [not_le] at k4
            have L := leafV_3 hA hB r1 r2 r3 k0 k1 k2 k3 k4
            grind
        · rw [not_le] at k3
          have L := leafV_4 hA hB r1 r2 r3 k0 k1 k2 k3
          grind
    · rw [not_le] at k1
      by_cases k2 : orient a1 b2 b1 ≤ 0
      · skip
        by_cases k3 : orient c2 b2 c1 ≤ 0
        · skip
          by_cases k4 : 0 ≤ orient b1 c1 b2
          · skip
            have L := leafV_5 hA hB r1 r2 r3 k0 k1 k2 k3 k4
            grind
          · rw [not_le] at k4
            have L := leafV_6 hA hB r1 r2 r3 k0 k1 k2 k3 k4
            grind
        · rw [not_le] at k3
          have L := leafV_7 hA hB r1 r2 r3 k0 k1 k2 k3
          grind
      · rw [not_le] at k2
        have L := leafV_8 hA hB r1 r2 r3 k0 k1 k2
        grind
  · rw [not_le] at k0
    by_cases k1 : 0 ≤ orient c2 a2 c1
    · skip
      by_cases k2 : 0 ≤ orient b1 c1 c2
      · skip
        by_cases k3 : 0 ≤ orient a1 a2 c1
        · skip
          have L := leafV_9 hA hB r1 r2 r3 k0 k1 k2 k3
          grind
        · rw [not_le] at k3
          have L := leafV_10 hA hB r1 r2 r3 k0 k1 k2 k3
          grind
      · rw [not_le] at k2
        by_cases k3 : 0 ≤ orient b1 c1 b2
        · skip
          by_cases k4 : 0 ≤ orient c2 c1 b2
          · skip
            have L := leafV_11 hA hB r1 r2 r3 k0 k1 k2 k3 k4
            grind
          · rw [not_le] at k4
            have L := leafV_12 hA hB r1 r2 r3 k0 k1 k2 k3 k4
            grind
        · rw [not_le] at k3
          have L := leafV_13 hA hB r1 r2 r3 k0 k1 k2 k3
          grind
    · rw [not_le] at k1
      have L := leafV_14 hA hB r1 r2 r3 k0 k1
      grind

end Verif.AABB

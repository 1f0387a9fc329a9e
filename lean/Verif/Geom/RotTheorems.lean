import Verif.Geom.RotModel
import Verif.Geom.LineTheorems
import Mathlib.Tactic.FinCases
/-
Rotations in space (C67).
-/
namespace Verif.Geom
open Real Matrix

/-- A rotation: columns of length 1 and perpendicular to each other, orientation kept. -/
def IsRot (m : Matrix (Fin 3) (Fin 3) ℝ) : Prop := mᵀ * m = 1 ∧ m.det = 1

theorem IsRot.mul {a b : Matrix (Fin 3) (Fin 3) ℝ} (ha : IsRot a) (hb : IsRot b) : IsRot (a * b) := by
  refine ⟨?_, by rw [det_mul, ha.2, hb.2, one_mul]⟩
  rw [transpose_mul, Matrix.mul_assoc, ← Matrix.mul_assoc aᵀ, ha.1, Matrix.one_mul, hb.1]

theorem IsRot.transpose {a : Matrix (Fin 3) (Fin 3) ℝ} (ha : IsRot a) : IsRot aᵀ :=
  ⟨by rw [transpose_transpose]; exact mul_eq_one_comm.mp ha.1, by rw [det_transpose]; exact ha.2⟩

/-- The matrix of heading, pitch and roll is a rotation. -/
theorem rot_isRot (h p r : ℝ) : IsRot (rot h p r) := by
  have h1 := sin_sq_add_cos_sq h
  have h2 := sin_sq_add_cos_sq p
  have h3 := sin_sq_add_cos_sq r
  generalize hsh : sin h = sh at *
  generalize hch : cos h = ch at *
  generalize hsp : sin p = sp at *
  generalize hcp : cos p = cp at *
  generalize hsr : sin r = sr at *
  generalize hcr : cos r = cr at *
  have e : rot h p r = !![ch * cp, ch * sp * sr - sh * cr, sh * sr + ch * sp * cr;
    sh * cp, ch * cr + sh * sp * sr, sh * sp * cr - ch * sr; -sp, cp * sr, cp * cr] := by
    unfold rot; rw [hsh, hch, hsp, hcp, hsr, hcr]
  rw [e]
  have hch2 : ch ^ 2 = 1 - sh ^ 2 := by linarith
  have hcp2 : cp ^ 2 = 1 - sp ^ 2 := by linarith
  have hcr2 : cr ^ 2 = 1 - sr ^ 2 := by linarith
  constructor
  · ext i j
    fin_cases i <;> fin_cases j <;>
      simp [Matrix.mul_apply, Fin.sum_univ_three] <;> ring_nf <;>
      simp only [hch2, hcp2, hcr2] <;> ring_nf
  · rw [det_fin_three]
    simp
    ring_nf
    simp only [hch2, hcp2, hcr2]
    ring_nf

/-- Entries of the cofactor matrix are those of the rotation. -/
theorem IsRot.adjugate {m : Matrix (Fin 3) (Fin 3) ℝ} (hm : IsRot m) : m.adjugate = mᵀ := by
  have h := mul_adjugate m
  rw [hm.2, one_smul] at h
  calc m.adjugate = mᵀ * (m * m.adjugate) := by rw [← Matrix.mul_assoc, hm.1, Matrix.one_mul]
    _ = mᵀ := by rw [h, Matrix.mul_one]

theorem clampEntry_id {x : ℝ} (h : small ≤ |x|) : clampEntry x = x := if_neg (not_lt.mpr h)

/-- Not a gimbal lock: the two entries the code replaces are not near 0. -/
def Clear (m : Matrix (Fin 3) (Fin 3) ℝ) : Prop := small ≤ |m 0 0| ∧ small ≤ |m 2 2|

/-- The angles extracted from a rotation describe that rotation. -/
theorem rot_eulerOf {m : Matrix (Fin 3) (Fin 3) ℝ} (hm : IsRot m) (hc : Clear m) :
    rot (eulerOf m).1 (eulerOf m).2.1 (eulerOf m).2.2 = m := by
  have hs := small_pos
  have hadj := hm.adjugate
  have horth := hm.1
  have horth' := mul_eq_one_comm.mp horth
  have col : ∀ i j, m 0 i * m 0 j + m 1 i * m 1 j + m 2 i * m 2 j = (1 : Matrix (Fin 3) (Fin 3) ℝ) i j := by
    intro i j
    rw [← horth, Matrix.mul_apply, Fin.sum_univ_three]
    simp [transpose_apply]
  have row : ∀ i j, m i 0 * m j 0 + m i 1 * m j 1 + m i 2 * m j 2 = (1 : Matrix (Fin 3) (Fin 3) ℝ) i j := by
    intro i j
    rw [← horth', Matrix.mul_apply, Fin.sum_univ_three]
    simp [transpose_apply]
  rw [adjugate_fin_three] at hadj
  have cof : ∀ i j, _ = mᵀ i j := fun i j => congrFun (congrFun hadj i) j
  have c00 := col 0 0
  have c01 := col 0 1
  have c02 := col 0 2
  have r22 := row 2 2
  have k22 := cof 2 2
  have k21 := cof 1 2
  have k11 := cof 1 1
  have k12 := cof 2 1
  have k01 := cof 1 0
  have k02 := cof 2 0
  simp at c00 c01 c02 r22 k22 k21 k11 k12 k01 k02
  unfold eulerOf
  rw [clampEntry_id hc.1, clampEntry_id hc.2]
  have hm22 : m 2 2 ≠ 0 := by
    intro h; have := hc.2; rw [h, abs_zero] at this; linarith
  have hC2 : 0 < m 2 1 * m 2 1 + m 2 2 * m 2 2 := by
    have := mul_self_pos.mpr hm22
    nlinarith [mul_self_nonneg (m 2 1)]
  obtain ⟨hh1, hh2⟩ := atan2_direction (m 0 0) (m 1 0)
  obtain ⟨hr1, hr2⟩ := atan2_direction (m 2 2) (m 2 1)
  obtain ⟨hp1, hp2⟩ := atan2_direction (sqrt (m 2 1 * m 2 1 + m 2 2 * m 2 2)) (-m 2 0)
  rw [Real.sq_sqrt hC2.le, show m 2 1 * m 2 1 + m 2 2 * m 2 2 + (-m 2 0) ^ 2 = 1 by linarith, sqrt_one,
    one_mul] at hp1 hp2
  rw [show m 2 2 ^ 2 + m 2 1 ^ 2 = m 2 1 * m 2 1 + m 2 2 * m 2 2 by ring] at hr1 hr2
  rw [show m 0 0 ^ 2 + m 1 0 ^ 2 = m 2 1 * m 2 1 + m 2 2 * m 2 2 by linarith] at hh1 hh2
  have hc0 : 0 < sqrt (m 2 1 * m 2 1 + m 2 2 * m 2 2) := sqrt_pos.mpr hC2
  have hc2 : sqrt (m 2 1 * m 2 1 + m 2 2 * m 2 2) ^ 2 = m 2 1 * m 2 1 + m 2 2 * m 2 2 := sq_sqrt hC2.le
  have hdir := interval2PI_direction
  unfold rot
  simp only [(hdir _).1, (hdir _).2]
  rw [hp1, hp2]
  generalize sqrt (m 2 1 * m 2 1 + m 2 2 * m 2 2) = c at *
  generalize cos (atan2 (m 1 0) (m 0 0)) = ch at *
  generalize sin (atan2 (m 1 0) (m 0 0)) = sh at *
  generalize cos (atan2 (m 2 1) (m 2 2)) = cr at *
  generalize sin (atan2 (m 2 1) (m 2 2)) = sr at *
  have hcc : c ^ 2 ≠ 0 := by positivity
  ext i j
  fin_cases i <;> fin_cases j <;> simp
  · linarith
  · refine mul_right_cancel₀ hcc ?_
    linear_combination (-m 2 0) * (c * sr * hh1 + m 0 0 * hr2) - (c * cr * hh2 + m 1 0 * hr1)
      - m 0 1 * (hc2 + r22 - c00) - m 0 0 * c01 + m 1 0 * k22
  · refine mul_right_cancel₀ hcc ?_
    linear_combination (c * sr * hh2 + m 1 0 * hr2) - m 2 0 * (c * cr * hh1 + m 0 0 * hr1)
      - m 0 2 * (hc2 + r22 - c00) - m 0 0 * c02 - m 1 0 * k21
  · linarith
  · refine mul_right_cancel₀ hcc ?_
    linear_combination (c * cr * hh1 + m 0 0 * hr1) - m 2 0 * (c * sr * hh2 + m 1 0 * hr2)
      - m 1 1 * (hc2 + r22 - c00) - m 1 0 * c01 - m 0 0 * k22
  · refine mul_right_cancel₀ hcc ?_
    linear_combination (-m 2 0) * (c * cr * hh2 + m 1 0 * hr1) - (c * sr * hh1 + m 0 0 * hr2)
      - m 1 2 * (hc2 + r22 - c00) - m 1 0 * c02 + m 0 0 * k21
  · linarith
  · linarith

/-- C67: the composition of two orientations describes the product of the two rotations. -/
theorem compose_spec_partial {h0 p0 r0 h1 p1 r1 : ℝ} (hc : Clear (rot h0 p0 r0 * rot h1 p1 r1)) :
    rot (compose h0 p0 r0 h1 p1 r1).1 (compose h0 p0 r0 h1 p1 r1).2.1 (compose h0 p0 r0 h1 p1 r1).2.2
      = rot h0 p0 r0 * rot h1 p1 r1 :=
  rot_eulerOf ((rot_isRot _ _ _).mul (rot_isRot _ _ _)) hc

/-! ### Inversion -/

/-- The right half of the augmented matrix times the original matrix is the left half. -/
def AugInv (m : Matrix (Fin 3) (Fin 3) ℝ) (a : Matrix (Fin 3) (Fin 3) ℝ × Matrix (Fin 3) (Fin 3) ℝ) : Prop :=
  ∀ k j, a.1 k j = a.2 k 0 * m 0 j + a.2 k 1 * m 1 j + a.2 k 2 * m 2 j

theorem gaussStep_inv {m : Matrix (Fin 3) (Fin 3) ℝ} {i : Fin 3}
    {a b : Matrix (Fin 3) (Fin 3) ℝ × Matrix (Fin 3) (Fin 3) ℝ} (ha : AugInv m a)
    (h : gaussStep i a = some b) : AugInv m b := by
  unfold gaussStep at h
  split_ifs at h with hp
  rw [Option.some.injEq] at h
  subst h
  intro k j
  unfold clearColumn scaleRow
  have hk := ha k j
  have hi := ha i j
  simp only
  by_cases hki : k = i
  · subst hki
    simp only [ne_eq, not_true_eq_false, if_false, if_true]
    rw [hi]; ring
  · simp only [ne_eq, hki, not_false_eq_true, if_true, if_false]
    rw [hk, hi]; ring

/-- The column is that of the unit matrix. -/
def UnitCol (a : Matrix (Fin 3) (Fin 3) ℝ) (j : Fin 3) : Prop := ∀ k, a k j = if k = j then 1 else 0

theorem gaussStep_col {i : Fin 3} {a b : Matrix (Fin 3) (Fin 3) ℝ × Matrix (Fin 3) (Fin 3) ℝ}
    (h : gaussStep i a = some b) :
    UnitCol b.1 i ∧ ∀ j, j ≠ i → UnitCol a.1 j → UnitCol b.1 j := by
  unfold gaussStep at h
  split_ifs at h with hp
  rw [Option.some.injEq] at h
  subst h
  constructor
  · intro k
    unfold clearColumn scaleRow
    by_cases hki : k = i
    · subst hki
      simp [hp]
    · simp [hki, hp]
  · intro j hj hu k
    unfold clearColumn scaleRow
    have hij := hu i
    have hkj := hu k
    rw [if_neg (Ne.symm hj)] at hij
    by_cases hki : k = i
    · subst hki
      simp [hij, Ne.symm hj]
    · simp [hki, hij, hkj]

/-- C67: if the inversion gives a matrix, it is the inverse. -/
theorem invert_spec {m x : Matrix (Fin 3) (Fin 3) ℝ} (h : invert m = some x) : x * m = 1 ∧ m * x = 1 := by
  unfold invert at h
  rw [Option.map_eq_some_iff] at h
  obtain ⟨c, hc, rfl⟩ := h
  rw [Option.bind_eq_some_iff] at hc
  obtain ⟨b, hb, hc⟩ := hc
  rw [Option.bind_eq_some_iff] at hb
  obtain ⟨a, ha, hb⟩ := hb
  have i0 : AugInv m (m, 1) := by
    intro k j
    simp only [Matrix.one_apply]
    fin_cases k <;> simp
  have i3 := gaussStep_inv (gaussStep_inv (gaussStep_inv i0 ha) hb) hc
  have ca := gaussStep_col ha
  have cb := gaussStep_col hb
  have cc := gaussStep_col hc
  have u2 : UnitCol c.1 2 := cc.1
  have u1 : UnitCol c.1 1 := cc.2 1 (by decide) cb.1
  have u0 : UnitCol c.1 0 := cc.2 0 (by decide) (cb.2 0 (by decide) ca.1)
  have e : c.2 * m = 1 := by
    ext k j
    rw [Matrix.mul_apply, Fin.sum_univ_three, ← i3 k j, Matrix.one_apply]
    fin_cases j
    · exact u0 k
    · exact u1 k
    · exact u2 k
  exact ⟨e, mul_eq_one_comm.mp e⟩

/-- C67: the relative orientation turns the orientation of the road into the absolute one. -/
theorem relAngles_spec_partial {hr pr rr ha pa ra : ℝ} (hi : (invert (rot hr pr rr)).isSome)
    (hc : Clear ((rot hr pr rr)ᵀ * rot ha pa ra)) :
    rot hr pr rr * rot (relAngles hr pr rr ha pa ra).1 (relAngles hr pr rr ha pa ra).2.1
      (relAngles hr pr rr ha pa ra).2.2 = rot ha pa ra := by
  obtain ⟨x, hx⟩ := Option.isSome_iff_exists.mp hi
  have hinv := invert_spec hx
  have hrot := rot_isRot hr pr rr
  have hxt : x = (rot hr pr rr)ᵀ := by
    calc x = ((rot hr pr rr)ᵀ * rot hr pr rr) * x := by rw [hrot.1, Matrix.one_mul]
      _ = (rot hr pr rr)ᵀ := by rw [Matrix.mul_assoc, hinv.2, Matrix.mul_one]
  have e : relAngles hr pr rr ha pa ra = eulerOf ((rot hr pr rr)ᵀ * rot ha pa ra) := by
    unfold relAngles
    rw [hx, Option.getD_some, hxt]
  rw [e, rot_eulerOf (hrot.transpose.mul (rot_isRot _ _ _)) hc, ← Matrix.mul_assoc,
    mul_eq_one_comm.mp hrot.1, Matrix.one_mul]

/-- C67: the relative orientation of a composition is the second orientation. -/
theorem relAngles_compose_partial {h0 p0 r0 h1 p1 r1 : ℝ} (hi : (invert (rot h0 p0 r0)).isSome)
    (hc : Clear (rot h0 p0 r0 * rot h1 p1 r1)) (hc1 : Clear (rot h1 p1 r1)) :
    let c := compose h0 p0 r0 h1 p1 r1
    let d := relAngles h0 p0 r0 c.1 c.2.1 c.2.2
    rot d.1 d.2.1 d.2.2 = rot h1 p1 r1 := by
  intro c d
  have hcs := compose_spec_partial hc
  have ht : (rot h0 p0 r0)ᵀ * rot c.1 c.2.1 c.2.2 = rot h1 p1 r1 := by
    show (rot h0 p0 r0)ᵀ * rot (compose h0 p0 r0 h1 p1 r1).1 _ _ = _
    rw [hcs, ← Matrix.mul_assoc, (rot_isRot h0 p0 r0).1, Matrix.one_mul]
  have hrel := relAngles_spec_partial (ha := c.1) (pa := c.2.1) (ra := c.2.2) hi (by rw [ht]; exact hc1)
  have : (rot h0 p0 r0)ᵀ * (rot h0 p0 r0 * rot d.1 d.2.1 d.2.2)
      = (rot h0 p0 r0)ᵀ * rot c.1 c.2.1 c.2.2 := by rw [hrel]
  rwa [ht, ← Matrix.mul_assoc, (rot_isRot h0 p0 r0).1, Matrix.one_mul] at this

/-- C67 fails: without exchange of rows the inversion gives up on a matrix with an inverse, e.g. the
rotation by 90 degrees. -/
theorem invert_ninety_fails : invert (rot (π / 2) 0 0) = none ∧
    (rot (π / 2) 0 0)ᵀ * rot (π / 2) 0 0 = 1 := by
  refine ⟨?_, (rot_isRot _ _ _).1⟩
  unfold invert gaussStep
  simp [rot]

/-- C67 fails: then the relative orientation is 0 whatever the absolute orientation. -/
theorem relAngles_ninety_fails (ha pa ra : ℝ) : relAngles (π / 2) 0 0 ha pa ra = (0, 0, 0) := by
  have hs := small_pos
  have h2 : (0 : ℝ) < 2 * π := by linarith [pi_pos]
  have hz : ∀ x : ℝ, 0 ≤ x → atan2 0 x = 0 := by
    intro x hx
    have : (⟨x, 0⟩ : ℂ) = (x : ℂ) := by apply Complex.ext <;> simp
    unfold atan2
    rw [this, Complex.arg_ofReal_of_nonneg hx]
  have h0 : interval2PI π 0 = 0 := interval2PI_id pi_pos le_rfl h2
  have hcl : clampEntry 0 = small := by
    unfold clampEntry sign
    rw [abs_zero, if_pos hs, if_neg (lt_irrefl _), one_mul]
  unfold relAngles
  rw [invert_ninety_fails.1, Option.getD_none, Matrix.zero_mul]
  unfold eulerOf
  simp only [Matrix.zero_apply, hcl, neg_zero]
  rw [hz _ hs.le, hz _ (sqrt_nonneg _), h0]

/-- C67 fails: a heading of 90 degrees on a flat road going east comes out wrong, the tangent of the
result is a million. -/
theorem compose_ninety_fails : (compose 0 0 0 (π / 2) 0 0).1 ≠ π / 2 := by
  have hs := small_pos
  have e00 : (rot 0 0 0 * rot (π / 2) 0 0) 0 0 = 0 := by
    rw [Matrix.mul_apply, Fin.sum_univ_three]
    simp [rot]
  have e10 : (rot 0 0 0 * rot (π / 2) 0 0) 1 0 = 1 := by
    rw [Matrix.mul_apply, Fin.sum_univ_three]
    simp [rot]
  have hcl : clampEntry 0 = small := by
    unfold clampEntry sign
    rw [abs_zero, if_pos hs, if_neg (lt_irrefl _), one_mul]
  have hd := interval2PI_direction (atan2 1 small)
  have ha := atan2_direction small 1
  intro h
  have h' : interval2PI π (atan2 1 small) = π / 2 := by
    have := h
    unfold compose eulerOf at this
    rwa [e00, e10, hcl] at this
  rw [h', cos_pi_div_two] at hd
  rw [← hd.1, mul_zero] at ha
  linarith [ha.1]

/-! ### Turning a vector -/

theorem clamped_id {m : Matrix (Fin 3) (Fin 3) ℝ} (hc : Clear m) : clamped m = m := by
  ext i j
  unfold clamped
  split_ifs with h
  · rcases h with ⟨rfl, rfl⟩ | ⟨rfl, rfl⟩
    · exact clampEntry_id hc.1
    · exact clampEntry_id hc.2
  · rfl

/-- Squared length. -/
def normSq (v : ℝ × ℝ × ℝ) : ℝ := v.1 ^ 2 + v.2.1 ^ 2 + v.2.2 ^ 2

/-- C67: turning and turning back are inverse to each other and keep lengths. -/
theorem rotateVec_inverse_partial {h p r : ℝ} (hc : Clear (rot h p r)) (v : ℝ × ℝ × ℝ) :
    inverseRotateVec h p r (rotateVec h p r v) = v ∧ rotateVec h p r (inverseRotateVec h p r v) = v ∧
      normSq (rotateVec h p r v) = normSq v := by
  have h1 := sin_sq_add_cos_sq h
  have h2 := sin_sq_add_cos_sq p
  have h3 := sin_sq_add_cos_sq r
  have hch2 : cos h ^ 2 = 1 - sin h ^ 2 := by linarith
  have hcp2 : cos p ^ 2 = 1 - sin p ^ 2 := by linarith
  have hcr2 : cos r ^ 2 = 1 - sin r ^ 2 := by linarith
  obtain ⟨x, y, z⟩ := v
  unfold rotateVec
  rw [clamped_id hc]
  unfold inverseRotateVec multVec rot normSq
  refine ⟨?_, ?_, ?_⟩
  · ext <;> simp <;> ring_nf <;> simp only [hch2, hcp2, hcr2] <;> ring_nf
  · ext <;> simp <;> ring_nf <;> simp only [hch2, hcp2, hcr2] <;> ring_nf
  · simp
    ring_nf
    simp only [hch2, hcp2, hcr2]
    ring_nf

/-- C67 fails: the vector to the front turned by 90 degrees points a little forward, and is longer. -/
theorem rotateVec_ninety_fails : rotateVec (π / 2) 0 0 (1, 0, 0) = (small, 1, 0) := by
  have hs := small_pos
  have hcl : clampEntry 0 = small := by
    unfold clampEntry sign
    rw [abs_zero, if_pos hs, if_neg (lt_irrefl _), one_mul]
  unfold rotateVec multVec clamped rot
  simp [hcl]

/-- The error made by avoiding the gimbal lock. -/
theorem clampEntry_near (x : ℝ) : |clampEntry x - x| ≤ 2 * small := by
  have hs := small_pos
  unfold clampEntry sign
  split_ifs with h g
  · have := abs_lt.mp h
    rw [abs_le]; constructor <;> linarith
  · have := abs_lt.mp h
    rw [abs_le]; constructor <;> linarith
  · rw [sub_self, abs_zero]; linarith

/-- C67: in any case a turned vector differs from the exact one by at most 2e-6 times the size of its
first and third component, and only in these. -/
theorem rotateVec_near (h p r : ℝ) (v : ℝ × ℝ × ℝ) :
    |(rotateVec h p r v).1 - (multVec (rot h p r) v).1| ≤ 2 * small * |v.1| ∧
    (rotateVec h p r v).2.1 = (multVec (rot h p r) v).2.1 ∧
    |(rotateVec h p r v).2.2 - (multVec (rot h p r) v).2.2| ≤ 2 * small * |v.2.2| := by
  unfold rotateVec multVec clamped
  refine ⟨?_, ?_, ?_⟩
  · simp
    rw [← sub_mul, abs_mul]
    exact mul_le_mul_of_nonneg_right (clampEntry_near _) (abs_nonneg _)
  · simp
  · simp
    rw [← sub_mul, abs_mul]
    exact mul_le_mul_of_nonneg_right (clampEntry_near _) (abs_nonneg _)

/-- No turn at all. -/
example : Clear (rot 0 0 0) ∧ (invert (rot 0 0 0)).isSome := by
  have hs : small ≤ 1 := by norm_num [small]
  constructor
  · constructor <;> simp [rot, hs]
  · have e : rot 0 0 0 = 1 := by
      ext i j
      fin_cases i <;> fin_cases j <;> simp [rot]
    unfold invert gaussStep
    simp [e, clearColumn, scaleRow]

end Verif.Geom

import Verif.Geom.AngleTheorems
import Mathlib.Analysis.SpecialFunctions.Trigonometric.Basic
/-
Looking ahead in the driving direction: which way the sign of the distance is turned.
Code: EnvironmentSimulator/Libraries/esminiRMLib/esminiRMLib.cpp:39-48, EnvironmentSimulator/Libraries/esminiLib/esminiLib.cpp:270-280,
EnvironmentSimulator/Modules/RoadManager/RoadManager.cpp:6367-6372 (sign of distances along the road), 11189-11192.
Angles are real numbers.
-/
namespace Verif.Rm
open Verif.Geom Real

/-- `GetHRelativeDrivingDirection` (RoadManager.cpp:11189-11192). -/
noncomputable def relHeading (h drivingDirection : ℝ) : ℝ := angleDiff π h drivingDirection

open Classical in
/-- The test of the library and of the distances (esminiLib.cpp:276, RoadManager.cpp:6369). -/
noncomputable def against (h dir : ℝ) : Bool := decide (relHeading h dir > π / 2 ∧ relHeading h dir < 3 * (π / 2))

open Classical in
/-- The test of the road manager library: the absolute value is taken of the comparison, not of the angle (esminiRMLib.cpp:44). -/
noncomputable def againstRm (h dir : ℝ) : Bool := decide (wrapPi π (fmod (relHeading h dir) (2 * π)) > π / 2)

/-- Distance looked at: `SE_GetRoadInfoAtDistance` in driving direction (esminiLib.cpp:270-280). -/
noncomputable def signedDist (h dir d : ℝ) : ℝ := if against h dir then -d else d

/-- The same for `RM_GetLaneInfo` and `RM_GetProbeInfo` (esminiRMLib.cpp:39-48). -/
noncomputable def signedDistRm (h dir d : ℝ) : ℝ := if againstRm h dir then -d else d

/-- The heading points against the driving direction. -/
def Opposed (h dir : ℝ) : Prop := cos (h - dir) < 0

/-- The relative heading is the difference up to full turns, and at most half a turn. -/
theorem relHeading_spec (h dir : ℝ) : cos (relHeading h dir) = cos (h - dir) ∧ sin (relHeading h dir) = sin (h - dir) ∧
    |relHeading h dir| ≤ π := by
  have ht := (angleDiff_spec pi_pos h dir).1
  have hr := fmod_range (x := h - dir) (m := 2 * π) (by linarith [pi_pos])
  exact ⟨(turns_cos ht).1, (turns_cos ht).2, abs_le.2 ⟨(wrapPi_spec hr.1 hr.2).1, (wrapPi_spec hr.1 hr.2).2.1⟩⟩

/-- Facts about an angle of at most half a turn. -/
theorem quadrant {r : ℝ} (hr : |r| ≤ π) : (0 ≤ cos r → r ≤ π / 2) ∧ (sin r < 0 → r < 0) ∧ (cos r < 0 → 0 < sin r → π / 2 < r) := by
  obtain ⟨h1, h2⟩ := abs_le.1 hr
  refine ⟨fun h => ?_, fun h => ?_, fun h hs => ?_⟩
  · apply le_of_not_gt
    intro hg
    exact absurd (cos_neg_of_pi_div_two_lt_of_lt hg (by linarith [pi_pos])) (not_lt.2 h)
  · apply lt_of_not_ge
    intro hg
    exact absurd (sin_nonneg_of_nonneg_of_le_pi hg h2) (not_le.2 h)
  · apply lt_of_not_ge
    intro hg
    have h0 : 0 < r := by
      apply lt_of_not_ge
      intro hn
      exact absurd (sin_nonpos_of_nonpos_of_neg_pi_le hn h1) (not_le.2 hs)
    exact absurd (cos_nonneg_of_mem_Icc ⟨by linarith [pi_pos], hg⟩) (not_le.2 h)

/-- What each test says: aligned, turned to the left, turned to the right. -/
theorem against_cases (h dir : ℝ) : (0 ≤ cos (h - dir) → against h dir = false) ∧
    (cos (h - dir) < 0 → 0 < sin (h - dir) → against h dir = true) ∧ (sin (h - dir) < 0 → against h dir = false) := by
  obtain ⟨hc, hs, hr⟩ := relHeading_spec h dir
  obtain ⟨q1, q2, q3⟩ := quadrant hr
  rw [hc, hs] at *
  have hp := pi_pos
  refine ⟨fun a => ?_, fun a b => ?_, fun a => ?_⟩ <;> simp only [against, decide_eq_false_iff_not, decide_eq_true_eq]
  · rintro ⟨b, _⟩
    linarith [q1 a]
  · exact ⟨q3 a b, by linarith [(abs_le.1 hr).2]⟩
  · rintro ⟨b, _⟩
    linarith [q2 a]

theorem againstRm_cases (h dir : ℝ) : (0 ≤ cos (h - dir) → againstRm h dir = false) ∧
    (cos (h - dir) < 0 → 0 < sin (h - dir) → againstRm h dir = true) ∧ (sin (h - dir) < 0 → againstRm h dir = false) := by
  obtain ⟨hc, hs, _⟩ := relHeading_spec h dir
  have ht : Turns π (wrapPi π (fmod (relHeading h dir) (2 * π))) (relHeading h dir) := (intervalPI_spec pi_pos (relHeading h dir)).2.2
  have hr' := fmod_range (x := relHeading h dir) (m := 2 * π) (by linarith [pi_pos])
  have hr := abs_le.2 ⟨(wrapPi_spec hr'.1 hr'.2).1, (wrapPi_spec hr'.1 hr'.2).2.1⟩
  obtain ⟨q1, q2, q3⟩ := quadrant hr
  rw [(turns_cos ht).1, hc] at q1 q3
  rw [(turns_cos ht).2, hs] at q2 q3
  have hp := pi_pos
  refine ⟨fun a => ?_, fun a b => ?_, fun a => ?_⟩ <;> simp only [againstRm, decide_eq_false_iff_not, decide_eq_true_eq]
  · intro b
    linarith [q1 a]
  · exact q3 a b
  · intro b
    linarith [q2 a]

/-- **Looking in the driving direction is right for a vehicle that heads along it, or that is turned round to the left**: the distance is counted the other
way exactly when the vehicle heads against the driving direction. -/
theorem look_partial {h dir : ℝ} (hs : 0 < sin (h - dir) ∨ ¬ Opposed h dir) (d : ℝ) :
    (Opposed h dir → signedDist h dir d = -d ∧ signedDistRm h dir d = -d) ∧
    (¬ Opposed h dir → signedDist h dir d = d ∧ signedDistRm h dir d = d) := by
  obtain ⟨a1, a2, _⟩ := against_cases h dir
  obtain ⟨b1, b2, _⟩ := againstRm_cases h dir
  refine ⟨fun ho => ?_, fun ho => ?_⟩
  · have hs := hs.resolve_right (fun c => c ho)
    simp [signedDist, signedDistRm, a2 ho hs, b2 ho hs]
  · have ho : 0 ≤ cos (h - dir) := not_lt.1 ho
    simp [signedDist, signedDistRm, a1 ho, b1 ho]

/-- **It is wrong for every vehicle turned round to the right**: it looks backwards, in both libraries, and distances along the road have the wrong sign. -/
theorem look_fails {h dir d : ℝ} (ho : Opposed h dir) (hs : sin (h - dir) < 0) (hd : d ≠ 0) :
    Opposed h dir ∧ signedDist h dir d ≠ -d ∧ signedDistRm h dir d ≠ -d := by
  have a := (against_cases h dir).2.2 hs
  have b := (againstRm_cases h dir).2.2 hs
  have : d ≠ -d := by
    intro e
    exact hd (by linarith)
  exact ⟨ho, by simp [signedDist, a, this], by simp [signedDistRm, b, this]⟩

/-- There are such headings: three quarters of a half turn to the right. -/
theorem look_fails_case : Opposed (-(3 * π / 4)) 0 ∧ sin (-(3 * π / 4) - 0) < 0 := by
  have hp := pi_pos
  constructor
  · unfold Opposed
    rw [sub_zero, cos_neg]
    exact cos_neg_of_pi_div_two_lt_of_lt (by linarith) (by linarith)
  · rw [sub_zero]
    exact sin_neg_of_neg_of_neg_pi_lt (by linarith) (by linarith)

end Verif.Rm

import Verif.Transition.Theorems
import Verif.Transition.SpeedModel
import Mathlib.Algebra.Order.Archimedean.Basic

/-
C31: the speed action respects the performance limits; it ends, at the target speed.
-/
namespace Verif.Transition

/-! ### Lemmas on the limiters -/

theorem absLimit_eq (x m : ℝ) : absLimit x m = max (-|m|) (min |m| x) := by
  unfold absLimit sign
  have hm := abs_nonneg m
  split_ifs with h h2
  · rw [abs_of_neg h2] at h
    rw [min_eq_right (by linarith), max_eq_left (by linarith)]; ring
  · rw [abs_of_nonneg (not_lt.mp h2)] at h
    rw [min_eq_left h.le, max_eq_right (by linarith)]; ring
  · have := abs_le.mp (not_lt.mp h)
    rw [min_eq_right this.2, max_eq_right this.1]

theorem absLimit_abs_le (x m : ℝ) : |absLimit x m| ≤ |m| := by
  rw [absLimit_eq, abs_le]
  exact ⟨le_max_left _ _, max_le (by linarith [abs_nonneg m]) (min_le_left _ _)⟩

theorem clamp_eq (x lo hi : ℝ) : clamp x lo hi = min hi (max lo x) := by
  unfold clamp; rw [minM_eq, maxM_eq]

theorem absLimit_of_le {x m : ℝ} (h : |x| ≤ |m|) : absLimit x m = x := by
  unfold absLimit; rw [if_neg (not_lt.mpr h)]

/-- Limiting the magnitude does not move a value farther from a value within the limit. -/
theorem absLimit_near {x y m : ℝ} (hy : |y| ≤ |m|) : min x y ≤ absLimit x m ∧
    absLimit x m ≤ max x y := by
  have := abs_le.mp hy
  rw [absLimit_eq]
  constructor
  · rcases le_total x |m| with h | h
    · rw [min_eq_right h]; exact (min_le_left _ _).trans (le_max_right _ _)
    · rw [min_eq_left h]; exact (min_le_right _ _).trans (this.2.trans (le_max_right _ _))
  · exact max_le (this.1.trans (le_max_right _ _)) ((min_le_right _ _).trans (le_max_left _ _))

/-! ### C31: limits of one step -/

/-- The limited speed change. -/
theorem speedAfter_limits {perf : Perf} (hA : 0 ≤ perf.maxAcc) (hD : 0 ≤ perf.maxDec) {v : ℝ}
    (hv : |v| ≤ |perf.maxSpeed|) (acc : ℝ) {dt : ℝ} (hdt : 0 ≤ dt) :
    v - perf.maxDec * dt ≤ speedAfter perf v (accLimit perf acc) dt ∧
      speedAfter perf v (accLimit perf acc) dt ≤ v + perf.maxAcc * dt := by
  have h1 : accLimit perf acc ≤ perf.maxAcc := by
    unfold accLimit; rw [clamp_eq]; exact min_le_left _ _
  have h2 : -perf.maxDec ≤ accLimit perf acc := by
    unfold accLimit; rw [clamp_eq]; exact le_min (by linarith) (le_max_left _ _)
  have h3 := absLimit_near (x := v + accLimit perf acc * dt) hv
  have h4 := mul_le_mul_of_nonneg_right h1 hdt
  have h5 := mul_le_mul_of_nonneg_right h2 hdt
  have h6 := mul_nonneg hA hdt
  have h7 := mul_nonneg hD hdt
  constructor
  · refine le_trans (le_min ?_ ?_) h3.1 <;> linarith
  · refine le_trans h3.2 (max_le ?_ ?_) <;> linarith

/-- The speed found by `Step`, before the test for a reached target. -/
theorem stepSpeed_limits {perf : Perf} (hA : 0 ≤ perf.maxAcc) (hD : 0 ≤ perf.maxDec) {v : ℝ}
    (hv : |v| ≤ |perf.maxSpeed|) (td : TD) (tv : ℝ) {dt : ℝ} (hdt : small < dt) :
    v - (perf.maxDec + small) * dt ≤ (stepSpeed perf td tv v dt).2 ∧
      (stepSpeed perf td tv v dt).2 ≤ v + (perf.maxAcc + small) * dt := by
  have hd0 : 0 < dt := small_pos.trans hdt
  have hs := mul_nonneg small_pos.le hd0.le
  unfold stepSpeed
  split_ifs with h1 h2
  · have := speedAfter_limits hA hD hv (accTo tv v dt) hd0.le
    constructor <;> linarith [this.1, this.2]
  · have := speedAfter_limits hA hD hv (accTo (td.step dt).evaluate v dt) hd0.le
    constructor <;> linarith [this.1, this.2]
  · rw [not_or, not_lt, not_lt] at h2
    unfold accTo at h2
    rw [if_pos hdt, div_le_iff₀ hd0, le_div_iff₀ hd0] at h2
    constructor <;> linarith [h2.1, h2.2]

/-- C31: in one step of a speed action, with an absolute or a relative target, the speed changes by
at most the acceleration or deceleration limit times the step, up to the tolerance of 1e-6 of the
code. This holds in every state of the action, provided the speed is within the maximum speed and
the target of the transition is the limited target value, see `target_kept`. -/
theorem step_acceleration {perf : Perf} (hA : 0 ≤ perf.maxAcc) (hD : 0 ≤ perf.maxDec)
    (a : SpeedAction) (hv : |a.speed| ≤ |perf.maxSpeed|) (tv : ℝ)
    (ht : a.relative = false → a.td.targetVal = absLimit tv perf.maxSpeed) {dt : ℝ}
    (hdt : small < dt) (override : Bool) :
    (a.step perf override tv dt).speed ≤ a.speed + (perf.maxAcc + small) * dt + small ∧
      a.speed - (perf.maxDec + small) * dt - small ≤ (a.step perf override tv dt).speed := by
  have hd0 : 0 < dt := small_pos.trans hdt
  have hs := small_pos
  have hA' := mul_nonneg (by linarith : 0 ≤ perf.maxAcc + small) hd0.le
  have hD' := mul_nonneg (by linarith : 0 ≤ perf.maxDec + small) hd0.le
  unfold SpeedAction.step
  split_ifs with ho
  · constructor
    · show a.speed ≤ _; linarith
    · show _ ≤ a.speed; linarith
  · have hl := stepSpeed_limits hA hD hv (stepTarget perf tv a) tv hdt
    unfold finishStep
    split_ifs with hr
    · have htv : (stepSpeed perf (stepTarget perf tv a) tv a.speed dt).1.targetVal
          = absLimit tv perf.maxSpeed := by
        have h1 : (stepTarget perf tv a).targetVal = absLimit tv perf.maxSpeed := by
          unfold stepTarget
          split_ifs with hrel
          · exact (updateRate_cases _).2.2.2.1
          · exact ht (by simpa using hrel)
        rw [← h1]
        unfold stepSpeed
        split_ifs <;> rfl
      have := hr.2
      rw [htv] at this
      have := abs_lt.mp this
      constructor
      · show absLimit tv perf.maxSpeed ≤ _; linarith [hl.1, hl.2]
      · show _ ≤ absLimit tv perf.maxSpeed; linarith [hl.1, hl.2]
    · constructor
      · show (stepSpeed perf (stepTarget perf tv a) tv a.speed dt).2 ≤ _; linarith [hl.1, hl.2]
      · show _ ≤ (stepSpeed perf (stepTarget perf tv a) tv a.speed dt).2; linarith [hl.1, hl.2]

/-- The transition of a started action: range not negative, parameter in its range, values within
the maximum speed, limited target. -/
structure WF (perf : Perf) (a : SpeedAction) : Prop where
  range : 0 ≤ a.td.paramTargetVal
  shape : a.td.shape ≠ .undefined
  rng : a.td.dim = .rate → (small ≤ a.td.paramTargetVal ∨ a.td.shape = .step ∨ a.td.paramTargetVal = 0)
  rate0 : a.td.dim = .rate → a.td.shape ≠ .step → (small ≤ |a.td.rate| ∨ a.td.paramTargetVal = 0)
  startLim : |a.td.startVal| ≤ |perf.maxSpeed|
  targetLim : |a.td.targetVal| ≤ |perf.maxSpeed|
  speedLim : |a.speed| ≤ |perf.maxSpeed|

/-- The value of a transition lies within any bound of its start and target values, if the parameter
is in its range. -/
theorem evaluate_bound {td : TD} (hs : td.shape ≠ .undefined) (hT : 0 ≤ td.paramTargetVal)
    (hr : td.dim = .rate → (small ≤ td.paramTargetVal ∨ td.shape = .step ∨ td.paramTargetVal = 0))
    (h0 : 0 ≤ td.paramVal) (h1 : td.paramVal ≤ td.paramTargetVal) {m : ℝ}
    (ha : |td.startVal| ≤ m) (hb : |td.targetVal| ≤ m) : |td.evaluate| ≤ m := by
  by_cases hst : td.isStep
  · have := value_immediate hst td.paramVal
    rw [show td.at td.paramVal = td from rfl] at this
    rw [this]; exact hb
  · have hsm : Smooth td.shape := by
      have : td.shape ≠ .step := fun h => hst (Or.inl h)
      revert hs this
      cases td.shape <;> simp [Smooth]
    by_cases hti : small ≤ td.paramTargetVal
    · have hb2 := value_between (d := td) ⟨hsm, hti⟩ h0 h1
      rw [show td.at td.paramVal = td from rfl] at hb2
      have ha' := abs_le.mp ha
      have hb' := abs_le.mp hb
      rw [abs_le]
      exact ⟨(le_min ha'.1 hb'.1).trans hb2.1, hb2.2.trans (max_le ha'.2 hb'.2)⟩
    · -- a zero rate: the parameter stays at 0
      have hdim : td.dim = .rate := by
        by_contra hd
        exact hst (Or.inr ⟨hd, not_le.mp hti⟩)
      have hT0 : td.paramTargetVal = 0 := by
        rcases hr hdim with h | h | h
        · exact absurd h hti
        · exact absurd (Or.inl h) hst
        · exact h
      have hp : td.paramVal = 0 := le_antisymm (hT0 ▸ h1) h0
      have : td.evaluate = td.startVal := by
        unfold TD.evaluate TD.evaluateAs
        rw [if_neg hst, if_pos rfl, hp]
        rcases hsm with h | h | h <;> simp [h]
      rw [this]; exact ha

theorem updateRate_range (d : TD) (hs : d.shape ≠ .undefined) (hT : 0 ≤ d.paramTargetVal)
    (hr0 : d.dim = .rate → d.shape ≠ .step → (small ≤ |d.rate| ∨ d.paramTargetVal = 0))
    (hr1 : d.dim = .rate → (small ≤ d.paramTargetVal ∨ d.shape = .step ∨ d.paramTargetVal = 0)) :
    0 ≤ d.updateRate.paramTargetVal ∧ (d.dim = .rate → (small ≤ d.updateRate.paramTargetVal ∨
      d.shape = .step ∨ d.updateRate.paramTargetVal = 0)) := by
  by_cases hd : d.dim = .rate
  · by_cases hst : d.shape = .step
    · refine ⟨?_, fun _ => Or.inr (Or.inl hst)⟩
      unfold TD.updateRate
      split_ifs with h
      · show 0 ≤ avoidZero (d.signRate.paramByPrimPeak d.signRate.rate)
        have : d.signRate.paramByPrimPeak d.signRate.rate = 0 := by
          unfold TD.paramByPrimPeak
          rw [show d.signRate.shape = d.shape from rfl, hst]
        rw [this, avoidZero_of_nonneg le_rfl]
        exact le_max_right _ _
      · exact hT
    · have hsm : Smooth d.shape := by
        revert hs hst; cases d.shape <;> simp [Smooth]
      by_cases hr : small ≤ |d.rate|
      · have := (rate_respected hsm hd hr).1
        exact ⟨this.pos.le, fun _ => Or.inl this.2⟩
      · have h0 : d.paramTargetVal = 0 := (hr0 hd hst).resolve_left hr
        have := (updateRate_cases d).2.2.2.2.2.2.2 (Or.inr (not_le.mp hr))
        rw [this, h0]
        exact ⟨le_rfl, fun _ => Or.inr (Or.inr rfl)⟩
  · have := (updateRate_cases d).2.2.2.2.2.2.2 (Or.inl hd)
    rw [this]
    exact ⟨hT, fun h => absurd h hd⟩

/-- C31: a step keeps the speed within the maximum speed (`WF` includes `|speed| ≤ maxSpeed`),
whatever the target value, the step and the state of the transition. -/
theorem step_wf {perf : Perf} (a : SpeedAction) (h : WF perf a) (tv dt : ℝ) (override : Bool) :
    WF perf (a.step perf override tv dt) := by
  unfold SpeedAction.step
  split_ifs with ho
  · exact ⟨h.range, h.shape, h.rng, h.rate0, h.startLim, h.targetLim, h.speedLim⟩
  · -- the transition after the target update
    have ht : 0 ≤ (stepTarget perf tv a).paramTargetVal ∧ (stepTarget perf tv a).shape = a.td.shape ∧
        (stepTarget perf tv a).dim = a.td.dim ∧
        (a.td.dim = .rate → (small ≤ (stepTarget perf tv a).paramTargetVal ∨ a.td.shape = .step ∨
          (stepTarget perf tv a).paramTargetVal = 0)) ∧
        (a.td.dim = .rate → a.td.shape ≠ .step → (small ≤ |(stepTarget perf tv a).rate| ∨
          (stepTarget perf tv a).paramTargetVal = 0)) ∧
        |(stepTarget perf tv a).startVal| ≤ |perf.maxSpeed| ∧
        |(stepTarget perf tv a).targetVal| ≤ |perf.maxSpeed| := by
      unfold stepTarget
      split_ifs with hrel
      · have hc := updateRate_cases (a.td.putTarget (absLimit tv perf.maxSpeed))
        have hr := updateRate_range (a.td.putTarget (absLimit tv perf.maxSpeed)) h.shape h.range
          h.rate0 h.rng
        refine ⟨hr.1, hc.1, hc.2.1, hr.2, fun hd hst => ?_, ?_, ?_⟩
        · show small ≤ |(a.td.putTarget _).updateRate.rate| ∨
            (a.td.putTarget _).updateRate.paramTargetVal = 0
          rw [hc.2.2.2.2.2.2.1]
          rcases h.rate0 hd hst with g | g
          · exact Or.inl g
          · by_cases hsm : |a.td.rate| < small
            · right; rw [hc.2.2.2.2.2.2.2 (Or.inr hsm)]; exact g
            · exact Or.inl (not_lt.mp hsm)
        · show |(a.td.putTarget _).updateRate.startVal| ≤ _
          rw [hc.2.2.1]; exact h.startLim
        · show |(a.td.putTarget _).updateRate.targetVal| ≤ _
          rw [hc.2.2.2.1]; exact absLimit_abs_le _ _
      · exact ⟨h.range, rfl, rfl, h.rng, h.rate0, h.startLim, h.targetLim⟩
    generalize stepTarget perf tv a = td at ht
    obtain ⟨t1, t2, t3, t4, t5, t6, t7⟩ := ht
    have hspeed : |(stepSpeed perf td tv a.speed dt).2| ≤ |perf.maxSpeed| := by
      unfold stepSpeed
      split_ifs
      · exact absLimit_abs_le _ _
      · exact absLimit_abs_le _ _
      · have hp := param_after_step td t1 dt
        exact evaluate_bound (td := td.step dt) (by show td.shape ≠ _; rw [t2]; exact h.shape) t1
          (by show td.dim = _ → _; rw [t3]
              show _ → (small ≤ td.paramTargetVal ∨ td.shape = _ ∨ td.paramTargetVal = 0)
              rw [t2]; exact t4) hp.1 hp.2 t6 t7
    have hsame : (stepSpeed perf td tv a.speed dt).1 = td.at
        (stepSpeed perf td tv a.speed dt).1.paramVal := by
      unfold stepSpeed
      split_ifs <;> rfl
    unfold finishStep
    generalize stepSpeed perf td tv a.speed dt = r at hspeed hsame
    obtain ⟨td', v'⟩ := r
    simp only at hsame hspeed
    have hT : td'.paramTargetVal = td.paramTargetVal := by rw [hsame]; rfl
    have hS : td'.shape = td.shape := by rw [hsame]; rfl
    have hD : td'.dim = td.dim := by rw [hsame]; rfl
    have hR : td'.rate = td.rate := by rw [hsame]; rfl
    have hA : td'.startVal = td.startVal := by rw [hsame]; rfl
    have hB : td'.targetVal = td.targetVal := by rw [hsame]; rfl
    split_ifs
    · refine ⟨?_, ?_, ?_, ?_, ?_, ?_, absLimit_abs_le _ _⟩ <;>
        simp only [hT, hS, hD, hR, hA, hB, t2, t3]
      · exact t1
      · exact h.shape
      · exact t4
      · exact t5
      · exact t6
      · exact t7
    · refine ⟨?_, ?_, ?_, ?_, ?_, ?_, hspeed⟩ <;>
        simp only [hT, hS, hD, hR, hA, hB, t2, t3]
      · exact t1
      · exact h.shape
      · exact t4
      · exact t5
      · exact t6
      · exact t7

/-- An example: cubic from 5 to 25 m/s in 4 s, maximum speed 30, limits 3 and 8. -/
noncomputable def exPerf : Perf := ⟨30, 3, 8⟩

noncomputable def exSpeed : SpeedAction := ⟨⟨.cubic, .time, 5, 25, 4, 1, 0, 0⟩, false, false, false, false, 5⟩

theorem exSpeed_wf : WF exPerf exSpeed := by
  refine ⟨?_, (by decide), fun h => absurd h (by decide), fun h => absurd h (by decide), ?_, ?_, ?_⟩ <;>
    norm_num [exSpeed, exPerf]

example : |(exSpeed.step exPerf false 25 0.1).speed| ≤ 30 := by
  have := (step_wf exSpeed exSpeed_wf 25 0.1 false).speedLim
  simpa [exPerf] using this

/-! ### Start -/

/-- What the reader leaves in the transition before the action starts, and what an earlier execution
leaves in it: a shape, a range that is not negative, for a step an empty range, and with a rate a
range that fits the rate. -/
structure Ready (td : TD) : Prop where
  shape : td.shape ≠ .undefined
  range : 0 ≤ td.paramTargetVal
  step : td.shape = .step → td.paramTargetVal = 0 ∧ td.rate = 0
  rng : td.dim = .rate → (small ≤ td.paramTargetVal ∨ td.shape = .step ∨ td.paramTargetVal = 0)
  rate0 : td.dim = .rate → td.shape ≠ .step → (small ≤ |td.rate| ∨ td.paramTargetVal = 0)

theorem updateRate_ready {d : TD} (h : Ready d) : Ready d.updateRate := by
  have hc := updateRate_cases d
  have hr := updateRate_range d h.shape h.range h.rate0 h.rng
  refine ⟨by rw [hc.1]; exact h.shape, hr.1, fun hs => ?_, ?_, fun hd hst => ?_⟩
  · rw [hc.1] at hs
    obtain ⟨h1, h2⟩ := h.step hs
    have h3 : |d.updateRate.rate| = 0 := by rw [hc.2.2.2.2.2.2.1, h2, abs_zero]
    refine ⟨?_, abs_eq_zero.mp h3⟩
    rw [hc.2.2.2.2.2.2.2 (Or.inr (by rw [h2, abs_zero]; exact small_pos)), h1]
  · rw [hc.2.1, hc.1]; exact hr.2
  · rw [hc.2.1] at hd
    rw [hc.1] at hst
    rw [hc.2.2.2.2.2.2.1]
    rcases h.rate0 hd hst with g | g
    · exact Or.inl g
    · by_cases hsm : |d.rate| < small
      · right; rw [hc.2.2.2.2.2.2.2 (Or.inr hsm)]; exact g
      · exact Or.inl (not_lt.mp hsm)

/-- Every transition of a scenario file with a value that is not negative is ready. -/
theorem parse_ready (s : Shape) (hs : s ≠ .undefined) (dm : Dim) {v : ℝ} (hv : 0 ≤ v) :
    Ready (parseTD s dm v) := by
  unfold parseTD TD.setParamTargetVal
  split_ifs with h1 h2 h2
  · exact ⟨hs, le_rfl, fun _ => ⟨rfl, rfl⟩, fun h => absurd h h1, fun h => absurd h h1⟩
  · exact ⟨hs, hv, fun h => absurd h h2, fun h => absurd h h1, fun h => absurd h h1⟩
  · exact updateRate_ready ⟨hs, le_rfl, fun _ => ⟨rfl, rfl⟩, fun _ => Or.inr (Or.inr rfl),
      fun _ _ => Or.inr rfl⟩
  · exact updateRate_ready ⟨hs, le_rfl, fun h => absurd h h2, fun _ => Or.inr (Or.inr rfl),
      fun _ _ => Or.inr rfl⟩

theorem distanceTime_nonneg (v0 v1 : ℝ) {dist : ℝ} (hd : 0 ≤ dist) : 0 ≤ distanceTime v0 v1 dist := by
  unfold distanceTime
  split_ifs
  · exact le_rfl
  · have h1 : |v0 ^ 2 / (v0 ^ 2 + v1 ^ 2)| ≤ 1 := by
      rw [abs_of_nonneg (by positivity)]
      apply div_le_one_of_le₀ <;> nlinarith [sq_nonneg v0, sq_nonneg v1]
    have h2 : 0 ≤ dist - |v0 ^ 2 / (v0 ^ 2 + v1 ^ 2)| * dist := by nlinarith
    have h3 : 0 ≤ |v0 ^ 2 / (v0 ^ 2 + v1 ^ 2)| * dist := mul_nonneg (abs_nonneg _) hd
    positivity
  · positivity

theorem distanceTime_zero (v0 v1 : ℝ) : distanceTime v0 v1 0 = 0 := by
  unfold distanceTime
  split_ifs <;> simp

theorem Ready.congr {d e : TD} (h : Ready d) (h1 : e.shape = d.shape) (h2 : e.dim = d.dim)
    (h3 : e.paramTargetVal = d.paramTargetVal) (h4 : e.rate = d.rate) : Ready e := by
  refine ⟨?_, ?_, ?_, ?_, ?_⟩
  · rw [h1]; exact h.shape
  · rw [h3]; exact h.range
  · rw [h1, h3, h4]; exact h.step
  · rw [h1, h2, h3]; exact h.rng
  · rw [h1, h2, h3, h4]; exact h.rate0

theorem startRange_facts {td : TD} (h : Ready td) (speed tv : ℝ) :
    Ready (startRange td speed tv) ∧ (startRange td speed tv).startVal = speed ∧
      (startRange td speed tv).paramVal = 0 ∧ (startRange td speed tv).shape = td.shape ∧
      (startRange td speed tv).dim = td.dim ∧ |(startRange td speed tv).rate| = |td.rate| := by
  have hc := updateRate_cases (td.reset.putStart speed)
  have hr : Ready (td.reset.setStartVal speed) :=
    updateRate_ready (h.congr (e := td.reset.putStart speed) rfl rfl rfl rfl)
  unfold startRange
  split_ifs with hd
  · have hne : (td.reset.setStartVal speed).dim ≠ .rate := by rw [hd]; decide
    unfold TD.setParamTargetVal
    rw [if_pos hne]
    refine ⟨⟨hr.shape, distanceTime_nonneg _ _ hr.range, fun hs => ?_, fun hx => absurd hx hne,
      fun hx => absurd hx hne⟩, hc.2.2.1, hc.2.2.2.2.2.1, hc.1, hc.2.1, hc.2.2.2.2.2.2.1⟩
    obtain ⟨h1, h2⟩ := hr.step hs
    refine ⟨?_, h2⟩
    show distanceTime _ _ _ = 0
    rw [h1, distanceTime_zero]
  · exact ⟨hr, hc.2.2.1, hc.2.2.2.2.2.1, hc.1, hc.2.1, hc.2.2.2.2.2.2.1⟩

theorem limitRate_eq (perf : Perf) (td : TD) : limitRate perf td =
    ⟨td.shape, td.dim, td.startVal, td.targetVal, td.paramTargetVal, (limitRate perf td).scaleFactor,
      td.paramVal, td.rate⟩ := by
  unfold limitRate TD.setMaxRate
  split_ifs <;> rfl

theorem fixRate_facts (td : TD) (h : Ready td) : Ready (fixRate td) ∧
    (fixRate td).startVal = td.startVal ∧ (fixRate td).targetVal = td.targetVal ∧
    (fixRate td).paramVal = td.paramVal ∧ (fixRate td).shape = td.shape ∧
    (fixRate td).dim = td.dim ∧ (fixRate td).scaleFactor = td.scaleFactor ∧
    |(fixRate td).rate| = |td.rate| := by
  unfold fixRate
  split_ifs with hd
  · have hc := updateRate_cases (td.putRate (sign (td.targetVal - td.startVal) * |td.rate|))
    have ha : |sign (td.targetVal - td.startVal) * (|td.rate|)| = |td.rate| := by
      rw [sign_abs_le, abs_abs]
    have hr : Ready (td.putRate (sign (td.targetVal - td.startVal) * |td.rate|)) := by
      refine ⟨h.shape, h.range, fun hs => ⟨(h.step hs).1, ?_⟩, h.rng, fun h1 h2 => ?_⟩
      · show sign (td.targetVal - td.startVal) * |td.rate| = 0
        rw [(h.step hs).2]; simp
      · show small ≤ |sign (td.targetVal - td.startVal) * (|td.rate|)| ∨ _
        rw [ha]; exact h.rate0 h1 h2
    exact ⟨updateRate_ready hr, hc.2.2.1, hc.2.2.2.1, hc.2.2.2.2.2.1, hc.1, hc.2.1, hc.2.2.2.2.1,
      hc.2.2.2.2.2.2.1.trans ha⟩
  · exact ⟨h, rfl, rfl, rfl, rfl, rfl, rfl, rfl⟩

theorem startTD_facts {td : TD} (h : Ready td) (perf : Perf) (speed tv : ℝ) :
    Ready (startTD perf td speed tv) ∧ (startTD perf td speed tv).startVal = speed ∧
      (startTD perf td speed tv).targetVal = absLimit tv perf.maxSpeed ∧
      (startTD perf td speed tv).paramVal = 0 ∧ (startTD perf td speed tv).shape = td.shape ∧
      (startTD perf td speed tv).dim = td.dim ∧ |(startTD perf td speed tv).rate| = |td.rate| := by
  have h1 := startRange_facts h speed tv
  have hc := updateRate_cases ((startRange td speed tv).putTarget (absLimit tv perf.maxSpeed))
  have h2 : Ready ((startRange td speed tv).setTargetVal (absLimit tv perf.maxSpeed)) :=
    updateRate_ready (h1.1.congr (e := (startRange td speed tv).putTarget _) rfl rfl rfl rfl)
  have h3 : Ready (limitRate perf ((startRange td speed tv).setTargetVal
      (absLimit tv perf.maxSpeed))) := by
    rw [limitRate_eq]; exact h2.congr rfl rfl rfl rfl
  have h4 := fixRate_facts _ h3
  unfold startTD
  rw [limitRate_eq] at h4 ⊢
  exact ⟨h4.1, h4.2.1.trans (hc.2.2.1.trans h1.2.1), h4.2.2.1.trans hc.2.2.2.1,
    h4.2.2.2.1.trans (hc.2.2.2.2.2.1.trans h1.2.2.1),
    h4.2.2.2.2.1.trans (hc.1.trans h1.2.2.2.1),
    h4.2.2.2.2.2.1.trans (hc.2.1.trans h1.2.2.2.2.1),
    h4.2.2.2.2.2.2.2.trans (hc.2.2.2.2.2.2.1.trans h1.2.2.2.2.2)⟩

/-- C31: starting a speed action leaves the speed within the maximum speed, if it was before. -/
theorem start_wf {perf : Perf} (a : SpeedAction) (h : Ready a.td)
    (hv : |a.speed| ≤ |perf.maxSpeed|) (tv : ℝ) : WF perf (a.start perf false tv) := by
  have hf := startTD_facts h perf a.speed tv
  unfold SpeedAction.start
  rw [if_neg (by decide)]
  refine ⟨hf.1.range, hf.1.shape, hf.1.rng, hf.1.rate0, ?_, ?_, ?_⟩
  · show |(startTD perf a.td a.speed tv).startVal| ≤ _
    rw [hf.2.1]; exact hv
  · show |(startTD perf a.td a.speed tv).targetVal| ≤ _
    rw [hf.2.2.1]; exact absLimit_abs_le _ _
  · exact evaluate_bound hf.1.shape hf.1.range hf.1.rng hf.2.2.2.1.ge
      (hf.2.2.2.1.trans_le hf.1.range)
      (by rw [hf.2.1]; exact hv) (by rw [hf.2.2.1]; exact absLimit_abs_le _ _)

/-- The states a speed action goes through: started with an entity within its maximum speed, then
stepped. An absolute target (`relative = false`) has the same value `tv` all the time, a relative
one any value in each step. -/
inductive Reach (perf : Perf) (tv : ℝ) : SpeedAction → Prop
  | start (a : SpeedAction) (h : Ready a.td) (hv : |a.speed| ≤ |perf.maxSpeed|) :
      Reach perf tv (a.start perf false tv)
  | step (a : SpeedAction) (h : Reach perf tv a) (override : Bool) (tv' dt : ℝ)
      (ht : a.relative = false → tv' = tv) : Reach perf tv (a.step perf override tv' dt)

theorem step_kind (perf : Perf) (a : SpeedAction) (override : Bool) (tv dt : ℝ) :
    (a.step perf override tv dt).relative = a.relative ∧
      (a.relative = false → (a.step perf override tv dt).td.targetVal = a.td.targetVal) := by
  unfold SpeedAction.step
  split_ifs
  · exact ⟨rfl, fun _ => rfl⟩
  · have : a.relative = false → (stepSpeed perf (stepTarget perf tv a) tv a.speed dt).1.targetVal
        = a.td.targetVal := by
      intro h
      have e : stepTarget perf tv a = a.td := by unfold stepTarget; rw [h]; rfl
      rw [e]
      unfold stepSpeed
      split_ifs <;> rfl
    unfold finishStep
    split_ifs
    · exact ⟨rfl, this⟩
    · exact ⟨rfl, this⟩

theorem target_kept {perf : Perf} {tv : ℝ} {a : SpeedAction} (h : Reach perf tv a) :
    a.relative = false → a.td.targetVal = absLimit tv perf.maxSpeed := by
  induction h with
  | start a h hv =>
    intro _
    unfold SpeedAction.start
    rw [if_neg (by decide)]
    exact (startTD_facts h perf a.speed tv).2.2.1
  | step a h override tv' dt ht ih =>
    intro hr
    have := step_kind perf a override tv' dt
    rw [this.1] at hr
    rw [this.2 hr]; exact ih hr

theorem reach_wf {perf : Perf} {tv : ℝ} {a : SpeedAction} (h : Reach perf tv a) : WF perf a := by
  induction h with
  | start a h hv => exact start_wf a h hv tv
  | step a h override tv' dt ht ih => exact step_wf a ih tv' dt override

/-- C31, maximum speed: at any time while a speed action runs the speed is at most the maximum
speed. -/
theorem speed_limited {perf : Perf} {tv : ℝ} {a : SpeedAction} (h : Reach perf tv a) :
    |a.speed| ≤ |perf.maxSpeed| := (reach_wf h).speedLim

/-- C31, acceleration: in every step of every run of a speed action the speed changes by at most the
limit times the step, up to the tolerance 1e-6. -/
theorem acceleration_limited {perf : Perf} (hA : 0 ≤ perf.maxAcc) (hD : 0 ≤ perf.maxDec) {tv : ℝ}
    {a : SpeedAction} (h : Reach perf tv a) (override : Bool) (tv' : ℝ)
    (ht : a.relative = false → tv' = tv) {dt : ℝ} (hdt : small < dt) :
    (a.step perf override tv' dt).speed ≤ a.speed + (perf.maxAcc + small) * dt + small ∧
      a.speed - (perf.maxDec + small) * dt - small ≤ (a.step perf override tv' dt).speed :=
  step_acceleration hA hD a (speed_limited h) tv'
    (fun hr => by rw [target_kept h hr, ht hr]) hdt override

/-- The action as read from a file: cubic, 4 s; the entity drives 5 m/s. -/
noncomputable def exRead : SpeedAction := ⟨parseTD .cubic .time 4, false, false, false, false, 5⟩

example : Reach exPerf 25 ((exRead.start exPerf false 25).step exPerf false 25 0.1) :=
  .step _ (.start _ (parse_ready .cubic (by decide) .time (by norm_num))
    (by norm_num [exRead, exPerf])) false 25 0.1 (fun _ => rfl)

/-- C31 fails for `Start`: with the step shape the speed jumps to the target when the action starts,
whatever the acceleration limit. Here from 0 to 20 m/s with a limit of 3 m/s². -/
theorem start_jump_fails :
    ((⟨parseTD .step .time 0, false, false, false, false, 0⟩ : SpeedAction).start ⟨30, 3, 8⟩ false
      20).speed = 20 := by
  have h := startTD_facts (parse_ready .step (by decide) .time le_rfl) ⟨30, 3, 8⟩ 0 20
  unfold SpeedAction.start
  rw [if_neg (by decide)]
  show (startTD ⟨30, 3, 8⟩ (parseTD .step .time 0) 0 20).evaluate = 20
  have := value_immediate (d := startTD ⟨30, 3, 8⟩ (parseTD .step .time 0) 0 20)
    (Or.inl (h.2.2.2.2.1.trans (parse_cases .step .time 0).1))
    (startTD ⟨30, 3, 8⟩ (parseTD .step .time 0) 0 20).paramVal
  rw [show (startTD ⟨30, 3, 8⟩ (parseTD .step .time 0) 0 20).at _ = _ from rfl] at this
  rw [show ∀ d : TD, d.at d.paramVal = d from fun _ => rfl] at this
  rw [this, h.2.2.1]
  norm_num [absLimit, sign]

/-! ### The action ends, at the target speed -/

theorem scale_of_setMaxRate (d : TD) {m : ℝ} (hm : small ≤ m) :
    0 < (d.setMaxRate m).scaleFactor ∧ |d.primPeak| ≤ m * (d.setMaxRate m).scaleFactor := by
  have hmp : 0 < m := lt_of_lt_of_le small_pos hm
  have ham : |m| = m := abs_of_pos hmp
  have haz : |avoidZero m| = m := by rw [avoidZero_of_ge hm, ham]
  unfold TD.setMaxRate
  rw [haz, ham]
  split_ifs with hc
  · show 0 < |d.primPeak| / m ∧ _ ≤ m * (|d.primPeak| / m)
    exact ⟨div_pos (hmp.trans hc) hmp, le_of_eq (by rw [mul_div_cancel₀ _ hmp.ne'])⟩
  · exact ⟨one_pos, by rw [mul_one]; exact not_lt.mp hc⟩

/-- The limit in the direction of the speed change. -/
noncomputable def dirLimit (perf : Perf) (td : TD) : ℝ :=
  if td.targetVal > td.startVal then perf.maxAcc else perf.maxDec

/-- The largest slope, scaled, is within the limit of the direction. -/
def Lim (perf : Perf) (td : TD) : Prop :=
  0 < td.scaleFactor ∧ |td.targetVal - td.startVal| * slope td.shape / td.paramTargetVal
    ≤ dirLimit perf td * td.scaleFactor

theorem updateRate_peak {d : TD} (hs : Smooth d.shape) (hd : d.dim = .rate)
    (hr : small ≤ |d.rate|) :
    |d.targetVal - d.startVal| * slope d.shape / d.updateRate.paramTargetVal ≤ |d.rate| := by
  have hr0 : d.rate ≠ 0 := by
    intro h0; rw [h0, abs_zero] at hr; exact absurd small_pos (not_lt.mpr hr)
  have hrp : 0 < |d.rate| := abs_pos.mpr hr0
  have hc : d.dim = .rate ∧ ¬ |d.signRate.rate| < small := by
    refine ⟨hd, ?_⟩
    show ¬ |sign _ * (|d.rate|)| < small
    rw [sign_abs_le, abs_abs]; exact not_lt.mpr hr
  have hv : d.signRate.paramByPrimPeak d.signRate.rate
      = |d.targetVal - d.startVal| * slope d.shape / |d.rate| := paramByPrimPeak_eq hs hr0
  have hnn : 0 ≤ |d.targetVal - d.startVal| * slope d.shape / |d.rate| :=
    div_nonneg (mul_nonneg (abs_nonneg _) (by have := slope_pos hs; linarith)) hrp.le
  have hu : d.updateRate.paramTargetVal
      = max small (|d.targetVal - d.startVal| * slope d.shape / |d.rate|) := by
    unfold TD.updateRate
    rw [if_pos hc, hv, avoidZero_of_nonneg hnn]
  rw [hu, div_le_iff₀ (lt_of_lt_of_le small_pos (le_max_left _ _))]
  have := mul_le_mul_of_nonneg_left (le_max_right small
    (|d.targetVal - d.startVal| * slope d.shape / |d.rate|)) hrp.le
  rwa [mul_div_cancel₀ _ hrp.ne'] at this

theorem startTD_lim {perf : Perf} (hA : small ≤ perf.maxAcc) (hD : small ≤ perf.maxDec) {td : TD}
    (h : Ready td) (speed tv : ℝ) (hr : td.dim = .rate → small ≤ |td.rate|)
    (ht : Timed (startTD perf td speed tv)) : Lim perf (startTD perf td speed tv) := by
  have h1 := startRange_facts h speed tv
  have hc := updateRate_cases ((startRange td speed tv).putTarget (absLimit tv perf.maxSpeed))
  have hsf := startTD_facts h perf speed tv
  -- the transition before the limitation
  generalize hd0 : (startRange td speed tv).setTargetVal (absLimit tv perf.maxSpeed) = d0
  have hd0' : ((startRange td speed tv).putTarget (absLimit tv perf.maxSpeed)).updateRate = d0 := hd0
  rw [hd0'] at hc
  have e : startTD perf td speed tv = fixRate (limitRate perf d0) := by unfold startTD; rw [hd0]
  have hready : Ready d0 := by
    rw [← hd0']
    exact updateRate_ready (h1.1.congr (e := (startRange td speed tv).putTarget _) rfl rfl rfl rfl)
  have hready' : Ready (limitRate perf d0) := by
    rw [limitRate_eq]; exact hready.congr rfl rfl rfl rfl
  have hf := fixRate_facts (limitRate perf d0) hready'
  rw [← e] at hf
  have hdir : dirLimit perf (startTD perf td speed tv) = dirLimit perf d0 := by
    unfold dirLimit
    rw [hf.2.1, hf.2.2.1, limitRate_eq]
  have hscale : 0 < (limitRate perf d0).scaleFactor ∧
      |d0.primPeak| ≤ dirLimit perf d0 * (limitRate perf d0).scaleFactor := by
    unfold limitRate dirLimit
    split_ifs
    · exact scale_of_setMaxRate d0 hA
    · exact scale_of_setMaxRate d0 hD
  have hst : (startTD perf td speed tv).startVal = d0.startVal := by
    rw [hf.2.1, limitRate_eq]
  have htt : (startTD perf td speed tv).targetVal = d0.targetVal := by
    rw [hf.2.2.1, limitRate_eq]
  have hsh : (startTD perf td speed tv).shape = d0.shape := by
    rw [hf.2.2.2.2.1, limitRate_eq]
  have hpeak : |d0.targetVal - d0.startVal| * slope d0.shape
      / (startTD perf td speed tv).paramTargetVal ≤ |d0.primPeak| := by
    by_cases hdim : d0.dim = .rate
    · have hrate : |d0.rate| = |td.rate| := hc.2.2.2.2.2.2.1.trans h1.2.2.2.2.2
      have hdt : td.dim = .rate := by
        rw [← hdim, hc.2.1]; exact h1.2.2.2.2.1.symm
      have hpk : |d0.primPeak| = |d0.rate| := by
        unfold TD.primPeak; rw [if_pos hdim]
      have hfr : startTD perf td speed tv = (TD.putRate (limitRate perf d0)
          (sign (d0.targetVal - d0.startVal) * |d0.rate|)).updateRate := by
        rw [e]; unfold fixRate
        rw [if_pos (by rw [limitRate_eq]; exact hdim)]
        unfold TD.setRate
        rw [limitRate_eq]
      have hab : |sign (d0.targetVal - d0.startVal) * (|d0.rate|)| = |d0.rate| := by
        rw [sign_abs_le, abs_abs]
      have := updateRate_peak (d := TD.putRate (limitRate perf d0)
          (sign (d0.targetVal - d0.startVal) * |d0.rate|))
        (by show Smooth (limitRate perf d0).shape
            rw [limitRate_eq]; rw [hsh.symm]; exact ht.1)
        (by show (limitRate perf d0).dim = _; rw [limitRate_eq]; exact hdim)
        (by show small ≤ |sign (d0.targetVal - d0.startVal) * (|d0.rate|)|
            rw [hab, hrate]; exact hr hdt)
      rw [← hfr] at this
      rw [hpk]
      have e1 : (TD.putRate (limitRate perf d0)
          (sign (d0.targetVal - d0.startVal) * |d0.rate|)).targetVal = d0.targetVal := by
        show (limitRate perf d0).targetVal = _; rw [limitRate_eq]
      have e2 : (TD.putRate (limitRate perf d0)
          (sign (d0.targetVal - d0.startVal) * |d0.rate|)).startVal = d0.startVal := by
        show (limitRate perf d0).startVal = _; rw [limitRate_eq]
      have e3 : (TD.putRate (limitRate perf d0)
          (sign (d0.targetVal - d0.startVal) * |d0.rate|)).shape = d0.shape := by
        show (limitRate perf d0).shape = _; rw [limitRate_eq]
      rw [e1, e2, e3] at this
      refine this.trans (le_of_eq hab)
    · have e0 : (startTD perf td speed tv).paramTargetVal = d0.paramTargetVal := by
        rw [e]; unfold fixRate
        rw [if_neg (by rw [limitRate_eq]; exact hdim), limitRate_eq]
      have ht0 : Timed d0 := ⟨by rw [← hsh]; exact ht.1, by rw [← e0]; exact ht.2⟩
      rw [e0, primPeak_abs ht0 hdim]
  refine ⟨by rw [hf.2.2.2.2.2.2.1]; exact hscale.1, ?_⟩
  rw [hdir, hf.2.2.2.2.2.2.1, hst, htt, hsh]
  exact hpeak.trans hscale.2

/-- An absolute action that has not reached its target. -/
structure Open (perf : Perf) (tv : ℝ) (a : SpeedAction) : Prop where
  absolute : a.relative = false
  notReached : a.reached = false
  notEnded : a.ended = false
  timed : Timed a.td
  target : a.td.targetVal = absLimit tv perf.maxSpeed

/-- The speed follows the transition. -/
structure Sync (perf : Perf) (tv : ℝ) (a : SpeedAction) : Prop extends Open perf tv a where
  lim : Lim perf a.td
  p0 : 0 ≤ a.td.paramVal
  p1 : a.td.paramVal ≤ a.td.paramTargetVal
  sync : a.speed = a.td.evaluate

/-- The action has ended at the target speed. -/
def Done (perf : Perf) (tv : ℝ) (a : SpeedAction) : Prop :=
  a.ended = true ∧ a.speed = absLimit tv perf.maxSpeed

theorem finish_cases {perf : Perf} {tv : ℝ} {a : SpeedAction} (h : Open perf tv a) (p v : ℝ) :
    (Done perf tv (finishStep perf tv a (a.td.at p, v)) ∧ |v - absLimit tv perf.maxSpeed| < small) ∨
    (Open perf tv (finishStep perf tv a (a.td.at p, v)) ∧
      (finishStep perf tv a (a.td.at p, v)).td = a.td.at p ∧
      (finishStep perf tv a (a.td.at p, v)).speed = v ∧
      (p > a.td.paramTargetVal - small → small ≤ |v - absLimit tv perf.maxSpeed|)) := by
  unfold finishStep
  split_ifs with hr
  · left
    refine ⟨⟨?_, rfl⟩, ?_⟩
    · show (a.ended || !(a.relative && a.continuous)) = true
      rw [h.absolute]; simp
    · have := hr.2
      rwa [show (a.td.at p, v).1.targetVal = a.td.targetVal from rfl, h.target] at this
  · right
    refine ⟨⟨h.absolute, h.notReached, ?_, h.timed, h.target⟩, rfl, rfl, fun hp => ?_⟩
    · show (a.ended || (a.reached && !(a.relative && a.continuous))) = false
      rw [h.notEnded, h.notReached]; rfl
    · by_contra hn
      apply hr
      refine ⟨hp, ?_⟩
      show |v - a.td.targetVal| < small
      rw [h.target]; exact not_le.mp hn

/-- While the parameter runs: the step follows the transition, no limit applies. -/
theorem phase1 {perf : Perf} (hA : 0 ≤ perf.maxAcc) (hD : 0 ≤ perf.maxDec) {tv : ℝ}
    {a : SpeedAction} (h : Sync perf tv a) (hp : ¬ a.td.paramVal > a.td.paramTargetVal - small)
    {dt : ℝ} (hdt : small < dt) :
    Done perf tv (a.step perf false tv dt) ∨
      (Sync perf tv (a.step perf false tv dt) ∧
        (a.step perf false tv dt).td = a.td.at
          (min a.td.paramTargetVal (a.td.paramVal + dt / a.td.scaleFactor))) := by
  have hd0 : 0 < dt := small_pos.trans hdt
  have hs0 := h.lim.1
  have hT := h.timed.pos
  have hx : 0 ≤ dt / a.td.scaleFactor := div_nonneg hd0.le hs0.le
  have htgt : stepTarget perf tv a = a.td := by
    unfold stepTarget; rw [h.absolute]; rfl
  have hpv : limitParam (a.td.paramVal + dt / a.td.scaleFactor) a.td.paramTargetVal
      = min a.td.paramTargetVal (a.td.paramVal + dt / a.td.scaleFactor) := by
    have := h.p0
    unfold limitParam
    split_ifs with x y
    · exact (min_eq_left (le_of_lt x)).symm
    · exact absurd y (by linarith)
    · exact (min_eq_right (by linarith)).symm
  have hstep : a.td.step dt = a.td.at
      (min a.td.paramTargetVal (a.td.paramVal + dt / a.td.scaleFactor)) := by
    unfold TD.step TD.at; rw [hpv]
  generalize hq : min a.td.paramTargetVal (a.td.paramVal + dt / a.td.scaleFactor) = q at hstep
  have hq0 : a.td.paramVal ≤ q := by
    rw [← hq]; exact le_min h.p1 (by linarith)
  have hq1 : q ≤ a.td.paramTargetVal := by rw [← hq]; exact min_le_left _ _
  have hq2 : q - a.td.paramVal ≤ dt / a.td.scaleFactor := by
    have : q ≤ a.td.paramVal + dt / a.td.scaleFactor := by rw [← hq]; exact min_le_right _ _
    linarith
  -- the speed change is within the limit of the direction
  have hsp : a.speed = (a.td.at a.td.paramVal).evaluate := h.sync
  have hlip := value_lip h.timed (h.p0.trans hq0) hq1 h.p0 h.p1
  have hch : |(a.td.at q).evaluate - a.speed| ≤ dirLimit perf a.td * dt := by
    rw [hsp]
    refine hlip.trans ?_
    rw [abs_of_nonneg (by linarith : 0 ≤ q - a.td.paramVal)]
    have hnn : 0 ≤ |a.td.targetVal - a.td.startVal| * slope a.td.shape / a.td.paramTargetVal :=
      div_nonneg (mul_nonneg (abs_nonneg _) (by have := slope_pos h.timed.1; linarith)) hT.le
    refine (mul_le_mul_of_nonneg_left hq2 hnn).trans ?_
    refine (mul_le_mul_of_nonneg_right h.lim.2 hx).trans (le_of_eq ?_)
    rw [mul_assoc, mul_div_cancel₀ _ hs0.ne']
  have hacc : ¬ (accTo (a.td.at q).evaluate a.speed dt > perf.maxAcc + small ∨
      accTo (a.td.at q).evaluate a.speed dt < -(perf.maxDec + small)) := by
    have hsm := small_pos
    unfold accTo
    rw [if_pos hdt, not_or, not_lt, not_lt, div_le_iff₀ hd0, le_div_iff₀ hd0]
    have hch' := abs_le.mp hch
    have m1 := mul_nonneg hA hd0.le
    have m2 := mul_nonneg hD hd0.le
    have m3 := mul_nonneg hsm.le hd0.le
    by_cases hdir : a.td.targetVal > a.td.startVal
    · have hmono := value_mono h.timed hdir.le h.p0 hq0 hq1
      rw [← hsp] at hmono
      unfold dirLimit at hch'
      rw [if_pos hdir] at hch'
      constructor <;> linarith [hch'.1, hch'.2]
    · have hanti := value_anti h.timed (not_lt.mp hdir) h.p0 hq0 hq1
      rw [← hsp] at hanti
      unfold dirLimit at hch'
      rw [if_neg hdir] at hch'
      constructor <;> linarith [hch'.1, hch'.2]
  have hss : stepSpeed perf a.td tv a.speed dt = (a.td.at q, (a.td.at q).evaluate) := by
    unfold stepSpeed
    rw [if_neg (fun hh => hp hh.2), hstep, if_neg hacc]
  have hres : a.step perf false tv dt
      = finishStep perf tv a (a.td.at q, (a.td.at q).evaluate) := by
    unfold SpeedAction.step
    rw [if_neg (by decide), htgt, hss]
  rw [hres]
  rcases finish_cases h.toOpen q (a.td.at q).evaluate with hd | ⟨ho, h1, h2, _⟩
  · exact Or.inl hd.1
  · right
    refine ⟨⟨ho, ?_, ?_, ?_, ?_⟩, h1⟩
    · rw [h1]; exact h.lim
    · rw [h1]; exact h.p0.trans hq0
    · rw [h1]; exact hq1
    · rw [h1, h2]

/-- After the parameter range: the speed approaches the target by at least the smaller limit. -/
theorem approach {perf : Perf} {r : ℝ} (hrA : r ≤ perf.maxAcc) (hrD : r ≤ perf.maxDec) (hr : 0 ≤ r)
    (v tv : ℝ) {dt : ℝ} (hdt : small < dt) :
    |speedAfter perf v (accLimit perf (accTo tv v dt)) dt - absLimit tv perf.maxSpeed|
      ≤ max 0 (|v - absLimit tv perf.maxSpeed| - r * dt) := by
  have hd0 : 0 < dt := small_pos.trans hdt
  have hm := abs_nonneg perf.maxSpeed
  have hacc : accTo tv v dt * dt = tv - v := by
    unfold accTo; rw [if_pos hdt, div_mul_cancel₀ _ hd0.ne']
  -- the value before the limitation of the magnitude
  have hx : (v + accLimit perf (accTo tv v dt) * dt = tv) ∨
      (v + accLimit perf (accTo tv v dt) * dt ≤ tv ∧
        v + r * dt ≤ v + accLimit perf (accTo tv v dt) * dt) ∨
      (tv ≤ v + accLimit perf (accTo tv v dt) * dt ∧
        v + accLimit perf (accTo tv v dt) * dt ≤ v - r * dt) := by
    unfold accLimit
    rw [clamp_eq]
    rcases le_total (accTo tv v dt) (-perf.maxDec) with h1 | h1
    · right; right
      rw [max_eq_left h1, min_eq_right (by linarith)]
      have := mul_le_mul_of_nonneg_right h1 hd0.le
      have := mul_le_mul_of_nonneg_right hrD hd0.le
      constructor <;> linarith
    · rw [max_eq_right h1]
      rcases le_total perf.maxAcc (accTo tv v dt) with h2 | h2
      · right; left
        rw [min_eq_left h2]
        have := mul_le_mul_of_nonneg_right h2 hd0.le
        have := mul_le_mul_of_nonneg_right hrA hd0.le
        constructor <;> linarith
      · left
        rw [min_eq_right h2, hacc]; ring
  unfold speedAfter
  generalize v + accLimit perf (accTo tv v dt) * dt = x at hx
  have hrd := mul_nonneg hr hd0.le
  generalize r * dt = k at hx hrd
  rw [absLimit_eq, absLimit_eq]
  generalize |perf.maxSpeed| = M at hm
  rcases hx with hx | ⟨hx1, hx2⟩ | ⟨hx1, hx2⟩
  · rw [hx, sub_self, abs_zero]; exact le_max_left _ _
  · have hle : max (-M) (min M x) ≤ max (-M) (min M tv) :=
      max_le_max le_rfl (min_le_min le_rfl hx1)
    rw [abs_of_nonpos (by linarith)]
    by_cases hv : v ≤ max (-M) (min M tv)
    · rw [abs_of_nonpos (by linarith)]
      rcases le_total x M with h3 | h3
      · rw [min_eq_right h3]
        have := le_max_right (-M) x
        refine le_trans ?_ (le_max_right _ _)
        linarith
      · rw [min_eq_left h3, min_eq_left (h3.trans hx1)]
        exact le_trans (by linarith) (le_max_left _ _)
    · have h4 := not_le.mp hv
      have h5 : M ≤ v := by
        by_contra h6
        have h7 : v ≤ min M tv := le_min (not_le.mp h6).le (by linarith)
        exact absurd (h7.trans (le_max_right _ _)) hv
      rw [min_eq_left (by linarith), min_eq_left (by linarith)]
      exact le_trans (by linarith) (le_max_left _ _)
  · have hle : max (-M) (min M tv) ≤ max (-M) (min M x) :=
      max_le_max le_rfl (min_le_min le_rfl hx1)
    rw [abs_of_nonneg (by linarith)]
    by_cases hv : max (-M) (min M tv) ≤ v
    · rw [abs_of_nonneg (by linarith)]
      rcases le_total (-M) x with h3 | h3
      · have h6 : max (-M) (min M x) ≤ x := max_le h3 (min_le_right _ _)
        refine le_trans ?_ (le_max_right _ _)
        linarith
      · rw [min_eq_right (by linarith : x ≤ M), max_eq_left h3, min_eq_right (by linarith : tv ≤ M),
          max_eq_left (by linarith)]
        exact le_trans (by linarith) (le_max_left _ _)
    · have h4 := not_le.mp hv
      have h5 : v ≤ -M := by
        by_contra h6
        have h7 := max_le (not_le.mp h6).le ((min_le_right M tv).trans (by linarith : tv ≤ v))
        exact absurd h7 hv
      rw [min_eq_right (by linarith : x ≤ M), max_eq_left (by linarith),
        min_eq_right (by linarith : tv ≤ M), max_eq_left (by linarith)]
      exact le_trans (by linarith) (le_max_left _ _)

theorem phase2 {perf : Perf} {r : ℝ} (hrA : r ≤ perf.maxAcc) (hrD : r ≤ perf.maxDec) (hr : 0 ≤ r)
    {tv : ℝ} {a : SpeedAction} (h : Open perf tv a)
    (hp : a.td.paramVal > a.td.paramTargetVal - small) {dt : ℝ} (hdt : small < dt) :
    Done perf tv (a.step perf false tv dt) ∨
      (Open perf tv (a.step perf false tv dt) ∧ (a.step perf false tv dt).td = a.td ∧
        |(a.step perf false tv dt).speed - absLimit tv perf.maxSpeed|
          ≤ |a.speed - absLimit tv perf.maxSpeed| - r * dt) := by
  have htgt : stepTarget perf tv a = a.td := by
    unfold stepTarget; rw [h.absolute]; rfl
  have hres : a.step perf false tv dt = finishStep perf tv a (a.td.at a.td.paramVal,
      speedAfter perf a.speed (accLimit perf (accTo tv a.speed dt)) dt) := by
    unfold SpeedAction.step
    rw [if_neg (by decide), htgt]
    unfold stepSpeed
    rw [if_pos ⟨h.timed.pos, hp⟩]
    rfl
  rw [hres]
  have happ := approach (perf := perf) hrA hrD hr a.speed tv hdt
  rcases finish_cases h a.td.paramVal
    (speedAfter perf a.speed (accLimit perf (accTo tv a.speed dt)) dt) with hd | ⟨ho, h1, h2, h3⟩
  · exact Or.inl hd.1
  · right
    refine ⟨ho, h1, ?_⟩
    rw [h2]
    have h4 := h3 hp
    have hs := small_pos
    rcases le_total 0 (|a.speed - absLimit tv perf.maxSpeed| - r * dt) with h5 | h5
    · rwa [max_eq_right h5] at happ
    · rw [max_eq_left h5] at happ
      exact absurd (h4.trans happ) (not_le.mpr hs)

theorem run_done {perf : Perf} {tv : ℝ} (dts : List ℝ) {a : SpeedAction} (h : Done perf tv a) :
    Done perf tv (runAbs perf tv dts a) := by
  cases dts with
  | nil => exact h
  | cons dt dts => unfold runAbs; rw [if_pos h.1]; exact h

theorem run_cons {perf : Perf} {tv : ℝ} (dt : ℝ) (dts : List ℝ) {a : SpeedAction}
    (h : a.ended = false) :
    runAbs perf tv (dt :: dts) a = runAbs perf tv dts (a.step perf false tv dt) := by
  show (if a.ended = true then _ else _) = _
  rw [h]; rfl

theorem run_phase2 {perf : Perf} {r : ℝ} (hrA : r ≤ perf.maxAcc) (hrD : r ≤ perf.maxDec)
    (hr : 0 < r) {tv : ℝ} (n : Nat) : ∀ {a : SpeedAction}, Open perf tv a →
      a.td.paramVal > a.td.paramTargetVal - small →
      |a.speed - absLimit tv perf.maxSpeed| < n * (r * small) →
      ∀ dts : List ℝ, n ≤ dts.length → (∀ x ∈ dts, small < x) →
        Done perf tv (runAbs perf tv dts a) := by
  induction n with
  | zero =>
    intro a _ _ hlt
    rw [Nat.cast_zero, zero_mul] at hlt
    exact absurd (abs_nonneg _) (not_le.mpr hlt)
  | succ n ih =>
    intro a ho hp hlt dts hlen hdts
    cases dts with
    | nil => simp at hlen
    | cons dt dts =>
      have hdt := hdts dt (by simp)
      rw [run_cons dt dts ho.notEnded]
      rcases phase2 hrA hrD hr.le ho hp hdt with hd | ⟨ho', htd, hle⟩
      · exact run_done dts hd
      · refine ih ho' (by rw [htd]; exact hp) ?_ dts (by simpa using hlen)
          (fun x hx => hdts x (by simp [hx]))
        have := mul_lt_mul_of_pos_left hdt hr
        push_cast at hlt
        linarith

theorem run_phase1 {perf : Perf} {r : ℝ} (hrA : r ≤ perf.maxAcc) (hrD : r ≤ perf.maxDec)
    (hr : 0 < r) {tv : ℝ} (K n : Nat) (td : TD)
    (hK : |td.startVal - absLimit tv perf.maxSpeed| < K * (r * small)) :
    ∀ {a : SpeedAction}, Sync perf tv a → a.td = td.at a.td.paramVal →
      td.paramTargetVal - a.td.paramVal ≤ n * (small / td.scaleFactor) →
      ∀ dts : List ℝ, n + K ≤ dts.length → (∀ x ∈ dts, small < x) →
        Done perf tv (runAbs perf tv dts a) := by
  -- the second phase applies as soon as the parameter is at the end
  have key : ∀ {a : SpeedAction}, Sync perf tv a → a.td = td.at a.td.paramVal →
      a.td.paramVal > a.td.paramTargetVal - small → ∀ dts : List ℝ, K ≤ dts.length →
      (∀ x ∈ dts, small < x) → Done perf tv (runAbs perf tv dts a) := by
    intro a h htd hp dts hlen hdts
    refine run_phase2 hrA hrD hr K h.toOpen hp (lt_of_le_of_lt ?_ hK) dts hlen hdts
    have hb := value_between h.timed h.p0 h.p1
    rw [show a.td.at a.td.paramVal = a.td from rfl, ← h.sync, h.target] at hb
    have hst : a.td.startVal = td.startVal := by rw [htd]; rfl
    rw [hst] at hb
    rcases le_total td.startVal (absLimit tv perf.maxSpeed) with hc | hc
    · rw [min_eq_left hc, max_eq_right hc] at hb
      rw [abs_of_nonpos (by linarith [hb.1, hb.2]), abs_of_nonpos (by linarith)]
      linarith [hb.1]
    · rw [min_eq_right hc, max_eq_left hc] at hb
      rw [abs_of_nonneg (by linarith [hb.1, hb.2]), abs_of_nonneg (by linarith)]
      linarith [hb.2]
  induction n with
  | zero =>
    intro a h htd hle dts hlen hdts
    refine key h htd ?_ dts (by simpa using hlen) hdts
    have : a.td.paramTargetVal = td.paramTargetVal := by rw [htd]; rfl
    have hs := small_pos
    rw [Nat.cast_zero, zero_mul] at hle
    rw [this]; linarith
  | succ n ih =>
    intro a h htd hle dts hlen hdts
    by_cases hp : a.td.paramVal > a.td.paramTargetVal - small
    · exact key h htd hp dts (by omega) hdts
    · cases dts with
      | nil => simp at hlen
      | cons dt dts =>
        have hdt := hdts dt (by simp)
        have hsc : a.td.scaleFactor = td.scaleFactor := by rw [htd]; rfl
        have hTT : a.td.paramTargetVal = td.paramTargetVal := by rw [htd]; rfl
        have hs0 : 0 < td.scaleFactor := by rw [← hsc]; exact h.lim.1
        rw [run_cons dt dts h.notEnded]
        rcases phase1 (by linarith) (by linarith) h hp hdt with hd | ⟨h', htd'⟩
        · exact run_done dts hd
        · refine ih h' ?_ ?_ dts (by simp at hlen; omega) (fun x hx => hdts x (by simp [hx]))
          · rw [htd', htd]; rfl
          · rw [htd']
            show td.paramTargetVal - min a.td.paramTargetVal (a.td.paramVal + dt / a.td.scaleFactor)
              ≤ _
            rw [hTT, hsc]
            have hq : 0 < small / td.scaleFactor := div_pos small_pos hs0
            have hdq : small / td.scaleFactor ≤ dt / td.scaleFactor :=
              div_le_div_of_nonneg_right hdt.le hs0.le
            push_cast at hle
            rcases le_total td.paramTargetVal (a.td.paramVal + dt / td.scaleFactor) with hc | hc
            · rw [min_eq_left hc, sub_self]; positivity
            · rw [min_eq_right hc]; linarith

/-- C60: a speed action with an absolute target ends, after a number of steps that depends only on
the situation at the start, at exactly the target speed limited by the maximum speed. `Ready` holds
for everything a scenario file can describe (`parse_ready`). A rate below 1e-6 is excluded, see
`zero_rate_never_ends`. -/
theorem speed_action_ends {perf : Perf} (hA : small ≤ perf.maxAcc) (hD : small ≤ perf.maxDec)
    (a : SpeedAction) (hr : Ready a.td) (habs : a.relative = false)
    (hrate : a.td.dim = .rate → a.td.shape ≠ .step → small ≤ |a.td.rate|) (tv : ℝ) :
    ∃ N : Nat, ∀ dts : List ℝ, N ≤ dts.length → (∀ x ∈ dts, small < x) →
      Done perf tv (runAbs perf tv dts (a.start perf false tv)) := by
  have hf := startTD_facts hr perf a.speed tv
  have hst : a.start perf false tv = ⟨startTD perf a.td a.speed tv, a.relative, a.continuous, false,
      false, (startTD perf a.td a.speed tv).evaluate⟩ := by
    unfold SpeedAction.start; rw [if_neg (by decide)]
  rw [hst]
  generalize htd : startTD perf a.td a.speed tv = td at hf
  by_cases hti : Timed td
  · -- the transition takes time
    have hlim : Lim perf td := by
      rw [← htd]
      refine startTD_lim hA hD hr a.speed tv (fun hd => hrate hd ?_) (by rw [htd]; exact hti)
      intro hs
      have := hti.1
      rw [hf.2.2.2.2.1, hs] at this
      rcases this with h | h | h <;> cases h
    have hr0 : 0 < min perf.maxAcc perf.maxDec := lt_min (small_pos.trans_le hA) (small_pos.trans_le hD)
    have hrs : 0 < min perf.maxAcc perf.maxDec * small := mul_pos hr0 small_pos
    obtain ⟨K, hK⟩ := exists_nat_gt
      (|td.startVal - absLimit tv perf.maxSpeed| / (min perf.maxAcc perf.maxDec * small))
    obtain ⟨n, hn⟩ := exists_nat_ge (td.paramTargetVal / (small / td.scaleFactor))
    refine ⟨n + K, fun dts hlen hdts => ?_⟩
    refine run_phase1 (min_le_left _ _) (min_le_right _ _) hr0 K n td ?_ ?_ rfl ?_ dts hlen hdts
    · rwa [div_lt_iff₀ hrs] at hK
    · exact ⟨⟨habs, rfl, rfl, hti, hf.2.2.1⟩, hlim, hf.2.2.2.1.ge, hf.2.2.2.1.trans_le hti.pos.le, rfl⟩
    · show td.paramTargetVal - td.paramVal ≤ _
      rw [hf.2.2.2.1, sub_zero]
      rwa [div_le_iff₀ (div_pos small_pos hlim.1)] at hn
  · -- the target speed is set at once
    have hstep : td.isStep := by
      by_contra hns
      apply hti
      have hsh : td.shape ≠ .step := fun h => hns (Or.inl h)
      have hsm : Smooth td.shape := by
        have := hf.1.shape
        revert hsh this; cases td.shape <;> simp [Smooth]
      refine ⟨hsm, ?_⟩
      by_cases hd : td.dim = .rate
      · have hrr : small ≤ |td.rate| := by
          rw [hf.2.2.2.2.2.2]
          exact hrate (hf.2.2.2.2.2.1 ▸ hd) (hf.2.2.2.2.1 ▸ hsh)
        have hd' : (limitRate perf ((startRange a.td a.speed tv).setTargetVal
            (absLimit tv perf.maxSpeed))).dim = .rate := by
          rw [limitRate_eq]
          have h1 := startRange_facts hr a.speed tv
          have h2 := (updateRate_cases ((startRange a.td a.speed tv).putTarget
            (absLimit tv perf.maxSpeed))).2.1
          exact (h2.trans h1.2.2.2.2.1).trans (hf.2.2.2.2.2.1 ▸ hd)
        have e : td = (TD.putRate (limitRate perf ((startRange a.td a.speed tv).setTargetVal
            (absLimit tv perf.maxSpeed))) (sign ((limitRate perf ((startRange a.td a.speed
              tv).setTargetVal (absLimit tv perf.maxSpeed))).targetVal - (limitRate perf
              ((startRange a.td a.speed tv).setTargetVal (absLimit tv perf.maxSpeed))).startVal) *
              |(limitRate perf ((startRange a.td a.speed tv).setTargetVal
              (absLimit tv perf.maxSpeed))).rate|)).updateRate := by
          rw [← htd]; unfold startTD fixRate; rw [if_pos hd']; rfl
        rw [e] at hsm hrr ⊢
        have hc := updateRate_cases (TD.putRate (limitRate perf ((startRange a.td a.speed
          tv).setTargetVal (absLimit tv perf.maxSpeed))) (sign ((limitRate perf ((startRange a.td
          a.speed tv).setTargetVal (absLimit tv perf.maxSpeed))).targetVal - (limitRate perf
          ((startRange a.td a.speed tv).setTargetVal (absLimit tv perf.maxSpeed))).startVal) *
          |(limitRate perf ((startRange a.td a.speed tv).setTargetVal
          (absLimit tv perf.maxSpeed))).rate|))
        rw [hc.1] at hsm
        rw [hc.2.2.2.2.2.2.1] at hrr
        exact (rate_respected hsm hd' hrr).1.2
      · by_contra hlt
        exact hns (Or.inr ⟨hd, not_le.mp hlt⟩)
    have hev : ∀ p, (td.at p).evaluate = absLimit tv perf.maxSpeed := fun p => by
      rw [value_immediate hstep p, hf.2.2.1]
    have hev0 : td.evaluate = absLimit tv perf.maxSpeed := hev td.paramVal
    have hTs : td.paramTargetVal < small := by
      rcases hstep with h | h
      · rw [(hf.1.step h).1]; exact small_pos
      · exact h.2
    have hT0 := hf.1.range
    refine ⟨1, fun dts hlen hdts => ?_⟩
    cases dts with
    | nil => simp at hlen
    | cons dt dts =>
      have hdt := hdts dt (by simp)
      have hd0 : 0 < dt := small_pos.trans hdt
      rw [run_cons dt dts rfl]
      apply run_done
      unfold SpeedAction.step
      rw [if_neg (by decide)]
      have htgt : stepTarget perf tv ⟨td, a.relative, a.continuous, false, false, td.evaluate⟩
          = td := by unfold stepTarget; rw [habs]; rfl
      rw [htgt]
      have hsp : ∃ p, stepSpeed perf td tv td.evaluate dt = (td.at p, absLimit tv perf.maxSpeed) ∧
          p > td.paramTargetVal - small := by
        unfold stepSpeed
        split_ifs with c1 c2
        · refine ⟨td.paramVal, ?_, c1.2⟩
          rw [hev0]
          congr 1
          have := approach (perf := perf) (r := 0) (by linarith [small_pos]) (by linarith [small_pos])
            le_rfl (absLimit tv perf.maxSpeed) tv hdt
          rw [sub_self, abs_zero, zero_mul, sub_zero, max_self] at this
          exact sub_eq_zero.mp (abs_eq_zero.mp (le_antisymm this (abs_nonneg _)))
        · exfalso
          have e1 : (td.step dt).evaluate = absLimit tv perf.maxSpeed := hev _
          have e2 : accTo (td.step dt).evaluate td.evaluate dt = 0 := by
            unfold accTo; rw [e1, hev0, sub_self, zero_div, ite_self]
          rw [e2] at c2
          have := small_pos
          rcases c2 with c2 | c2 <;> linarith
        · refine ⟨(td.step dt).paramVal, ?_, ?_⟩
          · show (td.step dt, (td.step dt).evaluate) = _
            rw [show (td.step dt).evaluate = absLimit tv perf.maxSpeed from hev _]
            rfl
          · have := (param_after_step td hT0 dt).1
            show _ - small < (td.step dt).paramVal
            linarith
      obtain ⟨p, hp1, hp2⟩ := hsp
      rw [hp1]
      unfold finishStep
      rw [if_pos ⟨hp2, by
        show |absLimit tv perf.maxSpeed - td.targetVal| < small
        rw [hf.2.2.1, sub_self, abs_zero]; exact small_pos⟩]
      exact ⟨by show (false || !(a.relative && a.continuous)) = true; rw [habs]; rfl, rfl⟩

example : ∃ N : Nat, ∀ dts : List ℝ, N ≤ dts.length → (∀ x ∈ dts, small < x) →
    Done exPerf 25 (runAbs exPerf 25 dts (exRead.start exPerf false 25)) :=
  speed_action_ends (by norm_num [small, exPerf]) (by norm_num [small, exPerf]) exRead
    (parse_ready .cubic (by decide) .time (by norm_num)) rfl
    (fun h => absurd ((parse_cases .cubic .time 4).2.1.symm.trans h) (by decide)) 25

end Verif.Transition

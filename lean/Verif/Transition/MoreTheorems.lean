import Verif.Transition.SpeedTheorems
import Mathlib.MeasureTheory.Integral.IntervalIntegral.FundThmCalculus

/-
More on speed and lane offset actions: distances, repeated execution, targets relative to the own
speed (C61), lateral acceleration of lane offset actions (C62).
-/
namespace Verif.Transition

/-! ### C60: zero rate -/

/-- Steps with an absolute target and a rate of zero: the speed stays at the start value and the
action does not end. This is the only case in which a speed action of a scenario file does not end. -/
theorem zero_rate_never_ends {perf : Perf} (hA : 0 ≤ perf.maxAcc) (hD : 0 ≤ perf.maxDec)
    (a : SpeedAction) (hsm : Smooth a.td.shape) (hdim : a.td.dim = .rate)
    (hT : a.td.paramTargetVal = 0) (hrate : |a.td.rate| < small) (habs : a.relative = false) (tv : ℝ)
    (hne : small ≤ |a.speed - absLimit tv perf.maxSpeed|) (dts : List ℝ) :
    (runAbs perf tv dts (a.start perf false tv)).ended = false ∧
      (runAbs perf tv dts (a.start perf false tv)).speed = a.speed := by
  have hsh : a.td.shape ≠ .step := by rcases hsm with h | h | h <;> rw [h] <;> decide
  have hrdy : Ready a.td := ⟨by rcases hsm with h | h | h <;> rw [h] <;> decide, hT.ge,
    fun h => absurd h hsh, fun _ => Or.inr (Or.inr hT), fun _ _ => Or.inr hT⟩
  have hf := startTD_facts hrdy perf a.speed tv
  -- the range stays empty
  have hT0 : (startTD perf a.td a.speed tv).paramTargetVal = 0 := by
    have h1 := startRange_facts hrdy a.speed tv
    have h1T : (startRange a.td a.speed tv).paramTargetVal = 0 := by
      have hc := updateRate_cases (a.td.reset.putStart a.speed)
      unfold startRange
      rw [if_neg (by
        show ¬ (a.td.reset.putStart a.speed).updateRate.dim = _
        rw [hc.2.1]; show ¬ a.td.dim = _; rw [hdim]; decide)]
      exact (hc.2.2.2.2.2.2.2 (Or.inr hrate)).trans hT
    have hc := updateRate_cases ((startRange a.td a.speed tv).putTarget (absLimit tv perf.maxSpeed))
    have h2 : ((startRange a.td a.speed tv).setTargetVal (absLimit tv perf.maxSpeed)).paramTargetVal
        = 0 := (hc.2.2.2.2.2.2.2 (Or.inr (by
          show |(startRange a.td a.speed tv).rate| < small; rw [h1.2.2.2.2.2]; exact hrate))).trans h1T
    have h3 : |((startRange a.td a.speed tv).setTargetVal (absLimit tv perf.maxSpeed)).rate|
        = |a.td.rate| := hc.2.2.2.2.2.2.1.trans h1.2.2.2.2.2
    unfold startTD
    generalize (startRange a.td a.speed tv).setTargetVal (absLimit tv perf.maxSpeed) = d at h2 h3
    unfold fixRate
    split_ifs
    · refine ((updateRate_cases _).2.2.2.2.2.2.2 (Or.inr ?_)).trans ?_
      · show |sign _ * (|(limitRate perf d).rate|)| < small
        rw [sign_abs_le, abs_abs, limitRate_eq]
        show |d.rate| < small
        rw [h3]; exact hrate
      · show (limitRate perf d).paramTargetVal = 0
        rw [limitRate_eq]; exact h2
    · rw [limitRate_eq]; exact h2
  have hval : ∀ td : TD, Smooth td.shape → td.dim = .rate → td.paramVal = 0 →
      td.evaluate = td.startVal := by
    intro td h1 h2 h3
    have hns : ¬ td.isStep := by
      rintro (h | h)
      · rw [h] at h1; rcases h1 with h | h | h <;> cases h
      · exact h.1 h2
    unfold TD.evaluate TD.evaluateAs
    rw [if_neg hns, if_pos rfl, h3]
    rcases h1 with h | h | h <;> simp [h]
  -- invariant
  let P : SpeedAction → Prop := fun b => b.relative = false ∧ b.reached = false ∧ b.ended = false ∧
    b.speed = a.speed ∧ Smooth b.td.shape ∧ b.td.dim = .rate ∧ b.td.paramTargetVal = 0 ∧
    b.td.paramVal = 0 ∧ b.td.startVal = a.speed ∧ b.td.targetVal = absLimit tv perf.maxSpeed
  have hP0 : P (a.start perf false tv) := by
    have hst : a.start perf false tv = ⟨startTD perf a.td a.speed tv, a.relative, a.continuous,
        false, false, (startTD perf a.td a.speed tv).evaluate⟩ := by
      unfold SpeedAction.start; rw [if_neg (by decide)]
    rw [hst]
    have hs1 : Smooth (startTD perf a.td a.speed tv).shape := by rw [hf.2.2.2.2.1]; exact hsm
    have hd1 : (startTD perf a.td a.speed tv).dim = .rate := by rw [hf.2.2.2.2.2.1]; exact hdim
    exact ⟨habs, rfl, rfl, (hval _ hs1 hd1 hf.2.2.2.1).trans hf.2.1, hs1, hd1, hT0, hf.2.2.2.1,
      hf.2.1, hf.2.2.1⟩
  have hPs : ∀ b dt, P b → P (b.step perf false tv dt) := by
    rintro b dt ⟨h1, h2, h3, h4, h5, h6, h7, h8, h9, h10⟩
    have hs := small_pos
    have hp : (b.td.step dt).paramVal = 0 := by
      show limitParam (b.td.paramVal + dt / b.td.scaleFactor) b.td.paramTargetVal = 0
      have := limitParam_mem (v := b.td.paramVal + dt / b.td.scaleFactor) h7.ge
      rw [h7] at this ⊢
      exact le_antisymm this.2 this.1
    have hev : (b.td.step dt).evaluate = a.speed := (hval (b.td.step dt) h5 h6 hp).trans h9
    have hacc : accTo (b.td.step dt).evaluate b.speed dt = 0 := by
      unfold accTo; rw [hev, h4, sub_self, zero_div, ite_self]
    have htgt : stepTarget perf tv b = b.td := by unfold stepTarget; rw [h1]; rfl
    have hss : stepSpeed perf b.td tv b.speed dt = (b.td.step dt, a.speed) := by
      unfold stepSpeed
      rw [if_neg (fun h => by rw [h7] at h; exact absurd h.1 (lt_irrefl _)), hacc, hev,
        if_neg (by rw [not_or, not_lt, not_lt]; constructor <;> linarith)]
    unfold SpeedAction.step
    rw [if_neg (by decide), htgt, hss]
    unfold finishStep
    rw [if_neg (by
      rintro ⟨_, h⟩
      have h' : |a.speed - b.td.targetVal| < small := h
      rw [h10] at h'
      exact absurd hne (not_le.mpr h'))]
    exact ⟨h1, h2, by show (b.ended || (b.reached && _)) = false; rw [h2, h3]; rfl, rfl, h5, h6, h7,
      hp, h9, h10⟩
  have hrun : ∀ (l : List ℝ) (b : SpeedAction), P b → P (runAbs perf tv l b) := by
    intro l
    induction l with
    | nil => intro b hb; exact hb
    | cons dt l ih =>
      intro b hb
      rw [run_cons dt l hb.2.2.1]
      exact ih _ (hPs b dt hb)
  have := hrun dts _ hP0
  exact ⟨this.2.2.1, this.2.2.2.1⟩

/-! ### C61: a speed change over a distance -/

/-- The distance driven while the speed follows the transition over its whole range of time. -/
noncomputable def driven (td : TD) : ℝ := ∫ t in (0 : ℝ)..td.paramTargetVal, (td.at t).evaluate

theorem value_continuous {td : TD} (h : Timed td) : Continuous fun t => (td.at t).evaluate :=
  continuous_iff_continuousAt.mpr fun t => (prim_is_derivative h t).continuousAt

/-- The distance driven during a transition is the duration times the mean of start and target
speed, for all three shapes. -/
theorem driven_eq {td : TD} (h : Timed td) :
    driven td = td.paramTargetVal * (td.startVal + td.targetVal) / 2 := by
  have hc := value_continuous h
  have hrev : ∫ t in (0 : ℝ)..td.paramTargetVal, (td.at (td.paramTargetVal - t)).evaluate
      = driven td := by
    unfold driven
    rw [intervalIntegral.integral_comp_sub_left (fun t => (td.at t).evaluate) td.paramTargetVal]
    simp
  have hsum : ∀ t, (td.at t).evaluate + (td.at (td.paramTargetVal - t)).evaluate
      = td.startVal + td.targetVal := by
    intro t
    rw [evaluate_eq (h.at t), evaluate_eq (h.at _)]
    simp only [TD.at]
    rw [show (td.paramTargetVal - t) / td.paramTargetVal = 1 - t / td.paramTargetVal by
      rw [sub_div, div_self h.pos.ne'], weight_symm h.1]
    ring
  have hadd : ∫ t in (0 : ℝ)..td.paramTargetVal,
      ((td.at t).evaluate + (td.at (td.paramTargetVal - t)).evaluate) = driven td + driven td := by
    have hc2 : Continuous fun t => (td.at (td.paramTargetVal - t)).evaluate :=
      hc.comp (continuous_const.sub continuous_id)
    rw [intervalIntegral.integral_add (hc.intervalIntegrable _ _) (hc2.intervalIntegrable _ _), hrev]
    rfl
  have : ∫ t in (0 : ℝ)..td.paramTargetVal,
      ((td.at t).evaluate + (td.at (td.paramTargetVal - t)).evaluate)
      = td.paramTargetVal * (td.startVal + td.targetVal) := by
    simp only [hsum]
    rw [intervalIntegral.integral_const]
    simp
  linarith

/-- C61: a speed action over a distance, started for the first time, without a change of driving
direction, within the maximum speed: the entity drives that distance while the speed changes. -/
theorem distance_driven {perf : Perf} {td : TD} (hsm : Smooth td.shape) (hdim : td.dim = .distance)
    {speed tv : ℝ} (h0 : 0 ≤ speed) (h1 : 0 ≤ tv) (hne : small ≤ |tv - speed|)
    (hmax : |tv| ≤ |perf.maxSpeed|) (hlong : small ≤ 2 * td.paramTargetVal / (speed + tv))
    (hscale : (startTD perf td speed tv).scaleFactor = 1) :
    driven (startTD perf td speed tv) = td.paramTargetVal ∧
      Timed (startTD perf td speed tv) ∧ (startTD perf td speed tv).scaleFactor = 1 := by
  have hsum : 0 < speed + tv := by
    rcases eq_or_lt_of_le (add_nonneg h0 h1) with h | h
    · exfalso
      have e0 : speed = 0 := by linarith
      have e1 : tv = 0 := by linarith
      rw [e0, e1, sub_self, abs_zero] at hne
      exact absurd small_pos (not_lt.mpr hne)
    · exact h
  have hnr : td.dim ≠ .rate := by rw [hdim]; decide
  have hT : 0 ≤ td.paramTargetVal := by
    have := (le_div_iff₀ hsum).mp hlong
    have := mul_nonneg small_pos.le hsum.le
    linarith
  have hns : td.shape ≠ .step := by rcases hsm with h | h | h <;> rw [h] <;> decide
  have hrdy : Ready td := ⟨by rcases hsm with h | h | h <;> rw [h] <;> decide, hT,
    fun h => absurd h hns, fun h => absurd h hnr, fun h => absurd h hnr⟩
  have hf := startTD_facts hrdy perf speed tv
  have hc := updateRate_cases (td.reset.putStart speed)
  have hcd : (td.reset.setStartVal speed).dim = .distance := hc.2.1.trans hdim
  have hrange : (startRange td speed tv).paramTargetVal = 2 * td.paramTargetVal / (speed + tv) := by
    unfold startRange
    rw [if_pos hcd]
    unfold TD.setParamTargetVal
    rw [if_pos (by rw [hcd]; decide)]
    show distanceTime (td.reset.setStartVal speed).startVal tv
      (td.reset.setStartVal speed).paramTargetVal = _
    rw [show (td.reset.setStartVal speed).startVal = speed from hc.2.2.1,
      show (td.reset.setStartVal speed).paramTargetVal = td.paramTargetVal from
        hc.2.2.2.2.2.2.2 (Or.inl hnr)]
    unfold distanceTime
    rw [if_neg (not_lt.mpr hne), if_neg, abs_of_pos hsum]
    rintro ⟨_, _, h⟩
    apply h
    unfold sign
    rw [if_neg (not_lt.mpr h0), if_neg (not_lt.mpr h1)]
  have hTT : (startTD perf td speed tv).paramTargetVal = 2 * td.paramTargetVal / (speed + tv) := by
    have h1 := startRange_facts hrdy speed tv
    have hc2 := updateRate_cases ((startRange td speed tv).putTarget (absLimit tv perf.maxSpeed))
    have hd2 : ((startRange td speed tv).setTargetVal (absLimit tv perf.maxSpeed)).dim ≠ .rate := by
      rw [show ((startRange td speed tv).setTargetVal (absLimit tv perf.maxSpeed)).dim = td.dim from
        hc2.2.1.trans h1.2.2.2.2.1]
      exact hnr
    have h2 : ((startRange td speed tv).setTargetVal (absLimit tv perf.maxSpeed)).paramTargetVal
        = 2 * td.paramTargetVal / (speed + tv) :=
      (hc2.2.2.2.2.2.2.2 (Or.inl (by
        show (startRange td speed tv).dim ≠ _; rw [h1.2.2.2.2.1]; exact hnr))).trans hrange
    unfold startTD fixRate
    rw [if_neg (by rw [limitRate_eq]; exact hd2), limitRate_eq]
    exact h2
  have ht : Timed (startTD perf td speed tv) := ⟨by rw [hf.2.2.2.2.1]; exact hsm, by rw [hTT]; exact hlong⟩
  refine ⟨?_, ht, hscale⟩
  rw [driven_eq ht, hTT, hf.2.1, hf.2.2.1, absLimit_of_le hmax]
  field_simp

/-- 150 m from 10 to 20 m/s: 10 s. -/
noncomputable def exDist : TD := parseTD .linear .distance 150

theorem exDist_eq : exDist = ⟨.linear, .distance, 0, 0, 150, 1, 0, 0⟩ := by
  simp [exDist, parseTD, TD.setParamTargetVal, initTD]

/-- The duration of a speed change over a distance, from 10 to 20 m/s. -/
theorem startTD_distance (td : TD) (hs : td.shape = .linear) (hd : td.dim = .distance)
    (hr : td.rate = 0) :
    (startTD ⟨100, 10, 10⟩ td 10 20).paramTargetVal = 2 * td.paramTargetVal / 30 ∧
    (startTD ⟨100, 10, 10⟩ td 10 20).dim = .distance ∧
    (startTD ⟨100, 10, 10⟩ td 10 20).shape = .linear ∧
    (startTD ⟨100, 10, 10⟩ td 10 20).rate = 0 := by
  have hnr : td.dim ≠ .rate := by rw [hd]; decide
  have hc := updateRate_cases (td.reset.putStart 10)
  have hcd : (td.reset.setStartVal 10).dim = .distance := hc.2.1.trans hd
  have hr1 : startRange td 10 20 = ⟨(td.reset.setStartVal 10).shape, (td.reset.setStartVal 10).dim,
      10, (td.reset.setStartVal 10).targetVal, 2 * td.paramTargetVal / 30,
      (td.reset.setStartVal 10).scaleFactor, (td.reset.setStartVal 10).paramVal,
      (td.reset.setStartVal 10).rate⟩ := by
    unfold startRange
    rw [if_pos hcd]
    unfold TD.setParamTargetVal
    rw [if_pos (by rw [hcd]; decide)]
    rw [show (td.reset.setStartVal 10).startVal = 10 from hc.2.2.1,
      show (td.reset.setStartVal 10).paramTargetVal = td.paramTargetVal from
        hc.2.2.2.2.2.2.2 (Or.inl hnr)]
    have : distanceTime 10 20 td.paramTargetVal = 2 * td.paramTargetVal / 30 := by
      unfold distanceTime sign small
      norm_num
    rw [this]
  have hc2 := updateRate_cases ((startRange td 10 20).putTarget (absLimit 20 100))
  have hd2 : ((startRange td 10 20).setTargetVal (absLimit 20 100)).dim = .distance := by
    refine hc2.2.1.trans ?_
    show (startRange td 10 20).dim = _
    rw [hr1]; exact hcd
  have hrate : |(startRange td 10 20).rate| = 0 := by
    rw [hr1]
    show |(td.reset.putStart 10).updateRate.rate| = 0
    rw [hc.2.2.2.2.2.2.1]
    show |td.rate| = 0
    rw [hr, abs_zero]
  unfold startTD fixRate
  rw [if_neg (by rw [limitRate_eq]; show ¬ _ = _; rw [hd2]; decide), limitRate_eq]
  refine ⟨?_, hd2, ?_, ?_⟩
  · refine (hc2.2.2.2.2.2.2.2 (Or.inl ?_)).trans ?_
    · show (startRange td 10 20).dim ≠ _
      rw [hr1]; show (td.reset.setStartVal 10).dim ≠ _; rw [hcd]; decide
    · show (startRange td 10 20).paramTargetVal = _
      rw [hr1]
  · refine hc2.1.trans ?_
    show (startRange td 10 20).shape = _
    rw [hr1]; exact hc.1.trans hs
  · exact abs_eq_zero.mp (hc2.2.2.2.2.2.2.1.trans hrate)

/-- The example meets the hypotheses of `distance_driven`. -/
example : Smooth exDist.shape ∧ exDist.dim = .distance ∧
    small ≤ 2 * exDist.paramTargetVal / (10 + 20) ∧
    (startTD ⟨100, 10, 10⟩ exDist 10 20).paramTargetVal = 10 := by
  have h := startTD_distance exDist (by rw [exDist_eq]) (by rw [exDist_eq]) (by rw [exDist_eq])
  refine ⟨by rw [exDist_eq]; exact Or.inl rfl, by rw [exDist_eq], ?_, ?_⟩
  · rw [exDist_eq]; norm_num [small]
  · rw [h.1, exDist_eq]; norm_num

/-- C61 fails when the action is executed again (`maximumExecutionCount` above 1): the first start
replaces the distance by the duration, and the second start takes this duration for a distance. From
10 to 20 m/s over 150 m takes 10 s the first time and 2/3 s the second time. -/
theorem repeated_distance_fails :
    (startTD ⟨100, 10, 10⟩ exDist 10 20).paramTargetVal = 10 ∧
    (startTD ⟨100, 10, 10⟩ (startTD ⟨100, 10, 10⟩ exDist 10 20) 10 20).paramTargetVal = 2 / 3 := by
  have h := startTD_distance exDist (by rw [exDist_eq]) (by rw [exDist_eq]) (by rw [exDist_eq])
  have h2 := startTD_distance _ h.2.2.1 h.2.1 h.2.2.2
  have e : (startTD ⟨100, 10, 10⟩ exDist 10 20).paramTargetVal = 10 := by
    rw [h.1, exDist_eq]; norm_num
  refine ⟨e, ?_⟩
  rw [h2.1, e]
  norm_num

/-! ### C63: a speed action relative to the own speed -/

/-- A speed action relative to the speed of the entity itself, plus 5 m/s in 1 s, linear. The state
after `Start` at 10 m/s. -/
noncomputable def exSelf : SpeedAction :=
  ⟨⟨.linear, .time, 10, 15, 1, 1, 0, 0⟩, true, false, false, false, 10⟩

/-- The state after the first step of 0.5 s. -/
noncomputable def exSelf1 : SpeedAction :=
  ⟨⟨.linear, .time, 10, 15, 1, 1, 1 / 2, 0⟩, true, false, false, false, 12.5⟩

theorem updateRate_noop {d : TD} (hd : d.dim ≠ .rate) (hr : d.rate = 0) : d.updateRate = d := by
  unfold TD.updateRate TD.signRate
  rw [if_neg (fun h => hd h.1), hr, abs_zero, mul_zero, ← hr]

theorem exSelf_start :
    (⟨parseTD .linear .time 1, true, false, false, false, 10⟩ : SpeedAction).start ⟨100, 100, 100⟩
      false (relativeValue false 10 5) = exSelf := by
  have e0 : parseTD .linear .time 1 = ⟨.linear, .time, 0, 0, 1, 1, 0, 0⟩ := by
    simp [parseTD, TD.setParamTargetVal, initTD]
  have e1 : relativeValue false 10 5 = 15 := by norm_num [relativeValue]
  have e2 : startRange (parseTD .linear .time 1) 10 15 = ⟨.linear, .time, 10, 0, 1, 1, 0, 0⟩ := by
    have : TD.setStartVal (TD.reset ⟨.linear, .time, 0, 0, 1, 1, 0, 0⟩) 10
        = ⟨.linear, .time, 10, 0, 1, 1, 0, 0⟩ := updateRate_noop (by decide) rfl
    rw [e0]
    unfold startRange
    rw [this, if_neg (by decide)]
  have e3 : TD.setTargetVal ⟨.linear, .time, 10, 0, 1, 1, 0, 0⟩ (absLimit 15 100)
      = ⟨.linear, .time, 10, 15, 1, 1, 0, 0⟩ := by
    rw [show absLimit 15 100 = 15 by norm_num [absLimit]]
    exact updateRate_noop (by decide) rfl
  have ht : Timed ⟨.linear, .time, 10, 15, 1, 1, 0, 0⟩ := ⟨Or.inl rfl, by norm_num [small]⟩
  have e4 : limitRate ⟨100, 100, 100⟩ ⟨.linear, .time, 10, 15, 1, 1, 0, 0⟩
      = ⟨.linear, .time, 10, 15, 1, 1, 0, 0⟩ := by
    have hp := primPeak_abs ht (by decide)
    norm_num [slope] at hp
    unfold limitRate TD.setMaxRate
    rw [hp, if_pos (by norm_num), if_neg (by norm_num)]
  have e5 : startTD ⟨100, 100, 100⟩ (parseTD .linear .time 1) 10 15
      = ⟨.linear, .time, 10, 15, 1, 1, 0, 0⟩ := by
    unfold startTD
    rw [e2, e3, e4]
    unfold fixRate
    rw [if_neg (by decide)]
  unfold SpeedAction.start
  rw [if_neg (by decide), e1]
  show (⟨startTD ⟨100, 100, 100⟩ (parseTD .linear .time 1) 10 15, true, false, false, false,
    (startTD ⟨100, 100, 100⟩ (parseTD .linear .time 1) 10 15).evaluate⟩ : SpeedAction) = exSelf
  rw [e5, show (⟨.linear, .time, 10, 15, 1, 1, 0, 0⟩ : TD).evaluate = 10 from value_at_zero ht]
  rfl

/-- One step of the example, from a state in which the limits do not apply. -/
theorem self_step (p v : ℝ) (hp : p = 0 ∨ p = 1 / 2) (hv : v = 10 ∨ v = 12.5) (t : ℝ) :
    stepSpeed ⟨100, 100, 100⟩ (TD.setTargetVal ⟨.linear, .time, 10, t, 1, 1, p, 0⟩
      (absLimit (v + 5) 100)) (v + 5) v 0.5
      = (⟨.linear, .time, 10, v + 5, 1, 1, p + 1 / 2, 0⟩, 10 + (p + 1 / 2) * (v - 5)) := by
  have e3 : TD.setTargetVal ⟨.linear, .time, 10, t, 1, 1, p, 0⟩ (absLimit (v + 5) 100)
      = ⟨.linear, .time, 10, v + 5, 1, 1, p, 0⟩ := by
    rw [show absLimit (v + 5) 100 = v + 5 by rcases hv with rfl | rfl <;> norm_num [absLimit]]
    exact updateRate_noop (by show Dim.time ≠ _; decide) rfl
  have hstep : TD.step ⟨.linear, .time, 10, v + 5, 1, 1, p, 0⟩ 0.5
      = ⟨.linear, .time, 10, v + 5, 1, 1, p + 1 / 2, 0⟩ := by
    unfold TD.step limitParam
    rcases hp with rfl | rfl <;> norm_num
  have hev : TD.evaluate ⟨.linear, .time, 10, v + 5, 1, 1, p + 1 / 2, 0⟩
      = 10 + (p + 1 / 2) * (v - 5) := by
    rw [evaluate_eq ⟨Or.inl rfl, by norm_num [small]⟩]
    simp only [weight]
    ring
  have hacc : accTo (10 + (p + 1 / 2) * (v - 5)) v 0.5 = (10 + (p + 1 / 2) * (v - 5) - v) / 0.5 := by
    unfold accTo; rw [if_pos (by norm_num [small])]
  rw [e3]
  unfold stepSpeed
  rw [hstep, hev, hacc, if_neg, if_neg]
  · rcases hp with rfl | rfl <;> rcases hv with rfl | rfl <;> norm_num [small]
  · rcases hp with rfl | rfl <;> norm_num [small]

/-- C63 fails: for a target relative to the own speed the reference moves with the entity. With
delta +5 m/s from 10 m/s the target should be 15 m/s, but after two steps of 0.5 s the action has
ended at 17.5 m/s. -/
theorem relative_to_self_fails :
    exSelf.step ⟨100, 100, 100⟩ false (relativeValue false exSelf.speed 5) 0.5 = exSelf1 ∧
    (exSelf1.step ⟨100, 100, 100⟩ false (relativeValue false exSelf1.speed 5) 0.5).speed = 17.5 ∧
    (exSelf1.step ⟨100, 100, 100⟩ false (relativeValue false exSelf1.speed 5) 0.5).ended = true := by
  have s1 := self_step 0 10 (Or.inl rfl) (Or.inl rfl) 15
  have s2 := self_step (1 / 2) 12.5 (Or.inr rfl) (Or.inr rfl) 15
  have hB : exSelf1.step ⟨100, 100, 100⟩ false (relativeValue false exSelf1.speed 5) 0.5
      = ⟨⟨.linear, .time, 10, 12.5 + 5, 1, 1, 1 / 2 + 1 / 2, 0⟩, true, false, true, true, 17.5⟩ := by
    unfold SpeedAction.step
    rw [if_neg (by decide)]
    show finishStep ⟨100, 100, 100⟩ (12.5 + 5) exSelf1 (stepSpeed ⟨100, 100, 100⟩
      (TD.setTargetVal ⟨.linear, .time, 10, 15, 1, 1, 1 / 2, 0⟩ (absLimit (12.5 + 5) 100))
      (12.5 + 5) 12.5 0.5) = _
    rw [s2]
    unfold finishStep isReached
    rw [if_pos (by norm_num [small])]
    rw [show absLimit (12.5 + 5) 100 = 17.5 by norm_num [absLimit]]
    rfl
  refine ⟨?_, by rw [hB], by rw [hB]⟩
  unfold SpeedAction.step
  rw [if_neg (by decide)]
  show finishStep ⟨100, 100, 100⟩ (10 + 5) exSelf (stepSpeed ⟨100, 100, 100⟩
    (TD.setTargetVal ⟨.linear, .time, 10, 15, 1, 1, 0, 0⟩ (absLimit (10 + 5) 100))
    (10 + 5) 10 0.5) = _
  rw [s1]
  unfold finishStep isReached
  rw [if_neg (by norm_num [small])]
  unfold exSelf1
  norm_num [exSelf]

/-! ### C62: the lane offset action -/

theorem signLane_sq (i : Int) : signLane i * signLane i = 1 := by
  unfold signLane; split_ifs <;> norm_num

theorem signLane_abs (i : Int) (x : ℝ) : |signLane i * x| = |x| := by
  unfold signLane; split_ifs <;> simp

/-- The second derivative of the value. -/
noncomputable def primPrim (d : TD) (p : ℝ) : ℝ :=
  match d.shape with
  | .cubic => 6 * (d.targetVal - d.startVal) * (d.paramTargetVal - 2 * p) / d.paramTargetVal ^ 3
  | .sinusoidal => (d.targetVal - d.startVal) * (Real.pi / d.paramTargetVal) ^ 2
      * Real.cos (Real.pi * p / d.paramTargetVal) / 2
  | _ => 0

theorem prim_derivative {d : TD} (h : Timed d) (p : ℝ) :
    HasDerivAt (fun q => (d.at q).prim) (primPrim d p) p := by
  have hT := h.pos.ne'
  have hsm := h.1
  have e : (fun q => (d.at q).prim) = fun q => match d.shape with
      | .linear => (d.targetVal - d.startVal) / d.paramTargetVal
      | .sinusoidal => Real.pi * (d.targetVal - d.startVal)
          * Real.sin (Real.pi * q / d.paramTargetVal) / (2 * d.paramTargetVal)
      | .cubic => 6 * (d.targetVal - d.startVal) * (d.paramTargetVal - q) * q / d.paramTargetVal ^ 3
      | _ => 0 := by
    funext q
    unfold TD.prim
    rw [if_neg (h.at q).not_isStep]
    rcases hsm with hs | hs | hs <;> simp only [TD.at, hs, avoidZero_of_ge h.2]
  rw [e]
  unfold primPrim
  rcases hsm with hs | hs | hs <;> simp only [hs]
  · exact hasDerivAt_const _ _
  · have h1 := ((((hasDerivAt_id p).const_sub d.paramTargetVal).const_mul
      (6 * (d.targetVal - d.startVal))).mul (hasDerivAt_id p)).div_const (d.paramTargetVal ^ 3)
    refine h1.congr_deriv ?_
    simp only [id]
    ring
  · have h0 : HasDerivAt (fun q : ℝ => Real.pi * q / d.paramTargetVal)
        (Real.pi * 1 / d.paramTargetVal) p := ((hasDerivAt_id p).const_mul _).div_const _
    have h1 := ((h0.sin).const_mul (Real.pi * (d.targetVal - d.startVal))).div_const
      (2 * d.paramTargetVal)
    refine h1.congr_deriv ?_
    field_simp

/-- C62: with a duration chosen for a maximum acceleration, the second derivative of the value stays
within this maximum over the whole range, for the cubic and the sinusoidal shape. -/
theorem acceleration_bound {d : TD} (hs : d.shape = .cubic ∨ d.shape = .sinusoidal) {m : ℝ}
    (hm : 0 < m) (hT : d.paramTargetVal = d.paramByPrimPrimPeak m) (hpos : 0 < d.paramTargetVal)
    {p : ℝ} (h0 : 0 ≤ p) (h1 : p ≤ d.paramTargetVal) : |primPrim d p| ≤ m := by
  unfold TD.paramByPrimPrimPeak at hT
  unfold primPrim
  rcases hs with hs | hs
  · simp only [hs] at hT ⊢
    have hsq : d.paramTargetVal ^ 2 = 6 * |d.targetVal - d.startVal| / m := by
      rw [hT, Real.sq_sqrt (by positivity)]
    have hsq' : d.paramTargetVal ^ 2 * m = 6 * |d.targetVal - d.startVal| := by
      rw [hsq, div_mul_cancel₀ _ hm.ne']
    rw [abs_div, abs_of_pos (pow_pos hpos 3), div_le_iff₀ (pow_pos hpos 3), abs_mul, abs_mul]
    have hb : |d.paramTargetVal - 2 * p| ≤ d.paramTargetVal := by
      rw [abs_le]; constructor <;> linarith
    rw [abs_of_pos (by norm_num : (0:ℝ) < 6), ← hsq']
    have := mul_le_mul_of_nonneg_left hb (by positivity : 0 ≤ d.paramTargetVal ^ 2 * m)
    nlinarith
  · simp only [hs] at hT ⊢
    have hsq : d.paramTargetVal ^ 2 * (2 * m) = Real.pi ^ 2 * |d.targetVal - d.startVal| := by
      rw [hT, mul_pow, Real.sq_sqrt (by positivity)]
      field_simp
    have hc := Real.abs_cos_le_one (Real.pi * p / d.paramTargetVal)
    rw [abs_div, abs_mul, abs_mul, abs_of_pos (by norm_num : (0:ℝ) < 2),
      abs_of_nonneg (by positivity : (0:ℝ) ≤ (Real.pi / d.paramTargetVal) ^ 2), div_pow]
    have e : |d.targetVal - d.startVal| * (Real.pi ^ 2 / d.paramTargetVal ^ 2) = 2 * m := by
      rw [mul_div_assoc', div_eq_iff (by positivity), mul_comm (|d.targetVal - d.startVal|), ← hsq]
      ring
    rw [e]
    have := mul_le_mul_of_nonneg_left hc (by linarith : 0 ≤ 2 * m)
    linarith

/-- The transition a lane offset action starts with. The dimension is the default, time. -/
theorem offset_start_eq (a : OffsetAction) (hd : a.td.dim = .time) (hr : a.td.rate = 0)
    (value m : ℝ) :
    offsetStartTD a value m = ⟨a.td.shape, .time, signLane a.laneId * a.offset,
      signLane a.laneId * value, (⟨a.td.shape, .time, signLane a.laneId * a.offset,
      signLane a.laneId * value, 0, 1, 0, 0⟩ : TD).paramByPrimPrimPeak m, 1, 0, 0⟩ := by
  have e1 : a.td.reset.setTargetVal (signLane a.laneId * value)
      = ⟨a.td.shape, .time, 0, signLane a.laneId * value, a.td.paramTargetVal, 1, 0, 0⟩ := by
    unfold TD.setTargetVal
    rw [updateRate_noop (d := a.td.reset.putTarget _) (by show a.td.dim ≠ _; rw [hd]; decide) hr]
    unfold TD.putTarget TD.reset
    rw [hd, hr]
  have e2 : TD.setStartVal ⟨a.td.shape, .time, 0, signLane a.laneId * value, a.td.paramTargetVal, 1,
      0, 0⟩ (signLane a.laneId * a.offset) = ⟨a.td.shape, .time, signLane a.laneId * a.offset,
      signLane a.laneId * value, a.td.paramTargetVal, 1, 0, 0⟩ :=
    updateRate_noop (by show Dim.time ≠ _; decide) rfl
  unfold offsetStartTD
  rw [e1, e2]
  unfold TD.setParamTargetVal
  rw [if_pos (by show Dim.time ≠ _; decide)]
  rfl

/-- C62: while a lane offset action with a cubic or sinusoidal shape runs, the acceleration across
the lane, the second derivative of the offset with respect to time, is at most the given maximum. -/
theorem lane_offset_acceleration (a : OffsetAction) (hd : a.td.dim = .time) (hr : a.td.rate = 0)
    (hs : a.td.shape = .cubic ∨ a.td.shape = .sinusoidal) (value : ℝ) {m : ℝ} (hm : 0 < m)
    (ht : small ≤ (offsetStartTD a value m).paramTargetVal) {t : ℝ} (h0 : 0 ≤ t)
    (h1 : t ≤ (offsetStartTD a value m).paramTargetVal) :
    ∃ acc, |acc| ≤ m ∧
      HasDerivAt (deriv fun t => signLane a.laneId * ((offsetStartTD a value m).at t).evaluate)
        acc t := by
  have hE := offset_start_eq a hd hr value m
  have hti : Timed (offsetStartTD a value m) := by
    refine ⟨?_, ht⟩
    rw [hE]
    rcases hs with h | h
    · exact Or.inr (Or.inl h)
    · exact Or.inr (Or.inr h)
  have hder : (deriv fun t => signLane a.laneId * ((offsetStartTD a value m).at t).evaluate)
      = fun t => signLane a.laneId * ((offsetStartTD a value m).at t).prim := by
    funext q
    exact ((prim_is_derivative hti q).const_mul _).deriv
  refine ⟨signLane a.laneId * primPrim (offsetStartTD a value m) t, ?_, ?_⟩
  · rw [signLane_abs]
    refine acceleration_bound ?_ hm ?_ hti.pos h0 h1
    · rw [hE]; exact hs
    · rw [hE]; rfl
  · rw [hder]
    exact (prim_derivative hti t).const_mul _

/-- The invariant of a running lane offset action. -/
structure OffInv (value : ℝ) (a0 : OffsetAction) (td : TD) (a : OffsetAction) : Prop where
  lane : a.laneId = a0.laneId
  tdEq : a.td = td.at a.td.paramVal
  p0 : 0 ≤ a.td.paramVal
  p1 : a.td.paramVal ≤ td.paramTargetVal
  offset : a.ended = true → a.offset = value
  between : min a0.offset value ≤ a.offset ∧ a.offset ≤ max a0.offset value

theorem between_sign (i : Int) {x y z : ℝ} (h : min (signLane i * x) (signLane i * y) ≤ z ∧
    z ≤ max (signLane i * x) (signLane i * y)) :
    min x y ≤ signLane i * z ∧ signLane i * z ≤ max x y := by
  unfold signLane at *
  split_ifs at * with hi
  · obtain ⟨h1, h2⟩ := h
    rcases le_total x y with hxy | hxy
    · rw [min_eq_right (by linarith)] at h1
      rw [max_eq_left (by linarith)] at h2
      rw [min_eq_left hxy, max_eq_right hxy]
      constructor <;> linarith
    · rw [min_eq_left (by linarith)] at h1
      rw [max_eq_right (by linarith)] at h2
      rw [min_eq_right hxy, max_eq_left hxy]
      constructor <;> linarith
  · simpa using h

/-- C62: a lane offset action ends exactly at the target offset, after a time of at most the
duration found from the maximum acceleration (plus one step), and on the way the offset stays
between the offset at the start and the target offset. Before the end and in the last step the
offset follows the curve of the shape, up to 1e-6 m or what the curve covers in 1e-6 s. All
shapes. -/
theorem lane_offset_ends (a : OffsetAction) (hd : a.td.dim = .time) (hr : a.td.rate = 0)
    (hs : a.td.shape ≠ .undefined) (value m : ℝ) (dts : List ℝ) (hdts : ∀ x ∈ dts, 0 ≤ x) :
    (min a.offset value ≤ (runOffset dts (a.start value m)).offset ∧
      (runOffset dts (a.start value m)).offset ≤ max a.offset value) ∧
    ((runOffset dts (a.start value m)).ended = true →
      (runOffset dts (a.start value m)).offset = value) ∧
    (∀ last, (offsetStartTD a value m).paramTargetVal ≤ dts.sum →
      (runOffset (dts ++ [last]) (a.start value m)).ended = true ∧
      (runOffset (dts ++ [last]) (a.start value m)).offset = value) ∧
    (∀ last, (runOffset dts (a.start value m)).ended = false →
      |(runOffset (dts ++ [last]) (a.start value m)).offset - signLane a.laneId *
        ((offsetStartTD a value m).at (min (offsetStartTD a value m).paramTargetVal dts.sum)).evaluate|
        ≤ small * max 1 |(offsetStartTD a value m).primPeak|) := by
  have hE := offset_start_eq a hd hr value m
  generalize htd : offsetStartTD a value m = td at hE ⊢
  have hst : a.start value m = ⟨td, a.laneId, a.offset, false⟩ := by
    unfold OffsetAction.start; rw [htd]
  have hT0 : 0 ≤ td.paramTargetVal := by
    rw [hE]
    unfold TD.paramByPrimPrimPeak
    have hpi := Real.pi_pos
    cases a.td.shape <;> simp only [le_refl] <;> positivity
  have htv : td.targetVal = signLane a.laneId * value := by rw [hE]
  have hsv : td.startVal = signLane a.laneId * a.offset := by rw [hE]
  have hsf : td.scaleFactor = 1 := by rw [hE]
  have hp : td.paramVal = 0 := by rw [hE]
  have hsh : td.shape = a.td.shape := by rw [hE]
  have hdim : td.dim = .time := by rw [hE]
  have hend : signLane a.laneId * td.targetVal = value := by
    rw [htv, ← mul_assoc, signLane_sq, one_mul]
  have hcase : Timed td ∨ td.isStep := by
    by_cases hti : Timed td
    · exact Or.inl hti
    · right
      by_contra hns
      apply hti
      have h2 : td.shape ≠ .step := fun h => hns (Or.inl h)
      refine ⟨?_, ?_⟩
      · rw [hsh] at h2 ⊢
        revert hs h2; cases a.td.shape <;> simp [Smooth]
      · by_contra hlt
        exact hns (Or.inr ⟨by rw [hdim]; decide, not_le.mp hlt⟩)
  have hval : ∀ p, 0 ≤ p → p ≤ td.paramTargetVal →
      min a.offset value ≤ signLane a.laneId * (td.at p).evaluate ∧
        signLane a.laneId * (td.at p).evaluate ≤ max a.offset value := by
    intro p h0 h1
    rcases hcase with hti | hstep
    · have := value_between hti h0 h1
      rw [hsv, htv] at this
      exact between_sign _ this
    · rw [value_immediate hstep p, hend]
      exact ⟨min_le_right _ _, le_max_right _ _⟩
  have hinv0 : OffInv value a td (a.start value m) := by
    rw [hst]
    exact ⟨rfl, rfl, hp.ge, hp.trans_le hT0, fun h => (by cases h), min_le_left _ _, le_max_left _ _⟩
  have hstepInv : ∀ b dt, 0 ≤ dt → b.ended = false → OffInv value a td b → OffInv value a td (b.step dt) ∧
      (b.step dt).td.paramVal = min td.paramTargetVal (b.td.paramVal + dt) := by
    intro b dt hdt hbe hb
    have hbT : b.td.paramTargetVal = td.paramTargetVal := by rw [hb.tdEq]; rfl
    have hbs : b.td.scaleFactor = 1 := by rw [hb.tdEq]; exact hsf
    have hbt : b.td.targetVal = td.targetVal := by rw [hb.tdEq]; rfl
    have hpar : (b.td.step dt).paramVal = min td.paramTargetVal (b.td.paramVal + dt) := by
      show limitParam (b.td.paramVal + dt / b.td.scaleFactor) b.td.paramTargetVal = _
      rw [hbs, div_one, hbT]
      have := hb.p0
      unfold limitParam
      split_ifs with x y
      · exact (min_eq_left (le_of_lt x)).symm
      · exact absurd y (by linarith)
      · exact (min_eq_right (by linarith)).symm
    have hq0 : 0 ≤ min td.paramTargetVal (b.td.paramVal + dt) :=
      le_min hT0 (by have := hb.p0; linarith)
    have htd' : b.td.step dt = td.at (b.td.step dt).paramVal := by
      rw [hb.tdEq]; rfl
    have hev : b.td.evaluate = (td.at b.td.paramVal).evaluate := by rw [← hb.tdEq]
    have hv := hval b.td.paramVal hb.p0 hb.p1
    unfold OffsetAction.step
    split_ifs with hdone
    · refine ⟨⟨hb.lane, htd', by rw [hpar]; exact hq0, by rw [hpar]; exact min_le_left _ _,
        fun _ => ?_, ?_⟩, hpar⟩
      · show signLane b.laneId * b.td.targetVal = value
        rw [hbt, hb.lane]; exact hend
      · show min a.offset value ≤ signLane b.laneId * b.td.targetVal ∧ _ ≤ max a.offset value
        rw [hbt, hb.lane, hend]
        exact ⟨min_le_right _ _, le_max_right _ _⟩
    · refine ⟨⟨hb.lane, htd', by rw [hpar]; exact hq0, by rw [hpar]; exact min_le_left _ _,
        fun he => absurd (hbe.symm.trans he) (by decide), ?_⟩, hpar⟩
      · show min a.offset value ≤ signLane b.laneId * b.td.evaluate ∧ _ ≤ max a.offset value
        rw [hev, hb.lane]; exact hv
  have hrun : ∀ dts b, (∀ x ∈ dts, 0 ≤ x) → b.ended = false → OffInv value a td b →
      OffInv value a td (runOffset dts b) ∧ ((runOffset dts b).ended = false →
        (runOffset dts b).td.paramVal = min td.paramTargetVal (b.td.paramVal + dts.sum)) := by
    intro dts
    induction dts with
    | nil => exact fun b _ _ hb => ⟨hb, fun _ => by
        rw [List.sum_nil, add_zero, min_eq_right hb.p1]; rfl⟩
    | cons x xs ih =>
      intro b hx hbe hb
      obtain ⟨h1, h2⟩ := hstepInv b x (hx x List.mem_cons_self) hbe hb
      have hxs : ∀ y ∈ xs, 0 ≤ y := fun y hy => hx y (List.mem_cons_of_mem _ hy)
      rw [runOffset, if_neg (by rw [hbe]; decide)]
      cases hce : (b.step x).ended with
      | true =>
        have hend : runOffset xs (b.step x) = b.step x := by
          cases xs with
          | nil => rfl
          | cons y ys => rw [runOffset, if_pos hce]
        rw [hend]
        exact ⟨h1, fun h => absurd (hce.symm.trans h) (by decide)⟩
      | false =>
        obtain ⟨h3, h4⟩ := ih (b.step x) hxs hce h1
        refine ⟨h3, fun h => ?_⟩
        have hsum : 0 ≤ xs.sum := List.sum_nonneg hxs
        rw [h4 h, h2, List.sum_cons, ← add_assoc]
        rcases le_total td.paramTargetVal (b.td.paramVal + x) with hle | hle
        · rw [min_eq_left hle, min_eq_left (by linarith), min_eq_left (by linarith)]
        · rw [min_eq_right hle]
  have happ : ∀ dts last b, runOffset (dts ++ [last]) b
      = if (runOffset dts b).ended then runOffset dts b else (runOffset dts b).step last := by
    intro dts last
    induction dts with
    | nil => intro b; rfl
    | cons x xs ih =>
      intro b
      rw [List.cons_append, runOffset, runOffset]
      cases hbe : b.ended with
      | true => rw [if_pos rfl, if_pos rfl, if_pos hbe]
      | false => simp only [Bool.false_eq_true, if_false]; exact ih _
  have hse : (a.start value m).ended = false := rfl
  have hps : (a.start value m).td.paramVal = 0 := by rw [hst]; exact hp
  obtain ⟨h1, h2⟩ := hrun dts _ hdts hse hinv0
  refine ⟨h1.between, h1.offset, fun last hlast => ?_, fun last hne => ?_⟩
  swap
  · have hpv := h2 hne
    rw [hps, zero_add] at hpv
    rw [happ, hne, ← hpv]
    generalize runOffset dts (a.start value m) = b at *
    rw [if_neg (by decide)]
    have hev : b.td.evaluate = (td.at b.td.paramVal).evaluate := by rw [← h1.tdEq]
    have hbt : b.td.targetVal = td.targetVal := by rw [h1.tdEq]; rfl
    have hbs : b.td.startVal = td.startVal := by rw [h1.tdEq]; rfl
    have hbT : b.td.paramTargetVal = td.paramTargetVal := by rw [h1.tdEq]; rfl
    have hnn : 0 ≤ small * max 1 |td.primPeak| :=
      mul_nonneg small_pos.le (zero_le_one.trans (le_max_left _ _))
    have hs1 : small ≤ small * max 1 |td.primPeak| :=
      le_mul_of_one_le_right small_pos.le (le_max_left _ _)
    unfold OffsetAction.step
    split_ifs with hdone
    · show |signLane b.laneId * b.td.targetVal - signLane a.laneId * (td.at b.td.paramVal).evaluate| ≤ _
      rw [h1.lane, ← mul_sub, signLane_abs, hbt]
      rcases hcase with hti | hstep
      · rcases hdone with hd1 | hd2 | ⟨hd3, hd4⟩
        · rw [hbT] at hd1
          have hl := value_lip hti hT0 le_rfl h1.p0 h1.p1
          rw [value_at_end hti, ← primPeak_abs hti (by rw [hdim]; decide)] at hl
          have : |td.paramTargetVal - b.td.paramVal| ≤ small := by
            rw [abs_of_nonneg (by linarith [h1.p1])]; linarith
          calc _ ≤ |td.primPeak| * |td.paramTargetVal - b.td.paramVal| := hl
            _ ≤ |td.primPeak| * small := mul_le_mul_of_nonneg_left this (abs_nonneg _)
            _ ≤ max 1 |td.primPeak| * small :=
              mul_le_mul_of_nonneg_right (le_max_right _ _) small_pos.le
            _ = _ := mul_comm _ _
        · rw [hev, hbt, abs_sub_comm] at hd2
          exact (le_of_lt hd2).trans hs1
        · rw [hev, hbt, hbs] at hd4
          have hb := value_between hti h1.p0 h1.p1
          have : td.targetVal - (td.at b.td.paramVal).evaluate = 0 := by
            unfold sign at hd4
            rcases le_total td.startVal td.targetVal with hd | hd
            · rw [min_eq_left hd, max_eq_right hd] at hb
              split_ifs at hd4 with x y
              · exact absurd rfl hd4
              · exact absurd (by linarith) y
              · linarith
              · exact absurd rfl hd4
            · rw [min_eq_right hd, max_eq_left hd] at hb
              split_ifs at hd4 with x y
              · exact absurd rfl hd4
              · linarith
              · linarith
              · exact absurd rfl hd4
          rw [this, abs_zero]; exact hnn
      · rw [value_immediate hstep, sub_self, abs_zero]; exact hnn
    · show |signLane b.laneId * b.td.evaluate - signLane a.laneId * (td.at b.td.paramVal).evaluate| ≤ _
      rw [h1.lane, hev, sub_self, abs_zero]; exact hnn
  rw [happ]
  cases hce : (runOffset dts (a.start value m)).ended with
  | true => rw [if_pos rfl]; exact ⟨hce, h1.offset hce⟩
  | false =>
    have hpv := h2 hce
    rw [hps, zero_add, min_eq_left hlast] at hpv
    generalize runOffset dts (a.start value m) = b at *
    rw [if_neg (by decide)]
    have hdone : offsetDone b.td := by
      left
      rw [hpv, h1.tdEq]
      show td.paramTargetVal > td.paramTargetVal - small
      norm_num [small]
    unfold OffsetAction.step
    rw [if_pos hdone]
    refine ⟨rfl, ?_⟩
    show signLane b.laneId * b.td.targetVal = value
    rw [h1.tdEq, h1.lane]; exact hend

/-- A lane offset action for a vehicle in lane -1, from offset 0 to 0.5 m, sinusoidal. -/
example : ∃ a : OffsetAction, a.td.dim = .time ∧ a.td.rate = 0 ∧ a.td.shape = .sinusoidal ∧
    a.offset = 0 ∧ small ≤ (offsetStartTD a 0.5 0.5).paramTargetVal := by
  refine ⟨⟨⟨.sinusoidal, .time, 0, 0, 0, 1, 0, 0⟩, -1, 0, false⟩, rfl, rfl, rfl, rfl, ?_⟩
  rw [offset_start_eq _ rfl rfl]
  have h : (2:ℝ) ≤ Real.pi := Real.two_le_pi
  have e : Real.sqrt (1 / 2 : ℝ) ≥ 1 / 2 := Real.le_sqrt_of_sq_le (by norm_num)
  norm_num [TD.paramByPrimPrimPeak, signLane, small] at *
  nlinarith

end Verif.Transition

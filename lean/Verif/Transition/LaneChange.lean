import Verif.Transition.LaneChangeModel
import Verif.Transition.MoreTheorems

/-
Theorems about lane changes (`Verif.Transition.LaneChangeModel`).
-/
namespace Verif.Transition

/-- A lane change as given in a scenario: shape, dimension and value of the dynamics, the target
lane, the offset of the entity from its centre and the requested offset. -/
noncomputable def change (s : Shape) (dm : Dim) (v : ℝ) (lane : Int) (offset target : ℝ) :
    LaneChange := startChange (parseTD s dm v) lane offset target

/-- The offset from the centre of the target lane, to the left of its driving direction or to the
left of the road as in the scenario. -/
noncomputable def LaneChange.laneOffset (lane : Int) (a : LaneChange) : ℝ := signLane lane * a.offset

/-- Dynamics that say how long the lane change is: not a rate of zero. -/
def Defined (dm : Dim) (v : ℝ) : Prop := dm ≠ .undefined ∧ (dm = .rate → small ≤ |v|)

/-- The transition of a lane change. -/
theorem change_td (s : Shape) (dm : Dim) (v : ℝ) (lane : Int) (x y : ℝ) :
    (change s dm v lane x y).td = started s dm v (signLane lane * x) (signLane lane * y) := rfl

theorem started_scale (s : Shape) (dm : Dim) (v a b : ℝ) :
    (started s dm v a b).scaleFactor = 1 ∧ (started s dm v a b).dim = dm ∧
      (started s dm v a b).shape = s := by
  unfold started TD.setTargetVal TD.setStartVal
  obtain ⟨h1, h2, _, _, h5, _⟩ := updateRate_cases
    ((((parseTD s dm v).reset.putStart a).updateRate).putTarget b)
  obtain ⟨k1, k2, _, _, k5, _⟩ := updateRate_cases ((parseTD s dm v).reset.putStart a)
  obtain ⟨m1, m2, _⟩ := parse_cases s dm v
  refine ⟨?_, ?_, ?_⟩
  · rw [h5]
    show ((parseTD s dm v).reset.putStart a).updateRate.scaleFactor = 1
    rw [k5]
    rfl
  · rw [h2]
    show ((parseTD s dm v).reset.putStart a).updateRate.dim = dm
    rw [k2]
    exact m2
  · rw [h1]
    show ((parseTD s dm v).reset.putStart a).updateRate.shape = s
    rw [k1]
    exact m1

theorem change_param (s : Shape) (h1 : s ≠ .step) (dm : Dim) (h2 : dm ≠ .rate) (v a b : ℝ) :
    (started s dm v a b).paramTargetVal = v := by
  unfold started TD.setTargetVal TD.setStartVal
  obtain ⟨_, k2, _, _, _, _, _, k8⟩ := updateRate_cases ((parseTD s dm v).reset.putStart a)
  obtain ⟨_, _, _, _, _, _, _, l8⟩ := updateRate_cases
    ((((parseTD s dm v).reset.putStart a).updateRate).putTarget b)
  obtain ⟨m1, m2, _, m4⟩ := parse_cases s dm v
  rw [l8 (.inl (by
    show ((parseTD s dm v).reset.putStart a).updateRate.dim ≠ .rate
    rw [k2]
    show (parseTD s dm v).dim ≠ .rate
    rw [m2]; exact h2))]
  show ((parseTD s dm v).reset.putStart a).updateRate.paramTargetVal = v
  rw [k8 (.inl (by show (parseTD s dm v).dim ≠ .rate; rw [m2]; exact h2))]
  show (parseTD s dm v).paramTargetVal = v
  rw [m4 (.inl h2), if_neg h2, if_neg h1]

/-- The kinds of transitions: immediate, smooth, or without end value. -/
def Kind (d : TD) : Prop :=
  d.isStep ∨ Timed d ∨ (Smooth d.shape ∧ d.dim = .rate ∧ d.paramTargetVal = 0)

theorem started_kind (s : Shape) (hs : s ≠ .undefined) (dm : Dim) (v a b : ℝ) :
    Kind (started s dm v a b) := by
  obtain ⟨_, hd, hsh⟩ := started_scale s dm v a b
  obtain ⟨_, _, _, h4, h5, h6⟩ := reader_transitions s hs dm v a b
  by_cases h1 : s = .step
  · exact .inl (.inl (hsh.trans h1))
  · by_cases h2 : dm = .rate
    · by_cases h3 : |v| < small
      · refine .inr (.inr ⟨?_, hd.trans h2, (h5 ⟨h1, h2, h3⟩).1⟩)
        rw [hsh]
        unfold Smooth
        cases s <;> simp_all
      · exact .inr (.inl (h6 ⟨h1, .inr ⟨h2, not_lt.1 h3⟩⟩).1)
    · by_cases h3 : v < small
      · refine .inl (.inr ⟨?_, ?_⟩)
        · rw [hd]; exact h2
        · rw [change_param s h1 dm h2]
          exact h3
      · exact .inr (.inl (h6 ⟨h1, .inl ⟨h2, not_lt.1 h3⟩⟩).1)

/-- Parameters that occur. -/
def InRange (d : TD) (p : ℝ) : Prop := d.isStep ∨ (0 ≤ p ∧ p ≤ d.paramTargetVal)

theorem isStep_at (d : TD) (p : ℝ) : (d.at p).isStep ↔ d.isStep := Iff.rfl

theorem Kind.target_nonneg {d : TD} (h : Kind d) (hs : ¬ d.isStep) : 0 ≤ d.paramTargetVal := by
  rcases h with h | h | h
  · exact absurd h hs
  · exact h.pos.le
  · exact h.2.2.ge

theorem step_at (d : TD) (hs : d.scaleFactor = 1) (p x : ℝ) :
    (d.at p).step x = d.at (limitParam (p + x) d.paramTargetVal) := by
  unfold TD.step TD.at
  simp only [hs, div_one]

theorem step_inRange {d : TD} (hk : Kind d) (x : ℝ) : InRange d (limitParam x d.paramTargetVal) := by
  by_cases h : d.isStep
  · exact .inl h
  · exact .inr (limitParam_mem (hk.target_nonneg h))

theorem evaluateAs_linear {d : TD} (h : ¬ d.isStep) :
    d.evaluateAs .linear
      = d.startVal + d.paramVal * (d.targetVal - d.startVal) / avoidZero d.paramTargetVal := by
  unfold TD.evaluateAs
  rw [if_neg h, if_neg (by decide)]

theorem evaluate_step {d : TD} (h : d.isStep) (s : Shape) : d.evaluateAs s = d.targetVal := by
  unfold TD.evaluateAs
  rw [if_pos h]

theorem evaluate_zero_rate {d : TD} (h : Smooth d.shape) (hn : ¬ d.isStep) (hp : d.paramVal = 0) :
    d.evaluate = d.startVal := by
  unfold TD.evaluate TD.evaluateAs
  rw [if_neg hn, if_pos rfl]
  rcases h with h | h | h <;> rw [h] <;> simp [hp]

theorem mix_between (a b w : ℝ) (h0 : 0 ≤ w) (h1 : w ≤ 1) :
    min a b ≤ a + (b - a) * w ∧ a + (b - a) * w ≤ max a b := by
  rcases le_total a b with h | h
  · rw [min_eq_left h, max_eq_right h]
    constructor <;> nlinarith
  · rw [min_eq_right h, max_eq_left h]
    constructor <;> nlinarith

/-- A value between the start and the target. -/
def Btw (d : TD) (x : ℝ) : Prop := min d.startVal d.targetVal ≤ x ∧ x ≤ max d.startVal d.targetVal

theorem btw_target (d : TD) : Btw d d.targetVal := ⟨min_le_right _ _, le_max_right _ _⟩

theorem btw_start (d : TD) : Btw d d.startVal := ⟨min_le_left _ _, le_max_left _ _⟩

theorem evaluate_btw {d : TD} (hk : Kind d) {p : ℝ} (hp : InRange d p) : Btw d (d.at p).evaluate := by
  by_cases hs : d.isStep
  · unfold TD.evaluate
    rw [evaluate_step ((isStep_at d p).2 hs)]
    exact btw_target d
  · rcases hp with h | hp
    · exact absurd h hs
    rcases hk with h | h | h
    · exact absurd h hs
    · exact value_between h hp.1 hp.2
    · have : p = 0 := le_antisymm (by rw [← h.2.2]; exact hp.2) hp.1
      rw [evaluate_zero_rate (d := d.at p) h.1 hs this]
      exact btw_start d

theorem linear_btw {d : TD} (hk : Kind d) {p : ℝ} (hp : InRange d p) :
    Btw d ((d.at p).evaluateAs .linear) := by
  by_cases hs : d.isStep
  · rw [evaluate_step ((isStep_at d p).2 hs)]
    exact btw_target d
  · rw [evaluateAs_linear (d := d.at p) hs]
    rcases hp with h | hp
    · exact absurd h hs
    show Btw d (d.startVal + p * (d.targetVal - d.startVal) / avoidZero d.paramTargetVal)
    rcases hk with h | h | h
    · exact absurd h hs
    · rw [avoidZero_of_ge h.2]
      obtain ⟨h0, h1⟩ := frac_mem h hp.1 hp.2
      have := mix_between d.startVal d.targetVal _ h0 h1
      have e : d.startVal + p * (d.targetVal - d.startVal) / d.paramTargetVal
          = d.startVal + (d.targetVal - d.startVal) * (p / d.paramTargetVal) := by ring
      rw [e]
      exact this
    · have : p = 0 := le_antisymm (by rw [← h.2.2]; exact hp.2) hp.1
      rw [this]
      simpa using btw_start d

/-- What all steps preserve. -/
structure Inv (d : TD) (a : LaneChange) : Prop where
  param : ∃ p, a.td = d.at p ∧ InRange d p
  btw : Btw d a.offset

theorem move_cases {d : TD} (hk : Kind d) (hs : d.scaleFactor = 1) {p : ℝ} (hp : InRange d p)
    {x h : ℝ} (hx : Btw d x) (sp dt : ℝ) :
    (∃ q, ((d.at p).move x h sp dt).td = d.at q ∧ InRange d q) ∧
      Btw d ((d.at p).move x h sp dt).offset := by
  unfold TD.move
  split
  · split
    · unfold TD.moveFits
      rw [step_at d hs]
      exact ⟨⟨_, rfl, step_inRange hk _⟩, evaluate_btw hk (step_inRange hk _)⟩
    · unfold TD.moveLimited
      rw [step_at d hs]
      exact ⟨⟨_, rfl, step_inRange hk _⟩, linear_btw hk (step_inRange hk _)⟩
  · split
    · unfold TD.moveDist
      rw [step_at d hs]
      exact ⟨⟨_, rfl, step_inRange hk _⟩, evaluate_btw hk (step_inRange hk _)⟩
    · exact ⟨⟨p, rfl, hp⟩, hx⟩

theorem inv_step {d : TD} (hk : Kind d) (hs : d.scaleFactor = 1) {a : LaneChange} (h : Inv d a)
    (i : Bool) (sp dt : ℝ) : Inv d (a.step i sp dt) := by
  unfold LaneChange.step
  split
  · exact h
  · obtain ⟨p, hp, hr⟩ := h.param
    rw [hp]
    have := move_cases hk hs hr (h := a.heading) h.btw sp dt
    exact ⟨this.1, this.2⟩

theorem inv_run {d : TD} (hk : Kind d) (hs : d.scaleFactor = 1) (ts : List Tick) {a : LaneChange}
    (h : Inv d a) : Inv d (runChange ts a) := by
  induction ts generalizing a with
  | nil => exact h
  | cons t ts ih => exact ih (inv_step hk hs h _ _ _)

theorem inv_change (s : Shape) (hs : s ≠ .undefined) (dm : Dim) (v : ℝ) (lane : Int) (x y : ℝ) :
    Inv (change s dm v lane x y).td (change s dm v lane x y) := by
  obtain ⟨h1, h2, h3, _⟩ := reader_transitions s hs dm v (signLane lane * x) (signLane lane * y)
  refine ⟨⟨0, ?_, ?_⟩, ?_⟩
  · rw [change_td]
    unfold TD.at
    rw [← h1]
  · by_cases hst : (change s dm v lane x y).td.isStep
    · exact .inl hst
    · exact .inr ⟨le_refl _, (started_kind s hs dm v _ _).target_nonneg hst⟩
  · rw [change_td]
    show Btw _ (signLane lane * x)
    conv => rhs; rw [← h2]
    exact btw_start _

/-- The entity never leaves the space between where it started and where the lane change is to
end. -/
theorem change_between (s : Shape) (hs : s ≠ .undefined) (dm : Dim) (v : ℝ) (lane : Int) (x y : ℝ)
    (ts : List Tick) :
    min x y ≤ (runChange ts (change s dm v lane x y)).laneOffset lane ∧
      (runChange ts (change s dm v lane x y)).laneOffset lane ≤ max x y := by
  obtain ⟨_, h2, h3, _⟩ := reader_transitions s hs dm v (signLane lane * x) (signLane lane * y)
  have h := (inv_run (started_kind s hs dm v (signLane lane * x) (signLane lane * y))
    (started_scale s dm v _ _).1 ts (inv_change s hs dm v lane x y)).btw
  unfold Btw at h
  rw [h2, h3] at h
  exact between_sign lane h

example : (change .sinusoidal .time 4 (-1) 3.5 0).laneOffset (-1) = 3.5 := by
  unfold LaneChange.laneOffset change startChange
  show signLane (-1) * (signLane (-1) * 3.5) = 3.5
  rw [← mul_assoc, signLane_sq, one_mul]

/-- An entity that stands still is not moved. -/
theorem change_standing (a : LaneChange) (ts : List Tick) (h : ∀ t ∈ ts, |t.speed| < small) :
    runChange ts a = a := by
  induction ts generalizing a with
  | nil => rfl
  | cons t ts ih =>
    show runChange ts (a.step t.idle t.speed t.dt) = a
    rw [show a.step t.idle t.speed t.dt = a from
      if_pos (.inr (.inr (h t List.mem_cons_self)))]
    exact ih a fun t ht => h t (List.mem_cons_of_mem _ ht)

/-! ### The end of the lane change -/

theorem moved_offset {d : TD} (hd : d.dim ≠ .undefined) (x h sp dt : ℝ) :
    (d.move x h sp dt).offset = (d.move x h sp dt).td.evaluate ∨
      (d.move x h sp dt).offset = (d.move x h sp dt).td.evaluateAs .linear := by
  unfold TD.move
  split
  · split
    · exact .inl rfl
    · exact .inr rfl
  · split
    · exact .inl rfl
    · rename_i h1 h2
      cases hdd : d.dim <;> simp_all

/-- How far from the target the lane change may end. -/
noncomputable def tolerance (d : TD) : ℝ :=
  small * max 1 (|d.targetVal - d.startVal| * slope d.shape / d.paramTargetVal)

theorem tolerance_nonneg (d : TD) : 0 ≤ tolerance d :=
  mul_nonneg small_pos.le (le_trans zero_le_one (le_max_left _ _))

theorem evaluate_near {d : TD} (h : Timed d) {p : ℝ} (h0 : 0 ≤ p) (h1 : p ≤ d.paramTargetVal)
    (h2 : p > d.paramTargetVal - small) : |(d.at p).evaluate - d.targetVal| ≤ tolerance d := by
  have := value_lip h h0 h1 h.pos.le (le_refl _)
  rw [value_at_end h] at this
  refine this.trans ?_
  unfold tolerance
  rw [mul_comm small]
  have hab : |p - d.paramTargetVal| ≤ small := by
    rw [abs_le]
    constructor <;> linarith [small_pos]
  exact mul_le_mul (le_max_right _ _) hab (abs_nonneg _) (le_trans zero_le_one (le_max_left _ _))

theorem linear_as {d : TD} (h : Timed d) (p : ℝ) :
    (d.at p).evaluateAs .linear = (TD.at { d with shape := .linear } p).evaluate := by
  rw [evaluateAs_linear (d := d.at p) h.not_isStep,
    evaluate_eq (d := TD.at { d with shape := .linear } p) ⟨.inl rfl, h.2⟩]
  show d.startVal + p * (d.targetVal - d.startVal) / avoidZero d.paramTargetVal
    = d.startVal + (d.targetVal - d.startVal) * (p / d.paramTargetVal)
  rw [avoidZero_of_ge h.2]
  ring

theorem linear_near {d : TD} (h : Timed d) {p : ℝ} (h0 : 0 ≤ p) (h1 : p ≤ d.paramTargetVal)
    (h2 : p > d.paramTargetVal - small) :
    |(d.at p).evaluateAs .linear - d.targetVal| ≤ tolerance d := by
  rw [linear_as h]
  refine (evaluate_near (d := { d with shape := .linear }) ⟨.inl rfl, h.2⟩ h0 h1 h2).trans ?_
  unfold tolerance
  refine mul_le_mul_of_nonneg_left (max_le_max (le_refl _) ?_) small_pos.le
  show |d.targetVal - d.startVal| * 1 / d.paramTargetVal ≤ _
  refine div_le_div_of_nonneg_right ?_ h.pos.le
  exact mul_le_mul_of_nonneg_left (slope_pos h.1) (abs_nonneg _)

theorem passed_eq {d : TD} {x : ℝ} (hb : Btw d x)
    (h : sign (x - d.targetVal) ≠ sign (d.startVal - d.targetVal)) : x = d.targetVal := by
  unfold sign at h
  obtain ⟨h0, h1⟩ := hb
  rcases le_total d.startVal d.targetVal with hl | hl
  · rw [max_eq_right hl] at h1
    rcases lt_or_eq_of_le h1 with h2 | h2
    · rw [if_pos (by linarith)] at h
      split at h
      · exact absurd rfl h
      · linarith [min_eq_left hl ▸ h0]
    · exact h2
  · rw [min_eq_right hl] at h0
    rw [if_neg (by linarith), if_neg (by linarith)] at h
    exact absurd rfl h

theorem finished_near {d : TD} (h : Timed d) {p : ℝ} (hp : InRange d p) {x : ℝ}
    (hx : x = (d.at p).evaluate ∨ x = (d.at p).evaluateAs .linear) (hf : (d.at p).finished x) :
    |x - d.targetVal| ≤ tolerance d := by
  rcases hp with hp | ⟨h0, h1⟩
  · exact absurd hp h.not_isStep
  have hb : Btw d x := by
    rcases hx with hx | hx <;> rw [hx]
    · exact evaluate_btw (.inr (.inl h)) (.inr ⟨h0, h1⟩)
    · exact linear_btw (.inr (.inl h)) (.inr ⟨h0, h1⟩)
  rcases hf with hf | hf | hf
  · rcases hx with hx | hx <;> rw [hx]
    · exact evaluate_near h h0 h1 hf
    · exact linear_near h h0 h1 hf
  · refine hf.le.trans ?_
    unfold tolerance
    nlinarith [small_pos, le_max_left 1 (|d.targetVal - d.startVal| * slope d.shape / d.paramTargetVal)]
  · rw [passed_eq hb hf.2, sub_self, abs_zero]
    exact tolerance_nonneg d

theorem near_run {d : TD} (hk : d.isStep ∨ Timed d) (hs : d.scaleFactor = 1)
    (hd : d.dim ≠ .undefined) (ts : List Tick) {a : LaneChange} (h : Inv d a)
    (ha : a.ended = true → |a.offset - d.targetVal| ≤ tolerance d) :
    (runChange ts a).ended = true → |(runChange ts a).offset - d.targetVal| ≤ tolerance d := by
  have hk' : Kind d := hk.elim .inl fun h => .inr (.inl h)
  induction ts generalizing a with
  | nil => exact ha
  | cons t ts ih =>
    refine ih (inv_step hk' hs h _ _ _) ?_
    show (a.step t.idle t.speed t.dt).ended = true →
      |(a.step t.idle t.speed t.dt).offset - d.targetVal| ≤ tolerance d
    unfold LaneChange.step
    split
    · exact ha
    · intro he
      obtain ⟨p, hp, hr⟩ := h.param
      rw [hp] at he ⊢
      obtain ⟨⟨q, hq, hqr⟩, hb⟩ := move_cases hk' hs hr (h := a.heading) h.btw t.speed t.dt
      have ho := moved_offset (d := d.at p) hd a.offset a.heading t.speed t.dt
      have hf : ((d.at p).move a.offset a.heading t.speed t.dt).td.finished
        ((d.at p).move a.offset a.heading t.speed t.dt).offset := by
        simpa [LaneChange.moved] using he
      show |((d.at p).move a.offset a.heading t.speed t.dt).offset - d.targetVal| ≤ _
      rw [hq] at ho hf
      rcases hk with hst | hti
      · have e : ((d.at p).move a.offset a.heading t.speed t.dt).offset = d.targetVal := by
          rcases ho with ho | ho <;> rw [ho]
          · exact evaluate_step (d := d.at q) hst _
          · exact evaluate_step (d := d.at q) hst _
        rw [e, sub_self, abs_zero]
        exact tolerance_nonneg d
      · exact finished_near hti hqr ho hf

theorem defined_kind {s : Shape} (hs : s ≠ .undefined) {dm : Dim} {v : ℝ} (h : Defined dm v)
    (a b : ℝ) : (started s dm v a b).isStep ∨ Timed (started s dm v a b) := by
  rcases started_kind s hs dm v a b with hk | hk | hk
  · exact .inl hk
  · exact .inr hk
  · obtain ⟨_, hd, hsh⟩ := started_scale s dm v a b
    obtain ⟨_, _, _, h4, h5, h6⟩ := reader_transitions s hs dm v a b
    rw [hd] at hk
    refine .inr (h6 ⟨?_, .inr ⟨hk.2.1, h.2 hk.2.1⟩⟩).1
    rintro rfl
    rw [hsh] at hk
    rcases hk.1 with h | h | h <;> simp at h

theorem started_values (s : Shape) (hs : s ≠ .undefined) (dm : Dim) (v a b : ℝ) :
    (started s dm v a b).startVal = a ∧ (started s dm v a b).targetVal = b :=
  have h := reader_transitions s hs dm v a b
  ⟨h.2.1, h.2.2.1⟩

/-- A lane change ends at the requested offset, except for a distance of about a micrometre, or
what the entity moves sideways within a millionth of the time or distance unit if that is more. -/
theorem change_ends_at_target (s : Shape) (hs : s ≠ .undefined) (dm : Dim) (v : ℝ)
    (hv : Defined dm v) (lane : Int) (x y : ℝ) (ts : List Tick)
    (he : (runChange ts (change s dm v lane x y)).ended = true) :
    |(runChange ts (change s dm v lane x y)).laneOffset lane - y|
      ≤ small * max 1 (|y - x| * slope s / (change s dm v lane x y).td.paramTargetVal) := by
  obtain ⟨hsc, hdm, hsh⟩ := started_scale s dm v (signLane lane * x) (signLane lane * y)
  obtain ⟨h2, h3⟩ := started_values s hs dm v (signLane lane * x) (signLane lane * y)
  have h := near_run (defined_kind hs hv (signLane lane * x) (signLane lane * y)) hsc
    (by rw [hdm]; exact hv.1) ts (inv_change s hs dm v lane x y) (fun h => by cases h) he
  rw [h3] at h
  unfold tolerance at h
  rw [h2, h3, hsh, ← mul_sub, signLane_abs] at h
  have e : (runChange ts (change s dm v lane x y)).laneOffset lane - y
      = signLane lane * ((runChange ts (change s dm v lane x y)).offset - signLane lane * y) := by
    unfold LaneChange.laneOffset
    rw [mul_sub, ← mul_assoc, signLane_sq, one_mul]
  rw [e, signLane_abs]
  exact h

/-! ### When the lane change ends -/

/-- The entity drives and the action is in charge of it. -/
def Active (w : ℝ) (t : Tick) : Prop := t.idle = false ∧ 0 ≤ t.dt ∧ small ≤ |t.speed| ∧ w ≤ |t.speed|

/-- The time that has passed. -/
def elapsed (ts : List Tick) : ℝ := (ts.map Tick.dt).sum

/-- The distance that has been travelled. -/
def travelled (ts : List Tick) : ℝ := (ts.map fun t => |t.speed| * t.dt).sum

theorem scaledPrim_eq {d : TD} (hs : d.scaleFactor = 1) : d.scaledPrim = d.prim := by
  unfold TD.scaledPrim
  rw [hs, avoidZero_of_ge (by unfold small; norm_num), div_one]

/-- The rate of change of a transition is at most this. -/
noncomputable def peak (d : TD) : ℝ := |d.targetVal - d.startVal| * slope d.shape / d.paramTargetVal

theorem peak_nonneg {d : TD} (h : Timed d) : 0 ≤ peak d :=
  div_nonneg (mul_nonneg (abs_nonneg _) (le_trans zero_le_one (slope_pos h.1))) h.pos.le

theorem limit_open {p x T : ℝ} (h0 : 0 ≤ p) (hx : 0 ≤ x) (h : limitParam (p + x) T ≤ T - small) :
    limitParam (p + x) T = p + x := by
  unfold limitParam at h ⊢
  by_cases h1 : p + x > T
  · rw [if_pos h1] at h
    linarith [small_pos]
  · rw [if_neg h1, if_neg (by linarith)]

/-- A step of a lane change that has not ended after it: the transition has gone on by the
duration or distance of the step. -/
theorem open_step {d : TD} (h : Timed d) (hs : d.scaleFactor = 1) {a : LaneChange} {p : ℝ}
    (hp : a.td = d.at p) (h0 : 0 ≤ p) (hae : a.ended = false) {t : Tick} {w : ℝ} (ht : Active w t)
    (hd : d.dim ≠ .undefined) (he : (a.step t.idle t.speed t.dt).ended = false) :
    ∃ x, 0 ≤ x ∧ p + x ≤ d.paramTargetVal - small ∧
      a.step t.idle t.speed t.dt
        = a.moved ((d.at p).move a.offset a.heading t.speed t.dt) t.speed t.dt ∧
      ((d.at p).move a.offset a.heading t.speed t.dt).td = d.at (p + x) ∧
      ((d.dim = .time ∨ d.dim = .rate) → (d.at p).fits t.speed t.dt → x = t.dt ∧
        (d.at p).move a.offset a.heading t.speed t.dt = (d.at p).moveFits t.speed t.dt) ∧
      ((d.dim = .time ∨ d.dim = .rate) → ¬ (d.at p).fits t.speed t.dt →
        x = (d.at p).limitedStep t.speed t.dt ∧
        (d.at p).move a.offset a.heading t.speed t.dt = (d.at p).moveLimited t.speed t.dt) ∧
      (d.dim = .distance → x = (d.at p).distLong t.speed t.dt ∧
        (d.at p).move a.offset a.heading t.speed t.dt = (d.at p).moveDist t.speed t.dt) := by
  have hlen : 0 ≤ stepLen t.speed t.dt := mul_nonneg (abs_nonneg _) ht.2.1
  have hst : a.step t.idle t.speed t.dt
      = a.moved ((d.at p).move a.offset a.heading t.speed t.dt) t.speed t.dt := by
    unfold LaneChange.step
    rw [if_neg (by
      rintro (h | h | h)
      · rw [hae] at h; cases h
      · rw [ht.1] at h; cases h
      · linarith [ht.2.2.1]), hp]
  rw [hst] at he
  have hnf : ¬ ((d.at p).move a.offset a.heading t.speed t.dt).td.finished
    ((d.at p).move a.offset a.heading t.speed t.dt).offset := by
    simpa [LaneChange.moved] using he
  have hpar : ((d.at p).move a.offset a.heading t.speed t.dt).td.paramVal
      ≤ ((d.at p).move a.offset a.heading t.speed t.dt).td.paramTargetVal - small :=
    not_lt.1 fun hlt => hnf (.inl hlt)
  by_cases hdim : d.dim = .time ∨ d.dim = .rate
  · have hnd : d.dim ≠ .distance := by rcases hdim with h | h <;> rw [h] <;> decide
    by_cases hf : (d.at p).fits t.speed t.dt
    · have hm : (d.at p).move a.offset a.heading t.speed t.dt = (d.at p).moveFits t.speed t.dt := by
        unfold TD.move
        rw [if_pos (show (d.at p).dim = .time ∨ (d.at p).dim = .rate from hdim), if_pos hf]
      have htd : ((d.at p).moveFits t.speed t.dt).td
          = d.at (limitParam (p + t.dt) d.paramTargetVal) := step_at d hs p _
      rw [hm, htd] at hpar
      have hl := limit_open h0 ht.2.1 hpar
      refine ⟨t.dt, ht.2.1, hl ▸ hpar, hst, ?_, ?_, ?_, ?_⟩
      · rw [hm, htd, hl]
      · intro _ _
        exact ⟨rfl, hm⟩
      · intro _ h
        exact absurd hf h
      · intro h
        exact absurd h hnd
    · have hm : (d.at p).move a.offset a.heading t.speed t.dt
          = (d.at p).moveLimited t.speed t.dt := by
        unfold TD.move
        rw [if_pos (show (d.at p).dim = .time ∨ (d.at p).dim = .rate from hdim), if_neg hf]
      have htd : ((d.at p).moveLimited t.speed t.dt).td
          = d.at (limitParam (p + (d.at p).limitedStep t.speed t.dt) d.paramTargetVal) :=
        step_at d hs p _
      have hx : 0 ≤ (d.at p).limitedStep t.speed t.dt :=
        div_nonneg (mul_nonneg hlen h.pos.le) (abs_nonneg _)
      rw [hm, htd] at hpar
      have hl := limit_open h0 hx hpar
      refine ⟨_, hx, hl ▸ hpar, hst, ?_, ?_, ?_, ?_⟩
      · rw [hm, htd, hl]
      · intro _ h
        exact absurd h hf
      · intro _ _
        exact ⟨rfl, hm⟩
      · intro h
        exact absurd h hnd
  · have hdist : d.dim = .distance := by
      cases hdd : d.dim <;> simp_all
    have hm : (d.at p).move a.offset a.heading t.speed t.dt = (d.at p).moveDist t.speed t.dt := by
      unfold TD.move
      rw [if_neg (show ¬ ((d.at p).dim = .time ∨ (d.at p).dim = .rate) from hdim),
        if_pos (show (d.at p).dim = .distance from hdist)]
    have htd : ((d.at p).moveDist t.speed t.dt).td
        = d.at (limitParam (p + (d.at p).distLong t.speed t.dt) d.paramTargetVal) :=
      step_at d hs p _
    have hx : 0 ≤ (d.at p).distLong t.speed t.dt := Real.sqrt_nonneg _
    rw [hm, htd] at hpar
    have hl := limit_open h0 hx hpar
    refine ⟨_, hx, hl ▸ hpar, hst, ?_, ?_, ?_, ?_⟩
    · rw [hm, htd, hl]
    · intro h
      exact absurd h hdim
    · intro h
      exact absurd h hdim
    · intro _
      exact ⟨rfl, hm⟩

theorem ended_step {a : LaneChange} (h : a.ended = true) (i : Bool) (sp dt : ℝ) :
    a.step i sp dt = a := if_pos (.inl h)

theorem ended_run {a : LaneChange} (h : a.ended = true) (ts : List Tick) : runChange ts a = a := by
  induction ts generalizing a with
  | nil => rfl
  | cons t ts ih =>
    show runChange ts (a.step t.idle t.speed t.dt) = a
    rw [ended_step h]
    exact ih h

/-- A quantity that grows with each step bounds the parameter as long as the action goes on. -/
theorem param_grows {d : TD} (h : Timed d) (hs : d.scaleFactor = 1) (hd : d.dim ≠ .undefined)
    {w : ℝ} (f : Tick → ℝ)
    (hf : ∀ p t x, Active w t → 0 ≤ p → p ≤ d.paramTargetVal →
      ((d.dim = .time ∨ d.dim = .rate) → (d.at p).fits t.speed t.dt → x = t.dt) →
      ((d.dim = .time ∨ d.dim = .rate) → ¬ (d.at p).fits t.speed t.dt →
        x = (d.at p).limitedStep t.speed t.dt) →
      (d.dim = .distance → x = (d.at p).distLong t.speed t.dt) → f t ≤ x)
    (ts : List Tick) (hts : ∀ t ∈ ts, Active w t) {a : LaneChange} {p : ℝ} (hp : a.td = d.at p)
    (h0 : 0 ≤ p) (h1 : p ≤ d.paramTargetVal - small) (hae : a.ended = false)
    (he : (runChange ts a).ended = false) :
    ∃ q, (runChange ts a).td = d.at q ∧ p + (ts.map f).sum ≤ q ∧ q ≤ d.paramTargetVal - small := by
  induction ts generalizing a p with
  | nil => exact ⟨p, hp, by simp, h1⟩
  | cons t ts ih =>
    have ht := hts t List.mem_cons_self
    have he1 : (a.step t.idle t.speed t.dt).ended = false := by
      by_contra hne
      have hne : (a.step t.idle t.speed t.dt).ended = true := by simpa using hne
      have : (runChange ts (a.step t.idle t.speed t.dt)).ended = false := he
      rw [ended_run hne, hne] at this
      cases this
    obtain ⟨x, hx0, hx1, hst, htd, c1, c2, c3⟩ := open_step h hs hp h0 hae ht hd he1
    have hfx : f t ≤ x := hf p t x ht h0 (by linarith [small_pos]) (fun a b => (c1 a b).1)
      (fun a b => (c2 a b).1) fun a => (c3 a).1
    obtain ⟨q, hq, hle, hq1⟩ := ih (fun t ht => hts t (List.mem_cons_of_mem _ ht))
      (a := a.step t.idle t.speed t.dt) (p := p + x) (by rw [hst]; exact htd)
      (by linarith) hx1 he1 he
    refine ⟨q, hq, ?_, hq1⟩
    rw [List.map_cons, List.sum_cons]
    linarith

theorem not_fits_ne {d : TD} (h : Timed d) (hs : d.scaleFactor = 1) {p sp dt : ℝ} (h0 : 0 ≤ dt)
    (hf : ¬ (d.at p).fits sp dt) : 0 < |d.targetVal - d.startVal| := by
  rcases (abs_nonneg (d.targetVal - d.startVal)).lt_or_eq with h' | h'
  · exact h'
  · exfalso
    apply hf
    unfold TD.fits TD.lateral
    rw [scaledPrim_eq (d := d.at p) hs]
    have hz : d.targetVal - d.startVal = 0 := abs_eq_zero.1 h'.symm
    have : (d.at p).prim = 0 := by
      unfold TD.prim
      rw [if_neg (show ¬ (d.at p).isStep from h.not_isStep)]
      show (match d.shape with | .linear => _ | .sinusoidal => _ | .cubic => _ | _ => _) = _
      rcases h.1 with h | h | h <;> rw [h] <;> simp [TD.at, hz]
    rw [this, abs_zero, mul_zero]
    have : 0 ≤ stepLen sp dt := mul_nonneg (abs_nonneg _) h0
    linarith [small_pos]

theorem sum_const_mul (c : ℝ) (g : Tick → ℝ) (ts : List Tick) :
    (ts.map fun t => c * g t).sum = c * (ts.map g).sum := by
  induction ts with
  | nil => simp
  | cons t ts ih => simp only [List.map_cons, List.sum_cons, ih]; ring

theorem elapsed_pos_step {d : TD} (h : Timed d) (hs : d.scaleFactor = 1)
    (hdim : d.dim = .time ∨ d.dim = .rate) {a : LaneChange} (hp : a.td = d.at 0)
    (hae : a.ended = false) {w : ℝ} (ts : List Tick) (hts : ∀ t ∈ ts, Active w t)
    (hT : d.paramTargetVal ≤ elapsed ts) (hD : |d.targetVal - d.startVal| ≤ w * elapsed ts) :
    (runChange ts a).ended = true := by
  by_contra he
  have he : (runChange ts a).ended = false := by simpa using he
  have hE : 0 < elapsed ts := lt_of_lt_of_le h.pos hT
  have hc1 : d.paramTargetVal / elapsed ts ≤ 1 := (div_le_one hE).2 hT
  have hc0 : 0 ≤ d.paramTargetVal / elapsed ts := div_nonneg h.pos.le hE.le
  obtain ⟨q, hq, hle, hq1⟩ := param_grows h hs
    (by rcases hdim with h | h <;> rw [h] <;> decide) (w := w)
    (fun t => d.paramTargetVal / elapsed ts * t.dt) (by
      intro p t x ht h0 h1 c1 c2 _
      by_cases hf : (d.at p).fits t.speed t.dt
      · rw [c1 hdim hf]
        nlinarith [ht.2.1]
      · rw [c2 hdim hf]
        have hpos := not_fits_ne h hs ht.2.1 hf
        show _ ≤ stepLen t.speed t.dt * d.paramTargetVal / |d.targetVal - d.startVal|
        rw [le_div_iff₀ hpos]
        have e1 : d.paramTargetVal / elapsed ts * |d.targetVal - d.startVal|
            ≤ d.paramTargetVal * w := by
          rw [div_mul_eq_mul_div, div_le_iff₀ hE]
          have := mul_le_mul_of_nonneg_left hD h.pos.le
          linarith
        have e2 : w * t.dt ≤ stepLen t.speed t.dt :=
          mul_le_mul_of_nonneg_right ht.2.2.2 ht.2.1
        have e3 := mul_le_mul_of_nonneg_right e1 ht.2.1
        have e4 := mul_le_mul_of_nonneg_left e2 h.pos.le
        nlinarith) ts hts hp (le_refl 0) (by linarith [h.2]) hae he
  rw [sum_const_mul] at hle
  have : d.paramTargetVal / elapsed ts * (ts.map Tick.dt).sum = d.paramTargetVal := by
    show d.paramTargetVal / elapsed ts * elapsed ts = _
    field_simp
  have hle' : 0 + d.paramTargetVal / elapsed ts * (ts.map Tick.dt).sum ≤ q := hle
  rw [this] at hle'
  linarith [small_pos]

/-- A lane change given by a time or a rate ends when its time is over, or, if the entity is too
slow for that, when the entity has had the time to go straight to the target. -/
theorem change_ends (s : Shape) (hs : s ≠ .undefined) (dm : Dim) (v : ℝ) (hv : Defined dm v)
    (hst : s ≠ .step) (hsm : dm ≠ .rate → small ≤ v) (hdim : dm = .time ∨ dm = .rate) (lane : Int)
    (x y : ℝ) {w : ℝ} (ts : List Tick) (hts : ∀ t ∈ ts, Active w t)
    (hT : (change s dm v lane x y).td.paramTargetVal ≤ elapsed ts) (hD : |y - x| ≤ w * elapsed ts) :
    (runChange ts (change s dm v lane x y)).ended = true := by
  obtain ⟨hsc, hdm, hsh⟩ := started_scale s dm v (signLane lane * x) (signLane lane * y)
  obtain ⟨h1, h2, h3, _, _, h6⟩ :=
    reader_transitions s hs dm v (signLane lane * x) (signLane lane * y)
  have hti := (h6 ⟨hst, by
    rcases hdim with h | h
    · exact .inl ⟨by rw [h]; decide, hsm (by rw [h]; decide)⟩
    · exact .inr ⟨h, hv.2 h⟩⟩).1
  refine elapsed_pos_step hti hsc (by rw [hdm]; exact hdim) ?_ rfl ts hts hT ?_
  · show started s dm v (signLane lane * x) (signLane lane * y) = _
    unfold TD.at
    rw [← h1]
  · rw [h2, h3, ← mul_sub, signLane_abs]
    exact hD

/-- The transition of a smooth lane change. -/
theorem change_timed {s : Shape} (hst : Smooth s) {dm : Dim} {v : ℝ}
    (hv : (dm ≠ .rate ∧ small ≤ v) ∨ (dm = .rate ∧ small ≤ |v|)) (a b : ℝ) :
    Timed (started s dm v a b) ∧ started s dm v a b = (started s dm v a b).at 0 := by
  have hs : s ≠ .undefined ∧ s ≠ .step := by rcases hst with rfl | rfl | rfl <;> decide
  obtain ⟨h1, _, _, _, _, h6⟩ := reader_transitions s hs.1 dm v a b
  refine ⟨(h6 ⟨hs.2, hv⟩).1, ?_⟩
  unfold TD.at
  rw [← h1]

theorem distLong_ge {d : TD} (h : Timed d) (hs : d.scaleFactor = 1) {p : ℝ} (h0 : 0 ≤ p)
    (h1 : p ≤ d.paramTargetVal) {sp dt : ℝ} (hdt : 0 ≤ dt) :
    |sp| * dt / Real.sqrt (1 + peak d ^ 2) ≤ (d.at p).distLong sp dt := by
  have hl : 0 ≤ stepLen sp dt := mul_nonneg (abs_nonneg _) hdt
  unfold TD.distLong
  rw [scaledPrim_eq (d := d.at p) hs, Real.sqrt_div (sq_nonneg _), Real.sqrt_sq hl]
  refine div_le_div_of_nonneg_left hl (Real.sqrt_pos.2 (by positivity)) (Real.sqrt_le_sqrt ?_)
  have := prim_bound h h0 h1
  have h2 := sq_le_sq' (by linarith [neg_abs_le (d.at p).prim, abs_nonneg (d.at p).prim])
    ((le_abs_self (d.at p).prim).trans this)
  unfold peak
  linarith

/-- A lane change given by a distance ends at the latest when the entity has travelled that
distance and what is added to it by moving sideways. -/
theorem change_ends_distance (s : Shape) (hst : Smooth s) {v : ℝ} (hv : small ≤ v) (lane : Int)
    (x y : ℝ) (ts : List Tick) (hts : ∀ t ∈ ts, Active 0 t)
    (hT : v * Real.sqrt (1 + (|y - x| * slope s / v) ^ 2) ≤ travelled ts) :
    (runChange ts (change s .distance v lane x y)).ended = true := by
  have hs : s ≠ .undefined ∧ s ≠ .step := by rcases hst with rfl | rfl | rfl <;> decide
  obtain ⟨hti, h0⟩ := change_timed hst (dm := .distance) (v := v) (.inl ⟨by decide, hv⟩)
    (signLane lane * x) (signLane lane * y)
  obtain ⟨hsc, hdm, hsh⟩ := started_scale s .distance v (signLane lane * x) (signLane lane * y)
  obtain ⟨h2, h3⟩ := started_values s hs.1 .distance v (signLane lane * x) (signLane lane * y)
  have hT' : (started s .distance v (signLane lane * x) (signLane lane * y)).paramTargetVal = v := by
    exact change_param s hs.2 .distance (by decide) v _ _
  by_contra he
  have he : (runChange ts (change s .distance v lane x y)).ended = false := by simpa using he
  have hpk : peak (started s .distance v (signLane lane * x) (signLane lane * y))
      = |y - x| * slope s / v := by
    unfold peak
    rw [h2, h3, ← mul_sub, signLane_abs, hsh, hT']
  have hr : 0 < Real.sqrt (1 + (|y - x| * slope s / v) ^ 2) := Real.sqrt_pos.2 (by positivity)
  obtain ⟨q, hq, hle, hq1⟩ := param_grows hti hsc (by rw [hdm]; decide) (w := 0)
    (fun t => 1 / Real.sqrt (1 + (|y - x| * slope s / v) ^ 2) * (|t.speed| * t.dt)) (by
      intro p t z ht hp0 hp1 _ _ c
      rw [c hdm]
      have := distLong_ge hti hsc hp0 hp1 (sp := t.speed) ht.2.1
      rw [hpk] at this
      refine le_trans (le_of_eq ?_) this
      ring) ts hts (a := change s .distance v lane x y) h0 (le_refl 0)
      (by linarith [hti.2]) rfl he
  rw [sum_const_mul] at hle
  have hle' : 0 + 1 / Real.sqrt (1 + (|y - x| * slope s / v) ^ 2) * travelled ts ≤ q := hle
  rw [hT'] at hq1
  have : v ≤ 1 / Real.sqrt (1 + (|y - x| * slope s / v) ^ 2) * travelled ts := by
    rw [one_div, inv_mul_eq_div, le_div_iff₀ hr]
    exact hT
  linarith [small_pos]

/-! ### The way of the entity -/

theorem fast_fits {d : TD} (h : Timed d) (hs : d.scaleFactor = 1) {p : ℝ} (h0 : 0 ≤ p)
    (h1 : p ≤ d.paramTargetVal) {sp dt : ℝ} (hdt : 0 ≤ dt) (hf : peak d ≤ |sp|) :
    (d.at p).lateral dt ≤ stepLen sp dt ∧ (d.at p).fits sp dt := by
  have hl : (d.at p).lateral dt ≤ stepLen sp dt := by
    unfold TD.lateral stepLen
    rw [scaledPrim_eq (d := d.at p) hs, mul_comm dt]
    exact mul_le_mul_of_nonneg_right ((prim_bound h h0 h1).trans hf) hdt
  refine ⟨hl, ?_⟩
  unfold TD.fits
  linarith [small_pos]

theorem follows {d : TD} (h : Timed d) (hs : d.scaleFactor = 1)
    (hdim : d.dim = .time ∨ d.dim = .rate) (ts : List Tick) (hts : ∀ t ∈ ts, Active (peak d) t)
    {a : LaneChange} {p : ℝ} (hp : a.td = d.at p) (h0 : 0 ≤ p) (h1 : p ≤ d.paramTargetVal - small)
    (hae : a.ended = false) (hao : a.offset = (d.at p).evaluate)
    (he : (runChange ts a).ended = false) :
    (runChange ts a).td = d.at (p + elapsed ts) ∧ p + elapsed ts ≤ d.paramTargetVal - small ∧
      (runChange ts a).offset = (d.at (p + elapsed ts)).evaluate := by
  induction ts generalizing a p with
  | nil =>
    have : elapsed [] = 0 := rfl
    rw [this, add_zero]
    exact ⟨hp, h1, hao⟩
  | cons t ts ih =>
    have ht := hts t List.mem_cons_self
    have he1 : (a.step t.idle t.speed t.dt).ended = false := by
      by_contra hne
      have hne : (a.step t.idle t.speed t.dt).ended = true := by simpa using hne
      have : (runChange ts (a.step t.idle t.speed t.dt)).ended = false := he
      rw [ended_run hne, hne] at this
      cases this
    obtain ⟨x, hx0, hx1, hst, htd, c1, _, _⟩ := open_step h hs hp h0 hae ht
      (by rcases hdim with h | h <;> rw [h] <;> decide) he1
    obtain ⟨hx, hm⟩ := c1 hdim (fast_fits h hs h0 (by linarith [small_pos]) ht.2.1 ht.2.2.2).2
    subst hx
    have := ih (fun t ht => hts t (List.mem_cons_of_mem _ ht)) (a := a.step t.idle t.speed t.dt)
      (p := p + t.dt) (by rw [hst]; exact htd) (by linarith) hx1 he1 (by
        rw [hst]
        show ((d.at p).move a.offset a.heading t.speed t.dt).offset = _
        rw [← htd, hm]
        rfl) he
    have e : p + elapsed (t :: ts) = p + t.dt + elapsed ts := by
      show p + (t.dt + (ts.map Tick.dt).sum) = _
      rw [add_assoc]
      rfl
    rw [e]
    exact this

/-- If the entity is fast enough, the lane change follows the requested shape in time. -/
theorem change_follows (s : Shape) (hst : Smooth s) {dm : Dim} {v : ℝ}
    (hv : (dm = .time ∧ small ≤ v) ∨ (dm = .rate ∧ small ≤ |v|)) (lane : Int) (x y : ℝ)
    (ts : List Tick)
    (hts : ∀ t ∈ ts,
      Active (|y - x| * slope s / (change s dm v lane x y).td.paramTargetVal) t)
    (he : (runChange ts (change s dm v lane x y)).ended = false) :
    elapsed ts < (change s dm v lane x y).td.paramTargetVal ∧
    (runChange ts (change s dm v lane x y)).laneOffset lane
      = x + (y - x) * weight s (elapsed ts / (change s dm v lane x y).td.paramTargetVal) := by
  have hs : s ≠ .undefined ∧ s ≠ .step := by rcases hst with rfl | rfl | rfl <;> decide
  have hv' : (dm ≠ .rate ∧ small ≤ v) ∨ (dm = .rate ∧ small ≤ |v|) := by
    rcases hv with h | h
    · exact .inl ⟨by rw [h.1]; decide, h.2⟩
    · exact .inr h
  obtain ⟨hti, h0⟩ := change_timed hst hv' (signLane lane * x) (signLane lane * y)
  obtain ⟨hsc, hdm, hsh⟩ := started_scale s dm v (signLane lane * x) (signLane lane * y)
  obtain ⟨h2, h3⟩ := started_values s hs.1 dm v (signLane lane * x) (signLane lane * y)
  have hpk : peak (started s dm v (signLane lane * x) (signLane lane * y))
      = |y - x| * slope s / (change s dm v lane x y).td.paramTargetVal := by
    unfold peak
    rw [h2, h3, ← mul_sub, signLane_abs, hsh]
    rfl
  have hf := follows hti hsc (by
      rw [hdm]
      rcases hv with h | h
      · exact .inl h.1
      · exact .inr h.1) ts (by rw [hpk]; exact hts) (a := change s dm v lane x y) (p := 0) h0
    (le_refl _) (by linarith [hti.2]) rfl (by
      show signLane lane * x = _
      rw [value_at_zero hti, h2]) he
  rw [zero_add] at hf
  refine ⟨?_, ?_⟩
  · have := hf.2.1
    show elapsed ts < (started s dm v (signLane lane * x) (signLane lane * y)).paramTargetVal
    linarith [small_pos]
  · unfold LaneChange.laneOffset
    rw [hf.2.2, evaluate_eq (hti.at _)]
    show signLane lane * ((started s dm v (signLane lane * x) (signLane lane * y)).startVal
      + ((started s dm v (signLane lane * x) (signLane lane * y)).targetVal
        - (started s dm v (signLane lane * x) (signLane lane * y)).startVal)
        * weight (started s dm v (signLane lane * x) (signLane lane * y)).shape
          (elapsed ts / (change s dm v lane x y).td.paramTargetVal)) = _
    rw [h2, h3, hsh]
    have := signLane_sq lane
    linear_combination (x + (y - x) * weight s (elapsed ts / (change s dm v lane x y).td.paramTargetVal)) * this

theorem follows_distance {d : TD} (h : Timed d) (hs : d.scaleFactor = 1)
    (hdim : d.dim = .distance) (ts : List Tick)
    (hts : ∀ t ∈ ts, Active 0 t ∧ 0 < t.speed)
    {a : LaneChange} {p : ℝ} (hp : a.td = d.at p) (h0 : 0 ≤ p) (h1 : p ≤ d.paramTargetVal - small)
    (hae : a.ended = false) (hao : a.offset = (d.at p).evaluate) (hal : a.along = p)
    (he : (runChange ts a).ended = false) :
    ∃ q, (runChange ts a).td = d.at q ∧ 0 ≤ q ∧ q ≤ d.paramTargetVal - small ∧
      (runChange ts a).along = q ∧ (runChange ts a).offset = (d.at q).evaluate := by
  induction ts generalizing a p with
  | nil => exact ⟨p, hp, h0, h1, hal, hao⟩
  | cons t ts ih =>
    have ht := hts t List.mem_cons_self
    have he1 : (a.step t.idle t.speed t.dt).ended = false := by
      by_contra hne
      have hne : (a.step t.idle t.speed t.dt).ended = true := by simpa using hne
      have : (runChange ts (a.step t.idle t.speed t.dt)).ended = false := he
      rw [ended_run hne, hne] at this
      cases this
    obtain ⟨x, hx0, hx1, hst, htd, _, _, c3⟩ := open_step h hs hp h0 hae ht.1
      (by rw [hdim]; decide) he1
    obtain ⟨hx, hm⟩ := c3 hdim
    refine ih (fun t ht => hts t (List.mem_cons_of_mem _ ht)) (a := a.step t.idle t.speed t.dt)
      (p := p + x) (by rw [hst]; exact htd) (by linarith) hx1 he1 ?_ ?_ he
    · rw [hst]
      show ((d.at p).move a.offset a.heading t.speed t.dt).offset = _
      rw [← htd, hm]
      rfl
    · rw [hst]
      show a.along + ((d.at p).move a.offset a.heading t.speed t.dt).td.long
        ((d.at p).move a.offset a.heading t.speed t.dt).long t.speed t.dt = _
      rw [htd, hm, hal]
      unfold TD.long sign
      rw [if_neg (not_lt.2 ht.2.le), if_neg (show ¬ (d.at (p + x)).isStep from h.not_isStep), one_mul, hx]
      rfl

/-- A lane change given by a distance follows the requested shape along the lane. -/
theorem change_follows_distance (s : Shape) (hst : Smooth s) {v : ℝ} (hv : small ≤ v) (lane : Int)
    (x y : ℝ) (ts : List Tick) (hts : ∀ t ∈ ts, Active 0 t ∧ 0 < t.speed)
    (he : (runChange ts (change s .distance v lane x y)).ended = false) :
    0 ≤ (runChange ts (change s .distance v lane x y)).along ∧
    (runChange ts (change s .distance v lane x y)).along < v ∧
    (runChange ts (change s .distance v lane x y)).laneOffset lane
      = x + (y - x) * weight s ((runChange ts (change s .distance v lane x y)).along / v) := by
  have hs : s ≠ .undefined ∧ s ≠ .step := by rcases hst with rfl | rfl | rfl <;> decide
  obtain ⟨hti, h0⟩ := change_timed hst (dm := .distance) (v := v) (.inl ⟨by decide, hv⟩)
    (signLane lane * x) (signLane lane * y)
  obtain ⟨hsc, hdm, hsh⟩ := started_scale s .distance v (signLane lane * x) (signLane lane * y)
  obtain ⟨h2, h3⟩ := started_values s hs.1 .distance v (signLane lane * x) (signLane lane * y)
  have hT := change_param s hs.2 .distance (by decide) v (signLane lane * x) (signLane lane * y)
  obtain ⟨q, hq, hq0, hq1, hqa, hqo⟩ := follows_distance hti hsc hdm ts hts
    (a := change s .distance v lane x y) (p := 0) h0
    (le_refl _) (by linarith [hti.2]) rfl (by
      show signLane lane * x = _
      rw [value_at_zero hti, h2]) rfl he
  rw [hT] at hq1
  refine ⟨hqa ▸ hq0, hqa ▸ (by linarith [small_pos]), ?_⟩
  unfold LaneChange.laneOffset
  rw [hqo, hqa, evaluate_eq (hti.at _)]
  show signLane lane * ((started s .distance v (signLane lane * x) (signLane lane * y)).startVal
    + ((started s .distance v (signLane lane * x) (signLane lane * y)).targetVal
      - (started s .distance v (signLane lane * x) (signLane lane * y)).startVal)
      * weight (started s .distance v (signLane lane * x) (signLane lane * y)).shape
        (q / (started s .distance v (signLane lane * x) (signLane lane * y)).paramTargetVal)) = _
  rw [h2, h3, hsh, hT]
  have := signLane_sq lane
  linear_combination (x + (y - x) * weight s (q / v)) * this

theorem timeLong_le (td : TD) {sp dt : ℝ} (h : 0 ≤ dt) : td.timeLong sp dt ≤ stepLen sp dt := by
  have hl : 0 ≤ stepLen sp dt := mul_nonneg (abs_nonneg _) h
  unfold TD.timeLong
  conv => rhs; rw [← Real.sqrt_sq hl]
  exact Real.sqrt_le_sqrt (by linarith [sq_nonneg (minM (td.lateral dt) (stepLen sp dt))])

theorem distLong_le (td : TD) {sp dt : ℝ} (h : 0 ≤ dt) : td.distLong sp dt ≤ stepLen sp dt := by
  have hl : 0 ≤ stepLen sp dt := mul_nonneg (abs_nonneg _) h
  unfold TD.distLong
  conv => rhs; rw [← Real.sqrt_sq hl]
  refine Real.sqrt_le_sqrt (div_le_self (sq_nonneg _) (by nlinarith [sq_nonneg td.scaledPrim]))

theorem sign_abs (x : ℝ) : |sign x| = 1 := by
  unfold sign
  split <;> simp

/-- In no step does the entity move farther along the lane than its speed allows. -/
theorem change_along (a : LaneChange) (i : Bool) (sp : ℝ) {dt : ℝ} (h : 0 ≤ dt) :
    |(a.step i sp dt).along - a.along| ≤ |sp| * dt := by
  have hl : 0 ≤ stepLen sp dt := mul_nonneg (abs_nonneg _) h
  unfold LaneChange.step
  split
  · rw [sub_self, abs_zero]
    exact hl
  · show |a.along + _ - a.along| ≤ _
    rw [add_sub_cancel_left]
    unfold TD.long
    rw [abs_mul, sign_abs, one_mul]
    split
    · exact le_of_eq (abs_of_nonneg hl)
    · unfold TD.move
      split
      · split
        · exact (abs_of_nonneg (Real.sqrt_nonneg _)).le.trans (timeLong_le _ h)
        · exact (abs_of_nonneg (Real.sqrt_nonneg _)).le.trans (timeLong_le _ h)
      · split
        · exact (abs_of_nonneg (Real.sqrt_nonneg _)).le.trans (distLong_le _ h)
        · rw [abs_zero]
          exact hl

theorem linear_offset {d : TD} (h : Timed d) (hsh : d.shape = .linear) (hs : d.scaleFactor = 1)
    (hd : d.dim ≠ .undefined) (ts : List Tick) {a : LaneChange}
    (ha : ∃ p, a.td = d.at p ∧ 0 ≤ p ∧ a.offset = (d.at p).evaluate) :
    ∃ p, (runChange ts a).td = d.at p ∧ 0 ≤ p ∧ (runChange ts a).offset = (d.at p).evaluate := by
  induction ts generalizing a with
  | nil => exact ha
  | cons t ts ih =>
    refine ih ?_
    show ∃ p, (a.step t.idle t.speed t.dt).td = d.at p ∧ 0 ≤ p ∧
      (a.step t.idle t.speed t.dt).offset = (d.at p).evaluate
    unfold LaneChange.step
    split
    · exact ha
    · obtain ⟨p, hp, h0, ho⟩ := ha
      rw [hp]
      show ∃ q, ((d.at p).move a.offset a.heading t.speed t.dt).td = d.at q ∧ 0 ≤ q ∧
        ((d.at p).move a.offset a.heading t.speed t.dt).offset = (d.at q).evaluate
      have hlin : ∀ q, (d.at q).evaluateAs .linear = (d.at q).evaluate := by
        intro q
        rw [linear_as h]
        have : ({ d with shape := .linear } : TD) = d := by rw [← hsh]
        rw [this]
      unfold TD.move
      split
      · split
        · refine ⟨_, step_at d hs p _, (limitParam_mem h.pos.le).1, ?_⟩
          unfold TD.moveFits
          rw [step_at d hs]
        · refine ⟨_, step_at d hs p _, (limitParam_mem h.pos.le).1, ?_⟩
          unfold TD.moveLimited
          rw [step_at d hs, hlin]
      · split
        · refine ⟨_, step_at d hs p _, (limitParam_mem h.pos.le).1, ?_⟩
          unfold TD.moveDist
          rw [step_at d hs]
        · rename_i h1 h2
          exact absurd h1 (by
            intro _
            have e : (d.at p).dim = d.dim := rfl
            rw [e] at h1 h2
            cases hdd : d.dim <;> simp_all)

theorem linear_prim {d : TD} (h : Timed d) (hsh : d.shape = .linear) (hs : d.scaleFactor = 1)
    (p : ℝ) : (d.at p).scaledPrim = (d.targetVal - d.startVal) / d.paramTargetVal := by
  rw [scaledPrim_eq (d := d.at p) hs]
  unfold TD.prim
  rw [if_neg (show ¬ (d.at p).isStep from h.not_isStep)]
  show (match d.shape with | .linear => _ | .sinusoidal => _ | .cubic => _ | _ => _) = _
  rw [hsh]
  show (d.targetVal - d.startVal) / avoidZero d.paramTargetVal = _
  rw [avoidZero_of_ge h.2]

theorem linear_diff {d : TD} (h : Timed d) (hsh : d.shape = .linear) (p x : ℝ) :
    (d.at (p + x)).evaluate - (d.at p).evaluate
      = (d.targetVal - d.startVal) / d.paramTargetVal * x := by
  rw [evaluate_eq (h.at _), evaluate_eq (h.at _)]
  show d.startVal + (d.targetVal - d.startVal) * weight d.shape ((p + x) / d.paramTargetVal)
    - (d.startVal + (d.targetVal - d.startVal) * weight d.shape (p / d.paramTargetVal)) = _
  rw [hsh]
  show d.startVal + (d.targetVal - d.startVal) * ((p + x) / d.paramTargetVal)
    - (d.startVal + (d.targetVal - d.startVal) * (p / d.paramTargetVal)) = _
  ring

theorem sign_sq' (x : ℝ) : sign x ^ 2 = 1 := by rw [pow_two, sign_sq]

theorem linear_travel {d : TD} (h : Timed d) (hsh : d.shape = .linear) (hs : d.scaleFactor = 1)
    (hd : d.dim ≠ .undefined) {a : LaneChange} {p : ℝ} (hp : a.td = d.at p) (h0 : 0 ≤ p)
    (ho : a.offset = (d.at p).evaluate) (hae : a.ended = false) {t : Tick} {w : ℝ}
    (ht : Active w t) (he : (a.step t.idle t.speed t.dt).ended = false) :
    ∃ e, 0 ≤ e ∧ e < small ∧
      ((a.step t.idle t.speed t.dt).along - a.along) ^ 2
        + ((a.step t.idle t.speed t.dt).offset - a.offset) ^ 2 = (|t.speed| * t.dt + e) ^ 2 := by
  have hlen : 0 ≤ stepLen t.speed t.dt := mul_nonneg (abs_nonneg _) ht.2.1
  obtain ⟨x, hx0, hx1, hst, htd, c1, c2, c3⟩ := open_step h hs hp h0 hae ht hd he
  have hal : ((a.step t.idle t.speed t.dt).along - a.along) ^ 2
      = ((d.at p).move a.offset a.heading t.speed t.dt).long ^ 2 := by
    rw [hst]
    show (a.along + ((d.at p).move a.offset a.heading t.speed t.dt).td.long
        ((d.at p).move a.offset a.heading t.speed t.dt).long t.speed t.dt - a.along) ^ 2 = _
    rw [add_sub_cancel_left, htd]
    unfold TD.long
    rw [if_neg (show ¬ (d.at (p + x)).isStep from h.not_isStep), mul_pow, sign_sq', one_mul]
  have hlin : ∀ q, (d.at q).evaluateAs .linear = (d.at q).evaluate := by
    intro q
    rw [linear_as h]
    have : ({ d with shape := .linear } : TD) = d := by rw [← hsh]
    rw [this]
  have hoff : (a.step t.idle t.speed t.dt).offset - a.offset
      = (d.targetVal - d.startVal) / d.paramTargetVal * x := by
    rw [hst, ← linear_diff h hsh, ← htd, ← ho]
    show ((d.at p).move a.offset a.heading t.speed t.dt).offset - _ = _
    rcases moved_offset (d := d.at p) hd a.offset a.heading t.speed t.dt with hm | hm
    · rw [hm]
    · rw [hm, htd, hlin]
  rw [hal, hoff]
  have hlat : (d.at p).lateral t.dt = t.dt * |(d.targetVal - d.startVal) / d.paramTargetVal| := by
    unfold TD.lateral
    rw [linear_prim h hsh hs]
  by_cases hdim : d.dim = .time ∨ d.dim = .rate
  · by_cases hf : (d.at p).fits t.speed t.dt
    · obtain ⟨hx, hm⟩ := c1 hdim hf
      rw [hm, hx]
      have hL0 : 0 ≤ (d.at p).lateral t.dt := mul_nonneg ht.2.1 (abs_nonneg _)
      have e2 : ((d.targetVal - d.startVal) / d.paramTargetVal * t.dt) ^ 2
          = (d.at p).lateral t.dt ^ 2 := by
        rw [hlat, mul_pow, mul_pow, sq_abs]
        ring
      rw [e2]
      show ∃ e, 0 ≤ e ∧ e < small ∧ (d.at p).timeLong t.speed t.dt ^ 2 + _
        = (stepLen t.speed t.dt + e) ^ 2
      unfold TD.timeLong
      rw [minM_eq]
      rcases le_total ((d.at p).lateral t.dt) (stepLen t.speed t.dt) with hle | hle
      · refine ⟨0, le_refl _, small_pos, ?_⟩
        rw [min_eq_left hle, Real.sq_sqrt (by nlinarith)]
        ring
      · refine ⟨(d.at p).lateral t.dt - stepLen t.speed t.dt, by linarith, ?_, ?_⟩
        · have : (d.at p).lateral t.dt < stepLen t.speed t.dt + small := hf
          linarith
        · rw [min_eq_right hle, sub_self, Real.sqrt_zero]
          ring
    · obtain ⟨hx, hm⟩ := c2 hdim hf
      have hpos := not_fits_ne h hs ht.2.1 hf
      refine ⟨0, le_refl _, small_pos, ?_⟩
      rw [hm, hx]
      have hle : stepLen t.speed t.dt ≤ (d.at p).lateral t.dt := by
        have : ¬ (d.at p).lateral t.dt < stepLen t.speed t.dt + small := hf
        linarith [small_pos]
      show (d.at p).timeLong t.speed t.dt ^ 2 + ((d.targetVal - d.startVal) / d.paramTargetVal
        * (stepLen t.speed t.dt * d.paramTargetVal / |d.targetVal - d.startVal|)) ^ 2
        = (stepLen t.speed t.dt + 0) ^ 2
      unfold TD.timeLong
      rw [minM_eq, min_eq_right hle, sub_self, Real.sqrt_zero]
      have hT := h.pos
      have e3 : (d.targetVal - d.startVal) / d.paramTargetVal
          * (stepLen t.speed t.dt * d.paramTargetVal / |d.targetVal - d.startVal|)
          = stepLen t.speed t.dt * ((d.targetVal - d.startVal) / |d.targetVal - d.startVal|) := by
        field_simp
      rw [e3, mul_pow, div_pow, sq_abs, div_self (by
        rw [← sq_abs]; positivity)]
      ring
  · have hdist : d.dim = .distance := by
      cases hdd : d.dim <;> simp_all
    obtain ⟨hx, hm⟩ := c3 hdist
    refine ⟨0, le_refl _, small_pos, ?_⟩
    rw [hm, hx]
    show (d.at p).distLong t.speed t.dt ^ 2 + ((d.targetVal - d.startVal) / d.paramTargetVal
      * (d.at p).distLong t.speed t.dt) ^ 2 = (stepLen t.speed t.dt + 0) ^ 2
    unfold TD.distLong
    rw [linear_prim h hsh hs]
    obtain ⟨r, hr⟩ : ∃ r, r = (d.targetVal - d.startVal) / d.paramTargetVal := ⟨_, rfl⟩
    rw [← hr, mul_pow, Real.sq_sqrt (by positivity)]
    field_simp
    ring

/-- In a linear lane change the entity covers in each step the distance that belongs to its speed
(up to a micrometre), until the lane change ends. -/
theorem change_linear_travel {dm : Dim} (hd : dm ≠ .undefined) {v : ℝ}
    (hv : (dm ≠ .rate ∧ small ≤ v) ∨ (dm = .rate ∧ small ≤ |v|)) (lane : Int) (x y : ℝ)
    (ts : List Tick) {t : Tick} (ht : Active 0 t)
    (he : ((runChange ts (change .linear dm v lane x y)).step t.idle t.speed t.dt).ended = false) :
    ∃ e, 0 ≤ e ∧ e < small ∧
      (((runChange ts (change .linear dm v lane x y)).step t.idle t.speed t.dt).along
          - (runChange ts (change .linear dm v lane x y)).along) ^ 2
        + (((runChange ts (change .linear dm v lane x y)).step t.idle t.speed t.dt).laneOffset lane
          - (runChange ts (change .linear dm v lane x y)).laneOffset lane) ^ 2
        = (|t.speed| * t.dt + e) ^ 2 := by
  obtain ⟨hti, h0⟩ := change_timed (s := .linear) (.inl rfl) hv (signLane lane * x)
    (signLane lane * y)
  obtain ⟨hsc, hdm, hsh⟩ := started_scale .linear dm v (signLane lane * x) (signLane lane * y)
  obtain ⟨h2, h3⟩ := started_values .linear (by decide) dm v (signLane lane * x) (signLane lane * y)
  have hd' : (started .linear dm v (signLane lane * x) (signLane lane * y)).dim ≠ .undefined := by
    rw [hdm]; exact hd
  obtain ⟨p, hp, hp0, hpo⟩ := linear_offset hti hsh hsc hd' ts
    (a := change .linear dm v lane x y) ⟨0, h0, le_refl _, by
      show signLane lane * x = _
      rw [value_at_zero hti, h2]⟩
  have hae : (runChange ts (change .linear dm v lane x y)).ended = false := by
    by_contra hne
    have hne : (runChange ts (change .linear dm v lane x y)).ended = true := by simpa using hne
    rw [ended_step hne, hne] at he
    cases he
  obtain ⟨e, he0, he1, heq⟩ := linear_travel hti hsh hsc hd' hp hp0 hpo hae ht he
  refine ⟨e, he0, he1, ?_⟩
  rw [← heq]
  unfold LaneChange.laneOffset
  rw [← mul_sub, mul_pow, pow_two (signLane lane), signLane_sq, one_mul]

/-- With a step shape, or no time or distance, the lane change is completed at once, and the entity
moves on along its lane. -/
theorem change_immediate (s : Shape) (hs : s ≠ .undefined) (dm : Dim) (hd : dm ≠ .undefined) (v : ℝ)
    (h : s = .step ∨ (dm ≠ .rate ∧ v < small)) (lane : Int) (x y : ℝ) {t : Tick} (ht : Active 0 t) :
    ((change s dm v lane x y).step t.idle t.speed t.dt).laneOffset lane = y ∧
    ((change s dm v lane x y).step t.idle t.speed t.dt).ended = true ∧
    ((change s dm v lane x y).step t.idle t.speed t.dt).along = t.speed * t.dt := by
  obtain ⟨hsc, hdm, hsh⟩ := started_scale s dm v (signLane lane * x) (signLane lane * y)
  obtain ⟨h1, h2, h3, _⟩ := reader_transitions s hs dm v (signLane lane * x) (signLane lane * y)
  have hst : (started s dm v (signLane lane * x) (signLane lane * y)).isStep := by
    by_cases hh : s = .step
    · exact .inl (hsh.trans hh)
    · rcases h with h | h
      · exact absurd h hh
      · refine .inr ⟨by rw [hdm]; exact h.1, ?_⟩
        rw [change_param s hh dm h.1]
        exact h.2
  have hstep : (change s dm v lane x y).step t.idle t.speed t.dt
      = (change s dm v lane x y).moved ((change s dm v lane x y).td.move
        (change s dm v lane x y).offset (change s dm v lane x y).heading t.speed t.dt)
        t.speed t.dt := by
    unfold LaneChange.step
    rw [if_neg (by
      rintro (h | h | h)
      · cases h
      · rw [ht.1] at h; cases h
      · linarith [ht.2.2.1])]
  obtain ⟨m, hm⟩ : ∃ m, m = (change s dm v lane x y).td.move
        (change s dm v lane x y).offset (change s dm v lane x y).heading t.speed t.dt := ⟨_, rfl⟩
  have hk : Kind (started s dm v (signLane lane * x) (signLane lane * y)) := .inl hst
  have h0 : (change s dm v lane x y).td = (change s dm v lane x y).td.at 0 := by
    show started s dm v (signLane lane * x) (signLane lane * y) = _
    unfold TD.at
    rw [← h1]
    rfl
  have hmt : ∃ q, m.td = (change s dm v lane x y).td.at q ∧ InRange (change s dm v lane x y).td q := by
    rw [hm, h0]
    exact (move_cases hk hsc (p := 0) (.inl hst) (x := (change s dm v lane x y).offset)
      (h := (change s dm v lane x y).heading) (inv_change s hs dm v lane x y).btw
      t.speed t.dt).1
  obtain ⟨q, hq, _⟩ := hmt
  have hmo : m.offset = signLane lane * y := by
    have := moved_offset (d := (change s dm v lane x y).td) (by
      show (started s dm v (signLane lane * x) (signLane lane * y)).dim ≠ _
      rw [hdm]; exact hd) (change s dm v lane x y).offset (change s dm v lane x y).heading
      t.speed t.dt
    rw [← hm, hq] at this
    rcases this with this | this <;> rw [this]
    · refine (evaluate_step (d := (change s dm v lane x y).td.at q) hst _).trans h3
    · refine (evaluate_step (d := (change s dm v lane x y).td.at q) hst _).trans h3
  rw [hstep, ← hm]
  refine ⟨?_, ?_, ?_⟩
  · show signLane lane * m.offset = y
    rw [hmo, ← mul_assoc, signLane_sq, one_mul]
  · have : m.td.finished m.offset := by
      refine .inr (.inl ?_)
      rw [hmo, hq]
      show |_ - (started s dm v (signLane lane * x) (signLane lane * y)).targetVal| < small
      rw [h3, sub_self, abs_zero]
      exact small_pos
    simp [LaneChange.moved, this]
  · show 0 + m.td.long m.long t.speed t.dt = _
    unfold TD.long
    rw [hq, if_pos (show ((change s dm v lane x y).td.at q).isStep from hst), zero_add]
    unfold stepLen
    rw [← mul_assoc]
    congr 1
    rcases lt_or_ge t.speed 0 with hn | hn
    · unfold sign
      rw [if_pos hn, abs_of_neg hn]
      ring
    · unfold sign
      rw [if_neg (not_lt.2 hn), abs_of_nonneg hn]
      ring

/-! ### The heading -/

theorem cos_sin_arg {x y l : ℝ} (hl : 0 < l) (h : x ^ 2 + y ^ 2 = l ^ 2) :
    l * Real.cos (Complex.arg ⟨x, y⟩) = x ∧ l * Real.sin (Complex.arg ⟨x, y⟩) = y := by
  have hn : ‖(⟨x, y⟩ : ℂ)‖ = l := by
    have h1 : ‖(⟨x, y⟩ : ℂ)‖ ^ 2 = l ^ 2 := by
      rw [Complex.sq_norm, Complex.normSq_mk, ← h]
      ring
    exact (sq_eq_sq₀ (norm_nonneg _) hl.le).1 h1
  have hne : (⟨x, y⟩ : ℂ) ≠ 0 := by
    intro h0
    rw [h0, norm_zero] at hn
    linarith
  constructor
  · rw [Complex.cos_arg hne, hn]
    field_simp
  · rw [Complex.sin_arg, hn]
    field_simp

theorem heading_eq {d : TD} (h : Timed d) (hs : d.scaleFactor = 1)
    (hd : d.dim = .time ∨ d.dim = .rate) {a : LaneChange} {p : ℝ} (hp : a.td = d.at p) (h0 : 0 ≤ p)
    (h1 : p ≤ d.paramTargetVal) (hae : a.ended = false) {t : Tick} (ht : Active (peak d) t)
    (hdt : 0 < t.dt) (he : (a.step t.idle t.speed t.dt).ended = false) :
    |t.speed| * t.dt * Real.cos (a.step t.idle t.speed t.dt).heading
        = sign t.speed * ((a.step t.idle t.speed t.dt).along - a.along) ∧
    sign t.speed * (|t.speed| * t.dt) * Real.sin (a.step t.idle t.speed t.dt).heading
        = (d.at p).prim * t.dt := by
  have hlen : 0 < stepLen t.speed t.dt := mul_pos (lt_of_lt_of_le small_pos ht.2.2.1) hdt
  obtain ⟨hle, hf⟩ := fast_fits h hs h0 h1 ht.2.1 ht.2.2.2
  obtain ⟨x, hx0, hx1, hst, htd, c1, _, _⟩ := open_step h hs hp h0 hae ht
    (by rcases hd with h | h <;> rw [h] <;> decide) he
  obtain ⟨hx, hm⟩ := c1 hd hf
  have hL0 : 0 ≤ (d.at p).lateral t.dt := mul_nonneg ht.2.1 (abs_nonneg _)
  have hh : (a.step t.idle t.speed t.dt).heading
      = Complex.arg ⟨(d.at p).timeLong t.speed t.dt,
        sign t.speed * sign (d.at p).scaledPrim * (d.at p).lateral t.dt⟩ := by
    rw [hst] at he ⊢
    have hnf : ¬ ((d.at p).move a.offset a.heading t.speed t.dt).td.finished
        ((d.at p).move a.offset a.heading t.speed t.dt).offset := by
      simpa [LaneChange.moved] using he
    simp only [LaneChange.moved, if_neg hnf]
    rw [hm]
    rfl
  have hsq : (d.at p).timeLong t.speed t.dt ^ 2
      + (sign t.speed * sign (d.at p).scaledPrim * (d.at p).lateral t.dt) ^ 2
      = stepLen t.speed t.dt ^ 2 := by
    rw [mul_pow, mul_pow, sign_sq', sign_sq', one_mul, one_mul]
    unfold TD.timeLong
    rw [minM_eq, min_eq_left hle, Real.sq_sqrt (by nlinarith)]
    ring
  obtain ⟨hc, hsn⟩ := cos_sin_arg hlen hsq
  constructor
  · rw [hh]
    refine hc.trans ?_
    rw [hst]
    show _ = sign t.speed * (a.along + ((d.at p).move a.offset a.heading t.speed t.dt).td.long
        ((d.at p).move a.offset a.heading t.speed t.dt).long t.speed t.dt - a.along)
    rw [add_sub_cancel_left, htd, hm]
    unfold TD.long
    rw [if_neg (show ¬ (d.at (p + x)).isStep from h.not_isStep), ← mul_assoc, sign_sq, one_mul]
    rfl
  · rw [hh]
    have : sign t.speed * (|t.speed| * t.dt) * Real.sin (Complex.arg ⟨(d.at p).timeLong t.speed t.dt,
        sign t.speed * sign (d.at p).scaledPrim * (d.at p).lateral t.dt⟩)
        = sign t.speed * (stepLen t.speed t.dt * Real.sin (Complex.arg
          ⟨(d.at p).timeLong t.speed t.dt,
          sign t.speed * sign (d.at p).scaledPrim * (d.at p).lateral t.dt⟩)) := by
      unfold stepLen
      ring
    rw [this, hsn, ← mul_assoc, ← mul_assoc, sign_sq, one_mul]
    unfold TD.lateral
    have h2 : sign (d.at p).scaledPrim * |(d.at p).scaledPrim| = (d.at p).scaledPrim := by
      rcases lt_or_ge (d.at p).scaledPrim 0 with hn | hn
      · unfold sign
        rw [if_pos hn, abs_of_neg hn]
        ring
      · unfold sign
        rw [if_neg (not_lt.2 hn), abs_of_nonneg hn]
        ring
    have h3 : sign (d.at p).scaledPrim * (t.dt * |(d.at p).scaledPrim|)
        = (sign (d.at p).scaledPrim * |(d.at p).scaledPrim|) * t.dt := by ring
    rw [h3, h2, scaledPrim_eq (d := d.at p) hs]

/-- In a lane change given by a time or a rate the entity faces the direction it moves in, or is
opposite to it if it is driving backwards: the part of its motion along the lane is that of its heading,
and the part across it that of the requested shape. -/
theorem change_heading (s : Shape) (hst : Smooth s) {dm : Dim} {v : ℝ}
    (hv : (dm = .time ∧ small ≤ v) ∨ (dm = .rate ∧ small ≤ |v|)) (lane : Int) (x y : ℝ)
    (ts : List Tick) {t : Tick} (hdt : 0 < t.dt)
    (hts : ∀ u ∈ ts ++ [t],
      Active (|y - x| * slope s / (change s dm v lane x y).td.paramTargetVal) u)
    {b : LaneChange} (hb : b = runChange (ts ++ [t]) (change s dm v lane x y))
    (he : b.ended = false) :
    t.speed * t.dt * Real.cos b.heading
        = b.along - (runChange ts (change s dm v lane x y)).along ∧
    ∃ r, t.speed * t.dt * Real.sin b.heading = r * t.dt ∧
      HasDerivAt (fun τ => signLane lane * (x + (y - x) * weight s
        (τ / (change s dm v lane x y).td.paramTargetVal))) r (elapsed ts) := by
  have hs : s ≠ .undefined ∧ s ≠ .step := by rcases hst with rfl | rfl | rfl <;> decide
  have hv' : (dm ≠ .rate ∧ small ≤ v) ∨ (dm = .rate ∧ small ≤ |v|) := by
    rcases hv with h | h
    · exact .inl ⟨by rw [h.1]; decide, h.2⟩
    · exact .inr h
  obtain ⟨hti, h0⟩ := change_timed hst hv' (signLane lane * x) (signLane lane * y)
  obtain ⟨hsc, hdm, hsh⟩ := started_scale s dm v (signLane lane * x) (signLane lane * y)
  obtain ⟨h2, h3⟩ := started_values s hs.1 dm v (signLane lane * x) (signLane lane * y)
  have hpk : peak (started s dm v (signLane lane * x) (signLane lane * y))
      = |y - x| * slope s / (change s dm v lane x y).td.paramTargetVal := by
    unfold peak
    rw [h2, h3, ← mul_sub, signLane_abs, hsh]
    rfl
  have hdim : (started s dm v (signLane lane * x) (signLane lane * y)).dim = .time ∨
      (started s dm v (signLane lane * x) (signLane lane * y)).dim = .rate := by
    rw [hdm]
    rcases hv with h | h
    · exact .inl h.1
    · exact .inr h.1
  have hbs : b = (runChange ts (change s dm v lane x y)).step t.idle t.speed t.dt := by
    rw [hb]
    unfold runChange
    rw [List.foldl_append]
    rfl
  have hae : (runChange ts (change s dm v lane x y)).ended = false := by
    by_contra hne
    have hne : (runChange ts (change s dm v lane x y)).ended = true := by simpa using hne
    rw [hbs, ended_step hne, hne] at he
    cases he
  have hf := follows hti hsc hdim ts
    (by rw [hpk]; exact fun u hu => hts u (List.mem_append_left _ hu))
    (a := change s dm v lane x y) (p := 0) h0 (le_refl _) (by linarith [hti.2]) rfl (by
      show signLane lane * x = _
      rw [value_at_zero hti, h2]) hae
  rw [zero_add] at hf
  have hel : 0 ≤ elapsed ts := by
    unfold elapsed
    refine List.sum_nonneg ?_
    intro u hu
    obtain ⟨k, hk, rfl⟩ := List.mem_map.1 hu
    exact (hts k (List.mem_append_left _ hk)).2.1
  rw [hbs] at he
  obtain ⟨hc, hsn⟩ := heading_eq hti hsc hdim hf.1 hel (by linarith [small_pos, hf.2.1]) hae
    (t := t) (by rw [hpk]; exact hts t (by simp)) hdt he
  rw [← hbs] at hc hsn
  have hab : sign t.speed * |t.speed| = t.speed := by
    rcases lt_or_ge t.speed 0 with hn | hn
    · unfold sign
      rw [if_pos hn, abs_of_neg hn]
      ring
    · unfold sign
      rw [if_neg (not_lt.2 hn), abs_of_nonneg hn]
      ring
  constructor
  · have := congrArg (fun z => sign t.speed * z) hc
    rw [← mul_assoc, ← mul_assoc, ← mul_assoc, hab, sign_sq, one_mul] at this
    exact this
  · refine ⟨((started s dm v (signLane lane * x) (signLane lane * y)).at (elapsed ts)).prim, ?_, ?_⟩
    · rw [← hsn, ← mul_assoc (sign t.speed), hab]
    · have := prim_is_derivative hti (elapsed ts)
      refine this.congr_of_eventuallyEq (Filter.Eventually.of_forall fun τ => ?_)
      show _ = ((started s dm v (signLane lane * x) (signLane lane * y)).at τ).evaluate
      rw [evaluate_eq (hti.at _)]
      show _ = (started s dm v (signLane lane * x) (signLane lane * y)).startVal
        + ((started s dm v (signLane lane * x) (signLane lane * y)).targetVal
          - (started s dm v (signLane lane * x) (signLane lane * y)).startVal)
          * weight (started s dm v (signLane lane * x) (signLane lane * y)).shape
            (τ / (change s dm v lane x y).td.paramTargetVal)
      rw [h2, h3, hsh]
      ring

/-- At the end of the lane change the entity is aligned with the road. -/
theorem change_end_heading (s : Shape) (dm : Dim) (v : ℝ) (lane : Int) (x y : ℝ) (ts : List Tick)
    (he : (runChange ts (change s dm v lane x y)).ended = true) :
    (runChange ts (change s dm v lane x y)).heading = 0 := by
  have : ∀ (ts : List Tick) (a : LaneChange), (a.ended = true → a.heading = 0) →
      (runChange ts a).ended = true → (runChange ts a).heading = 0 := by
    intro ts
    induction ts with
    | nil => exact fun a h => h
    | cons t ts ih =>
      intro a h
      refine ih (a.step t.idle t.speed t.dt) ?_
      unfold LaneChange.step
      split
      · exact h
      · intro he
        have hf : (a.td.move a.offset a.heading t.speed t.dt).td.finished
            (a.td.move a.offset a.heading t.speed t.dt).offset := by
          simpa [LaneChange.moved] using he
        simp only [LaneChange.moved, if_pos hf]
  exact this ts _ (fun h => by cases h) he

/-- Nothing is done while the lateral motion is controlled by something else, or before the start of
the simulation. -/
theorem change_idle (a : LaneChange) (ts : List Tick) (h : ∀ t ∈ ts, t.idle = true) :
    runChange ts a = a := by
  induction ts generalizing a with
  | nil => rfl
  | cons t ts ih =>
    show runChange ts (a.step t.idle t.speed t.dt) = a
    rw [show a.step t.idle t.speed t.dt = a from if_pos (.inr (.inl (h t List.mem_cons_self)))]
    exact ih a fun t ht => h t (List.mem_cons_of_mem _ ht)

/-! ### Examples and counterexamples -/

theorem started_eq {s : Shape} {dm : Dim} (h1 : s ≠ .step) (h2 : dm ≠ .rate) (v a b : ℝ) :
    started s dm v a b = ⟨s, dm, a, b, v, 1, 0, 0⟩ := by
  unfold started TD.setTargetVal TD.setStartVal
  have e1 : parseTD s dm v = ⟨s, dm, 0, 0, v, 1, 0, 0⟩ := by
    simp [parseTD, TD.setParamTargetVal, initTD, h1, h2]
  rw [e1]
  rw [updateRate_noop (d := TD.putStart (TD.reset ⟨s, dm, 0, 0, v, 1, 0, 0⟩) a) h2 rfl]
  rw [updateRate_noop (by exact h2) rfl]
  rfl

/-- A lane change of 4 m in 4 s. -/
noncomputable def exChange : LaneChange := change .cubic .time 4 1 0 4

theorem exChange_td : exChange.td = ⟨.cubic, .time, 0, 4, 4, 1, 0, 0⟩ := by
  show started .cubic .time 4 (signLane 1 * 0) (signLane 1 * 4) = _
  rw [started_eq (by decide) (by decide)]
  simp [signLane]

/-- The hypotheses of the theorems on times are met by driving it at 10 m/s. -/
example : Smooth .cubic ∧ small ≤ (4 : ℝ) ∧ Defined .time 4 ∧
    (∀ t ∈ [(⟨false, 10, 1⟩ : Tick), ⟨false, 10, 1⟩],
      Active (|4 - 0| * slope .cubic / exChange.td.paramTargetVal) t) := by
  refine ⟨.inr (.inl rfl), by unfold small; norm_num, ⟨by decide, by intro h; cases h⟩, ?_⟩
  rw [exChange_td]
  intro t ht
  have : t = ⟨false, 10, 1⟩ := by simpa using ht
  subst this
  refine ⟨rfl, by norm_num, ?_, ?_⟩
  · show small ≤ |(10 : ℝ)|
    unfold small; norm_num
  · show |(4 : ℝ) - 0| * (3 / 2) / 4 ≤ |(10 : ℝ)|
    norm_num

/-- and those of the theorems on distances. -/
example : Smooth .sinusoidal ∧ small ≤ (40 : ℝ) ∧
    Active 0 (⟨false, 10, 0.1⟩ : Tick) ∧ 0 < (⟨false, 10, 0.1⟩ : Tick).speed := by
  refine ⟨.inr (.inr rfl), by unfold small; norm_num, ⟨rfl, by norm_num, ?_, by positivity⟩, by norm_num⟩
  show small ≤ |(10 : ℝ)|
  unfold small; norm_num

theorem active_step {a : LaneChange} (h : a.ended = false) {sp dt : ℝ} (hsp : small ≤ |sp|) :
    a.step false sp dt = a.moved (a.td.move a.offset a.heading sp dt) sp dt := by
  unfold LaneChange.step
  rw [if_neg (by
    rintro (h' | h' | h')
    · rw [h] at h'; cases h'
    · cases h'
    · linarith)]

theorem exChange_step1 : (exChange.step false 10 1).td = ⟨.cubic, .time, 0, 4, 4, 1, 1, 0⟩ ∧
    (exChange.step false 10 1).offset = 0.625 ∧ (exChange.step false 10 1).ended = false := by
  have hs : small ≤ |(10 : ℝ)| := by unfold small; norm_num
  rw [active_step rfl hs, exChange_td]
  have hprim : TD.scaledPrim ⟨.cubic, .time, 0, 4, 4, 1, 0, 0⟩ = 0 := by
    unfold TD.scaledPrim TD.prim
    rw [if_neg (by unfold TD.isStep small; norm_num; try decide)]
    norm_num
  have hfit : TD.fits ⟨.cubic, .time, 0, 4, 4, 1, 0, 0⟩ 10 1 := by
    unfold TD.fits TD.lateral stepLen
    rw [hprim, abs_zero]
    unfold small
    norm_num
  have hm : TD.move ⟨.cubic, .time, 0, 4, 4, 1, 0, 0⟩ exChange.offset exChange.heading 10 1
      = TD.moveFits ⟨.cubic, .time, 0, 4, 4, 1, 0, 0⟩ 10 1 := by
    unfold TD.move
    rw [if_pos (.inl rfl), if_pos hfit]
  have htd : TD.step ⟨.cubic, .time, 0, 4, 4, 1, 0, 0⟩ 1 = ⟨.cubic, .time, 0, 4, 4, 1, 1, 0⟩ := by
    unfold TD.step limitParam
    norm_num
  have hT : Timed ⟨.cubic, .time, 0, 4, 4, 1, 1, 0⟩ := ⟨.inr (.inl rfl), by unfold small; norm_num⟩
  have hv : TD.evaluate ⟨.cubic, .time, 0, 4, 4, 1, 1, 0⟩ = 0.625 := by
    rw [evaluate_eq hT]
    unfold weight
    norm_num
  have hmt : (TD.moveFits ⟨.cubic, .time, 0, 4, 4, 1, 0, 0⟩ 10 1).td
      = ⟨.cubic, .time, 0, 4, 4, 1, 1, 0⟩ := htd
  have hmo : (TD.moveFits ⟨.cubic, .time, 0, 4, 4, 1, 0, 0⟩ 10 1).offset = 0.625 := by
    show (TD.step ⟨.cubic, .time, 0, 4, 4, 1, 0, 0⟩ 1).evaluate = _
    rw [htd, hv]
  rw [hm]
  refine ⟨hmt, hmo, ?_⟩
  have hnf : ¬ TD.finished ⟨.cubic, .time, 0, 4, 4, 1, 1, 0⟩ 0.625 := by
    unfold TD.finished small sign
    norm_num
  simp [LaneChange.moved, hmt, hmo, hnf]

/-- An entity that gets too slow in the middle of a lane change that is not linear jumps sideways:
here by 47.5 cm while it travels 10 cm. -/
theorem change_jump_fails :
    (runChange [⟨false, 10, 1⟩] exChange).laneOffset 1 = 0.625 ∧
    (runChange [⟨false, 10, 1⟩, ⟨false, 1, 0.1⟩] exChange).laneOffset 1 = 1.1 := by
  obtain ⟨h1, h2, h3⟩ := exChange_step1
  have hs : small ≤ |(1 : ℝ)| := by unfold small; norm_num
  refine ⟨?_, ?_⟩
  · show signLane 1 * (exChange.step false 10 1).offset = _
    rw [h2]
    simp [signLane]
  · show signLane 1 * ((exChange.step false 10 1).step false 1 0.1).offset = _
    rw [active_step h3 hs, h1]
    have hprim : TD.scaledPrim ⟨.cubic, .time, 0, 4, 4, 1, 1, 0⟩ = 1.125 := by
      rw [scaledPrim_eq rfl]
      unfold TD.prim
      rw [if_neg (by unfold TD.isStep small; norm_num; try decide), avoidZero_of_ge (by unfold small; norm_num)]
      norm_num
    have hfit : ¬ TD.fits ⟨.cubic, .time, 0, 4, 4, 1, 1, 0⟩ 1 0.1 := by
      unfold TD.fits TD.lateral stepLen
      rw [hprim]
      unfold small
      norm_num [abs_of_pos]
    have hm : TD.move ⟨.cubic, .time, 0, 4, 4, 1, 1, 0⟩ (exChange.step false 10 1).offset
        (exChange.step false 10 1).heading 1 0.1
        = TD.moveLimited ⟨.cubic, .time, 0, 4, 4, 1, 1, 0⟩ 1 0.1 := by
      unfold TD.move
      rw [if_pos (.inl rfl), if_neg hfit]
    have htd : TD.step ⟨.cubic, .time, 0, 4, 4, 1, 1, 0⟩
        (TD.limitedStep ⟨.cubic, .time, 0, 4, 4, 1, 1, 0⟩ 1 0.1)
        = ⟨.cubic, .time, 0, 4, 4, 1, 1.1, 0⟩ := by
      unfold TD.step limitParam TD.limitedStep stepLen
      norm_num
    rw [hm]
    show signLane 1 * (TD.step ⟨.cubic, .time, 0, 4, 4, 1, 1, 0⟩
        (TD.limitedStep ⟨.cubic, .time, 0, 4, 4, 1, 1, 0⟩ 1 0.1)).evaluateAs .linear = _
    rw [htd, evaluateAs_linear (by unfold TD.isStep small; norm_num; try decide),
      avoidZero_of_ge (by unfold small; norm_num)]
    norm_num [signLane]

/-- A lane change with a rate of 0 ends at once, without a change of the lane. -/
theorem change_zero_rate_fails (s : Shape) (hs : Smooth s) {v : ℝ} (hv : |v| < small) (lane : Int)
    (x y : ℝ) {sp : ℝ} (hsp : small ≤ |sp|) (dt : ℝ) :
    ((change s .rate v lane x y).step false sp dt).ended = true ∧
    ((change s .rate v lane x y).step false sp dt).laneOffset lane = x := by
  have hs' : s ≠ .undefined ∧ s ≠ .step := by rcases hs with rfl | rfl | rfl <;> decide
  obtain ⟨hsc, hdm, hsh⟩ := started_scale s .rate v (signLane lane * x) (signLane lane * y)
  obtain ⟨h1, h2, h3, _, h5, _⟩ :=
    reader_transitions s hs'.1 .rate v (signLane lane * x) (signLane lane * y)
  have hT := (h5 ⟨hs'.2, rfl, hv⟩).1
  have hns : ¬ (started s .rate v (signLane lane * x) (signLane lane * y)).isStep := by
    unfold TD.isStep
    rw [hsh, hdm]
    simp [hs'.2]
  have h0 : started s .rate v (signLane lane * x) (signLane lane * y)
      = (started s .rate v (signLane lane * x) (signLane lane * y)).at 0 := by
    unfold TD.at
    rw [← h1]
  have hk := started_kind s hs'.1 .rate v (signLane lane * x) (signLane lane * y)
  rw [active_step rfl hsp]
  obtain ⟨m, hm⟩ : ∃ m, m = (change s .rate v lane x y).td.move
    (change s .rate v lane x y).offset (change s .rate v lane x y).heading sp dt := ⟨_, rfl⟩
  have hmt := (move_cases hk hsc (p := 0) (.inr ⟨le_refl _, hT.ge⟩)
    (x := (change s .rate v lane x y).offset)
    (h := (change s .rate v lane x y).heading) (inv_change s hs'.1 .rate v lane x y).btw sp dt).1
  have ho := moved_offset (d := (change s .rate v lane x y).td) (by
      show (started s .rate v (signLane lane * x) (signLane lane * y)).dim ≠ _
      rw [hdm]; decide) (change s .rate v lane x y).offset (change s .rate v lane x y).heading sp dt
  rw [← h0] at hmt
  change ∃ q, ((change s .rate v lane x y).td.move _ _ sp dt).td = _ ∧ _ at hmt
  rw [← hm] at hmt ho ⊢
  obtain ⟨q, hq, hqr⟩ := hmt
  have hq0 : q = 0 := by
    rcases hqr with h | h
    · exact absurd h hns
    · exact le_antisymm (by rw [← hT]; exact h.2) h.1
  have hoff : m.offset = signLane lane * x := by
    rw [hq, hq0] at ho
    rcases ho with ho | ho
    · rw [ho, evaluate_zero_rate (d := TD.at _ 0) (by
        show Smooth (started s .rate v (signLane lane * x) (signLane lane * y)).shape
        rw [hsh]; exact hs) hns rfl]
      exact h2
    · rw [ho, evaluateAs_linear (d := TD.at _ 0) hns]
      show (started s .rate v (signLane lane * x) (signLane lane * y)).startVal + 0 * _ / _ = _
      rw [zero_mul, zero_div, add_zero]
      exact h2
  constructor
  · have : m.td.finished m.offset := by
      refine .inl ?_
      rw [hq, hq0]
      show (0 : ℝ) > (started s .rate v (signLane lane * x) (signLane lane * y)).paramTargetVal - small
      rw [hT]
      linarith [small_pos]
    simp [LaneChange.moved, this]
  · show signLane lane * m.offset = x
    rw [hoff, ← mul_assoc, signLane_sq, one_mul]

/-- A lane change of 4 m over a distance of 4 m. -/
noncomputable def exReverse : LaneChange := change .linear .distance 4 1 0 4

/-- A lane change over a distance, driven backwards: the entity moves backwards and to the left, but
it is turned to the left, so that its rear points to the right. -/
theorem change_reverse_heading_fails :
    (exReverse.step false (-1) 1).along < 0 ∧ 0 < (exReverse.step false (-1) 1).laneOffset 1 ∧
    (exReverse.step false (-1) 1).ended = false ∧
    (-1) * Real.sin (exReverse.step false (-1) 1).heading < 0 := by
  have htd : exReverse.td = ⟨.linear, .distance, 0, 4, 4, 1, 0, 0⟩ := by
    show started .linear .distance 4 (signLane 1 * 0) (signLane 1 * 4) = _
    rw [started_eq (by decide) (by decide)]
    simp [signLane]
  have hs : small ≤ |(-1 : ℝ)| := by unfold small; norm_num
  have hprim : TD.scaledPrim ⟨.linear, .distance, 0, 4, 4, 1, 0, 0⟩ = 1 := by
    rw [scaledPrim_eq rfl]
    unfold TD.prim
    rw [if_neg (by unfold TD.isStep small; norm_num; try decide), avoidZero_of_ge (by unfold small; norm_num)]
    norm_num
  have hm : TD.move ⟨.linear, .distance, 0, 4, 4, 1, 0, 0⟩ exReverse.offset exReverse.heading (-1) 1
      = TD.moveDist ⟨.linear, .distance, 0, 4, 4, 1, 0, 0⟩ (-1) 1 := by
    unfold TD.move
    rw [if_neg (by simp), if_pos rfl]
  obtain ⟨l, hl⟩ : ∃ l, l = TD.distLong ⟨.linear, .distance, 0, 4, 4, 1, 0, 0⟩ (-1) 1 := ⟨_, rfl⟩
  have hl2 : l ^ 2 = 1 / 2 := by
    rw [hl]
    unfold TD.distLong stepLen
    rw [hprim, Real.sq_sqrt (by positivity)]
    norm_num
  have hl0 : 0 < l := by
    have : 0 ≤ l := hl ▸ Real.sqrt_nonneg _
    nlinarith
  have hl1 : l < 1 := by nlinarith
  have hstep : TD.step ⟨.linear, .distance, 0, 4, 4, 1, 0, 0⟩ l
      = ⟨.linear, .distance, 0, 4, 4, 1, l, 0⟩ := by
    unfold TD.step limitParam
    rw [if_neg (by norm_num; linarith), if_neg (by norm_num; linarith)]
    norm_num
  have hns : ¬ TD.isStep ⟨.linear, .distance, 0, 4, 4, 1, l, 0⟩ := by
    unfold TD.isStep small; norm_num; try decide
  have hmt : (TD.moveDist ⟨.linear, .distance, 0, 4, 4, 1, 0, 0⟩ (-1) 1).td
      = ⟨.linear, .distance, 0, 4, 4, 1, l, 0⟩ := by
    show TD.step _ (TD.distLong _ (-1) 1) = _
    rw [← hl, hstep]
  have hmo : (TD.moveDist ⟨.linear, .distance, 0, 4, 4, 1, 0, 0⟩ (-1) 1).offset = l := by
    show (TD.step _ (TD.distLong _ (-1) 1)).evaluate = _
    rw [← hl, hstep, evaluate_eq ⟨.inl rfl, by unfold small; norm_num⟩]
    show (0 : ℝ) + (4 - 0) * (l / 4) = l
    ring
  have hmh : (TD.moveDist ⟨.linear, .distance, 0, 4, 4, 1, 0, 0⟩ (-1) 1).heading = Real.arctan 1 := by
    show Real.arctan (TD.scaledPrim _) = _
    rw [hprim]
  have hml : (TD.moveDist ⟨.linear, .distance, 0, 4, 4, 1, 0, 0⟩ (-1) 1).long = l := hl.symm
  have hnf : ¬ TD.finished ⟨.linear, .distance, 0, 4, 4, 1, l, 0⟩ l := by
    unfold TD.finished
    rintro (h | h | h)
    · have : l > 4 - small := h
      unfold small at this
      linarith
    · have : |l - 4| < small := h
      rw [abs_of_neg (by linarith)] at this
      unfold small at this
      linarith
    · refine h.2 ?_
      show sign (l - 4) = sign (0 - 4)
      unfold sign
      rw [if_pos (by linarith), if_pos (by norm_num)]
  rw [active_step rfl hs, htd, hm]
  refine ⟨?_, ?_, ?_, ?_⟩
  · show (0 : ℝ) + TD.long _ _ (-1) 1 < 0
    rw [hmt, hml]
    unfold TD.long
    rw [if_neg hns]
    unfold sign
    rw [if_pos (by norm_num)]
    linarith
  · show 0 < signLane 1 * _
    simp only [LaneChange.moved]
    rw [hmo]
    simpa [signLane] using hl0
  · simp [LaneChange.moved, hmt, hmo, hnf]
  · simp only [LaneChange.moved]
    rw [hmt, hmo, if_neg hnf, hmh, Real.arctan_one]
    have := Real.sin_pos_of_pos_of_lt_pi (x := Real.pi / 4) (by positivity)
      (by linarith [Real.pi_pos])
    linarith

end Verif.Transition

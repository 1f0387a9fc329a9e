import Verif.Lights.Model
import Mathlib.Tactic.Linarith
import Mathlib.Tactic.NormNum
import Mathlib.Tactic.FieldSimp
import Mathlib.Tactic.Ring
import Mathlib.Tactic.Positivity
/-
Theorems on vehicle lights (C33) and on light actions.
-/
namespace Verif.Lights

noncomputable section

/-! ## Emitting flag and colours -/

/-- Some channel gives light. -/
def Lit (c : RGB) : Prop := c.r > 1 / 1000 ∨ c.g > 1 / 1000 ∨ c.b > 1 / 1000

/-- All channels lie between `lo` and `hi`. -/
def Within (c : RGB) (lo hi : ℝ) : Prop :=
  (lo ≤ c.r ∧ c.r ≤ hi) ∧ (lo ≤ c.g ∧ c.g ≤ hi) ∧ (lo ≤ c.b ∧ c.b ≤ hi)

theorem emitFlag_three (r g b : ℝ) (f : Bool) : emitFlag [r, g, b] f = true ↔ b > 1 / 1000 := by
  simp [emitFlag]

theorem clamp_range (x lo hi : ℝ) (h : lo ≤ hi) : lo ≤ clamp x lo hi ∧ clamp x lo hi ≤ hi := by
  unfold clamp
  exact ⟨le_min h (le_max_left _ _), min_le_left _ _⟩

theorem clamp_id (x lo hi : ℝ) (h1 : lo ≤ x) (h2 : x ≤ hi) : clamp x lo hi = x := by
  unfold clamp; rw [max_eq_right h1, min_eq_right h2]

theorem pow_quarter_pos {x : ℝ} (h : 0 ≤ x) : 0 ≤ x ^ (1 / 4 : ℝ) := Real.rpow_nonneg h _

theorem emitting_iff (l : Lamp) (lum : ℝ) :
    (setState l lum).emitting = true ↔ (setState l lum).emission.b > 1 / 1000 :=
  emitFlag_three (setState l lum).emission.r (setState l lum).emission.g (setState l lum).emission.b l.emitting

theorem emission_eq (l : Lamp) (lum : ℝ) : (setState l lum).emission =
    ⟨l.maxRgb.r * (clamp lum 0 maxLum / maxLum) ^ (1 / 4 : ℝ), l.maxRgb.g * (clamp lum 0 maxLum / maxLum) ^ (1 / 4 : ℝ),
     l.maxRgb.b * (clamp lum 0 maxLum / maxLum) ^ (1 / 4 : ℝ)⟩ := rfl

/-- The reported intensity is the one asked for, cut to the range 0 to 12000 cd. -/
theorem setState_lum (l : Lamp) (lum : ℝ) :
    0 ≤ (setState l lum).lum ∧ (setState l lum).lum ≤ 12000 ∧
    (0 ≤ lum → lum ≤ 12000 → (setState l lum).lum = lum) := by
  have h := clamp_range lum 0 maxLum (by norm_num [maxLum])
  refine ⟨h.1, ?_, fun h1 h2 => clamp_id lum 0 maxLum h1 (by simpa [maxLum] using h2)⟩
  have := h.2
  simpa [setState, maxLum] using this

example : (setState ⟨.on, 0, ⟨0, 0, 0⟩, ⟨0, 0, 0⟩, ⟨1, 1, 1⟩, ⟨1, 1, 1⟩, false⟩ 6000).lum = 6000 :=
  (setState_lum _ _).2.2 (by norm_num) (by norm_num)

/-- The emission of each channel lies between 0 and the brightest colour of the lamp, 0 for no
intensity and the brightest colour for the largest intensity. -/
theorem emission_range (l : Lamp) (lum : ℝ) (h : Within l.maxRgb 0 1) :
    (0 ≤ (setState l lum).emission.r ∧ (setState l lum).emission.r ≤ l.maxRgb.r) ∧
    (0 ≤ (setState l lum).emission.g ∧ (setState l lum).emission.g ≤ l.maxRgb.g) ∧
    (0 ≤ (setState l lum).emission.b ∧ (setState l lum).emission.b ≤ l.maxRgb.b) ∧
    (lum ≤ 0 → (setState l lum).emission = ⟨0, 0, 0⟩) ∧
    (12000 ≤ lum → (setState l lum).emission = l.maxRgb) := by
  have hc := clamp_range lum 0 maxLum (by norm_num [maxLum])
  have hm : (0 : ℝ) < maxLum := by norm_num [maxLum]
  set p := (clamp lum 0 maxLum / maxLum) ^ (1 / 4 : ℝ) with hp
  have hx0 : 0 ≤ clamp lum 0 maxLum / maxLum := div_nonneg hc.1 hm.le
  have hx1 : clamp lum 0 maxLum / maxLum ≤ 1 := (div_le_one hm).mpr hc.2
  have hp0 : 0 ≤ p := Real.rpow_nonneg hx0 _
  have hp1 : p ≤ 1 := Real.rpow_le_one hx0 hx1 (by norm_num)
  have key : ∀ m : ℝ, 0 ≤ m → 0 ≤ m * p ∧ m * p ≤ m := fun m h0 =>
    ⟨mul_nonneg h0 hp0, mul_le_of_le_one_right h0 hp1⟩
  obtain ⟨h1, h2, h3⟩ := h
  refine ⟨key _ h1.1, key _ h2.1, key _ h3.1, ?_, ?_⟩
  · intro hl
    have : clamp lum 0 maxLum = 0 := by
      unfold clamp; rw [max_eq_left hl, min_eq_right hm.le]
    have hp' : p = 0 := by rw [hp, this, zero_div, Real.zero_rpow (by norm_num)]
    rw [emission_eq, ← hp, hp']; simp only [mul_zero]
  · intro hl
    have : clamp lum 0 maxLum = maxLum := by
      unfold clamp; rw [min_eq_left]; exact le_trans (by norm_num [maxLum]; exact hl) (le_max_right _ _)
    have hp' : p = 1 := by rw [hp, this, div_self hm.ne', Real.one_rpow]
    rw [emission_eq, ← hp, hp']; simp only [mul_one]

example : (setState ⟨.on, 0, ⟨0, 0, 0⟩, ⟨0, 0, 0⟩, ⟨1, 1, 1⟩, ⟨1, 4 / 5, 3 / 5⟩, false⟩ 12000).emission = ⟨1, 4 / 5, 3 / 5⟩ :=
  (emission_range _ _ (by norm_num [Within])).2.2.2.2 le_rfl

theorem quarter_root_big {x : ℝ} (h : (1 / 500 : ℝ) ^ 4 ≤ x) : 1 / 500 ≤ x ^ (1 / 4 : ℝ) := by
  have h0 : (0 : ℝ) ≤ (1 / 500 : ℝ) ^ 4 := by positivity
  have h1 : ((1 / 500 : ℝ) ^ 4) ^ (1 / 4 : ℝ) ≤ x ^ (1 / 4 : ℝ) := Real.rpow_le_rpow h0 h (by norm_num)
  have h2 : ((1 / 500 : ℝ) ^ 4) ^ (1 / 4 : ℝ) = 1 / 500 := by
    rw [← Real.rpow_natCast, ← Real.rpow_mul (by norm_num)]
    norm_num
  linarith

/-- A lamp whose brightest colour is at least 0.6 in each channel is reported emitting iff some channel
gives light, for any intensity up to 0 and from a millionth candela.  Missing to the full property: lamps
with darker channels, see `emitting_fails`. -/
theorem emitting_partial (l : Lamp) (lum : ℝ) (hm : Within l.maxRgb (3 / 5) 1)
    (hl : lum ≤ 0 ∨ 1 / 1000000 ≤ lum) :
    (setState l lum).emitting = true ↔ Lit (setState l lum).emission := by
  rw [emitting_iff]
  have hmax : Within l.maxRgb 0 1 := by unfold Within at *; refine ⟨⟨?_, ?_⟩, ⟨?_, ?_⟩, ?_, ?_⟩ <;> linarith [hm.1.1, hm.1.2, hm.2.1.1, hm.2.1.2, hm.2.2.1, hm.2.2.2]
  have hr := emission_range l lum hmax
  rcases hl with hl | hl
  · rw [hr.2.2.2.1 hl]; unfold Lit; norm_num
  · constructor
    · intro h; exact Or.inr (Or.inr h)
    · intro _
      have hM : (0 : ℝ) < maxLum := by norm_num [maxLum]
      have hx : (1 / 500 : ℝ) ^ 4 ≤ clamp lum 0 maxLum / maxLum := by
        rw [le_div_iff₀ hM]
        unfold clamp
        refine le_min ?_ (le_trans ?_ (le_max_right _ _))
        · norm_num [maxLum]
        · refine le_trans ?_ hl; norm_num [maxLum]
      have hp := quarter_root_big hx
      have : (setState l lum).emission.b = l.maxRgb.b * (clamp lum 0 maxLum / maxLum) ^ (1 / 4 : ℝ) := rfl
      rw [this]
      have h3 := hm.2.2.1
      have := mul_le_mul h3 hp (by norm_num) (by linarith)
      norm_num at this ⊢
      linarith

def white : Lamp := ⟨.on, 0, ⟨0, 0, 0⟩, ⟨0, 0, 0⟩, ⟨1, 1, 1⟩, ⟨1, 1, 1⟩, false⟩

example : Within white.maxRgb (3 / 5) 1 := by norm_num [Within, white]

/-- The flag is overwritten by each channel in turn: a lamp shining red at full intensity is reported as
not emitting. -/
theorem emitting_fails : ¬ ∀ (l : Lamp) (lum : ℝ), (setState l lum).emitting = true ↔ Lit (setState l lum).emission := by
  intro h
  have h1 := h ⟨.on, 0, ⟨0, 0, 0⟩, ⟨0, 0, 0⟩, ⟨1, 0, 0⟩, ⟨1, 0, 0⟩, false⟩ 12000
  have hr := (emission_range ⟨.on, 0, ⟨0, 0, 0⟩, ⟨0, 0, 0⟩, ⟨1, 0, 0⟩, ⟨1, 0, 0⟩, false⟩ 12000
    (by norm_num [Within])).2.2.2.2 le_rfl
  rw [emitting_iff, hr] at h1
  norm_num [Lit] at h1

/-- The colour has channels between 0 and 1 and is either grey or has a channel below 0.6. -/
def Usual (c : RGB) : Prop :=
  Within c 0 1 ∧ ((c.r = c.g ∧ c.g = c.b) ∨ c.r < 3 / 5 ∨ c.g < 3 / 5 ∨ c.b < 3 / 5)

/-- For a usual colour: the brightest colour has all channels between 0.6 and 1, the dimmest between 0
and 0.25, and the dimmest has the hue of the colour, or is grey for a grey colour. -/
theorem minMax_partial (c old : RGB) (h : Usual c) :
    Within (minMax c old).2 (3 / 5) 1 ∧ Within (minMax c old).1 0 (1 / 4) ∧
    ((c.r = c.g ∧ c.g = c.b) ∨ ∃ k, 0 < k ∧ k ≤ 1 ∧ (minMax c old).1 = ⟨c.r * k, c.g * k, c.b * k⟩) := by
  obtain ⟨⟨⟨r0, r1⟩, ⟨g0, g1⟩, b0, b1⟩, hu⟩ := h
  unfold minMax
  by_cases he : c.r = c.g ∧ c.g = c.b
  · rw [if_pos he]
    refine ⟨?_, ?_, Or.inl he⟩
    · simp only
      by_cases h1 : c.r < 3 / 5
      · rw [if_pos h1]; norm_num [Within]
      · rw [if_neg h1]; unfold Within; refine ⟨⟨?_, ?_⟩, ⟨?_, ?_⟩, ?_, ?_⟩ <;> linarith [he.1, he.2, not_lt.mp h1]
    · simp only
      by_cases h1 : c.r > 1 / 4
      · rw [if_pos h1]; norm_num [Within]
      · rw [if_neg h1]; unfold Within; refine ⟨⟨?_, ?_⟩, ⟨?_, ?_⟩, ?_, ?_⟩ <;> linarith [he.1, he.2, not_lt.mp h1]
  · rw [if_neg he]
    simp only
    set mx := max (max c.r c.g) c.b with hmx
    have hr : c.r ≤ mx := le_trans (le_max_left _ _) (le_max_left _ _)
    have hg : c.g ≤ mx := le_trans (le_max_right _ _) (le_max_left _ _)
    have hb : c.b ≤ mx := le_max_right _ _
    have hpos : 0 < mx := by
      rcases lt_or_eq_of_le (le_trans r0 hr) with h | h
      · exact h
      · exfalso; apply he; constructor <;> linarith
    have hmn : min (min c.r c.g) c.b < 3 / 5 := by
      rcases hu with hu | hu | hu | hu
      · exact absurd hu he
      · exact lt_of_le_of_lt (le_trans (min_le_left _ _) (min_le_left _ _)) hu
      · exact lt_of_le_of_lt (le_trans (min_le_left _ _) (min_le_right _ _)) hu
      · exact lt_of_le_of_lt (min_le_right _ _) hu
    rw [if_pos hmn]
    have hcl : ∀ v : ℝ, 3 / 5 ≤ clamp v (3 / 5) 1 ∧ clamp v (3 / 5) 1 ≤ 1 := fun v => clamp_range v _ _ (by norm_num)
    refine ⟨⟨hcl _, hcl _, hcl _⟩, ?_, Or.inr ?_⟩
    · by_cases h1 : mx > 1 / 4
      · rw [if_pos h1]
        have k : ∀ v : ℝ, 0 ≤ v → v ≤ mx → 0 ≤ v * (1 / 4 / mx) ∧ v * (1 / 4 / mx) ≤ 1 / 4 := by
          intro v v0 v1
          refine ⟨by positivity, ?_⟩
          have : v / mx ≤ 1 := (div_le_one hpos).mpr v1
          have e : v * (1 / 4 / mx) = v / mx * (1 / 4) := by ring
          rw [e]; linarith
        exact ⟨k _ r0 hr, k _ g0 hg, k _ b0 hb⟩
      · rw [if_neg h1]
        unfold Within RGB.map
        simp only [mul_one]
        refine ⟨⟨?_, ?_⟩, ⟨?_, ?_⟩, ?_, ?_⟩ <;> linarith [not_lt.mp h1]
    · by_cases h1 : mx > 1 / 4
      · rw [if_pos h1]
        refine ⟨_, by positivity, ?_, rfl⟩
        rw [div_le_one hpos]; linarith
      · rw [if_neg h1]; exact ⟨1, one_pos, le_rfl, rfl⟩

example : Usual ⟨1 / 2, 3 / 20, 0⟩ := by norm_num [Usual, Within]

/-- A bright colour that is not grey, such as (0.9, 0.7, 0.8): the brightest colour is not computed, the
output keeps what it held before. -/
theorem minMax_bright_fails (old : RGB) : (minMax ⟨9 / 10, 7 / 10, 8 / 10⟩ old).2 = old := by
  unfold minMax
  rw [if_neg (by norm_num)]
  simp only
  rw [if_neg]
  norm_num

/-! ## Conflicting lights -/

/-- The lamps a light type stands for: fog lights are the front and rear fog lights, warning lights both
indicators. -/
def Drives (t u : LType) : Prop :=
  u = t ∨ (t = .fog ∧ (u = .fogFront ∨ u = .fogRear)) ∨ (t = .warning ∧ (u = .indLeft ∨ u = .indRight))

/-- Conflicts are symmetric. -/
theorem conflicting_symm (a b : LType) : conflicting a b = conflicting b a := by
  cases a <;> cases b <;> rfl

/-- Two light types conflict iff they drive a common lamp or are the left and the right indicator. -/
theorem conflicting_iff (a b : LType) :
    conflicting a b = true ↔ (∃ u, Drives a u ∧ Drives b u) ∨ (a = .indLeft ∧ b = .indRight) ∨
      (a = .indRight ∧ b = .indLeft) := by
  constructor
  · intro h
    unfold Drives
    cases a <;> cases b <;> first
      | (exfalso; revert h; decide)
      | exact Or.inl ⟨_, Or.inl rfl, Or.inl rfl⟩
      | exact Or.inr (Or.inl ⟨rfl, rfl⟩)
      | exact Or.inr (Or.inr ⟨rfl, rfl⟩)
      | exact Or.inl ⟨_, Or.inl rfl, by decide⟩
      | exact Or.inl ⟨_, by decide, Or.inl rfl⟩
  · rintro (⟨u, h1, h2⟩ | ⟨rfl, rfl⟩ | ⟨rfl, rfl⟩)
    · unfold Drives at h1 h2
      cases a <;> cases b <;> first
        | rfl
        | (exfalso; revert h1 h2; cases u <;> decide)
    · rfl
    · rfl

example : conflicting .fog .fogRear = true ∧ conflicting .indLeft .warning = true ∧
    conflicting .lowBeam .fog = false := by decide

theorem lampsOf_iff (t u : LType) : u ∈ lampsOf t ↔ Drives t u := by
  unfold Drives; cases t <;> cases u <;> decide

/-- Starting one indicator takes the other out of use and leaves the lamps that do not conflict as they
are. -/
theorem indicators_exclusive (v : LType → Lamp) :
    (((handleConflicts .indLeft v) .indRight).mode = .off ∨ ((handleConflicts .indLeft v) .indRight).mode = .unknown) ∧
    (((handleConflicts .indRight v) .indLeft).mode = .off ∨ ((handleConflicts .indRight v) .indLeft).mode = .unknown) ∧
    ∀ t u, conflicting t u = false → handleConflicts t v u = v u := by
  refine ⟨?_, ?_, ?_⟩
  · simp only [handleConflicts]
    by_cases h : (v .indRight).mode = .unknown
    · right; simp [h]
    · left; simp [h, reset]
  · simp only [handleConflicts]
    by_cases h : (v .indLeft).mode = .unknown
    · right; simp [h]
    · left; simp [h, reset]
  · intro t u h
    cases t <;> cases u <;> first | rfl | exact absurd h (by decide)

example : conflicting .indLeft .lowBeam = false ∧ conflicting .fogFront .fogRear = false := by decide

/-- A lamp taken out of use emits nothing but keeps its emitting flag: after the left indicator has been
started the right one, dark, is still reported as emitting. -/
theorem reset_emitting_fails :
    ¬ ∀ (v : LType → Lamp), ((v .indRight).emitting = true ↔ Lit (v .indRight).emission) →
      (((handleConflicts .indLeft v) .indRight).emitting = true ↔ Lit ((handleConflicts .indLeft v) .indRight).emission) := by
  intro h
  have := h (fun _ => ⟨.on, 100, ⟨1, 1, 1⟩, ⟨0, 0, 0⟩, ⟨1, 1, 1⟩, ⟨1, 1, 1⟩, true⟩) (by norm_num [Lit])
  have h3 : Lit (⟨0, 0, 0⟩ : RGB) := this.mp rfl
  norm_num [Lit] at h3

/-! ## Change of intensity -/

/-- The intensity asked for: none for off, else the one given, 6000 cd if none is given. -/
def wanted (c : Cmd) : ℝ := if c.mode = .off then 0 else c.lum.getD 6000

/-- The same, of a running action. -/
def Act.wanted (a : Act) : ℝ := if a.mode = .off then 0 else if a.lumSet then a.target else 6000

theorem wanted_start (c : Cmd) (v : LType → Lamp) : (start c v).wanted = wanted c := by
  unfold Act.wanted Verif.Lights.wanted start
  cases c.lum <;> rfl

theorem wanted_step (a : Act) (dt : ℝ) : (step a dt).1.wanted = a.wanted := by
  unfold Act.wanted step
  simp only
  by_cases hoff : a.mode = .off
  · simp [hoff]
  · simp only [if_neg hoff]
    by_cases hl : a.lumSet = true
    · simp [hl]
    · by_cases hm : (decide (a.timer ≤ a.T + small) && decide (a.mode = .on ∨ a.mode = .flashing)) = true
      · simp only [Bool.not_eq_true] at hl
        simp only [Bool.and_eq_true, decide_eq_true_eq] at hm
        simp [hl, hm.1, hm.2, defaultLum]
      · simp only [Bool.not_eq_true] at hl hm
        simp only [hl, Bool.false_or, Bool.not_false, Bool.and_true, hm]
        rfl

theorem transLum_wanted (a : Act) (hm : a.mode = .on ∨ a.mode = .off) (ht : a.timer ≤ a.T + small)
    (p f o : ℝ) :
    transLum a.mode p (if decide (a.timer ≤ a.T + small) && !a.lumSet && decide (a.mode = .on ∨ a.mode = .flashing)
      then defaultLum else a.target) f o = p + (a.wanted - p) * f := by
  unfold Act.wanted transLum
  rcases hm with hm | hm
  · simp only [hm, ht]
    cases a.lumSet <;> simp [defaultLum]
  · simp only [hm]
    simp; ring

/-- One step of an action switching lamps on or off, while the change lasts. -/
theorem step_moving (a : Act) (dt : ℝ) (hm : a.mode = .on ∨ a.mode = .off) (ht : a.timer ≤ a.T + small)
    (i : Nat) (s : LState) (hs : a.lights[i]? = some s) :
    ∃ s', (step a dt).1.lights[i]? = some s' ∧ s'.prevLum = s.prevLum ∧
      s'.lum = s.prevLum + (a.wanted - s.prevLum) * (if a.T ≠ 0 then a.timer / a.T else 1) ∧ s'.trans = s'.lum ∧
      s'.lamp.lum = clamp s'.lum 0 maxLum ∧ s'.prevMax = s.prevMax ∧ s'.maxRgb = s.maxRgb ∧
      s'.lamp.maxRgb = s.prevMax.mix s.maxRgb (if a.T ≠ 0 then a.timer / a.T else 1) := by
  have hnf : a.mode ≠ .flashing := by rcases hm with h | h <;> rw [h] <;> decide
  have key := transLum_wanted a hm ht
  unfold step
  simp only [if_neg hnf, decide_eq_true ht, if_true]
  simp only [decide_eq_true ht] at key
  cases ((decide (|a.T - 0| < small) || decide (a.timer > a.T - small)) && !a.transitioned) <;>
  · simp only [if_true, Bool.false_eq_true, if_false, List.getElem?_map, hs, Option.map_some]
    refine ⟨_, rfl, rfl, ?_, rfl, rfl, rfl, rfl, rfl⟩
    simp only [moveLamp]
    exact key _ _ _

/-- One step after the change: the intensity stays. -/
theorem step_after (a : Act) (dt : ℝ) (hm : a.mode = .on ∨ a.mode = .off) (ht : a.timer > a.T + small)
    (i : Nat) (s : LState) (hs : a.lights[i]? = some s) :
    ∃ s', (step a dt).1.lights[i]? = some s' ∧ s'.prevLum = s.prevLum ∧ s'.lum = s.trans ∧
      s'.lamp.lum = clamp s'.lum 0 maxLum := by
  have hnf : a.mode ≠ .flashing := by rcases hm with h | h <;> rw [h] <;> decide
  have ht' : decide (a.timer ≤ a.T + small) = false := decide_eq_false (not_le.mpr ht)
  unfold step
  simp only [if_neg hnf, ht', Bool.false_eq_true, if_false]
  cases ((decide (|a.T - 0| < small) || decide (a.timer > a.T - small)) && !a.transitioned) <;>
  · simp only [if_true, Bool.false_eq_true, if_false, List.getElem?_map, hs, Option.map_some]
    exact ⟨_, rfl, rfl, rfl, rfl⟩

/-- Fields that do not change and the timer. -/
theorem step_fields (a : Act) (dt : ℝ) :
    (step a dt).1.mode = a.mode ∧ (step a dt).1.T = a.T ∧ (step a dt).1.lights.length = a.lights.length ∧
    (a.timer ≤ a.T + small → (step a dt).1.timer = a.timer + dt) := by
  refine ⟨rfl, rfl, ?_, ?_⟩
  · unfold step; simp only
    split_ifs <;> (try split) <;> simp
  · intro h; unfold step; simp [h]

/-- Whether a step ends an action switching lamps on or off. -/
theorem step_ends (a : Act) (dt : ℝ) (hm : a.mode = .on ∨ a.mode = .off) (ht : a.transitioned = false) :
    ((step a dt).2 = true ↔ |a.T| < small ∨ a.timer > a.T - small) ∧
    (step a dt).1.transitioned = (step a dt).2 := by
  have hnf : a.mode ≠ .flashing := by rcases hm with h | h <;> rw [h] <;> decide
  have hnu : a.mode ≠ .unknown := by rcases hm with h | h <;> rw [h] <;> decide
  constructor
  · unfold step
    simp [hnf, hnu, ht]
  · unfold step
    simp [hnf, hnu, ht]

theorem start_fields (c : Cmd) (v : LType → Lamp) :
    (start c v).mode = c.mode ∧ (start c v).T = c.T ∧ (start c v).timer = 0 ∧ (start c v).transitioned = false ∧
    (start c v).lights.length = (lampsOf c.type).length := by
  refine ⟨rfl, rfl, rfl, rfl, ?_⟩
  unfold start; simp

theorem start_prevLum (c : Cmd) (v : LType → Lamp) (i : Nat) (t : LType) (ht : (lampsOf c.type)[i]? = some t) :
    ∃ s, (start c v).lights[i]? = some s ∧ s.prevLum = (v t).lum := by
  unfold start
  simp only [List.getElem?_map, ht, Option.map_some]
  refine ⟨_, rfl, ?_⟩
  have h : (handleConflicts c.type v t).lum = (v t).lum := by
    unfold handleConflicts
    cases c.type <;> simp only <;> (try split_ifs) <;> rfl
  unfold startLamp
  simp only
  split_ifs <;> exact h

/-- Going on: steps that do not end the action. -/
theorem run_going (c : Cmd) (v : LType → Lamp) (hm : c.mode = .on ∨ c.mode = .off) (hT : c.T ≥ small)
    (dts : List ℝ) (hd : ∀ d ∈ dts, 0 ≤ d) (d : ℝ) (hs : dts.sum ≤ c.T - small) :
    (run (start c v) (dts ++ [d])).2 = false ∧
    ∃ a : Act, (run (start c v) (dts ++ [d])).1 = a ∧ a.mode = c.mode ∧ a.T = c.T ∧ a.timer = dts.sum + d ∧
      a.transitioned = false ∧ a.wanted = wanted c ∧
      ∀ (i : Nat) (t : LType), (lampsOf c.type)[i]? = some t → ∃ s : LState, a.lights[i]? = some s ∧ s.prevLum = (v t).lum ∧
        s.lum = (v t).lum + (wanted c - (v t).lum) * (dts.sum / c.T) ∧ s.trans = s.lum ∧
        s.lamp.lum = clamp s.lum 0 maxLum := by
  have hsm : (0 : ℝ) < small := by norm_num [small]
  have hT0 : c.T ≠ 0 := by intro h; rw [h] at hT; linarith
  -- a general state
  have gen : ∀ (dts : List ℝ) (a : Act), (∀ d ∈ dts, 0 ≤ d) → a.mode = c.mode → a.T = c.T → a.transitioned = false →
      a.wanted = wanted c → 0 ≤ a.timer → a.timer + dts.sum ≤ c.T - small →
      (∀ (i : Nat) (t : LType), (lampsOf c.type)[i]? = some t → ∃ s : LState, a.lights[i]? = some s ∧ s.prevLum = (v t).lum) →
      (run a (dts ++ [d])).2 = false ∧
      ∃ b : Act, (run a (dts ++ [d])).1 = b ∧ b.mode = c.mode ∧ b.T = c.T ∧ b.timer = a.timer + dts.sum + d ∧
        b.transitioned = false ∧ b.wanted = wanted c ∧
        ∀ (i : Nat) (t : LType), (lampsOf c.type)[i]? = some t → ∃ s : LState, b.lights[i]? = some s ∧ s.prevLum = (v t).lum ∧
          s.lum = (v t).lum + (wanted c - (v t).lum) * ((a.timer + dts.sum) / c.T) ∧ s.trans = s.lum ∧
          s.lamp.lum = clamp s.lum 0 maxLum := by
    intro dts
    induction dts with
    | nil =>
      intro a _ h1 h2 h3 h4 h5 h6 h7
      simp only [List.sum_nil, add_zero] at h6
      have hma : a.mode = .on ∨ a.mode = .off := by rw [h1]; exact hm
      have hne : (step a d).2 = false := by
        rw [Bool.eq_false_iff]; intro he
        rcases (step_ends a d hma h3).1.mp he with h | h
        · rw [h2, abs_of_pos (by linarith)] at h; linarith
        · rw [h2] at h; linarith
      have htm : a.timer ≤ a.T + small := by rw [h2]; linarith
      have hf := step_fields a d
      simp only [List.nil_append, run, hne, Bool.false_eq_true, if_false, List.sum_nil, add_zero]
      refine ⟨trivial, _, rfl, by rw [hf.1, h1], by rw [hf.2.1, h2], hf.2.2.2 htm, ?_, ?_, ?_⟩
      · rw [(step_ends a d hma h3).2, hne]
      · rw [wanted_step, h4]
      · intro i t ht
        obtain ⟨s, hs1, hs2⟩ := h7 i t ht
        obtain ⟨s', g1, g2, g3, g4, g5, _⟩ := step_moving a d hma htm i s hs1
        refine ⟨s', g1, by rw [g2, hs2], ?_, g4, g5⟩
        rw [g3, h2, if_pos hT0, h4, hs2]
    | cons e dts ih =>
      intro a hd h1 h2 h3 h4 h5 h6 h7
      simp only [List.sum_cons] at h6
      have he0 : 0 ≤ e := hd e List.mem_cons_self
      have hd' : ∀ d ∈ dts, 0 ≤ d := fun d h => hd d (List.mem_cons_of_mem _ h)
      have hs0 : 0 ≤ dts.sum := List.sum_nonneg hd'
      have hma : a.mode = .on ∨ a.mode = .off := by rw [h1]; exact hm
      have hne : (step a e).2 = false := by
        rw [Bool.eq_false_iff]; intro he
        rcases (step_ends a e hma h3).1.mp he with h | h
        · rw [h2, abs_of_pos (by linarith)] at h; linarith
        · rw [h2] at h; linarith
      have htm : a.timer ≤ a.T + small := by rw [h2]; linarith
      have hf := step_fields a e
      have htim := hf.2.2.2 htm
      have := ih (step a e).1 hd' (by rw [hf.1, h1]) (by rw [hf.2.1, h2])
        (by rw [(step_ends a e hma h3).2, hne]) (by rw [wanted_step, h4]) (by rw [htim]; linarith)
        (by rw [htim]; linarith)
        (by
          intro i t ht
          obtain ⟨s, hs1, hs2⟩ := h7 i t ht
          obtain ⟨s', g1, g2, _⟩ := step_moving a e hma htm i s hs1
          exact ⟨s', g1, by rw [g2, hs2]⟩)
      simp only [List.cons_append, run, hne, Bool.false_eq_true, if_false, List.sum_cons]
      rw [htim] at this
      obtain ⟨k1, b, k2, k3, k4, k5, k6, k7, k8⟩ := this
      refine ⟨k1, b, k2, k3, k4, by rw [k5]; ring, k6, k7, ?_⟩
      intro i t ht
      obtain ⟨s, m1, m2, m3, m4, m5⟩ := k8 i t ht
      refine ⟨s, m1, m2, ?_, m4, m5⟩
      rw [m3]; ring_nf
  obtain ⟨f1, f2, f3, f4, _⟩ := start_fields c v
  have := gen dts (start c v) hd f1 f2 f4 (wanted_start c v) (by rw [f3]) (by rw [f3]; linarith)
    (start_prevLum c v)
  rw [f3] at this
  simpa using this

/-- While an action switches a lamp on or off, the intensity goes in a straight line with time from
what it was to the one asked for: after each step that does not end the action it has covered the part
(time at the start of the step) / (transition time) of the way. -/
theorem intensity_linear (c : Cmd) (v : LType → Lamp) (hm : c.mode = .on ∨ c.mode = .off) (hT : c.T ≥ small)
    (dts : List ℝ) (hd : ∀ d ∈ dts, 0 ≤ d) (d : ℝ) (hs : dts.sum ≤ c.T - small)
    (i : Nat) (t : LType) (ht : (lampsOf c.type)[i]? = some t)
    (hr : (0 ≤ (v t).lum ∧ (v t).lum ≤ 12000) ∧ 0 ≤ wanted c ∧ wanted c ≤ 12000) :
    ∃ s, (run (start c v) (dts ++ [d])).1.lights[i]? = some s ∧
      s.lamp.lum = (v t).lum + (wanted c - (v t).lum) * (dts.sum / c.T) := by
  obtain ⟨_, a, h1, _, _, _, _, _, h8⟩ := run_going c v hm hT dts hd d hs
  obtain ⟨s, m1, m2, m3, m4, m5⟩ := h8 i t ht
  refine ⟨s, by rw [h1]; exact m1, ?_⟩
  have hsm : (0 : ℝ) < small := by norm_num [small]
  have hTp : 0 < c.T := by linarith
  have hs0 : 0 ≤ dts.sum := List.sum_nonneg hd
  have f0 : 0 ≤ dts.sum / c.T := div_nonneg hs0 hTp.le
  have f1 : dts.sum / c.T ≤ 1 := (div_le_one hTp).mpr (by linarith)
  rw [m5, m3]
  set f := dts.sum / c.T
  obtain ⟨⟨p0, p1⟩, w0, w1⟩ := hr
  apply clamp_id
  · nlinarith
  · unfold maxLum; nlinarith

example : ∀ (v : LType → Lamp) (_ : (v .lowBeam).lum = 0),
    ∃ s, (run (start ⟨.lowBeam, .on, some 8000, 1, 1 / 2, 1 / 2, none⟩ v) ([1 / 4, 1 / 4] ++ [1 / 4])).1.lights[0]? = some s ∧
      s.lamp.lum = 4000 := by
  intro v hv
  obtain ⟨s, h1, h2⟩ := intensity_linear ⟨.lowBeam, .on, some 8000, 1, 1 / 2, 1 / 2, none⟩ v (Or.inl rfl)
    (by norm_num [small]) [1 / 4, 1 / 4] (by intro d hd; simp at hd; subst hd; norm_num) (1 / 4)
    (by norm_num [small]) 0 .lowBeam rfl (by simp [hv, wanted]; norm_num)
  refine ⟨s, h1, ?_⟩
  rw [h2, hv]; simp [wanted]; norm_num

theorem run_last (d' : ℝ) : ∀ (l : List ℝ) (b : Act), (run b l).2 = false →
    run b (l ++ [d']) = ((step (run b l).1 d').1, (step (run b l).1 d').2) := by
  intro l
  induction l with
  | nil =>
    intro b _
    simp only [List.nil_append, run]
    cases h : (step b d').2 <;> simp
  | cons e l ih =>
    intro b hb
    simp only [List.cons_append, run] at hb ⊢
    cases h : (step b e).2
    · rw [h] at hb
      simp only [Bool.false_eq_true, if_false] at hb ⊢
      exact ih _ hb
    · rw [h] at hb; simp at hb

/-- When the action ends, the lamp is within `max (last time step, 1e-6) / (transition time)` of the way
from the intensity asked for.  Missing to the full property: that the intensity asked for is reached, see
`final_intensity_fails`. -/
theorem final_intensity_partial (c : Cmd) (v : LType → Lamp) (hm : c.mode = .on ∨ c.mode = .off) (hT : c.T ≥ small)
    (dts : List ℝ) (hd : ∀ d ∈ dts, 0 ≤ d) (d d' : ℝ) (hs : dts.sum ≤ c.T - small) (he : dts.sum + d > c.T - small)
    (i : Nat) (t : LType) (ht : (lampsOf c.type)[i]? = some t) :
    (run (start c v) (dts ++ [d] ++ [d'])).2 = true ∧
    ∃ s, (run (start c v) (dts ++ [d] ++ [d'])).1.lights[i]? = some s ∧
      |s.lum - wanted c| ≤ |wanted c - (v t).lum| * (max d small / c.T) := by
  have hsm : (0 : ℝ) < small := by norm_num [small]
  have hTp : 0 < c.T := by linarith
  have hs0 : 0 ≤ dts.sum := List.sum_nonneg hd
  obtain ⟨hnot, a, h1, h2, h3, h4, h5, h6, h8⟩ := run_going c v hm hT dts hd d hs
  have hrun : run (start c v) (dts ++ [d] ++ [d']) = ((step a d').1, (step a d').2) := by
    rw [run_last _ _ _ hnot, h1]
  rw [hrun]
  have hma : a.mode = .on ∨ a.mode = .off := by rw [h2]; exact hm
  refine ⟨(step_ends a d' hma h5).1.mpr (Or.inr (by rw [h3, h4]; exact he)), ?_⟩
  obtain ⟨s, m1, m2, m3, m4, m5⟩ := h8 i t ht
  by_cases hmv : a.timer ≤ a.T + small
  · obtain ⟨s', g1, g2, g3, _⟩ := step_moving a d' hma hmv i s m1
    refine ⟨s', g1, ?_⟩
    rw [g3, h3, if_pos hTp.ne', h6, m2, h4]
    have e : (v t).lum + (wanted c - (v t).lum) * ((dts.sum + d) / c.T) - wanted c =
        (wanted c - (v t).lum) * ((dts.sum + d - c.T) / c.T) := by field_simp; ring
    rw [e, abs_mul]
    apply mul_le_mul_of_nonneg_left _ (abs_nonneg _)
    rw [abs_div, abs_of_pos hTp]
    apply div_le_div_of_nonneg_right _ hTp.le
    rw [h3, h4] at hmv
    refine le_trans ?_ (le_max_right _ _)
    rw [abs_le]; constructor <;> linarith
  · obtain ⟨s', g1, g2, g3, _⟩ := step_after a d' hma (not_le.mp hmv) i s m1
    refine ⟨s', g1, ?_⟩
    rw [g3, m4, m3]
    have e : (v t).lum + (wanted c - (v t).lum) * (dts.sum / c.T) - wanted c =
        (wanted c - (v t).lum) * ((dts.sum - c.T) / c.T) := by field_simp; ring
    rw [e, abs_mul]
    apply mul_le_mul_of_nonneg_left _ (abs_nonneg _)
    rw [abs_div, abs_of_pos hTp]
    apply div_le_div_of_nonneg_right _ hTp.le
    rw [h3, h4] at hmv
    refine le_trans ?_ (le_max_left _ _)
    rw [abs_le]; constructor <;> linarith

/-- A lamp at 6000 cd switched off within 0.1 s. -/
def offCmd : Cmd := ⟨.lowBeam, .off, none, 1 / 10, 1 / 2, 1 / 2, none⟩

def lit (_ : LType) : Lamp := ⟨.on, 6000, ⟨1, 1, 1⟩, ⟨1 / 4, 1 / 4, 1 / 4⟩, ⟨1 / 2, 1 / 2, 1 / 2⟩, ⟨1, 1, 1⟩, true⟩

example : (offCmd.mode = .on ∨ offCmd.mode = .off) ∧ offCmd.T ≥ small ∧ ([0.09] : List ℝ).sum ≤ offCmd.T - small ∧
    ([0.09] : List ℝ).sum + 0.09 > offCmd.T - small := by
  norm_num [offCmd, small]

/-- The intensity asked for need not be reached: with time steps of 0.09 s a lamp switched off within
0.1 s ends at 600 cd instead of 0 and the action is over. -/
theorem final_intensity_fails :
    (run (start offCmd lit) ([9 / 100] ++ [9 / 100] ++ [9 / 100])).2 = true ∧
    ∃ s, (run (start offCmd lit) ([9 / 100] ++ [9 / 100] ++ [9 / 100])).1.lights[0]? = some s ∧ s.lamp.lum = 600 := by
  have hm : offCmd.mode = .on ∨ offCmd.mode = .off := Or.inr rfl
  have hT : offCmd.T ≥ small := by norm_num [offCmd, small]
  have hd : ∀ d ∈ ([9 / 100] : List ℝ), 0 ≤ d := by simp; norm_num
  have hs : ([9 / 100] : List ℝ).sum ≤ offCmd.T - small := by norm_num [offCmd, small]
  have he : ([9 / 100] : List ℝ).sum + 9 / 100 > offCmd.T - small := by norm_num [offCmd, small]
  refine ⟨(final_intensity_partial offCmd lit hm hT [9 / 100] hd (9 / 100) (9 / 100) hs he 0 .lowBeam rfl).1, ?_⟩
  obtain ⟨hnot, a, h1, h2, h3, h4, h5, h6, h8⟩ := run_going offCmd lit hm hT [9 / 100] hd (9 / 100) hs
  obtain ⟨s, m1, m2, m3, m4, m5⟩ := h8 0 .lowBeam rfl
  have hma : a.mode = .on ∨ a.mode = .off := by rw [h2]; exact hm
  have hgt : a.timer > a.T + small := by rw [h3, h4]; norm_num [offCmd, small]
  obtain ⟨s', g1, g2, g3, g4⟩ := step_after a (9 / 100) hma hgt 0 s m1
  refine ⟨s', ?_, ?_⟩
  · have : run (start offCmd lit) ([9 / 100] ++ [9 / 100] ++ [9 / 100]) = ((step a (9 / 100)).1, (step a (9 / 100)).2) := by
      rw [run_last _ _ _ hnot, h1]
    rw [this]; exact g1
  · rw [g4, g3, m4, m3]
    rw [clamp_id] <;> norm_num [offCmd, lit, wanted, maxLum]

/-- Without transition time the intensity asked for is reached in the first step, which ends the
action. -/
theorem instant (c : Cmd) (v : LType → Lamp) (hm : c.mode = .on ∨ c.mode = .off) (hT : c.T = 0) (d : ℝ)
    (i : Nat) (t : LType) (ht : (lampsOf c.type)[i]? = some t) (hr : 0 ≤ wanted c ∧ wanted c ≤ 12000) :
    (run (start c v) [d]).2 = true ∧
    ∃ s, (run (start c v) [d]).1.lights[i]? = some s ∧ s.lamp.lum = wanted c := by
  have hsm : (0 : ℝ) < small := by norm_num [small]
  obtain ⟨f1, f2, f3, f4, _⟩ := start_fields c v
  have hma : (start c v).mode = .on ∨ (start c v).mode = .off := by rw [f1]; exact hm
  have hend : (step (start c v) d).2 = true :=
    (step_ends _ d hma f4).1.mpr (Or.inl (by rw [f2, hT, abs_zero]; exact hsm))
  obtain ⟨s, hs1, hs2⟩ := start_prevLum c v i t ht
  obtain ⟨s', g1, g2, g3, g4, g5, _⟩ := step_moving (start c v) d hma (by rw [f2, f3, hT]; linarith) i s hs1
  simp only [run, hend, if_true]
  refine ⟨trivial, s', g1, ?_⟩
  rw [g5, g3, f2, if_neg (by simp [hT]), wanted_start]
  have e : s.prevLum + (wanted c - s.prevLum) * 1 = wanted c := by ring
  rw [e]
  exact clamp_id _ _ _ hr.1 (by unfold maxLum; exact hr.2)

example (v : LType → Lamp) : ∃ s, (run (start ⟨.lowBeam, .on, none, 0, 1 / 2, 1 / 2, none⟩ v) [1 / 100]).1.lights[0]? = some s ∧
    s.lamp.lum = 6000 := by
  obtain ⟨_, s, h1, h2⟩ := instant ⟨.lowBeam, .on, none, 0, 1 / 2, 1 / 2, none⟩ v (Or.inl rfl) rfl (1 / 100) 0 .lowBeam rfl
    (by simp [wanted]; norm_num)
  exact ⟨s, h1, by rw [h2]; simp [wanted]⟩

/-- With a transition time above 0 but below 1e-6 s the action ends with the first step and the
intensity has not changed at all. -/
theorem tiny_transition_fails (c : Cmd) (v : LType → Lamp) (hm : c.mode = .on ∨ c.mode = .off)
    (hT : 0 < c.T ∧ c.T < small) (d : ℝ) (i : Nat) (t : LType) (ht : (lampsOf c.type)[i]? = some t) :
    (run (start c v) [d]).2 = true ∧
    ∃ s, (run (start c v) [d]).1.lights[i]? = some s ∧ s.lum = (v t).lum := by
  have hsm : (0 : ℝ) < small := by norm_num [small]
  obtain ⟨f1, f2, f3, f4, _⟩ := start_fields c v
  have hma : (start c v).mode = .on ∨ (start c v).mode = .off := by rw [f1]; exact hm
  have hend : (step (start c v) d).2 = true :=
    (step_ends _ d hma f4).1.mpr (Or.inl (by rw [f2, abs_of_pos hT.1]; exact hT.2))
  obtain ⟨s, hs1, hs2⟩ := start_prevLum c v i t ht
  obtain ⟨s', g1, g2, g3, _⟩ := step_moving (start c v) d hma (by rw [f2, f3]; linarith [hT.1]) i s hs1
  simp only [run, hend, if_true]
  refine ⟨trivial, s', g1, ?_⟩
  rw [g3, f2, if_pos hT.1.ne', f3, zero_div, mul_zero, add_zero, hs2]

/-! ## Flashing -/

/-- `k` steps of the flashing lamp with time step `dt`. -/
def flashRun (offDur onDur dt : ℝ) : Nat → Flash × ℝ → Flash × ℝ
  | 0, s => s
  | k + 1, s => flashRun offDur onDur dt k ((flashStep s.1 s.2 offDur onDur dt).1, (flashStep s.1 s.2 offDur onDur dt).2.1)

theorem flashRun_keep (offDur onDur dt : ℝ) (st : Flash) (dur : ℝ)
    (hst : (st = .on ∧ dur = onDur) ∨ (st = .off ∧ dur = offDur)) (k : Nat) (n : Nat)
    (h : ∀ j, n ≤ j → j < n + k → (j : ℝ) * dt < dur - small) :
    flashRun offDur onDur dt k (st, n * dt) = (st, ((n + k : Nat) : ℝ) * dt) := by
  induction k generalizing n with
  | zero => simp [flashRun]
  | succ k ih =>
    have h0 := h n le_rfl (by omega)
    have hstep : flashStep st (n * dt) offDur onDur dt = (st, n * dt + dt, none) := by
      unfold flashStep
      rcases hst with ⟨rfl, rfl⟩ | ⟨rfl, rfl⟩
      · rw [if_neg (by simp), if_neg (by intro hh; linarith [hh.2])]
      · rw [if_neg (by intro hh; linarith [hh.2]), if_neg (by simp)]
    unfold flashRun
    simp only [hstep]
    have e : (n : ℝ) * dt + dt = ((n + 1 : Nat) : ℝ) * dt := by push_cast; ring
    rw [e, ih (n + 1) (fun j h1 h2 => h j (by omega) (by omega))]
    congr 3; omega

/-- A flashing lamp stays on (off) for exactly the first number of steps whose time reaches the on (off)
duration up to 1e-6 s, and then changes over. -/
theorem flash_phase (offDur onDur dt : ℝ) (k : Nat) :
    ((∀ j, 1 ≤ j → j ≤ k → (j : ℝ) * dt < onDur - small) → ((k + 1 : Nat) : ℝ) * dt ≥ onDur - small →
      (∀ m, m ≤ k → (flashRun offDur onDur dt m (.on, dt)).1 = .on) ∧
      flashRun offDur onDur dt (k + 1) (.on, dt) = (.off, dt)) ∧
    ((∀ j, 1 ≤ j → j ≤ k → (j : ℝ) * dt < offDur - small) → ((k + 1 : Nat) : ℝ) * dt ≥ offDur - small →
      (∀ m, m ≤ k → (flashRun offDur onDur dt m (.off, dt)).1 = .off) ∧
      flashRun offDur onDur dt (k + 1) (.off, dt) = (.on, dt)) := by
  have split : ∀ (m n : Nat) (s : Flash × ℝ), flashRun offDur onDur dt (m + n) s =
      flashRun offDur onDur dt n (flashRun offDur onDur dt m s) := by
    intro m
    induction m with
    | zero => intro n s; simp [flashRun]
    | succ m ih =>
      intro n s
      have : m + 1 + n = (m + n) + 1 := by omega
      rw [this]
      simp only [flashRun]
      exact ih n _
  have e1 : ∀ st : Flash, (st, dt) = (st, ((1 : Nat) : ℝ) * dt) := by intro st; simp
  constructor
  · intro h1 h2
    have keep : ∀ m, m ≤ k → flashRun offDur onDur dt m (.on, dt) = (.on, ((1 + m : Nat) : ℝ) * dt) := by
      intro m hmk
      rw [e1 .on]
      exact flashRun_keep offDur onDur dt .on onDur (Or.inl ⟨rfl, rfl⟩) m 1 (fun j a b => h1 j a (by omega))
    refine ⟨fun m hm => by rw [keep m hm], ?_⟩
    rw [split k 1, keep k le_rfl]
    simp only [flashRun]
    have : flashStep .on (((1 + k : Nat) : ℝ) * dt) offDur onDur dt = (.off, 0 + dt, some false) := by
      unfold flashStep
      rw [if_neg (by simp), if_pos ⟨rfl, by rw [Nat.add_comm]; exact h2⟩]
    rw [this, zero_add]
  · intro h1 h2
    have keep : ∀ m, m ≤ k → flashRun offDur onDur dt m (.off, dt) = (.off, ((1 + m : Nat) : ℝ) * dt) := by
      intro m hmk
      rw [e1 .off]
      exact flashRun_keep offDur onDur dt .off offDur (Or.inr ⟨rfl, rfl⟩) m 1 (fun j a b => h1 j a (by omega))
    refine ⟨fun m hm => by rw [keep m hm], ?_⟩
    rw [split k 1, keep k le_rfl]
    simp only [flashRun]
    have : flashStep .off (((1 + k : Nat) : ℝ) * dt) offDur onDur dt = (.on, 0 + dt, some true) := by
      unfold flashStep
      rw [if_pos ⟨rfl, by rw [Nat.add_comm]; exact h2⟩]
    rw [this, zero_add]

/-- Half a second on with steps of 0.2 s: three steps. -/
example : (∀ j : Nat, 1 ≤ j → j ≤ 2 → (j : ℝ) * (1 / 5) < 1 / 2 - small) ∧ ((2 + 1 : Nat) : ℝ) * (1 / 5) ≥ 1 / 2 - small := by
  refine ⟨fun j h1 h2 => ?_, by norm_num [small]⟩
  have : (j : ℝ) ≤ 2 := by exact_mod_cast h2
  norm_num [small]; linarith

/-- A flashing lamp shines in the first step: at the intensity asked for without transition time, but
with a transition time only at the intensity it had before, so that the first flash of a dark lamp is
dark. -/
theorem first_flash (c : Cmd) (v : LType → Lamp) (hm : c.mode = .flashing) (d : ℝ) (hT : 0 ≤ c.T)
    (i : Nat) (t : LType) (ht : (lampsOf c.type)[i]? = some t) :
    ∃ s, (step (start c v) d).1.lights[i]? = some s ∧
      (c.T = 0 → s.lum = wanted c) ∧ (c.T ≠ 0 → s.lum = (v t).lum) := by
  have hsm : (0 : ℝ) < small := by norm_num [small]
  obtain ⟨s, hs1, hs2⟩ := start_prevLum c v i t ht
  obtain ⟨f1, f2, f3, f4, _⟩ := start_fields c v
  have hmv : decide ((start c v).timer ≤ (start c v).T + small) = true := by
    rw [f2, f3]; exact decide_eq_true (by linarith)
  have hfl : flashStep (start c v).flash (start c v).ftimer (start c v).offDur (start c v).onDur d =
      (.on, 0 + d, some true) := by
    unfold flashStep
    have h1 : (start c v).flash = .off := by unfold start; simp [hm]
    have h2 : (start c v).ftimer = (start c v).offDur := by unfold start; simp [hm]
    rw [if_pos ⟨h1, by rw [h2]; linarith⟩]
  have hfm : (start c v).mode = .flashing := by rw [f1, hm]
  have hw := wanted_start c v
  unfold Act.wanted at hw
  rw [if_neg (by rw [hfm]; decide)] at hw
  unfold step
  simp only [hmv, hfl, if_true, if_pos hfm]
  cases ((decide (|(start c v).T - 0| < small) || decide ((start c v).timer > (start c v).T - small)) && !(start c v).transitioned) <;>
  · simp only [if_true, Bool.false_eq_true, if_false, List.getElem?_map, hs1, Option.map_some]
    refine ⟨_, rfl, ?_, ?_⟩
    · intro h0
      simp only [moveLamp, transLum, hfm]
      have hT0 : (start c v).T = 0 := by rw [f2, h0]
      simp only [hT0, ne_eq, not_true_eq_false, if_false]
      rw [← hw]
      cases (start c v).lumSet <;> simp [defaultLum]
    · intro h0
      simp only [moveLamp, transLum, hfm]
      have hT0 : (start c v).T ≠ 0 := by rw [f2]; exact h0
      simp only [if_pos hT0]
      rw [f3, zero_div, mul_zero, add_zero, hs2]

example (v : LType → Lamp) : ∃ s, (step (start ⟨.indLeft, .flashing, none, 0, 1 / 2, 1 / 2, none⟩ v) (1 / 100)).1.lights[0]? = some s ∧
    s.lum = 6000 := by
  obtain ⟨s, h1, h2, _⟩ := first_flash ⟨.indLeft, .flashing, none, 0, 1 / 2, 1 / 2, none⟩ v rfl (1 / 100) le_rfl 0 .indLeft rfl
  exact ⟨s, h1, by rw [h2 rfl]; simp [wanted]⟩

/-! ## Switching a lamp on -/

/-- A lamp switched on at once, at least at a millionth candela, in a usual colour, is reported as
emitting and gives light in all channels. -/
theorem switched_on_partial (c : Cmd) (v : LType → Lamp) (hm : c.mode = .on) (hT : c.T = 0) (d : ℝ)
    (hw : 1 / 1000000 ≤ wanted c) (i : Nat) (t : LType) (ht : (lampsOf c.type)[i]? = some t)
    (hu : Usual (c.color.getD (v t).baseRgb)) :
    ∃ s, (run (start c v) [d]).1.lights[i]? = some s ∧ s.lamp.emitting = true ∧ Lit s.lamp.emission := by
  have hsm : (0 : ℝ) < small := by norm_num [small]
  obtain ⟨f1, f2, f3, f4, _⟩ := start_fields c v
  have hma : (start c v).mode = .on ∨ (start c v).mode = .off := by rw [f1]; exact Or.inl hm
  have hend : (step (start c v) d).2 = true :=
    (step_ends _ d hma f4).1.mpr (Or.inl (by rw [f2, hT, abs_zero]; exact hsm))
  have hbase : (handleConflicts c.type v t).baseRgb = (v t).baseRgb := by
    unfold handleConflicts
    cases c.type <;> simp only <;> (try split_ifs) <;> rfl
  obtain ⟨s, hs1, hs2⟩ : ∃ s, (start c v).lights[i]? = some s ∧ Within s.maxRgb (3 / 5) 1 := by
    unfold start
    simp only [List.getElem?_map, ht, Option.map_some]
    refine ⟨_, rfl, ?_⟩
    unfold startLamp
    simp only [hm]
    rw [if_neg (by simp)]
    rw [← hbase] at hu
    exact (minMax_partial _ _ hu).1
  have hT' : (start c v).T + small ≥ (start c v).timer := by rw [f2, f3, hT]; linarith
  have hnf : (start c v).mode ≠ .flashing := by rw [f1, hm]; decide
  have key := transLum_wanted (start c v) hma hT'
  have hlum : ∀ x, x = wanted c → ∀ l : Lamp, Within l.maxRgb (3 / 5) 1 →
      (setState l x).emitting = true ∧ Lit (setState l x).emission := by
    intro x hx l hl
    have h1 := emitting_partial l x hl (Or.inr (by rw [hx]; exact hw))
    have : Lit (setState l x).emission := by
      have hM : (0 : ℝ) < maxLum := by norm_num [maxLum]
      have hxx : (1 / 500 : ℝ) ^ 4 ≤ clamp x 0 maxLum / maxLum := by
        rw [le_div_iff₀ hM]
        unfold clamp
        refine le_min ?_ (le_trans ?_ (le_max_right _ _))
        · norm_num [maxLum]
        · rw [hx]; refine le_trans ?_ hw; norm_num [maxLum]
      have hp := quarter_root_big hxx
      have e : (setState l x).emission.b = l.maxRgb.b * (clamp x 0 maxLum / maxLum) ^ (1 / 4 : ℝ) := rfl
      right; right
      rw [e]
      have := mul_le_mul hl.2.2.1 hp (by norm_num) (by linarith [hl.2.2.1])
      norm_num at this ⊢
      linarith
    exact ⟨h1.mpr this, this⟩
  simp only [run, hend, if_true]
  unfold step
  simp only [if_neg hnf, decide_eq_true hT', if_true]
  simp only [decide_eq_true hT'] at key
  cases ((decide (|(start c v).T - 0| < small) || decide ((start c v).timer > (start c v).T - small)) && !(start c v).transitioned) <;>
  · simp only [if_true, Bool.false_eq_true, if_false, List.getElem?_map, hs1, Option.map_some]
    refine ⟨_, rfl, ?_⟩
    simp only [moveLamp]
    rw [key, f2, if_neg (by simp [hT]), wanted_start]
    apply hlum
    · ring
    · simp only [RGB.mix, mul_one]
      unfold Within at hs2 ⊢
      simp only [add_sub_cancel]
      exact hs2

example (v : LType → Lamp) : ∃ s, (run (start ⟨.fog, .on, none, 0, 1 / 2, 1 / 2, some ⟨1 / 2, 3 / 20, 0⟩⟩ v) [1 / 100]).1.lights[2]? = some s ∧
    s.lamp.emitting = true := by
  obtain ⟨s, h1, h2, _⟩ := switched_on_partial ⟨.fog, .on, none, 0, 1 / 2, 1 / 2, some ⟨1 / 2, 3 / 20, 0⟩⟩ v rfl rfl (1 / 100)
    (by simp [wanted]; norm_num) 2 .fogRear rfl (by norm_num [Usual, Within])
  exact ⟨s, h1, h2⟩

/-- A lamp switched on in a bright colour that is not grey stays dark: its channels get negative
emission, and it is reported as not emitting. -/
theorem switched_on_bright_fails (v : LType → Lamp) (d : ℝ) :
    ∃ s, (run (start ⟨.lowBeam, .on, some 12000, 0, 1 / 2, 1 / 2, some ⟨9 / 10, 7 / 10, 8 / 10⟩⟩ v) [d]).1.lights[0]? = some s ∧
      s.lamp.lum = 12000 ∧ s.lamp.emission = ⟨-1, -1, -1⟩ ∧ s.lamp.emitting = false := by
  have hsm : (0 : ℝ) < small := by norm_num [small]
  set c : Cmd := ⟨.lowBeam, .on, some 12000, 0, 1 / 2, 1 / 2, some ⟨9 / 10, 7 / 10, 8 / 10⟩⟩ with hc
  obtain ⟨f1, f2, f3, f4, _⟩ := start_fields c v
  have hma : (start c v).mode = .on ∨ (start c v).mode = .off := Or.inl rfl
  have hend : (step (start c v) d).2 = true :=
    (step_ends _ d hma f4).1.mpr (Or.inl (by rw [f2, hc, abs_zero]; exact hsm))
  obtain ⟨s, hs1, hs2⟩ : ∃ s, (start c v).lights[0]? = some s ∧ s.maxRgb = ⟨-1, -1, -1⟩ := by
    refine ⟨_, rfl, ?_⟩
    show (minMax ⟨9 / 10, 7 / 10, 8 / 10⟩ ⟨-1, -1, -1⟩).2 = _
    exact minMax_bright_fails _
  obtain ⟨s', g1, g2, g3, g4, g5, g6, g7, g8⟩ := step_moving (start c v) d hma (by rw [f2, f3, hc]; simp; linarith) 0 s hs1
  simp only [run, hend, if_true]
  have hT0 : (start c v).T = 0 := rfl
  have hw : (start c v).wanted = 12000 := by rw [wanted_start]; rfl
  rw [hT0, if_neg (by simp), hw] at g3
  rw [hT0, if_neg (by simp), hs2] at g8
  have hl : s'.lum = 12000 := by rw [g3]; ring
  have hmx : s'.lamp.maxRgb = ⟨-1, -1, -1⟩ := by rw [g8]; simp only [RGB.mix, mul_one, add_sub_cancel]
  -- the lamp is the outcome of `setState`
  obtain ⟨l, x, hlamp⟩ : ∃ l x, s'.lamp = setState l x := by
    have : ∀ (i : Nat) (s : LState), (step (start c v) d).1.lights[i]? = some s → ∃ l x, s.lamp = setState l x := by
      intro i s h
      unfold step at h
      simp only [List.getElem?_map] at h
      obtain ⟨s0, _, h0⟩ := Option.map_eq_some_iff.mp h
      exact ⟨s0.lamp, s0.lum, by rw [← h0]⟩
    exact this 0 s' g1
  have hlx : (setState l x).lum = 12000 := by
    rw [← hlamp, g5, hl]; exact clamp_id _ _ _ (by norm_num) (by norm_num [maxLum])
  have hcx : clamp x 0 maxLum = maxLum := by
    have : (setState l x).lum = clamp x 0 maxLum := rfl
    rw [← this, hlx]; rfl
  have hml : l.maxRgb = ⟨-1, -1, -1⟩ := by
    have : (setState l x).maxRgb = l.maxRgb := rfl
    rw [← this, ← hlamp, hmx]
  have hem : (setState l x).emission = ⟨-1, -1, -1⟩ := by
    show l.maxRgb.map (fun m => m * (clamp x 0 maxLum / maxLum) ^ (1 / 4 : ℝ)) = _
    rw [hcx, div_self (by norm_num [maxLum]), Real.one_rpow, hml]
    simp [RGB.map]
  refine ⟨s', g1, by rw [hlamp, hlx], by rw [hlamp, hem], ?_⟩
  rw [Bool.eq_false_iff]
  intro he
  rw [hlamp] at he
  have := (emitting_iff l x).mp he
  rw [hem] at this
  norm_num at this

end

end Verif.Lights

import Verif.Env.Model
import Mathlib.Analysis.SpecialFunctions.Trigonometric.Bounds
import Mathlib.Tactic.Linarith
import Mathlib.Tactic.Positivity
/-
Theorems about the environment.
-/
namespace Verif.Env
open Real

/-! ### Environment actions -/

/-- A quantity follows the actions: an action that sets it to `v` makes it `g v`, all others keep it. -/
def Follows {τ : Type} (p : Env → Option τ) (g : τ → τ) : Prop :=
  (∀ e n v, p n = some v → p (update e n) = some (g v)) ∧ ∀ e n, p n = none → p (update e n) = p e

/-- Each of the nine quantities follows the actions, and none is changed by an action that sets others only. -/
theorem follows : Follows (·.time) id ∧ Follows (·.pressure) (clamp · 80000 120000) ∧ Follows (·.temperature) (clamp · 170 340) ∧
    Follows (·.cloud) id ∧ Follows (·.sun) (fun s => ⟨clamp s.azimuth 0 (2 * π), clamp s.elevation (-π) π, s.intensity⟩) ∧ Follows (·.fog) id ∧
    Follows (·.precipitation) id ∧ Follows (·.wind) (fun w => ⟨clamp w.direction 0 (2 * π), w.speed⟩) ∧ Follows (·.road) id := by
  refine ⟨⟨?_, ?_⟩, ⟨?_, ?_⟩, ⟨?_, ?_⟩, ⟨?_, ?_⟩, ⟨?_, ?_⟩, ⟨?_, ?_⟩, ⟨?_, ?_⟩, ⟨?_, ?_⟩, ⟨?_, ?_⟩⟩
  all_goals
    intro e n
    obtain ⟨n1, n2, n3, n4, n5, n6, n7, n8, n9⟩ := n
    first
    | (intro v h
       simp only at h
       subst h
       simp only [update]
       repeat' split
       all_goals rfl)
    | (intro h
       simp only at h
       subst h
       simp only [update]
       repeat' split
       all_goals rfl)

/-- **The latest action that sets a quantity decides**, whatever came before and whatever the later actions set. -/
theorem latest {τ : Type} {p : Env → Option τ} {g : τ → τ} (hf : Follows p g) (e : Env) (before after : List Env) {a : Env} {v : τ} (ha : p a = some v)
    (hn : ∀ b ∈ after, p b = none) : p (run e (before ++ a :: after)) = some (g v) := by
  have keep : ∀ (l : List Env) (e : Env), (∀ b ∈ l, p b = none) → p (run e l) = p e := by
    intro l
    induction l with
    | nil => intro e _; rfl
    | cons b l ih =>
      intro e h
      show p (run (update e b) l) = p e
      rw [ih _ (fun c hc => h c (by simp [hc])), hf.2 e b (h b (by simp))]
  rw [run, List.foldl_append, List.foldl_cons]
  show p (run (update (run e before) a) after) = _
  rw [keep after _ hn, hf.1 _ _ _ ha]

/-- **A quantity no action sets stays as it was**. -/
theorem untouched {τ : Type} {p : Env → Option τ} {g : τ → τ} (hf : Follows p g) : ∀ (l : List Env) (e : Env), (∀ b ∈ l, p b = none) → p (run e l) = p e
  | [], _, _ => rfl
  | b :: l, e, h => by
    show p (run (update e b) l) = p e
    rw [untouched hf l _ (fun c hc => h c (by simp [hc])), hf.2 e b (h b (by simp))]

/-- **The limits**: a value inside is kept, and the result is always inside. -/
theorem clamp_spec {x lo hi : ℝ} (h : lo ≤ hi) : lo ≤ clamp x lo hi ∧ clamp x lo hi ≤ hi ∧ (lo ≤ x → x ≤ hi → clamp x lo hi = x) := by
  refine ⟨le_min h (le_max_left _ _), min_le_left _ _, fun h1 h2 => ?_⟩
  rw [clamp, max_eq_right h1, min_eq_right h2]

/-- The elevation of the sun is limited to half a turn, though the warning says a quarter (OSCEnvironment.cpp:218, OSCEnvironment.hpp:27-28): the
angle of a sun beyond the zenith is kept. -/
theorem elevation_fails : ∃ n : Env, ((update {} n).sun.map (·.elevation)) = some π := by
  refine ⟨{ sun := some ⟨0, π, none⟩ }, ?_⟩
  have := (clamp_spec (x := π) (lo := -π) (hi := π) (by linarith [pi_pos])).2.2 (by linarith [pi_pos]) le_rfl
  simp [update, setSun, this]

/-! ### Classes -/

/-- Number of limits below a value. -/
noncomputable def below (limits : List ℝ) (x : ℝ) : Nat := by
  classical exact (limits.filter (fun l => decide (l < x))).length

theorem below_mono (limits : List ℝ) {x y : ℝ} (h : x ≤ y) : below limits x ≤ below limits y := by
  classical
  unfold below
  induction limits with
  | nil => exact le_rfl
  | cons a l ih =>
    by_cases hx : a < x
    · have hy : a < y := lt_of_lt_of_le hx h
      simpa [hx, hy] using ih
    · by_cases hy : a < y
      · simp only [List.filter_cons, hx, hy, decide_false, decide_true, if_true, List.length_cons]
        exact Nat.le_succ_of_le (by simpa using ih)
      · simpa [hx, hy] using ih

/-- The limits of fog in metres, of precipitation in mm/h and of illumination in lux, as the OSI interface documents them. -/
def fogLimits : List ℝ := [50, 200, 1000, 2000, 4000, 10000, 40000]
noncomputable def rainLimits : List ℝ := [1 / 10, 1 / 2, 19 / 10, 81 / 10, 34, 149]
noncomputable def lightLimits : List ℝ := [0, 1 / 100, 1, 3, 10, 20, 400, 1000, 10000]

theorem below_cons (a : ℝ) (l : List ℝ) (x : ℝ) : below (a :: l) x = (if a < x then 1 else 0) + below l x := by
  unfold below
  by_cases h : a < x
  · simp [h, Nat.add_comm]
  · simp [h]

/-- The number of limits below a value, from the place of the value among the limits. -/
theorem below_split {x : ℝ} : ∀ {l : List ℝ} {k : Nat}, (∀ a ∈ l.take k, a < x) → (∀ b ∈ l.drop k, x ≤ b) → below l x = (l.take k).length
  | [], k, _, _ => by simp [below]
  | a :: l, 0, _, h2 => by
    rw [below_cons, if_neg (not_lt.2 (h2 a (by simp))), below_split (l := l) (k := 0) (by simp) (fun b hb => h2 b (by simpa using Or.inr hb))]
    rfl
  | a :: l, k + 1, h1, h2 => by
    rw [below_cons, if_pos (h1 a (by simp)), below_split (l := l) (k := k) (fun b hb => h1 b (by simp [hb])) (fun b hb => h2 b (by simpa using hb))]
    simp [Nat.add_comm]

theorem fogClass_eq {x : ℝ} (h : 0 ≤ x) : fogClass x = below fogLimits x + 1 := by
  have key := fun k => below_split (x := x) (l := fogLimits) (k := k)
  unfold fogClass
  split_ifs
  · rw [key 7 (by simp [fogLimits] <;> grind) (by simp [fogLimits] <;> grind)]
    rfl
  · rw [key 6 (by simp [fogLimits] <;> grind) (by simp [fogLimits] <;> grind)]
    rfl
  · rw [key 5 (by simp [fogLimits] <;> grind) (by simp [fogLimits] <;> grind)]
    rfl
  · rw [key 4 (by simp [fogLimits] <;> grind) (by simp [fogLimits] <;> grind)]
    rfl
  · rw [key 3 (by simp [fogLimits] <;> grind) (by simp [fogLimits] <;> grind)]
    rfl
  · rw [key 2 (by simp [fogLimits] <;> grind) (by simp [fogLimits] <;> grind)]
    rfl
  · rw [key 1 (by simp [fogLimits] <;> grind) (by simp [fogLimits] <;> grind)]
    rfl
  · rw [key 0 (by simp [fogLimits] <;> grind) (by simp [fogLimits] <;> grind)]
    rfl

theorem rainClass_eq {x : ℝ} (h : 0 ≤ x) : rainClass x = below rainLimits x + 1 := by
  have key := fun k => below_split (x := x) (l := rainLimits) (k := k)
  unfold rainClass
  split_ifs
  · rw [key 6 (by simp [rainLimits] <;> grind) (by simp [rainLimits] <;> grind)]
    rfl
  · rw [key 5 (by simp [rainLimits] <;> grind) (by simp [rainLimits] <;> grind)]
    rfl
  · rw [key 4 (by simp [rainLimits] <;> grind) (by simp [rainLimits] <;> grind)]
    rfl
  · rw [key 3 (by simp [rainLimits] <;> grind) (by simp [rainLimits] <;> grind)]
    rfl
  · rw [key 2 (by simp [rainLimits] <;> grind) (by simp [rainLimits] <;> grind)]
    rfl
  · rw [key 1 (by simp [rainLimits] <;> grind) (by simp [rainLimits] <;> grind)]
    rfl
  · rw [key 0 (by simp [rainLimits] <;> grind) (by simp [rainLimits] <;> grind)]
    rfl

theorem lightClass_eq (x : ℝ) : lightClass x = below lightLimits x := by
  have key := fun k => below_split (x := x) (l := lightLimits) (k := k)
  unfold lightClass
  split_ifs
  · rw [key 9 (by simp [lightLimits] <;> grind) (by simp [lightLimits] <;> grind)]
    rfl
  · rw [key 8 (by simp [lightLimits] <;> grind) (by simp [lightLimits] <;> grind)]
    rfl
  · rw [key 7 (by simp [lightLimits] <;> grind) (by simp [lightLimits] <;> grind)]
    rfl
  · rw [key 6 (by simp [lightLimits] <;> grind) (by simp [lightLimits] <;> grind)]
    rfl
  · rw [key 5 (by simp [lightLimits] <;> grind) (by simp [lightLimits] <;> grind)]
    rfl
  · rw [key 4 (by simp [lightLimits] <;> grind) (by simp [lightLimits] <;> grind)]
    rfl
  · rw [key 3 (by simp [lightLimits] <;> grind) (by simp [lightLimits] <;> grind)]
    rfl
  · rw [key 2 (by simp [lightLimits] <;> grind) (by simp [lightLimits] <;> grind)]
    rfl
  · rw [key 1 (by simp [lightLimits] <;> grind) (by simp [lightLimits] <;> grind)]
    rfl
  · rw [key 0 (by simp [lightLimits] <;> grind) (by simp [lightLimits] <;> grind)]
    rfl

/-- **The classes reported** for fog, precipitation and illumination are those of the limits, and never fall when the quantity rises. -/
theorem classes {x : ℝ} (h : 0 ≤ x) :
    fogClass x = below fogLimits x + 1 ∧ rainClass x = below rainLimits x + 1 ∧ lightClass (sunIntensity x) = below lightLimits x ∧
    ∀ y, x ≤ y → fogClass x ≤ fogClass y ∧ rainClass x ≤ rainClass y ∧ lightClass (sunIntensity x) ≤ lightClass (sunIntensity y) := by
  have hs : ∀ y : ℝ, 0 ≤ y → sunIntensity y = y := fun y hy => if_neg (not_lt.2 hy)
  refine ⟨fogClass_eq h, rainClass_eq h, by rw [hs x h, lightClass_eq], fun y hy => ?_⟩
  have h' := le_trans h hy
  rw [fogClass_eq h, fogClass_eq h', rainClass_eq h, rainClass_eq h', hs x h, hs y h', lightClass_eq, lightClass_eq]
  exact ⟨Nat.succ_le_succ (below_mono _ hy), Nat.succ_le_succ (below_mono _ hy), below_mono _ hy⟩

/-- Negative values are reported as "other"; the sun cannot be negative. -/
theorem classes_negative {x : ℝ} (h : x < 0) : fogClass x = 0 ∧ rainClass x = 0 ∧ lightClass (sunIntensity x) = 0 := by
  refine ⟨?_, ?_, ?_⟩
  · unfold fogClass
    split_ifs <;> first | rfl | (exfalso; linarith)
  · unfold rainClass
    split_ifs <;> first | rfl | (exfalso; norm_num at *; linarith)
  · rw [sunIntensity, if_pos h]
    unfold lightClass
    split_ifs <;> first | rfl | (exfalso; norm_num at *)

/-! ### Factors -/

/-- **The daylight factor** is between 0 and 1, 1 at noon, 0 at midnight, symmetric about noon, and rises until noon. -/
theorem dayFactor_spec : (∀ s, 0 ≤ dayFactor s ∧ dayFactor s ≤ 1) ∧ dayFactor 43200 = 1 ∧ dayFactor 0 = 0 ∧ dayFactor 86400 = 0 ∧
    (∀ s, dayFactor (86400 - s) = dayFactor s) ∧ ∀ s t, 0 ≤ s → s < t → t ≤ 43200 → dayFactor s < dayFactor t := by
  have e : ∀ s, dayFactor s = 0.5 * (cos (π - s / 86400 * 2 * π) + 1) := by
    intro s
    rw [dayFactor, ← cos_neg]
    congr 3
    ring
  refine ⟨fun s => ?_, ?_, ?_, ?_, fun s => ?_, fun s t h0 hst ht => ?_⟩
  · rw [e]
    have h1 := neg_one_le_cos (π - s / 86400 * 2 * π)
    have h2 := cos_le_one (π - s / 86400 * 2 * π)
    constructor <;> linarith
  · rw [e, show π - 43200 / 86400 * 2 * π = 0 by ring, cos_zero]
    norm_num
  · rw [e, show π - 0 / 86400 * 2 * π = π by ring, cos_pi]
    norm_num
  · rw [e, show π - 86400 / 86400 * 2 * π = -π by ring, cos_neg, cos_pi]
    norm_num
  · rw [e, e, show π - (86400 - s) / 86400 * 2 * π = -(π - s / 86400 * 2 * π) by ring, cos_neg]
  · rw [e, e]
    have hp := pi_pos
    have : cos (π - s / 86400 * 2 * π) < cos (π - t / 86400 * 2 * π) := by
      apply cos_lt_cos_of_nonneg_of_le_pi
      · have : t / 86400 * 2 * π ≤ 1 * π := by
          apply mul_le_mul_of_nonneg_right _ hp.le
          linarith
        linarith
      · have : 0 ≤ s / 86400 * 2 * π := by positivity
        linarith
      · have : s / 86400 * 2 * π < t / 86400 * 2 * π := by
          apply mul_lt_mul_of_pos_right _ hp
          linarith
        linarith
    linarith

/-- **All factors recorded are between 0 and 1** (the fog factor for a visual range that is not negative). -/
theorem factors_range (e : Env) (hf : ∀ x, e.fog = some x → 0 ≤ x) :
    (0 ≤ cloudFactor e ∧ cloudFactor e ≤ 1) ∧ (0 ≤ fogFactor e ∧ fogFactor e ≤ 1) ∧ 0 ≤ sunFactor e ∧ sunFactor e ≤ 1 := by
  refine ⟨?_, ?_, ?_⟩
  · unfold cloudFactor
    split
    · norm_num
    · split_ifs <;> norm_num
  · unfold fogFactor
    split
    · rename_i x hx
      have := hf x hx
      constructor
      · positivity
      · rw [div_le_one (by linarith)]
        linarith
    · norm_num
  · unfold sunFactor
    split
    · rename_i i _
      obtain ⟨h1, h2, _⟩ := clamp_spec (x := sunIntensity i) (lo := 0) (hi := 100000) (by norm_num)
      constructor
      · rw [sub_zero, sub_zero]
        positivity
      · rw [sub_zero, sub_zero, div_le_one (by norm_num)]
        exact h2
    · split
      · exact dayFactor_spec.1 _
      · norm_num

end Verif.Env

import Verif.Sync.Model
import Mathlib.Tactic.Linarith
import Mathlib.Tactic.Ring
import Mathlib.Tactic.FieldSimp
import Mathlib.Tactic.LinearCombination
import Mathlib.Tactic.NormNum
import Mathlib.Tactic.Positivity
/-
Properties of the synchronize action: the profile with two phases, arrival together with the master, waiting, restart.
-/
namespace Verif.Sync

open Real

theorem small_pos : (0 : ℝ) < small := by norm_num [small]

/-! The profile with two phases -/

/-- Spec: from speed `v0` with acceleration `acc` for the time `x` up to the speed `vx`, then with the opposite acceleration to speed `v1`,
covers the distance `s` in the time `t`. -/
structure TwoPhases (s t v0 v1 x vx acc : ℝ) : Prop where
  pos : 0 < x
  lt : x < t
  first : vx = v0 + acc * x
  second : v1 = vx - acc * (t - x)
  way : (v0 + vx) / 2 * x + (vx + v1) / 2 * (t - x) = s

theorem term_sq (s t v0 v1 : ℝ) :
    0 ≤ term s t v0 v1 ∧ term s t v0 v1 ^ 2 = 2 * ((v1 * t - s) ^ 2 + (v0 * t - s) ^ 2) := by
  constructor
  · exact mul_nonneg (sqrt_nonneg _) (sqrt_nonneg _)
  · unfold term
    have h : 2 * s * s - 2 * (v1 + v0) * t * s + (v1 * v1 + v0 * v0) * t * t = (v1 * t - s) ^ 2 + (v0 * t - s) ^ 2 := by ring
    rw [mul_pow, sq_sqrt (by norm_num), h, sq_sqrt (by positivity)]

/-- The equations for the root `w` (`term` or `-term`). -/
theorem phases_of (s t v0 v1 w : ℝ) (ht : 0 < t) (hv : v1 - v0 ≠ 0)
    (hw : w ^ 2 = 2 * ((v1 * t - s) ^ 2 + (v0 * t - s) ^ 2))
    (h0 : 0 < (2 * v1 * t - 2 * s - w) / (2 * (v1 - v0))) (h1 : (2 * v1 * t - 2 * s - w) / (2 * (v1 - v0)) < t) :
    TwoPhases s t v0 v1 ((2 * v1 * t - 2 * s - w) / (2 * (v1 - v0))) ((2 * s - w) / (2 * t))
      (((2 * s - w) / (2 * t) - v0) / ((2 * v1 * t - 2 * s - w) / (2 * (v1 - v0)))) := by
  set x := (2 * v1 * t - 2 * s - w) / (2 * (v1 - v0)) with hx
  have ex : 2 * (v1 - v0) * x = 2 * v1 * t - 2 * s - w := by
    rw [hx]
    field_simp
  set vx := (2 * s - w) / (2 * t) with hvx
  have ev : 2 * t * vx = 2 * s - w := by
    rw [hvx]
    field_simp
  have hxn : x ≠ 0 := h0.ne'
  -- the accelerations agree
  have hsym : (vx - v0) * (t - x) = (vx - v1) * x := by
    have k : (v1 - v0) * (2 * t) * ((vx - v0) * (t - x) - (vx - v1) * x) * 2 = 0 := by
      have e : (v1 - v0) * (2 * t) * ((vx - v0) * (t - x) - (vx - v1) * x) * 2 =
          (2 * t * vx) * (2 * (v1 - v0) * t - 2 * (2 * (v1 - v0) * x)) - 2 * t * v0 * (2 * (v1 - v0) * t - 2 * (v1 - v0) * x)
            + 2 * t * v1 * (2 * (v1 - v0) * x) := by ring
      rw [e, ev, ex]
      linear_combination -2 * hw
    have k2 : (v1 - v0) * (2 * t) * ((vx - v0) * (t - x) - (vx - v1) * x) = 0 := by linarith
    rcases mul_eq_zero.mp k2 with h | h
    · rcases mul_eq_zero.mp h with h | h
      · exact absurd h hv
      · exact absurd h (by positivity)
    · linarith
  have hacc : (vx - v0) / x * x = vx - v0 := by field_simp
  refine ⟨h0, h1, by rw [hacc]; ring, ?_, ?_⟩
  · have : (vx - v0) / x * (t - x) = vx - v1 := by
      rw [div_mul_eq_mul_div, hsym]
      field_simp
    rw [this]
    ring
  · have : 2 * t * vx = 2 * (2 * s - w) / 2 := by linarith
    nlinarith

theorem x1_eq (s t v0 v1 : ℝ) : x1 s t v0 v1 = (2 * v1 * t - 2 * s - term s t v0 v1) / (2 * (v1 - v0)) := by
  unfold x1
  congr 1
  ring

theorem x2_eq (s t v0 v1 : ℝ) : x2 s t v0 v1 = (2 * v1 * t - 2 * s - -term s t v0 v1) / (2 * (v1 - v0)) := by
  unfold x2
  congr 1
  ring

theorem div_neg_pos (a b : ℝ) (hb : b < 0) : 0 < a / b ↔ a < 0 := by
  rw [div_pos_iff]
  constructor
  · rintro (⟨_, h⟩ | ⟨h, _⟩)
    · linarith
    · exact h
  · exact fun h => Or.inr ⟨h, hb⟩

theorem root_bounds (a b w : ℝ) (hn : 0 ≤ w) (hq : w ^ 2 = 2 * (a ^ 2 + b ^ 2)) (h : b < a) (hs : 0 < a + b) :
    w < 2 * a ∧ 2 * b < w := by
  have hp : 0 < (a - b) * (a + b) := mul_pos (by linarith) hs
  constructor
  · by_contra hc
    have hc := not_lt.mp hc
    have : (2 * a) ^ 2 ≤ w ^ 2 := pow_le_pow_left₀ (by linarith) hc 2
    nlinarith
  · by_contra hc
    have hc := not_lt.mp hc
    have : w ^ 2 ≤ (2 * b) ^ 2 := pow_le_pow_left₀ hn hc 2
    nlinarith

/-- Which root is in the time span. -/
theorem x1_span (s t v0 v1 : ℝ) (ht : 0 < t) (hv : v0 ≠ v1) :
    (0 < x1 s t v0 v1 ∧ x1 s t v0 v1 < t) ↔ s < (v0 + v1) / 2 * t := by
  obtain ⟨hn, hq⟩ := term_sq s t v0 v1
  rw [x1_eq]
  generalize term s t v0 v1 = w at hn hq
  rcases lt_or_gt_of_ne hv with h | h
  · have hd : 0 < 2 * (v1 - v0) := by linarith
    rw [div_pos_iff_of_pos_right hd, div_lt_iff₀ hd]
    constructor
    · rintro ⟨h1, h2⟩
      nlinarith
    · intro hs
      have hm := mul_lt_mul_of_pos_right h ht
      obtain ⟨r1, r2⟩ := root_bounds (v1 * t - s) (v0 * t - s) w hn hq (by linarith) (by linarith)
      constructor <;> linarith
  · have hd : 2 * (v1 - v0) < 0 := by linarith
    rw [div_neg_pos _ _ hd, div_lt_iff_of_neg hd]
    constructor
    · rintro ⟨h1, h2⟩
      nlinarith
    · intro hs
      have hm := mul_lt_mul_of_pos_right h ht
      obtain ⟨r1, r2⟩ := root_bounds (v0 * t - s) (v1 * t - s) w hn (by linarith) (by linarith) (by linarith)
      constructor <;> linarith

theorem x2_span (s t v0 v1 : ℝ) (ht : 0 < t) (hv : v0 ≠ v1) :
    (0 < x2 s t v0 v1 ∧ x2 s t v0 v1 < t) ↔ (v0 + v1) / 2 * t < s := by
  obtain ⟨hn, hq⟩ := term_sq s t v0 v1
  rw [x2_eq]
  generalize term s t v0 v1 = w at hn hq
  rcases lt_or_gt_of_ne hv with h | h
  · have hd : 0 < 2 * (v1 - v0) := by linarith
    rw [div_pos_iff_of_pos_right hd, div_lt_iff₀ hd]
    constructor
    · rintro ⟨h1, h2⟩
      nlinarith
    · intro hs
      have hm := mul_lt_mul_of_pos_right h ht
      obtain ⟨r1, r2⟩ := root_bounds (s - v0 * t) (s - v1 * t) w hn (by linarith) (by linarith) (by linarith)
      constructor <;> linarith
  · have hd : 2 * (v1 - v0) < 0 := by linarith
    rw [div_neg_pos _ _ hd, div_lt_iff_of_neg hd]
    constructor
    · rintro ⟨h1, h2⟩
      nlinarith
    · intro hs
      have hm := mul_lt_mul_of_pos_right h ht
      obtain ⟨r1, r2⟩ := root_bounds (s - v1 * t) (s - v0 * t) w hn (by linarith) (by linarith) (by linarith)
      constructor <;> linarith

/-- The acceleration and the speed at the apex are those of a profile with two phases that covers the distance in the
time of the master and ends with the final speed; the roots are real and exactly one of them is in the time span. There is no such profile to be found
if constant acceleration does it. -/
theorem apex_profile (s t v0 v1 : ℝ) (ht : 0 < t) (hv : small ≤ |v1 - v0|) (hs : s ≠ (v0 + v1) / 2 * t) :
    ∃ x, TwoPhases s t v0 v1 x (apex s t v0 v1).1 (apex s t v0 v1).2 := by
  have hne : v0 ≠ v1 := by
    rintro rfl
    rw [sub_self, abs_zero] at hv
    linarith [small_pos]
  have hd : v1 - v0 ≠ 0 := sub_ne_zero.mpr hne.symm
  obtain ⟨hn, hq⟩ := term_sq s t v0 v1
  unfold apex
  rw [if_neg (not_lt.mpr hv)]
  rcases lt_or_gt_of_ne hs with h | h
  · have hx := (x1_span s t v0 v1 ht hne).mpr h
    rw [if_pos hx]
    refine ⟨x1 s t v0 v1, ?_⟩
    rw [x1_eq] at hx ⊢
    exact phases_of s t v0 v1 _ ht hd hq hx.1 hx.2
  · have hx := (x2_span s t v0 v1 ht hne).mpr h
    have hx1 : ¬ (x1 s t v0 v1 > 0 ∧ x1 s t v0 v1 < t) := by
      intro h'
      have := (x1_span s t v0 v1 ht hne).mp h'
      linarith
    rw [if_neg hx1, if_pos hx]
    refine ⟨x2 s t v0 v1, ?_⟩
    rw [x2_eq] at hx ⊢
    have := phases_of s t v0 v1 (-term s t v0 v1) ht hd (by rw [neg_sq]; exact hq) hx.1 hx.2
    simpa only [vx2, sub_neg_eq_add] using this

/-- With (nearly) equal speeds at both ends the profile is exact but for the difference of the speeds. -/
theorem apex_profile_equal (s t v : ℝ) (ht : 0 < t) :
    TwoPhases s t v v (t / 2) (apex s t v v).1 (apex s t v v).2 := by
  unfold apex
  rw [if_pos (by rw [sub_self, abs_zero]; exact small_pos)]
  refine ⟨by linarith, by linarith, ?_, ?_, ?_⟩
  · simp only
    field_simp
    ring
  · simp only
    field_simp
    ring
  · simp only
    field_simp
    ring

/-- Such a profile starts with acceleration if the distance is longer than with constant acceleration, and with
deceleration if it is shorter. -/
theorem phases_direction (s t v0 v1 x vx acc : ℝ) (h : TwoPhases s t v0 v1 x vx acc) :
    (0 < acc ↔ (v0 + v1) / 2 * t < s) ∧ (acc < 0 ↔ s < (v0 + v1) / 2 * t) := by
  obtain ⟨p, l, f, g, w⟩ := h
  have key : s - (v0 + v1) / 2 * t = acc * (x * (t - x)) := by
    have e1 : v0 = vx - acc * x := by linarith
    rw [← w, g, e1]
    ring
  have hp : 0 < x * (t - x) := mul_pos p (by linarith)
  constructor
  · constructor
    · intro h
      have := mul_pos h hp
      linarith
    · intro h
      by_contra hc
      have := mul_nonpos_of_nonpos_of_nonneg (not_lt.mp hc) hp.le
      linarith
  · constructor
    · intro h
      have := mul_neg_of_neg_of_pos h hp
      linarith
    · intro h
      by_contra hc
      have := mul_nonneg (not_lt.mp hc) hp.le
      linarith

/-- There is only one such profile. -/
theorem phases_unique (s t v0 v1 x vx acc x' vx' acc' : ℝ) (hs : s ≠ (v0 + v1) / 2 * t)
    (h : TwoPhases s t v0 v1 x vx acc) (h' : TwoPhases s t v0 v1 x' vx' acc') : acc = acc' ∧ x = x' ∧ vx = vx' := by
  have d := phases_direction s t v0 v1 x vx acc h
  have d' := phases_direction s t v0 v1 x' vx' acc' h'
  obtain ⟨p, l, f, g, w⟩ := h
  obtain ⟨p', l', f', g', w'⟩ := h'
  have ht : 0 < t := lt_trans p l
  have q : acc * (2 * x - t) = v1 - v0 := by linarith
  have q' : acc' * (2 * x' - t) = v1 - v0 := by linarith
  have k : s - (v0 + v1) / 2 * t = acc * (x * (t - x)) := by
    have e1 : v0 = vx - acc * x := by linarith
    rw [← w, g, e1]
    ring
  have k' : s - (v0 + v1) / 2 * t = acc' * (x' * (t - x')) := by
    have e1 : v0 = vx' - acc' * x' := by linarith
    rw [← w', g', e1]
    ring
  have e : acc ^ 2 * t ^ 2 - (v1 - v0) ^ 2 = 4 * (s - (v0 + v1) / 2 * t) * acc := by
    rw [← q, k]
    ring
  have e' : acc' ^ 2 * t ^ 2 - (v1 - v0) ^ 2 = 4 * (s - (v0 + v1) / 2 * t) * acc' := by
    rw [← q', k']
    ring
  have hprod : 0 < acc * acc' := by
    rcases lt_or_gt_of_ne hs with h | h
    · exact mul_pos_of_neg_of_neg (d.2.mpr h) (d'.2.mpr h)
    · exact mul_pos (d.1.mpr h) (d'.1.mpr h)
  have ha : acc = acc' := by
    have hf : (acc - acc') * ((acc + acc') * t ^ 2 - 4 * (s - (v0 + v1) / 2 * t)) = 0 := by linear_combination e - e'
    rcases mul_eq_zero.mp hf with h | h
    · linarith
    · exfalso
      have : acc * acc' * t ^ 2 = -(v1 - v0) ^ 2 := by linear_combination acc * h - e
      have := mul_pos hprod (pow_pos ht 2)
      nlinarith [sq_nonneg (v1 - v0)]
  have hne : acc ≠ 0 := by
    rintro rfl
    simp at hprod
  have hx : x = x' := by
    rw [← ha] at q'
    have : acc * (x - x') = 0 := by linarith
    rcases mul_eq_zero.mp this with h | h
    · exact absurd h hne
    · linarith
  refine ⟨ha, hx, ?_⟩
  rw [f, f', ha, hx]

/-- The first step (or the first one after waiting) changes the speed by the acceleration of the profile with two phases that brings the entity to its destination
together with the master, if that profile needs no stop. -/
theorem first_step (v1 dist time dt : ℝ) (s : Sync) (hm : s.mode = .none ∨ (s.mode = .waiting ∧ time < large)) (ht : 0 < time)
    (hv : small ≤ |v1 - s.speed|) (hs : dist ≠ (s.speed + v1) / 2 * time) (hvx : 0 ≤ (apex dist time s.speed v1).1) :
    ∃ x vx acc, TwoPhases dist time s.speed v1 x vx acc ∧
      (withFinal v1 dist time dt s.speed s).speed = s.speed + acc * dt ∧
      (withFinal v1 dist time dt s.speed s).mode = .nonLinear := by
  obtain ⟨x, hx⟩ := apex_profile dist time s.speed v1 ht hv hs
  refine ⟨x, _, _, hx, ?_⟩
  obtain ⟨d1, d2⟩ := phases_direction _ _ _ _ _ _ _ hx
  have key : ∀ q : Sync, q.speed = s.speed → q.mode = .none →
      (curved v1 dist time dt s.speed (enter v1 dist time q)).speed = s.speed + (apex dist time s.speed v1).2 * dt ∧
      (curved v1 dist time dt s.speed (enter v1 dist time q)).mode = .nonLinear := by
    intro q hq hqm
    have he : enter v1 dist time q =
        { q with mode := .nonLinear, sub := if (v1 + s.speed) / 2 < dist / time then .convex else .concave } := by
      unfold enter
      rw [if_pos hqm, hq]
    have hnt : ¬ turned (enter v1 dist time q) (apex dist time s.speed v1).2 := by
      rw [he]
      rintro ⟨_, h⟩
      simp only at h
      have hiff : (v1 + s.speed) / 2 < dist / time ↔ (v1 + s.speed) / 2 * time < dist := lt_div_iff₀ ht
      by_cases hc : (v1 + s.speed) / 2 < dist / time
      · have hc' := hiff.mp hc
        rw [if_pos hc] at h
        rcases h with ⟨h, _⟩ | ⟨_, h⟩
        · simp at h
        · have := d1.mpr (by linarith)
          linarith
      · rw [if_neg hc] at h
        rcases h with ⟨_, h⟩ | ⟨h, _⟩
        · have := d1.mp h
          exact hc (hiff.mpr (by linarith))
        · simp at h
    unfold curved
    rw [if_neg hnt, if_neg (by rintro ⟨_, h⟩; linarith), he]
    simp [hq]
  rcases hm with h | ⟨h, hl⟩
  · unfold withFinal
    simp only [h]
    exact key s rfl h
  · unfold withFinal
    simp only [h]
    rw [if_neg (not_le.mpr hl)]
    exact key (wake s) (by unfold wake; split <;> rfl) (by unfold wake; rw [if_pos h])

/-! Arrival together with the master -/

/-- Spec: the action with entity and master that move on after each step: distances of entity and master to their destinations, and the action.
The master has the speed `v`. -/
noncomputable def ride (c : Cfg) (v dt dist master : ℝ) (s : Sync) : Nat → ℝ × ℝ × Sync
  | 0 => (dist, master, s)
  | n + 1 =>
    let r := ride c v dt dist master s n
    let s' := step c ⟨|r.1|, |r.2.1|, v, r.2.2.speed⟩ dt r.2.2
    (r.1 - s'.speed * dt, r.2.1 - v * dt, s')

theorem ride_succ (c : Cfg) (v dt dist master : ℝ) (s : Sync) (n : Nat) :
    ride c v dt dist master s (n + 1) =
      ((ride c v dt dist master s n).1 - (step c ⟨|(ride c v dt dist master s n).1|, |(ride c v dt dist master s n).2.1|, v,
        (ride c v dt dist master s n).2.2.speed⟩ dt (ride c v dt dist master s n).2.2).speed * dt,
       (ride c v dt dist master s n).2.1 - v * dt,
       step c ⟨|(ride c v dt dist master s n).1|, |(ride c v dt dist master s n).2.1|, v,
        (ride c v dt dist master s n).2.2.speed⟩ dt (ride c v dt dist master s n).2.2) := rfl

/-- The settings with a final speed and a steady state of `ss` (0 if there is none) that takes the time `tt`. -/
def SteadyIs (c : Cfg) (v1 ss tt : ℝ) : Prop :=
  (c.steady = none ∧ ss = 0 ∧ tt = 0) ∨ (c.steady = some ss ∧ ss = v1 * tt)

theorem not_done (c : Cfg) (s : Sync) (i : Seen) (dt : ℝ) (h1 : c.tol + small ≤ i.dist) (h2 : c.tolMaster + small ≤ i.master)
    (h3 : i.dist ≤ s.lastDist) (h4 : i.master ≤ s.lastMaster) (h5 : dt ≤ masterTime c i) : ¬ done c s i dt := by
  rintro ((h | h | h | h) | ⟨_, h⟩) <;> linarith

theorem masterTime_eq (c : Cfg) (i : Seen) (T : ℝ) (hv : small < i.masterSpeed) (hm : i.master = c.tolMaster + i.masterSpeed * T)
    (hs : small ≤ i.masterSpeed * T) : masterTime c i = T := by
  have hp : 0 < i.masterSpeed := lt_trans small_pos hv
  unfold masterTime masterRest
  rw [if_pos hv, hm, add_sub_cancel_left, max_eq_left hs]
  field_simp

theorem rest_eq (c : Cfg) (i : Seen) (r : ℝ) (h : i.dist = c.tol + r) (hr : small ≤ r) : rest c i = r := by
  unfold rest
  rw [h, add_sub_cancel_left, max_eq_left hr]

/-- A step of the linear profile: `r` and `T` are the distance and time left up to the steady state. -/
theorem step_linear (c : Cfg) (v1 ss tt dt : ℝ) (s : Sync) (i : Seen) (r T : ℝ) (hc : c.final = some v1)
    (hss : SteadyIs c v1 ss tt) (hv1 : 0 < v1) (hm : s.mode = .linear) (htt : 0 ≤ tt)
    (hd : i.dist = c.tol + (r + ss)) (hmd : i.master = c.tolMaster + i.masterSpeed * (T + tt)) (hv : small < i.masterSpeed)
    (hr : 1 / 1000 ≤ r) (hT : dt ≤ T) (hdt : 1 / 1000 ≤ dt) (hTs : small ≤ i.masterSpeed * dt) (hTl : T + tt ≤ large - 1)
    (hl1 : i.dist ≤ s.lastDist) (hl2 : i.master ≤ s.lastMaster) :
    step c i dt s = ⟨.linear, s.sub, i.dist, i.master, max 0 (2 * r / T - v1), s.ended⟩ := by
  have hsm : small ≤ 1 / 1000 := by norm_num [small]
  have hp : 0 < i.masterSpeed := lt_trans small_pos hv
  have hss0 : 0 ≤ ss := by
    rcases hss with h | h
    · rw [h.2.1]
    · rw [h.2]; exact mul_nonneg hv1.le htt
  have hTt : small ≤ i.masterSpeed * (T + tt) :=
    le_trans hTs (mul_le_mul_of_nonneg_left (by linarith) hp.le)
  have e1 := masterTime_eq c i (T + tt) hv hmd hTt
  have e2 := rest_eq c i (r + ss) hd (by linarith)
  have hnd : ¬ done c s i dt := not_done c s i dt (by rw [hd]; linarith) (by rw [hmd]; linarith) hl1 hl2 (by rw [e1]; linarith)
  unfold step
  rw [if_neg hnd]
  unfold going
  rw [hc]
  simp only [e1, e2]
  have ha : await s i = { s with lastDist := i.dist, lastMaster := i.master } := by
    unfold await
    rw [if_pos hv]
  have hto : toSteady c v1 (await s i) (r + ss) (T + tt) = (await s i, r, T) := by
    unfold toSteady
    rcases hss with ⟨h1, h2, h3⟩ | ⟨h1, h2⟩
    · rw [h1, h2, h3, add_zero, add_zero]
    · rw [h1]
      have hmode : (await s i).mode ≠ .steady := by rw [ha]; simp [hm]
      have hq : ss / v1 = tt := by rw [h2]; field_simp
      have hns : ¬ steadyNow ss v1 (r + ss) (T + tt) := by
        rintro (h | h | h)
        · linarith
        · exact hv1.ne' h
        · rw [hq] at h
          linarith
      simp only [if_neg hmode, if_neg hns, hq, add_sub_cancel_right]
  rw [hto]
  have hmode : (await s i).mode = .linear := by rw [ha]; exact hm
  unfold withFinal
  simp only [hmode]
  unfold straight linearSpeed
  rw [if_neg (by intro h; linarith), max_eq_right hv1.le, if_neg (by rintro (h | h) <;> linarith), ha]

/-- The linear profile in closed form; `a` is half of the change of the distance covered from one step to the next. -/
theorem ride_linear (c : Cfg) (v1 ss tt v dt a dist master : ℝ) (s : Sync) (N : Nat) (hc : c.final = some v1)
    (hss : SteadyIs c v1 ss tt) (htt : 0 ≤ tt) (hdt : 1 / 1000 ≤ dt) (hv1 : 1 / 500 ≤ v1 * dt) (hv : small < v) (hvd : small ≤ v * dt)
    (htol : 0 ≤ c.tol) (htolM : 0 ≤ c.tolMaster) (hs : s.mode = .linear) (he : s.ended = false)
    (hd : dist = c.tol + (a * N * (N - 1) + v1 * (N * dt) + ss)) (hm : master = c.tolMaster + v * (N * dt + tt))
    (hl1 : dist ≤ s.lastDist) (hl2 : master ≤ s.lastMaster) (ha : 0 ≤ 2 * a * (N - 1) / dt + v1)
    (hlarge : N * dt + tt ≤ large - 1) (n : Nat) (hn : n ≤ N) :
    (ride c v dt dist master s n).1 = c.tol + (a * (N - n) * (N - n - 1) + v1 * ((N - n) * dt) + ss) ∧
    (ride c v dt dist master s n).2.1 = c.tolMaster + v * ((N - n) * dt + tt) ∧
    (ride c v dt dist master s n).2.2.mode = .linear ∧ (ride c v dt dist master s n).2.2.ended = false ∧
    (ride c v dt dist master s n).1 ≤ (ride c v dt dist master s n).2.2.lastDist ∧
    (ride c v dt dist master s n).2.1 ≤ (ride c v dt dist master s n).2.2.lastMaster ∧
    (0 < n → (ride c v dt dist master s n).2.2.speed = 2 * a * (N - n) / dt + v1) := by
  have hdp : 0 < dt := by linarith
  have hv1p : 0 < v1 := by
    by_contra h
    have := mul_nonpos_of_nonpos_of_nonneg (not_lt.mp h) hdp.le
    linarith
  have hvp : 0 < v := lt_trans small_pos hv
  have hss0 : 0 ≤ ss := by
    rcases hss with h | h
    · rw [h.2.1]
    · rw [h.2]; exact mul_nonneg hv1p.le htt
  induction n with
  | zero =>
    simp only [ride, Nat.cast_zero, sub_zero]
    exact ⟨hd, hm, hs, he, hl1, hl2, fun h => absurd h (lt_irrefl _)⟩
  | succ n ih =>
    obtain ⟨i1, i2, i3, i4, i5, i6, _⟩ := ih (by omega)
    have hm1 : (1 : ℝ) ≤ (N : ℝ) - n := by
      have : (n : ℝ) + 1 ≤ N := by exact_mod_cast hn
      linarith
    have hmN : (N : ℝ) - n ≤ N := by
      have : (0 : ℝ) ≤ n := Nat.cast_nonneg n
      linarith
    have hlg : ((N : ℝ) - n) * dt + tt ≤ large - 1 := by
      have := mul_le_mul_of_nonneg_right hmN hdp.le
      linarith
    push_cast
    set m : ℝ := (N : ℝ) - n with hmdef
    have hsub : (N : ℝ) - (n + 1) = m - 1 := by rw [hmdef]; ring
    rw [hsub]
    -- the change of the speed is at most half of the final speed, if it is negative
    have hav : -(v1 * dt) ≤ 2 * (a * (m - 1)) := by
      have h0 : -(v1 * dt) ≤ 2 * a * (N - 1) := by
        have := mul_nonneg ha hdp.le
        have e : (2 * a * (N - 1) / dt + v1) * dt = 2 * a * (N - 1) + v1 * dt := by field_simp
        linarith
      rcases le_total 0 a with h | h
      · have := mul_nonneg h (by linarith : 0 ≤ m - 1)
        have := mul_pos hv1p hdp
        linarith
      · have : a * (N - 1) ≤ a * (m - 1) := mul_le_mul_of_nonpos_left (by linarith) h
        linarith
    have hr : 1 / 1000 ≤ a * m * (m - 1) + v1 * (m * dt) := by
      have e : a * m * (m - 1) + v1 * (m * dt) = m * (a * (m - 1) + v1 * dt) := by ring
      rw [e]
      have h1 : 1 / 1000 ≤ a * (m - 1) + v1 * dt := by linarith
      have := mul_le_mul_of_nonneg_right hm1 (by linarith : 0 ≤ a * (m - 1) + v1 * dt)
      linarith
    have hpos1 : 0 ≤ c.tol + (a * m * (m - 1) + v1 * (m * dt) + ss) := by linarith
    have hpos2 : 0 ≤ c.tolMaster + v * (m * dt + tt) := by
      have := mul_pos (by linarith : 0 < m) hdp
      have := mul_nonneg hvp.le (by linarith : 0 ≤ m * dt + tt)
      linarith
    have hT : dt ≤ m * dt := by
      have := mul_le_mul_of_nonneg_right hm1 hdp.le
      linarith
    have hst := step_linear c v1 ss tt dt (ride c v dt dist master s n).2.2
      ⟨|(ride c v dt dist master s n).1|, |(ride c v dt dist master s n).2.1|, v, (ride c v dt dist master s n).2.2.speed⟩
      (a * m * (m - 1) + v1 * (m * dt)) (m * dt) hc hss hv1p i3 htt
      (by simp only [i1, abs_of_nonneg hpos1]) (by simp only [i2, abs_of_nonneg hpos2]) hv hr hT hdt hvd hlg
      (by rw [i1, abs_of_nonneg hpos1, ← i1]; exact i5) (by rw [i2, abs_of_nonneg hpos2, ← i2]; exact i6)
    have hm0 : m ≠ 0 := by linarith
    have hsp : max 0 (2 * (a * m * (m - 1) + v1 * (m * dt)) / (m * dt) - v1) = 2 * a * (m - 1) / dt + v1 := by
      have e : 2 * (a * m * (m - 1) + v1 * (m * dt)) / (m * dt) - v1 = 2 * a * (m - 1) / dt + v1 := by
        field_simp
        ring
      rw [e, max_eq_right]
      have : 0 ≤ (2 * a * (m - 1) + v1 * dt) / dt := div_nonneg (by linarith) hdp.le
      have e2 : (2 * a * (m - 1) + v1 * dt) / dt = 2 * a * (m - 1) / dt + v1 := by field_simp
      linarith
    rw [hsp] at hst
    rw [ride_succ, hst]
    have q1 : (2 * a * (m - 1) / dt + v1) * dt = 2 * a * (m - 1) + v1 * dt := by field_simp
    refine ⟨?_, ?_, rfl, i4, ?_, ?_, fun _ => rfl⟩
    · simp only
      rw [i1, q1]
      ring
    · simp only
      rw [i2]
      ring
    · simp only
      rw [i1, abs_of_nonneg hpos1, q1]
      linarith
    · simp only
      rw [i2, abs_of_nonneg hpos2]
      have := mul_pos hvp hdp
      linarith

/-- A step in the steady state: `r` is the distance left. -/
theorem step_steady (c : Cfg) (v1 ss dt : ℝ) (s : Sync) (i : Seen) (hc : c.final = some v1) (hss : c.steady = some ss)
    (hm : s.mode = .steady ∨ i.dist - c.tol - ss < small) (hv : small < i.masterSpeed) (h1 : c.tol + small ≤ i.dist)
    (h2 : c.tolMaster + small ≤ i.master) (h3 : i.dist ≤ s.lastDist) (h4 : i.master ≤ s.lastMaster) (h5 : dt ≤ masterTime c i) :
    (step c i dt s).mode = .steady ∧ (step c i dt s).speed = v1 ∧ (step c i dt s).ended = s.ended ∧
    (step c i dt s).lastDist = i.dist ∧ (step c i dt s).lastMaster = i.master := by
  have hnd : ¬ done c s i dt := not_done c s i dt h1 h2 h3 h4 h5
  have hr : rest c i = i.dist - c.tol := rest_eq c i _ (by ring) (by linarith)
  have ha : await s i = { s with lastDist := i.dist, lastMaster := i.master } := by
    unfold await
    rw [if_pos hv]
  unfold step
  rw [if_neg hnd]
  unfold going
  rw [hc]
  simp only [hr]
  have hto : (toSteady c v1 (await s i) (i.dist - c.tol) (masterTime c i)).1.mode = .steady ∧
      (toSteady c v1 (await s i) (i.dist - c.tol) (masterTime c i)).1.ended = s.ended ∧
      (toSteady c v1 (await s i) (i.dist - c.tol) (masterTime c i)).1.lastDist = i.dist ∧
      (toSteady c v1 (await s i) (i.dist - c.tol) (masterTime c i)).1.lastMaster = i.master := by
    unfold toSteady
    rw [hss]
    by_cases hst : s.mode = .steady
    · simp [ha, hst]
    · have hn : steadyNow ss v1 (i.dist - c.tol) (masterTime c i) := Or.inl (hm.resolve_left hst)
      simp [ha, hst, hn]
  generalize toSteady c v1 (await s i) (i.dist - c.tol) (masterTime c i) = w at hto
  obtain ⟨w1, w2, w3, w4⟩ := hto
  unfold withFinal
  simp only [w1]
  exact ⟨trivial, trivial, w2, w3, w4⟩

/-- The end of the action. -/
theorem step_ends (c : Cfg) (v1 dt : ℝ) (s : Sync) (i : Seen) (hc : c.final = some v1) (h : i.dist < c.tol + small) :
    (step c i dt s).ended = true ∧ (step c i dt s).speed = v1 := by
  have hd : done c s i dt := Or.inl (Or.inl h)
  unfold step
  rw [if_pos hd]
  simp [hc]

/-- With a final speed, a linear change of speed makes the entity arrive exactly when the master does and with this speed: the speed after `n` of `N` steps is
`v1 + (u - v1) * (N - n) / (N - 1)`, where `u` is the speed that is demanded first. If there is a steady state, its `P` steps follow with the final speed.
The action ends on arrival, not before. -/
theorem sync_arrives (c : Cfg) (v1 ss v dt dist master : ℝ) (s : Sync) (N P : Nat) (hc : c.final = some v1)
    (hss : SteadyIs c v1 ss (P * dt)) (hN : 2 ≤ N) (hdt : 1 / 1000 ≤ dt) (hv1 : 1 / 500 ≤ v1 * dt) (hv : small < v) (hvd : small ≤ v * dt)
    (htol : 0 ≤ c.tol) (htolM : 0 ≤ c.tolMaster) (hs : s.mode = .linear) (he : s.ended = false)
    (hm : master = c.tolMaster + v * ((N + P) * dt))
    (hl1 : dist ≤ s.lastDist) (hl2 : master ≤ s.lastMaster) (hu : v1 * (N * dt) ≤ 2 * (dist - c.tol - ss))
    (hlarge : (N + P) * dt ≤ large - 1) :
    (∀ n, 0 < n → n ≤ N → (ride c v dt dist master s n).2.2.speed =
      v1 + (2 * (dist - c.tol - ss) / (N * dt) - v1 - v1) * ((N - n) / (N - 1))) ∧
    (∀ n, n ≤ N + P → (ride c v dt dist master s n).2.2.ended = false) ∧
    (ride c v dt dist master s (N + P)).1 = c.tol ∧ (ride c v dt dist master s (N + P)).2.1 = c.tolMaster ∧
    (ride c v dt dist master s (N + P)).2.2.speed = v1 ∧
    (ride c v dt dist master s (N + P + 1)).2.2.ended = true ∧ (ride c v dt dist master s (N + P + 1)).2.2.speed = v1 := by
  have hdp : 0 < dt := by linarith
  have hv1p : 0 < v1 := by
    by_contra h
    have := mul_nonpos_of_nonpos_of_nonneg (not_lt.mp h) hdp.le
    linarith
  have hvp : 0 < v := lt_trans small_pos hv
  have hN2 : (2 : ℝ) ≤ N := by exact_mod_cast hN
  have hN1 : (0 : ℝ) < (N : ℝ) - 1 := by linarith
  have hNp : (0 : ℝ) < N := by linarith
  have hP : (0 : ℝ) ≤ P := Nat.cast_nonneg P
  have hss0 : 0 ≤ ss := by
    rcases hss with h | h
    · rw [h.2.1]
    · rw [h.2]; exact mul_nonneg hv1p.le (mul_nonneg hP hdp.le)
  set D := dist - c.tol - ss with hD
  set a := (D - v1 * (N * dt)) / (N * (N - 1)) with hadef
  have haN : a * N * (N - 1) = D - v1 * (N * dt) := by
    rw [hadef]
    field_simp
  have ha0 : 2 * a * (N - 1) / dt + v1 = 2 * D / (N * dt) - v1 := by
    have : a * (N - 1) = (D - v1 * (N * dt)) / N := by
      rw [← haN]
      field_simp
    rw [mul_assoc, this]
    field_simp
    ring
  have ha : 0 ≤ 2 * a * (N - 1) / dt + v1 := by
    rw [ha0, sub_nonneg, le_div_iff₀ (by positivity)]
    exact hu
  have lin := ride_linear c v1 ss (P * dt) v dt a dist master s N hc hss (mul_nonneg hP hdp.le) hdt hv1 hv hvd htol htolM hs he
    (by rw [haN]; linarith) (by rw [hm]; ring) hl1 hl2 ha (by linarith)
  have hsmdt : small ≤ v1 * dt := le_trans (by norm_num [small]) hv1
  -- the steady state
  have st : ∀ j, j ≤ P → (ride c v dt dist master s (N + j)).1 = c.tol + (ss - v1 * (j * dt)) ∧
      (ride c v dt dist master s (N + j)).2.1 = c.tolMaster + v * ((P - j) * dt) ∧
      (ride c v dt dist master s (N + j)).2.2.ended = false ∧
      (ride c v dt dist master s (N + j)).1 ≤ (ride c v dt dist master s (N + j)).2.2.lastDist ∧
      (ride c v dt dist master s (N + j)).2.1 ≤ (ride c v dt dist master s (N + j)).2.2.lastMaster ∧
      (ride c v dt dist master s (N + j)).2.2.speed = v1 ∧
      (0 < j → (ride c v dt dist master s (N + j)).2.2.mode = .steady) := by
    intro j
    induction j with
    | zero =>
      intro _
      obtain ⟨l1, l2, l3, l4, l5, l6, l7⟩ := lin N le_rfl
      rw [Nat.add_zero]
      refine ⟨?_, ?_, l4, l5, l6, ?_, fun h => absurd h (lt_irrefl _)⟩
      · rw [l1]; push_cast; ring
      · rw [l2]; push_cast; ring
      · rw [l7 (by omega)]; ring
    | succ j ih =>
      intro hj
      obtain ⟨i1, i2, i3, i4, i5, i6, i7⟩ := ih (by omega)
      have hjP : (j : ℝ) + 1 ≤ P := by exact_mod_cast hj
      rcases hss with h | ⟨hsome, hsseq⟩
      · exfalso
        have hz : (P : ℝ) * dt = 0 := h.2.2
        have hPp : (0 : ℝ) < P := by
          have : (0 : ℝ) ≤ j := Nat.cast_nonneg j
          linarith
        exact absurd hz (mul_pos hPp hdp).ne'
      have hq1 : v1 * dt ≤ ss - v1 * (j * dt) := by
        have : v1 * ((j + 1) * dt) ≤ v1 * (P * dt) :=
          mul_le_mul_of_nonneg_left (mul_le_mul_of_nonneg_right hjP hdp.le) hv1p.le
        rw [hsseq]
        linarith
      have hq2 : dt ≤ (P - j) * dt := by
        have : (1 : ℝ) * dt ≤ (P - j) * dt := mul_le_mul_of_nonneg_right (by linarith) hdp.le
        linarith
      have hq3 : v * dt ≤ v * ((P - j) * dt) := mul_le_mul_of_nonneg_left hq2 hvp.le
      have hp1 : 0 ≤ c.tol + (ss - v1 * (j * dt)) := by
        have := mul_pos hv1p hdp
        linarith
      have hp2 : 0 ≤ c.tolMaster + v * ((P - j) * dt) := by
        have := mul_pos hvp hdp
        linarith
      have e1 := masterTime_eq c ⟨|(ride c v dt dist master s (N + j)).1|, |(ride c v dt dist master s (N + j)).2.1|, v,
        (ride c v dt dist master s (N + j)).2.2.speed⟩ ((P - j) * dt) hv (by simp only [i2, abs_of_nonneg hp2]) (by linarith)
      obtain ⟨s1, s2, s3, s4, s5⟩ := step_steady c v1 ss dt (ride c v dt dist master s (N + j)).2.2
        ⟨|(ride c v dt dist master s (N + j)).1|, |(ride c v dt dist master s (N + j)).2.1|, v,
        (ride c v dt dist master s (N + j)).2.2.speed⟩ hc hsome
        (by
          rcases Nat.eq_zero_or_pos j with h | h
          · right
            simp only [i1, abs_of_nonneg hp1]
            rw [h, Nat.cast_zero]
            have := small_pos
            linarith
          · exact Or.inl (i7 h)) hv
        (by simp only [i1, abs_of_nonneg hp1]; linarith) (by simp only [i2, abs_of_nonneg hp2]; linarith)
        (by simp only; rw [i1, abs_of_nonneg hp1, ← i1]; exact i4) (by simp only; rw [i2, abs_of_nonneg hp2, ← i2]; exact i5)
        (by rw [e1]; exact hq2)
      rw [← Nat.add_assoc, ride_succ]
      push_cast
      refine ⟨?_, ?_, by rw [s3]; exact i3, ?_, ?_, s2, fun _ => s1⟩
      · rw [s2, i1]
        ring
      · rw [i2]
        ring
      · rw [s4, s2, i1, abs_of_nonneg hp1]
        have := mul_pos hv1p hdp
        linarith
      · rw [s5, i2, abs_of_nonneg hp2]
        have := mul_pos hvp hdp
        linarith
  obtain ⟨f1, f2, f3, f4, f5, f6, _⟩ := st P le_rfl
  have fd : (ride c v dt dist master s (N + P)).1 = c.tol := by
    rw [f1]
    rcases hss with h | h
    · rw [h.2.1]
      have := h.2.2
      rw [this]
      ring
    · rw [h.2]
      ring
  refine ⟨?_, ?_, fd, ?_, f6, ?_⟩
  · intro n h0 hn
    rw [(lin n hn).2.2.2.2.2.2 h0]
    have e : 2 * a * (N - n) / dt = 2 * a * (N - 1) / dt * ((N - n) / (N - 1)) := by
      field_simp
    have e2 : 2 * a * (N - 1) / dt = 2 * D / (N * dt) - v1 - v1 := by linarith
    rw [e, e2]
    ring
  · intro n hn
    rcases le_total n N with h | h
    · exact (lin n h).2.2.2.1
    · obtain ⟨j, rfl⟩ := Nat.exists_eq_add_of_le h
      exact (st j (by omega)).2.2.1
  · rw [f2]
    ring
  · rw [ride_succ]
    exact step_ends c v1 dt _ _ hc (by simp only; rw [fd, abs_of_nonneg htol]; linarith [small_pos])

/-- A step without final speed. -/
theorem step_free (c : Cfg) (dt : ℝ) (s : Sync) (i : Seen) (r T : ℝ) (hc : c.final = none)
    (hd : i.dist = c.tol + r) (hmd : i.master = c.tolMaster + i.masterSpeed * T) (hv : small < i.masterSpeed)
    (hr : small ≤ r) (hT : dt ≤ T) (hTs : small ≤ i.masterSpeed * T) (hl1 : i.dist ≤ s.lastDist)
    (hl2 : i.master ≤ s.lastMaster) :
    step c i dt s = ⟨.linear, s.sub, i.dist, i.master, s.speed + (2 * (r / T) - s.speed - s.speed) / T * dt, s.ended⟩ := by
  have e1 := masterTime_eq c i T hv hmd hTs
  have e2 := rest_eq c i r hd hr
  have hnd : ¬ done c s i dt := not_done c s i dt (by rw [hd]; linarith) (by rw [hmd]; linarith) hl1 hl2 (by rw [e1]; linarith)
  unfold step
  rw [if_neg hnd]
  unfold going
  rw [hc]
  simp only [e1, e2]
  unfold noFinal await
  rw [if_pos hv, if_pos hv]

/-- Without a final speed the entity arrives exactly when the master does and the action ends on arrival, not before, if the speed at the start is at most twice the
average speed needed. -/
theorem sync_arrives_free (c : Cfg) (v dt dist master : ℝ) (s : Sync) (N : Nat) (hc : c.final = none)
    (hN : 2 ≤ N) (hdt : 0 < dt) (hv : small < v) (hvd : small ≤ v * dt)
    (htol : 0 ≤ c.tol) (htolM : 0 ≤ c.tolMaster) (he : s.ended = false) (hm : master = c.tolMaster + v * (N * dt))
    (hl1 : dist ≤ s.lastDist) (hl2 : master ≤ s.lastMaster) (h0 : small ≤ s.speed * dt)
    (hu : small ≤ (2 * (dist - c.tol) / (N * dt) - s.speed) * dt) :
    (∀ n, n ≤ N → (ride c v dt dist master s n).2.2.ended = false ∧ 0 < (ride c v dt dist master s n).2.2.speed) ∧
    (ride c v dt dist master s N).1 = c.tol ∧ (ride c v dt dist master s N).2.1 = c.tolMaster ∧
    (ride c v dt dist master s (N + 1)).2.2.ended = true := by
  have hsm := small_pos
  have hvp : 0 < v := lt_trans small_pos hv
  have hN2 : (2 : ℝ) ≤ N := by exact_mod_cast hN
  have hN1 : (0 : ℝ) < (N : ℝ) - 1 := by linarith
  have hNp : (0 : ℝ) < N := by linarith
  set D := dist - c.tol with hD
  set u := s.speed with hudef
  set b := (D - u * (N * dt)) / (N * (N - 1)) with hbdef
  have hbN : b * N * (N - 1) = D - u * (N * dt) := by
    rw [hbdef]
    field_simp
  have hb0 : u + 2 * b * (N - 1) / dt = 2 * D / (N * dt) - u := by
    have : b * (N - 1) = (D - u * (N * dt)) / N := by
      rw [← hbN]
      field_simp
    rw [mul_assoc, this]
    field_simp
    ring
  have hb0' : u * dt + 2 * b * (N - 1) = (2 * D / (N * dt) - u) * dt := by
    rw [← hb0]
    field_simp
  have main : ∀ n, n ≤ N →
      (ride c v dt dist master s n).1 = c.tol + ((ride c v dt dist master s n).2.2.speed * ((N - n) * dt) + b * (N - n) * (N - n - 1)) ∧
      (ride c v dt dist master s n).2.1 = c.tolMaster + v * ((N - n) * dt) ∧
      (ride c v dt dist master s n).2.2.ended = false ∧
      (ride c v dt dist master s n).1 ≤ (ride c v dt dist master s n).2.2.lastDist ∧
      (ride c v dt dist master s n).2.1 ≤ (ride c v dt dist master s n).2.2.lastMaster ∧
      u * dt + min 0 (2 * b * n) ≤ (ride c v dt dist master s n).2.2.speed * dt ∧
      (n = N → u * dt + min 0 (2 * b * (N - 1)) ≤ (ride c v dt dist master s n).2.2.speed * dt) := by
    intro n
    induction n with
    | zero =>
      intro _
      simp only [ride, Nat.cast_zero, sub_zero, mul_zero, min_self, add_zero]
      exact ⟨by rw [hbN]; linarith, hm, he, hl1, hl2, le_rfl, fun h => by omega⟩
    | succ n ih =>
      intro hn
      obtain ⟨i1, i2, i3, i4, i5, i6, _⟩ := ih (by omega)
      have hnN : (n : ℝ) + 1 ≤ N := by exact_mod_cast hn
      have hn0 : (0 : ℝ) ≤ n := Nat.cast_nonneg n
      push_cast
      set m : ℝ := (N : ℝ) - n with hmdef
      have hm1 : (1 : ℝ) ≤ m := by linarith
      have hsub : (N : ℝ) - (n + 1) = m - 1 := by rw [hmdef]; ring
      have hnm : (n : ℝ) = N - m := by rw [hmdef]; ring
      rw [hsub]
      set w := (ride c v dt dist master s n).2.2.speed with hw
      -- the distance left is at least `small`
      have hq : small ≤ w * dt + b * (m - 1) := by
        rcases le_total 0 b with h | h
        · have h1 : min 0 (2 * b * n) = 0 := min_eq_left (by positivity)
          have := mul_nonneg h (by linarith : 0 ≤ m - 1)
          linarith
        · have h1 : min 0 (2 * b * n) = 2 * b * n := min_eq_right (mul_nonpos_of_nonpos_of_nonneg (by linarith) hn0)
          have h2 : b * (m - 1) ≤ 0 := mul_nonpos_of_nonpos_of_nonneg h (by linarith)
          rw [h1] at i6
          have e : 2 * b * (n : ℝ) = 2 * b * (N - 1) - 2 * (b * (m - 1)) := by rw [hnm]; ring
          rw [e] at i6
          linarith
      have hr : small ≤ w * (m * dt) + b * m * (m - 1) := by
        have e : w * (m * dt) + b * m * (m - 1) = m * (w * dt + b * (m - 1)) := by ring
        rw [e]
        have := mul_le_mul_of_nonneg_right hm1 (by linarith : 0 ≤ w * dt + b * (m - 1))
        linarith
      have hT : dt ≤ m * dt := by
        have := mul_le_mul_of_nonneg_right hm1 hdt.le
        linarith
      have hvT : v * dt ≤ v * (m * dt) := mul_le_mul_of_nonneg_left hT hvp.le
      have hpos1 : 0 ≤ c.tol + (w * (m * dt) + b * m * (m - 1)) := by linarith
      have hpos2 : 0 ≤ c.tolMaster + v * (m * dt) := by
        linarith
      have hst := step_free c dt (ride c v dt dist master s n).2.2
        ⟨|(ride c v dt dist master s n).1|, |(ride c v dt dist master s n).2.1|, v, w⟩
        (w * (m * dt) + b * m * (m - 1)) (m * dt) hc
        (by simp only [i1, abs_of_nonneg hpos1]) (by simp only [i2, abs_of_nonneg hpos2]) hv hr hT (by simp only; linarith)
        (by simp only; rw [i1, abs_of_nonneg hpos1, ← i1]; exact i4) (by simp only; rw [i2, abs_of_nonneg hpos2, ← i2]; exact i5)
      have hm0 : m ≠ 0 := by linarith
      have hsp : w + (2 * ((w * (m * dt) + b * m * (m - 1)) / (m * dt)) - w - w) / (m * dt) * dt =
          w + 2 * b * (m - 1) / (m * dt) := by
        field_simp
        ring
      rw [← hw, hsp] at hst
      rw [ride_succ, ← hw, hst]
      simp only
      have q1 : (w + 2 * b * (m - 1) / (m * dt)) * dt = w * dt + 2 * b * ((m - 1) / m) := by field_simp
      have hfrac : (m - 1) / m ≤ 1 := by
        rw [div_le_one (by linarith)]
        linarith
      have hfrac0 : 0 ≤ (m - 1) / m := div_nonneg (by linarith) (by linarith)
      -- the lower bound of the speed
      have hlow : u * dt + min 0 (2 * b * (n + 1)) ≤ w * dt + 2 * b * ((m - 1) / m) := by
        rcases le_total 0 b with h | h
        · rw [min_eq_left (by positivity)]
          rw [min_eq_left (by positivity)] at i6
          have := mul_nonneg (by linarith : 0 ≤ 2 * b) hfrac0
          linarith
        · rw [min_eq_right (mul_nonpos_of_nonpos_of_nonneg (by linarith) (by linarith))]
          rw [min_eq_right (mul_nonpos_of_nonpos_of_nonneg (by linarith) hn0)] at i6
          have := mul_le_mul_of_nonpos_left hfrac (by linarith : 2 * b ≤ 0)
          linarith
      have hlowN : n + 1 = N → u * dt + min 0 (2 * b * (N - 1)) ≤ w * dt + 2 * b * ((m - 1) / m) := by
        intro hlast
        have hcast : (n : ℝ) + 1 = N := by exact_mod_cast hlast
        have : m = 1 := by linarith
        have hnn : (N : ℝ) - 1 = n := by linarith
        rw [this, hnn]
        simp only [sub_self, zero_div, mul_zero, add_zero]
        exact i6
      -- the distance after the step
      have hdist : c.tol + (w * (m * dt) + b * m * (m - 1)) - (w * dt + 2 * b * ((m - 1) / m)) =
          c.tol + ((w + 2 * b * (m - 1) / (m * dt)) * ((m - 1) * dt) + b * (m - 1) * (m - 1 - 1)) := by
        field_simp
        ring
      have hpos : 0 ≤ w * dt + 2 * b * ((m - 1) / m) := by
        rcases le_total 0 b with h | h
        · rw [min_eq_left (by positivity)] at hlow
          linarith
        · rcases Nat.lt_or_ge (n + 1) N with hlt | hge
          · have : (n : ℝ) + 1 + 1 ≤ N := by exact_mod_cast hlt
            rw [min_eq_right (mul_nonpos_of_nonpos_of_nonneg (by linarith) (by linarith))] at hlow
            have : 2 * b * ((N : ℝ) - 1) ≤ 2 * b * (n + 1) := mul_le_mul_of_nonpos_left (by linarith) (by linarith)
            linarith
          · have hl := hlowN (by omega)
            rw [min_eq_right (mul_nonpos_of_nonpos_of_nonneg (by linarith) (by linarith))] at hl
            linarith
      refine ⟨?_, ?_, i3, ?_, ?_, ?_, ?_⟩
      · rw [i1, q1]
        exact hdist
      · rw [i2]
        ring
      · rw [i1, abs_of_nonneg hpos1, q1]
        linarith
      · rw [i2, abs_of_nonneg hpos2]
        have := mul_pos hvp hdt
        linarith
      · rw [q1]
        exact hlow
      · rw [q1]
        exact hlowN
  obtain ⟨f1, f2, f3, _, _, _, _⟩ := main N le_rfl
  have fd : (ride c v dt dist master s N).1 = c.tol := by
    rw [f1]
    ring
  refine ⟨?_, fd, ?_, ?_⟩
  · intro n hn
    obtain ⟨_, _, m3, _, _, m6, m7⟩ := main n hn
    refine ⟨m3, ?_⟩
    have : 0 < (ride c v dt dist master s n).2.2.speed * dt := by
      rcases le_total 0 b with h | h
      · rw [min_eq_left (by positivity)] at m6
        linarith
      · rcases Nat.lt_or_ge n N with hlt | hge
        · have hlt' : (n : ℝ) + 1 ≤ N := by exact_mod_cast hlt
          have hn0 : (0 : ℝ) ≤ n := Nat.cast_nonneg n
          rw [min_eq_right (mul_nonpos_of_nonpos_of_nonneg (by linarith) hn0)] at m6
          have : 2 * b * ((N : ℝ) - 1) ≤ 2 * b * n := mul_le_mul_of_nonpos_left (by linarith) (by linarith)
          linarith
        · have hl := m7 (by omega)
          rw [min_eq_right (mul_nonpos_of_nonpos_of_nonneg (by linarith) (by linarith))] at hl
          linarith
    exact pos_of_mul_pos_left this hdt.le
  · rw [f2]
    ring
  · rw [ride_succ]
    have hd : done c (ride c v dt dist master s N).2.2 ⟨|(ride c v dt dist master s N).1|, |(ride c v dt dist master s N).2.1|, v,
        (ride c v dt dist master s N).2.2.speed⟩ dt := by
      refine Or.inl (Or.inl ?_)
      simp only
      rw [fd, abs_of_nonneg htol]
      linarith
    unfold step
    rw [if_pos hd]

/-! Stop on the way -/

/-- If the time is too long for the profile with two phases, the entity is to brake to a stop, to wait and to accelerate to the final speed: braking
takes `stopTime`, the acceleration after the stop has the same size, both together cover the distance, and there is time left to
wait. -/
theorem stop_profile (s t v0 v1 : ℝ) (hs : 0 < s) (ht : 0 < t) (hv0 : 0 < v0) (hv1 : 0 < v1) (hd : small ≤ |v1 - v0|)
    (hneg : (apex s t v0 v1).1 < 0) (hh : v0 ≤ v1) (hx : small < stopTime s v0 v1) :
    ∃ a y, 0 < a ∧ 0 < y ∧ stopAcc s v0 v1 = -a ∧ v0 - a * stopTime s v0 v1 = 0 ∧ a * y = v1 ∧
      v0 / 2 * stopTime s v0 v1 + v1 / 2 * y = s ∧ stopTime s v0 v1 + y < t := by
  have hq : 0 < v0 * v0 + v1 * v1 := by positivity
  have hst : stopTime s v0 v1 = 2 * v0 * s / (v0 * v0 + v1 * v1) := rfl
  have hstp : 0 < stopTime s v0 v1 := lt_trans small_pos hx
  have hacc : stopAcc s v0 v1 = -v0 / stopTime s v0 v1 := by
    unfold stopAcc
    rw [if_neg, if_pos (by rw [abs_of_pos hstp]; exact hx)]
    rw [not_lt, hst]
    have e : 2 * v0 * s / (v0 * v0 + v1 * v1) * v0 / 2 = s * (v0 * v0 / (v0 * v0 + v1 * v1)) := by field_simp
    have h : v0 * v0 / (v0 * v0 + v1 * v1) ≤ 1 / 2 := by
      rw [div_le_div_iff₀ hq (by norm_num)]
      nlinarith
    rw [e]
    have := mul_le_mul_of_nonneg_left h hs.le
    linarith
  refine ⟨(v0 * v0 + v1 * v1) / (2 * s), 2 * v1 * s / (v0 * v0 + v1 * v1), by positivity, by positivity, ?_, ?_, ?_, ?_, ?_⟩
  · rw [hacc, hst]
    field_simp
  · rw [hst]
    field_simp
    ring
  · field_simp
  · rw [hst]
    field_simp
  · rw [hst, ← add_div, div_lt_iff₀ hq]
    -- the speed at the apex is negative
    obtain ⟨hn, hsq⟩ := term_sq s t v0 v1
    have hne : v0 ≠ v1 := by
      rintro rfl
      rw [sub_self, abs_zero] at hd
      linarith [small_pos]
    have hlt : 2 * s < term s t v0 v1 := by
      unfold apex at hneg
      rw [if_neg (not_lt.mpr hd)] at hneg
      split at hneg
      · simp only [vx1] at hneg
        by_contra hc
        have : 0 ≤ (2 * s - term s t v0 v1) / (2 * t) := div_nonneg (by linarith [not_lt.mp hc]) (by linarith)
        linarith
      · split at hneg
        · simp only [vx2] at hneg
          have : 0 ≤ (2 * s + term s t v0 v1) / (2 * t) := div_nonneg (by linarith) (by linarith)
          linarith
        · simp at hneg
    have h2 : (2 * s) ^ 2 < term s t v0 v1 ^ 2 := pow_lt_pow_left₀ hlt (by linarith) two_ne_zero
    rw [hsq] at h2
    have h3 : 0 < t * ((v0 * v0 + v1 * v1) * t - 2 * (v0 + v1) * s) := by nlinarith
    have h4 := pos_of_mul_pos_right h3 ht.le
    linarith

/-- After the stop the entity stays until the time left is that of an acceleration from standstill to the final speed. -/
theorem stop_waits (c : Cfg) (v1 dt : ℝ) (s : Sync) (i : Seen) (hc : c.final = some v1) (hst : c.steady = none) (hm : s.mode = .stopped)
    (hv : small < i.masterSpeed) (hv1 : 0 < v1) (h1 : c.tol + small ≤ i.dist)
    (h2 : c.tolMaster + small ≤ i.master) (h3 : i.dist ≤ s.lastDist) (h4 : i.master ≤ s.lastMaster) (h5 : dt ≤ masterTime c i)
    (hlong : 2 * (i.dist - c.tol) / v1 ≤ masterTime c i) :
    (step c i dt s).mode = .stopped ∧ (step c i dt s).speed = 0 ∧ (step c i dt s).ended = s.ended := by
  have hnd : ¬ done c s i dt := not_done c s i dt h1 h2 h3 h4 h5
  have hr : rest c i = i.dist - c.tol := rest_eq c i _ (by ring) (by linarith)
  have ha : await s i = { s with lastDist := i.dist, lastMaster := i.master } := by
    unfold await
    rw [if_pos hv]
  have hcond : ¬ (v1 = 0 ∨ masterTime c i < 2 * (i.dist - c.tol) / v1) := by
    rintro (h | h) <;> linarith
  unfold step
  rw [if_neg hnd]
  unfold going toSteady
  rw [hc, hst]
  simp only [hr, ha, withFinal, hm, if_neg hcond]
  exact ⟨trivial, trivial, trivial⟩

/-! Waiting for the master -/

/-- While the master does not approach its destination, the entity stands still, from the first such step on and as long as the action runs (without steady
state). -/
theorem sync_waits (c : Cfg) (dt : ℝ) (hst : c.steady = none) (s : Sync) (is : List Seen) (hne : is ≠ [])
    (hall : ∀ i ∈ is, i.masterSpeed ≤ small) (hm : s.mode = .waiting → s.speed = 0)
    (hend : (is.foldl (fun q i => step c i dt q) s).ended = false) :
    (is.foldl (fun q i => step c i dt q) s).speed = 0 := by
  have one : ∀ (q : Sync) (i : Seen), i.masterSpeed ≤ small → (q.mode = .waiting → q.speed = 0) →
      (step c i dt q).ended = false → (step c i dt q).mode = .waiting ∧ (step c i dt q).speed = 0 := by
    intro q i hi hq he
    have hnd : ¬ done c q i dt := by
      intro h
      unfold step at he
      rw [if_pos h] at he
      simp at he
    have ha : (await q i).mode = .waiting ∧ (await q i).speed = 0 := by
      unfold await
      rw [if_neg (not_lt.mpr hi)]
      split
      · rename_i h
        exact ⟨h, hq h⟩
      · exact ⟨rfl, rfl⟩
    have ht : masterTime c i = large := by
      unfold masterTime
      rw [if_neg (not_lt.mpr hi)]
    unfold step
    rw [if_neg hnd]
    unfold going
    cases hf : c.final with
    | none =>
      simp only [noFinal]
      rw [if_neg (not_lt.mpr hi)]
      exact ha
    | some v =>
      simp only [toSteady, hst, ht, withFinal, ha.1]
      rw [if_pos le_rfl]
      exact ha
  have mono : ∀ (l : List Seen) (q : Sync), q.ended = true → (l.foldl (fun q i => step c i dt q) q).ended = true := by
    have keep : ∀ (q : Sync) (i : Seen), q.ended = true → (step c i dt q).ended = true := by
      intro q i hq
      have ha : (await q i).ended = true := by
        unfold await
        split
        · exact hq
        · split <;> exact hq
      unfold step
      split
      · rfl
      · unfold going
        split
        · unfold noFinal
          split <;> exact ha
        · rename_i v _
          have hs : (toSteady c v (await q i) (rest c i) (masterTime c i)).1.ended = true := by
            simp only [toSteady, hst, ha]
          generalize toSteady c v (await q i) (rest c i) (masterTime c i) = w at hs
          have hcurved : ∀ z : Sync, z.ended = true → (curved v w.2.1 w.2.2 dt i.along z).ended = true := by
            intro z hz
            unfold curved stopping
            split
            · exact hz
            · split <;> exact hz
          unfold withFinal
          split
          · exact hs
          · unfold braking
            split <;> exact hs
          · split
            · exact hs
            · exact hs
          · exact hs
          · split
            · exact hs
            · exact hcurved _ hs
          · split
            · exact hs
            · apply hcurved
              unfold enter wake
              split <;> split <;> exact hs
          · apply hcurved
            unfold enter
            split <;> exact hs
    intro l
    induction l with
    | nil => exact fun q h => h
    | cons i l ih => exact fun q h => ih _ (keep q i h)
  induction is generalizing s with
  | nil => exact absurd rfl hne
  | cons i l ih =>
    simp only [List.foldl_cons] at hend ⊢
    have he : (step c i dt s).ended = false := by
      by_contra h
      rw [mono l _ (by simpa using h)] at hend
      simp at hend
    obtain ⟨o1, o2⟩ := one s i (hall i (by simp)) hm he
    cases l with
    | nil => exact o2
    | cons j l => exact ih _ (by simp) (fun k hk => hall k (by simp [hk])) (fun _ => o2) hend

/-! Violations -/

/-- A second execution of the action ends in its first step if the entity is farther from the destination than at the end of the first one: the distances are not
reset at the start. -/
theorem sync_restart_fails (c : Cfg) (i j : Seen) (dt : ℝ) (s : Sync) (hi : i.dist < c.tol + small) (hj : c.tol + small ≤ j.dist) :
    (step c i dt s).ended = true ∧ (step c j dt (start (step c i dt s))).ended = true := by
  have hd : done c s i dt := Or.inl (Or.inl hi)
  have e : (step c i dt s).ended = true ∧ (step c i dt s).lastDist = i.dist := by
    unfold step
    rw [if_pos hd]
    refine ⟨rfl, ?_⟩
    simp only
    unfold await
    split
    · rfl
    · split <;> rfl
  refine ⟨e.1, ?_⟩
  have hd2 : done c (start (step c i dt s)) j dt := by
    refine Or.inl (Or.inr (Or.inr (Or.inl ?_)))
    simp only [start, e.2]
    linarith
  unfold step at hd2 ⊢
  rw [if_pos hd2]

/-- An entity on schedule with its final speed is stopped for a step when there is less than a millisecond left to the steady state. -/
theorem sync_glitch_fails : (step ⟨some 10, some 10, 0, 0⟩ ⟨10005 / 1000, 10005 / 1000, 10, 10⟩ (1 / 100)
    ⟨.linear, .none, 11, 11, 10, false⟩).speed = 0 := by
  set c : Cfg := ⟨some 10, some 10, 0, 0⟩ with hc
  set i : Seen := ⟨10005 / 1000, 10005 / 1000, 10, 10⟩ with hi
  set s : Sync := ⟨.linear, .none, 11, 11, 10, false⟩ with hs
  have hv : small < i.masterSpeed := by norm_num [small, hi]
  have e1 : masterTime c i = 10005 / 10000 :=
    masterTime_eq c i _ hv (by norm_num [hi, hc]) (by norm_num [hi, small])
  have e2 : rest c i = 10005 / 1000 := rest_eq c i _ (by norm_num [hi, hc]) (by norm_num [small])
  have hnd : ¬ done c s i (1 / 100) := not_done c s i _ (by norm_num [hc, hi, small]) (by norm_num [hc, hi, small])
    (by norm_num [hi, hs]) (by norm_num [hi, hs]) (by rw [e1]; norm_num)
  have ha : (await s i).mode = .linear := by
    unfold await
    rw [if_pos hv]
  have hto : toSteady c 10 (await s i) (10005 / 1000) (10005 / 10000) = (await s i, 5 / 1000, 5 / 10000) := by
    unfold toSteady
    have hns : ¬ steadyNow 10 10 (10005 / 1000) (10005 / 10000) := by
      rintro (h | h | h) <;> norm_num [small] at h
    have hm : (await s i).mode ≠ .steady := by rw [ha]; simp
    simp only [hc, if_neg hm, if_neg hns]
    norm_num
  unfold step
  rw [if_neg hnd]
  have hf : c.final = some 10 := rfl
  unfold going
  rw [hf]
  simp only [e1, e2, hto]
  unfold withFinal
  simp only [ha]
  unfold straight linearSpeed
  norm_num [large]

/-- Without final speed an entity that is too fast passes its destination before the master is there: here it is 1 m away with 10 m/s and the master 10 m, also with 10
m/s. -/
theorem sync_early_fails : (ride ⟨none, none, 0, 0⟩ 10 (1 / 10) 1 10 (fresh 10) 3).2.2.ended = true ∧
    (ride ⟨none, none, 0, 0⟩ 10 (1 / 10) 1 10 (fresh 10) 3).2.1 = 7 := by
  set c : Cfg := ⟨none, none, 0, 0⟩ with hc
  have hv : small < (10 : ℝ) := by norm_num [small]
  have s1 : step c ⟨1, 10, 10, 10⟩ (1 / 10) (fresh 10) = ⟨.linear, .none, 1, 10, 82 / 10, false⟩ := by
    rw [step_free c (1 / 10) (fresh 10) ⟨1, 10, 10, 10⟩ 1 1 rfl (by norm_num [hc]) (by norm_num [hc]) hv (by norm_num [small])
      (by norm_num) (by norm_num [small]) (by norm_num [fresh, large]) (by norm_num [fresh, large])]
    norm_num [fresh]
  have r1 : ride c 10 (1 / 10) 1 10 (fresh 10) 1 = (18 / 100, 9, ⟨.linear, .none, 1, 10, 82 / 10, false⟩) := by
    have hsp : (fresh 10).speed = 10 := rfl
    rw [ride_succ]
    simp only [ride, hsp]
    rw [show |(1 : ℝ)| = 1 from abs_one, show |(10 : ℝ)| = 10 from abs_of_pos (by norm_num), s1]
    norm_num
  have s2 : step c ⟨18 / 100, 9, 10, 82 / 10⟩ (1 / 10) ⟨.linear, .none, 1, 10, 82 / 10, false⟩ =
      ⟨.linear, .none, 18 / 100, 9, 578 / 90, false⟩ := by
    rw [step_free c (1 / 10) _ ⟨18 / 100, 9, 10, 82 / 10⟩ (18 / 100) (9 / 10) rfl (by norm_num [hc]) (by norm_num [hc]) hv
      (by norm_num [small]) (by norm_num) (by norm_num [small]) (by norm_num) (by norm_num)]
    norm_num
  have r2 : ride c 10 (1 / 10) 1 10 (fresh 10) 2 = (-416 / 900, 8, ⟨.linear, .none, 18 / 100, 9, 578 / 90, false⟩) := by
    rw [ride_succ, r1]
    simp only
    rw [show |(18 / 100 : ℝ)| = 18 / 100 from abs_of_pos (by norm_num), show |(9 : ℝ)| = 9 from abs_of_pos (by norm_num), s2]
    norm_num
  rw [ride_succ, r2]
  simp only
  constructor
  · have hd : done c ⟨.linear, .none, 18 / 100, 9, 578 / 90, false⟩ ⟨|(-416 / 900 : ℝ)|, |8|, 10, 578 / 90⟩ (1 / 10) := by
      refine Or.inl (Or.inr (Or.inr (Or.inl ?_)))
      simp only
      rw [abs_of_neg (by norm_num)]
      norm_num
    unfold step
    rw [if_pos hd]
  · norm_num

-- 10 m/s at the end, 2 s away from the destination in 100 steps with the speed reduced from 20 m/s; 1 s of steady state
example : SteadyIs ⟨some 10, some 10, 1, 1⟩ 10 10 ((50 : Nat) * (1 / 50)) ∧
    (1 / 500 : ℝ) ≤ 10 * (1 / 50) ∧ (10 * ((100 : Nat) * (1 / 50)) : ℝ) ≤ 2 * (41 - 1 - 10) := by
  refine ⟨Or.inr ⟨rfl, ?_⟩, ?_, ?_⟩ <;> norm_num

-- from 10 m/s to 20 m/s: 100 m in 4 s with two phases
example : small ≤ |(20 - 10 : ℝ)| ∧ (100 : ℝ) ≠ (10 + 20) / 2 * 4 := by
  constructor
  · rw [abs_of_pos (by norm_num)]
    norm_num [small]
  · norm_num

-- 10 m in 100 s, from 5 m/s to 10 m/s, is too slow for two phases
example : (apex 10 100 5 10).1 < 0 ∧ small < stopTime 10 5 10 := by
  constructor
  · obtain ⟨hn, hq⟩ := term_sq 10 100 5 10
    have hx := (x1_span 10 100 5 10 (by norm_num) (by norm_num)).mpr (by norm_num)
    have hl : 20 < term 10 100 5 10 := by
      by_contra h
      have := pow_le_pow_left₀ hn (not_lt.mp h) 2
      norm_num at hq
      linarith
    unfold apex
    rw [if_neg (by norm_num [small]), if_pos hx]
    simp only [vx1]
    exact div_neg_of_neg_of_pos (by linarith) (by norm_num)
  · norm_num [stopTime, small]

end Verif.Sync

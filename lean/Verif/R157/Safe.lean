import Verif.R157.Model
import Mathlib.Tactic.Linarith
import Mathlib.Tactic.NormNum
import Mathlib.Tactic.Ring
import Mathlib.Tactic.FieldSimp
import Mathlib.Tactic.Positivity
/-
When the models `RSS` and `FSM` see no critical situation, the distance really is safe: the worst case the models are named after does not end in a
collision, at any time. The worst case is written down here from the laws of motion, not taken from the code.
-/
namespace Verif.R157
open Classical

/-- Distance covered after `t` seconds by a vehicle of speed `u` that brakes with `b` until it stands. -/
noncomputable def brakePos (u b t : ℝ) : ℝ := if t * b ≤ u then u * t - b * t ^ 2 / 2 else u ^ 2 / (2 * b)

/-- Distance covered after `t` seconds by a vehicle of speed `v` that accelerates with `a` for `rt` seconds, then brakes with `b` until it stands. -/
noncomputable def reactPos (v rt a b t : ℝ) : ℝ :=
  if t ≤ rt then v * t + a * t ^ 2 / 2 else v * rt + a * rt ^ 2 / 2 + brakePos (v + a * rt) b (t - rt)

/-- Braking distance is an upper limit. -/
theorem brakePos_le {u b : ℝ} (hb : 0 < b) (t : ℝ) : brakePos u b t ≤ u ^ 2 / (2 * b) := by
  unfold brakePos
  split
  · rw [le_div_iff₀ (by linarith)]
    nlinarith [sq_nonneg (u - b * t)]
  · exact le_refl _

/-- What is left to cover. -/
theorem brakePos_left {u b t : ℝ} (hb : 0 < b) (h : t * b ≤ u) : u ^ 2 / (2 * b) - brakePos u b t = (u - b * t) ^ 2 / (2 * b) := by
  unfold brakePos
  rw [if_pos h]
  field_simp
  ring

/-- Lower limit of braking positions: never behind an earlier one. -/
theorem brakePos_ge {u b t r : ℝ} (hb : 0 < b) (hr : r ≤ t) (h : r * b ≤ u) : u * r - b * r ^ 2 / 2 ≤ brakePos u b t := by
  unfold brakePos
  split
  · rename_i h2
    nlinarith
  · rw [le_div_iff₀ (by linarith)]
    nlinarith [sq_nonneg (u - b * r)]

/-- Two quadratic stopping distances: the slower and harder braking vehicle needs less. -/
theorem stop_le {x y b1 b2 : ℝ} (h1 : 0 < b1) (h2 : b1 ≤ b2) (hx : 0 ≤ x) (hxy : x ≤ y) : x ^ 2 / (2 * b2) ≤ y ^ 2 / (2 * b1) := by
  apply div_le_div₀ (sq_nonneg y) (by nlinarith) (by linarith) (by linarith)

/-- **The gap never gets smaller than at the start or in the end.** -/
theorem gap_ge {v u rt a b1 b2 : ℝ} (hv : 0 ≤ v) (hrt : 0 ≤ rt) (ha : 0 ≤ a) (h1 : 0 < b1) (h2 : b1 ≤ b2) {t : ℝ} (ht : 0 ≤ t) :
    min 0 (u ^ 2 / (2 * b2) - (v * rt + a * rt ^ 2 / 2 + (v + a * rt) ^ 2 / (2 * b1))) ≤ brakePos u b2 t - reactPos v rt a b1 t := by
  have hb2 : 0 < b2 := by linarith
  have hreact : reactPos v rt a b1 t ≤ v * rt + a * rt ^ 2 / 2 + (v + a * rt) ^ 2 / (2 * b1) := by
    unfold reactPos
    split
    · rename_i h
      have : 0 ≤ (v + a * rt) ^ 2 / (2 * b1) := by positivity
      nlinarith [mul_nonneg hv (sub_nonneg.2 h), mul_nonneg ha (mul_nonneg (sub_nonneg.2 h) (by linarith : 0 ≤ rt + t))]
    · linarith [brakePos_le (u := v + a * rt) h1 (t - rt)]
  by_cases hl : t * b2 ≤ u
  · -- the lead vehicle still moves
    have hleft := brakePos_left hb2 hl
    have hw : 0 ≤ u - b2 * t := by linarith
    have hlead : brakePos u b2 t = u * t - b2 * t ^ 2 / 2 := by unfold brakePos; rw [if_pos hl]
    by_cases hr : t ≤ rt
    · have hego : reactPos v rt a b1 t = v * t + a * t ^ 2 / 2 := by unfold reactPos; rw [if_pos hr]
      by_cases hs : v + a * t ≤ u - b2 * t
      · apply le_trans (min_le_left _ _)
        rw [hlead, hego]
        nlinarith [mul_nonneg ht (sub_nonneg.2 hs), mul_nonneg ha (sq_nonneg t), mul_nonneg hb2.le (sq_nonneg t)]
      · apply le_trans (min_le_right _ _)
        have hvt : u - b2 * t ≤ v + a * rt := by nlinarith [mul_nonneg ha (sub_nonneg.2 hr)]
        have := stop_le h1 h2 hw hvt
        have h3 : v * t + a * t ^ 2 / 2 ≤ v * rt + a * rt ^ 2 / 2 := by
          nlinarith [mul_nonneg hv (sub_nonneg.2 hr), mul_nonneg ha (mul_nonneg (sub_nonneg.2 hr) (by linarith : 0 ≤ rt + t))]
        rw [hego]
        linarith
    · have hr' : rt < t := lt_of_not_ge hr
      have hego : reactPos v rt a b1 t = v * rt + a * rt ^ 2 / 2 + brakePos (v + a * rt) b1 (t - rt) := by unfold reactPos; rw [if_neg hr]
      by_cases hm : (t - rt) * b1 ≤ v + a * rt
      · -- both brake
        have hego2 : brakePos (v + a * rt) b1 (t - rt) = (v + a * rt) * (t - rt) - b1 * (t - rt) ^ 2 / 2 := by unfold brakePos; rw [if_pos hm]
        by_cases hs : v + a * rt - b1 * (t - rt) ≤ u - b2 * t
        · apply le_trans (min_le_left _ _)
          rw [hlead, hego, hego2]
          have e : u * t - b2 * t ^ 2 / 2 - (v * rt + a * rt ^ 2 / 2 + ((v + a * rt) * (t - rt) - b1 * (t - rt) ^ 2 / 2)) =
              (u - b2 * t - (v + a * rt - b1 * (t - rt))) * t + (b2 - b1) * t ^ 2 / 2 + (a + b1) * rt ^ 2 / 2 := by ring
          rw [e]
          have e1 := mul_nonneg (sub_nonneg.2 hs) ht
          have e2 : 0 ≤ (b2 - b1) * t ^ 2 / 2 := by
            have := mul_nonneg (sub_nonneg.2 h2) (sq_nonneg t); linarith
          have e3 : 0 ≤ (a + b1) * rt ^ 2 / 2 := by positivity
          linarith
        · apply le_trans (min_le_right _ _)
          have := stop_le h1 h2 hw (le_of_lt (lt_of_not_ge hs))
          have := brakePos_left h1 hm
          rw [hego]
          linarith
      · -- the vehicle behind stands
        apply le_trans (min_le_left _ _)
        have hq : 0 ≤ (v + a * rt) / b1 := by positivity
        obtain ⟨q, hqd⟩ : ∃ q, q = (v + a * rt) / b1 := ⟨_, rfl⟩
        have hqb : q * b1 = v + a * rt := by rw [hqd]; field_simp
        have hq0 : 0 ≤ q := by rw [hqd]; exact hq
        have hqt : q < t - rt := by
          have := lt_of_not_ge hm
          nlinarith
        have hego2 : brakePos (v + a * rt) b1 (t - rt) = (v + a * rt) * q - b1 * q ^ 2 / 2 := by
          unfold brakePos
          rw [if_neg hm, ← hqb]
          field_simp
          ring
        have hge := brakePos_ge (u := u) (b := b2) hb2 (r := rt + q) (t := t) (by linarith) (by nlinarith)
        rw [hego, hego2]
        have e : u * (rt + q) - b2 * (rt + q) ^ 2 / 2 - (v * rt + a * rt ^ 2 / 2 + ((v + a * rt) * q - b1 * q ^ 2 / 2)) =
            (u - b2 * (rt + q) - (v + a * rt - b1 * q)) * (rt + q) + (b2 - b1) * (rt + q) ^ 2 / 2 + (a + b1) * rt ^ 2 / 2 := by ring
        have e1 : 0 ≤ (u - b2 * (rt + q) - (v + a * rt - b1 * q)) * (rt + q) := by
          apply mul_nonneg _ (by linarith)
          nlinarith
        have e2 : 0 ≤ (b2 - b1) * (rt + q) ^ 2 / 2 := by
          have := mul_nonneg (sub_nonneg.2 h2) (sq_nonneg (rt + q)); linarith
        have e3 : 0 ≤ (a + b1) * rt ^ 2 / 2 := by positivity
        linarith
  · apply le_trans (min_le_right _ _)
    have hlead : brakePos u b2 t = u ^ 2 / (2 * b2) := by unfold brakePos; rw [if_neg hl]
    rw [hlead]
    linarith

/-- **RSS: no alarm means no collision.** A vehicle in front that is slower and gives no alarm may brake as hard as it can: even if the vehicle accelerates
with its largest acceleration for the whole reaction time and only then brakes, it never gets closer than zero. -/
theorem rss_safe {p : Rss} (hrt : 0 ≤ p.rt) (ha : 0 ≤ p.maxAcc) (hd : 0 < p.maxDec) {s : St} {x : Tgt} (hv : 0 ≤ s.v) (hdv : 0 < x.dv)
    (hx : 0 < x.dist) (h : (rssCritical p (some x) s).1 = false) {t : ℝ} (ht : 0 ≤ t) :
    0 ≤ x.dist + brakePos x.lead p.maxDec t - reactPos s.v p.rt p.maxAcc p.maxDec t := by
  have hs : rssSafe p s.v x.lead ≤ x.dist := by
    apply le_of_not_gt
    intro hlt
    simp only [rssCritical] at h
    rw [if_pos ⟨⟨hdv, hx⟩, hlt⟩] at h
    exact absurd h (by simp)
  have := gap_ge (u := x.lead) hv hrt ha hd (le_refl _) ht
  unfold rssSafe at hs
  rw [mul_comm p.rt p.maxAcc] at hs
  rcases min_choice 0 (x.lead ^ 2 / (2 * p.maxDec) - (s.v * p.rt + p.maxAcc * p.rt ^ 2 / 2 + (s.v + p.maxAcc * p.rt) ^ 2 / (2 * p.maxDec))) with e | e <;>
    rw [e] at this <;> linarith

/-- **RSS: the alarm is not given too early.** With an alarm the worst case does end in a collision. -/
theorem rss_alarm {p : Rss} (hrt : 0 ≤ p.rt) (ha : 0 ≤ p.maxAcc) (hd : 0 < p.maxDec) {s : St} {x : Tgt} (hv : 0 ≤ s.v) (hu : 0 ≤ x.lead)
    (h : (rssCritical p (some x) s).1 = true) :
    ∃ t, 0 ≤ t ∧ x.dist + brakePos x.lead p.maxDec t - reactPos s.v p.rt p.maxAcc p.maxDec t < 0 := by
  have hs : x.dist < rssSafe p s.v x.lead := by
    apply lt_of_not_ge
    intro hle
    simp only [rssCritical] at h
    rw [if_neg (fun c => absurd c.2 (not_lt.2 hle))] at h
    exact absurd h (by simp)
  have hq : 0 ≤ (s.v + p.maxAcc * p.rt) / p.maxDec := by positivity
  have hl : 0 ≤ x.lead / p.maxDec := by positivity
  refine ⟨p.rt + (s.v + p.maxAcc * p.rt) / p.maxDec + x.lead / p.maxDec + 1, by linarith, ?_⟩
  have e1 : brakePos x.lead p.maxDec (p.rt + (s.v + p.maxAcc * p.rt) / p.maxDec + x.lead / p.maxDec + 1) = x.lead ^ 2 / (2 * p.maxDec) := by
    unfold brakePos
    rw [if_neg]
    have : x.lead / p.maxDec * p.maxDec = x.lead := by field_simp
    nlinarith
  have e2 : reactPos s.v p.rt p.maxAcc p.maxDec (p.rt + (s.v + p.maxAcc * p.rt) / p.maxDec + x.lead / p.maxDec + 1) =
      s.v * p.rt + p.maxAcc * p.rt ^ 2 / 2 + (s.v + p.maxAcc * p.rt) ^ 2 / (2 * p.maxDec) := by
    unfold reactPos brakePos
    rw [if_neg (by linarith), if_neg]
    have : (s.v + p.maxAcc * p.rt) / p.maxDec * p.maxDec = s.v + p.maxAcc * p.rt := by field_simp
    nlinarith
  rw [e1, e2]
  unfold rssSafe at hs
  rw [mul_comm p.rt p.maxAcc] at hs
  linarith

/-- **RSS: a vehicle in front that is not slower never gives an alarm**, though in the same worst case the vehicles collide. -/
theorem rss_same_speed_fails : ∃ (s : St) (x : Tgt) (t : ℝ), x.dv = s.v - x.lead ∧ 0 < x.dist ∧ (rssCritical rssDefault (some x) s).1 = false ∧
    0 ≤ t ∧ x.dist + brakePos x.lead rssDefault.maxDec t - reactPos s.v rssDefault.rt rssDefault.maxAcc rssDefault.maxDec t < 0 := by
  refine ⟨⟨20, 0, 0, .free⟩, ⟨1, 0, 20⟩, 3 / 4, by norm_num, by norm_num, ?_, by norm_num, ?_⟩
  · simp [rssCritical]
  · unfold brakePos reactPos rssDefault
    rw [if_pos (by norm_num), if_pos (by norm_num)]
    norm_num

/-- Between the limits the grade is a number between 0 and 1. -/
theorem grade_range {d ds du : ℝ} (h : du ≤ ds) : 0 ≤ grade d ds du ∧ grade d ds du ≤ 1 := by
  unfold grade
  split
  · norm_num
  · split
    · norm_num
    · rename_i h1 h2
      rw [← neg_div_neg_eq, neg_sub, neg_sub]
      rcases lt_or_eq_of_le h with hl | he
      · exact ⟨div_nonneg (by linarith) (by linarith), by rw [div_le_one (by linarith)]; linarith⟩
      · subst he; simp

/-- A shorter distance never has a smaller grade. -/
theorem grade_anti {d d' ds du : ℝ} (h : du < ds) (hd : d ≤ d') : grade d' ds du ≤ grade d ds du := by
  by_cases h1 : ds < d'
  · rw [show grade d' ds du = 0 by unfold grade; rw [if_pos h1]]
    exact (grade_range h.le).1
  · by_cases h2 : d < du
    · rw [show grade d ds du = 1 by unfold grade; rw [if_neg (by linarith), if_pos h2]]
      exact (grade_range h.le).2
    · unfold grade
      rw [if_neg h1, if_neg (by linarith : ¬ d' < du), if_neg (by linarith : ¬ ds < d), if_neg h2]
      rw [div_le_div_right_of_neg (by linarith)]
      linarith

/-- **The fuzzy criteria are numbers between 0 and 1.** -/
theorem fsm_range (d v u acc : ℝ) :
    (0 ≤ pfs fsmDefault d v u ∧ pfs fsmDefault d v u ≤ 1) ∧ 0 ≤ cfs fsmDefault d v u acc ∧ cfs fsmDefault d v u acc ≤ 1 := by
  refine ⟨grade_range ?_, ?_⟩
  · unfold pfsSafe pfsUnsafe fsmDefault
    nlinarith [sq_nonneg v]
  · unfold cfs
    split
    · norm_num
    · split
      · split <;> norm_num
      · apply grade_range
        unfold cfsDist fsmDefault
        simp only
        nlinarith [sq_nonneg (v + max acc (-4) * (3 / 4) - u)]

/-- **FSM: no alarm means no collision.** If the vehicle brakes only with the comfortable deceleration after the reaction time and the slower vehicle in front
brakes hard, what remains of the gap is the two margins, up to a tolerance. -/
theorem fsm_safe {s : St} {x : Tgt} {accS dt : ℝ} (hdt : small < dt) (hv : 0 ≤ s.v) (hdv : 0 < x.dv) (hx : 0 < x.dist)
    (h : (fsmCritical fsmDefault accS dt (some x) s).1 = false) {t : ℝ} (ht : 0 ≤ t) :
    min x.dist (4 - (s.v ^ 2 / 24 + 2) * small) ≤
      x.dist + brakePos x.lead fsmDefault.bl t - reactPos s.v fsmDefault.rt 0 fsmDefault.brMin t := by
  have hlt : cfs fsmDefault x.dist s.v x.lead accS + pfs fsmDefault x.dist s.v x.lead < small := by
    by_cases hh : cfs fsmDefault x.dist s.v x.lead accS + pfs fsmDefault x.dist s.v x.lead < small
    · exact hh
    · simp only [fsmCritical] at h
      rw [if_pos ⟨⟨hdt, hdv, hx⟩, hh⟩] at h
      exact absurd h (by simp)
  have hc := (fsm_range x.dist s.v x.lead accS).2.1
  have hp : pfs fsmDefault x.dist s.v x.lead < small := by linarith
  have hbound : pfsSafe fsmDefault s.v x.lead - (s.v ^ 2 / 24 + 2) * small ≤ x.dist - 2 := by
    have hq : 0 ≤ (s.v ^ 2 / 24 + 2) * small := by unfold small; positivity
    have hdiff : pfsSafe fsmDefault s.v x.lead - pfsUnsafe fsmDefault s.v x.lead = s.v ^ 2 / 24 + 2 := by
      unfold pfsSafe pfsUnsafe fsmDefault
      ring
    have hpos : 0 < s.v ^ 2 / 24 + 2 := by positivity
    unfold pfs grade at hp
    have hm : fsmDefault.margin = 2 := rfl
    rw [hm] at hp
    split at hp
    · linarith
    · split at hp
      · exact absurd hp (by unfold small; norm_num)
      · rw [← neg_div_neg_eq, neg_sub, neg_sub, hdiff, div_lt_iff₀ hpos] at hp
        linarith
  have hg := gap_ge (v := s.v) (u := x.lead) (rt := fsmDefault.rt) (a := 0) (b1 := fsmDefault.brMin) (b2 := fsmDefault.bl) hv
    (by norm_num [fsmDefault]) (le_refl _) (by norm_num [fsmDefault]) (by norm_num [fsmDefault]) ht
  unfold pfsSafe at hbound
  have hsm : fsmDefault.safeMargin = 2 := rfl
  rw [hsm] at hbound
  rcases min_choice 0 (x.lead ^ 2 / (2 * fsmDefault.bl) - (s.v * fsmDefault.rt + 0 * fsmDefault.rt ^ 2 / 2 +
    (s.v + 0 * fsmDefault.rt) ^ 2 / (2 * fsmDefault.brMin))) with e | e <;> rw [e] at hg
  · exact le_trans (min_le_left _ _) (by linarith)
  · refine le_trans (min_le_right _ _) ?_
    simp only [zero_mul, add_zero, zero_div] at hg
    linarith

/-- **The proactive criterion only grows when the distance shrinks.** -/
theorem pfs_anti {d d' : ℝ} (v u : ℝ) (h : d ≤ d') : pfs fsmDefault d' v u ≤ pfs fsmDefault d v u := by
  unfold pfs
  apply grade_anti _ (by linarith)
  unfold pfsSafe pfsUnsafe fsmDefault
  nlinarith [sq_nonneg v]

/-- **The critical criterion only grows when the distance shrinks.** -/
theorem cfs_anti {d d' : ℝ} (v u acc : ℝ) (h : d ≤ d') : cfs fsmDefault d' v u acc ≤ cfs fsmDefault d v u acc := by
  unfold cfs
  split
  · exact le_refl _
  · rename_i h0
    split
    · split <;> split <;> first | (exfalso; linarith) | norm_num
    · have hle : cfsDist fsmDefault.rt v u (max acc (-fsmDefault.brMin)) fsmDefault.brMax ≤
          cfsDist fsmDefault.rt v u (max acc (-fsmDefault.brMin)) fsmDefault.brMin := by
        unfold cfsDist fsmDefault
        simp only
        nlinarith [sq_nonneg (v + max acc (-4) * (3 / 4) - u)]
      rcases lt_or_eq_of_le hle with hl | he
      · exact grade_anti hl h
      · rw [he]
        unfold grade
        simp only [sub_self, div_zero]
        repeat' split
        all_goals first | (exfalso; linarith) | norm_num

/-- **In its critical branch the division is by a deceleration**: the vehicle is then braking, so nothing is divided by zero. -/
theorem cfs_div {v u acc : ℝ} (h1 : u < v) (h2 : v + fsmDefault.rt * max acc (-fsmDefault.brMin) < u) : acc < 0 := by
  apply lt_of_not_ge
  intro h
  have : acc ≤ max acc (-fsmDefault.brMin) := le_max_left _ _
  have hrt : fsmDefault.rt = 3 / 4 := rfl
  rw [hrt] at h2
  linarith

example : (rssCritical rssDefault (some ⟨100, 5, 15⟩) ⟨20, 0, 0, .free⟩).1 = false := by
  simp only [rssCritical]
  rw [if_neg]
  rintro ⟨_, h⟩
  unfold rssSafe rssDefault at h
  norm_num at h

end Verif.R157

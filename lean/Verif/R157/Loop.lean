import Verif.R157.Safe
/-
The models as drivers: the model `Regulation` never runs into a vehicle that does not brake; limits of speed and deceleration; the object in focus.
-/
namespace Verif.R157
open Classical

/-! ### Regulation never runs into a vehicle that does not brake -/

/-- Vehicle, gap and speed of the vehicle in front. -/
structure Duel where
  s : St
  d : ℝ
  u : ℝ

/-- One time step of both vehicles: each moves with its new speed. -/
noncomputable def Duel.step (c : Cfg) (w : Duel) (e : ℝ × ℝ) : Duel :=
  ⟨regStep c (some ⟨w.d, w.s.v - w.u, w.u⟩) e.1 w.s, w.d + e.2 * e.1 - (regStep c (some ⟨w.d, w.s.v - w.u, w.u⟩) e.1 w.s).v * e.1, e.2⟩

/-- Many time steps: the step sizes and the speeds of the vehicle in front. -/
noncomputable def Duel.run (c : Cfg) (w : Duel) (l : List (ℝ × ℝ)) : Duel := l.foldl (Duel.step c) w

/-- The vehicle can still avoid a collision by braking with 6 m/s². -/
def Duel.Avoidable (w : Duel) : Prop := 0 ≤ w.d ∧ 0 ≤ w.u ∧ (0 < w.s.v - w.u → (w.s.v - w.u) ^ 2 / 12 ≤ w.d)

/-- Gap large enough for a new speed difference. -/
theorem keep {d v' u' dt w : ℝ} (hd : 0 ≤ d) (hdt : 0 ≤ dt) (hw : 0 < v' - u' → v' - u' ≤ w ∧ w ^ 2 / 12 + w * dt ≤ d) :
    0 ≤ d + u' * dt - v' * dt ∧ (0 < v' - u' → (v' - u') ^ 2 / 12 ≤ d + u' * dt - v' * dt) := by
  by_cases h : 0 < v' - u'
  · obtain ⟨h1, h2⟩ := hw h
    have e1 : (v' - u') ^ 2 ≤ w ^ 2 := by nlinarith
    have e2 : (v' - u') * dt ≤ w * dt := mul_le_mul_of_nonneg_right h1 hdt
    have e3 := sq_nonneg (v' - u')
    exact ⟨by nlinarith, fun _ => by nlinarith⟩
  · exact ⟨by nlinarith, fun c => absurd c h⟩

/-- Without an alarm there is room for the reaction. -/
theorem reg_room {c : Cfg} {x : Tgt} {s : St} (h : (regCritical c (some x) s).1 = false) (hv : 0 < x.dv) (hd : 0 < x.dist) :
    x.dv ^ 2 / 12 + 9 / 20 * x.dv ≤ x.dist := by
  simp only [regCritical] at h
  split at h
  · exact absurd h (by simp)
  · split at h
    · exact absurd h (by simp)
    · rename_i _ hn
      have hn : x.dv / (2 * 6) + 7 / 20 + 1 / 10 ≤ x.ttc := by
        apply le_of_not_gt
        intro hlt
        exact hn ⟨⟨hv, hd⟩, hlt⟩
      unfold Tgt.ttc at hn
      rw [if_pos hv, le_div_iff₀ hv] at hn
      nlinarith

/-- The target distance is at least two metres. -/
theorem regMinDist_ge (v : ℝ) : 2 ≤ regMinDist v := le_max_right _ _

/-- The clamped speed never exceeds what the acceleration gives, or zero. -/
theorem clamp_le (x set : ℝ) : clamp x 0 set ≤ max 0 x := min_le_right _ _

/-- New speed of a step, one way or another. -/
theorem reg_cases (c : Cfg) (x : Tgt) (dt : ℝ) (s : St) :
    ((regStep c (some x) dt s).v = max 0 (s.v + -6 * dt) ∧ (regCritical c (some x) s).1 = true) ∨
    ((regCritical c (some x) s).1 = false ∧ ((regStep c (some x) dt s).v = s.v ∨
      (0 < x.dist ∧ (regStep c (some x) dt s).v = clamp (s.v + followAcc (regMinDist s.v) s.v x * dt) 0 c.set))) := by
  unfold regStep
  cases h : (regCritical c (some x) s).1
  · right
    refine ⟨rfl, ?_⟩
    simp only [Bool.false_eq_true, if_false, cruise]
    split
    · split
      · rename_i hc; exact Or.inr ⟨hc.1, rfl⟩
      · exact Or.inl rfl
    · exact Or.inl rfl
  · left
    exact ⟨by simp [regReact], rfl⟩

/-- One step keeps a collision avoidable. -/
theorem reg_avoid {c : Cfg} {w : Duel} (h : w.Avoidable) {e : ℝ × ℝ} (h0 : 0 ≤ e.1) (h1 : e.1 ≤ 1 / 5) (hu : w.u ≤ e.2) : (w.step c e).Avoidable := by
  obtain ⟨hd, hu0, hj⟩ := h
  obtain ⟨dt, u'⟩ := e
  obtain ⟨s, d, u⟩ := w
  simp only at h0 h1 hu hd hu0 hj
  obtain ⟨x, hx⟩ : ∃ x : Tgt, x = ⟨d, s.v - u, u⟩ := ⟨_, rfl⟩
  have hxd : x.dist = d := by rw [hx]
  have hxv : x.dv = s.v - u := by rw [hx]
  show 0 ≤ d + u' * dt - (regStep c (some ⟨d, s.v - u, u⟩) dt s).v * dt ∧ 0 ≤ u' ∧
    (0 < (regStep c (some ⟨d, s.v - u, u⟩) dt s).v - u' → ((regStep c (some ⟨d, s.v - u, u⟩) dt s).v - u') ^ 2 / 12 ≤
      d + u' * dt - (regStep c (some ⟨d, s.v - u, u⟩) dt s).v * dt)
  rw [← hx]
  suffices hk : ∃ w, 0 < (regStep c (some x) dt s).v - u' → (regStep c (some x) dt s).v - u' ≤ w ∧ w ^ 2 / 12 + w * dt ≤ d by
    obtain ⟨w, hw⟩ := hk
    have := keep (w := w) hd h0 hw
    exact ⟨this.1, by linarith, this.2⟩
  rcases reg_cases c x dt s with ⟨hv, hc⟩ | ⟨hc, hv | ⟨hdp, hv⟩⟩
  · refine ⟨s.v - u - 6 * dt, fun hp => ?_⟩
    rw [hv] at hp ⊢
    have hpos : 0 < s.v + -6 * dt := by
      apply lt_of_not_ge
      intro hle
      rw [max_eq_left hle] at hp
      linarith
    rw [max_eq_right hpos.le] at hp ⊢
    refine ⟨by linarith, ?_⟩
    have := hj (by nlinarith)
    nlinarith [sq_nonneg dt]
  · refine ⟨s.v - u, fun hp => ?_⟩
    rw [hv] at hp ⊢
    have hdv : 0 < s.v - u := by linarith
    refine ⟨by linarith, ?_⟩
    have hj' := hj hdv
    have hdpos : 0 < x.dist := by
      rw [hxd]
      have : 0 < (s.v - u) ^ 2 := by positivity
      linarith
    have := reg_room hc (by rw [hxv]; exact hdv) hdpos
    rw [hxd, hxv] at this
    nlinarith
  · obtain ⟨a, ha⟩ : ∃ a, a = followAcc (regMinDist s.v) s.v x := ⟨_, rfl⟩
    rw [← ha] at hv
    refine ⟨s.v - u + a * dt, fun hp => ?_⟩
    have hle := clamp_le (s.v + a * dt) c.set
    rw [hv] at hp ⊢
    have hpos : 0 < s.v + a * dt := by
      apply lt_of_not_ge
      intro hn
      rw [max_eq_left hn] at hle
      linarith
    rw [max_eq_right hpos.le] at hle
    have hw : 0 < s.v - u + a * dt := by linarith
    refine ⟨by linarith, ?_⟩
    by_cases ha0 : a ≤ 0
    · have hadt : a * dt ≤ 0 := by nlinarith
      have hdv : 0 < s.v - u := by linarith
      have := reg_room hc (by rw [hxv]; exact hdv) hdp
      rw [hxd, hxv] at this
      nlinarith
    · have ha0 : 0 < a := lt_of_not_ge ha0
      have hb : a ≤ 3 ∧ 2 + 2 * (s.v - u) < d := by
        unfold followAcc at ha
        split at ha
        · exact absurd ha0 (by rw [ha]; exact lt_irrefl _)
        · unfold clamp at ha
          refine ⟨by rw [ha]; exact min_le_left _ _, ?_⟩
          rw [ha, lt_min_iff, lt_max_iff] at ha0
          have h2 := regMinDist_ge s.v
          rcases ha0.2 with h | h
          · exact absurd h (by norm_num)
          · rw [hxd, hxv] at h
            linarith
      obtain ⟨ha3, hdd⟩ := hb
      have hadt : a * dt ≤ 3 * dt := by nlinarith
      have hwle : s.v - u + a * dt ≤ s.v - u + 3 * dt := by linarith
      obtain ⟨q, hq⟩ : ∃ q, q = s.v - u := ⟨_, rfl⟩
      rw [← hq] at hdd hw hwle ⊢
      obtain ⟨z, hz⟩ : ∃ z, z = q + a * dt := ⟨_, rfl⟩
      rw [← hz] at hw hwle ⊢
      have hz2 : z ≤ q + 3 / 5 := by linarith
      by_cases hq1 : 1 ≤ q
      · have := reg_room hc (by rw [hxv, ← hq]; linarith) hdp
        rw [hxd, hxv, ← hq] at this
        have e1 : z ^ 2 ≤ (q + 3 * dt) ^ 2 := by nlinarith
        have e2 : z * dt ≤ (q + 3 * dt) * dt := mul_le_mul_of_nonneg_right hwle h0
        have e3 : q * dt ≤ q * (1 / 5) := by nlinarith
        have e4 : dt ^ 2 ≤ 1 / 25 := by nlinarith
        nlinarith
      · have hq1 : q < 1 := lt_of_not_ge hq1
        have e1 : z ^ 2 ≤ (q + 3 / 5) ^ 2 := by nlinarith
        have e2 : z * dt ≤ (q + 3 / 5) * (1 / 5) := by nlinarith
        nlinarith

/-- **The model `Regulation` never runs into a vehicle that does not brake**, for any number of steps of at most 0.2 s, whatever the vehicle in front does
except slowing down, if a collision was avoidable when the vehicle came into focus. -/
theorem reg_no_collision (c : Cfg) : ∀ (l : List (ℝ × ℝ)) (w : Duel), w.Avoidable → (∀ e ∈ l, 0 ≤ e.1 ∧ e.1 ≤ 1 / 5) →
    List.Pairwise (· ≤ ·) (w.u :: l.map Prod.snd) → 0 ≤ (w.run c l).d
  | [], w, h, _, _ => h.1
  | e :: l, w, h, hl, hp => by
    simp only [List.map_cons] at hp
    have hp2 := List.pairwise_cons.1 hp
    have he := hl e (by simp)
    have h1 := reg_avoid (c := c) h he.1 he.2 (hp2.1 e.2 (by simp))
    exact reg_no_collision c l (w.step c e) h1 (fun x hx => hl x (by simp [hx])) hp2.2

/-! ### Limits of the speed -/

/-- The clamped speed is in range. -/
theorem clamp_range {x set : ℝ} (h : 0 ≤ set) : 0 ≤ clamp x 0 set ∧ clamp x 0 set ≤ set :=
  ⟨le_min h (le_max_left _ _), min_le_left _ _⟩

/-- Cruising keeps the speed in range. -/
theorem cruise_range {c : Cfg} (hc : 0 ≤ c.set) (m : ℝ) (o : Option Tgt) (dt : ℝ) {s : St} :
    (s.v ≤ c.set → (cruise c m o dt s).v ≤ c.set) ∧ (0 ≤ s.v → 0 ≤ (cruise c m o dt s).v) := by
  unfold cruise
  split
  · split
    · exact ⟨fun _ => (clamp_range hc).2, fun _ => (clamp_range hc).1⟩
    · split
      · exact ⟨fun _ => (clamp_range hc).2, fun _ => (clamp_range hc).1⟩
      · exact ⟨id, id⟩
  · exact ⟨id, id⟩

/-- **Regulation: between zero and the set speed**, whatever is in front. -/
theorem reg_speed {c : Cfg} (hc : 0 ≤ c.set) (o : Option Tgt) {dt : ℝ} (hdt : 0 ≤ dt) {s : St} (h : 0 ≤ s.v ∧ s.v ≤ c.set) :
    0 ≤ (regStep c o dt s).v ∧ (regStep c o dt s).v ≤ c.set := by
  unfold regStep
  split
  · exact ⟨le_max_left _ _, max_le hc (by simp only; nlinarith [h.2])⟩
  · have := cruise_range (s := { s with mode := (regCritical c o s).2 }) hc (regMinDist s.v) o dt
    exact ⟨this.2 h.1, this.1 h.2⟩

/-- While the alarm lasts, the driver still waits or brakes already. -/
def St.Brakes (s : St) : Prop := s.mode = .critical → s.acc ≤ 0 ∨ 0 < s.rt

/-- Raising the alarm: the reaction time starts. -/
theorem alarm_brakes {s : St} (h : s.Brakes) {rt : ℝ} (hrt : 0 < rt) : ((s.alarm rt).acc ≤ 0 ∨ 0 < (s.alarm rt).rt) ∧ (s.alarm rt).v = s.v ∧
    (s.alarm rt).acc = s.acc := by
  unfold St.alarm
  split
  · rename_i hm; exact ⟨h hm, rfl, rfl⟩
  · exact ⟨Or.inr hrt, rfl, rfl⟩

/-- Cruising ends without an alarm if it starts without. -/
theorem cruise_brakes {c : Cfg} {m : ℝ} {o : Option Tgt} {dt : ℝ} {s : St} (h : s.mode ≠ .critical) : (cruise c m o dt s).Brakes := by
  unfold cruise
  intro hm
  split at hm
  · split at hm
    · exact absurd hm (by simp)
    · split at hm
      · exact absurd hm (by simp)
      · exact absurd hm h
  · exact absurd hm h

/-- **RSS: never above the set speed.** -/
theorem rss_speed_partial {p : Rss} (hrt : 0 < p.rt) (hj : 0 ≤ p.jerk) {c : Cfg} (hc : 0 ≤ c.set) (o : Option Tgt) {dt : ℝ} (hdt : 0 ≤ dt) {s : St}
    (h : s.Brakes) (hv : s.v ≤ c.set) : (rssStep p c o dt s).Brakes ∧ (rssStep p c o dt s).v ≤ c.set := by
  unfold rssStep
  cases o with
  | none =>
    simp only [rssCritical, Bool.false_eq_true, if_false]
    exact ⟨cruise_brakes (by simp), (cruise_range hc _ _ _).1 hv⟩
  | some x =>
    simp only [rssCritical]
    by_cases hx : (0 < x.dv ∧ 0 < x.dist) ∧ x.dist < rssSafe p s.v x.lead
    · simp only [if_pos hx, if_true]
      obtain ⟨h1, h2, h3⟩ := alarm_brakes h hrt
      unfold rssReact
      split
      · refine ⟨fun _ => Or.inl (min_le_right _ _), ?_⟩
        show (s.alarm p.rt).v + min (s.alarm p.rt).acc 0 * dt ≤ c.set
        have : min (s.alarm p.rt).acc 0 ≤ 0 := min_le_right _ _
        nlinarith
      · rename_i hn
        have ha : (s.alarm p.rt).acc ≤ 0 := h1.resolve_right hn
        have hm : min ((s.alarm p.rt).acc - p.jerk * dt) p.maxDec ≤ 0 := le_trans (min_le_left _ _) (by nlinarith)
        refine ⟨fun _ => Or.inl hm, max_le ?_ hc⟩
        nlinarith
    · simp only [if_neg hx, Bool.false_eq_true, if_false]
      exact ⟨cruise_brakes (by simp), (cruise_range hc _ _ _).1 hv⟩

/-- **RSS: the speed gets negative.** The vehicle closes up slowly behind another, which then stops: during the reaction time the deceleration goes on and
passes zero. Two steps of 0.1 s from a start without alarm. -/
theorem rss_speed_fails : ∃ (c : Cfg) (s1 : St), c.cruise = true ∧
    s1 = rssStep rssDefault c (some ⟨1 / 2, 0, 9 / 20⟩) (1 / 10) ⟨9 / 20, 0, 0, .free⟩ ∧ 0 < s1.v ∧
    (rssStep rssDefault c (some ⟨1 / 2 - s1.v / 10, s1.v, 0⟩) (1 / 10) s1).v < 0 := by
  refine ⟨⟨20, true, false⟩, _, rfl, rfl, ?_⟩
  obtain ⟨a, ha⟩ : ∃ a, a = followAcc (rssMinDist rssDefault (9 / 20)) (9 / 20) ⟨1 / 2, 0, 9 / 20⟩ := ⟨_, rfl⟩
  have hb : -33 / 10 < a ∧ a < -32 / 10 := by
    rw [ha]
    unfold followAcc
    rw [if_neg (by unfold small; rw [abs_of_pos (by norm_num)]; norm_num)]
    unfold clamp rssMinDist rssDefault
    simp only
    rw [max_eq_right (a := (9 / 20 - 3 / 4 * 3 * (387 / 500 * (981 / 100)) : ℝ)) (b := 0) (by norm_num)]
    exact ⟨lt_min (by norm_num) (lt_max_of_lt_right (by norm_num)), min_lt_of_right_lt (max_lt (by norm_num) (by norm_num))⟩
  have h1 : rssStep rssDefault ⟨20, true, false⟩ (some ⟨1 / 2, 0, 9 / 20⟩) (1 / 10) ⟨9 / 20, 0, 0, .free⟩ = ⟨9 / 20 + a * (1 / 10), a, 0, .sight⟩ := by
    unfold rssStep
    have hc : rssCritical rssDefault (some ⟨1 / 2, 0, 9 / 20⟩) ⟨9 / 20, 0, 0, .free⟩ = (false, ⟨9 / 20, 0, 0, .sight⟩) := by simp [rssCritical]
    rw [hc]
    simp only [Bool.false_eq_true, if_false, cruise, if_true]
    rw [if_pos ⟨by norm_num, by unfold Tgt.ttc; norm_num⟩, ← ha]
    have : clamp (9 / 20 + a * (1 / 10)) 0 20 = 9 / 20 + a * (1 / 10) := by
      unfold clamp
      rw [max_eq_right (by linarith), min_eq_right (by linarith)]
    rw [this]
  rw [h1]
  refine ⟨by simp only; linarith, ?_⟩
  obtain ⟨v, hv⟩ : ∃ v, v = 9 / 20 + a * (1 / 10) := ⟨_, rfl⟩
  rw [← hv]
  have hv0 : 0 < v := by linarith
  unfold rssStep
  have hc : rssCritical rssDefault (some ⟨1 / 2 - v / 10, v, 0⟩) ⟨v, a, 0, .sight⟩ = (true, ⟨v, a, 3 / 4, .critical⟩) := by
    simp only [rssCritical]
    rw [if_pos]
    · simp [St.alarm, rssDefault]
    · refine ⟨⟨hv0, by linarith⟩, ?_⟩
      unfold rssSafe rssDefault
      have : 0 ≤ (v + 3 / 4 * 3) ^ 2 / (2 * (387 / 500 * (981 / 100))) := by positivity
      simp only
      norm_num at this ⊢
      linarith
  rw [hc]
  simp only [if_true, rssReact]
  rw [if_pos (by norm_num), min_eq_left (by linarith)]
  simp only
  linarith

/-- **RSS: as long as the alarm lasts after the reaction time, the deceleration grows without end.** -/
theorem rss_dec {p : Rss} {c : Cfg} {o : Option Tgt} {dt : ℝ} {s : St} (hm : s.mode = .critical) (hr : s.rt ≤ 0)
    (hs : s.acc - p.jerk * dt ≤ p.maxDec) (h : (rssCritical p o s).1 = true) :
    (rssStep p c o dt s).acc = s.acc - p.jerk * dt ∧ (rssStep p c o dt s).mode = .critical ∧ (rssStep p c o dt s).rt = s.rt := by
  have h2 : (rssCritical p o s).2 = s := by
    cases o with
    | none => simp [rssCritical] at h
    | some x =>
      simp only [rssCritical] at h ⊢
      split at h
      · rename_i hx; rw [if_pos hx]; simp [St.alarm, hm]
      · exact absurd h (by simp)
  unfold rssStep
  rw [if_pos h, h2]
  unfold rssReact
  rw [if_neg (not_lt.2 hr)]
  exact ⟨min_eq_left hs, hm, rfl⟩

/-- **RSS: the largest deceleration is not a limit**: after an allowed deceleration one step of 0.1 s exceeds it. -/
theorem rss_dec_fails : ∃ (c : Cfg) (s : St) (x : Tgt), s.Brakes ∧ -rssDefault.maxDec ≤ s.acc ∧ x.dv = s.v - x.lead ∧
    (rssStep rssDefault c (some x) (1 / 10) s).acc < -rssDefault.maxDec ∧
    (rssStep rssDefault c (some x) (1 / 10) s).v < s.v - rssDefault.maxDec * (1 / 10) := by
  have hc : (rssCritical rssDefault (some ⟨20, 20, 0⟩) ⟨20, -7, 0, .critical⟩).1 = true := by
    simp only [rssCritical]
    rw [if_pos]
    unfold rssSafe rssDefault
    norm_num
  refine ⟨⟨20, true, false⟩, ⟨20, -7, 0, .critical⟩, ⟨20, 20, 0⟩, fun _ => Or.inl (by norm_num), by norm_num [rssDefault], by norm_num, ?_, ?_⟩
  · rw [(rss_dec (p := rssDefault) (c := ⟨20, true, false⟩) (o := some ⟨20, 20, 0⟩) (dt := 1 / 10) (s := ⟨20, -7, 0, .critical⟩) rfl (le_refl _)
      (by norm_num [rssDefault]) hc).1]
    norm_num [rssDefault]
  · have h2 : (rssCritical rssDefault (some ⟨20, 20, 0⟩) ⟨20, -7, 0, .critical⟩).2 = ⟨20, -7, 0, .critical⟩ := by
      simp only [rssCritical] at hc ⊢
      split at hc
      · rename_i hx; rw [if_pos hx]; simp [St.alarm]
      · exact absurd hc (by simp)
    unfold rssStep
    rw [if_pos hc, h2]
    unfold rssReact
    rw [if_neg (by norm_num)]
    simp only
    rw [min_eq_left (by norm_num [rssDefault]), max_eq_left (by norm_num [rssDefault])]
    norm_num [rssDefault]

/-! ### FSM -/

/-- What the criteria ask for is between zero and the hard deceleration. -/
theorem fsmDemand_range {cf pf : ℝ} (hc : 0 ≤ cf ∧ cf ≤ 1) (hp : 0 ≤ pf ∧ pf ≤ 1) : 0 ≤ fsmDemand fsmDefault cf pf ∧ fsmDemand fsmDefault cf pf ≤ 6 := by
  unfold fsmDemand fsmDefault
  split
  · constructor <;> simp only <;> linarith
  · constructor <;> simp only <;> linarith

/-- Cruising with an allowed deceleration. -/
theorem cruise_dec {c : Cfg} {m : ℝ} {o : Option Tgt} {dt : ℝ} (hdt : 0 ≤ dt) {s : St} (hv : s.v ≤ c.set) :
    -4 ≤ (cruise c m o dt s).acc ∧ s.v - 4 * dt ≤ (cruise c m o dt s).v := by
  have key : ∀ a : ℝ, -4 ≤ a → s.v - 4 * dt ≤ clamp (s.v + a * dt) 0 c.set := fun a ha =>
    le_min (by linarith) (le_trans (by nlinarith) (le_max_right _ _))
  have hf : -4 ≤ freeAcc c.set s.v := by unfold freeAcc; split <;> [norm_num; (split <;> norm_num)]
  have hg : ∀ x, -4 ≤ followAcc m s.v x := fun x => by
    unfold followAcc
    split
    · norm_num
    · exact le_min (by norm_num) (le_max_left _ _)
  unfold cruise
  split
  · split
    · exact ⟨hf, key _ hf⟩
    · split
      · exact ⟨hg _, key _ (hg _)⟩
      · exact ⟨by norm_num, by simp only; linarith⟩
  · exact ⟨by norm_num, by simp only; linarith⟩

/-- **FSM: the largest deceleration is a limit**, of the acceleration and of the change of speed in a step; and the speed stays below the set speed. -/
theorem fsm_limits {c : Cfg} (hc : 0 ≤ c.set) (accS : ℝ) (o : Option Tgt) {dt : ℝ} (hdt : 0 ≤ dt) {s : St} (h : s.Brakes) (hv : s.v ≤ c.set)
    (ha : -fsmDefault.maxDec ≤ s.acc) :
    (fsmStep fsmDefault c accS o dt s).Brakes ∧ (fsmStep fsmDefault c accS o dt s).v ≤ c.set ∧
    -fsmDefault.maxDec ≤ (fsmStep fsmDefault c accS o dt s).acc ∧ s.v - fsmDefault.maxDec * dt ≤ (fsmStep fsmDefault c accS o dt s).v := by
  have hD : (4 : ℝ) ≤ fsmDefault.maxDec := by norm_num [fsmDefault]
  have hD4 : 4 * dt ≤ fsmDefault.maxDec * dt := mul_le_mul_of_nonneg_right hD hdt
  cases o with
  | none =>
    have := cruise_dec (c := c) (m := 0) (o := none) hdt (s := { s with mode := .free }) hv
    refine ⟨cruise_brakes (by simp), (cruise_range hc _ _ _).1 hv, le_trans (by linarith) this.1, le_trans ?_ this.2⟩
    simp only
    linarith
  | some x =>
    by_cases hx : (small < dt ∧ 0 < x.dv ∧ 0 < x.dist) ∧ ¬ (cfs fsmDefault x.dist s.v x.lead accS + pfs fsmDefault x.dist s.v x.lead < small)
    · obtain ⟨r1, r2⟩ := fsm_range x.dist s.v x.lead accS
      have hd := fsmDemand_range r2 r1
      simp only [fsmStep, fsmCritical, if_pos hx, if_true]
      obtain ⟨h1, h2, h3⟩ := alarm_brakes h (rt := fsmDefault.rt) (by norm_num [fsmDefault])
      unfold fsmReact
      split
      · have hm : min (s.alarm fsmDefault.rt).acc 0 ≤ 0 := min_le_right _ _
        have hl : -fsmDefault.maxDec ≤ min (s.alarm fsmDefault.rt).acc 0 := le_min (by rw [h3]; exact ha) (by linarith)
        refine ⟨fun _ => Or.inl hm, ?_, hl, ?_⟩
        · simp only; nlinarith
        · simp only; rw [h2]; nlinarith
      · rename_i hn
        have ha0 : (s.alarm fsmDefault.rt).acc ≤ 0 := h1.resolve_right hn
        obtain ⟨a, hadef⟩ : ∃ a, a = max (max ((s.alarm fsmDefault.rt).acc - fsmDefault.jerk * dt) (-fsmDefault.maxDec))
            (-fsmDemand fsmDefault (cfs fsmDefault x.dist s.v x.lead accS) (pfs fsmDefault x.dist s.v x.lead)) := ⟨_, rfl⟩
        have hj : fsmDefault.jerk = 253 / 20 := rfl
        have hup : a ≤ 0 := by
          rw [hadef]
          refine max_le (max_le ?_ (by linarith)) (by linarith)
          rw [hj]; linarith
        have hlo : -fsmDefault.maxDec ≤ a := by
          rw [hadef]
          exact le_trans (le_max_right _ _) (le_max_left _ _)
        simp only
        rw [← hadef]
        refine ⟨fun _ => Or.inl hup, max_le (by nlinarith) hc, hlo, le_trans ?_ (le_max_left _ _)⟩
        rw [h2]
        nlinarith
    · simp only [fsmStep, fsmCritical, if_neg hx, Bool.false_eq_true, if_false]
      have := cruise_dec (c := c) (m := fsmMinDist fsmDefault s.v (some x)) (o := some x) hdt (s := { s with mode := .sight }) hv
      refine ⟨cruise_brakes (by simp), (cruise_range hc _ _ _).1 hv, le_trans (by linarith) this.1, le_trans ?_ this.2⟩
      simp only
      linarith

/-- **FSM: after the reaction time it does not brake harder than the criteria ask for.** -/
theorem fsm_demand {c : Cfg} {accS dt : ℝ} {x : Tgt} {s : St} (hm : s.mode = .critical) (hr : s.rt ≤ 0)
    (h : (fsmCritical fsmDefault accS dt (some x) s).1 = true) :
    -(if small < cfs fsmDefault x.dist s.v x.lead accS then 4 + 2 * cfs fsmDefault x.dist s.v x.lead accS else 4 * pfs fsmDefault x.dist s.v x.lead) ≤
      (fsmStep fsmDefault c accS (some x) dt s).acc ∧ 0 ≤ (fsmStep fsmDefault c accS (some x) dt s).v := by
  have h2 : (fsmCritical fsmDefault accS dt (some x) s).2 = s := by
    simp only [fsmCritical] at h ⊢
    split at h
    · rename_i hx; rw [if_pos hx]; simp [St.alarm, hm]
    · exact absurd h (by simp)
  unfold fsmStep
  simp only
  rw [if_pos h, h2]
  unfold fsmReact
  rw [if_neg (not_lt.2 hr)]
  refine ⟨le_trans (le_of_eq ?_) (le_max_right _ _), le_max_right _ _⟩
  unfold fsmDemand
  split <;> norm_num [fsmDefault] <;> ring

/-- **FSM: the speed gets negative**, as with RSS. -/
theorem fsm_speed_fails : ∃ (c : Cfg) (s1 : St), c.cruise = true ∧
    s1 = fsmStep fsmDefault c 0 (some ⟨1 / 2, 0, 9 / 20⟩) (1 / 10) ⟨9 / 20, 0, 0, .free⟩ ∧ 0 < s1.v ∧
    (fsmStep fsmDefault c s1.acc (some ⟨1 / 2 - s1.v / 10, s1.v, 0⟩) (1 / 10) s1).v < 0 := by
  refine ⟨⟨20, true, false⟩, _, rfl, rfl, ?_⟩
  obtain ⟨a, ha⟩ : ∃ a, a = followAcc (fsmMinDist fsmDefault (9 / 20) (some ⟨1 / 2, 0, 9 / 20⟩)) (9 / 20) ⟨1 / 2, 0, 9 / 20⟩ := ⟨_, rfl⟩
  have hb : -4 < a ∧ a < -32 / 10 := by
    rw [ha]
    unfold followAcc
    rw [if_neg (by unfold small; rw [abs_of_pos (by norm_num)]; norm_num)]
    unfold clamp fsmMinDist fsmDefault
    simp only
    exact ⟨lt_min (by norm_num) (lt_max_of_lt_right (by norm_num)), min_lt_of_right_lt (max_lt (by norm_num) (by norm_num))⟩
  have h1 : fsmStep fsmDefault ⟨20, true, false⟩ 0 (some ⟨1 / 2, 0, 9 / 20⟩) (1 / 10) ⟨9 / 20, 0, 0, .free⟩ = ⟨9 / 20 + a * (1 / 10), a, 0, .sight⟩ := by
    have hc : fsmCritical fsmDefault 0 (1 / 10) (some ⟨1 / 2, 0, 9 / 20⟩) ⟨9 / 20, 0, 0, .free⟩ = (false, ⟨9 / 20, 0, 0, .sight⟩) := by simp [fsmCritical]
    unfold fsmStep
    simp only
    rw [hc]
    simp only [Bool.false_eq_true, if_false, cruise, if_true]
    rw [if_pos ⟨by norm_num, by unfold Tgt.ttc; norm_num⟩, ← ha]
    have : clamp (9 / 20 + a * (1 / 10)) 0 20 = 9 / 20 + a * (1 / 10) := by
      unfold clamp
      rw [max_eq_right (by linarith), min_eq_right (by linarith)]
    rw [this]
  rw [h1]
  refine ⟨by simp only; linarith, ?_⟩
  obtain ⟨v, hv⟩ : ∃ v, v = 9 / 20 + a * (1 / 10) := ⟨_, rfl⟩
  simp only
  rw [← hv]
  have hv0 : 0 < v := by linarith
  have hp : pfs fsmDefault (1 / 2 - v / 10) v 0 = 1 := by
    have hsq := sq_nonneg v
    unfold pfs grade pfsSafe pfsUnsafe fsmDefault
    simp only
    rw [if_neg (by norm_num; nlinarith), if_pos (by norm_num; nlinarith)]
  have hc : fsmCritical fsmDefault a (1 / 10) (some ⟨1 / 2 - v / 10, v, 0⟩) ⟨v, a, 0, .sight⟩ = (true, ⟨v, a, 3 / 4, .critical⟩) := by
    simp only [fsmCritical]
    rw [if_pos]
    · simp [St.alarm, fsmDefault]
    · refine ⟨⟨by unfold small; norm_num, hv0, by linarith⟩, ?_⟩
      have := (fsm_range (1 / 2 - v / 10) v 0 a).2.1
      rw [hp]
      unfold small
      intro hh
      linarith
  unfold fsmStep
  simp only
  rw [hc]
  simp only [if_true, fsmReact]
  rw [if_pos (by norm_num), min_eq_left (by linarith)]
  simp only
  linarith

/-! ### The object in focus -/

/-- A threat the controller has measured. -/
def Seen.Threat (o : Seen) : Prop := o.measured = true ∧ o.threat = true

/-- What may be in focus: a threat of the list, nearer than the largest number. -/
def Good (A : List Seen) (m : Seen) : Prop := m ∈ A ∧ m.Threat ∧ m.dist < 10000000000

/-- One round keeps the closest. -/
theorem detect1_best {A : List Seen} {c : Option Seen} {o : Seen} (hc : ∀ m, c = some m → Good A m) (ho : o ∈ A) :
    (∀ m, detect1 c o = some m → Good A m ∧ (o.Threat → m.dist ≤ o.dist) ∧ (∀ k, c = some k → m.dist ≤ k.dist)) ∧
    (detect1 c o = none → c = none ∧ (o.Threat → 10000000000 ≤ o.dist)) := by
  unfold detect1
  split
  · rename_i hn
    have hnt : ¬ o.Threat := by
      rintro ⟨h1, h2⟩
      rcases hn with h | h <;> simp_all
    exact ⟨fun m hm => ⟨hc m hm, fun h => absurd h hnt, fun k hk => by rw [hm] at hk; cases hk; exact le_refl _⟩,
      fun h => ⟨h, fun h => absurd h hnt⟩⟩
  · rename_i hn
    have ht : o.Threat := by
      cases h1 : o.measured <;> cases h2 : o.threat <;> simp_all [Seen.Threat]
    cases c with
    | none =>
      simp only
      split
      · rename_i h
        exact ⟨fun m hm => by cases hm; exact ⟨⟨ho, ht, h⟩, fun _ => le_refl _, fun k hk => by cases hk⟩, fun h => by cases h⟩
      · rename_i h
        exact ⟨fun m hm => (by cases hm), fun _ => ⟨trivial, fun _ => not_lt.1 h⟩⟩
    | some k =>
      have hk := hc k rfl
      simp only
      split
      · rename_i h
        exact ⟨fun m hm => by cases hm; exact ⟨⟨ho, ht, lt_trans h hk.2.2⟩, fun _ => le_refl _, fun j hj => by cases hj; exact h.le⟩, fun h => by cases h⟩
      · rename_i h
        exact ⟨fun m hm => by cases hm; exact ⟨hk, fun _ => not_lt.1 h, fun j hj => by cases hj; exact le_refl _⟩, fun h => by cases h⟩

/-- The fold. -/
theorem detect_fold (A : List Seen) : ∀ (l : List Seen) (c : Option Seen), (∀ m, c = some m → Good A m) → (∀ o ∈ l, o ∈ A) →
    (∀ m, l.foldl detect1 c = some m → Good A m ∧ (∀ o ∈ l, o.Threat → m.dist ≤ o.dist) ∧ (∀ k, c = some k → m.dist ≤ k.dist)) ∧
    (l.foldl detect1 c = none → c = none ∧ ∀ o ∈ l, o.Threat → 10000000000 ≤ o.dist)
  | [], c, hc, _ => ⟨fun m hm => ⟨hc m hm, fun o ho => by simp at ho, fun k hk => by
      have hm : c = some m := hm
      rw [hm] at hk; cases hk; exact le_refl _⟩,
      fun h => ⟨h, fun o ho => by simp at ho⟩⟩
  | o :: l, c, hc, hl => by
    have h1 := detect1_best (A := A) (c := c) (o := o) hc (hl o (by simp))
    have ih := detect_fold A l (detect1 c o) (fun m hm => (h1.1 m hm).1) (fun x hx => hl x (by simp [hx]))
    refine ⟨fun m hm => ?_, fun hn => ?_⟩
    · obtain ⟨i1, i2, i3⟩ := ih.1 m hm
      refine ⟨i1, ?_, ?_⟩
      · intro x hx ht
        rcases List.mem_cons.1 hx with rfl | hx
        · cases hd : detect1 c x with
          | none => exact le_trans i1.2.2.le ((h1.2 hd).2 ht)
          | some k => exact le_trans (i3 k hd) ((h1.1 k hd).2.1 ht)
        · exact i2 x hx ht
      · intro k hk
        cases hd : detect1 c o with
        | none => rw [(h1.2 hd).1] at hk; cases hk
        | some j => exact le_trans (i3 j hd) ((h1.1 j hd).2.2 k hk)
    · obtain ⟨i1, i2⟩ := ih.2 hn
      obtain ⟨j1, j2⟩ := h1.2 i1
      refine ⟨j1, fun x hx ht => ?_⟩
      rcases List.mem_cons.1 hx with rfl | hx
      · exact j2 ht
      · exact i2 x hx ht

/-- **The controller watches a closest threat**, whatever the order of the entities. -/
theorem detect_closest {l : List Seen} {m : Seen} (h : detect l = some m) : m ∈ l ∧ m.Threat ∧ ∀ o ∈ l, o.Threat → m.dist ≤ o.dist := by
  have := (detect_fold l l none (fun m hm => by cases hm) (fun o ho => ho)).1 m h
  exact ⟨this.1.1, this.1.2.1, this.2.1⟩

/-- **A threat is never missed**: with a threat at a finite distance, some threat is in focus. -/
theorem detect_some {l : List Seen} {o : Seen} (ho : o ∈ l) (ht : o.Threat) (hd : o.dist < 10000000000) : ∃ m, detect l = some m := by
  cases h : detect l with
  | some m => exact ⟨m, rfl⟩
  | none => exact absurd ((detect_fold l l none (fun m hm => by cases hm) (fun o ho => ho)).2 h |>.2 o ho ht) (not_le.2 hd)

example : (Duel.mk ⟨20, 0, 0, .free⟩ 40 10).Avoidable := ⟨by norm_num, by norm_num, fun _ => by norm_num⟩

example : 0 ≤ ((Duel.mk ⟨20, 0, 0, .free⟩ 40 10).run ⟨30, true, false⟩ [(1 / 10, 10), (1 / 5, 11)]).d :=
  reg_no_collision _ _ _ ⟨by norm_num, by norm_num, fun _ => by norm_num⟩
    (by simp only [List.mem_cons, List.not_mem_nil, or_false, forall_eq_or_imp, forall_eq]; norm_num) (by norm_num)

example : (⟨20, -2, 0, .critical⟩ : St).Brakes := fun _ => Or.inl (by norm_num)

example : Seen.Threat ⟨1, true, true, 30⟩ := ⟨rfl, rfl⟩

end Verif.R157

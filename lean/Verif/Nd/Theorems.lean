import Mathlib.Tactic.Linarith
import Mathlib.Tactic.NormNum
import Mathlib.Tactic.Positivity
import Mathlib.Tactic.FieldSimp
import Verif.Nd.Model
/-! The natural driver: limits of speed and acceleration, following, lane changes. -/
namespace Verif.Nd
open Classical

/-- Sensible properties. -/
structure Params.Ok (p : Params) : Prop where
  dist : 0 ≤ p.dist
  speed : 0 < p.speed
  duration : 0 ≤ p.duration
  delay : 0 ≤ p.delay
  maxDec : p.maxDec ≤ 0
  maxAcc : 0 < p.maxAcc
  thw : 0 ≤ p.thw
  imposed : 0 ≤ p.imposed

/-! ### Speed and acceleration -/

theorem limit_range {p : Params} (hp : p.Ok) {m v : ℝ} (hm : 0 ≤ m) : 0 ≤ limit p m v ∧ limit p m v ≤ p.speed := by
  have := hp.speed
  unfold limit
  split_ifs <;> constructor <;> linarith

/-- The speed stays between zero and the desired speed. -/
theorem speed_range {p : Params} (hp : p.Ok) {e : Env} (hm : 0 ≤ e.maxSpeed) (d : Drv) :
    0 ≤ (step p e d).1.speed ∧ (step p e d).1.speed ≤ p.speed := limit_range hp hm

/-- With a desired speed within that of the vehicle, so is the speed. Missing: a higher desired speed. -/
theorem speed_max_partial {p : Params} {e : Env} (hs : p.speed ≤ e.maxSpeed) (hm : 0 ≤ e.maxSpeed) (d : Drv) :
    (step p e d).1.speed ≤ e.maxSpeed := by
  show limit p _ _ ≤ _
  unfold limit
  split_ifs <;> linarith

theorem freeAcc_le {p : Params} (hp : p.Ok) (v : ℝ) : freeAcc p v ≤ p.maxAcc := by
  have h1 := hp.maxAcc
  have h2 : 0 ≤ (v / p.speed) ^ 4 := by positivity
  unfold freeAcc
  nlinarith

theorem followAcc_le {p : Params} (hp : p.Ok) (v vl g : ℝ) : followAcc p v vl g ≤ freeAcc p v := by
  have h1 := hp.maxAcc
  have h2 : 0 ≤ (desiredGap p v vl / nonzero g) ^ 2 := by positivity
  unfold followAcc
  nlinarith

theorem acc_le {p : Params} (hp : p.Ok) (w : World) (l : Option Nat) (f : Nat) : acc p w (some f) l ≤ p.maxAcc := by
  cases l with
  | none => exact freeAcc_le hp _
  | some l => exact le_trans (followAcc_le hp _ _ _) (freeAcc_le hp _)

theorem stepAcc_range {p : Params} (hp : p.Ok) (e : Env) (d : Drv) : p.maxDec ≤ stepAcc p e d ∧ stepAcc p e d ≤ p.maxAcc := by
  have h1 := hp.maxAcc
  have h2 := hp.maxDec
  have h3 := acc_le hp e.world e.voi.lead 0
  unfold stepAcc
  split_ifs
  · constructor <;> linarith
  · exact ⟨le_max_left _ _, max_le (by linarith) h3⟩

/-- The speed changes within the limits of acceleration and deceleration, from any speed up to the desired one. Missing: higher speeds. -/
theorem rate_partial {p : Params} (hp : p.Ok) {e : Env} {d : Drv} (h0 : 0 ≤ d.speed) (h1 : d.speed ≤ p.speed) (h2 : d.speed ≤ e.maxSpeed)
    (ht : 0 ≤ e.dt) :
    p.maxDec * e.dt ≤ (step p e d).1.speed - d.speed ∧ (step p e d).1.speed - d.speed ≤ p.maxAcc * e.dt := by
  obtain ⟨a1, a2⟩ := stepAcc_range hp e d
  have b1 := mul_le_mul_of_nonneg_right a1 ht
  have b2 := mul_le_mul_of_nonneg_right a2 ht
  have b3 : p.maxDec * e.dt ≤ 0 := mul_nonpos_of_nonpos_of_nonneg hp.maxDec ht
  have b4 : 0 ≤ p.maxAcc * e.dt := mul_nonneg hp.maxAcc.le ht
  show p.maxDec * e.dt ≤ limit p _ _ - _ ∧ limit p _ _ - _ ≤ _
  unfold limit
  split_ifs <;> constructor <;> linarith

/-- A driver taking over above the desired speed drops to it within one step, however short and whatever the limit of deceleration. -/
theorem rate_fails {p : Params} (hp : p.Ok) {e : Env} {d : Drv} (ht : 0 < e.dt) (h : p.speed - p.maxDec * e.dt < d.speed) :
    (step p e d).1.speed = p.speed ∧ (step p e d).1.speed - d.speed < p.maxDec * e.dt := by
  obtain ⟨a1, -⟩ := stepAcc_range hp e d
  have b1 := mul_le_mul_of_nonneg_right a1 ht.le
  have hs : (step p e d).1.speed = p.speed := by
    show limit p _ _ = _
    unfold limit
    rw [if_pos (by linarith)]
  exact ⟨hs, by rw [hs]; linarith⟩

/-- The maximum speed of the vehicle is exceeded if the desired one is higher and reached within a step. -/
theorem speed_max_fails : ∃ (p : Params) (e : Env) (d : Drv), p.Ok ∧ 0 ≤ d.speed ∧ d.speed = e.world.speed 0 ∧ d.speed ≤ e.maxSpeed ∧
    0 < e.dt ∧ e.maxSpeed < (step p e d).1.speed := by
  refine ⟨⟨20, 11 / 10, 3, 1, -3, 3, 2, 3, 1 / 2, 1 / 5, -1⟩, ⟨⟨fun _ => 1, fun _ _ => 0⟩, ⟨none, none, none, none, none, none⟩, none,
    fun _ => false, 21 / 20, 1 / 5⟩, ⟨1, false, false, 4, 0⟩, ⟨?_, ?_, ?_, ?_, ?_, ?_, ?_, ?_⟩, ?_, rfl, ?_, ?_, ?_⟩
  all_goals try norm_num
  show (21 / 20 : ℝ) < limit _ _ _
  have : (11 / 10 : ℝ) ≤ 1 + max (-3) (3 * (1 - (1 / (11 / 10)) ^ 4)) * (1 / 5) := by
    have h := le_max_right (-3 : ℝ) (3 * (1 - (1 / (11 / 10)) ^ 4))
    norm_num at h ⊢
  unfold limit stepAcc acc freeAcc
  simp only [Bool.false_eq_true, if_false]
  rw [if_pos this]
  norm_num

/-- On a free road the speed rises to the desired one without passing it, and stays there. -/
theorem free_road {p : Params} (hp : p.Ok) {e : Env} {d : Drv} (hc : d.changing = false) (hl : e.voi.lead = none) (hw : e.world.speed 0 = d.speed)
    (h0 : 0 ≤ d.speed) (h2 : p.speed ≤ e.maxSpeed) (ht : 0 < e.dt) :
    (d.speed < p.speed → d.speed < (step p e d).1.speed ∧ (step p e d).1.speed ≤ p.speed) ∧
    (d.speed = p.speed → (step p e d).1.speed = p.speed) := by
  have hs := hp.speed
  have ha := hp.maxAcc
  have hd := hp.maxDec
  have key : stepAcc p e d = max p.maxDec (freeAcc p d.speed) := by
    unfold stepAcc
    rw [hc, hl, ← hw]
    simp [acc]
  constructor
  · intro h
    have hq : d.speed / p.speed < 1 := by rw [div_lt_one hs]; exact h
    have hq0 : 0 ≤ d.speed / p.speed := div_nonneg h0 hs.le
    have h4 : (d.speed / p.speed) ^ 4 < 1 := pow_lt_one₀ hq0 hq (by norm_num)
    have hpos : 0 < freeAcc p d.speed := by unfold freeAcc; nlinarith
    have hst : 0 < stepAcc p e d := by rw [key]; exact lt_of_lt_of_le hpos (le_max_right _ _)
    have hm := mul_pos hst ht
    refine ⟨?_, (speed_range hp (by linarith) d).2⟩
    show _ < limit p _ _
    unfold limit
    split_ifs <;> linarith
  · intro h
    have hst : stepAcc p e d = 0 := by
      rw [key, h]
      unfold freeAcc
      rw [div_self hs.ne']
      norm_num
      exact hd
    show limit p _ _ = _
    unfold limit
    rw [hst, h, if_pos (by linarith)]

/-! ### Following -/

theorem desiredGap_ge {p : Params} (v vl : ℝ) : p.dist ≤ desiredGap p v vl := by
  unfold desiredGap
  have := le_max_left 0 (v * p.thw + v * (v - vl) / (2 * Real.sqrt (-p.maxAcc * p.maxDec)))
  linarith

theorem nonzero_ne (x : ℝ) : nonzero x ≠ 0 := by
  unfold nonzero small
  split_ifs with h
  · norm_num
  · exact h

/-- A driver speeds up behind another vehicle only with more room than the desired gap, thus more than the desired distance. -/
theorem room_to_accelerate {p : Params} (hp : p.Ok) {v vl g : ℝ} (hg : 0 < g) (h : 0 < followAcc p v vl g) :
    desiredGap p v vl < g ∧ p.dist < g := by
  have ha := hp.maxAcc
  have hn : nonzero g = g := by unfold nonzero; rw [if_neg hg.ne']
  have hf := freeAcc_le hp v
  unfold followAcc at h
  rw [hn] at h
  have h1 : (desiredGap p v vl / g) ^ 2 < 1 := by nlinarith
  have hd := desiredGap_ge (p := p) v vl
  have h0 : 0 ≤ desiredGap p v vl := le_trans hp.dist hd
  have h2 : desiredGap p v vl / g < 1 := by
    by_contra hh
    push Not at hh
    nlinarith
  rw [div_lt_one hg] at h2
  exact ⟨h2, lt_of_le_of_lt hd h2⟩

/-- With a gap too small by the given ratio the driver brakes fully. -/
theorem full_braking {p : Params} (hp : p.Ok) {e : Env} {d : Drv} {l : Nat} (hc : d.changing = false) (hl : e.voi.lead = some l)
    (hg : 0 < e.world.free 0 l)
    (h : (p.maxAcc - p.maxDec) * e.world.free 0 l ^ 2 ≤ p.maxAcc * desiredGap p (e.world.speed 0) (e.world.speed l) ^ 2) :
    stepAcc p e d = p.maxDec := by
  have hn : nonzero (e.world.free 0 l) = e.world.free 0 l := by unfold nonzero; rw [if_neg hg.ne']
  have hf := freeAcc_le hp (e.world.speed 0)
  have h2 : p.maxAcc - p.maxDec ≤ p.maxAcc * (desiredGap p (e.world.speed 0) (e.world.speed l) / e.world.free 0 l) ^ 2 := by
    rw [div_pow, ← mul_div_assoc, le_div_iff₀ (by positivity)]
    exact h
  have : acc p e.world (some 0) e.voi.lead ≤ p.maxDec := by
    rw [hl]
    show followAcc _ _ _ _ ≤ _
    unfold followAcc
    rw [hn]
    linarith
  unfold stepAcc
  rw [hc]
  simp [this]

/-- During a lane change the speed is kept, whatever is in front: the driver does not brake. -/
theorem blind_change_fails {p : Params} {e : Env} {d : Drv} (hc : d.changing = true) (h0 : 0 ≤ d.speed) (h1 : d.speed < p.speed)
    (h2 : d.speed ≤ e.maxSpeed) : (step p e d).1.speed = d.speed := by
  have : stepAcc p e d = 0 := by unfold stepAcc; rw [hc]; simp
  show limit p _ _ = _
  unfold limit
  rw [this, zero_mul, add_zero, if_neg (by linarith), if_neg (by linarith), if_neg (by linarith)]

/-! ### Surrounding vehicles -/

/-- The vehicle taken as the one ahead in a lane is the closest one there; if there is none, none is taken. -/
theorem lead_closest (k : Int) (l : List Near) :
    (∀ n, leadOf k l = some n → n ∈ l ∧ n.left = k ∧ 0 ≤ n.ds ∧ ∀ m, m ∈ l → m.left = k → 0 ≤ m.ds → n.ds ≤ m.ds) ∧
    (leadOf k l = none → ∀ m, m ∈ l → m.left = k → m.ds < 0) := by
  suffices hh : ∀ (l done : List Near) (c : Option Near),
      ((∀ n, c = some n → n ∈ done ∧ n.left = k ∧ 0 ≤ n.ds ∧ ∀ m, m ∈ done → m.left = k → 0 ≤ m.ds → n.ds ≤ m.ds) ∧
        (c = none → ∀ m, m ∈ done → m.left = k → m.ds < 0)) →
      ∀ r, l.foldl (fun c n => if n.left = k then closerAhead n c else c) c = r →
      (∀ n, r = some n → n ∈ done ++ l ∧ n.left = k ∧ 0 ≤ n.ds ∧ ∀ m, m ∈ done ++ l → m.left = k → 0 ≤ m.ds → n.ds ≤ m.ds) ∧
        (r = none → ∀ m, m ∈ done ++ l → m.left = k → m.ds < 0) from
    hh l [] none ⟨by simp, by simp⟩ _ rfl
  intro l
  induction l with
  | nil => intro done c h r hr; simp only [List.foldl_nil] at hr; subst hr; simpa using h
  | cons a as ih =>
    intro done c h r hr
    rw [List.foldl_cons] at hr
    have := ih (done ++ [a]) _ ?_ r hr
    · simpa using this
    clear ih hr
    obtain ⟨hs, hn⟩ := h
    by_cases ha : a.left = k
    · rw [if_pos ha]
      cases c with
      | none =>
        have hn := hn rfl
        simp only [closerAhead]
        split_ifs with h0
        · refine ⟨?_, by simp⟩
          intro n hn'
          rw [Option.some.injEq] at hn'
          subst hn'
          refine ⟨by simp, ha, h0, ?_⟩
          intro m hm hk h1
          rcases List.mem_append.1 hm with h | h
          · have := hn m h hk; linarith
          · rw [List.mem_singleton.1 h]
        · refine ⟨by simp, fun _ m hm hk => ?_⟩
          rcases List.mem_append.1 hm with h | h
          · exact hn m h hk
          · rw [List.mem_singleton.1 h]; linarith
      | some b =>
        obtain ⟨b1, b2, b3, b4⟩ := hs b rfl
        simp only [closerAhead]
        split_ifs with h0
        · refine ⟨?_, by simp⟩
          intro n hn'
          rw [Option.some.injEq] at hn'
          subst hn'
          refine ⟨by simp, ha, h0.1, ?_⟩
          intro m hm hk h1
          rcases List.mem_append.1 hm with h | h
          · have := b4 m h hk h1; linarith
          · rw [List.mem_singleton.1 h]
        · refine ⟨?_, by simp⟩
          intro n hn'
          rw [Option.some.injEq] at hn'
          subst hn'
          refine ⟨List.mem_append_left _ b1, b2, b3, ?_⟩
          intro m hm hk h1
          rcases List.mem_append.1 hm with h | h
          · exact b4 m h hk h1
          · rw [List.mem_singleton.1 h] at h1 ⊢
            by_contra hh
            exact h0 ⟨h1, by linarith⟩
    · rw [if_neg ha]
      refine ⟨?_, ?_⟩
      · intro n hn'
        obtain ⟨b1, b2, b3, b4⟩ := hs n hn'
        refine ⟨List.mem_append_left _ b1, b2, b3, ?_⟩
        intro m hm hk h1
        rcases List.mem_append.1 hm with h | h
        · exact b4 m h hk h1
        · rw [List.mem_singleton.1 h] at hk; exact absurd hk ha
      · intro hc m hm hk
        rcases List.mem_append.1 hm with h | h
        · exact hn hc m h hk
        · rw [List.mem_singleton.1 h] at hk; exact absurd hk ha

/-- The vehicle taken as the one behind in a lane is the closest one there; if there is none, none is taken. -/
theorem follow_closest (k : Int) (l : List Near) :
    (∀ n, followOf k l = some n → n ∈ l ∧ n.left = k ∧ n.ds < 0 ∧ ∀ m, m ∈ l → m.left = k → m.ds < 0 → m.ds ≤ n.ds) ∧
    (followOf k l = none → ∀ m, m ∈ l → m.left = k → 0 ≤ m.ds) := by
  suffices hh : ∀ (l done : List Near) (c : Option Near),
      ((∀ n, c = some n → n ∈ done ∧ n.left = k ∧ n.ds < 0 ∧ ∀ m, m ∈ done → m.left = k → m.ds < 0 → m.ds ≤ n.ds) ∧
        (c = none → ∀ m, m ∈ done → m.left = k → 0 ≤ m.ds)) →
      ∀ r, l.foldl (fun c n => if n.left = k then closerBehind n c else c) c = r →
      (∀ n, r = some n → n ∈ done ++ l ∧ n.left = k ∧ n.ds < 0 ∧ ∀ m, m ∈ done ++ l → m.left = k → m.ds < 0 → m.ds ≤ n.ds) ∧
        (r = none → ∀ m, m ∈ done ++ l → m.left = k → 0 ≤ m.ds) from
    hh l [] none ⟨by simp, by simp⟩ _ rfl
  intro l
  induction l with
  | nil => intro done c h r hr; simp only [List.foldl_nil] at hr; subst hr; simpa using h
  | cons a as ih =>
    intro done c h r hr
    rw [List.foldl_cons] at hr
    have := ih (done ++ [a]) _ ?_ r hr
    · simpa using this
    clear ih hr
    obtain ⟨hs, hn⟩ := h
    by_cases ha : a.left = k
    · rw [if_pos ha]
      cases c with
      | none =>
        have hn := hn rfl
        simp only [closerBehind]
        split_ifs with h0
        · refine ⟨?_, by simp⟩
          intro n hn'
          rw [Option.some.injEq] at hn'
          subst hn'
          refine ⟨by simp, ha, h0, ?_⟩
          intro m hm hk h1
          rcases List.mem_append.1 hm with h | h
          · have := hn m h hk; linarith
          · rw [List.mem_singleton.1 h]
        · refine ⟨by simp, fun _ m hm hk => ?_⟩
          rcases List.mem_append.1 hm with h | h
          · exact hn m h hk
          · rw [List.mem_singleton.1 h]; linarith
      | some b =>
        obtain ⟨b1, b2, b3, b4⟩ := hs b rfl
        simp only [closerBehind]
        split_ifs with h0
        · refine ⟨?_, by simp⟩
          intro n hn'
          rw [Option.some.injEq] at hn'
          subst hn'
          refine ⟨by simp, ha, h0.1, ?_⟩
          intro m hm hk h1
          rcases List.mem_append.1 hm with h | h
          · have := b4 m h hk h1; linarith
          · rw [List.mem_singleton.1 h]
        · refine ⟨?_, by simp⟩
          intro n hn'
          rw [Option.some.injEq] at hn'
          subst hn'
          refine ⟨List.mem_append_left _ b1, b2, b3, ?_⟩
          intro m hm hk h1
          rcases List.mem_append.1 hm with h | h
          · exact b4 m h hk h1
          · rw [List.mem_singleton.1 h] at h1 ⊢
            by_contra hh
            exact h0 ⟨h1, by linarith⟩
    · rw [if_neg ha]
      refine ⟨?_, ?_⟩
      · intro n hn'
        obtain ⟨b1, b2, b3, b4⟩ := hs n hn'
        refine ⟨List.mem_append_left _ b1, b2, b3, ?_⟩
        intro m hm hk h1
        rcases List.mem_append.1 hm with h | h
        · exact b4 m h hk h1
        · rw [List.mem_singleton.1 h] at hk; exact absurd hk ha
      · intro hc m hm hk
        rcases List.mem_append.1 hm with h | h
        · exact hn hc m h hk
        · rw [List.mem_singleton.1 h] at hk; exact absurd hk ha

end Verif.Nd

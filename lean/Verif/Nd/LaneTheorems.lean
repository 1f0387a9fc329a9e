import Verif.Nd.Theorems
/-! The natural driver: lanes beside, safety and spacing of lane changes. -/
namespace Verif.Nd
open Classical

/-! ### Lanes beside -/

/-- A lane of the section, other than the reference line. -/
def Lanes.Has (x : Lanes) (i : Int) : Prop := i ≠ 0 ∧ -(x.nr : Int) ≤ i ∧ i ≤ x.nl

/-- The right lane is considered exactly if it exists and is a driving lane. -/
theorem right_exact {x : Lanes} {i : Int} (hi : x.Has i) :
    rightDriving x i = true ↔ x.Has (i + sgn i) ∧ x.driving (i + sgn i) = true := by
  obtain ⟨h0, h1, h2⟩ := hi
  unfold rightDriving Lanes.idx Lanes.Has
  by_cases hn : i < 0
  · have hs : sgn i = -1 := by simp [sgn, hn]
    rw [hs]
    simp only [hn, decide_true, cond_true]
    by_cases hk : (x.nl : Int) - i = x.nl + x.nr
    · simp only [hk, decide_true, cond_true]
      constructor
      · simp
      · rintro ⟨⟨-, h, -⟩, -⟩; omega
    · simp only [hk, decide_false, cond_false]
      constructor
      · intro h; exact ⟨⟨by omega, by omega, by omega⟩, h⟩
      · exact fun h => h.2
  · have hs : sgn i = 1 := by simp [sgn, hn]
    rw [hs]
    simp only [hn, decide_false, cond_false]
    by_cases hk : (x.nl : Int) - i = 0
    · simp only [hk, decide_true, cond_true]
      constructor
      · simp
      · rintro ⟨⟨-, -, h⟩, -⟩; omega
    · simp only [hk, decide_false, cond_false]
      constructor
      · intro h; exact ⟨⟨by omega, by omega, by omega⟩, h⟩
      · exact fun h => h.2

/-- The left lane is considered exactly if it is a driving lane on the same side, and the number of lanes on the two sides does not
happen to mask it: from lane `nl - nr` right of the reference line and lane `nl + 1 - nr` left of it no change to the left is made. -/
theorem left_iff {x : Lanes} {i : Int} (hi : x.Has i) :
    leftDriving x i = true ↔ (x.Has (i - sgn i) ∧ x.driving (i - sgn i) = true) ∧
      (i < 0 → i ≠ (x.nl : Int) - x.nr) ∧ (0 < i → i ≠ (x.nl : Int) + 1 - x.nr) := by
  obtain ⟨h0, h1, h2⟩ := hi
  unfold leftDriving Lanes.idx Lanes.Has
  by_cases hn : i < 0
  · have hs : sgn i = -1 := by simp [sgn, hn]
    rw [hs]
    simp only [hn, decide_true, cond_true]
    by_cases hk : (x.nl : Int) - i = x.nl + x.nr - x.nl
    · simp only [hk, decide_true, cond_true]
      constructor
      · simp
      · rintro ⟨-, h, -⟩; exact absurd (by omega) (h trivial)
    · simp only [hk, decide_false, cond_false]
      by_cases hz : i - -1 = 0
      · simp only [hz, decide_true, cond_true]
        constructor
        · simp
        · rintro ⟨⟨⟨h, -⟩, -⟩, -⟩; exact absurd rfl h
      · simp only [hz, decide_false, cond_false]
        constructor
        · intro h; exact ⟨⟨⟨by omega, by omega, by omega⟩, h⟩, fun _ => by omega, fun _ => by omega⟩
        · exact fun h => h.1.2
  · have hs : sgn i = 1 := by simp [sgn, hn]
    rw [hs]
    simp only [hn, decide_false, cond_false]
    by_cases hk : (x.nl : Int) - i + 1 = x.nr
    · simp only [hk, decide_true, cond_true]
      constructor
      · simp
      · rintro ⟨-, -, h⟩; exact absurd (by omega) (h (by omega))
    · simp only [hk, decide_false, cond_false]
      by_cases hz : i - 1 = 0
      · simp only [hz, decide_true, cond_true]
        constructor
        · simp
        · rintro ⟨⟨⟨h, -⟩, -⟩, -⟩; exact absurd rfl h
      · simp only [hz, decide_false, cond_false]
        constructor
        · intro h; exact ⟨⟨⟨by omega, by omega, by omega⟩, h⟩, fun h => h.elim, fun _ => by omega⟩
        · exact fun h => h.1.2

/-- On a road with as many lanes on either side the left lane is considered whenever it is a driving lane. Missing: other roads. -/
theorem left_partial {x : Lanes} (hx : x.nl = x.nr) {i : Int} (hi : x.Has i) :
    leftDriving x i = true ↔ x.Has (i - sgn i) ∧ x.driving (i - sgn i) = true := by
  rw [left_iff hi]
  constructor
  · exact fun h => h.1
  · intro h
    refine ⟨h, fun hn => by omega, fun hp he => ?_⟩
    have : i = 1 := by omega
    subst this
    exact h.1.1 rfl

/-- On a one-way road, with lanes only to the right of the reference line, a driver in the outermost lane never considers the lane to
its left, however many driving lanes there are. -/
theorem left_fails (n : Nat) (hn : 2 ≤ n) : ∃ x : Lanes, x.nl = 0 ∧ x.nr = n ∧ (∀ i, x.driving i = true) ∧ x.Has (-n) ∧ x.Has (-n + 1) ∧
    adjacent x (-n) = some (0, 0) := by
  refine ⟨⟨0, n, fun _ => true⟩, rfl, rfl, fun _ => rfl, ⟨by omega, by simp, by simp⟩, ⟨by omega, by simp, by simp; omega⟩, ?_⟩
  have h1 : (-(n : Int)) < 0 := by omega
  have h2 : ¬ (n ≤ 1) := by omega
  have h3 : (⟨0, n, fun _ => true⟩ : Lanes).drivingSide (-n) = n := by
    unfold Lanes.drivingSide
    rw [decide_eq_true h1]
    simp
  have h4 : leftDriving ⟨0, n, fun _ => true⟩ (-n) = false := by
    unfold leftDriving Lanes.idx
    rw [decide_eq_true h1]
    simp
  have h5 : rightDriving ⟨0, n, fun _ => true⟩ (-n) = false := by
    unfold rightDriving Lanes.idx
    rw [decide_eq_true h1]
    simp
  unfold adjacent
  rw [h3, h4, h5, decide_eq_false h2]
  rfl

/-- Lanes considered are driving lanes beside, on the same side of the reference line. -/
theorem adjacent_sound {x : Lanes} {i l r : Int} (hi : x.Has i) (h : adjacent x i = some (l, r)) :
    (l ≠ 0 → l = i - sgn i ∧ x.Has l ∧ x.driving l = true) ∧ (r ≠ 0 → r = i + sgn i ∧ x.Has r ∧ x.driving r = true) := by
  unfold adjacent at h
  cases hd : decide (x.drivingSide i ≤ 1) with
  | true => rw [hd] at h; simp at h
  | false =>
    rw [hd] at h
    simp only [cond_false, Option.some.injEq, Prod.mk.injEq] at h
    obtain ⟨rfl, rfl⟩ := h
    constructor
    · intro h0
      cases hl : leftDriving x i with
      | false => rw [hl] at h0; simp at h0
      | true =>
        have := (left_iff hi).1 hl
        exact ⟨rfl, this.1⟩
    · intro h0
      cases hl : rightDriving x i with
      | false => rw [hl] at h0; simp at h0
      | true =>
        have := (right_exact hi).1 hl
        exact ⟨rfl, this⟩

/-! ### Safety of a lane change -/

/-- The new follower does not have to brake harder than permitted, as the driver models it. -/
def Safe (p : Params) (w : World) (v : Voi) (left : Bool) : Prop :=
  ∀ f, (if left then v.leftFollow else v.rightFollow) = some f → -p.imposed ≤ followAcc p (w.speed f) (w.speed 0) (w.free f 0)

theorem possible_safe {p : Params} {w : World} {v : Voi} {lane : Int} {left : Bool} (h : possible p w v lane left = true) : Safe p w v left := by
  intro f hf
  have hs : (v.side left).2 = some f := by cases left <;> simpa [Voi.side] using hf
  unfold possible at h
  by_contra hh
  rw [hs] at h
  have : acc p w (some f) (some 0) < -p.imposed := by simpa [acc] using hh
  rw [if_pos this] at h
  simp at h

theorem tryLane_spec {p : Params} {e : Env} {lane : Int} {left : Bool} {c : Pick} {l : Int} (h : (tryLane p e lane left c).lane = some l) :
    c.lane = some l ∨ (c.lane = none ∧ l = lane ∧ lane ≠ 0 ∧ possible p e.world e.voi lane left = true ∧ 0 < e.world.speed 0) := by
  unfold tryLane at h
  split_ifs at h with h1 h2 h3 h4
  · exact .inl h
  · exact .inl h
  · simp only [Option.some.injEq] at h
    refine .inr ⟨?_, h.symm, h2, h3, h4⟩
    cases hc : c.lane with
    | none => rfl
    | some _ => rw [hc] at h1; simp at h1

theorem tryLane_init {p : Params} {e : Env} {lane : Int} {left : Bool} {c : Pick} (hc : c.init = true → c.lane ≠ none) (hv : 0 < e.world.speed 0)
    (h : (tryLane p e lane left c).init = true) : (tryLane p e lane left c).lane ≠ none := by
  unfold tryLane at h ⊢
  split_ifs at h ⊢ with h1 h2 h3
  · exact hc h
  · exact hc h
  · simp

/-- A lane change of a moving driver leads to a driving lane beside, leaves the new follower the room it needs, and is not begun while
another driver is about to take that lane. Missing: a standing driver. -/
theorem change_safe_partial {p : Params} {e : Env} {d : Drv} {l : Int} (hv : 0 < e.world.speed 0) (h : (step p e d).2 = some l) :
    d.injected = false ∧ d.changing = false ∧ ∃ a b, e.adj = some (a, b) ∧ l ≠ 0 ∧
      ((l = a ∧ Safe p e.world e.voi true) ∨ (l = b ∧ Safe p e.world e.voi false)) ∧ e.abort l = false := by
  change (launch e (pick p e d).init (picked d (pick p e d))).2 = some l at h
  unfold launch at h
  cases hi : (pick p e d).init with
  | false => rw [hi] at h; simp at h
  | true =>
    rw [hi] at h
    simp only [cond_true] at h
    cases ha : e.abort (picked d (pick p e d)).target with
    | true => rw [ha] at h; simp at h
    | false =>
      rw [ha] at h
      simp only [cond_false, Option.some.injEq] at h
      have hpk := hi
      unfold pick at hi
      split_ifs at hi with hc
      push Not at hc
      cases hadj : e.adj with
      | none => rw [hadj] at hi; simp at hi
      | some ab =>
        obtain ⟨a, b⟩ := ab
        rw [hadj] at hi
        simp only at hi
        have hl := tryLane_init (tryLane_init (by simp) hv) hv hi
        have hp : pick p e d = tryLane p e b false (tryLane p e a true ⟨false, none⟩) := by
          unfold pick
          rw [if_neg (by push Not; exact hc), hadj]
        obtain ⟨l', hl'⟩ := Option.ne_none_iff_exists'.1 hl
        have ht : (picked d (pick p e d)).target = l' := by
          rw [hp]
          unfold picked
          rw [hl']
        rw [ht] at h ha
        subst h
        refine ⟨by simpa using hc.2, by simpa using hc.1, a, b, rfl, ?_, ?_, ha⟩
        · rcases tryLane_spec hl' with h | ⟨-, rfl, h0, -⟩
          · rcases tryLane_spec h with h | ⟨-, rfl, h0, -⟩
            · simp at h
            · exact h0
          · exact h0
        · rcases tryLane_spec hl' with h | ⟨-, rfl, -, h, -⟩
          · rcases tryLane_spec h with h | ⟨-, rfl, -, h, -⟩
            · simp at h
            · exact .inl ⟨rfl, possible_safe h⟩
          · exact .inr ⟨rfl, possible_safe h⟩

/-- The room left to the new follower, as a distance. -/
theorem follower_room {p : Params} (hp : p.Ok) {v vl g : ℝ} (hg : 0 < g) (h : -p.imposed ≤ followAcc p v vl g) :
    p.maxAcc * p.dist ^ 2 ≤ (p.maxAcc + p.imposed) * g ^ 2 := by
  have hn : nonzero g = g := by unfold nonzero; rw [if_neg hg.ne']
  have hf := freeAcc_le hp v
  have hd := desiredGap_ge (p := p) v vl
  unfold followAcc at h
  rw [hn] at h
  have h1 : p.maxAcc * (desiredGap p v vl / g) ^ 2 ≤ p.maxAcc + p.imposed := by linarith
  rw [div_pow, ← mul_div_assoc, div_le_iff₀ (by positivity)] at h1
  have h2 : p.dist ^ 2 ≤ desiredGap p v vl ^ 2 := by
    have := hp.dist
    nlinarith
  have := mul_le_mul_of_nonneg_left h2 hp.maxAcc.le
  linarith

/-- A standing driver alone on the road, beside the lane of its route, starts a lane change to lane 0, the reference line. -/
theorem standstill_fails {p : Params} (hp : p.Ok) {e : Env} {r : Int} (hr : r ≠ 0) (hroute : p.route = r) (hadj : e.adj = some (0, r) ∨ e.adj = some (r, 0))
    (hvoi : e.voi = ⟨none, none, none, none, none, none⟩) (hv : e.world.speed 0 = 0) (ha : e.abort 0 = false) :
    (step p e (start p 0)).2 = some 0 := by
  have hposs : ∀ left, possible p e.world e.voi r left = true := by
    intro left
    have h1 := hp.imposed
    have h2 := hp.maxAcc
    have hs : e.voi.side left = (none, none) := by rw [hvoi]; cases left <;> rfl
    unfold possible
    rw [hs]
    have e1 : ¬ (acc p e.world none (some 0) < -p.imposed) := by simp [acc]; linarith
    have e2 : ¬ (acc p e.world (some 0) none < -p.imposed) := by
      simp only [acc, freeAcc, hv, zero_div]
      norm_num
      linarith
    rw [if_neg e1, if_pos hroute.symm, if_neg e2]
  have ht : ∀ left, ∀ c : Pick, c.lane = none → tryLane p e r left c = ⟨true, none⟩ := by
    intro left c hc
    unfold tryLane
    rw [hc, if_neg (by simp), if_neg hr, if_pos (hposs left), if_neg (by rw [hv]; exact lt_irrefl 0)]
  have h0 : ∀ left, ∀ c : Pick, tryLane p e 0 left c = c := by
    intro left c
    unfold tryLane
    simp
  have hp' : pick p e (start p 0) = ⟨true, none⟩ := by
    unfold pick start
    rw [if_neg (by simp)]
    rcases hadj with h | h <;> rw [h] <;> simp only
    · rw [h0, ht _ _ rfl]
    · rw [ht _ _ rfl, h0]
  show (launch e _ _).2 = _
  rw [hp']
  simp [launch, picked, start, ha]

/-! ### Spacing of lane changes -/

/-- What holds of every reachable driver. -/
structure Inv (p : Params) (d : Drv) : Prop where
  idle : d.injected = false → d.cooldown = p.delay + p.duration
  busy : d.changing = true → d.injected = true
  target : d.changing = false → d.target = 0
  nonneg : 0 ≤ d.cooldown

theorem launch_cases (e : Env) (init : Bool) (d : Drv) :
    (launch e init d = (d, none) ∧ init = false) ∨ (launch e init d = ({ d with target := 0, changing := false }, none) ∧ init = true) ∨
      (launch e init d = ({ d with injected := true }, some d.target) ∧ init = true) := by
  unfold launch
  cases init with
  | false => exact .inl ⟨rfl, rfl⟩
  | true =>
    cases h : e.abort d.target with
    | true => exact .inr (.inl ⟨rfl, rfl⟩)
    | false => exact .inr (.inr ⟨rfl, rfl⟩)

theorem pick_lane_init {p : Params} {e : Env} {d : Drv} {l : Int} (h : (pick p e d).lane = some l) :
    (pick p e d).init = true ∧ d.changing = false ∧ d.injected = false := by
  unfold pick at h ⊢
  by_cases hc : d.changing = true ∨ d.injected = true
  · rw [if_pos hc] at h; simp at h
  · rw [if_neg hc] at h ⊢
    push Not at hc
    refine ⟨?_, by simpa using hc.1, by simpa using hc.2⟩
    cases hadj : e.adj with
    | none => rw [hadj] at h; simp at h
    | some ab =>
      obtain ⟨a, b⟩ := ab
      rw [hadj] at h
      simp only at h ⊢
      have step1 : ∀ lane left (c : Pick), (∀ l, c.lane = some l → c.init = true) →
          ∀ l, (tryLane p e lane left c).lane = some l → (tryLane p e lane left c).init = true := by
        intro lane left c hc l hl
        unfold tryLane at hl ⊢
        split_ifs at hl ⊢ <;> first | exact hc l hl | rfl
      exact step1 b false _ (step1 a true _ (by simp)) l h

theorem pick_busy {p : Params} {e : Env} {d : Drv} (h : d.injected = true) : pick p e d = ⟨false, none⟩ := by
  unfold pick
  rw [if_pos (.inr h)]

/-- State before the waiting time is taken off. -/
theorem pre_inv {p : Params} {e : Env} {d : Drv} (h : Inv p d) :
    Inv p (launch e (pick p e d).init (picked d (pick p e d))).1 := by
  have hpc : ∀ l, (pick p e d).lane = some l → (pick p e d).init = true ∧ d.changing = false ∧ d.injected = false := fun l => pick_lane_init
  cases hl : (pick p e d).lane with
  | none =>
    have hpd : picked d (pick p e d) = d := by unfold picked; rw [hl]
    rw [hpd]
    rcases launch_cases e (pick p e d).init d with ⟨h1, -⟩ | ⟨h1, -⟩ | ⟨h1, -⟩ <;> rw [h1]
    · exact h
    · exact ⟨h.idle, by simp, by simp, h.nonneg⟩
    · exact ⟨by simp, by simp, h.target, h.nonneg⟩
  | some l =>
    obtain ⟨hi, hc, hj⟩ := hpc l hl
    have hpd : picked d (pick p e d) = { d with target := l, changing := true } := by unfold picked; rw [hl]
    rw [hpd, hi]
    rcases launch_cases e true { d with target := l, changing := true } with ⟨-, h2⟩ | ⟨h1, -⟩ | ⟨h1, -⟩
    · simp at h2
    · rw [h1]
      exact ⟨fun _ => h.idle hj, by simp, by simp, h.nonneg⟩
    · rw [h1]
      exact ⟨by simp, by simp, by simp, h.nonneg⟩

theorem cool_inv {p : Params} (hp : p.Ok) {dt : ℝ} {d : Drv} (h : Inv p d) : Inv p (cool p dt d) := by
  unfold cool
  cases hj : d.injected with
  | false => simpa using h
  | true =>
    simp only [cond_true]
    have h1 := hp.delay
    have h2 := hp.duration
    unfold rearm arrive
    have hsum : 0 ≤ p.delay + p.duration := by linarith
    by_cases ha : d.changing = true ∧ d.cooldown - dt ≤ p.delay
    · simp only [ha, and_self, if_true]
      by_cases hb : d.cooldown - dt < 0
      · rw [if_pos hb]; exact ⟨fun _ => rfl, by simp, by simp, hsum⟩
      · rw [if_neg hb]; exact ⟨fun h => by simp at h, by simp, by simp, by simpa using hb⟩
    · rw [if_neg ha]
      by_cases hb : d.cooldown - dt < 0
      · simp only [hb, if_true]
        have hc : d.changing = false := by
          by_contra hh
          exact ha ⟨by simpa using hh, by linarith⟩
        exact ⟨fun _ => rfl, fun h => by simp [hc] at h, fun _ => h.target hc, hsum⟩
      · simp only [hb, if_false]
        exact ⟨fun h => by simp at h, fun _ => rfl, h.target, by simpa using hb⟩

/-- A step keeps it. -/
theorem step_inv {p : Params} (hp : p.Ok) {e : Env} {d : Drv} (h : Inv p d) : Inv p (step p e d).1 := by
  have := cool_inv hp (dt := e.dt) (pre_inv (e := e) h)
  exact ⟨this.idle, this.busy, this.target, this.nonneg⟩

/-- It holds of every driver in every run. -/
theorem reachable_inv {p : Params} (hp : p.Ok) (v : ℝ) (es : List Env) : Inv p (runs p es (start p v)) := by
  suffices hh : ∀ (es : List Env) (d : Drv), Inv p d → Inv p (runs p es d) from
    hh es _ ⟨fun _ => add_comm _ _, by simp [start], by simp [start], by have := hp.delay; have := hp.duration; simp [start]; linarith⟩
  intro es
  induction es with
  | nil => exact fun d h => h
  | cons e es ih => exact fun d h => ih _ (step_inv hp h)

/-- Waiting since a lane change begun `t` ago. -/
structure Waits (p : Params) (t : ℝ) (d : Drv) : Prop where
  inj : d.injected = true
  cd : d.cooldown = p.delay + p.duration - t
  chg : d.changing = true → t < p.duration

theorem cool_waits {p : Params} {dt t : ℝ} {d : Drv} (hj : d.injected = true) (hc : d.cooldown = p.delay + p.duration - t)
    (hs : t + dt ≤ p.delay + p.duration) : Waits p (t + dt) (cool p dt d) := by
  unfold cool
  rw [hj]
  simp only [cond_true]
  unfold rearm arrive
  by_cases ha : d.changing = true ∧ d.cooldown - dt ≤ p.delay
  · simp only [ha, and_self, if_true]
    rw [if_neg (by rw [hc]; linarith)]
    exact ⟨rfl, by simp [hc]; ring, by simp⟩
  · rw [if_neg ha, if_neg (by simp only; rw [hc]; linarith)]
    refine ⟨rfl, by simp [hc]; ring, fun h => ?_⟩
    by_contra hh
    exact ha ⟨h, by rw [hc]; linarith⟩

theorem step_waits {p : Params} {e : Env} {t : ℝ} {d : Drv} (h : Waits p t d) (hs : t + e.dt ≤ p.delay + p.duration) :
    (step p e d).2 = none ∧ Waits p (t + e.dt) (step p e d).1 := by
  have hp := pick_busy (p := p) (e := e) h.inj
  have hl : launch e (pick p e d).init (picked d (pick p e d)) = (d, none) := by rw [hp]; rfl
  refine ⟨by show (launch e _ _).2 = none; rw [hl], ?_⟩
  have := cool_waits (dt := e.dt) h.inj h.cd hs
  have hst : (step p e d).1 = { cool p e.dt d with speed := (step p e d).1.speed } := by unfold step; rw [hl]
  rw [hst]
  exact ⟨this.inj, this.cd, this.chg⟩

/-- After the begin of a lane change, as long as no more than duration and delay have passed, no other is begun; and the driver
regards itself as changing lane no longer than the duration. -/
theorem change_spacing {p : Params} {e e' : Env} {es : List Env} {d : Drv} {l : Int} (hd : Inv p d)
    (hdt : 0 ≤ e.dt ∧ ∀ x, x ∈ es → 0 ≤ x.dt) (h : (step p e d).2 = some l) (hs : e.dt + (es.map Env.dt).sum ≤ p.delay + p.duration) :
    (step p e' (runs p es (step p e d).1)).2 = none ∧
      ((runs p es (step p e d).1).changing = true → e.dt + (es.map Env.dt).sum < p.duration) := by
  have hfirst : e.dt ≤ p.delay + p.duration → Waits p (0 + e.dt) (step p e d).1 := by
    intro hle
    change (launch e (pick p e d).init (picked d (pick p e d))).2 = some l at h
    have hnj : d.injected = false := by
      by_contra hh
      rw [pick_busy (by simpa using hh)] at h
      simp [launch] at h
    have hpc : (picked d (pick p e d)).cooldown = d.cooldown := by
      unfold picked; cases (pick p e d).lane <;> rfl
    rcases launch_cases e (pick p e d).init (picked d (pick p e d)) with ⟨h1, -⟩ | ⟨h1, -⟩ | ⟨h1, -⟩
    · rw [h1] at h; simp at h
    · rw [h1] at h; simp at h
    · have := cool_waits (p := p) (dt := e.dt) (t := 0) (d := { picked d (pick p e d) with injected := true }) rfl
        (by rw [← hd.idle hnj] at *; simp [hpc]) (by linarith)
      have hst : (step p e d).1 = { cool p e.dt { picked d (pick p e d) with injected := true } with speed := (step p e d).1.speed } := by
        unfold step; rw [h1]
      rw [hst]
      exact ⟨this.inj, this.cd, this.chg⟩
  have hsum : ∀ xs : List Env, (∀ x, x ∈ xs → 0 ≤ x.dt) → 0 ≤ (xs.map Env.dt).sum := by
    intro xs hx
    refine List.sum_nonneg ?_
    intro y hy
    obtain ⟨x, hx', rfl⟩ := List.mem_map.1 hy
    exact hx x hx'
  have hle : e.dt ≤ p.delay + p.duration := by have := hsum es hdt.2; linarith
  have key : ∀ (es : List Env) (t : ℝ) (d : Drv), (∀ x, x ∈ es → 0 ≤ x.dt) → Waits p t d → t + (es.map Env.dt).sum ≤ p.delay + p.duration →
      Waits p (t + (es.map Env.dt).sum) (runs p es d) := by
    intro es
    induction es with
    | nil => intro t d _ hw _; simpa [runs] using hw
    | cons x xs ih =>
      intro t d hx hw hle
      simp only [List.map_cons, List.sum_cons] at hle ⊢
      have h0 := hsum xs fun y hy => hx y (List.mem_cons_of_mem _ hy)
      have := ih (t + x.dt) (step p x d).1 (fun y hy => hx y (List.mem_cons_of_mem _ hy)) (step_waits hw (by linarith)).2 (by linarith)
      rw [← add_assoc]
      exact this
  have hw := key es (0 + e.dt) _ hdt.2 (hfirst hle) (by linarith)
  rw [zero_add] at hw
  refine ⟨?_, hw.chg⟩
  show (launch e' _ _).2 = none
  rw [pick_busy hw.inj]
  simp [launch]

/-! ### The hypotheses are met -/

/-- The default properties. -/
noncomputable def defaults : Params := ⟨20, 15, 3, 1, -3, 3, 2, 3, 1 / 2, 1 / 5, -1⟩

theorem defaults_ok : defaults.Ok := by
  refine ⟨?_, ?_, ?_, ?_, ?_, ?_, ?_, ?_⟩ <;> norm_num [defaults]

/-- A driver alone at 10 m/s beside its lane begins the change to it. -/
example : ∃ e : Env, 0 < e.world.speed 0 ∧ (step defaults e (start defaults 10)).2 = some (-1) := by
  refine ⟨⟨⟨fun _ => 10, fun _ _ => 0⟩, ⟨none, none, none, none, none, none⟩, some (-1, 0), fun _ => false, 50, 1 / 10⟩, by norm_num, ?_⟩
  have e1 : ¬ (0 < -defaults.imposed) := by norm_num [defaults]
  have e2 : ¬ (freeAcc defaults 10 < -defaults.imposed) := by norm_num [defaults, freeAcc]
  have e3 : (-1 : Int) = defaults.route := by norm_num [defaults]
  have hp : pick defaults ⟨⟨fun _ => 10, fun _ _ => 0⟩, ⟨none, none, none, none, none, none⟩, some (-1, 0), fun _ => false, 50, 1 / 10⟩
      (start defaults 10) = ⟨true, some (-1)⟩ := by
    simp [pick, start, tryLane, possible, Voi.side, acc, e1, e2, ← e3]
  show (launch _ _ _).2 = _
  rw [hp]
  simp [launch, picked]

example : (⟨2, 2, fun i => decide (i ≠ 2)⟩ : Lanes).Has (-2) ∧ adjacent ⟨2, 2, fun i => decide (i ≠ 2)⟩ (-2) = some (-1, 0) := by
  refine ⟨⟨by decide, by decide, by decide⟩, by decide⟩

example : (leadOf 0 [⟨1, 50, 0⟩, ⟨2, 20, 0⟩, ⟨3, 5, 1⟩, ⟨4, -3, 0⟩]).map Near.id = some 2 := by
  norm_num [leadOf, closerAhead]

/-- Ten metres behind a vehicle of the same speed the driver brakes fully. -/
example : ∃ e : Env, e.voi.lead = some 1 ∧ 0 < e.world.free 0 1 ∧
    (defaults.maxAcc - defaults.maxDec) * e.world.free 0 1 ^ 2 ≤ defaults.maxAcc * desiredGap defaults (e.world.speed 0) (e.world.speed 1) ^ 2 := by
  refine ⟨⟨⟨fun _ => 10, fun _ _ => 10⟩, ⟨some 1, none, none, none, none, none⟩, none, fun _ => false, 50, 1 / 10⟩, rfl, by norm_num, ?_⟩
  have h := desiredGap_ge (p := defaults) 10 10
  have hd : defaults.dist = 20 := rfl
  rw [hd] at h
  simp only [defaults] at h ⊢
  nlinarith

end Verif.Nd

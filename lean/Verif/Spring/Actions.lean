import Verif.Spring.Theorems
/-
Actions that keep a distance to another entity.
-/
namespace Verif.Spring
open Real Filter

/-! Longitudinal distance -/

/-- Spec: sensible limits. -/
structure Limits.Ok (l : Limits) : Prop where
  acc : 0 < l.acc
  dec : 0 < l.dec
  accRate : 0 < l.accRate
  decRate : 0 < l.decRate
  speed : 0 ≤ l.speed

/-- Spec: not both accelerations are unlimited. -/
def Limits.Limited (l : Limits) : Prop := l.acc < large ∨ l.dec < large

theorem limited_not (l : Limits) (h : l.Limited) : ¬ (l.acc ≥ large ∧ l.dec ≥ large) := by
  rintro ⟨h1, h2⟩
  rcases h with h | h <;> linarith

theorem limitAcc_bounds (l : Limits) (ha : 0 ≤ l.acc) (hd : 0 ≤ l.dec) (a : ℝ) :
    -l.dec ≤ limitAcc l a ∧ limitAcc l a ≤ l.acc ∧ (a < 0 → limitAcc l a ≤ 0) ∧ (0 ≤ a → 0 ≤ limitAcc l a) ∧
    (a < 0 → 0 < l.dec → limitAcc l a < 0) := by
  unfold limitAcc
  by_cases h : a < 0
  · rw [if_pos h]
    by_cases h2 : a < -l.dec
    · rw [if_pos h2]
      refine ⟨le_refl _, by linarith, fun _ => by linarith, fun _ => by linarith, fun _ _ => by linarith⟩
    · rw [if_neg h2]
      refine ⟨by linarith, by linarith, fun _ => by linarith, fun _ => by linarith, fun _ _ => by linarith⟩
  · rw [if_neg h]
    by_cases h2 : a > l.acc
    · rw [if_pos h2]
      refine ⟨by linarith, by linarith, fun _ => by linarith, fun _ => by linarith, fun _ _ => by linarith⟩
    · rw [if_neg h2]
      refine ⟨by linarith, by linarith, fun _ => by linarith, fun _ => by linarith, fun _ _ => by linarith⟩

theorem limitJerk_bounds (lo hi j old a dt : ℝ) (hdt : 0 ≤ dt) (h1 : lo ≤ old) (h2 : old ≤ hi) (h3 : lo ≤ a)
    (h4 : a ≤ hi) : lo ≤ limitJerk j old a dt ∧ limitJerk j old a dt ≤ hi := by
  unfold limitJerk
  split
  · rename_i h
    have : j * dt ≤ 0 := mul_nonpos_of_nonpos_of_nonneg h.1.le hdt
    exact ⟨le_trans h3 (le_max_right _ _), max_le (by linarith) h4⟩
  · split
    · rename_i h
      have : 0 ≤ j * dt := mul_nonneg h.1.le hdt
      exact ⟨le_min (by linarith) h3, le_trans (min_le_right _ _) h4⟩
    · exact ⟨h3, h4⟩

theorem limitSpeed_bounds (m v : ℝ) (hm : 0 ≤ m) : -m ≤ limitSpeed m v ∧ limitSpeed m v ≤ m := by
  unfold limitSpeed
  split
  · exact ⟨by linarith, le_refl _⟩
  · split
    · exact ⟨le_refl _, by linarith⟩
    · exact ⟨by linarith, by linarith⟩

/-- Keeping a distance respects the limits: acceleration, deceleration and speed. -/
theorem long_limits (l : Limits) (hl : l.Ok) (hlim : l.Limited) (c : Bool) (req distance vt : ℝ) (f : Follower) (dt : ℝ)
    (hdt : 0 ≤ dt) (h1 : -l.dec ≤ f.acc) (h2 : f.acc ≤ l.acc) (h3 : |f.speed| ≤ l.speed) :
    let g := longStep l c req distance vt f dt
    g.acc ≤ l.acc ∧ -l.dec ≤ g.acc ∧ |g.speed| ≤ l.speed ∧ g.moved = 0 ∧
    f.speed - l.dec * dt ≤ g.speed ∧ g.speed ≤ f.speed + l.acc * dt := by
  obtain ⟨b1, b2, -⟩ := limitAcc_bounds l hl.acc.le hl.dec.le (pull l (distance - req) (f.speed - vt))
  obtain ⟨j1, j2⟩ := limitJerk_bounds (-l.dec) l.acc (jerk l (pull l (distance - req) (f.speed - vt))) f.acc _ dt hdt
    h1 h2 b1 b2
  have hs := limitSpeed_bounds l.speed (f.speed + newAcc l f.acc (distance - req) (f.speed - vt) dt * dt) hl.speed
  simp only [longStep, if_neg (limited_not l hlim)]
  have j1' : -l.dec ≤ newAcc l f.acc (distance - req) (f.speed - vt) dt := j1
  have j2' : newAcc l f.acc (distance - req) (f.speed - vt) dt ≤ l.acc := j2
  have m1 := mul_le_mul_of_nonneg_right j1' hdt
  have m2 := mul_le_mul_of_nonneg_right j2' hdt
  have h3' := abs_le.mp h3
  have p1 := mul_nonneg hl.acc.le hdt
  have p2 := mul_nonneg hl.dec.le hdt
  refine ⟨j2', j1', abs_le.mpr hs, trivial, ?_, ?_⟩
  · unfold limitSpeed
    split
    · linarith
    · split <;> linarith
  · unfold limitSpeed
    split
    · linarith
    · split <;> linarith

/-- The acceleration grows with at most the given rate, and so does the deceleration.  Not limited is how fast they are
released (`jerk_fails`). -/
theorem long_jerk_partial (l : Limits) (hl : l.Ok) (old diff speedDiff dt : ℝ) (hdt : 0 ≤ dt) :
    let a := newAcc l old diff speedDiff dt
    (a < 0 → old - a ≤ l.decRate * dt) ∧ (0 ≤ a → a - old ≤ l.accRate * dt) := by
  obtain ⟨b1, b2, b3, b4, b5⟩ := limitAcc_bounds l hl.acc.le hl.dec.le (pull l diff speedDiff)
  have p1 := mul_nonneg hl.accRate.le hdt
  have p2 := mul_nonneg hl.decRate.le hdt
  simp only [newAcc]
  unfold limitJerk jerk
  have hd := hl.decRate
  have ha := hl.accRate
  by_cases h : pull l diff speedDiff < 0
  · have b5' := b5 h hl.dec
    simp only [if_pos h]
    by_cases h2 : limitAcc l (pull l diff speedDiff) < old
    · rw [if_pos ⟨by linarith, h2⟩]
      constructor
      · intro _
        have := le_max_left (old + -l.decRate * dt) (limitAcc l (pull l diff speedDiff))
        linarith
      · intro _
        have : max (old + -l.decRate * dt) (limitAcc l (pull l diff speedDiff)) ≤ old := max_le (by linarith) h2.le
        linarith
    · rw [if_neg (fun hh => h2 hh.2), if_neg (by rintro ⟨hh, _⟩; linarith)]
      exact ⟨fun _ => by linarith, fun _ => by linarith⟩
  · have b4' := b4 (not_lt.mp h)
    simp only [if_neg h]
    rw [if_neg (by rintro ⟨hh, _⟩; linarith)]
    by_cases h2 : limitAcc l (pull l diff speedDiff) > old
    · rw [if_pos ⟨ha, h2⟩]
      constructor
      · intro _
        have : old ≤ min (old + l.accRate * dt) (limitAcc l (pull l diff speedDiff)) := le_min (by linarith) h2.le
        linarith
      · intro _
        have := min_le_left (old + l.accRate * dt) (limitAcc l (pull l diff speedDiff))
        linarith
    · rw [if_neg (fun hh => h2 hh.2)]
      exact ⟨fun _ => by linarith, fun _ => by linarith⟩

/-- Brakes are released at once: from -8 to -1 m/s² in 10 ms though the rate is limited to 1 m/s³. -/
theorem jerk_fails : newAcc ⟨10, 1, 10, 1, 100⟩ (-8) (-1 / 4) 0 (1 / 100) = -1 := by
  have hs : stiffness ⟨10, 1, 10, 1, 100⟩ (-1 / 4) = 4 := by norm_num [stiffness]
  have hp : pull ⟨10, 1, 10, 1, 100⟩ (-1 / 4) 0 = -1 := by
    rw [pull, hs]
    norm_num
  rw [newAcc, hp]
  norm_num [limitAcc, limitJerk, jerk]

/-- Too far behind and not faster than the other entity, it does not brake; too close and not slower, it does not
accelerate. -/
theorem long_toward (l : Limits) (hl : l.Ok) (old diff speedDiff dt : ℝ) (hdt : 0 ≤ dt) :
    (0 ≤ diff → speedDiff ≤ 0 → 0 ≤ old → 0 ≤ newAcc l old diff speedDiff dt) ∧
    (diff ≤ 0 → 0 ≤ speedDiff → old ≤ 0 → newAcc l old diff speedDiff dt ≤ 0) := by
  have hk : 0 ≤ stiffness l diff := by
    unfold stiffness
    have := hl.acc
    have := hl.dec
    split <;> linarith
  have hsq := sqrt_nonneg (stiffness l diff)
  obtain ⟨b1, b2, b3, b4, -⟩ := limitAcc_bounds l hl.acc.le hl.dec.le (pull l diff speedDiff)
  constructor
  · intro h1 h2 h3
    have hp : 0 ≤ pull l diff speedDiff := by
      unfold pull
      nlinarith [mul_nonneg h1 hk, mul_nonneg (neg_nonneg.mpr h2) hsq]
    have := (limitJerk_bounds 0 (max old l.acc) (jerk l (pull l diff speedDiff)) old _ dt hdt h3 (le_max_left _ _) (b4 hp)
      (le_trans b2 (le_max_right _ _))).1
    exact this
  · intro h1 h2 h3
    have hp : pull l diff speedDiff ≤ 0 := by
      unfold pull
      nlinarith [mul_nonneg (neg_nonneg.mpr h1) hk, mul_nonneg h2 hsq]
    have hz : limitAcc l (pull l diff speedDiff) ≤ 0 := by
      rcases lt_or_eq_of_le hp with h | h
      · exact b3 h
      · rw [h]
        have := hl.acc
        unfold limitAcc
        rw [if_neg (lt_irrefl _)]
        split <;> linarith
    exact (limitJerk_bounds (min old (-l.dec)) 0 (jerk l (pull l diff speedDiff)) old _ dt hdt (min_le_left _ _) h3
      (le_trans (min_le_right _ _) b1) hz).2

/-- At the requested distance and with the speed of the other entity nothing changes. -/
theorem long_rest (l : Limits) (hl : l.Ok) (hlim : l.Limited) (c : Bool) (req vt : ℝ) (m : ℝ) (e : Bool) (dt : ℝ)
    (hv : |vt| ≤ l.speed) :
    (longStep l c req req vt ⟨vt, 0, m, e⟩ dt).speed = vt ∧ (longStep l c req req vt ⟨vt, 0, m, e⟩ dt).acc = 0 := by
  have hp : pull l 0 0 = 0 := by simp [pull]
  have hn : newAcc l 0 0 0 dt = 0 := by
    rw [newAcc, hp]
    have := hl.acc
    simp [limitAcc, limitJerk, not_lt.mpr this.le]
  have hv' := abs_le.mp hv
  simp only [longStep, if_neg (limited_not l hlim), sub_self, hn, zero_mul, add_zero]
  refine ⟨?_, trivial⟩
  unfold limitSpeed
  rw [if_neg (by linarith), if_neg (by linarith)]

/-- Without limits the entity is put to the requested distance at once and takes over the speed. -/
theorem long_exact (l : Limits) (h : l.acc ≥ large ∧ l.dec ≥ large) (c : Bool) (req distance vt : ℝ) (f : Follower) (dt : ℝ) :
    (longStep l c req distance vt f dt).speed = vt ∧ distance - (longStep l c req distance vt f dt).moved = req := by
  simp only [longStep, if_pos h]
  exact ⟨trivial, by ring⟩

/-- The action ends when the distance is reached within 0.1 m, and never if it is continuous. -/
theorem long_ends (l : Limits) (c : Bool) (req distance vt : ℝ) (f : Follower) (dt : ℝ) (hf : f.ended = false) :
    (longStep l c req distance vt f dt).ended = true ↔ c = false ∧ |distance - req| < 1 / 10 := by
  unfold longStep threshold
  split <;> simp [hf]

/-- The distance requested: behind the other entity if trailing, ahead of it if leading, on the side it is on if neither is
given; a time gap is the distance the other entity travels in that time. -/
theorem long_requested (gap : Bool) (d vt distance : ℝ) :
    requested (Displacement.trailing.resolve distance) (wanted gap d vt) = (if gap then |vt| * |d| else |d|) ∧
    requested (Displacement.leading.resolve distance) (wanted gap d vt) = -(if gap then |vt| * |d| else |d|) ∧
    (0 ≤ distance → requested (Displacement.any.resolve distance) (wanted gap d vt) =
      (if gap then |vt| * |d| else |d|)) ∧
    (distance < 0 → requested (Displacement.any.resolve distance) (wanted gap d vt) =
      -(if gap then |vt| * |d| else |d|)) ∧
    requested (Displacement.none.resolve distance) (wanted gap d vt) = (if gap then |vt| * d else d) := by
  have hw : |wanted gap d vt| = if gap then |vt| * |d| else |d| := by
    unfold wanted
    cases gap <;> simp [abs_mul]
  refine ⟨?_, ?_, ?_, ?_, ?_⟩
  · simp [Displacement.resolve, requested, hw]
  · simp [Displacement.resolve, requested, hw]
  · intro h
    simp [Displacement.resolve, requested, hw, not_lt.mpr h]
  · intro h
    simp [Displacement.resolve, requested, hw, h]
  · simp [Displacement.resolve, requested, wanted]

/-- Spec: a follower and its distance to an entity with constant speed `vt` on a straight road, after `n` time steps. -/
noncomputable def follow (l : Limits) (c : Bool) (req vt dt : ℝ) (gap : ℝ) (f : Follower) : Nat → ℝ × Follower
  | 0 => (gap, f)
  | n + 1 =>
    let g := longStep l c req (follow l c req vt dt gap f n).1 vt (follow l c req vt dt gap f n).2 dt
    ((follow l c req vt dt gap f n).1 - (g.speed - vt) * dt, g)

theorem limitJerk_free (j old a dt r : ℝ) (h : |a - old| ≤ r * dt) (hj : |j| = r) :
    limitJerk j old a dt = a := by
  have h' := abs_le.mp h
  unfold limitJerk
  split
  · rename_i hh
    rw [abs_of_neg hh.1] at hj
    apply max_eq_right
    rw [← hj] at h'
    nlinarith
  · split
    · rename_i hh
      rw [abs_of_pos hh.1] at hj
      apply min_eq_right
      rw [← hj] at h'
      nlinarith
    · rfl

/-- Small deviations from the distance and the speed vanish: the entity reaches the distance and the speed of the other one, if
the limits of acceleration and deceleration are the same, the rates allow for the change from one to the other in a step, and the steps are not too long. -/
theorem long_converges_partial (l : Limits) (hl : l.Ok) (hlim : l.Limited) (heq : l.dec = l.acc) (c : Bool) (req vt dt : ℝ) (hdt : 0 < dt)
    (hr1 : 2 * l.acc ≤ l.accRate * dt) (hr2 : 2 * l.acc ≤ l.decRate * dt) (hv : |vt| < l.speed)
    (hs : sqrt (l.acc * (4 / 10)) * dt < 2 * sqrt 2 - 2) :
    ∃ ε, 0 < ε ∧ ∀ gap f, |gap - req| ≤ ε → |f.speed - vt| ≤ ε → |f.acc| ≤ l.acc →
      Tendsto (fun n => (follow l c req vt dt gap f n).1) atTop (nhds req) ∧
      Tendsto (fun n => (follow l c req vt dt gap f n).2.speed) atTop (nhds vt) := by
  have hk : 0 < l.acc * (4 / 10) := by have := hl.acc; linarith
  set w := sqrt (l.acc * (4 / 10)) with hw
  have hwp : 0 < w := sqrt_pos.mpr hk
  have hww : w * w = l.acc * (4 / 10) := mul_self_sqrt hk.le
  have h2 : sqrt 2 ^ 2 = 2 := sq_sqrt (by norm_num)
  have hrp : 0 < w * dt := mul_pos hwp hdt
  have hs' : (w * dt) ^ 2 + 4 * (w * dt) < 4 := by nlinarith
  obtain ⟨C, hC, hb⟩ := swings_bounded w dt hwp hdt hs'
  have hst : ∀ diff, stiffness l diff = w * w := by
    intro diff
    rw [hww]
    unfold stiffness
    rw [heq]
    split <;> rfl
  have hpull : ∀ diff sd, pull l diff sd = -(w * w) * (-diff) - 2 * w * sd := by
    intro diff sd
    rw [pull, hst, sqrt_mul_self hwp.le]
    ring
  have hgapspeed : 0 < l.speed - |vt| := by linarith
  refine ⟨min (l.acc / (2 * C * (w * w + 2 * w) + 1)) ((l.speed - |vt|) / (2 * C + 1)), ?_, ?_⟩
  · exact lt_min (div_pos hl.acc (by positivity)) (div_pos hgapspeed (by positivity))
  intro gap f h1 h3 ha
  have hA : 0 < l.acc := hl.acc
  have e1 : |gap - req| + |f.speed - vt| ≤ 2 * (l.acc / (2 * C * (w * w + 2 * w) + 1)) := by
    have := min_le_left (l.acc / (2 * C * (w * w + 2 * w) + 1)) ((l.speed - |vt|) / (2 * C + 1))
    linarith
  have e2 : |gap - req| + |f.speed - vt| ≤ 2 * ((l.speed - |vt|) / (2 * C + 1)) := by
    have := min_le_right (l.acc / (2 * C * (w * w + 2 * w) + 1)) ((l.speed - |vt|) / (2 * C + 1))
    linarith
  have hsum : 0 ≤ |gap - req| + |f.speed - vt| := by positivity
  have k1 : C * (|gap - req| + |f.speed - vt|) * (w * w + 2 * w) ≤ l.acc := by
    have hden : 0 < 2 * C * (w * w + 2 * w) + 1 := by positivity
    calc C * (|gap - req| + |f.speed - vt|) * (w * w + 2 * w)
        ≤ C * (2 * (l.acc / (2 * C * (w * w + 2 * w) + 1))) * (w * w + 2 * w) := by
          apply mul_le_mul_of_nonneg_right _ (by positivity)
          exact mul_le_mul_of_nonneg_left e1 hC.le
      _ = l.acc * ((2 * C * (w * w + 2 * w)) / (2 * C * (w * w + 2 * w) + 1)) := by field_simp
      _ ≤ l.acc * 1 := by
          apply mul_le_mul_of_nonneg_left _ hA.le
          rw [div_le_one hden]
          linarith
      _ = l.acc := mul_one _
  have k2 : C * (|gap - req| + |f.speed - vt|) ≤ l.speed - |vt| := by
    have hden : 0 < 2 * C + 1 := by positivity
    calc C * (|gap - req| + |f.speed - vt|) ≤ C * (2 * ((l.speed - |vt|) / (2 * C + 1))) :=
          mul_le_mul_of_nonneg_left e2 hC.le
      _ = (l.speed - |vt|) * ((2 * C) / (2 * C + 1)) := by field_simp
      _ ≤ (l.speed - |vt|) * 1 := by
          apply mul_le_mul_of_nonneg_left _ hgapspeed.le
          rw [div_le_one hden]
          linarith
      _ = _ := mul_one _
  set p : ℝ × ℝ := (-(gap - req), f.speed - vt) with hp
  have hpn : |p.1| + |p.2| = |gap - req| + |f.speed - vt| := by simp only [hp, abs_neg]
  have key : ∀ n, (-((follow l c req vt dt gap f n).1 - req), (follow l c req vt dt gap f n).2.speed - vt) = swings w dt p n ∧
      |(follow l c req vt dt gap f n).2.acc| ≤ l.acc := by
    intro n
    induction n with
    | zero => exact ⟨rfl, ha⟩
    | succ n ih =>
      obtain ⟨ih1, ih2⟩ := ih
      obtain ⟨b1, b2⟩ := hb p n
      have c1 := (hb p (n + 1)).2
      rw [hpn] at b1 b2 c1
      set G := (follow l c req vt dt gap f n).1 with hG
      set F := (follow l c req vt dt gap f n).2 with hF
      have f1 : (swings w dt p n).1 = -(G - req) := by rw [← ih1]
      have f2 : (swings w dt p n).2 = F.speed - vt := by rw [← ih1]
      have hpl : |pull l (G - req) (F.speed - vt)| ≤ l.acc := by
        rw [hpull, ← f1, ← f2]
        have := abs_sub (-(w * w) * (swings w dt p n).1) (2 * w * (swings w dt p n).2)
        rw [abs_mul, abs_mul, abs_neg, abs_of_pos (by positivity : 0 < w * w), abs_of_pos (by positivity : 0 < 2 * w)] at this
        have m1 := mul_le_mul_of_nonneg_left b1 (by positivity : 0 ≤ w * w)
        have m2 := mul_le_mul_of_nonneg_left b2 (by positivity : 0 ≤ 2 * w)
        nlinarith
      have hpl' := abs_le.mp hpl
      have hla : limitAcc l (pull l (G - req) (F.speed - vt)) = pull l (G - req) (F.speed - vt) := by
        unfold limitAcc
        rw [heq]
        split
        · rw [if_neg (by linarith)]
        · rw [if_neg (by linarith)]
      have hacc2 := abs_le.mp ih2
      have hna : newAcc l F.acc (G - req) (F.speed - vt) dt = pull l (G - req) (F.speed - vt) := by
        rw [newAcc, hla]
        unfold jerk
        split
        · apply limitJerk_free _ _ _ _ l.decRate
          · rw [abs_le]; constructor <;> linarith
          · rw [abs_neg, abs_of_pos hl.decRate]
        · apply limitJerk_free _ _ _ _ l.accRate
          · rw [abs_le]; constructor <;> linarith
          · rw [abs_of_pos hl.accRate]
      have hv2 : F.speed + pull l (G - req) (F.speed - vt) * dt - vt = (swings w dt p (n + 1)).2 := by
        rw [swings, swing, hpull, f1, f2]
        ring
      have hls : limitSpeed l.speed (F.speed + pull l (G - req) (F.speed - vt) * dt) =
          F.speed + pull l (G - req) (F.speed - vt) * dt := by
        have c1' := abs_le.mp c1
        have vv := abs_le.mp (le_refl |vt|)
        rw [← hv2] at c1'
        unfold limitSpeed
        rw [if_neg (by linarith), if_neg (by linarith)]
      have hstep : longStep l c req G vt F dt = ⟨F.speed + pull l (G - req) (F.speed - vt) * dt,
          pull l (G - req) (F.speed - vt), 0, F.ended || (!c && decide (|G - req| < threshold))⟩ := by
        simp only [longStep, if_neg (limited_not l hlim), hna, hls]
      refine ⟨?_, ?_⟩
      · simp only [follow, ← hG, ← hF, hstep]
        refine Prod.ext ?_ hv2
        rw [swings, swing, hpull, f1, f2]
        ring
      · simp only [follow, ← hG, ← hF, hstep]
        exact hpl
  obtain ⟨t1, t2⟩ := swings_tendsto w dt hwp hdt hs' p
  constructor
  · have := (t1.neg).add_const req
    rw [neg_zero, zero_add] at this
    refine this.congr fun n => ?_
    rw [← (key n).1]
    ring
  · have := t2.add_const vt
    rw [zero_add] at this
    refine this.congr fun n => ?_
    rw [← (key n).1]
    ring

-- limits that fulfil the hypotheses: 5 m/s², 100 steps per second
example : ∃ l : Limits, l.Ok ∧ l.Limited ∧ l.dec = l.acc ∧ 2 * l.acc ≤ l.accRate * (1 / 100) ∧
    2 * l.acc ≤ l.decRate * (1 / 100) ∧ |(20 : ℝ)| < l.speed ∧ sqrt (l.acc * (4 / 10)) * (1 / 100) < 2 * sqrt 2 - 2 := by
  have h2 : sqrt 2 ^ 2 = 2 := sq_sqrt (by norm_num)
  have h3 : (14 / 10 : ℝ) < sqrt 2 := by
    apply lt_of_pow_lt_pow_left₀ 2 (sqrt_nonneg _)
    rw [h2]
    norm_num
  have h4 : sqrt (5 * (4 / 10)) = sqrt 2 := by norm_num
  refine ⟨⟨5, 1000, 5, 1000, 50⟩, ⟨?_, ?_, ?_, ?_, ?_⟩, Or.inl ?_, rfl, ?_, ?_, ?_, ?_⟩
  · norm_num
  · norm_num
  · norm_num
  · norm_num
  · norm_num
  · norm_num [large]
  · norm_num
  · norm_num
  · norm_num
  · simp only [h4]
    nlinarith

/-! Lateral distance -/

/-- After the start of the action the error is the way to the left that is left to the requested distance on the requested side, measured
from the sides of the entities if free space is wanted. -/
theorem lat_start (freespace : Bool) (widths d x : ℝ) :
    latError true x (latStart false freespace .left widths d) = |d| + (if freespace then widths / 2 else 0) - x ∧
    latError true x (latStart false freespace .any widths d) = |d| + (if freespace then widths / 2 else 0) - x ∧
    latError true x (latStart false freespace .right widths d) =
      -(|d| + (if freespace then widths / 2 else 0)) - x := by
  refine ⟨?_, ?_, ?_⟩ <;> cases freespace <;> simp [latError, latStart, Side.resolve] <;> ring

/-- Starting the action again changes the distance: with free space the widths are added once more, and in the entity coordinate system
an entity that is to be on the right goes to the left. -/
theorem lat_restart_fails (widths d : ℝ) (hw : 0 < widths) (hd : 0 < d) :
    latStart false true .left widths (latStart false true .left widths d) ≠ latStart false true .left widths d ∧
    latStart true false .right widths (latStart true false .right widths d) = -latStart true false .right widths d ∧
    latStart true false .right widths d ≠ 0 := by
  refine ⟨?_, ?_, ?_⟩
  · simp only [latStart, Side.resolve]
    simp only [Bool.false_eq_true, if_false, if_true, reduceCtorEq, abs_of_pos hd]
    have : -d + -1 * widths / 2 < 0 := by linarith
    rw [abs_of_neg this]
    intro h
    linarith
  · simp [latStart, Side.resolve]
  · simp [latStart, Side.resolve, hd.ne']

theorem absLimit_bound (x y : ℝ) : |absLimit x y| ≤ |y| := by
  unfold absLimit
  split
  · unfold sgn
    split <;> simp
  · rename_i h
    exact not_lt.mp h

theorem sgn_abs (x : ℝ) : |sgn x| = 1 := by
  unfold sgn
  split <;> simp

theorem sgn_mul (x : ℝ) : sgn x * |x| = x := by
  unfold sgn
  split
  · rename_i h; rw [abs_of_neg h]; ring
  · rename_i h; rw [abs_of_nonneg (not_lt.mp h)]; ring

/-- The distance moved by the action without a limit of the acceleration: towards the target, as far as the speed allows, but
not beyond the target. -/
theorem direct_moves (l : Limits) (c : Bool) (error speed dt : ℝ) (s : Lateral) (hdt : 0 < dt) (ht : 0 ≤ latTop l speed) :
    (latDirect l c error speed dt s).vel * dt = sgn error * min (latTop l speed * dt) |error| := by
  have htd : 0 ≤ latTop l speed * dt := mul_nonneg ht hdt.le
  unfold latDirect
  split
  · rename_i h
    have hle : |error| ≤ latTop l speed * dt := by
      by_contra hlt
      have hlt := not_le.mp hlt
      apply h
      unfold sgn at h ⊢
      by_cases he : error < 0
      · rw [abs_of_neg he] at hlt
        simp only [if_pos he]
        rw [if_pos (by linarith)]
      · rw [abs_of_nonneg (not_lt.mp he)] at hlt
        simp only [if_neg he]
        rw [if_neg (by intro h'; linarith)]
    rw [min_eq_right hle, sgn_mul]
    simp only
    field_simp
  · rename_i h
    have h := not_not.mp h
    have hle : latTop l speed * dt ≤ |error| := by
      by_contra hlt
      have hlt := not_le.mp hlt
      unfold sgn at h
      by_cases he : error < 0
      · rw [abs_of_neg he] at hlt
        simp only [if_pos he] at h
        rw [if_neg (by intro h'; linarith)] at h
        norm_num at h
      · rw [abs_of_nonneg (not_lt.mp he)] at hlt
        simp only [if_neg he] at h
        rw [if_pos (by linarith)] at h
        norm_num at h
    rw [min_eq_left hle]
    simp only
    ring

theorem latTop_le (l : Limits) (speed : ℝ) : latTop l speed < speed ∧ latTop l speed < l.speed := by
  have : (0 : ℝ) < small := by norm_num [small]
  unfold latTop
  exact ⟨by have := min_le_right l.speed speed; linarith, by have := min_le_left l.speed speed; linarith⟩

/-- The lateral speed of a moving entity stays below its speed and the maximum speed, and it goes on along the road with the rest of its
speed: altogether it moves with its speed. -/
theorem lat_speed (l : Limits) (c : Bool) (error targetVel speed dt : ℝ) (s : Lateral) (hdt : 0 < dt) (hs : small ≤ speed)
    (hl : small ≤ l.speed) :
    ∃ r v, latStep l c error targetVel speed dt s = some (r, v, r.vel * dt) ∧ |r.vel| < speed ∧ |r.vel| < l.speed ∧
      0 ≤ v ∧ v ^ 2 + r.vel ^ 2 = speed ^ 2 := by
  have ht : 0 ≤ latTop l speed := by
    unfold latTop
    have := le_min hl hs
    linarith
  obtain ⟨t1, t2⟩ := latTop_le l speed
  have hv : |(latMove l c error targetVel speed dt s).vel| ≤ latTop l speed := by
    unfold latMove
    split
    · have := absLimit_bound (s.vel + latAcc l s.acc (latPull l error (s.vel - targetVel)) dt * dt) (latTop l speed)
      rwa [abs_of_nonneg ht] at this
    · have h1 := direct_moves l c error speed dt s hdt ht
      have h2 : |(latDirect l c error speed dt s).vel| * dt ≤ latTop l speed * dt := by
        rw [← abs_of_pos hdt, ← abs_mul, abs_of_pos hdt, h1, abs_mul, sgn_abs, one_mul,
          abs_of_nonneg (le_min (mul_nonneg ht hdt.le) (abs_nonneg _))]
        exact min_le_left _ _
      exact le_of_mul_le_mul_right h2 hdt
  have hlt : |(latMove l c error targetVel speed dt s).vel| < speed := lt_of_le_of_lt hv t1
  have hsq : (latMove l c error targetVel speed dt s).vel ^ 2 ≤ speed ^ 2 := by
    rw [← sq_abs]
    exact pow_le_pow_left₀ (abs_nonneg _) hlt.le 2
  refine ⟨latMove l c error targetVel speed dt s, sqrt (speed ^ 2 - (latMove l c error targetVel speed dt s).vel ^ 2), ?_,
    hlt, lt_of_le_of_lt hv t2, sqrt_nonneg _, ?_⟩
  · unfold latStep longVel
    rw [if_neg (by linarith)]
    rfl
  · rw [sq_sqrt (by linarith)]
    ring

/-- For an entity that stands still the lateral speed is limited to 1e-6 instead of 0, so that the speed along the road is
not a number. -/
theorem lat_standing_fails (l : Limits) (hl : l.Ok) (c : Bool) (error dt : ℝ) (hdt : 0 < dt) (he : error ≠ 0) :
    latStep l c error 0 0 dt ⟨0, 0, false⟩ = none := by
  have hsm : (0 : ℝ) < small := by norm_num [small]
  have htop : latTop l 0 = -small := by
    unfold latTop
    rw [min_eq_right hl.speed]
    ring
  have hne : (latMove l c error 0 0 dt ⟨0, 0, false⟩).vel ≠ 0 := by
    unfold latMove
    split
    · -- the spring pulls
      have hp : latPull l error (0 - 0) = 4 / 10 * l.acc * error := by
        simp [latPull, latSpringOf, Spring.force, Spring.setTension, criticallyDamped]
      have hpne : latPull l error (0 - 0) ≠ 0 := by
        rw [hp]
        have := hl.acc
        exact mul_ne_zero (by positivity) he
      have hacc : latAcc l 0 (latPull l error (0 - 0)) dt ≠ 0 := by
        have r1 := mul_pos hl.accRate hdt
        have r2 := hl.acc
        unfold latAcc clamp
        generalize latPull l error (0 - 0) = q at hpne
        rw [sub_zero, zero_add]
        rcases lt_or_gt_of_ne hpne with h | h
        · have : min (l.accRate * dt) (max (-(l.accRate * dt)) q) < 0 :=
            lt_of_le_of_lt (min_le_right _ _) (max_lt (by linarith) h)
          have : min l.acc (max (-l.acc) (min (l.accRate * dt) (max (-(l.accRate * dt)) q))) < 0 :=
            lt_of_le_of_lt (min_le_right _ _) (max_lt (by linarith) this)
          exact this.ne
        · have : 0 < min (l.accRate * dt) (max (-(l.accRate * dt)) q) := lt_min r1 (lt_of_lt_of_le h (le_max_right _ _))
          have : 0 < min l.acc (max (-l.acc) (min (l.accRate * dt) (max (-(l.accRate * dt)) q))) :=
            lt_min r2 (lt_of_lt_of_le this (le_max_right _ _))
          exact this.ne'
      simp only [latSpring, htop, zero_add]
      have hx : latAcc l 0 (latPull l error (0 - 0)) dt * dt ≠ 0 := mul_ne_zero hacc hdt.ne'
      unfold absLimit
      split
      · intro h
        have := congrArg abs h
        rw [abs_mul, sgn_abs, one_mul, abs_neg, abs_of_pos hsm, abs_of_pos hsm, abs_zero] at this
        linarith
      · exact hx
    · unfold latDirect
      split
      · simp only
        exact div_ne_zero he hdt.ne'
      · simp only [htop]
        intro h
        have := congrArg abs h
        rw [abs_mul, sgn_abs, one_mul, abs_neg, abs_of_pos hsm, abs_zero] at this
        linarith
  unfold latStep longVel
  rw [if_pos]
  · rfl
  · have := sq_pos_of_ne_zero hne
    simp only [ne_eq, OfNat.ofNat_ne_zero, not_false_eq_true, zero_pow, zero_sub]
    linarith

/-- So it is for one that drives backwards. -/
theorem lat_reverse_fails (l : Limits) (hl : l.Ok) (hacc : l.acc = large) (c : Bool) (error speed dt : ℝ) (hdt : 0 < dt)
    (hs : speed < 0) (s : Lateral) : latStep l c error 0 speed dt s = none := by
  have hsm : (0 : ℝ) < small := by norm_num [small]
  have htop : latTop l speed = speed - small := by
    unfold latTop
    rw [min_eq_right (by linarith [hl.speed])]
  have hneg : latTop l speed < 0 := by rw [htop]; linarith
  have hv : (latMove l c error 0 speed dt s).vel = sgn error * latTop l speed := by
    unfold latMove
    rw [if_neg (by simpa using hacc)]
    unfold latDirect
    rw [if_neg]
    intro h
    apply h
    unfold sgn
    have := mul_neg_of_neg_of_pos hneg hdt
    by_cases he : error < 0
    · simp only [if_pos he]
      rw [if_pos (by linarith)]
    · simp only [if_neg he]
      rw [if_neg (by intro h'; linarith)]
  unfold latStep longVel
  rw [if_pos]
  · rfl
  · rw [hv, mul_pow, ← sq_abs (sgn error), sgn_abs, htop]
    nlinarith

theorem clamp_bounds (x lo hi : ℝ) (h : lo ≤ hi) : lo ≤ clamp x lo hi ∧ clamp x lo hi ≤ hi :=
  ⟨le_min h (le_max_left _ _), min_le_left _ _⟩

/-- The lateral acceleration keeps its limit, and its change the rate. -/
theorem lat_limits (l : Limits) (ha : 0 ≤ l.acc) (hr : 0 ≤ l.accRate) (hf : l.acc ≠ large) (c : Bool) (error targetVel speed dt : ℝ) (s : Lateral)
    (hdt : 0 ≤ dt) (hs : |s.acc| ≤ l.acc) :
    |(latMove l c error targetVel speed dt s).acc| ≤ l.acc ∧
    |(latMove l c error targetVel speed dt s).acc - s.acc| ≤ l.accRate * dt := by
  have hrd := mul_nonneg hr hdt
  have hs' := abs_le.mp hs
  simp only [latMove, if_pos hf, latSpring, latAcc]
  generalize latPull l error (s.vel - targetVel) = q
  obtain ⟨c1, c2⟩ := clamp_bounds (q - s.acc) (-(l.accRate * dt)) (l.accRate * dt) (by linarith)
  generalize clamp (q - s.acc) (-(l.accRate * dt)) (l.accRate * dt) = z at c1 c2
  obtain ⟨d1, d2⟩ := clamp_bounds (s.acc + z) (-l.acc) l.acc (by linarith)
  refine ⟨abs_le.mpr ⟨d1, d2⟩, ?_⟩
  unfold clamp at d1 d2 ⊢
  rw [abs_le]
  rcases le_total (s.acc + z) (-l.acc) with h | h
  · rw [max_eq_left h, min_eq_right (by linarith)]
    constructor <;> linarith
  · rw [max_eq_right h]
    rcases le_total (s.acc + z) l.acc with h' | h'
    · rw [min_eq_right h']
      constructor <;> linarith
    · rw [min_eq_left h']
      constructor <;> linarith

/-- Spec: the error after `n` time steps, if the other entity keeps its lateral position. -/
noncomputable def latErrors (l : Limits) (c : Bool) (speed dt error : ℝ) (s : Lateral) : Nat → ℝ × Lateral
  | 0 => (error, s)
  | n + 1 =>
    let m := latMove l c (latErrors l c speed dt error s n).1 0 speed dt (latErrors l c speed dt error s n).2
    ((latErrors l c speed dt error s n).1 - m.vel * dt, m)

theorem direct_errors (l : Limits) (c : Bool) (hacc : l.acc = large) (speed dt error : ℝ) (s : Lateral) (hdt : 0 < dt)
    (ht : 0 ≤ latTop l speed) (hs : s.ended = false) (n : Nat) :
    |(latErrors l c speed dt error s n).1| = max 0 (|error| - n * (latTop l speed * dt)) ∧
    (0 ≤ error → 0 ≤ (latErrors l c speed dt error s n).1) ∧ (error ≤ 0 → (latErrors l c speed dt error s n).1 ≤ 0) ∧
    ((latErrors l c speed dt error s n).2.ended = true → c = false ∧ (latErrors l c speed dt error s n).1 = 0) := by
  have htd : 0 ≤ latTop l speed * dt := mul_nonneg ht hdt.le
  induction n with
  | zero => simp [latErrors, hs]
  | succ n ih =>
    obtain ⟨i1, i2, i3, i4⟩ := ih
    have hm : ∀ e q, latMove l c e 0 speed dt q = latDirect l c e speed dt q := by
      intro e q
      unfold latMove
      rw [if_neg (by simpa using hacc)]
    set E := (latErrors l c speed dt error s n).1 with hE
    set S := (latErrors l c speed dt error s n).2 with hS
    have hmv := direct_moves l c E speed dt S hdt ht
    have e1 : (latErrors l c speed dt error s (n + 1)).1 = E - sgn E * min (latTop l speed * dt) |E| := by
      simp only [latErrors, ← hE, ← hS, hm, hmv]
    have e2 : E - sgn E * min (latTop l speed * dt) |E| = sgn E * max 0 (|E| - latTop l speed * dt) := by
      rcases le_total (latTop l speed * dt) |E| with h | h
      · rw [min_eq_left h, max_eq_right (by linarith), mul_sub, sgn_mul]
      · rw [min_eq_right h, max_eq_left (by linarith), sgn_mul]; ring
    have hmax : 0 ≤ max 0 (|E| - latTop l speed * dt) := le_max_left _ _
    refine ⟨?_, ?_, ?_, ?_⟩
    · rw [e1, e2, abs_mul, sgn_abs, one_mul, abs_of_nonneg hmax, i1]
      push_cast
      rcases le_total 0 (|error| - n * (latTop l speed * dt)) with h | h
      · rw [max_eq_right h]
        congr 1
        ring
      · rw [max_eq_left h, max_eq_left (by linarith), max_eq_left (by linarith)]
    · intro h
      rw [e1, e2]
      have hE0 := i2 h
      unfold sgn
      rw [if_neg (not_lt.mpr hE0), one_mul]
      exact hmax
    · intro h
      rw [e1, e2]
      rcases lt_or_eq_of_le (i3 h) with h' | h'
      · unfold sgn
        rw [if_pos h']
        linarith
      · rw [h', abs_zero, max_eq_left (by linarith)]
        simp
    · intro hend
      have hd : (latErrors l c speed dt error s (n + 1)).2 = latDirect l c E speed dt S := by
        simp only [latErrors, ← hE, ← hS, hm]
      rw [hd] at hend
      have hzero : E = 0 → (latErrors l c speed dt error s (n + 1)).1 = 0 := by
        intro h0
        rw [e1, e2, h0, abs_zero, max_eq_left (by linarith), mul_zero]
      unfold latDirect at hend
      split at hend
      · rename_i hsg
        simp only [Bool.or_eq_true, Bool.not_eq_true'] at hend
        have hle : |E| ≤ latTop l speed * dt := by
          by_contra hlt
          have hlt := not_le.mp hlt
          apply hsg
          unfold sgn
          by_cases he : E < 0
          · rw [abs_of_neg he] at hlt
            simp only [if_pos he]
            rw [if_pos (by linarith)]
          · rw [abs_of_nonneg (not_lt.mp he)] at hlt
            simp only [if_neg he]
            rw [if_neg (by intro h'; linarith)]
        refine ⟨?_, ?_⟩
        · rcases hend with h | h
          · exact (i4 h).1
          · exact h
        · rw [e1, e2, max_eq_left (by linarith), mul_zero]
      · simp only at hend
        exact ⟨(i4 hend).1, hzero (i4 hend).2⟩

/-- Without a limit of the acceleration the lateral distance is reached at a constant rate and then kept; the action has ended only if
it is reached. -/
theorem lat_direct (l : Limits) (c : Bool) (hacc : l.acc = large) (speed dt error : ℝ) (s : Lateral) (hdt : 0 < dt)
    (hv : 1 / 1000000 ≤ speed) (hl : 1 / 1000000 ≤ l.speed) (hs : s.ended = false) (n : Nat) :
    |(latErrors l c speed dt error s n).1| = max 0 (|error| - n * ((min l.speed speed - 1 / 1000000) * dt)) ∧
    (0 ≤ error → 0 ≤ (latErrors l c speed dt error s n).1) ∧ (error ≤ 0 → (latErrors l c speed dt error s n).1 ≤ 0) ∧
    ((latErrors l c speed dt error s n).2.ended = true → c = false ∧ (latErrors l c speed dt error s n).1 = 0) := by
  have ht : 0 ≤ latTop l speed := by
    unfold latTop small
    have := le_min hl hv
    linarith
  exact direct_errors l c hacc speed dt error s hdt ht hs n

theorem latPull_eq (l : Limits) (error v : ℝ) :
    latPull l error v = 4 / 10 * l.acc * error - 2 * sqrt (4 / 10 * l.acc) * v := by
  simp [latPull, latSpringOf, Spring.force, Spring.setTension, criticallyDamped]

/-- With a limit of the acceleration small errors and lateral speeds vanish, if the rate allows for a change from one limit to the other in a step
and the steps are not too long. -/
theorem lat_converges_partial (l : Limits) (hl : l.Ok) (hf : l.acc ≠ large) (c : Bool) (speed dt : ℝ) (hdt : 0 < dt)
    (ht : 0 < latTop l speed) (hr : 2 * l.acc ≤ l.accRate * dt) (hs : sqrt (4 / 10 * l.acc) * dt < 2 * sqrt 2 - 2) :
    ∃ ε, 0 < ε ∧ ∀ error s, |error| ≤ ε → |s.vel| ≤ ε → |s.acc| ≤ l.acc →
      Tendsto (fun n => (latErrors l c speed dt error s n).1) atTop (nhds 0) ∧
      Tendsto (fun n => (latErrors l c speed dt error s n).2.vel) atTop (nhds 0) := by
  have hA := hl.acc
  have hk : 0 < 4 / 10 * l.acc := by linarith
  set w := sqrt (4 / 10 * l.acc) with hw
  have hwp : 0 < w := sqrt_pos.mpr hk
  have hww : w * w = 4 / 10 * l.acc := mul_self_sqrt hk.le
  have h2 : sqrt 2 ^ 2 = 2 := sq_sqrt (by norm_num)
  have hrp : 0 < w * dt := mul_pos hwp hdt
  have hs' : (w * dt) ^ 2 + 4 * (w * dt) < 4 := by nlinarith
  obtain ⟨C, hC, hb⟩ := swings_bounded w dt hwp hdt hs'
  refine ⟨min (l.acc / (2 * C * (w * w + 2 * w) + 1)) (latTop l speed / (2 * C + 1)), ?_, ?_⟩
  · exact lt_min (div_pos hA (by positivity)) (div_pos ht (by positivity))
  intro error s h1 h3 ha
  have e1 : |error| + |s.vel| ≤ 2 * (l.acc / (2 * C * (w * w + 2 * w) + 1)) := by
    have := min_le_left (l.acc / (2 * C * (w * w + 2 * w) + 1)) (latTop l speed / (2 * C + 1))
    linarith
  have e2 : |error| + |s.vel| ≤ 2 * (latTop l speed / (2 * C + 1)) := by
    have := min_le_right (l.acc / (2 * C * (w * w + 2 * w) + 1)) (latTop l speed / (2 * C + 1))
    linarith
  have k1 : C * (|error| + |s.vel|) * (w * w + 2 * w) ≤ l.acc := by
    have hden : 0 < 2 * C * (w * w + 2 * w) + 1 := by positivity
    calc C * (|error| + |s.vel|) * (w * w + 2 * w)
        ≤ C * (2 * (l.acc / (2 * C * (w * w + 2 * w) + 1))) * (w * w + 2 * w) := by
          apply mul_le_mul_of_nonneg_right _ (by positivity)
          exact mul_le_mul_of_nonneg_left e1 hC.le
      _ = l.acc * ((2 * C * (w * w + 2 * w)) / (2 * C * (w * w + 2 * w) + 1)) := by field_simp
      _ ≤ l.acc * 1 := by
          apply mul_le_mul_of_nonneg_left _ hA.le
          rw [div_le_one hden]
          linarith
      _ = l.acc := mul_one _
  have k2 : C * (|error| + |s.vel|) ≤ latTop l speed := by
    have hden : 0 < 2 * C + 1 := by positivity
    calc C * (|error| + |s.vel|) ≤ C * (2 * (latTop l speed / (2 * C + 1))) :=
          mul_le_mul_of_nonneg_left e2 hC.le
      _ = latTop l speed * ((2 * C) / (2 * C + 1)) := by field_simp
      _ ≤ latTop l speed * 1 := by
          apply mul_le_mul_of_nonneg_left _ ht.le
          rw [div_le_one hden]
          linarith
      _ = _ := mul_one _
  set p : ℝ × ℝ := (-error, s.vel) with hp
  have hpn : |p.1| + |p.2| = |error| + |s.vel| := by simp only [hp, abs_neg]
  have key : ∀ n, (-(latErrors l c speed dt error s n).1, (latErrors l c speed dt error s n).2.vel) = swings w dt p n ∧
      |(latErrors l c speed dt error s n).2.acc| ≤ l.acc := by
    intro n
    induction n with
    | zero => exact ⟨rfl, ha⟩
    | succ n ih =>
      obtain ⟨ih1, ih2⟩ := ih
      obtain ⟨b1, b2⟩ := hb p n
      have c1 := (hb p (n + 1)).2
      rw [hpn] at b1 b2 c1
      set E := (latErrors l c speed dt error s n).1 with hE
      set S := (latErrors l c speed dt error s n).2 with hS
      have f1 : (swings w dt p n).1 = -E := by rw [← ih1]
      have f2 : (swings w dt p n).2 = S.vel := by rw [← ih1]
      have hpeq : latPull l E (S.vel - 0) = -(w * w) * (swings w dt p n).1 - 2 * w * (swings w dt p n).2 := by
        rw [latPull_eq, f1, f2, hww]
        ring
      have hpl : |latPull l E (S.vel - 0)| ≤ l.acc := by
        rw [hpeq]
        have := abs_sub (-(w * w) * (swings w dt p n).1) (2 * w * (swings w dt p n).2)
        rw [abs_mul, abs_mul, abs_neg, abs_of_pos (by positivity : 0 < w * w), abs_of_pos (by positivity : 0 < 2 * w)] at this
        have m1 := mul_le_mul_of_nonneg_left b1 (by positivity : 0 ≤ w * w)
        have m2 := mul_le_mul_of_nonneg_left b2 (by positivity : 0 ≤ 2 * w)
        nlinarith
      have hpl' := abs_le.mp hpl
      have hacc2 := abs_le.mp ih2
      have hla : latAcc l S.acc (latPull l E (S.vel - 0)) dt = latPull l E (S.vel - 0) := by
        unfold latAcc clamp
        rw [max_eq_right (by linarith : -(l.accRate * dt) ≤ latPull l E (S.vel - 0) - S.acc),
          min_eq_right (by linarith : latPull l E (S.vel - 0) - S.acc ≤ l.accRate * dt), add_sub_cancel,
          max_eq_right (by linarith), min_eq_right (by linarith)]
      have hv2 : S.vel + latPull l E (S.vel - 0) * dt = (swings w dt p (n + 1)).2 := by
        rw [swings, swing, hpeq, f1, f2]
      have hlim : absLimit (S.vel + latPull l E (S.vel - 0) * dt) (latTop l speed) =
          S.vel + latPull l E (S.vel - 0) * dt := by
        unfold absLimit
        rw [if_neg]
        rw [hv2, abs_of_pos ht]
        linarith
      have hstep : latMove l c E 0 speed dt S = ⟨S.vel + latPull l E (S.vel - 0) * dt, latPull l E (S.vel - 0),
          S.ended || (!c && decide (|E| < latThreshold))⟩ := by
        unfold latMove
        rw [if_pos hf]
        simp only [latSpring, hla, hlim]
      refine ⟨?_, ?_⟩
      · simp only [latErrors, ← hE, ← hS, hstep]
        refine Prod.ext ?_ hv2
        rw [swings, swing, hpeq, f1, f2]
        ring
      · simp only [latErrors, ← hE, ← hS, hstep]
        exact hpl
  obtain ⟨t1, t2⟩ := swings_tendsto w dt hwp hdt hs' p
  constructor
  · have := t1.neg
    rw [neg_zero] at this
    refine this.congr fun n => ?_
    rw [← (key n).1]
    ring
  · refine t2.congr fun n => ?_
    rw [← (key n).1]

/-- With a limit of the acceleration the action ends when the error is less than 1 cm, and never if it is continuous. -/
theorem lat_ends (l : Limits) (hf : l.acc ≠ large) (c : Bool) (error targetVel speed dt : ℝ) (s : Lateral)
    (hs : s.ended = false) :
    (latMove l c error targetVel speed dt s).ended = true ↔ c = false ∧ |error| < 1 / 100 := by
  simp [latMove, hf, latSpring, hs, latThreshold]

-- the hypotheses of `lat_direct` and `lat_speed`: 10 m/s, at most 2 m/s sideways
example : 0 ≤ latTop ⟨large, 1, 1, 1, 2⟩ 10 ∧ small ≤ (10 : ℝ) := by
  norm_num [latTop, small]

end Verif.Spring

import Verif.Traj.NurbsModel
import Verif.Traj.PolyLemmas
/-
NURBS: basis functions and curve points.
-/
namespace Verif.Traj

/-- The knots do not fall. -/
def Rising (t : Nat → Rat) : Prop := ∀ i j, i ≤ j → t i ≤ t j

/-- A basis function is zero outside the knots it spans. -/
theorem cox_support (t : Nat → Rat) (x : Rat) (ht : Rising t) : ∀ (k i : Nat), cox t x k i ≠ 0 →
    t i ≤ x ∧ x < t (i + k + 1) := by
  intro k
  induction k with
  | zero =>
    intro i h
    simp only [cox] at h
    by_contra hn
    exact h (if_neg hn)
  | succ k ih =>
    intro i h
    by_cases h1 : cox t x k i = 0
    · by_cases h2 : cox t x k (i + 1) = 0
      · simp [cox, h1, h2] at h
      · have := ih (i + 1) h2
        have e : i + 1 + k + 1 = i + (k + 1) + 1 := by omega
        rw [e] at this
        exact ⟨(ht i (i + 1) (by omega)).trans this.1, this.2⟩
    · have := ih i h1
      exact ⟨this.1, lt_of_lt_of_le this.2 (ht _ _ (by omega))⟩

/-- A basis function is never negative. -/
theorem cox_nonneg (t : Nat → Rat) (x : Rat) (ht : Rising t) : ∀ (k i : Nat), 0 ≤ cox t x k i := by
  intro k
  induction k with
  | zero => intro i; simp only [cox]; split <;> norm_num
  | succ k ih =>
    intro i
    simp only [cox]
    apply add_nonneg
    · split
      · by_cases h1 : cox t x k i = 0
        · rw [h1, mul_zero]
        · have := cox_support t x ht k i h1
          exact mul_nonneg (div_nonneg (by linarith) (by linarith)) (ih i)
      · exact le_refl _
    · split
      · by_cases h1 : cox t x k (i + 1) = 0
        · rw [h1, mul_zero]
        · have := cox_support t x ht k (i + 1) h1
          have e : i + 1 + k + 1 = i + k + 2 := by omega
          rw [e] at this
          exact mul_nonneg (div_nonneg (by linarith) (by linarith)) (ih (i + 1))
      · exact le_refl _

theorem sumTo_congr {f g : Nat → Rat} : ∀ {n : Nat}, (∀ i, i < n → f i = g i) → sumTo f n = sumTo g n := by
  intro n
  induction n with
  | zero => intro _; rfl
  | succ n ih =>
    intro h
    simp only [sumTo]
    rw [ih fun i hi => h i (by omega), h n (by omega)]

theorem sumTo_le {f g : Nat → Rat} : ∀ {n : Nat}, (∀ i, i < n → f i ≤ g i) → sumTo f n ≤ sumTo g n := by
  intro n
  induction n with
  | zero => intro _; exact le_refl _
  | succ n ih =>
    intro h
    have h1 := ih fun i hi => h i (by omega)
    have h2 := h n (by omega)
    simp only [sumTo]
    linarith

theorem sumTo_mul (f : Nat → Rat) (c : Rat) (n : Nat) : sumTo (fun i => c * f i) n = c * sumTo f n := by
  induction n with
  | zero => simp [sumTo]
  | succ n ih => simp only [sumTo]; rw [ih]; ring

theorem sumTo_zero (n : Nat) : sumTo (fun _ => 0) n = 0 := by
  induction n with
  | zero => rfl
  | succ n ih => simp only [sumTo]; rw [ih]; ring

theorem sumTo_pos {f : Nat → Rat} {n j : Nat} (h : ∀ i, i < n → 0 ≤ f i) (hj : j < n) (hp : 0 < f j) :
    0 < sumTo f n := by
  induction n with
  | zero => omega
  | succ n ih =>
    simp only [sumTo]
    have hn := h n (by omega)
    have h0 : sumTo (fun _ => 0) n ≤ sumTo f n := sumTo_le fun i hi => h i (by omega)
    rw [sumTo_zero] at h0
    by_cases e : j = n
    · subst e; linarith
    · have := ih (fun i hi => h i (by omega)) (by omega)
      linarith

/-- The share a span takes of the next lower basis function. -/
def share (t : Nat → Rat) (x : Rat) (k i : Nat) : Rat :=
  if t (i + k + 1) - t i > 0 then (x - t i) / (t (i + k + 1) - t i) else 0

theorem cox_split (t : Nat → Rat) (x : Rat) (ht : Rising t) (k i : Nat) :
    cox t x (k + 1) i = share t x k i * cox t x k i + (cox t x k (i + 1) - share t x k (i + 1) * cox t x k (i + 1)) := by
  simp only [cox, share]
  congr 1
  · split <;> simp
  · have e : i + 1 + k + 1 = i + k + 2 := by omega
    rw [e]
    by_cases hd : t (i + k + 2) - t (i + 1) > 0
    · rw [if_pos hd, if_pos hd]
      have := hd.ne'
      field_simp
      ring
    · rw [if_neg hd, if_neg hd]
      have hz : cox t x k (i + 1) = 0 := by
        by_contra hn
        have := cox_support t x ht k (i + 1) hn
        rw [e] at this
        linarith
      rw [hz]; ring

theorem sum_split (t : Nat → Rat) (x : Rat) (ht : Rising t) (k a m : Nat) :
    sumTo (fun j => cox t x (k + 1) (a + j)) m =
      share t x k a * cox t x k a + sumTo (fun j => cox t x k (a + 1 + j)) m -
        share t x k (a + m) * cox t x k (a + m) := by
  induction m with
  | zero => simp [sumTo]
  | succ m ih =>
    simp only [sumTo]
    rw [ih, cox_split t x ht]
    have e : a + (m + 1) = a + 1 + m := by omega
    have e' : a + m + 1 = a + 1 + m := by omega
    rw [e, e']
    ring

/-- The basis functions add up to one on the span they all reach. -/
theorem cox_partition (t : Nat → Rat) (x : Rat) (ht : Rising t) : ∀ (k a m : Nat), t (a + k) ≤ x → x < t (a + m) →
    sumTo (fun j => cox t x k (a + j)) m = 1 := by
  intro k
  induction k with
  | zero =>
    intro a m h0 h1
    induction m with
    | zero =>
      exfalso
      rw [Nat.add_zero] at h0 h1
      linarith
    | succ m ih =>
      simp only [sumTo]
      by_cases hm : x < t (a + m)
      · rw [ih hm]
        have : cox t x 0 (a + m) = 0 := by
          simp only [cox]; rw [if_neg]; rintro ⟨h, _⟩; linarith
        rw [this, add_zero]
      · have h1' : x < t (a + m + 1) := h1
        have hz : sumTo (fun j => cox t x 0 (a + j)) m = 0 := by
          rw [← sumTo_zero m]
          apply sumTo_congr
          intro j hj
          simp only [cox]
          rw [if_neg]
          rintro ⟨_, h⟩
          have := ht (a + j + 1) (a + m) (by omega)
          linarith
        rw [hz]
        simp only [cox]
        rw [if_pos ⟨not_lt.mp hm, h1'⟩, zero_add]
  | succ k ih =>
    intro a m h0 h1
    have hz1 : cox t x k a = 0 := by
      by_contra hn
      have := cox_support t x ht k a hn
      have e : a + (k + 1) = a + k + 1 := by omega
      rw [e] at h0
      linarith
    have hz2 : cox t x k (a + m) = 0 := by
      by_contra hn
      have := cox_support t x ht k (a + m) hn
      linarith
    rw [sum_split t x ht, hz1, hz2]
    cases m with
    | zero =>
      exfalso
      have := ht a (a + (k + 1)) (by omega)
      rw [Nat.add_zero] at h1
      linarith
    | succ m =>
      simp only [sumTo]
      have e : a + 1 + m = a + (m + 1) := by omega
      have e2 : a + 1 + k = a + (k + 1) := by omega
      rw [ih (a + 1) m (by rw [e2]; exact h0) (by rw [e]; exact h1), e, hz2]
      ring

example : sumTo (fun j => cox (fun i => i) 3 2 (0 + j)) 4 = 1 :=
  cox_partition (fun i => (i : Rat)) 3 (fun i j h => Nat.cast_le.mpr h) 2 0 4 (by norm_num) (by norm_num)

/-- At a knot repeated as often as the order, the basis function that starts there is one. -/
theorem cox_at_start (t : Nat → Rat) (x : Rat) : ∀ (k i : Nat), (∀ j, j ≤ k → t (i + j) = x) →
    x < t (i + k + 1) → cox t x k i = 1 := by
  intro k
  induction k with
  | zero =>
    intro i h h1
    simp only [cox]
    have := h 0 (le_refl _)
    rw [Nat.add_zero] at this h1
    rw [if_pos ⟨this.le, h1⟩]
  | succ k ih =>
    intro i h h1
    have e0 : t i = x := h 0 (by omega)
    have e1 : t (i + k + 1) = x := h (k + 1) (le_refl _)
    have e2 : t (i + 1) = x := h 1 (by omega)
    have h1' : x < t (i + k + 2) := h1
    simp only [cox]
    rw [e0, e1, sub_self, if_neg (lt_irrefl _), e2, if_pos (by linarith)]
    have e : i + 1 + k + 1 = i + k + 2 := by omega
    rw [ih (i + 1) (fun j hj => by
      have := h (j + 1) (by omega)
      have e : i + 1 + j = i + (j + 1) := by omega
      rw [e]; exact this) (by rw [e]; exact h1')]
    have : t (i + k + 2) - x ≠ 0 := by linarith
    field_simp
    ring

/-! The curve -/

/-- Spec: a usable curve. -/
structure Nurbs.Good (c : Nurbs) : Prop where
  rising : Rising c.knot
  weights : ∀ i, 0 < (c.ctrl i).w

theorem d_nonneg (c : Nurbs) (hg : c.Good) (t : Rat) (i : Nat) : 0 ≤ c.d t i := cox_nonneg _ _ hg.rising _ _

theorem d_sum (c : Nurbs) (hg : c.Good) (t : Rat) (h0 : c.knot c.deg ≤ c.param t) (h1 : c.param t < c.knot c.n) :
    sumTo (c.d t) c.n = 1 := by
  have := cox_partition c.knot (c.param t) hg.rising c.deg 0 c.n (by rw [zero_add]; exact h0)
    (by rw [zero_add]; exact h1)
  simp only [zero_add] at this
  exact this

theorem weight_pos (c : Nurbs) (hg : c.Good) (t : Rat) (h0 : c.knot c.deg ≤ c.param t)
    (h1 : c.param t < c.knot c.n) : 0 < c.weight t := by
  have hs := d_sum c hg t h0 h1
  have hex : ∃ j, j < c.n ∧ 0 < c.d t j := by
    by_contra hn
    push Not at hn
    have : sumTo (c.d t) c.n ≤ sumTo (fun _ => 0) c.n := sumTo_le fun i hi => hn i hi
    rw [sumTo_zero, hs] at this
    norm_num at this
  obtain ⟨j, hj, hp⟩ := hex
  exact sumTo_pos (fun i _ => mul_nonneg (d_nonneg c hg t i) (hg.weights i).le) hj (mul_pos hp (hg.weights j))

theorem hasIndex_true (c : Nurbs) (t : Rat) (h0 : c.knot c.deg ≤ c.param t) (hn : 0 < c.n) :
    c.hasIndex t = true := by
  simp only [Nurbs.hasIndex, List.any_eq_true]
  have := small_pos
  exact ⟨0, by simp [hn], by simp only [zero_add, decide_eq_true_eq]; linarith⟩

/-- A point of the curve lies between the smallest and the largest coordinate of the control points, as long
as no basis function is positive but so small that it is left out. -/
theorem nurbs_hull_partial (c : Nurbs) (hg : c.Good) (t lo hi : Rat) (h0 : c.knot c.deg ≤ c.param t)
    (h1 : c.param t < c.knot c.n) (hc : ∀ i, i < c.n → lo ≤ (c.ctrl i).x ∧ (c.ctrl i).x ≤ hi)
    (hd : ∀ i, i < c.n → c.d t i = 0 ∨ small < c.d t i) :
    ∃ x, c.eval t = some x ∧ lo ≤ x ∧ x ≤ hi := by
  have hn : 0 < c.n := by
    by_contra hz
    have : c.n = 0 := by omega
    have h := hg.rising 0 c.deg (by omega)
    rw [this] at h1; linarith
  have hw := weight_pos c hg t h0 h1
  refine ⟨_, by simp only [Nurbs.eval, hasIndex_true c t h0 hn, Bool.not_true, Bool.false_and]; rfl, ?_⟩
  have hterm : ∀ i, i < c.n →
      (if c.d t i > small then c.d t i * (c.ctrl i).x * (c.ctrl i).w / c.weight t else 0) =
        (c.ctrl i).x * (c.d t i * (c.ctrl i).w / c.weight t) := by
    intro i hi'
    rcases hd i hi' with e | e
    · have := small_pos
      rw [e, if_neg (by linarith)]; ring
    · rw [if_pos e]; ring
  rw [sumTo_congr hterm]
  have hunit : sumTo (fun i => c.d t i * (c.ctrl i).w / c.weight t) c.n = 1 := by
    have : sumTo (fun i => c.d t i * (c.ctrl i).w / c.weight t) c.n =
        sumTo (fun i => (c.weight t)⁻¹ * (c.d t i * (c.ctrl i).w)) c.n := by
      apply sumTo_congr
      intro i _
      field_simp
    rw [this, sumTo_mul]
    exact inv_mul_cancel₀ hw.ne'
  have hpos : ∀ i, 0 ≤ c.d t i * (c.ctrl i).w / c.weight t := fun i =>
    div_nonneg (mul_nonneg (d_nonneg c hg t i) (hg.weights i).le) hw.le
  constructor
  · calc lo = sumTo (fun i => lo * (c.d t i * (c.ctrl i).w / c.weight t)) c.n := by
          rw [sumTo_mul, hunit, mul_one]
      _ ≤ _ := sumTo_le fun i hi' => mul_le_mul_of_nonneg_right (hc i hi').1 (hpos i)
  · calc _ ≤ sumTo (fun i => hi * (c.d t i * (c.ctrl i).w / c.weight t)) c.n :=
          sumTo_le fun i hi' => mul_le_mul_of_nonneg_right (hc i hi').2 (hpos i)
      _ = hi := by rw [sumTo_mul, hunit, mul_one]

/-- Degree 2, three control points, knots 0 0 0 1 1 1. -/
def demoNurbs : Nurbs :=
  ⟨2, 3, fun i => ⟨10 * i, 1⟩, fun i => if i ≤ 2 then 0 else 1⟩

theorem demoNurbs_good : demoNurbs.Good := by
  constructor
  · intro i j h
    simp only [demoNurbs]
    split <;> split <;> first | omega | norm_num
  · intro i; norm_num [demoNurbs]

example : ∃ x, demoNurbs.eval (1 / 2) = some x ∧ 0 ≤ x ∧ x ≤ 20 := by
  refine nurbs_hull_partial demoNurbs demoNurbs_good (1 / 2) 0 20 (by decide +kernel) (by decide +kernel) ?_ ?_
  · intro i hi
    have : i < 3 := hi
    simp only [demoNurbs]
    have h3 : (i : Rat) ≤ 2 := by exact_mod_cast (by omega : i ≤ 2)
    have h4 : (0 : Rat) ≤ i := by positivity
    constructor <;> linarith
  · intro i hi
    have : i < 3 := hi
    right
    rcases (by omega : i = 0 ∨ i = 1 ∨ i = 2) with e | e | e <;> subst e <;> decide +kernel

/-- A curve whose first knot is repeated as often as the order starts at its first control point. -/
theorem nurbs_start (c : Nurbs) (hg : c.Good) (t : Rat) (hrep : ∀ j, j ≤ c.deg → c.knot j = c.knot 0)
    (ht : t ≤ c.knot 0) (hnext : c.knot 0 < c.knot (c.deg + 1)) (hn : c.deg < c.n)
    (hlast : c.knot 0 + small ≤ c.knot (c.n + c.deg)) :
    c.eval t = some (c.ctrl 0).x := by
  have hsm := small_pos
  have hp : c.param t = c.knot 0 := by
    simp only [Nurbs.param, clamp_eq]
    rw [max_eq_left ht, min_eq_right (by linarith)]
  have hd0 : c.d t 0 = 1 := by
    simp only [Nurbs.d, hp]
    exact cox_at_start c.knot (c.knot 0) c.deg 0 (fun j hj => by rw [zero_add]; exact hrep j hj)
      (by rw [zero_add]; exact hnext)
  have h0 : c.knot c.deg ≤ c.param t := by rw [hp, hrep c.deg (le_refl _)]
  have h1 : c.param t < c.knot c.n := by
    rw [hp]; exact lt_of_lt_of_le hnext (hg.rising _ _ (by omega))
  have hs := d_sum c hg t h0 h1
  have hz : ∀ i, 0 < i → i < c.n → c.d t i = 0 := by
    intro i hi hin
    by_contra hne
    have hpos : 0 < c.d t i := lt_of_le_of_ne (d_nonneg c hg t i) (Ne.symm hne)
    have : 0 < sumTo (fun j => if j = 0 then 0 else c.d t j) c.n := by
      refine sumTo_pos (j := i) (fun j _ => ?_) hin ?_
      · split
        · exact le_refl _
        · exact d_nonneg c hg t j
      · rw [if_neg (by omega)]; exact hpos
    have hrest : sumTo (c.d t) c.n = 1 + sumTo (fun j => if j = 0 then 0 else c.d t j) c.n := by
      have : ∀ m, 0 < m → sumTo (c.d t) m = 1 + sumTo (fun j => if j = 0 then 0 else c.d t j) m := by
        intro m hm
        induction m with
        | zero => omega
        | succ m ih =>
          simp only [sumTo]
          by_cases e : m = 0
          · subst e; simp [sumTo, hd0]
          · rw [ih (by omega), if_neg e]; ring
      exact this c.n (by omega)
    linarith
  have hone : ∀ (f : Nat → Rat), (∀ i, 0 < i → i < c.n → f i = 0) → sumTo f c.n = f 0 := by
    intro f hf
    have : ∀ m, 0 < m → m ≤ c.n → sumTo f m = f 0 := by
      intro m hm hle
      induction m with
      | zero => omega
      | succ m ih =>
        simp only [sumTo]
        by_cases e : m = 0
        · subst e; simp [sumTo]
        · rw [ih (by omega) (by omega), hf m (by omega) (by omega), add_zero]
    exact this c.n (by omega) (le_refl _)
  have hw : c.weight t = (c.ctrl 0).w := by
    simp only [Nurbs.weight]
    rw [hone _ (fun i hi hin => by simp only [hz i hi hin, zero_mul]), hd0, one_mul]
  simp only [Nurbs.eval, hasIndex_true c t h0 (by omega), Bool.not_true, Bool.false_and]
  have h1s : (1 : Rat) > small := by norm_num [small]
  have := hone (fun i => if c.d t i > small then c.d t i * (c.ctrl i).x * (c.ctrl i).w / c.weight t else 0)
    (fun i hi hin => by simp only [hz i hi hin]; rw [if_neg (by linarith)])
  simp only [hd0, hw, if_pos h1s] at this ⊢
  have hwp := (hg.weights 0).ne'
  rw [if_neg (by simp), this]
  congr 1
  field_simp

example : demoNurbs.eval 0 = some 0 := by
  have := nurbs_start demoNurbs demoNurbs_good 0
    (by intro j hj; have : j ≤ 2 := hj; simp [demoNurbs, this])
    (by decide +kernel) (by decide +kernel) (by decide +kernel) (by decide +kernel)
  rw [this]; norm_num [demoNurbs]

/-- Moving a control point changes the curve only between the knots the point reaches. -/
theorem nurbs_local (c : Nurbs) (hr : Rising c.knot) (t : Rat) (i : Nat) (x : Rat)
    (h : c.param t < c.knot i ∨ c.knot (i + c.deg + 1) ≤ c.param t) :
    ({ c with ctrl := fun j => if j = i then ⟨x, (c.ctrl i).w⟩ else c.ctrl j } : Nurbs).eval t = c.eval t := by
  have hd : c.d t i = 0 := by
    by_contra hn
    have := cox_support c.knot (c.param t) hr c.deg i hn
    rcases h with h | h <;> linarith
  have hsm := small_pos
  set c' : Nurbs := { c with ctrl := fun j => if j = i then ⟨x, (c.ctrl i).w⟩ else c.ctrl j } with hc'
  have hwj : ∀ j, (c'.ctrl j).w = (c.ctrl j).w := by
    intro j
    simp only [hc']
    split
    · next e => rw [e]
    · rfl
  have hdj : ∀ j, c'.d t j = c.d t j := fun j => rfl
  have hw : c'.weight t = c.weight t := by
    simp only [Nurbs.weight]
    exact sumTo_congr fun j _ => by rw [hdj, hwj]
  have hix : c'.hasIndex t = c.hasIndex t := rfl
  have hn : c'.n = c.n := rfl
  simp only [Nurbs.eval, hix, hdj, hw, hn]
  have : sumTo (fun j => if c.d t j > small then c.d t j * (c'.ctrl j).x * (c'.ctrl j).w / c.weight t else 0) c.n =
      sumTo (fun j => if c.d t j > small then c.d t j * (c.ctrl j).x * (c.ctrl j).w / c.weight t else 0) c.n := by
    apply sumTo_congr
    intro j _
    by_cases e : j = i
    · subst e; rw [hd, if_neg (by linarith), if_neg (by linarith)]
    · rw [hwj]
      have : (c'.ctrl j).x = (c.ctrl j).x := by simp [hc', e]
      rw [this]
  rw [this]

/-- Two control points in the same place far from the origin, degree 1: the end of the curve is a metre
away from both, because the weight of the first, one millionth, is left out. -/
theorem nurbs_end_fails :
    ∃ c : Nurbs, c.Good ∧ (∀ i, (c.ctrl i).x = 1000000) ∧ c.eval (c.knot (c.n + c.deg)) = some 999999 := by
  refine ⟨⟨1, 2, fun _ => ⟨1000000, 1⟩, fun i => if i ≤ 1 then 0 else 1⟩, ⟨?_, ?_⟩, fun _ => rfl, by decide +kernel⟩
  · intro i j h
    simp only
    split <;> split <;> first | omega | norm_num
  · intro i; norm_num

/-- A curve whose first knot is not repeated is read with an index that is not set. -/
theorem nurbs_unclamped_fails :
    ∃ (c : Nurbs) (t : Rat), c.Good ∧ c.knot 0 ≤ t ∧ t ≤ c.knot (c.n + c.deg) ∧ c.eval t = none := by
  refine ⟨⟨2, 3, fun i => ⟨10 * i, 1⟩, fun i => i⟩, 1 / 2, ⟨?_, ?_⟩, by decide +kernel, by decide +kernel,
    by decide +kernel⟩
  · intro i j h
    simp only
    exact_mod_cast h
  · intro i; norm_num

/-- With the first knot repeated, every parameter gives a point. -/
theorem nurbs_defined (c : Nurbs) (t : Rat) (hn : 0 < c.n) (hrep : c.knot c.deg = c.knot 0)
    (hlen : c.knot 0 + small ≤ c.knot (c.n + c.deg)) : (c.eval t).isSome = true := by
  have h0 : c.knot c.deg ≤ c.param t := by
    rw [hrep]
    simp only [Nurbs.param, clamp_eq]
    exact le_min (by linarith) (le_max_left _ _)
  simp [Nurbs.eval, hasIndex_true c t h0 hn]

example : (demoNurbs.eval 7).isSome = true :=
  nurbs_defined demoNurbs 7 (by decide) (by decide +kernel) (by decide +kernel)

theorem autoKnot_rising (deg n : Nat) : Rising (autoKnot deg n) := by
  intro i j h
  have frac : ∀ i, deg < i → i < n → 0 ≤ ((i - deg : Nat) : Rat) / ((n - deg : Nat) : Rat) ∧
      ((i - deg : Nat) : Rat) / ((n - deg : Nat) : Rat) ≤ 1 := by
    intro i h1 h2
    refine ⟨by positivity, ?_⟩
    rw [div_le_one (by exact_mod_cast (by omega : 0 < n - deg))]
    exact_mod_cast (by omega : i - deg ≤ n - deg)
  simp only [autoKnot]
  by_cases a : i < deg + 1
  · rw [if_pos a]
    by_cases b : j < deg + 1
    · rw [if_pos b]
    · rw [if_neg b]
      by_cases c : n ≤ j
      · rw [if_pos c]; norm_num
      · rw [if_neg c]; exact (frac j (by omega) (by omega)).1
  · rw [if_neg a, if_neg (by omega : ¬ j < deg + 1)]
    by_cases b : n ≤ i
    · rw [if_pos b, if_pos (by omega)]
    · rw [if_neg b]
      by_cases c : n ≤ j
      · rw [if_pos c]; exact (frac i (by omega) (by omega)).2
      · rw [if_neg c]
        have : (0 : Rat) < ((n - deg : Nat) : Rat) := by exact_mod_cast (by omega : 0 < n - deg)
        rw [div_le_div_iff_of_pos_right this]
        exact_mod_cast (by omega : i - deg ≤ j - deg)

/-- A curve given without knots starts at its first control point, has a point for every parameter, and at
every parameter the basis functions add up to one. -/
theorem nurbs_auto (deg n : Nat) (ctrl : Nat → Ctrl) (h : deg < n) (hw : ∀ i, 0 < (ctrl i).w) (t : Rat) :
    (autoNurbs deg n ctrl).Good ∧ ((autoNurbs deg n ctrl).eval t).isSome = true ∧
    sumTo ((autoNurbs deg n ctrl).d t) n = 1 ∧ (t ≤ 0 → (autoNurbs deg n ctrl).eval t = some (ctrl 0).x) := by
  have hg : (autoNurbs deg n ctrl).Good := ⟨autoKnot_rising deg n, hw⟩
  have hk0 : ∀ j, j ≤ deg → autoKnot deg n j = 0 := fun j hj => by
    simp only [autoKnot]; rw [if_pos (by omega)]
  have hk1 : ∀ j, n ≤ j → autoKnot deg n j = 1 := fun j hj => by
    simp only [autoKnot]; rw [if_neg (by omega), if_pos hj]
  have hsm : small < 1 := by norm_num [small]
  have hsp := small_pos
  have hpar : 0 ≤ (autoNurbs deg n ctrl).param t ∧ (autoNurbs deg n ctrl).param t < 1 := by
    simp only [Nurbs.param, autoNurbs, clamp_eq, hk0 0 (by omega), hk1 (n + deg) (by omega)]
    exact ⟨le_min (by linarith) (le_max_left _ _), lt_of_le_of_lt (min_le_left _ _) (by linarith)⟩
  refine ⟨hg, ?_, ?_, ?_⟩
  · apply nurbs_defined _ t (by show 0 < n; omega)
    · show autoKnot deg n deg = autoKnot deg n 0
      rw [hk0 deg (le_refl _), hk0 0 (by omega)]
    · show autoKnot deg n 0 + small ≤ autoKnot deg n (n + deg)
      rw [hk0 0 (by omega), hk1 (n + deg) (by omega)]; linarith
  · apply d_sum _ hg t
    · show autoKnot deg n deg ≤ _
      rw [hk0 deg (le_refl _)]; exact hpar.1
    · show _ < autoKnot deg n n
      rw [hk1 n (le_refl _)]; exact hpar.2
  · intro ht
    have hnext : (0 : Rat) < autoKnot deg n (deg + 1) := by
      simp only [autoKnot]
      rw [if_neg (by omega)]
      split
      · norm_num
      · have h1 : (0 : Rat) < ((deg + 1 - deg : Nat) : Rat) := by exact_mod_cast (by omega : 0 < deg + 1 - deg)
        have h2 : (0 : Rat) < ((n - deg : Nat) : Rat) := by exact_mod_cast (by omega : 0 < n - deg)
        exact div_pos h1 h2
    have := nurbs_start (autoNurbs deg n ctrl) hg t
      (by intro j hj
          show autoKnot deg n j = autoKnot deg n 0
          rw [hk0 j hj, hk0 0 (by omega)])
      (by show t ≤ autoKnot deg n 0
          rw [hk0 0 (by omega)]; exact ht)
      (by show autoKnot deg n 0 < autoKnot deg n (deg + 1)
          rw [hk0 0 (by omega)]; exact hnext)
      h
      (by show autoKnot deg n 0 + small ≤ autoKnot deg n (n + deg)
          rw [hk0 0 (by omega), hk1 (n + deg) (by omega)]; linarith)
    exact this

example : ((autoNurbs 3 7 fun i => ⟨i, 1⟩).eval (1 / 3)).isSome = true :=
  (nurbs_auto 3 7 _ (by omega) (by intro i; norm_num) (1 / 3)).2.1

end Verif.Traj

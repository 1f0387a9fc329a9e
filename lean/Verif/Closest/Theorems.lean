import Verif.Closest.Model

/-!
# The closest point of a polyline and the orientation along it: theorems
-/

namespace Verif.Closest

open Verif.Geom

section
variable {K : Type} [Field K] [LinearOrder K] [IsStrictOrderedRing K]

/-- The search ends with `r`. -/
def EndsWith (D : Nat → K × K) (N start i : Nat) (back : Bool) (b r : Best K) : Prop :=
  ∃ fuel, scan D N start fuel i back b = some r

variable {D : Nat → K × K} {N start i : Nat} {b r : Best K}

theorem e_stop {back : Bool} (h : ¬ i + 1 < N) : EndsWith D N start i back b b :=
  ⟨1, by simp [scan, h]⟩

theorem e_take (h : i + 1 < N) (hd : (D i).1 < b.dist + eps)
    (e : EndsWith D N start (i + 1) false ⟨i, (D i).1, (D i).2⟩ r) : EndsWith D N start i false b r := by
  obtain ⟨f, e⟩ := e
  refine ⟨f + 1, ?_⟩
  have h2 : i < N - 1 := by omega
  simp [scan, h, hd, h2, e]

theorem e_takeBack (h : i + 1 < N) (hd : (D i).1 < b.dist + eps) (hi : 0 < i)
    (e : EndsWith D N start (i - 1) true ⟨i, (D i).1, (D i).2⟩ r) : EndsWith D N start i true b r := by
  obtain ⟨f, e⟩ := e
  exact ⟨f + 1, by simp [scan, h, hd, hi, e]⟩

theorem e_takeFirst (h : 1 < N) (hd : (D 0).1 < b.dist + eps) :
    EndsWith D N start 0 true b ⟨0, (D 0).1, (D 0).2⟩ :=
  ⟨1, by simp [scan, h, hd]⟩

theorem e_skip (h : i + 1 < N) (hd : ¬ (D i).1 < b.dist + eps)
    (e : EndsWith D N 0 (i + 1) false b r) : EndsWith D N 0 i false b r := by
  obtain ⟨f, e⟩ := e
  refine ⟨f + 1, ?_⟩
  have h2 : i < N - 1 := by omega
  simp [scan, h, hd, h2, e]

theorem e_turn (h : i + 1 < N) (hd : ¬ (D i).1 < b.dist + eps) (hs : 0 < start)
    (e : EndsWith D N start (start - 1) true b r) : EndsWith D N start i false b r := by
  obtain ⟨f, e⟩ := e
  exact ⟨f + 1, by simp [scan, h, hd, hs, e]⟩

theorem e_giveUp (h : i + 1 < N) (hd : ¬ (D i).1 < b.dist + eps) (hs : 0 < start) :
    EndsWith D N start i true b b :=
  ⟨1, by simp [scan, h, hd, hs]⟩

theorem eps_pos : (0 : K) < eps := by unfold eps; norm_num

/-- The search from the start passes over all segments. -/
theorem scan_all (hn : 2 ≤ N) : ∀ (k i : Nat) (b : Best K), N - 1 - i = k → i ≤ N - 1 → 0 < i →
    b.i < i → b = ⟨b.i, (D b.i).1, (D b.i).2⟩ → (∀ j, j < i → b.dist ≤ (D j).1 + i * eps) →
    ∃ r, EndsWith D N 0 i false b r ∧ r.i < N - 1 ∧ r = ⟨r.i, (D r.i).1, (D r.i).2⟩ ∧
      ∀ j, j < N - 1 → r.dist ≤ (D j).1 + (N - 1 : Nat) * eps := by
  intro k
  induction k with
  | zero =>
    intro i b hk hi _ hb he h
    have hi' : i = N - 1 := by omega
    refine ⟨b, e_stop (by omega), by omega, he, ?_⟩
    subst hi'
    exact h
  | succ k ih =>
    intro i b hk hi hpos hb he h
    have hlt : i + 1 < N := by omega
    have e0 := eps_pos (K := K)
    have ec : ((i + 1 : Nat) : K) * eps = i * eps + eps := by push_cast; ring
    by_cases hd : (D i).1 < b.dist + eps
    · obtain ⟨r, g, g'⟩ := ih (i + 1) ⟨i, (D i).1, (D i).2⟩ (by omega) (by omega) (by omega) (by simp) rfl (by
        intro j hj
        rw [ec]
        simp only
        rcases Nat.lt_succ_iff_lt_or_eq.mp hj with c | c
        · have := h j c
          linarith
        · subst c
          have : (0 : K) ≤ j * eps := mul_nonneg (Nat.cast_nonneg _) e0.le
          linarith)
      exact ⟨r, e_take hlt hd g, g'⟩
    · obtain ⟨r, g, g'⟩ := ih (i + 1) b (by omega) (by omega) (by omega) (by omega) he (by
        intro j hj
        rw [ec]
        rcases Nat.lt_succ_iff_lt_or_eq.mp hj with c | c
        · have := h j c
          linarith
        · subst c
          have : (0 : K) ≤ j * eps := mul_nonneg (Nat.cast_nonneg _) e0.le
          linarith [not_lt.mp hd])
      exact ⟨r, e_skip hlt hd g, g'⟩

/-- The global search finds a segment that no other is closer than, up to a micrometre per segment. -/
theorem closest_segment (D : Nat → K × K) (N : Nat) (hn : 2 ≤ N) (hl : ∀ j, j < N - 1 → (D j).1 < large) :
    ∃ fuel r, findSegment D N 0 fuel = some (some r) ∧ r.i < N - 1 ∧ r.dist = (D r.i).1 ∧ r.s = (D r.i).2 ∧
      ∀ j, j < N - 1 → r.dist ≤ (D j).1 + (N - 1 : Nat) * eps := by
  have e0 := eps_pos (K := K)
  obtain ⟨r, g, h1, h2, h3⟩ := scan_all (D := D) hn (N - 1 - 1) 1 ⟨0, (D 0).1, (D 0).2⟩ rfl (by omega) (by omega)
    (by simp) rfl (by
      intro j hj
      obtain rfl : j = 0 := by omega
      simp only
      have : (0 : K) ≤ ((1 : Nat) : K) * eps := mul_nonneg (Nat.cast_nonneg _) e0.le
      linarith)
  have hd : (D 0).1 < (⟨0, large, 0⟩ : Best K).dist + eps := by
    have := hl 0 (by omega)
    simp only
    linarith
  obtain ⟨f, e⟩ := e_take (start := 0) (by omega) hd g
  refine ⟨f, r, ?_, h1, by rw [h2], by rw [h2], h3⟩
  have hc : ¬ 0 + 1 > N := by omega
  have hr : r.dist < large := by rw [h2]; exact hl _ h1
  simp [findSegment, e, hr]

/-- The distances fall up to segment `m` and rise after it, by a micrometre at least. -/
def Valley (d : Nat → K) (n m : Nat) : Prop :=
  (∀ j, j < m → d (j + 1) + 1 / 1000000 ≤ d j) ∧ ∀ j, m ≤ j → j + 1 < n → d j + 1 / 1000000 ≤ d (j + 1)

theorem valley_left {d : Nat → K} {n m : Nat} (h : Valley d n m) : ∀ (k j : Nat), m = j + k → 0 < k →
    d m + 1 / 1000000 ≤ d j := by
  intro k
  induction k with
  | zero => intro j _ h0; omega
  | succ k ih =>
    intro j hj _
    have h1 := h.1 j (by omega)
    rcases Nat.eq_zero_or_pos k with c | c
    · subst c
      rw [hj]; exact h1
    · have := ih (j + 1) (by omega) c
      have e0 : (0 : K) < 1 / 1000000 := by norm_num
      linarith

/-- Forwards to the lowest point, then back to the start, where the distance is greater. -/
theorem valley_forward {m k : Nat} (hv : Valley (fun j => (D j).1) (N - 1) m) (hm : m + 1 < N) (hk : 0 < k) :
    ∀ (c i : Nat) (b : Best K), m = i + c → k ≤ i → (D i).1 < b.dist + eps →
    EndsWith D N k i false b ⟨m, (D m).1, (D m).2⟩ := by
  intro c
  have e0 := eps_pos (K := K)
  induction c with
  | zero =>
    intro i b hi hki hd
    obtain rfl : m = i := by omega
    refine e_take hm hd ?_
    by_cases hN : m + 1 + 1 < N
    · have h1 := hv.2 m le_rfl (by omega)
      refine e_turn hN (by simp only [not_lt]; exact h1) hk ?_
      have h2 := valley_left hv (m - (k - 1)) (k - 1) (by omega) (by omega)
      exact e_giveUp (by omega) (by simp only [not_lt]; exact h2) hk
    · exact e_stop hN
  | succ c ih =>
    intro i b hi hki hd
    refine e_take (by omega) hd (ih (i + 1) _ (by omega) (by omega) ?_)
    have := hv.1 i (by omega)
    simp only at this ⊢
    have e1 : (0 : K) < 1 / 1000000 := by norm_num
    linarith

/-- Backwards to the lowest point. -/
theorem valley_back {m k : Nat} (hv : Valley (fun j => (D j).1) (N - 1) m) (hk : 0 < k) :
    ∀ (c i : Nat) (b : Best K), i = m + c → i + 1 < N → (D i).1 < b.dist + eps →
    EndsWith D N k i true b ⟨m, (D m).1, (D m).2⟩ := by
  intro c
  have e0 := eps_pos (K := K)
  induction c with
  | zero =>
    intro i b hi hN hd
    obtain rfl : i = m := by omega
    rcases Nat.eq_zero_or_pos i with c | c
    · subst c
      exact e_takeFirst hN hd
    · refine e_takeBack hN hd c ?_
      have h1 := hv.1 (i - 1) (by omega)
      rw [Nat.sub_add_cancel c] at h1
      exact e_giveUp (by omega) (by simp only [not_lt]; exact h1) hk
  | succ c ih =>
    intro i b hi hN hd
    refine e_takeBack hN hd (by omega) (ih (i - 1) _ (by omega) (by omega) ?_)
    have := hv.2 (i - 1) (by omega) (by omega)
    rw [Nat.sub_add_cancel (by omega)] at this
    simp only at this ⊢
    have e1 : (0 : K) < 1 / 1000000 := by norm_num
    linarith

/-- **Local search.** If the distances fall up to one segment and rise after it, the search from
any segment other than the last one finds that segment. -/
theorem closest_local_partial (D : Nat → K × K) (N m start : Nat) (hm : m + 1 < N) (hs : start + 2 < N)
    (hl : ∀ j, j < N - 1 → (D j).1 < large) (hv : Valley (fun j => (D j).1) (N - 1) m) :
    ∃ fuel r, findSegment D N start fuel = some (some r) ∧ r.i = m ∧ r.dist = (D m).1 ∧ r.s = (D m).2 := by
  have e0 := eps_pos (K := K)
  have acc : ∀ (x : Nat) (s : K), (D start).1 < (⟨x, large, s⟩ : Best K).dist + eps := by
    intro x s
    have := hl start (by omega)
    simp only; linarith
  have hr := hl m (by omega)
  have fin : EndsWith D N start start false ⟨start, large, 0⟩ ⟨m, (D m).1, (D m).2⟩ →
      ∃ fuel r, findSegment D N start fuel = some (some r) ∧ r.i = m ∧ r.dist = (D m).1 ∧ r.s = (D m).2 := by
    rintro ⟨f, e⟩
    refine ⟨f, ⟨m, (D m).1, (D m).2⟩, ?_, rfl, rfl, rfl⟩
    have hc : ¬ start + 1 > N := by omega
    simp only [findSegment, hc, if_false, e, hr, if_true]
  rcases Nat.eq_zero_or_pos start with c | c
  · subst c
    -- the global search passes the lowest point
    obtain ⟨f, r, e, h1, h2, h3, _⟩ : ∃ fuel r, findSegment D N 0 fuel = some (some r) ∧ r.i = m ∧
        r.dist = (D m).1 ∧ r.s = (D m).2 ∧ True := by
      have rest : ∀ (c i : Nat), N - 1 - i = c → m < i → i ≤ N - 1 →
          EndsWith D N 0 i false ⟨m, (D m).1, (D m).2⟩ ⟨m, (D m).1, (D m).2⟩ := by
        intro c
        induction c with
        | zero => intro i h _ h'; exact e_stop (by omega)
        | succ c ih =>
          intro i h h' h''
          refine e_skip (by omega) ?_ (ih (i + 1) (by omega) (by omega) (by omega))
          simp only [not_lt]
          have up : ∀ q, m + 1 + q < N - 1 → (D m).1 + eps ≤ (D (m + 1 + q)).1 := by
            intro q
            induction q with
            | zero => intro hq; exact hv.2 m le_rfl hq
            | succ q ihq =>
              intro hq
              have := ihq (by omega)
              have h2 := hv.2 (m + 1 + q) (by omega) (by omega)
              have e1 : (0 : K) < 1 / 1000000 := by norm_num
              simp only at h2
              rw [show m + 1 + (q + 1) = m + 1 + q + 1 from rfl]
              linarith
          have := up (i - (m + 1)) (by omega)
          rwa [show m + 1 + (i - (m + 1)) = i by omega] at this
      have down : ∀ (c i : Nat) (b : Best K), m = i + c → (D i).1 < b.dist + eps →
          EndsWith D N 0 i false b ⟨m, (D m).1, (D m).2⟩ := by
        intro c
        induction c with
        | zero =>
          intro i b hi hd
          obtain rfl : m = i := by omega
          exact e_take hm hd (rest _ (m + 1) rfl (by omega) (by omega))
        | succ c ih =>
          intro i b hi hd
          refine e_take (by omega) hd (ih (i + 1) _ (by omega) ?_)
          have := hv.1 i (by omega)
          simp only at this ⊢
          have e1 : (0 : K) < 1 / 1000000 := by norm_num
          linarith
      obtain ⟨f, r, e, h1, h2, h3⟩ := fin (down m 0 _ (by omega) (acc _ _))
      exact ⟨f, r, e, h1, h2, h3, trivial⟩
    exact ⟨f, r, e, h1, h2, h3⟩
  · rcases Nat.lt_or_ge m start with d | d
    · -- the next one is further away, so the search turns
      refine fin (e_take (by omega) (acc _ _) (e_turn (by omega) ?_ c ?_))
      · simp only [not_lt]
        exact hv.2 start (by omega) (by omega)
      · refine valley_back hv c (start - 1 - m) (start - 1) _ (by omega) (by omega) ?_
        have := hv.2 (start - 1) (by omega) (by omega)
        rw [Nat.sub_add_cancel c] at this
        simp only at this ⊢
        have e1 : (0 : K) < 1 / 1000000 := by norm_num
        linarith
    · exact fin (valley_forward hv hm c (m - start) start _ (by omega) le_rfl (acc _ _))

end

/-- Distances 5, 3, 1, 2, 4. -/
def demoD (i : Nat) : Rat × Rat := (([5, 3, 1, 2, 4] : List Rat).getD i 0, 0)

example : Valley (fun j => (demoD j).1) 5 2 := by
  refine ⟨?_, ?_⟩
  · decide +kernel
  · intro j h1 h2
    obtain rfl | rfl : j = 2 ∨ j = 3 := by omega
    all_goals decide +kernel

example : (findSegment demoD 6 3 20).map (·.map (·.i)) = some (some 2) := by decide +kernel
example : (findSegment demoD 6 1 20).map (·.map (·.i)) = some (some 2) := by decide +kernel

/-- Witness: from the last segment the search does not look back. -/
theorem closest_local_fails : Valley (fun j => (demoD j).1) 5 2 ∧
    (findSegment demoD 6 4 20).map (·.map (·.i)) = some (some 4) := by
  refine ⟨⟨by decide +kernel, ?_⟩, by decide +kernel⟩
  intro j h1 h2
  obtain rfl | rfl : j = 2 ∨ j = 3 := by omega
  all_goals decide +kernel

/-- Witness: from the last vertex nothing is found. -/
theorem closest_last_fails : findSegment demoD 6 5 20 = some none := by decide +kernel

/-! ## In the plane -/

theorem perp_along {x1 y1 x2 y2 : ℝ} (h : Proper x1 y1 x2 y2) (x y t : ℝ) (ex ey : ℝ)
    (hx : ex = x1 + t * (x2 - x1)) (hy : ey = y1 + t * (y2 - y1)) :
    let p := projectOnLine x y x1 y1 x2 y2
    Real.sqrt (pointDist x y p.1 p.2 * pointDist x y p.1 p.2 +
      pointDist p.1 p.2 ex ey * pointDist p.1 p.2 ex ey) = pointDist x y ex ey := by
  intro p
  have ho := (project_spec h x y).2
  have hp : p = _ := project_eq h x y
  have sq : ∀ a b c d : ℝ, pointDist a b c d * pointDist a b c d =
      (c - a) * (c - a) + (d - b) * (d - b) := by
    intro a b c d
    exact Real.mul_self_sqrt (by nlinarith [mul_self_nonneg (c - a), mul_self_nonneg (d - b)])
  rw [sq, sq]
  unfold pointDist
  congr 1
  have e1 : p.1 = x1 + foot x y x1 y1 x2 y2 * (x2 - x1) := by rw [hp]
  have e2 : p.2 = y1 + foot x y x1 y1 x2 y2 * (y2 - y1) := by rw [hp]
  rw [project_eq h x y] at ho
  simp only at ho
  rw [e1, e2, hx, hy]
  generalize foot x y x1 y1 x2 y2 = f at *
  linear_combination (2 * (t - f)) * ho

/-- The distance taken for a segment is that to its closest point, and the local s leads there. -/
theorem segment_spec (x y : ℝ) (a b : Vx) (hs : small ≤ b.s - a.s) (h : Proper a.x a.y b.x b.y) :
    (segment x y a b).1 = edgeDist x y a.x a.y b.x b.y ∧
    evalXY a b (segment x y a b).2 = edgePoint x y a.x a.y b.x b.y := by
  have hsm := small_pos
  have hpos : 0 < b.s - a.s := by linarith
  have hn : ¬ (|b.x - a.x| < small ∧ |b.y - a.y| < small) := h
  have hb := between_line h (foot x y a.x a.y b.x b.y)
  have hp := project_eq h x y
  have he := edgePoint_eq h x y
  have p0 := perp_along h x y 0 a.x a.y (by ring) (by ring)
  have p1 := perp_along h x y 1 b.x b.y (by ring) (by ring)
  unfold edgeDist
  rw [he]
  unfold segment
  simp only
  rw [if_neg hn]
  rw [hp] at p0 p1 ⊢
  simp only at hb p0 p1 ⊢
  unfold measured
  have ev : ∀ u : ℝ, 0 ≤ u → u ≤ 1 → evalXY a b (u * (b.s - a.s)) =
      (a.x + u * (b.x - a.x), a.y + u * (b.y - a.y)) := by
    intro u h0 h1
    unfold evalXY
    have el : max (b.s - a.s) small = b.s - a.s := max_eq_left hs
    have m1 : u * (b.s - a.s) ≤ b.s - a.s := by nlinarith
    have m0 : 0 ≤ u * (b.s - a.s) := mul_nonneg h0 hpos.le
    simp only [el, min_eq_right m1, max_eq_right m0]
    rw [mul_div_cancel_right₀ _ hpos.ne']
    ext <;> simp only <;> ring
  generalize foot x y a.x a.y b.x b.y = t at *
  obtain ⟨h1, h2, h3, h4⟩ := hb
  by_cases hin : (between (a.x + t * (b.x - a.x)) (a.y + t * (b.y - a.y)) a.x a.y b.x b.y).1
  · have ht := h1.mp hin
    rw [if_neg (not_not.mpr hin), min_eq_right ht.2, max_eq_right ht.1]
    refine ⟨rfl, ?_⟩
    simp only
    rw [h2 hin]
    exact ev t ht.1 ht.2
  · rw [if_pos hin]
    simp only
    rcases lt_or_ge t 0 with c | c
    · rw [h3 c]
      have hneg : -pointDist (a.x + t * (b.x - a.x)) (a.y + t * (b.y - a.y)) a.x a.y < 0 := by
        have := pointDist_pos_of h c
        linarith
      rw [if_pos hneg, min_eq_right (by linarith), max_eq_left c.le, neg_mul_neg, p0]
      have := ev 0 le_rfl zero_le_one
      simp only [zero_mul, add_zero] at this
      refine ⟨by simp, by simp [this]⟩
    · have c1 : 1 < t := by
        by_contra hm
        exact hin (h1.mpr ⟨c, not_lt.mp hm⟩)
      rw [h4 c1]
      have hnn : ¬ pointDist (a.x + t * (b.x - a.x)) (a.y + t * (b.y - a.y)) b.x b.y < 0 :=
        not_lt.mpr (pointDist_nonneg _ _ _ _)
      rw [if_neg hnn, min_eq_left c1.le, max_eq_right zero_le_one, p1]
      have := ev 1 zero_le_one le_rfl
      simp only [one_mul] at this
      refine ⟨by simp, by simp [this]⟩

/-- **Closest point.** Searching a polyline from its start finds a point of it that no other point
of it is closer than, up to a micrometre per segment. -/
theorem closest_point (vs : Line) (x y : ℝ) (hn : 2 ≤ vs.length)
    (hs : ∀ i, i + 1 < vs.length → small ≤ (vx vs (i + 1)).s - (vx vs i).s)
    (hp : ∀ i, i + 1 < vs.length → Proper (vx vs i).x (vx vs i).y (vx vs (i + 1)).x (vx vs (i + 1)).y)
    (hl : ∀ i, i + 1 < vs.length → pointDist x y (vx vs i).x (vx vs i).y < 10000000000) :
    ∃ fuel i px py, findClosest vs x y 0 fuel = some (some (i, px, py)) ∧ i + 1 < vs.length ∧
      (∃ u, 0 ≤ u ∧ u ≤ 1 ∧ px = (vx vs i).x + u * ((vx vs (i + 1)).x - (vx vs i).x) ∧
        py = (vx vs i).y + u * ((vx vs (i + 1)).y - (vx vs i).y)) ∧
      ∀ j, j + 1 < vs.length → ∀ u, 0 ≤ u → u ≤ 1 →
        pointDist x y px py ≤ pointDist x y ((vx vs j).x + u * ((vx vs (j + 1)).x - (vx vs j).x))
          ((vx vs j).y + u * ((vx vs (j + 1)).y - (vx vs j).y)) + (vs.length - 1 : Nat) / 1000000 := by
  have sp := fun i hi => segment_spec x y (vx vs i) (vx vs (i + 1)) (hs i hi) (hp i hi)
  obtain ⟨fuel, r, e, h1, h2, h3, h4⟩ := closest_segment
    (fun i => segment x y (vx vs i) (vx vs (i + 1))) vs.length hn (by
      intro j hj
      have hj' : j + 1 < vs.length := by omega
      rw [(sp j hj').1]
      have := (edge_distance (hp j hj') x y).2.2 0 le_rfl zero_le_one
      simp only [zero_mul, add_zero] at this
      exact lt_of_le_of_lt this (hl j hj'))
  have hi : r.i + 1 < vs.length := by omega
  obtain ⟨s1, s2⟩ := sp r.i hi
  obtain ⟨d1, ⟨u, u0, u1, ue⟩, d3⟩ := edge_distance (hp r.i hi) x y
  have ept : evalXY (vx vs r.i) (vx vs (r.i + 1)) r.s =
      ((vx vs r.i).x + u * ((vx vs (r.i + 1)).x - (vx vs r.i).x),
        (vx vs r.i).y + u * ((vx vs (r.i + 1)).y - (vx vs r.i).y)) := by
    rw [h3, s2, ue]
  refine ⟨fuel, r.i, _, _, ?_, hi, ⟨u, u0, u1, rfl, rfl⟩, ?_⟩
  · simp only [findClosest, e, ept]
  · intro j hj v v0 v1
    have g := h4 j (by omega)
    rw [h2, s1, (sp j hj).1, d1, ue] at g
    have g2 := (edge_distance (hp j hj) x y).2.2 v v0 v1
    simp only at g
    have ee : ((vs.length - 1 : Nat) : ℝ) * eps = (vs.length - 1 : Nat) / 1000000 := by
      unfold eps; ring
    rw [ee] at g
    linarith

/-- A polyline of two segments. -/
def demoLine : Line := [⟨0, 0, 0⟩, ⟨10, 0, 10⟩, ⟨10, 10, 20⟩]

example : (2 ≤ demoLine.length) ∧
    (∀ i, i + 1 < demoLine.length → small ≤ (vx demoLine (i + 1)).s - (vx demoLine i).s) ∧
    (∀ i, i + 1 < demoLine.length → Proper (vx demoLine i).x (vx demoLine i).y
      (vx demoLine (i + 1)).x (vx demoLine (i + 1)).y) ∧
    ∀ i, i + 1 < demoLine.length → pointDist 3 0 (vx demoLine i).x (vx demoLine i).y < 10000000000 := by
  have cases2 : ∀ i, i + 1 < demoLine.length → i = 0 ∨ i = 1 := by
    intro i hi
    have : demoLine.length = 3 := rfl
    omega
  refine ⟨by decide, ?_, ?_, ?_⟩
  · intro i hi
    rcases cases2 i hi with rfl | rfl <;> simp [vx, demoLine, small] <;> norm_num
  · intro i hi
    rcases cases2 i hi with rfl | rfl <;> simp [vx, demoLine, small, Proper] <;> norm_num
  · intro i hi
    rcases cases2 i hi with rfl | rfl
    · have : pointDist 3 0 (vx demoLine 0).x (vx demoLine 0).y = 3 := by
        simp only [vx, demoLine, pointDist]
        rw [Real.sqrt_eq_iff_mul_self_eq_of_pos] <;> norm_num
      rw [this]; norm_num
    · have : pointDist 3 0 (vx demoLine 1).x (vx demoLine 1).y = 7 := by
        simp only [vx, demoLine, pointDist]
        rw [Real.sqrt_eq_iff_mul_self_eq_of_pos] <;> norm_num
      rw [this]; norm_num

/-! ## Orientation -/

section
variable {K : Type} [Field K] [LinearOrder K] [IsStrictOrderedRing K] [FloorRing K]

theorem radius_pos {length : K} (hl : 0 < length) :
    0 < (if 2 < length / 2 then 2 else length / 2 : K) ∧
    (if 2 < length / 2 then 2 else length / 2 : K) ≤ length / 2 := by
  split_ifs with h
  · exact ⟨two_pos, h.le⟩
  · exact ⟨by linarith, le_rfl⟩

/-- **Corners.** With interpolation at corners the angle at the end of a segment is the one at the
start of the next. -/
theorem corner_continuous (pi : K) (prev : Option K) (cur next after : K) (last : Bool) (l1 l2 : K)
    (h1 : 0 < l1) (h2 : 0 < l2) :
    segAngle pi .corner prev cur next false l1 l1 = segAngle pi .corner (some cur) next after last l2 0 := by
  obtain ⟨r1, r1'⟩ := radius_pos h1
  obtain ⟨r2, r2'⟩ := radius_pos h2
  unfold segAngle
  simp only
  generalize (if 2 < l1 / 2 then 2 else l1 / 2 : K) = a at *
  generalize (if 2 < l2 / 2 then 2 else l2 / 2 : K) = b at *
  rw [if_neg (by linarith), if_pos (by linarith), if_pos r2]
  simp only [Bool.false_eq_true, if_false, sub_self, add_zero]
  have e1 : a / (2 * a) = 1 / 2 := by field_simp
  have e2 : b / (2 * b) = 1 / 2 := by field_simp
  rw [e1, e2]
  congr 2
  norm_num

/-- **Middle of a segment.** Away from the corners the angle is that of the segment. -/
theorem corner_middle (pi : K) (hp : 0 < pi) (prev : Option K) (cur next : K) (last : Bool) (l s : K)
    (h0 : 2 ≤ s ∨ l / 2 ≤ s) (h1 : s ≤ l - 2 ∨ s ≤ l / 2) :
    Turns pi (segAngle pi .corner prev cur next last l s) cur := by
  unfold segAngle
  simp only
  have hr : (if 2 < l / 2 then 2 else l / 2 : K) ≤ s ∧ s ≤ l - (if 2 < l / 2 then 2 else l / 2 : K) := by
    split_ifs with h
    · refine ⟨?_, ?_⟩
      · rcases h0 with g | g <;> linarith
      · rcases h1 with g | g <;> linarith
    · refine ⟨?_, ?_⟩
      · rcases h0 with g | g <;> linarith
      · rcases h1 with g | g <;> linarith
  rw [if_neg (not_lt.mpr hr.1), if_neg (not_lt.mpr hr.2)]
  exact (interval2PI_spec hp cur).2.2

/-- **End.** At the end of the last segment the angle is that of the last vertex, in both modes. -/
theorem end_angle (pi : K) (hp : 0 < pi) (prev : Option K) (cur next : K) (l : K) (hl : 0 < l) :
    Turns pi (segAngle pi .corner prev cur next true l l) next ∧
    Turns pi (segAngle pi .segment prev cur next true l l) next := by
  obtain ⟨r1, r1'⟩ := radius_pos hl
  have hd := angleDiff_spec hp next cur
  have key : Turns pi (interval2PI pi (cur + angleDiff pi next cur)) next := by
    refine (interval2PI_spec hp _).2.2.trans ?_
    have := hd.1.add cur
    rw [sub_add_cancel, add_comm] at this
    exact this
  constructor
  · unfold segAngle
    simp only
    rw [if_neg (by linarith), if_pos (by linarith)]
    simpa using key
  · unfold segAngle
    simp only
    rw [div_self hl.ne', one_mul]
    exact key

/-- **Over the segment.** With interpolation over segments the angle turns evenly the shorter way. -/
theorem segment_even (pi : K) (hp : 0 < pi) (prev : Option K) (cur next : K) (last : Bool) (l s : K) :
    ∃ d, Turns pi (cur + d) next ∧ (∀ c, Turns pi (cur + c) next → |d| ≤ |c|) ∧
      Turns pi (segAngle pi .segment prev cur next last l s) (cur + s / l * d) := by
  have hd := angleDiff_spec hp next cur
  refine ⟨angleDiff pi next cur, ?_, fun c hc => hd.2 c ?_, (interval2PI_spec hp _).2.2⟩
  swap
  · have := hc.add (-cur)
    rw [add_neg_cancel_comm, ← sub_eq_add_neg] at this
    exact this
  have := hd.1.add cur
  rw [sub_add_cancel, add_comm] at this
  exact this

end

example : segAngle (22 / 7 : Rat) .corner (some 0) 1 2 false 10 1 = 3 / 4 ∧
    segAngle (22 / 7 : Rat) .corner (some 0) 1 2 false 10 5 = 1 ∧
    segAngle (22 / 7 : Rat) .corner (some 0) 1 2 false 10 9 = 5 / 4 := by decide +kernel

end Verif.Closest

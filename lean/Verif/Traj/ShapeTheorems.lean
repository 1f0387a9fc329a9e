import Verif.Traj.ShapeModel
import Verif.Traj.PolyTheorems
/-
Trajectories with time stamps.

Spec: `Timed` says that the vertices advance in place and time, `AtVertex`-style statements compare with the
vertices as specified by the user.
-/
namespace Verif.Traj

/-! One segment -/

/-- Place after `τ` seconds with speed `v` and acceleration `acc`, standing still once stopped. -/
theorem travel_eq (p : Vtx) (t : Rat) (ht : p.time ≤ t) :
    travel p t = if p.acc < 0 ∧ -p.speed / p.acc < t - p.time
      then p.s + (-p.speed / p.acc) * p.speed + 1 / 2 * p.acc * (-p.speed / p.acc) * (-p.speed / p.acc)
      else p.s + (t - p.time) * p.speed + 1 / 2 * p.acc * (t - p.time) * (t - p.time) := by
  have h : rmax 0 (t - p.time) = t - p.time := by rw [rmax_eq]; exact max_eq_right (by linarith)
  simp only [travel, h]
  by_cases h1 : p.acc < 0
  · by_cases h2 : -p.speed / p.acc < t - p.time <;> simp [rmin, h1, h2]
  · simp [h1]

/-- The two ways a FOLLOW segment can come out. -/
theorem segFollow_cases (v ds dt : Rat) (hv : 0 ≤ v) (hds : small < ds) (hdt : 0 < dt) :
    (v * dt ≤ 2 * ds ∧ segFollow v ds dt = (2 * (ds - v * dt) / (dt * dt), 2 * ds / dt - v)) ∨
    (2 * ds < v * dt ∧ segFollow v ds dt = (-(v * v) / (2 * ds), 0)) := by
  have hsm := small_pos
  have hd0 : 0 < ds := by linarith
  have habs : (if ds < 0 then -ds else ds) > small := by
    rw [if_neg (by linarith)]; exact hds
  have hend : v + 2 * (ds - v * dt) / (dt * dt) * dt = 2 * ds / dt - v := by
    field_simp
    ring
  have hsv : sgn v = 1 := by simp [sgn, not_lt.mpr hv]
  unfold segFollow
  rw [if_pos habs]
  simp only [hend, hsv]
  by_cases hc : v * dt ≤ 2 * ds
  · left
    have h0 : 0 ≤ 2 * ds / dt - v := by
      rw [sub_nonneg, le_div_iff₀ hdt]; linarith
    simp [hc, sgn, not_lt.mpr h0]
  · right
    have h0 : 2 * ds / dt - v < 0 := by
      rw [sub_neg, div_lt_iff₀ hdt]; linarith
    simp [not_le.mp hc, sgn, h0]

/-- The vertex at the start of a FOLLOW segment. -/
def startOf (p q : Vtx) (v : Rat) : Vtx :=
  { p with speed := v, acc := (segFollow v (q.s - p.s) (q.time - p.time)).1 }

/-- With speeds that are not negative the place does not go back. -/
theorem quad_mono (v acc x y : Rat) (hxy : x ≤ y) (hx : 0 ≤ v + acc * x) (hy : 0 ≤ v + acc * y) :
    x * v + 1 / 2 * acc * x * x ≤ y * v + 1 / 2 * acc * y * y := by
  have h1 := mul_nonneg (sub_nonneg.mpr hxy) hx
  have h2 := mul_nonneg (sub_nonneg.mpr hxy) hy
  have : y * v + 1 / 2 * acc * y * y - (x * v + 1 / 2 * acc * x * x) =
      1 / 2 * ((y - x) * (v + acc * x)) + 1 / 2 * ((y - x) * (v + acc * y)) := by ring
  linarith

/-- A speed between two speeds that are not negative is not negative. -/
theorem speed_between (v acc x d : Rat) (hv : 0 ≤ v) (hd : 0 ≤ v + acc * d) (hx : 0 ≤ x) (hxd : x ≤ d) :
    0 ≤ v + acc * x := by
  rcases le_or_gt 0 acc with ha | ha
  · have := mul_nonneg ha hx; linarith
  · have := mul_le_mul_of_nonpos_left hxd ha.le
    linarith

/-- A FOLLOW segment starts at its first vertex, ends at its second, never goes back and never goes
outside. -/
theorem segment_travel (p q : Vtx) (v t t' : Rat) (hv : 0 ≤ v) (hds : small < q.s - p.s)
    (hdt : p.time < q.time) (h0 : p.time ≤ t) (h1 : t ≤ t') (h2 : t' ≤ q.time) :
    travel (startOf p q v) p.time = p.s ∧ travel (startOf p q v) q.time = q.s ∧
    p.s ≤ travel (startOf p q v) t ∧ travel (startOf p q v) t ≤ travel (startOf p q v) t' ∧
    travel (startOf p q v) t' ≤ q.s ∧ 0 ≤ (segFollow v (q.s - p.s) (q.time - p.time)).2 := by
  have hsm := small_pos
  obtain ⟨ds, hdse⟩ : ∃ ds, ds = q.s - p.s := ⟨_, rfl⟩
  obtain ⟨dt, hdte⟩ : ∃ dt, dt = q.time - p.time := ⟨_, rfl⟩
  obtain ⟨τ, hτ⟩ : ∃ τ, τ = t - p.time := ⟨_, rfl⟩
  obtain ⟨τ', hτ'⟩ : ∃ τ', τ' = t' - p.time := ⟨_, rfl⟩
  have hd0 : 0 < ds := by linarith
  have ht0 : 0 < dt := by linarith
  have e1 := travel_eq (startOf p q v) p.time (le_refl _)
  have e2 := travel_eq (startOf p q v) q.time hdt.le
  have e3 := travel_eq (startOf p q v) t h0
  have e4 := travel_eq (startOf p q v) t' (h0.trans h1)
  simp only [startOf, ← hdse, ← hdte, ← hτ, ← hτ'] at e1 e2 e3 e4 ⊢
  have hqs : q.s = p.s + ds := by linarith
  have hτ0 : 0 ≤ τ := by linarith
  have hττ : τ ≤ τ' := by linarith
  have hτd : τ' ≤ dt := by linarith
  rcases segFollow_cases v ds dt hv (by linarith) ht0 with ⟨hc, he⟩ | ⟨hc, he⟩
  · rw [he] at e1 e2 e3 e4 ⊢
    simp only at e1 e2 e3 e4 ⊢
    set acc := 2 * (ds - v * dt) / (dt * dt) with hacc
    have hacc' : acc * (dt * dt) = 2 * (ds - v * dt) := by rw [hacc]; field_simp
    have hv1 : 0 ≤ v + acc * dt := by
      have : (v + acc * dt) * dt = 2 * ds - v * dt := by linarith [hacc']
      by_contra hn
      have := mul_neg_of_neg_of_pos (not_le.mp hn) ht0
      linarith
    have hstop : ∀ x : Rat, 0 ≤ x → x ≤ dt → ¬ (acc < 0 ∧ -v / acc < x) := by
      rintro x hx0 hxd ⟨ha, hb⟩
      rw [div_lt_iff_of_neg ha] at hb
      have := speed_between v acc x dt hv hv1 hx0 hxd
      linarith
    have hz : (0 : Rat) ≤ v + acc * τ := speed_between v acc τ dt hv hv1 hτ0 (hττ.trans hτd)
    have hz' : (0 : Rat) ≤ v + acc * τ' := speed_between v acc τ' dt hv hv1 (hτ0.trans hττ) hτd
    have hself : p.time - p.time = 0 := sub_self _
    rw [hself, if_neg (hstop 0 (le_refl _) ht0.le)] at e1
    rw [if_neg (hstop dt ht0.le (le_refl _))] at e2
    rw [if_neg (hstop τ hτ0 (hττ.trans hτd))] at e3
    rw [if_neg (hstop τ' (hτ0.trans hττ) hτd)] at e4
    rw [e1, e2, e3, e4, hqs]
    have hfull : dt * v + 1 / 2 * acc * dt * dt = ds := by
      have : 1 / 2 * acc * dt * dt = 1 / 2 * (acc * (dt * dt)) := by ring
      rw [this, hacc']; ring
    refine ⟨by ring, by linarith, ?_, ?_, ?_, ?_⟩
    · have := quad_mono v acc 0 τ hτ0 (by linarith) hz
      linarith
    · have := quad_mono v acc τ τ' hττ hz hz'
      linarith
    · have := quad_mono v acc τ' dt hτd hz' hv1
      linarith
    · rw [sub_nonneg, le_div_iff₀ ht0]; linarith
  · rw [he] at e1 e2 e3 e4 ⊢
    simp only at e1 e2 e3 e4 ⊢
    have hv0 : 0 < v := by
      rcases hv.lt_or_eq with h | h
      · exact h
      · rw [← h] at hc; linarith
    set acc := -(v * v) / (2 * ds) with hacc
    have hvv : 0 < v * v := mul_pos hv0 hv0
    have hneg : acc < 0 := by
      rw [hacc]; exact div_neg_of_neg_of_pos (by linarith) (by linarith)
    have hacc' : acc * (2 * ds) = -(v * v) := by rw [hacc]; field_simp
    have hst : -v / acc = 2 * ds / v := by
      rw [div_eq_div_iff hneg.ne hv0.ne']; linarith
    have hstd : 2 * ds / v < dt := by rw [div_lt_iff₀ hv0]; linarith
    have hst0 : 0 < 2 * ds / v := div_pos (by linarith) hv0
    have hself : p.time - p.time = 0 := sub_self _
    rw [hst] at e1 e2 e3 e4
    set T := 2 * ds / v with hT
    have hTv : T * v = 2 * ds := by rw [hT]; field_simp
    have haT : acc * T = -v := by
      rw [← hst, mul_comm]; exact div_mul_cancel₀ _ hneg.ne
    have hend : T * v + 1 / 2 * acc * T * T = ds := by
      have : 1 / 2 * acc * T * T = 1 / 2 * T * (acc * T) := by ring
      rw [this, haT]; linarith
    rw [hself, if_neg (by rintro ⟨_, h⟩; linarith)] at e1
    rw [if_pos ⟨hneg, hstd⟩] at e2
    have key : ∀ x y : Rat, 0 ≤ x → x ≤ y → y ≤ T →
        x * v + 1 / 2 * acc * x * x ≤ y * v + 1 / 2 * acc * y * y := by
      intro x y hx hxy hy
      have a1 : 0 ≤ v + acc * y := speed_between v acc y T hv (by linarith) (hx.trans hxy) hy
      have a2 : 0 ≤ v + acc * x := speed_between v acc x T hv (by linarith) hx (hxy.trans hy)
      exact quad_mono v acc x y hxy a2 a1
    rw [e1, e2, e3, e4, hqs]
    refine ⟨by ring, by linarith, ?_, ?_, ?_, le_refl _⟩
    · by_cases hx : T < τ
      · rw [if_pos ⟨hneg, hx⟩]; linarith
      · rw [if_neg (by rintro ⟨_, h⟩; exact hx h)]
        have := key 0 τ (le_refl _) hτ0 (not_lt.mp hx)
        linarith
    · by_cases hy : T < τ'
      · rw [if_pos (⟨hneg, hy⟩ : acc < 0 ∧ T < τ')]
        by_cases hx : T < τ
        · rw [if_pos ⟨hneg, hx⟩]
        · rw [if_neg (by rintro ⟨_, h⟩; exact hx h)]
          have := key τ T hτ0 (not_lt.mp hx) (le_refl _)
          linarith
      · rw [if_neg (by rintro ⟨_, h⟩; exact hy h : ¬ (acc < 0 ∧ T < τ'))]
        rw [if_neg (by rintro ⟨_, h⟩; exact hy (lt_of_lt_of_le h hττ) : ¬ (acc < 0 ∧ T < τ))]
        have := key τ τ' hτ0 hττ (not_lt.mp hy)
        linarith
    · by_cases hy : T < τ'
      · rw [if_pos ⟨hneg, hy⟩]; linarith
      · rw [if_neg (by rintro ⟨_, h⟩; exact hy h)]
        have := key τ' T (hτ0.trans hττ) (not_lt.mp hy) (le_refl _)
        linarith

/-! The whole trajectory, FOLLOW mode -/

/-- Spec: the vertices advance in place and in time. -/
def Timed (vs : List Vtx) : Prop := vs.IsChain fun p q => small < q.s - p.s ∧ p.time < q.time

/-- The place at time `t`, if `t` is not after the last vertex. -/
def placeAt (vs : List Vtx) (t : Rat) : Option Rat := (segByTime t vs).map fun p => travel p t

theorem placeAt_cons (v : Rat) (p q : Vtx) (rest : List Vtx) (t : Rat) :
    placeAt (followSpeeds v (p :: q :: rest)) t =
      if q.time < t then placeAt (followSpeeds (segFollow v (q.s - p.s) (q.time - p.time)).2 (q :: rest)) t
      else some (travel (startOf p q v) t) := by
  have hh : ∀ w : Rat, ∃ x xs, followSpeeds w (q :: rest) = x :: xs ∧ x.time = q.time := by
    intro w
    cases rest with
    | nil => exact ⟨_, _, rfl, rfl⟩
    | cons r rs => exact ⟨_, _, rfl, rfl⟩
  obtain ⟨x, xs, hx, hxt⟩ := hh (segFollow v (q.s - p.s) (q.time - p.time)).2
  simp only [placeAt, followSpeeds]
  rw [hx]
  simp only [segByTime, hxt]
  split <;> simp [startOf]

theorem placeAt_single (v : Rat) (p : Vtx) (t : Rat) :
    placeAt (followSpeeds v [p]) t = some (travel { p with speed := v, acc := 0 } t) := rfl

theorem timed_last (vs : List Vtx) : ∀ (f l : Vtx), Timed vs → vs.head? = some f → vs.getLast? = some l →
    f.time ≤ l.time ∧ f.s ≤ l.s := by
  induction vs with
  | nil => intro f l _ hf; simp at hf
  | cons p rest ih =>
    intro f l ht hf hl
    simp only [List.head?_cons, Option.some.injEq] at hf
    subst hf
    cases rest with
    | nil =>
      simp only [List.getLast?_singleton, Option.some.injEq] at hl
      subst hl
      exact ⟨le_refl _, le_refl _⟩
    | cons q rest =>
      simp only [Timed, List.isChain_cons_cons] at ht
      have := ih q l ht.2 rfl (by rw [← hl]; simp [List.getLast?_cons_cons])
      have := small_pos
      constructor <;> linarith

theorem timed_mem (vs : List Vtx) : ∀ (f u : Vtx), Timed vs → vs.head? = some f → u ∈ vs →
    u = f ∨ f.time < u.time := by
  induction vs with
  | nil => intro f u _ hf; simp at hf
  | cons p rest ih =>
    intro f u ht hf hu
    simp only [List.head?_cons, Option.some.injEq] at hf
    subst hf
    rcases List.mem_cons.mp hu with h | h
    · exact Or.inl h
    · right
      cases rest with
      | nil => simp at h
      | cons q rest =>
        simp only [Timed, List.isChain_cons_cons] at ht
        rcases ih q u ht.2 rfl h with e | e
        · subst e; exact ht.1.2
        · linarith

theorem followSpeeds_last (vs : List Vtx) : ∀ (v : Rat) (l : Vtx), vs.getLast? = some l →
    ∃ l', (followSpeeds v vs).getLast? = some l' ∧ l'.s = l.s ∧ l'.time = l.time := by
  induction vs with
  | nil => intro v l h; simp at h
  | cons p rest ih =>
    intro v l hl
    cases rest with
    | nil =>
      simp only [List.getLast?_singleton, Option.some.injEq] at hl
      subst hl
      exact ⟨_, rfl, rfl, rfl⟩
    | cons q rest =>
      obtain ⟨l', h1, h2⟩ := ih (segFollow v (q.s - p.s) (q.time - p.time)).2 l
        (by rw [← hl]; simp [List.getLast?_cons_cons])
      refine ⟨l', ?_, h2⟩
      simp only [followSpeeds]
      rw [List.getLast?_cons, h1]
      rfl

theorem shapeS_eq (v : Rat) (vs : List Vtx) (l : Vtx) (hl : vs.getLast? = some l) (t : Rat) :
    shapeS (followSpeeds v vs) t = if t > l.time then some l.s else placeAt (followSpeeds v vs) t := by
  obtain ⟨l', h1, h2, h3⟩ := followSpeeds_last vs v l hl
  simp only [shapeS, h1, h2, h3, placeAt]

theorem follow_aux (vs : List Vtx) : ∀ (v : Rat) (f l : Vtx) (t t' : Rat), 0 ≤ v → Timed vs →
    vs.head? = some f → vs.getLast? = some l → f.time ≤ t → t ≤ t' → t' ≤ l.time →
    placeAt (followSpeeds v vs) f.time = some f.s ∧
    ∃ s s', placeAt (followSpeeds v vs) t = some s ∧ placeAt (followSpeeds v vs) t' = some s' ∧
      f.s ≤ s ∧ s ≤ s' ∧ s' ≤ l.s := by
  induction vs with
  | nil => intro v f l t t' _ _ hf; simp at hf
  | cons p rest ih =>
    intro v f l t t' hv ht hf hl h0 h1 h2
    simp only [List.head?_cons, Option.some.injEq] at hf
    subst hf
    cases rest with
    | nil =>
      simp only [List.getLast?_singleton, Option.some.injEq] at hl
      subst hl
      have e : t = p.time := by linarith
      have e' : t' = p.time := by linarith
      subst e
      rw [e']
      have hp : travel { p with speed := v, acc := 0 } p.time = p.s := by
        simp [travel, rmax]
      simp only [placeAt_single, hp]
      exact ⟨trivial, p.s, p.s, rfl, rfl, le_refl _, le_refl _, le_refl _⟩
    | cons q rest =>
      simp only [Timed, List.isChain_cons_cons] at ht
      obtain ⟨⟨hds, hdt⟩, htl⟩ := ht
      have hl' : (q :: rest).getLast? = some l := by
        rw [← hl]; simp [List.getLast?_cons_cons]
      have hseg := fun x y a b c => segment_travel p q v x y hv hds hdt a b c
      have hv' := (hseg p.time p.time (le_refl _) (le_refl _) hdt.le).2.2.2.2.2
      have hq := (hseg p.time p.time (le_refl _) (le_refl _) hdt.le).2.1
      have hst := (hseg p.time p.time (le_refl _) (le_refl _) hdt.le).1
      refine ⟨by rw [placeAt_cons, if_neg (by linarith), hst], ?_⟩
      simp only [placeAt_cons]
      by_cases c : q.time < t
      · have c' : q.time < t' := by linarith
        obtain ⟨_, s, s', a1, a2, a3, a4, a5⟩ := ih _ q l t t' hv' htl rfl hl' c.le h1 h2
        refine ⟨s, s', by rw [if_pos c, a1], by rw [if_pos c', a2], by linarith [small_pos], a4, a5⟩
      · have b := hseg t t h0 (le_refl _) (not_lt.mp c)
        by_cases c' : q.time < t'
        · obtain ⟨_, s, s', a1, a2, a3, a4, a5⟩ := ih _ q l t' t' hv' htl rfl hl' c'.le (le_refl _) h2
          refine ⟨_, s', by rw [if_neg c], by rw [if_pos c', a2], b.2.2.1, ?_, a5⟩
          have := b.2.2.2.2.1
          have : s = s' := by rw [a1] at a2; exact Option.some.inj a2
          linarith
        · have b' := hseg t t' h0 h1 (not_lt.mp c')
          have hlast : q.s ≤ l.s := by
            obtain ⟨_, s, s', a1, a2, a3, a4, a5⟩ := ih _ q l q.time q.time hv' htl rfl hl' (le_refl _)
              (le_refl _) (timed_last _ q l htl rfl hl').1
            linarith
          exact ⟨_, _, by rw [if_neg c], by rw [if_neg c'], b'.2.2.1, b'.2.2.2.1,
            b'.2.2.2.2.1.trans hlast⟩

/-- In FOLLOW mode the place along the trajectory never goes back as time goes on, and it stays between the
first and the last vertex. -/
theorem follow_monotone (v : Rat) (vs : List Vtx) (f l : Vtx) (t t' : Rat) (hv : 0 ≤ v) (hT : Timed vs)
    (hf : vs.head? = some f) (hl : vs.getLast? = some l) (h0 : f.time ≤ t) (h1 : t ≤ t') :
    ∃ s s', shapeS (followSpeeds v vs) t = some s ∧ shapeS (followSpeeds v vs) t' = some s' ∧
      f.s ≤ s ∧ s ≤ s' ∧ s' ≤ l.s := by
  rw [shapeS_eq v vs l hl, shapeS_eq v vs l hl]
  have hfl := timed_last vs f l hT hf hl
  by_cases c : t > l.time
  · have c' : t' > l.time := by linarith
    exact ⟨l.s, l.s, by simp [c], by simp [c'], hfl.2, le_refl _, le_refl _⟩
  · by_cases c' : t' > l.time
    · obtain ⟨_, s, s', a1, a2, a3, a4, a5⟩ := follow_aux vs v f l t t hv hT hf hl h0 (le_refl _)
        (not_lt.mp c)
      exact ⟨s, l.s, by rw [if_neg c, a1], by rw [if_pos c'], a3, a4.trans a5, le_refl _⟩
    · obtain ⟨_, s, s', a1, a2, a3, a4, a5⟩ := follow_aux vs v f l t t' hv hT hf hl h0 h1
        (not_lt.mp c')
      exact ⟨s, s', by rw [if_neg c, a1], by rw [if_neg c', a2], a3, a4, a5⟩

example : ∃ s s', shapeS (followSpeeds 10 demo) 2 = some s ∧ shapeS (followSpeeds 10 demo) 3 = some s' ∧
    0 ≤ s ∧ s ≤ s' ∧ s' ≤ 20 :=
  follow_monotone 10 demo ⟨0, 0, 0, 0, 0, 10, 0, 0⟩ ⟨20, 10, 10, 0, 5, 0, 0, 0⟩ 2 3 (by norm_num)
    (by norm_num [Timed, demo, small]) rfl rfl (by norm_num) (by norm_num)

/-- In FOLLOW mode every vertex is reached at its time. -/
theorem follow_hits_vertices (vs : List Vtx) : ∀ (v : Rat) (u : Vtx), 0 ≤ v → Timed vs → u ∈ vs →
    shapeS (followSpeeds v vs) u.time = some u.s := by
  have key : ∀ (vs : List Vtx) (v : Rat) (u : Vtx), 0 ≤ v → Timed vs → u ∈ vs →
      placeAt (followSpeeds v vs) u.time = some u.s := by
    intro vs
    induction vs with
    | nil => intro v u _ _ h; simp at h
    | cons p rest ih =>
      intro v u hv ht hu
      cases rest with
      | nil =>
        simp only [List.mem_singleton] at hu
        subst hu
        simp [placeAt_single, travel, rmax]
      | cons q rest =>
        have ht' := ht
        simp only [Timed, List.isChain_cons_cons] at ht
        obtain ⟨⟨hds, hdt⟩, htl⟩ := ht
        have hseg := segment_travel p q v p.time p.time hv hds hdt (le_refl _) (le_refl _) hdt.le
        rw [placeAt_cons]
        rcases List.mem_cons.mp hu with h | h
        · subst h
          rw [if_neg (by linarith), hseg.1]
        · rcases timed_mem _ q u htl rfl h with e | e
          · subst e
            rw [if_neg (lt_irrefl _), hseg.2.1]
          · rw [if_pos e]
            exact ih _ u hseg.2.2.2.2.2 htl h
  intro v u hv ht hu
  obtain ⟨l, hl⟩ : ∃ l, vs.getLast? = some l := by
    cases h : vs.getLast? with
    | none => rw [List.getLast?_eq_none_iff] at h; simp [h] at hu
    | some l => exact ⟨l, rfl⟩
  have hmem : u.time ≤ l.time := by
    have hlm : l ∈ vs := List.mem_of_getLast? hl
    clear hv
    induction vs with
    | nil => simp at hu
    | cons p rest ih =>
      cases rest with
      | nil =>
        simp only [List.getLast?_singleton, Option.some.injEq] at hl
        simp only [List.mem_singleton] at hu
        subst hl; subst hu; exact le_refl _
      | cons q rest =>
        rcases List.mem_cons.mp hu with h | h
        · subst h; exact (timed_last _ _ l ht rfl hl).1
        · have hl' : (q :: rest).getLast? = some l := by
            rw [← hl]; simp [List.getLast?_cons_cons]
          exact ih (by simp only [Timed, List.isChain_cons_cons] at ht; exact ht.2) h hl'
            (List.mem_of_getLast? hl')
  rw [shapeS_eq v vs l hl, if_neg (not_lt.mpr hmem)]
  exact key vs v u hv ht hu

example : shapeS (followSpeeds 10 demo) 1 = some 10 :=
  follow_hits_vertices demo 10 ⟨10, 10, 0, 0, 1, 5/2, 0, 0⟩ (by norm_num) (by norm_num [Timed, demo, small])
    (by simp [demo])

/-- In FOLLOW mode all speeds at vertices are forward. -/
theorem follow_speeds_nonneg (vs : List Vtx) : ∀ (v : Rat), 0 ≤ v → Timed vs →
    ∀ u ∈ followSpeeds v vs, 0 ≤ u.speed := by
  induction vs with
  | nil => intro v _ _ u h; simp [followSpeeds] at h
  | cons p rest ih =>
    intro v hv ht u hu
    cases rest with
    | nil =>
      simp only [followSpeeds, List.mem_singleton] at hu
      subst hu; exact hv
    | cons q rest =>
      simp only [Timed, List.isChain_cons_cons] at ht
      obtain ⟨⟨hds, hdt⟩, htl⟩ := ht
      have hseg := segment_travel p q v p.time p.time hv hds hdt (le_refl _) (le_refl _) hdt.le
      simp only [followSpeeds, List.mem_cons] at hu
      rcases hu with h | h
      · subst h; exact hv
      · exact ih _ hseg.2.2.2.2.2 htl u h

example : ∀ u ∈ followSpeeds 10 demo, 0 ≤ u.speed :=
  follow_speeds_nonneg demo 10 (by norm_num) (by norm_num [Timed, demo, small])

/-- In FOLLOW mode the speed at the start is the one given. -/
theorem follow_initial_speed (v : Rat) (p : Vtx) (rest : List Vtx) :
    ((followSpeeds v (p :: rest)).head?).map Vtx.speed = some v := by
  cases rest <;> rfl

/-- A stand-still phase in FOLLOW mode is not kept: the speed of arrival is used during the phase, so that
the place runs ahead of the end of the trajectory and then jumps back. -/
theorem follow_standstill_fails :
    ∃ (v : Rat) (vs : List Vtx) (t : Rat) (s : Rat), 0 ≤ v ∧ SortedS vs ∧ SortedT vs ∧
      timeAt vs 1 < t ∧ t < timeAt vs 2 ∧ sAt vs 1 = 10 ∧ sAt vs 2 = 10 ∧ sAt vs 3 = 20 ∧
      shapeS (followSpeeds v vs) t = some s ∧ s = 30 := by
  refine ⟨10, [⟨0, 0, 0, 0, 0, 0, 0, 0⟩, ⟨10, 10, 0, 0, 1, 0, 0, 0⟩, ⟨10, 10, 0, 0, 5, 0, 0, 0⟩,
    ⟨20, 20, 0, 0, 6, 0, 0, 0⟩], 3, 30, by norm_num, ?_, ?_, by decide +kernel, by decide +kernel,
    by decide +kernel, by decide +kernel, by decide +kernel, by decide +kernel, rfl⟩
  · norm_num [SortedS]
  · norm_num [SortedT]

/-! POSITION mode -/

/-- Spec: the time stamps differ by more than the tolerance. -/
def Stamped (vs : List Vtx) : Prop := vs.IsChain fun p q => small < q.time - p.time

theorem stamped_mem (vs : List Vtx) : ∀ (f u : Vtx), Stamped vs → vs.head? = some f → u ∈ vs →
    f.time ≤ u.time := by
  induction vs with
  | nil => intro f u _ hf; simp at hf
  | cons p rest ih =>
    intro f u ht hf hu
    simp only [List.head?_cons, Option.some.injEq] at hf
    subst hf
    rcases List.mem_cons.mp hu with h | h
    · rw [h]
    · cases rest with
      | nil => simp at h
      | cons q rest =>
        simp only [Stamped, List.isChain_cons_cons] at ht
        have := ih q u ht.2 rfl h
        have := small_pos
        linarith

theorem placeAt_position (p q : Vtx) (rest : List Vtx) (t : Rat) :
    placeAt (positionSpeeds (p :: q :: rest)) t =
      if q.time < t then placeAt (positionSpeeds (q :: rest)) t
      else some (travel { p with speed := segPosition (q.s - p.s) (q.time - p.time) } t) := by
  have hh : ∃ x xs, positionSpeeds (q :: rest) = x :: xs ∧ x.time = q.time := by
    cases rest with
    | nil => exact ⟨_, _, rfl, rfl⟩
    | cons r rs => exact ⟨_, _, rfl, rfl⟩
  obtain ⟨x, xs, hx, hxt⟩ := hh
  simp only [placeAt, positionSpeeds]
  rw [hx]
  simp only [segByTime, hxt]
  split <;> simp

theorem positionSpeeds_last (vs : List Vtx) : (positionSpeeds vs).getLast? = vs.getLast? := by
  induction vs with
  | nil => rfl
  | cons p rest ih =>
    cases rest with
    | nil => rfl
    | cons q rest =>
      simp only [positionSpeeds]
      rw [List.getLast?_cons, ih, List.getLast?_cons_cons]
      simp [List.getLast?_cons]

theorem position_aux (vs : List Vtx) : ∀ (i : Nat) (p q : Vtx) (w : Rat), Stamped vs →
    (∀ u ∈ vs, u.acc = 0) → vs[i]? = some p → vs[i + 1]? = some q → 0 ≤ w → w ≤ 1 →
    placeAt (positionSpeeds vs) (mix w p q).time = some (mix w p q).s := by
  induction vs with
  | nil => intro i p q w _ _ h; simp at h
  | cons x rest ih =>
    intro i p q w hS hA hp hq h0 h1
    have hsm := small_pos
    cases rest with
    | nil => simp at hq
    | cons y rest =>
      simp only [Stamped, List.isChain_cons_cons] at hS
      rw [placeAt_position]
      have htr : ∀ w : Rat, 0 ≤ w → w ≤ 1 →
          travel { x with speed := segPosition (y.s - x.s) (y.time - x.time) } (mix w x y).time = (mix w x y).s := by
        intro w h0 h1
        have ha : x.acc = 0 := hA x (by simp)
        have hge : x.time ≤ (mix w x y).time := by
          have := mul_nonneg h0 (by linarith [hS.1] : 0 ≤ y.time - x.time)
          simp only [mix]; linarith
        rw [travel_eq { x with speed := segPosition (y.s - x.s) (y.time - x.time) } _ hge]
        simp only [ha, lt_irrefl, false_and, if_false, segPosition, gt_iff_lt, if_pos hS.1, mix]
        have : y.time - x.time ≠ 0 := by linarith [hS.1]
        field_simp
        ring
      cases i with
      | zero =>
        simp only [List.getElem?_cons_zero, Option.some.injEq, zero_add, List.getElem?_cons_succ] at hp hq
        subst hp; subst hq
        have hle : ¬ y.time < (mix w x y).time := by
          have := mul_nonneg (by linarith : 0 ≤ 1 - w) (by linarith [hS.1] : 0 ≤ y.time - x.time)
          simp only [mix]; linarith
        rw [if_neg hle, htr w h0 h1]
      | succ i =>
        simp only [List.getElem?_cons_succ] at hp hq
        have hin := ih i p q w hS.2 (fun u hu => hA u (by simp [hu])) hp hq h0 h1
        by_cases hc : y.time < (mix w p q).time
        · rw [if_pos hc, hin]
        · rw [if_neg hc]
          -- the time is that of the second vertex
          have hpm : y.time ≤ p.time := stamped_mem _ y p hS.2 rfl (List.mem_of_getElem? hp)
          have hpq : small < q.time - p.time := by
            have := List.isChain_iff_getElem.mp hS.2 i
            have hlen : i + 1 < (y :: rest).length := by
              rw [List.getElem?_eq_some_iff] at hq
              have := hq.1
              simp only [List.length_cons]; omega
            have := this hlen
            rw [List.getElem?_eq_some_iff] at hp hq
            rw [hp.2, List.getElem_cons_succ, hq.2] at this
            exact this
          have hw : w * (q.time - p.time) = 0 := by
            have := mul_nonneg h0 (by linarith : 0 ≤ q.time - p.time)
            simp only [mix] at hc
            linarith
          have hw0 : w = 0 := by
            rcases mul_eq_zero.mp hw with h | h
            · exact h
            · linarith
          subst hw0
          have hi : i = 0 := by
            by_contra hne
            obtain ⟨k, rfl⟩ := Nat.exists_eq_succ_of_ne_zero hne
            simp only [List.getElem?_cons_succ] at hp
            cases rest with
            | nil => simp at hp
            | cons z rest =>
              simp only [List.isChain_cons_cons] at hS
              have := stamped_mem _ z p hS.2.2 rfl (List.mem_of_getElem? hp)
              simp only [mix] at hc
              linarith [hS.2.1]
          subst hi
          simp only [List.getElem?_cons_zero, Option.some.injEq] at hp
          subst hp
          have e := htr 1 (by norm_num) (by norm_num)
          simp only [mix] at e ⊢
          have e1 : (1 - 0) * y.time + 0 * q.time = (1 - 1) * x.time + 1 * y.time := by ring
          rw [e1, e]
          congr 1; ring

/-- In POSITION mode the place is interpolated between the vertices by time. -/
theorem position_interpolates (vs : List Vtx) (i : Nat) (p q : Vtx) (w : Rat) (hS : Stamped vs)
    (hA : ∀ u ∈ vs, u.acc = 0) (hp : vs[i]? = some p) (hq : vs[i + 1]? = some q) (h0 : 0 ≤ w) (h1 : w ≤ 1) :
    ∃ r, positionSpeedsChecked vs = some r ∧ shapeS r (mix w p q).time = some (mix w p q).s := by
  have h2 : positionSpeedsChecked vs = some (positionSpeeds vs) := by
    cases vs with
    | nil => rfl
    | cons a rest =>
      cases rest with
      | nil => simp at hq
      | cons b rest => rfl
  refine ⟨_, h2, ?_⟩
  obtain ⟨l, hl⟩ : ∃ l, vs.getLast? = some l := by
    cases h : vs.getLast? with
    | none => rw [List.getLast?_eq_none_iff] at h; simp [h] at hq
    | some l => exact ⟨l, rfl⟩
  have hpw : vs.Pairwise fun p q => p.time ≤ q.time := by
    have hsm := small_pos
    have : vs.IsChain fun p q => p.time ≤ q.time := hS.imp fun a b h => by linarith
    exact List.isChain_iff_pairwise.mp this
  have hq1 : q.time ≤ l.time := by
    rw [List.getElem?_eq_some_iff] at hq
    obtain ⟨hlt, hq⟩ := hq
    rw [List.getLast?_eq_getElem?, List.getElem?_eq_some_iff] at hl
    obtain ⟨hlt', hl⟩ := hl
    rcases Nat.lt_or_ge (i + 1) (vs.length - 1) with c | c
    · have := List.pairwise_iff_getElem.mp hpw (i + 1) (vs.length - 1) hlt hlt' c
      rw [hq, hl] at this; exact this
    · have : i + 1 = vs.length - 1 := by omega
      rw [← hq, ← hl]; simp [this]
  have hp1 : p.time ≤ q.time := by
    rw [List.getElem?_eq_some_iff] at hp hq
    have := List.pairwise_iff_getElem.mp hpw i (i + 1) hp.1 hq.1 (by omega)
    rw [hp.2, hq.2] at this; exact this
  have ht : ¬ (mix w p q).time > l.time := by
    have := mul_nonneg (by linarith : 0 ≤ 1 - w) (by linarith : 0 ≤ q.time - p.time)
    simp only [mix]; linarith
  simp only [shapeS, positionSpeeds_last, hl, if_neg ht]
  exact position_aux vs i p q w hS hA hp hq h0 h1

example : ∃ r, positionSpeedsChecked demo = some r ∧ shapeS r 3 = some 15 := by
  have := position_interpolates demo 1 ⟨10, 10, 0, 0, 1, 5/2, 0, 0⟩ ⟨20, 10, 10, 0, 5, 0, 0, 0⟩ (1/2)
    (by norm_num [Stamped, demo, small]) (by simp [demo]) rfl rfl (by norm_num) (by norm_num)
  norm_num [mix] at this
  exact this

/-- After the time of the last vertex the place is the last vertex. -/
theorem shape_after_end (vs : List Vtx) (l : Vtx) (t : Rat) (hl : vs.getLast? = some l) (ht : l.time < t) :
    shapeS vs t = some l.s := by
  simp [shapeS, hl, ht]

/-- In POSITION mode the last vertex keeps the speed it had (zero), and a trajectory with one vertex
writes outside the array. -/
theorem position_last_speed_fails :
    (∃ (vs r : List Vtx) (l : Vtx), positionSpeedsChecked vs = some r ∧ r.getLast? = some l ∧ l.speed = 0 ∧
      (r[r.length - 2]?).map Vtx.speed = some 10) ∧
    (∀ v, positionSpeedsChecked [v] = none) := by
  refine ⟨⟨[⟨0, 0, 0, 0, 0, 0, 0, 0⟩, ⟨10, 10, 0, 0, 1, 0, 0, 0⟩],
    [⟨0, 0, 0, 0, 0, 10, 0, 0⟩, ⟨10, 10, 0, 0, 1, 0, 0, 0⟩], ⟨10, 10, 0, 0, 1, 0, 0, 0⟩, by decide +kernel,
    rfl, rfl, rfl⟩, fun v => rfl⟩

end Verif.Traj

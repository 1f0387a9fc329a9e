import Verif.Place.OriModel
import Mathlib.Tactic.LinearCombination
import Mathlib.Tactic.FieldSimp
import Mathlib.Analysis.SpecialFunctions.Trigonometric.Inverse
/-
C161, C162: orientation of positions.
-/
namespace Verif.Place
open Real Verif.Geom Matrix

/-- The same direction. -/
def Dir (a b : ℝ) : Prop := cos a = cos b ∧ sin a = sin b

theorem Dir.rfl' (a : ℝ) : Dir a a := ⟨rfl, rfl⟩

theorem Dir.trans {a b c : ℝ} (h : Dir a b) (g : Dir b c) : Dir a c := ⟨h.1.trans g.1, h.2.trans g.2⟩

theorem Dir.symm {a b : ℝ} (h : Dir a b) : Dir b a := ⟨h.1.symm, h.2.symm⟩

theorem Dir.add {a b c d : ℝ} (h : Dir a b) (g : Dir c d) : Dir (a + c) (b + d) := by
  unfold Dir; rw [cos_add, sin_add, cos_add, sin_add, h.1, h.2, g.1, g.2]; exact ⟨rfl, rfl⟩

theorem Dir.sub {a b c d : ℝ} (h : Dir a b) (g : Dir c d) : Dir (a - c) (b - d) := by
  unfold Dir; rw [cos_sub, sin_sub, cos_sub, sin_sub, h.1, h.2, g.1, g.2]; exact ⟨rfl, rfl⟩

theorem dir_interval (a : ℝ) : Dir (interval2PI π a) a := interval2PI_direction a

theorem dir_sum (a b : ℝ) : Dir (angleSum π a b) (a + b) := (angleSum_spec a b).2.2

theorem dir_diff (a b : ℝ) : Dir (angleDiff π a b) (a - b) := turns_cos (angleDiff_spec pi_pos a b).1

/-- A rotation depends on the directions only. -/
theorem rot_congr {a b c a' b' c' : ℝ} (h : Dir a a') (p : Dir b b') (r : Dir c c') : rot a b c = rot a' b' c' := by
  unfold rot; rw [h.1, h.2, p.1, p.2, r.1, r.2]

/-- Headings add up. -/
theorem rot_heading (a b p r : ℝ) : rot a 0 0 * rot b p r = rot (a + b) p r := by
  ext i j
  rw [Matrix.mul_apply, Fin.sum_univ_three]
  fin_cases i <;> fin_cases j <;> simp [rot, cos_add, sin_add] <;> ring

/-- With pitches below 90 degrees the angles are unique. -/
theorem rot_unique {a b c a' b' c' : ℝ} (h : rot a b c = rot a' b' c') (hb : 0 < cos b) (hb' : 0 < cos b') : Dir a a' ∧ Dir b b' ∧ Dir c c' := by
  have e : ∀ i j, rot a b c i j = rot a' b' c' i j := fun i j => by rw [h]
  have e00 := e 0 0
  have e10 := e 1 0
  have e20 := e 2 0
  have e21 := e 2 1
  have e22 := e 2 2
  simp [rot] at e00 e10 e20 e21 e22
  have hc : cos b = cos b' := by
    have h1 := cos_sq_add_sin_sq b
    have h2 := cos_sq_add_sin_sq b'
    rw [e20] at h1
    nlinarith
  rw [hc] at e00 e10 e21 e22
  have n := hb'.ne'
  exact ⟨⟨mul_right_cancel₀ n e00, mul_right_cancel₀ n e10⟩, ⟨hc, e20⟩, ⟨mul_left_cancel₀ n e22, mul_left_cancel₀ n e21⟩⟩

/-- The pitch of angles taken from a matrix is below 90 degrees. -/
theorem eulerOf_pitch {m : Matrix (Fin 3) (Fin 3) ℝ} (hc : Clear m) : 0 < cos (eulerOf m).2.1 := by
  unfold eulerOf
  rw [(interval2PI_direction _).1, clampEntry_id hc.2]
  have hs := small_pos
  have hm22 : m 2 2 ≠ 0 := by
    intro h; have := hc.2; rw [h, abs_zero] at this; linarith
  have hC2 : 0 < m 2 1 * m 2 1 + m 2 2 * m 2 2 := by
    have := mul_self_pos.mpr hm22
    nlinarith [mul_self_nonneg (m 2 1)]
  have hq : 0 < sqrt (m 2 1 * m 2 1 + m 2 2 * m 2 2) := sqrt_pos.mpr hC2
  obtain ⟨h1, -⟩ := atan2_direction (sqrt (m 2 1 * m 2 1 + m 2 2 * m 2 2)) (-m 2 0)
  by_contra hn
  have := sqrt_nonneg (sqrt (m 2 1 * m 2 1 + m 2 2 * m 2 2) ^ 2 + (-m 2 0) ^ 2)
  nlinarith

/-- Angles for which the code has no difficulty: the vehicle does not stand on its nose or its side and the heading is not 90 degrees. -/
def Plain (h p r : ℝ) : Prop := Clear (rot h p r) ∧ 0 < cos p

/-- The angles of the rotation of plain angles are these angles. -/
theorem eulerOf_rot {h p r : ℝ} (hp : Plain h p r) : Dir (eulerOf (rot h p r)).1 h ∧ Dir (eulerOf (rot h p r)).2.1 p ∧ Dir (eulerOf (rot h p r)).2.2 r :=
  rot_unique (rot_eulerOf (rot_isRot h p r) hp.1) (eulerOf_pitch hp.1) hp.2

theorem Plain.congr {h p r h' p' r' : ℝ} (hp : Plain h p r) (e1 : Dir h h') (e2 : Dir p p') (e3 : Dir r r') : Plain h' p' r' := by
  unfold Plain; rw [← rot_congr e1 e2 e3, ← e2.1]; exact hp

theorem clear_iff (h p r : ℝ) : Clear (rot h p r) ↔ small ≤ |cos h * cos p| ∧ small ≤ |cos p * cos r| := by
  unfold Clear; simp [rot]

/-- Plain angles stay plain without pitch or roll. -/
theorem Plain.less {h p r p' r' : ℝ} (hp : Plain h p r) (e2 : p' = 0 ∨ p' = p) (e3 : r' = 0 ∨ r' = r) : Plain h p' r' := by
  obtain ⟨hc, hpos⟩ := hp
  rw [clear_iff, abs_mul, abs_mul] at hc
  have h1 := abs_cos_le_one h
  have h2 := abs_cos_le_one p
  have h3 := abs_cos_le_one r
  have g1 := abs_nonneg (cos h)
  have g2 := abs_nonneg (cos p)
  have g3 := abs_nonneg (cos r)
  have hs : small ≤ 1 := by unfold small; norm_num
  unfold Plain
  rw [clear_iff, abs_mul, abs_mul]
  rcases e2 with rfl | rfl <;> rcases e3 with rfl | rfl <;> (try simp only [cos_zero, abs_one, mul_one, one_mul]) <;>
    refine ⟨⟨?_, ?_⟩, ?_⟩ <;> first | assumption | exact hc.1 | exact hc.2 | exact zero_lt_one | nlinarith

/-- The rotation about the vertical axis is inverted unless the heading is 90 degrees. -/
theorem invert_level {h : ℝ} (hc : cos h ≠ 0) : (invert (rot h 0 0)).isSome := by
  have h1 := cos_sq_add_sin_sq h
  have e : cos h + sin h / cos h * sin h ≠ 0 := by
    rw [show cos h + sin h / cos h * sin h = 1 / cos h by field_simp; exact h1]
    exact one_div_ne_zero hc
  have e' : ¬ (cos h - sin h * (-sin h / cos h) = 0) := by
    intro h0; apply e; rw [← h0]; ring
  simp [invert, gaussStep, clearColumn, scaleRow, rot, hc, e']

/-- The road is level at the position. -/
def RoadOri.Level (road : RoadOri) : Prop := road.p = 0 ∧ road.r = 0 ∧ road.twist = 0 ∧ cos (road.h + road.hOff) ≠ 0

/-- The orientation agrees with the one relative to the road. -/
structure Agree (road : RoadOri) (o : Ori) (a b c : ℝ) : Prop where
  h : Dir o.h a
  p : Dir o.p b
  r : Dir o.r c
  hRel : Dir (road.h + road.hOff + o.hRel) a
  pRel : Dir o.pRel b
  rRel : Dir o.rRel c

/-- On a level road an evaluation sets every component: an absolute one to its value, another one to the relative value added to the road. -/
theorem evaluate_level (m : Modes) (road : RoadOri) (o : Ori) (hl : road.Level) (hm : ¬ (m.h = .skip ∧ m.p = .skip ∧ m.r = .skip)) (h p r : ℝ)
    (hh : Dir (if m.h = .abs then o.h else road.h + road.hOff + o.hRel) h) (hp : Dir (if m.p = .abs then o.p else o.pRel) p)
    (hr : Dir (if m.r = .abs then o.r else o.rRel) r) (h1 : Plain h p r) (h2 : Plain (h - (road.h + road.hOff)) p r) :
    Agree road (evaluate m road o) h p r := by
  obtain ⟨l1, l2, l3, l4⟩ := hl
  set e := compose road.h (if m.p = .abs then 0 else road.p) (if m.r = .abs then 0 else road.r)
      (if m.h = .abs then angleDiff π o.h road.h else o.hRel + road.hOff)
      (if m.p = .abs then o.p else o.pRel + cos o.hRel * road.twist) (if m.r = .abs then o.r else o.rRel) with he
  have eq : e = eulerOf (rot h p r) := by
    rw [he]
    unfold compose
    rw [l1, l2, l3, ite_self, ite_self, rot_heading, mul_zero, add_zero]
    congr 1
    refine rot_congr ?_ hp hr
    refine Dir.trans ?_ hh
    split
    · have := Dir.add (Dir.rfl' road.h) (dir_diff o.h road.h)
      rwa [show road.h + (o.h - road.h) = o.h by ring] at this
    · rw [show road.h + (o.hRel + road.hOff) = road.h + road.hOff + o.hRel by ring]; exact Dir.rfl' _
  obtain ⟨d1, d2, d3⟩ := eulerOf_rot h1
  rw [← eq] at d1 d2 d3
  have hi : (invert (rot (road.h + road.hOff) 0 0)).isSome := invert_level l4
  have key : rot (h - (road.h + road.hOff)) p r = (rot (road.h + road.hOff) 0 0)ᵀ * rot e.1 e.2.1 e.2.2 := by
    rw [rot_congr d1 d2 d3]
    have := rot_heading (road.h + road.hOff) (h - (road.h + road.hOff)) p r
    rw [show road.h + road.hOff + (h - (road.h + road.hOff)) = h by ring] at this
    rw [← this, ← Matrix.mul_assoc, (rot_isRot _ _ _).1, Matrix.one_mul]
  have hspec := relAngles_spec_partial (ha := e.1) (pa := e.2.1) (ra := e.2.2) hi (by rw [← key]; exact h2.1)
  have hd : 0 < cos (relAngles (road.h + road.hOff) 0 0 e.1 e.2.1 e.2.2).2.1 := by
    obtain ⟨x, hx⟩ := Option.isSome_iff_exists.mp hi
    unfold relAngles
    rw [hx, Option.getD_some]
    refine eulerOf_pitch ?_
    have hxt : x = (rot (road.h + road.hOff) 0 0)ᵀ := by
      have := (invert_spec hx).1
      rw [← Matrix.mul_one x, ← mul_eq_one_comm.mp (rot_isRot (road.h + road.hOff) 0 0).1, ← Matrix.mul_assoc, this, Matrix.one_mul]
    rw [hxt, ← key]
    exact h2.1
  rw [rot_heading] at hspec
  obtain ⟨g1, g2, g3⟩ := rot_unique (hspec.trans (rot_congr d1 d2 d3)) hd h1.2
  unfold evaluate
  rw [if_neg hm]
  simp only
  rw [← he, l1, l2]
  refine ⟨d1, d2, d3, ?_, ?_, ?_⟩ <;> simp only <;> split
  · exact g1
  · rename_i hn; rwa [if_neg hn] at hh
  · exact g2
  · rename_i hn; rwa [if_neg hn] at hp
  · exact g3
  · rename_i hn; rwa [if_neg hn] at hr

/-! ### Positions in the world -/

/-- C162: with three absolute angles, the orientation is the one given, whatever the road, and the orientation relative to the road fits to it. -/
theorem world_abs (set : Modes) (road : RoadOri) (outside : Bool) (h p r : ℝ) (o : Ori) (hc : Clear (rot h p r)) :
    let a := setWorld set ⟨.abs, .abs, .abs⟩ road outside (some h) (some p) (some r) o
    rot a.2.h a.2.p a.2.r = rot h p r ∧
    ((invert (rot (a.1.h + a.1.hOff) a.1.p a.1.r)).isSome → Clear ((rot (a.1.h + a.1.hOff) a.1.p a.1.r)ᵀ * rot h p r) →
      rot (a.1.h + a.1.hOff) a.1.p a.1.r * rot a.2.hRel a.2.pRel a.2.rRel = rot h p r) := by
  intro a
  set b := if outside then beyond set road o else (road, o) with hb
  have e : rot b.1.h 0 0 * rot (angleDiff π h b.1.h) p r = rot h p r := by
    rw [rot_heading]
    refine rot_congr ?_ (Dir.rfl' _) (Dir.rfl' _)
    have := Dir.add (Dir.rfl' b.1.h) (dir_diff h b.1.h)
    rwa [show b.1.h + (h - b.1.h) = h by ring] at this
  have ha1 : a.1 = b.1 := rfl
  have key : rot a.2.h a.2.p a.2.r = rot h p r := by
    rw [← e] at hc ⊢
    exact compose_spec_partial hc
  refine ⟨key, fun hi hc' => ?_⟩
  rw [← key] at hc' ⊢
  exact relAngles_spec_partial hi hc'

/-- C162: with three absolute angles that are plain, the angles are those given. -/
theorem world_abs_angles (set : Modes) (road : RoadOri) (outside : Bool) (h p r : ℝ) (o : Ori) (hp : Plain h p r) :
    let a := setWorld set ⟨.abs, .abs, .abs⟩ road outside (some h) (some p) (some r) o
    Dir a.2.h h ∧ Dir a.2.p p ∧ Dir a.2.r r := by
  intro a
  set b := if outside then beyond set road o else (road, o) with hb
  have e : rot b.1.h 0 0 * rot (angleDiff π h b.1.h) p r = rot h p r := by
    rw [rot_heading]
    refine rot_congr ?_ (Dir.rfl' _) (Dir.rfl' _)
    have := Dir.add (Dir.rfl' b.1.h) (dir_diff h b.1.h)
    rwa [show b.1.h + (h - b.1.h) = h by ring] at this
  have := eulerOf_rot hp
  rw [← e] at this
  exact this

/-- C162: with three relative angles the position is turned by them from the orientation of the lane on the road surface. -/
theorem world_rel (set : Modes) (road : RoadOri) (h p r : ℝ) (o : Ori)
    (hc : Clear (rot road.h road.p road.r * rot (h + road.hOff) (p + cos h * road.twist) r)) :
    let a := setWorld set ⟨.rel, .rel, .rel⟩ road false (some h) (some p) (some r) o
    rot a.2.h a.2.p a.2.r = rot road.h road.p road.r * rot (h + road.hOff) (p + cos h * road.twist) r ∧
      Dir a.2.hRel h ∧ Dir a.2.pRel p ∧ Dir a.2.rRel r := by
  intro a
  have e : rot (interval2PI π h + road.hOff) (interval2PI π p + cos (interval2PI π h) * road.twist) (interval2PI π r) =
      rot (h + road.hOff) (p + cos h * road.twist) r := by
    rw [(dir_interval h).1]
    exact rot_congr ((dir_interval h).add (Dir.rfl' _)) ((dir_interval p).add (Dir.rfl' _)) (dir_interval r)
  refine ⟨?_, dir_interval h, dir_interval p, dir_interval r⟩
  rw [← e] at hc ⊢
  exact compose_spec_partial hc

/-- C162: on a level road and beyond the ends of a road any combination of absolute and relative angles is taken as it is given. Missing: slopes. -/
theorem world_level_partial (set m : Modes) (road : RoadOri) (outside : Bool) (h p r : ℝ) (o : Ori) (ht : road.twist = 0)
    (hq : cos (road.h + road.hOff) ≠ 0) (hl : outside = true ∨ road.p = 0 ∧ road.r = 0) (mh : m.h ≠ .skip) (mp : m.p ≠ .skip) (mr : m.r ≠ .skip)
    (h1 : Plain (if m.h = .rel then road.h + road.hOff + h else h) p r)
    (h2 : Plain (if m.h = .rel then h else h - (road.h + road.hOff)) p r) :
    let a := setWorld set m road outside (some h) (some p) (some r) o
    Agree a.1 a.2 (if m.h = .rel then road.h + road.hOff + h else h) p r := by
  intro a
  have k : a.1.Level ∧ a.1.h = road.h ∧ a.1.hOff = road.hOff := by
    show (if outside then beyond set road o else (road, o)).1.Level ∧ _
    cases outside
    · rcases hl with hl | hl
      · cases hl
      · exact ⟨⟨hl.1, hl.2, ht, hq⟩, rfl, rfl⟩
    · exact ⟨⟨rfl, rfl, ht, hq⟩, rfl, rfl⟩
  refine evaluate_level _ a.1 _ k.1 ?_ _ _ _ ?_ ?_ ?_ h1 ?_
  · intro hn
    have := hn.1
    revert mh this
    cases m.h <;> simp [Mode.orAbs]
  · revert mh
    cases m.h <;> cases m.p <;> cases m.r <;>
      simp [Mode.orAbs, assign, setH, setHRel, setP, setPRel, setR, setRRel, k.2.1, k.2.2, Dir.rfl'] <;>
      exact (Dir.rfl' _).add (dir_interval _)
  · revert mp
    cases m.h <;> cases m.p <;> cases m.r <;>
      simp [Mode.orAbs, assign, setH, setHRel, setP, setPRel, setR, setRRel, Dir.rfl', dir_interval]
  · revert mr
    cases m.h <;> cases m.p <;> cases m.r <;>
      simp [Mode.orAbs, assign, setH, setHRel, setP, setPRel, setR, setRRel, Dir.rfl', dir_interval]
  · rw [k.2.1, k.2.2]
    split at h2
    · rename_i hm; rw [if_pos hm, show road.h + road.hOff + h - (road.h + road.hOff) = h by ring]; exact h2
    · rename_i hm; rw [if_neg hm]; exact h2

/-! ### Positions on a lane or road -/

/-- C162: a lane or road position with a relative or missing orientation is turned by it from the driving direction on the road surface. -/
theorem lane_rel (back absolute : Bool) (h p r : Option ℝ) (road : RoadOri) (ht : absolute = true → h = none ∧ p = none ∧ r = none)
    (hc : Clear (rot road.h road.p road.r * rot ((if back then π else 0) + h.getD 0 + road.hOff)
      (p.getD 0 + (if back then -1 else 1) * cos (h.getD 0) * road.twist) (r.getD 0))) :
    let a := lanePos absolute back h p r road
    rot a.h a.p a.r = rot road.h road.p road.r * rot ((if back then π else 0) + h.getD 0 + road.hOff)
      (p.getD 0 + (if back then -1 else 1) * cos (h.getD 0) * road.twist) (r.getD 0) := by
  intro a
  have hd : Dir (interval2PI π (if back then angleSum π π (h.getD 0) else h.getD 0)) ((if back then π else 0) + h.getD 0) := by
    refine (dir_interval _).trans ?_
    cases back
    · simp [Dir.rfl']
    · exact dir_sum _ _
  have hcos : cos (interval2PI π (if back then angleSum π π (h.getD 0) else h.getD 0)) = (if back then -1 else 1) * cos (h.getD 0) := by
    rw [hd.1]; cases back
    · simp
    · simp [cos_add]
  have e : rot (interval2PI π (if back then angleSum π π (h.getD 0) else h.getD 0) + road.hOff)
      (interval2PI π (p.getD 0) + cos (interval2PI π (if back then angleSum π π (h.getD 0) else h.getD 0)) * road.twist) (interval2PI π (r.getD 0)) =
      rot ((if back then π else 0) + h.getD 0 + road.hOff) (p.getD 0 + (if back then -1 else 1) * cos (h.getD 0) * road.twist) (r.getD 0) := by
    rw [hcos]
    exact rot_congr (hd.add (Dir.rfl' _)) ((dir_interval _).add (Dir.rfl' _)) (dir_interval _)
  rw [← e] at hc ⊢
  have := compose_spec_partial hc
  have hrel : ∀ v : Option ℝ, (absolute = true → v = none) →
      ((if v.isNone then Mode.skip else if absolute then .abs else .rel : Mode).orRel = .rel) ∧ (absolute = false ∨ v = none) := by
    intro v hv
    cases v <;> cases absolute <;> simp_all [Mode.orRel]
  obtain ⟨m1, c1⟩ := hrel h fun x => (ht x).1
  obtain ⟨m2, c2⟩ := hrel p fun x => (ht x).2.1
  obtain ⟨m3, c3⟩ := hrel r fun x => (ht x).2.2
  have : a = evaluate ⟨.rel, .rel, .rel⟩ road (setRRel (r.getD 0) (setPRel (p.getD 0)
      (setHRel (if back then angleSum π π (h.getD 0) else h.getD 0) fresh))) := by
    show lanePos absolute back h p r road = _
    unfold lanePos initModes
    simp only [m1, m2, m3, if_pos c1, if_pos c2, if_pos c3]
  rw [this]
  exact compose_spec_partial hc

/-- C162: a lane or road position with an absolute orientation has this orientation. -/
theorem lane_abs (back : Bool) (h p r : ℝ) (road : RoadOri) (h0 : Plain h p r) :
    let a := lanePos true back (some h) (some p) (some r) road
    rot a.h a.p a.r = rot h p r := by
  intro a
  have g : Dir (evaluate ⟨.abs, .skip, .skip⟩ ⟨0, 0, 0, 0, 0⟩ (setH h fresh)).h h := by
    refine (evaluate_level _ _ _ ⟨rfl, rfl, rfl, by simp⟩ (by simp) h 0 0 (by simp [setH, Dir.rfl']) (by simp [fresh, setH, Dir.rfl'])
      (by simp [fresh, setH, Dir.rfl']) (h0.less (.inl rfl) (.inl rfl)) (by simpa using h0.less (.inl rfl) (.inl rfl))).h
  have e : rot road.h 0 0 * rot (angleDiff π (evaluate ⟨.abs, .skip, .skip⟩ ⟨0, 0, 0, 0, 0⟩ (setH h fresh)).h road.h) p r = rot h p r := by
    rw [rot_heading]
    refine rot_congr ?_ (Dir.rfl' _) (Dir.rfl' _)
    have := (Dir.rfl' road.h).add ((dir_diff _ road.h).trans (g.sub (Dir.rfl' road.h)))
    rwa [show road.h + (h - road.h) = h by ring] at this
  have hc := h0.1
  rw [← e] at hc ⊢
  exact compose_spec_partial hc

/-! ### Relative positions -/

/-- C161: on a level road a position relative to a lane or road has the absolute angles given for it, or those relative to the road (with `dsLane` to the driving direction).
Missing: slopes. -/
theorem rel_lane_level_partial (absolute back : Bool) (h p r : Option ℝ) (road : RoadOri) (o : Ori) (hl : road.Level) (hp : o.pRel = 0) (hr : o.rRel = 0)
    (H : ℝ) (hH : H = if absolute = true ∧ h.isSome = true then h.getD 0 else road.h + road.hOff + (h.getD 0 + if back then π else 0))
    (h1 : Plain H (p.getD 0) (r.getD 0)) (h2 : Plain (H - (road.h + road.hOff)) (p.getD 0) (r.getD 0)) :
    Agree road (relLaneOri setDefault absolute back h p r road o) H (p.getD 0) (r.getD 0) := by
  set m := initModes absolute h p r with hm
  have mode : ∀ v : Option ℝ, (if v.isNone then Mode.skip else if absolute then .abs else .rel : Mode) = .rel ∨
      (if v.isNone then Mode.skip else if absolute then .abs else .rel : Mode) = .skip ∨
      (if v.isNone then Mode.skip else if absolute then .abs else .rel : Mode) = .abs := by
    intro v; cases v <;> cases absolute <;> simp
  have A1 : Agree road (if m.h = .rel ∨ m.h = .skip then
      evaluate ⟨.rel, .skip, .skip⟩ road (setHRel (if back then angleSum π (h.getD 0) π else h.getD 0) o)
      else evaluate ⟨.abs, .skip, .skip⟩ road (setH (h.getD 0) o)) H 0 0 := by
    split
    · rename_i hc
      refine evaluate_level _ road _ hl (by simp) _ _ _ ?_ (by simp [setHRel, hp, Dir.rfl']) (by simp [setHRel, hr, Dir.rfl'])
        (h1.less (.inl rfl) (.inl rfl)) (h2.less (.inl rfl) (.inl rfl))
      have hn : ¬ (absolute = true ∧ h.isSome = true) := by
        rintro ⟨rfl, hs⟩
        cases h with
        | none => cases hs
        | some x => simp [hm, initModes] at hc
      rw [hH, if_neg hn]
      simp only [reduceCtorEq, if_false, setHRel]
      refine (Dir.rfl' _).add ((dir_interval _).trans ?_)
      cases back
      · simp [Dir.rfl']
      · exact dir_sum _ _
    · rename_i hc
      refine evaluate_level _ road _ hl (by simp) _ _ _ ?_ (by simp [setH, hp, Dir.rfl']) (by simp [setH, hr, Dir.rfl'])
        (h1.less (.inl rfl) (.inl rfl)) (h2.less (.inl rfl) (.inl rfl))
      have hn : absolute = true ∧ h.isSome = true := by
        cases h <;> cases absolute <;> simp_all [initModes]
      rw [hH, if_pos hn]
      simp [setH, Dir.rfl']
  set o1 := (if m.h = .rel ∨ m.h = .skip then
      evaluate ⟨.rel, .skip, .skip⟩ road (setHRel (if back then angleSum π (h.getD 0) π else h.getD 0) o)
      else evaluate ⟨.abs, .skip, .skip⟩ road (setH (h.getD 0) o)) with ho1
  have A2 : Agree road (if m.p = .rel ∨ m.p = .skip then evaluate ⟨.skip, .rel, .skip⟩ road (setPRel (p.getD 0) o1)
      else evaluate ⟨.skip, .abs, .skip⟩ road (setP (p.getD 0) o1)) H (p.getD 0) 0 := by
    split
    · exact evaluate_level _ road _ hl (by simp) _ _ _ (by simpa [setPRel] using A1.hRel) (by simp [setPRel, dir_interval]) (by simpa [setPRel] using A1.rRel)
        (h1.less (.inr rfl) (.inl rfl)) (h2.less (.inr rfl) (.inl rfl))
    · exact evaluate_level _ road _ hl (by simp) _ _ _ (by simpa [setP] using A1.hRel) (by simp [setP, Dir.rfl']) (by simpa [setP] using A1.rRel)
        (h1.less (.inr rfl) (.inl rfl)) (h2.less (.inr rfl) (.inl rfl))
  set o2 := (if m.p = .rel ∨ m.p = .skip then evaluate ⟨.skip, .rel, .skip⟩ road (setPRel (p.getD 0) o1)
      else evaluate ⟨.skip, .abs, .skip⟩ road (setP (p.getD 0) o1)) with ho2
  have A3 : Agree road (if m.r = .rel ∨ m.r = .skip then evaluate ⟨.skip, .skip, .rel⟩ road (setRRel (r.getD 0) o2)
      else evaluate ⟨.skip, .skip, .abs⟩ road (setR (r.getD 0) o2)) H (p.getD 0) (r.getD 0) := by
    split
    · exact evaluate_level _ road _ hl (by simp) _ _ _ (by simpa [setRRel] using A2.hRel) (by simpa [setRRel] using A2.pRel) (by simp [setRRel, dir_interval])
        h1 h2
    · exact evaluate_level _ road _ hl (by simp) _ _ _ (by simpa [setR] using A2.hRel) (by simpa [setR] using A2.pRel) (by simp [setR, Dir.rfl']) h1 h2
  exact evaluate_level _ road _ hl (by simp [setDefault]) _ _ _ (by simpa [setDefault] using A3.h) (by simpa [setDefault] using A3.pRel)
    (by simpa [setDefault] using A3.rRel) h1 h2

/-- C161: on a level road and beyond the ends of a road, a position relative to an object has the absolute angles given for it, or those of the entity plus the given ones.
Missing: slopes. -/
theorem rel_object_level_partial (absolute : Bool) (h p r : Option ℝ) (ref : ℝ × ℝ × ℝ) (road : RoadOri) (outside : Bool) (o : Ori) (ht : road.twist = 0)
    (hq : cos (road.h + road.hOff) ≠ 0) (hl : outside = true ∨ road.p = 0 ∧ road.r = 0) (H P R : ℝ)
    (hH : H = if absolute = true ∧ h.isSome = true then h.getD 0 else ref.1 + h.getD 0)
    (hP : P = if absolute = true ∧ p.isSome = true then p.getD 0 else ref.2.1 + p.getD 0)
    (hR : R = if absolute = true ∧ r.isSome = true then r.getD 0 else ref.2.2 + r.getD 0)
    (h1 : Plain H P R) (h2 : Plain (H - (road.h + road.hOff)) P R) :
    let a := relObjectOri setDefault absolute h p r ref road outside o
    Dir a.h H ∧ Dir a.p P ∧ Dir a.r R := by
  have val : ∀ (v : Option ℝ) (x : ℝ), Dir (if (if v.isNone then Mode.skip else if absolute then .abs else .rel : Mode) = .abs then v.getD 0
      else angleSum π (v.getD 0) x) (if absolute = true ∧ v.isSome = true then v.getD 0 else x + v.getD 0) := by
    intro v x
    cases v <;> cases absolute <;> simp [Dir.rfl'] <;> exact (dir_sum _ _).trans (by rw [add_comm]; simp [Dir.rfl'])
  set H' := (if (initModes absolute h p r).h = .abs then h.getD 0 else angleSum π (h.getD 0) ref.1) with hH'
  set P' := (if (initModes absolute h p r).p = .abs then p.getD 0 else angleSum π (p.getD 0) ref.2.1) with hP'
  set R' := (if (initModes absolute h p r).r = .abs then r.getD 0 else angleSum π (r.getD 0) ref.2.2) with hR'
  have dH : Dir H' H := by rw [hH]; exact val h ref.1
  have dP : Dir P' P := by rw [hP]; exact val p ref.2.1
  have dR : Dir R' R := by rw [hR]; exact val r ref.2.2
  have q1 : Plain H' P' R' := h1.congr dH.symm dP.symm dR.symm
  have q2 : Plain (H' - (road.h + road.hOff)) P' R' := h2.congr ((dH.symm).sub (Dir.rfl' _)) dP.symm dR.symm
  have A := world_level_partial setDefault ⟨.abs, .abs, .abs⟩ road outside H' P' R' o ht hq hl (by simp) (by simp) (by simp) (by simpa using q1)
    (by simpa using q2)
  simp only [reduceCtorEq, if_false] at A
  set a := setWorld setDefault ⟨.abs, .abs, .abs⟩ road outside (some H') (some P') (some R') o with ha
  have k : a.1.Level ∧ a.1.h = road.h ∧ a.1.hOff = road.hOff := by
    show (if outside then beyond setDefault road o else (road, o)).1.Level ∧ _
    cases outside
    · rcases hl with hl | hl
      · cases hl
      · exact ⟨⟨hl.1, hl.2, ht, hq⟩, rfl, rfl⟩
    · exact ⟨⟨rfl, rfl, ht, hq⟩, rfl, rfl⟩
  have B := evaluate_level setDefault a.1 a.2 k.1 (by simp [setDefault]) H' P' R' (by simpa [setDefault] using A.h) (by simpa [setDefault] using A.pRel)
    (by simpa [setDefault] using A.rRel) q1 (by rw [k.2.1, k.2.2]; exact q2)
  exact ⟨B.h.trans dH, B.p.trans dP, B.r.trans dR⟩

/-- C161: the place of a position relative to an object, seen from this object, is the given one. -/
theorem rel_object_place (at' ref : ℝ × ℝ × ℝ) (dx dy dz : ℝ) (zRoad : ℝ → ℝ → ℝ) (hc : Clear (rot ref.1 ref.2.1 ref.2.2)) :
    let q := relPlace true at' ref dx dy (some dz) zRoad
    inverseRotateVec ref.1 ref.2.1 ref.2.2 (q.1 - at'.1, q.2.1 - at'.2.1, q.2.2 - at'.2.2) = (dx, dy, dz) := by
  intro q
  have : (q.1 - at'.1, q.2.1 - at'.2.1, q.2.2 - at'.2.2) = rotateVec ref.1 ref.2.1 ref.2.2 (dx, dy, dz) := by
    show (at'.1 + _ - at'.1, at'.2.1 + _ - at'.2.1, at'.2.2 + _ - at'.2.2) = _
    simp
  rw [this]
  exact (rotateVec_inverse_partial hc (dx, dy, dz)).1

/-- C161: without `dz` the position lies on the road. -/
theorem rel_place_road (object : Bool) (at' ref : ℝ × ℝ × ℝ) (dx dy : ℝ) (zRoad : ℝ → ℝ → ℝ) :
    let q := relPlace object at' ref dx dy none zRoad
    q.2.2 = zRoad q.1 q.2.1 := by
  simp [relPlace]

/-- C161: the place of a position relative in the world is that of the entity plus the given distances. -/
theorem rel_world_place (at' ref : ℝ × ℝ × ℝ) (dx dy dz : ℝ) (zRoad : ℝ → ℝ → ℝ) :
    relPlace false at' ref dx dy (some dz) zRoad = at' + (dx, dy, dz) := by
  simp [relPlace, Prod.ext_iff]

/-! ### Slopes -/

/-- A road that falls with an angle of about 37 degrees. -/
noncomputable def slope : RoadOri := ⟨0, arcsin (3 / 5), 0, 0, 0⟩

theorem slope_cos : cos slope.p = 4 / 5 ∧ sin slope.p = 3 / 5 := by
  refine ⟨?_, sin_arcsin (by norm_num) (by norm_num)⟩
  show cos (arcsin (3 / 5)) = _
  rw [cos_arcsin, show (1 : ℝ) - (3 / 5) ^ 2 = (4 / 5) ^ 2 by norm_num]
  exact sqrt_sq (by norm_num)

/-- Half of a square is at 45 degrees. -/
theorem quarter : cos (π / 4) ^ 2 = 1 / 2 ∧ sin (π / 4) = cos (π / 4) ∧ 1 / 2 < cos (π / 4) := by
  rw [cos_pi_div_four, sin_pi_div_four]
  have h : sqrt 2 ^ 2 = 2 := sq_sqrt (by norm_num)
  have := sqrt_nonneg 2
  refine ⟨by rw [div_pow, h]; norm_num, rfl, ?_⟩
  nlinarith

/-- The pitch of a matrix is not zero if its entry is not. -/
theorem eulerOf_pitch_ne {m : Matrix (Fin 3) (Fin 3) ℝ} (h : m 2 0 ≠ 0) : sin (eulerOf m).2.1 ≠ 0 := by
  unfold eulerOf
  rw [(interval2PI_direction _).2]
  intro h0
  have := (atan2_direction (sqrt (m 2 1 * m 2 1 + clampEntry (m 2 2) * clampEntry (m 2 2))) (-m 2 0)).2
  rw [h0, mul_zero] at this
  exact h (by linarith)

/-- The rotation of a pitch and a heading in it. -/
theorem rot_slope (a h : ℝ) : rot 0 a 0 * rot h 0 0 =
    !![cos a * cos h, -(cos a * sin h), sin a; sin h, cos h, 0; -(sin a * cos h), sin a * sin h, cos a] := by
  ext i j
  rw [Matrix.mul_apply, Fin.sum_univ_three]
  fin_cases i <;> fin_cases j <;> simp [rot] <;> ring

/-- C162 fails on slopes: with an absolute heading, and pitch and roll relative to the road (the default), every evaluation turns the position: the tangent of the new heading is that
of the old one divided by the cosine of the slope. -/
theorem heading_drift_fails (a : ℝ) (o : Ori) (hp : o.pRel = 0) (hr : o.rRel = 0) (h1 : small ≤ |cos a * cos o.h|) (h2 : small ≤ |cos a|) :
    let o' := evaluate setDefault ⟨0, a, 0, 0, 0⟩ o
    cos a * cos o.h * sin o'.h = sin o.h * cos o'.h ∧ o'.pRel = 0 ∧ o'.rRel = 0 := by
  intro o'
  have e : rot 0 a 0 * rot (angleDiff π o.h 0) (o.pRel + cos o.hRel * 0) o.rRel = rot 0 a 0 * rot o.h 0 0 := by
    rw [hp, hr, rot_congr (a := angleDiff π o.h 0) (a' := o.h) (by simpa using dir_diff o.h 0) (Dir.rfl' _) (Dir.rfl' _), mul_zero, add_zero]
  have hc : Clear (rot 0 a 0 * rot o.h 0 0) := by
    rw [rot_slope]; exact ⟨by simpa using h1, by simpa using h2⟩
  rw [← e] at hc
  have key : rot o'.h o'.p o'.r = rot 0 a 0 * rot (angleDiff π o.h 0) (o.pRel + cos o.hRel * 0) o.rRel := compose_spec_partial hc
  rw [e, rot_slope] at key
  have k00 := congrFun (congrFun key 0) 0
  have k10 := congrFun (congrFun key 1) 0
  simp [rot] at k00 k10
  refine ⟨?_, hp, hr⟩
  rw [← k00, ← k10]; ring

/-- C162 fails: a position with the absolute heading of 45 degrees on a slope, and pitch and roll as those of the road, has another heading. -/
theorem heading_fails (o : Ori) : ¬ Dir (setWorld setDefault setDefault slope false (some (π / 4)) (some 0) (some 0) o).2.h (π / 4) := by
  obtain ⟨q1, q2, q3⟩ := quarter
  obtain ⟨s1, s2⟩ := slope_cos
  have hi : interval2PI π (0 : ℝ) = 0 := interval2PI_id pi_pos le_rfl (by linarith [pi_pos])
  have hsm : small = 1 / 1000000 := rfl
  have h := (heading_drift_fails slope.p ⟨π / 4, o.p, o.r, o.hRel, 0, 0⟩ rfl rfl
    (by rw [s1, abs_of_nonneg (by linarith), hsm]; linarith) (by rw [s1, abs_of_nonneg (by norm_num), hsm]; norm_num)).1
  have e : (setWorld setDefault setDefault slope false (some (π / 4)) (some 0) (some 0) o).2 =
      evaluate setDefault ⟨0, slope.p, 0, 0, 0⟩ ⟨π / 4, o.p, o.r, o.hRel, 0, 0⟩ := by
    simp [setWorld, setDefault, Mode.orAbs, assign, setH, setPRel, setRRel, hi, slope]
  rw [e]
  intro hd
  rw [hd.1, hd.2, s1] at h
  simp only at h
  rw [q2] at h
  nlinarith

/-- C162 fails where the road is banked: the absolute pitch 0 of a position at 45 degrees to the road, with a roll relative to the road, is not 0. -/
theorem pitch_fails (set : Modes) (o : Ori) :
    sin (setWorld set ⟨.rel, .abs, .rel⟩ ⟨0, 0, arcsin (3 / 5), 0, 0⟩ false (some (π / 4)) (some 0) (some 0) o).2.p ≠ 0 := by
  obtain ⟨q1, q2, q3⟩ := quarter
  have s2 : sin (arcsin (3 / 5)) = 3 / 5 := sin_arcsin (by norm_num) (by norm_num)
  have hd := dir_interval (π / 4)
  refine eulerOf_pitch_ne (m := rot 0 0 (arcsin (3 / 5)) * rot (interval2PI π (π / 4) + 0) 0 (interval2PI π 0)) ?_
  rw [add_zero, rot_congr hd (Dir.rfl' 0) (dir_interval 0), Matrix.mul_apply, Fin.sum_univ_three]
  simp [rot, s2]

/-- C161 fails on slopes: a position relative to an entity with the absolute orientation heading 45 degrees, pitch and roll 0, has a pitch. -/
theorem rel_object_slope_fails (ref : ℝ × ℝ × ℝ) (o : Ori) :
    sin (relObjectOri setDefault true (some (π / 4)) (some 0) (some 0) ref slope false o).p ≠ 0 := by
  obtain ⟨q1, q2, q3⟩ := quarter
  obtain ⟨s1, s2⟩ := slope_cos
  have hsm : small = 1 / 1000000 := rfl
  have pl : Plain (π / 4) 0 0 := by
    refine ⟨(clear_iff _ _ _).mpr ⟨?_, ?_⟩, by simp⟩
    · rw [cos_zero, mul_one, abs_of_nonneg (by linarith), hsm]; linarith
    · simp [hsm]; norm_num
  set a := setWorld setDefault ⟨.abs, .abs, .abs⟩ slope false (some (π / 4)) (some 0) (some 0) o with ha
  have ha1 : a.1 = slope := rfl
  obtain ⟨d1, -, -⟩ := world_abs_angles setDefault slope false (π / 4) 0 0 o pl
  have A := (world_abs setDefault slope false (π / 4) 0 0 o pl.1).2
  rw [← ha] at d1
  simp only [← ha, ha1] at A
  have hT : (rot (slope.h + slope.hOff) slope.p slope.r)ᵀ * rot (π / 4) 0 0 =
      !![4 / 5 * cos (π / 4), -(4 / 5 * cos (π / 4)), -(3 / 5); cos (π / 4), cos (π / 4), 0; 3 / 5 * cos (π / 4), -(3 / 5 * cos (π / 4)), 4 / 5] := by
    have : slope.h + slope.hOff = 0 := add_zero 0
    rw [this]
    ext i j
    rw [Matrix.mul_apply, Fin.sum_univ_three]
    fin_cases i <;> fin_cases j <;> simp [rot, s1, s2, q2, show slope.r = 0 from rfl] <;> ring
  have hinv : (invert (rot (slope.h + slope.hOff) slope.p slope.r)).isSome := by
    have : slope.h + slope.hOff = 0 := add_zero 0
    rw [this]
    simp [invert, gaussStep, clearColumn, scaleRow, rot, s1, s2, show slope.r = 0 from rfl]
    norm_num
  have B := A hinv (by
    rw [hT]
    refine ⟨?_, ?_⟩
    · simp only [Matrix.of_apply, Matrix.cons_val_zero]
      rw [abs_of_nonneg (by linarith), hsm]; linarith
    · simp [hsm]; norm_num)
  have C : rot a.2.hRel a.2.pRel a.2.rRel = (rot (slope.h + slope.hOff) slope.p slope.r)ᵀ * rot (π / 4) 0 0 := by
    rw [← B, ← Matrix.mul_assoc, (rot_isRot _ _ _).1, Matrix.one_mul]
  rw [hT] at C
  have c20 := congrFun (congrFun C 2) 0
  simp [rot, -cos_pi_div_four, -sin_pi_div_four] at c20
  have hcs := cos_sq_add_sin_sq a.2.pRel
  refine eulerOf_pitch_ne (m := rot slope.h slope.p slope.r * rot (angleDiff π a.2.h slope.h) (a.2.pRel + cos a.2.hRel * slope.twist) a.2.rRel) ?_
  rw [rot_congr ((dir_diff a.2.h slope.h).trans (d1.sub (Dir.rfl' slope.h))) (Dir.rfl' _) (Dir.rfl' _), Matrix.mul_apply, Fin.sum_univ_three]
  have st : slope.twist = 0 := rfl
  have sr : slope.r = 0 := rfl
  have sh : slope.h = 0 := rfl
  simp only [rot, st, sr, sh, s1, s2, mul_zero, add_zero, sub_zero, cos_zero, sin_zero]
  simp [-cos_pi_div_four, -sin_pi_div_four]
  intro h0
  have hsin : sin a.2.pRel = -(3 / 5 * cos (π / 4)) := by linarith
  rw [hsin] at h0 hcs
  have : cos (π / 4) * (cos a.2.pRel - 4 / 5) = 0 := by linarith
  rcases mul_eq_zero.mp this with h | h
  · linarith
  · have : cos a.2.pRel = 4 / 5 := by linarith
    rw [this] at hcs
    nlinarith

/-- C161 fails on slopes: a position relative to a lane with the relative heading of 45 degrees is not turned by 45 degrees on the road surface. -/
theorem rel_lane_slope_fails :
    let a := relLaneOri setDefault false false (some (π / 4)) none none slope fresh
    rot a.h a.p a.r ≠ rot slope.h slope.p slope.r * rot (π / 4) 0 0 := by
  obtain ⟨q1, q2, q3⟩ := quarter
  obtain ⟨s1, s2⟩ := slope_cos
  have hsm : small = 1 / 1000000 := rfl
  have hi : interval2PI π (0 : ℝ) = 0 := interval2PI_id pi_pos le_rfl (by linarith [pi_pos])
  set e := compose 0 slope.p 0 (interval2PI π (π / 4)) 0 0 with he
  have e1 : relLaneOri setDefault false false (some (π / 4)) none none slope fresh =
      evaluate setDefault ⟨0, slope.p, 0, 0, 0⟩ ⟨e.1, e.2.1, e.2.2, interval2PI π (π / 4), 0, 0⟩ := by
    simp [relLaneOri, initModes, evaluate, setHRel, setPRel, setRRel, hi, setDefault, fresh, slope, he]
  have hrot : rot 0 slope.p 0 * rot (interval2PI π (π / 4)) 0 0 = rot 0 slope.p 0 * rot (π / 4) 0 0 := by
    rw [rot_congr (dir_interval (π / 4)) (Dir.rfl' 0) (Dir.rfl' 0)]
  have hc : Clear (rot 0 slope.p 0 * rot (π / 4) 0 0) := by
    rw [rot_slope]
    refine ⟨?_, ?_⟩
    · simp only [Matrix.of_apply, Matrix.cons_val_zero, s1]
      rw [abs_of_nonneg (by linarith), hsm]; linarith
    · simp [hsm, s1]; norm_num
  have ke : rot e.1 e.2.1 e.2.2 = rot 0 slope.p 0 * rot (π / 4) 0 0 := by
    rw [← hrot] at hc ⊢
    exact compose_spec_partial hc
  rw [rot_slope] at ke
  have k00 := congrFun (congrFun ke 0) 0
  have k10 := congrFun (congrFun ke 1) 0
  simp [rot, s1, q2, -cos_pi_div_four, -sin_pi_div_four] at k00 k10
  have hp1 : cos e.2.1 ≠ 0 := by intro h; rw [h, mul_zero] at k10; linarith
  have f1 : 4 / 5 * sin e.1 = cos e.1 := by
    apply mul_right_cancel₀ hp1
    linear_combination (4 / 5 : ℝ) * k10 - k00
  have hcs := cos_sq_add_sin_sq e.1
  have hcos : (1 / 2 : ℝ) ^ 2 ≤ cos e.1 ^ 2 := by
    have : sin e.1 = 5 / 4 * cos e.1 := by linarith
    rw [this] at hcs
    nlinarith
  have habs : 1 / 2 ≤ |cos e.1| := by
    have := sq_le_sq.mp hcos
    rwa [abs_of_nonneg (by norm_num : (0 : ℝ) ≤ 1 / 2)] at this
  have hd := (heading_drift_fails slope.p ⟨e.1, e.2.1, e.2.2, interval2PI π (π / 4), 0, 0⟩ rfl rfl
    (by rw [s1, abs_mul, abs_of_nonneg (by norm_num : (0 : ℝ) ≤ 4 / 5), hsm]; linarith)
    (by rw [s1, abs_of_nonneg (by norm_num), hsm]; norm_num)).1
  intro a heq
  have ha : a = evaluate setDefault ⟨0, slope.p, 0, 0, 0⟩ ⟨e.1, e.2.1, e.2.2, interval2PI π (π / 4), 0, 0⟩ := e1
  rw [← ha, s1] at hd
  simp only at hd
  rw [show slope.h = 0 from rfl, show slope.r = 0 from rfl, rot_slope] at heq
  have g00 := congrFun (congrFun heq 0) 0
  have g10 := congrFun (congrFun heq 1) 0
  simp [rot, s1, q2, -cos_pi_div_four, -sin_pi_div_four] at g00 g10
  have hp2 : cos a.p ≠ 0 := by intro h; rw [h, mul_zero] at g10; linarith
  have f2 : 4 / 5 * sin a.h = cos a.h := by
    apply mul_right_cancel₀ hp2
    linear_combination (4 / 5 : ℝ) * g10 - g00
  have hs : sin a.h ≠ 0 := by intro h; rw [h, zero_mul] at g10; linarith
  have : cos e.1 = sin e.1 := by
    apply mul_right_cancel₀ hs
    rw [← f2] at hd
    linear_combination (5 / 4 : ℝ) * hd
  rw [this] at f1 hcs
  nlinarith

/-- C163 fails: the manual (docs/user_guide/positioning.adoc, "Persistent mode setting") says that the mode can be zero to use the modes set for the object, but then the given
angles are ignored. -/
theorem zero_mode_fails (set : Modes) (road : RoadOri) (h p r : Option ℝ) (o : Ori) :
    setWorld set ⟨.skip, .skip, .skip⟩ road false h p r o = (road, o) := by
  cases h <;> cases p <;> cases r <;> rfl

/-! ### The hypotheses are met -/

theorem small_le : small ≤ 1 / 4 := by unfold small; norm_num

theorem plain_quarter : Plain (π / 4) (π / 4) (π / 4) := by
  obtain ⟨q, -, q2⟩ := quarter
  have hs := small_le
  refine ⟨(clear_iff _ _ _).2 ?_, by linarith⟩
  have : |cos (π / 4) * cos (π / 4)| = 1 / 2 := by rw [abs_of_nonneg (by nlinarith), ← q]; ring
  rw [this]
  constructor <;> linarith

theorem plain_half : Plain (π / 4 + π / 4 - π / 4) 0 (π / 4) := by
  rw [add_sub_cancel_right]
  exact plain_quarter.less (.inl rfl) (.inr rfl)

/-- A level road, 45 degrees from the x axis. -/
noncomputable def level : RoadOri := ⟨π / 4, 0, 0, 0, 0⟩

theorem level_level : level.Level := by
  refine ⟨rfl, rfl, rfl, ?_⟩
  have := quarter.2.2
  show cos (π / 4 + 0) ≠ 0
  rw [add_zero]
  linarith

example (set : Modes) (outside : Bool) (o : Ori) := world_abs set slope outside (π / 4) (π / 4) (π / 4) o plain_quarter.1
example (set : Modes) (outside : Bool) (o : Ori) := world_abs_angles set slope outside (π / 4) (π / 4) (π / 4) o plain_quarter
example (back : Bool) := lane_abs back (π / 4) (π / 4) (π / 4) slope plain_quarter

theorem clear_slope : Clear (rot slope.h slope.p slope.r * rot (π / 4 + slope.hOff) (0 + cos (π / 4) * slope.twist) 0) := by
  obtain ⟨c, s⟩ := slope_cos
  obtain ⟨-, -, q2⟩ := quarter
  have hs := small_le
  have e : rot slope.h slope.p slope.r * rot (π / 4 + slope.hOff) (0 + cos (π / 4) * slope.twist) 0 = rot 0 slope.p 0 * rot (π / 4) 0 0 := by
    simp [slope, -cos_pi_div_four, -sin_pi_div_four]
  rw [e, rot_slope]
  constructor
  · show small ≤ |cos slope.p * cos (π / 4)|
    rw [c, abs_of_nonneg (by linarith)]; linarith
  · show small ≤ |cos slope.p|
    rw [c, abs_of_nonneg (by norm_num)]; linarith

example (set : Modes) (o : Ori) := world_rel set slope (π / 4) 0 0 o clear_slope

example := lane_rel false false (some (π / 4)) none none slope (by simp) (by
  have := clear_slope
  simpa [slope, -cos_pi_div_four, -sin_pi_div_four] using this)

example (o : Ori) := world_level_partial setDefault ⟨.abs, .rel, .rel⟩ level false (π / 4 + π / 4 - π / 4) 0 (π / 4) o rfl level_level.2.2.2 (.inr ⟨rfl, rfl⟩) (by simp) (by simp)
  (by simp) (by simpa using plain_half) (by
    have : Plain 0 0 (π / 4) := by
      obtain ⟨-, -, q2⟩ := quarter
      have hs := small_le
      refine ⟨(clear_iff _ _ _).2 ?_, by simp⟩
      rw [cos_zero, one_mul, one_mul, abs_one, abs_of_nonneg (by linarith)]
      constructor <;> linarith
    simpa [level] using this)

theorem plain_zero : Plain 0 0 0 := by
  have hs := small_le
  refine ⟨(clear_iff _ _ _).2 ?_, by simp⟩
  simp only [cos_zero, one_mul, abs_one]
  constructor <;> linarith

example := rel_lane_level_partial false false (some 0) none none level fresh level_level rfl rfl (π / 4) (by simp [level])
  (plain_quarter.less (.inl rfl) (.inl rfl)) (by simpa [level] using plain_zero)

example (o : Ori) := rel_object_level_partial false (some 0) none none (π / 4, 0, 0) level false o rfl level_level.2.2.2 (.inr ⟨rfl, rfl⟩) (π / 4) 0 0 (by simp) (by simp) (by simp)
  (plain_quarter.less (.inl rfl) (.inl rfl)) (by simpa [level] using plain_zero)

example (at' : ℝ × ℝ × ℝ) (zRoad : ℝ → ℝ → ℝ) := rel_object_place at' (π / 4, π / 4, π / 4) 10 (-3) 1 zRoad plain_quarter.1

end Verif.Place

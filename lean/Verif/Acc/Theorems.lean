import Mathlib.Analysis.SpecificLimits.Basic
import Verif.Geom.AngleTheorems
import Verif.Acc.Model
/-
C99: the adaptive cruise controller.
-/
namespace Verif.Acc

theorem clamp_mem {x lo hi : ℝ} (h : lo ≤ hi) : lo ≤ clamp x lo hi ∧ clamp x lo hi ≤ hi :=
  ⟨le_min h (le_max_left _ _), min_le_left _ _⟩

theorem clamp_id {x lo hi : ℝ} (h1 : lo ≤ x) (h2 : x ≤ hi) : clamp x lo hi = x := by
  unfold clamp
  rw [max_eq_right h1, min_eq_right h2]

/-! ### The lead vehicle -/

/-- The entity is in the way: ahead in the same lane within the look ahead distance at this gap, or really close in front at this distance. -/
def InTheWay (c : Config) (current : ℝ) (o : Other) (gap : ℝ) : Prop :=
  (∃ d, o.path (lookahead c current) = some d ∧ InLane c o d ∧ gap = gapTo c o d.ds) ∨ (ReallyClose current o ∧ gap = o.freeX)

theorem laneCheck_cases (c : Config) (current : ℝ) (i : Nat) (o : Other) (l : Lead) :
    laneCheck c (lookahead c current) i o l = l ∨
      ∃ g, InTheWay c current o g ∧ laneCheck c (lookahead c current) i o l = ⟨g, some i⟩ ∧ g < l.gap := by
  unfold laneCheck
  split
  · exact Or.inl rfl
  · rename_i d hd
    split_ifs with h
    · exact Or.inr ⟨_, Or.inl ⟨d, hd, h.1, rfl⟩, rfl, h.2⟩
    · exact Or.inl rfl

theorem closeCheck_cases (c : Config) (current : ℝ) (i : Nat) (o : Other) (l : Lead) :
    closeCheck current i o l = l ∨ ∃ g, InTheWay c current o g ∧ closeCheck current i o l = ⟨g, some i⟩ := by
  unfold closeCheck
  split_ifs with h
  · exact Or.inr ⟨_, Or.inr ⟨h.2, rfl⟩, rfl⟩
  · exact Or.inl rfl

theorem search_sound (c : Config) (current : ℝ) (os pre : List (Option Other)) (l : Lead)
    (hl : ∀ j, l.idx = some j → ∃ o, (pre ++ os)[j]? = some (some o) ∧ InTheWay c current o l.gap) :
    ∀ j, (search c current pre.length os l).idx = some j →
      ∃ o, (pre ++ os)[j]? = some (some o) ∧ InTheWay c current o (search c current pre.length os l).gap := by
  induction os generalizing pre l with
  | nil => exact hl
  | cons o os ih =>
    have e : pre ++ o :: os = (pre ++ [o]) ++ os := by simp
    have el : (pre ++ [o]).length = pre.length + 1 := by simp
    rw [e] at hl ⊢
    rw [← e]
    cases o with
    | none =>
      have := ih (pre ++ [none]) l hl
      rw [el, ← e] at this
      exact this
    | some o =>
      have := ih (pre ++ [some o]) (closeCheck current pre.length o (laneCheck c (lookahead c current) pre.length o l)) ?_
      · rw [el, ← e] at this
        exact this
      · have hi : ((pre ++ [some o]) ++ os)[pre.length]? = some (some o) := by simp
        have h1 : ∀ j, (laneCheck c (lookahead c current) pre.length o l).idx = some j → ∃ o', ((pre ++ [some o]) ++ os)[j]? = some (some o') ∧
            InTheWay c current o' (laneCheck c (lookahead c current) pre.length o l).gap := by
          rcases laneCheck_cases c current pre.length o l with h | ⟨g, hg, h, -⟩
          · rw [h]
            exact hl
          · rw [h]
            intro j hj
            obtain rfl : pre.length = j := by simpa using hj
            exact ⟨o, hi, hg⟩
        rcases closeCheck_cases c current pre.length o (laneCheck c (lookahead c current) pre.length o l) with h | ⟨g, hg, h⟩
        · rw [h]
          exact h1
        · rw [h]
          intro j hj
          obtain rfl : pre.length = j := by simpa using hj
          exact ⟨o, hi, hg⟩

/-- C99, lead: the entity followed is in the way, at the gap used. -/
theorem lead_in_the_way (c : Config) (current : ℝ) (os : List (Option Other)) (j : Nat)
    (h : (search c current 0 os ⟨large, none⟩).idx = some j) :
    ∃ o, os[j]? = some (some o) ∧ InTheWay c current o (search c current 0 os ⟨large, none⟩).gap := by
  have := search_sound c current os [] ⟨large, none⟩ (by intro j hj; cases hj) j h
  simpa using this

theorem closeCheck_some (current : ℝ) (i : Nat) (o : Other) (l : Lead) (h : (closeCheck current i o l).idx = none) :
    closeCheck current i o l = l ∧ ¬ReallyClose current o := by
  unfold closeCheck at h ⊢
  split_ifs at h ⊢ with hc
  refine ⟨rfl, fun hr => hc ⟨?_, hr⟩⟩
  rw [h]
  simp

theorem laneCheck_some (c : Config) (look : ℝ) (i : Nat) (o : Other) (l : Lead) (h : (laneCheck c look i o l).idx = none) :
    laneCheck c look i o l = l ∧ ∀ d, o.path look = some d → InLane c o d → l.gap ≤ gapTo c o d.ds := by
  unfold laneCheck at h ⊢
  cases hp : o.path look with
  | none => exact ⟨rfl, by intro d hd; cases hd⟩
  | some d =>
    simp only [hp] at h ⊢
    split_ifs at h ⊢ with hc
    refine ⟨rfl, fun d' hd' hi => ?_⟩
    cases hd'
    by_contra hlt
    exact hc ⟨hi, lt_of_not_ge hlt⟩

theorem search_complete (c : Config) (current : ℝ) (os : List (Option Other)) (i : Nat) (l : Lead)
    (h : (search c current i os l).idx = none) :
    l.idx = none ∧ ∀ o, some o ∈ os → ¬ReallyClose current o ∧
      ∀ d, o.path (lookahead c current) = some d → InLane c o d → l.gap ≤ gapTo c o d.ds := by
  induction os generalizing i l with
  | nil => exact ⟨h, by intro o ho; cases ho⟩
  | cons x os ih =>
    cases x with
    | none =>
      have := ih (i + 1) l h
      refine ⟨this.1, fun o ho => this.2 o ?_⟩
      simpa using ho
    | some x =>
      have := ih (i + 1) _ h
      obtain ⟨h1, h2⟩ := closeCheck_some _ _ _ _ this.1
      rw [h1] at this
      obtain ⟨h3, h4⟩ := laneCheck_some _ _ _ _ _ this.1
      rw [h3] at this
      refine ⟨this.1, fun o ho => ?_⟩
      rcases List.mem_cons.mp ho with he | he
      · cases he
        exact ⟨h2, h4⟩
      · exact this.2 o he

/-- C99, no entity in the way is missed: if the controller drives freely, no entity is really close in front or ahead in lane within the
look ahead distance. -/
theorem free_road (c : Config) (current : ℝ) (os : List (Option Other)) (h : (search c current 0 os ⟨large, none⟩).idx = none) (o : Other)
    (ho : some o ∈ os) (gap : ℝ) (hg : gap < 10000000000) : ¬InTheWay c current o gap := by
  have := (search_complete c current os 0 ⟨large, none⟩ h).2 o ho
  rintro (⟨d, hd, hi, rfl⟩ | ⟨hr, -⟩)
  · have := this.2 d hd hi
    unfold large at this
    linarith
  · exact this.1 hr

theorem search_gap (c : Config) (current : ℝ) (os : List (Option Other)) (i : Nat) (l : Lead)
    (hn : ∀ o, some o ∈ os → ¬ReallyClose current o) :
    (search c current i os l).gap ≤ l.gap ∧
      ∀ o, some o ∈ os → ∀ d, o.path (lookahead c current) = some d → InLane c o d → (search c current i os l).gap ≤ gapTo c o d.ds := by
  induction os generalizing i l with
  | nil => exact ⟨le_rfl, by intro o ho; cases ho⟩
  | cons x os ih =>
    have hn' : ∀ o, some o ∈ os → ¬ReallyClose current o := fun o ho => hn o (List.mem_cons_of_mem _ ho)
    cases x with
    | none =>
      refine ⟨(ih (i + 1) l hn').1, fun o ho => (ih (i + 1) l hn').2 o ?_⟩
      simpa using ho
    | some x =>
      have hc : closeCheck current i x (laneCheck c (lookahead c current) i x l) = laneCheck c (lookahead c current) i x l := by
        unfold closeCheck
        rw [if_neg (fun h => hn x (by simp) h.2)]
      have hs : search c current i (some x :: os) l = search c current (i + 1) os (laneCheck c (lookahead c current) i x l) := by
        conv_lhs => unfold search
        rw [hc]
      have hi := ih (i + 1) (laneCheck c (lookahead c current) i x l) hn'
      rw [hs]
      have hle : (laneCheck c (lookahead c current) i x l).gap ≤ l.gap := by
        rcases laneCheck_cases c current i x l with h | ⟨g, -, h, hg⟩
        · rw [h]
        · rw [h]
          exact hg.le
      refine ⟨hi.1.trans hle, fun o ho d hd hl => ?_⟩
      rcases List.mem_cons.mp ho with he | he
      · cases he
        refine hi.1.trans ?_
        unfold laneCheck
        simp only [hd]
        split_ifs with h
        · exact le_rfl
        · by_contra hlt
          exact h ⟨hl, lt_of_not_ge hlt⟩
      · exact hi.2 o he d hd hl

/-- C99, nearest: if no entity is really close, the gap used is the smallest to the entities ahead in lane. -/
theorem lead_nearest_partial (c : Config) (current : ℝ) (os : List (Option Other)) (hn : ∀ o, some o ∈ os → ¬ReallyClose current o) (o : Other)
    (ho : some o ∈ os) (gap : ℝ) (hg : InTheWay c current o gap) : (search c current 0 os ⟨large, none⟩).gap ≤ gap := by
  rcases hg with ⟨d, hd, hi, rfl⟩ | ⟨hr, -⟩
  · exact (search_gap c current os 0 ⟨large, none⟩ hn).2 o ho d hd hi
  · exact absurd hr (hn o ho)

theorem same_heading (h : ℝ) : Geom.absAngleDiff Real.pi h h < Real.pi / 2 := by
  have hp := Real.pi_pos
  have := (Geom.absAngleDiff_spec hp h h).1
  rw [this]
  have e : Geom.angleDiff Real.pi h h = 0 := by
    have h1 := (Geom.angleDiff_spec hp h h).2 0 ⟨0, by simp⟩
    rw [abs_zero] at h1
    exact abs_nonpos_iff.mp h1
  rw [e, abs_zero]
  linarith

/-- A vehicle ahead in the same lane, facing the same way, of length `len`, at a free space `gap`. -/
noncomputable def ahead (c : Config) (len speed gap : ℝ) : Other :=
  ⟨speed, c.heading, len, 0,
    fun look => if gap + c.length / 2 + c.center + len / 2 ≤ look then some ⟨gap + c.length / 2 + c.center + len / 2, 0, 0⟩ else none, gap, 0⟩

theorem ahead_gap (c : Config) (len speed gap : ℝ) : gapTo c (ahead c len speed gap) (gap + c.length / 2 + c.center + len / 2) = gap := by
  unfold gapTo
  have h : Geom.absAngleDiff Real.pi c.heading (ahead c len speed gap).heading < Real.pi / 2 := same_heading _
  rw [if_pos h]
  show _ - ((c.length / 2 + c.center) + (len / 2 - 0)) = _
  ring

theorem ahead_lane (c : Config) (len speed gap look : ℝ) (i : Nat) (l : Lead) (hl : 0 < c.lateralDist) (hg : 0 < gap)
    (h : gap + c.length / 2 + c.center + len / 2 ≤ look) :
    laneCheck c look i (ahead c len speed gap) l = if gap < l.gap then ⟨gap, some i⟩ else l := by
  have hp : (ahead c len speed gap).path look = some ⟨gap + c.length / 2 + c.center + len / 2, 0, 0⟩ := if_pos h
  unfold laneCheck
  simp only [hp]
  rw [ahead_gap]
  by_cases hc : gap < l.gap
  · rw [if_pos hc, if_pos ⟨⟨rfl, by rw [ahead_gap]; exact hg, by simpa using hl⟩, hc⟩]
  · rw [if_neg hc, if_neg (fun h => hc h.2)]

/-- The near end, along the lane, of a box of a length whose centre is `center` ahead of a reference point at `pos`, for an entity that faces along
the lane (`dir = 1`) or against it (`dir = -1`). -/
noncomputable def nearEnd (pos length center dir : ℝ) : ℝ := min (pos + dir * center - length / 2) (pos + dir * center + length / 2)

/-- C99, gap: the gap is the distance from the front of the vehicle to the near end of the other one, for entities that face the same way or
opposite ways. -/
theorem gap_ends (c : Config) (o : Other) (ds : ℝ) (hl : 0 ≤ o.length) :
    (Geom.absAngleDiff Real.pi c.heading o.heading < Real.pi / 2 →
        gapTo c o ds = nearEnd ds o.length o.center 1 - (c.center + c.length / 2)) ∧
      (Real.pi / 2 ≤ Geom.absAngleDiff Real.pi c.heading o.heading →
        gapTo c o ds = nearEnd ds o.length o.center (-1) - (c.center + c.length / 2)) := by
  unfold gapTo nearEnd
  constructor <;> intro h
  · rw [if_pos h, min_eq_left (by linarith)]
    ring
  · rw [if_neg (not_lt.mpr h), min_eq_left (by linarith)]
    ring

/-- C99, look ahead: the vehicle looks ahead at least 50 m and at least twice the minimum distance of 3 m plus the stopping distance, the
distance in which a constant deceleration at the limit takes the speed to zero. -/
theorem looks_ahead (c : Config) (v t : ℝ) (hd : 0 < c.maxDec) (ht : v - c.maxDec * t = 0) :
    50 ≤ lookahead c v ∧ 2 * (3 + (v * t - c.maxDec * t ^ 2 / 2)) ≤ lookahead c v := by
  refine ⟨le_max_left _ _, le_max_of_le_right (le_of_eq ?_)⟩
  have : v = c.maxDec * t := by linarith
  subst this
  field_simp
  ring

/-- A car as a controlled entity. -/
noncomputable def car : Config := ⟨0, 5, 0, 10, 10, 3 / 2, 5, false, true, none⟩

/-- C99, negation: with a vehicle half a metre ahead and another one five metres ahead, listed later, the controller follows the farther
one, and starts to move toward the nearer. -/
theorem lead_nearest_fails :
    InTheWay car 0 (ahead car 5 0 (1 / 2)) (1 / 2) ∧
      (search car 0 0 [none, some (ahead car 5 0 (1 / 2)), some (ahead car 5 0 5)] ⟨large, none⟩) = ⟨5, some 2⟩ ∧
      0 < (step car ⟨0, 20, 0, 0⟩ [none, some (ahead car 5 0 (1 / 2)), some (ahead car 5 0 5)] (1 / 10)).object := by
  have hl : lookahead car 0 = 50 := by norm_num [lookahead, car]
  have hr : ∀ g : ℝ, 0 < g → g < 6 → ReallyClose 0 (ahead car 5 0 g) := by
    intro g h1 h2
    refine ⟨h1, ?_, ?_, ?_⟩ <;> norm_num [ahead]
    exact h2
  have hs : (search car 0 0 [none, some (ahead car 5 0 (1 / 2)), some (ahead car 5 0 5)] ⟨large, none⟩) = ⟨5, some 2⟩ := by
    simp only [search, Nat.zero_add, hl]
    rw [ahead_lane car 5 0 (1 / 2) 50 1 _ (by norm_num [car]) (by norm_num) (by norm_num [car]), if_pos (by norm_num [large])]
    have h1 : closeCheck 0 1 (ahead car 5 0 (1 / 2)) ⟨1 / 2, some 1⟩ = ⟨1 / 2, some 1⟩ := by
      unfold closeCheck
      rw [if_neg (fun h => h.1 rfl)]
    rw [h1, ahead_lane car 5 0 5 50 _ _ (by norm_num [car]) (by norm_num) (by norm_num [car]), if_neg (by norm_num)]
    unfold closeCheck
    rw [if_pos ⟨by simp, hr 5 (by norm_num) (by norm_num)⟩]
    rfl
  refine ⟨Or.inr ⟨hr _ (by norm_num) (by norm_num), rfl⟩, hs, ?_⟩
  have ho : observe car ⟨0, 20, 0, 0⟩ = ⟨0, 20, 0, 0⟩ := by
    unfold observe
    norm_num [car]
  unfold step
  rw [ho, hs]
  show 0 < (report car (follow car ⟨0, 20, 0, 0⟩ (speedOf _ 2) 5 (1 / 10))).object
  have hsp : speedOf [none, some (ahead car 5 0 (1 / 2)), some (ahead car 5 0 5)] 2 = 0 := rfl
  rw [hsp]
  unfold follow
  rw [if_neg (by norm_num)]
  have hd : distFactor car 0 0 5 = 2 / 3 := by
    norm_num [distFactor, followDist]
  have ha : followAcc car ⟨0, 20, 0, 0⟩ 0 5 = 10 := by
    unfold followAcc clamp
    simp only [hd]
    norm_num [car]
  rw [ha]
  norm_num [report, car]

/-! ### Reaction -/

/-- C99, speed range: with a lead the speed is between standstill and the set speed. -/
theorem follow_range (c : Config) (s : State) (lead gap dt : ℝ) (hs : 0 ≤ s.set) :
    0 ≤ (follow c s lead gap dt).current ∧ (follow c s lead gap dt).current ≤ s.set := by
  unfold follow
  split_ifs
  · exact ⟨le_rfl, hs⟩
  · exact ⟨le_min (le_max_left _ _) hs, min_le_right _ _⟩

/-- C99, limits: with a lead at a metre or more, and not above the set speed, the speed changes within the limits of acceleration. -/
theorem follow_limits_partial (c : Config) (s : State) (lead gap dt : ℝ) (hg : 1 ≤ gap) (h0 : 0 ≤ s.current) (hs : s.current ≤ s.set)
    (hdt : 0 ≤ dt) (ha : 0 ≤ c.maxAcc) (hd : 0 ≤ c.maxDec) :
    s.current - c.maxDec * dt ≤ (follow c s lead gap dt).current ∧ (follow c s lead gap dt).current ≤ s.current + c.maxAcc * dt := by
  have hm : -c.maxDec ≤ followAcc c s lead gap ∧ followAcc c s lead gap ≤ c.maxAcc := clamp_mem (by linarith)
  have h1 : 0 ≤ c.maxAcc * dt := mul_nonneg ha hdt
  have h2 : 0 ≤ c.maxDec * dt := mul_nonneg hd hdt
  have h3 := mul_le_mul_of_nonneg_right hm.1 hdt
  have h4 := mul_le_mul_of_nonneg_right hm.2 hdt
  unfold follow
  rw [if_neg (by linarith)]
  show _ ≤ min (max 0 (s.current + followAcc c s lead gap * dt)) s.set ∧ min (max 0 (s.current + followAcc c s lead gap * dt)) s.set ≤ _
  exact ⟨le_min (le_max_of_le_right (by linarith)) (by linarith), min_le_of_left_le (max_le (by linarith) (by linarith))⟩

/-- C99, emergency stop: within a metre the vehicle stops at once. -/
theorem follow_stop (c : Config) (s : State) (lead gap dt : ℝ) (h : gap < 1) : (follow c s lead gap dt).current = 0 := by
  unfold follow
  rw [if_pos h]

/-- C99, negation: that stop does not respect the deceleration limit, nor does a set speed that has been lowered while there is a lead. -/
theorem follow_limits_fails :
    (follow car ⟨30, 30, 30, 0⟩ 30 (1 / 2) (1 / 100)).current < 30 - car.maxDec * (1 / 100) ∧
      (follow car ⟨30, 10, 30, 0⟩ 30 100 (1 / 100)).current < 30 - car.maxDec * (1 / 100) := by
  constructor
  · rw [follow_stop _ _ _ _ _ (by norm_num)]
    norm_num [car]
  · refine (follow_range car ⟨30, 10, 30, 0⟩ 30 100 (1 / 100) (by norm_num)).2.trans_lt ?_
    norm_num [car]

theorem followDist_pos (c : Config) (current lead : ℝ) (ht : 0 ≤ c.timeGap) : 0 < followDist c current lead := by
  unfold followDist
  have := mul_nonneg ht (abs_nonneg (max current lead))
  linarith

/-- C99, direction: farther than the time gap and not faster than a lead that is slower than the set speed, the vehicle does not slow down;
nearer than the time gap and not slower than such a lead it does not speed up. -/
theorem follow_direction (c : Config) (s : State) (lead gap : ℝ) (ht : 0 ≤ c.timeGap) (ha : 0 ≤ c.maxAcc) (hd : 0 ≤ c.maxDec)
    (hl : lead ≤ s.set) (hs : s.current ≤ s.set) :
    (3 + c.timeGap * |max s.current lead| ≤ gap → s.current ≤ lead → 0 ≤ followAcc c s lead gap) ∧
      (gap ≤ 3 + c.timeGap * |max s.current lead| → lead ≤ s.current → followAcc c s lead gap ≤ 0) := by
  have hf := followDist_pos c s.current lead ht
  have hmin : min s.set lead = lead := min_eq_right hl
  unfold followAcc
  rw [hmin]
  constructor
  · intro hg hv
    have hg' : followDist c s.current lead ≤ gap := hg
    have h0 : 0 ≤ distFactor c s.current lead gap := le_min (by norm_num) (div_nonneg (by linarith) hf.le)
    have h1 : distFactor c s.current lead gap ≤ 1 := min_le_left _ _
    unfold clamp
    refine le_min ha (le_max_of_le_right ?_)
    generalize distFactor c s.current lead gap = f at *
    nlinarith
  · intro hg hv
    have hg' : gap ≤ followDist c s.current lead := hg
    have h0 : distFactor c s.current lead gap ≤ 0 := min_le_of_right_le (div_nonpos_of_nonpos_of_nonneg (by linarith) hf.le)
    unfold clamp
    refine min_le_of_right_le (max_le (by linarith) ?_)
    generalize distFactor c s.current lead gap = f at *
    nlinarith

/-! ### Following in a lane -/

theorem observe_id (c : Config) (s : State) (h : s.object = s.current) : observe c s = s := by
  cases s
  simp only at h
  subst h
  unfold observe
  split_ifs with h1 h2
  · rfl
  · simp at h2
    linarith
  · rfl

theorem lookahead_ge (c : Config) (v : ℝ) : 50 ≤ lookahead c v := le_max_left _ _

/-- The search with one vehicle ahead. -/
theorem search_one (c : Config) (current len speed gap : ℝ) (hl : 0 < c.lateralDist) (hg : 0 < gap) (hg2 : gap < large) :
    search c current 0 [none, some (ahead c len speed gap)] ⟨large, none⟩ = ⟨gap, some 1⟩ ∨
      (search c current 0 [none, some (ahead c len speed gap)] ⟨large, none⟩ = ⟨large, none⟩ ∧
        lookahead c current < gap + c.length / 2 + c.center + len / 2) := by
  simp only [search, Nat.zero_add]
  by_cases h : gap + c.length / 2 + c.center + len / 2 ≤ lookahead c current
  · left
    rw [ahead_lane c len speed gap _ 1 _ hl hg h, if_pos hg2]
    unfold closeCheck
    rw [if_neg (fun h => h.1 rfl)]
  · have hp : laneCheck c (lookahead c current) 1 (ahead c len speed gap) ⟨large, none⟩ = ⟨large, none⟩ := by
      have hn : (ahead c len speed gap).path (lookahead c current) = none := if_neg h
      unfold laneCheck
      simp only [hn]
    rw [hp]
    unfold closeCheck
    split_ifs with hc
    · exact Or.inl rfl
    · exact Or.inr ⟨rfl, lt_of_not_ge h⟩

theorem free_error (c : Config) (s : State) (dt : ℝ) : |(free c s dt).current - s.set| ≤ |s.current - s.set| := by
  unfold free
  split_ifs with h
  · simp
  · exact le_of_not_gt h

/-- A vehicle with the controller behind another vehicle in a lane: state and gap after each step. `v n` is the speed of the lead at a step,
`m n` the way it moves during the step. -/
noncomputable def chase (c : Config) (len dt : ℝ) (v m : ℕ → ℝ) (s : State) (gap : ℝ) : ℕ → State × ℝ
  | 0 => (s, gap)
  | n + 1 =>
    (step c (chase c len dt v m s gap n).1 [none, some (ahead c len (v n) (chase c len dt v m s gap n).2)] dt,
      (chase c len dt v m s gap n).2 + m n -
        (step c (chase c len dt v m s gap n).1 [none, some (ahead c len (v n) (chase c len dt v m s gap n).2)] dt).object * dt)

/-- C99, no collision: if the set speed covers less than a metre per step, the vehicle never runs into a lead that does not drive
backwards, whatever the speeds, decelerations and time gaps. -/
theorem never_hits (c : Config) (len dt : ℝ) (v m : ℕ → ℝ) (s : State) (gap : ℝ) (hv : c.virt = false) (hl : 0 < c.lateralDist)
    (hlen : c.length / 2 + c.center + len / 2 ≤ 40) (hdt : 0 ≤ dt) (hset : 0 ≤ s.set) (hset1 : s.set * dt < 1) (hcur : 0 ≤ s.current)
    (hcur2 : s.current ≤ 2 * s.set) (hobj : s.object = s.current) (hg : 0 < gap) (hm : ∀ n, 0 ≤ m n)
    (hbig : ∀ n, (chase c len dt v m s gap n).2 < 10000000000) (n : ℕ) : 0 < (chase c len dt v m s gap n).2 := by
  have key : 0 < (chase c len dt v m s gap n).2 ∧ (chase c len dt v m s gap n).1.set = s.set ∧
      0 ≤ (chase c len dt v m s gap n).1.current ∧ (chase c len dt v m s gap n).1.current ≤ 2 * s.set ∧
      (chase c len dt v m s gap n).1.object = (chase c len dt v m s gap n).1.current := by
    induction n with
    | zero => exact ⟨hg, rfl, hcur, hcur2, hobj⟩
    | succ n ih =>
      obtain ⟨i1, i2, i3, i4, i5⟩ := ih
      have hb := hbig n
      have hmn := hm n
      simp only [chase]
      generalize (chase c len dt v m s gap n).1 = q at *
      generalize (chase c len dt v m s gap n).2 = g at *
      unfold step
      rw [observe_id c q i5]
      unfold report
      rw [hv]
      simp only [Bool.false_eq_true, if_false]
      rcases search_one c q.current len (v n) g hl i1 hb with h | ⟨h, hfar⟩
      · rw [h]
        show 0 < g + m n - (follow c q _ g dt).current * dt ∧ (follow c q _ g dt).set = _ ∧ 0 ≤ (follow c q _ g dt).current ∧
          (follow c q _ g dt).current ≤ _ ∧ True
        have hr := follow_range c q (speedOf [none, some (ahead c len (v n) g)] 1) g dt (by rw [i2]; exact hset)
        have hst : (follow c q (speedOf [none, some (ahead c len (v n) g)] 1) g dt).set = q.set := by
          unfold follow
          split_ifs <;> rfl
        refine ⟨?_, hst.trans i2, hr.1, by rw [i2] at hr; linarith [hr.2], trivial⟩
        by_cases hg1 : g < 1
        · rw [follow_stop c q _ g dt hg1]
          linarith
        · have : (follow c q (speedOf [none, some (ahead c len (v n) g)] 1) g dt).current * dt ≤ s.set * dt :=
            mul_le_mul_of_nonneg_right (by rw [← i2]; exact hr.2) hdt
          linarith
      · rw [h]
        show 0 < g + m n - (free c q dt).current * dt ∧ (free c q dt).set = _ ∧ 0 ≤ (free c q dt).current ∧
          (free c q dt).current ≤ _ ∧ True
        have he := free_error c q dt
        rw [i2] at he
        have hst : (free c q dt).set = q.set := by
          unfold free
          split_ifs <;> rfl
        have hab : |q.current - s.set| ≤ s.set := abs_le.mpr ⟨by linarith, by linarith⟩
        have := abs_le.mp (he.trans hab)
        have h50 := lookahead_ge c q.current
        refine ⟨?_, hst.trans i2, by linarith, by linarith, trivial⟩
        have h2 : (free c q dt).current * dt ≤ 2 * s.set * dt := mul_le_mul_of_nonneg_right (by linarith) hdt
        linarith
  exact key.1

/-- C99, time gap: behind a lead with a constant speed not above the set speed, at three metres plus the time gap, the vehicle keeps speed and
gap for ever. -/
theorem keeps_gap (c : Config) (len dt w : ℝ) (s : State) (hv : c.virt = false) (hl : 0 < c.lateralDist) (ht : 0 ≤ c.timeGap)
    (ha : 0 ≤ c.maxAcc) (hd : 0 ≤ c.maxDec) (hw : 0 ≤ w) (hset : w ≤ s.set) (hcur : s.current = w) (hobj : s.object = w)
    (hfar : 3 + c.timeGap * w + c.length / 2 + c.center + len / 2 ≤ lookahead c w) (hbig : 3 + c.timeGap * w < 10000000000) (n : ℕ) :
    (chase c len dt (fun _ => w) (fun _ => w * dt) s (3 + c.timeGap * w) n).2 = 3 + c.timeGap * w ∧
      (chase c len dt (fun _ => w) (fun _ => w * dt) s (3 + c.timeGap * w) n).1.object = w := by
  set G := 3 + c.timeGap * w with hG
  have hG3 : 3 ≤ G := by
    have := mul_nonneg ht hw
    linarith
  have key : (chase c len dt (fun _ => w) (fun _ => w * dt) s G n).2 = G ∧
      (chase c len dt (fun _ => w) (fun _ => w * dt) s G n).1.object = w ∧
      (chase c len dt (fun _ => w) (fun _ => w * dt) s G n).1.current = w ∧
      (chase c len dt (fun _ => w) (fun _ => w * dt) s G n).1.set = s.set := by
    induction n with
    | zero => exact ⟨rfl, hobj, hcur, rfl⟩
    | succ n ih =>
      obtain ⟨i1, i2, i3, i4⟩ := ih
      simp only [chase]
      rw [i1]
      generalize (chase c len dt (fun _ => w) (fun _ => w * dt) s G n).1 = q at *
      unfold step
      rw [observe_id c q (i2.trans i3.symm)]
      have hs : search c q.current 0 [none, some (ahead c len w G)] ⟨large, none⟩ = ⟨G, some 1⟩ := by
        rcases search_one c q.current len w G hl (by linarith) hbig with h | ⟨-, h⟩
        · exact h
        · rw [i3] at h
          linarith
      rw [hs]
      unfold report
      rw [hv]
      simp only [Bool.false_eq_true, if_false]
      have hf : follow c q w G dt = { q with acc := 0, current := w } := by
        have hfd : followDist c q.current w = G := by
          unfold followDist
          rw [i3, max_self, abs_of_nonneg hw]
        have hdf : distFactor c q.current w G = 0 := by
          unfold distFactor
          rw [hfd, sub_self, zero_div]
          norm_num
        have hfa : followAcc c q w G = 0 := by
          unfold followAcc
          rw [hdf, min_eq_right (by rw [i4]; exact hset), i3]
          have : 5 / 2 * (0 : ℝ) - 0 * (w - q.set) - (1 - 0) * (w - w) = 0 := by ring
          rw [this]
          exact clamp_id (by linarith) ha
        unfold follow
        rw [if_neg (by linarith), hfa, i3, zero_mul, add_zero, max_eq_right hw, min_eq_left (by rw [i4]; exact hset)]
      show G + w * dt - (follow c q w G dt).current * dt = G ∧ (follow c q w G dt).current = w ∧ (follow c q w G dt).current = w ∧
        (follow c q w G dt).set = s.set
      rw [hf]
      exact ⟨by ring, rfl, rfl, i4⟩
  exact ⟨key.1, key.2.1⟩

/-! ### Free driving -/

/-- One step of free driving: the distance to the set speed shrinks, the side is kept, the limits of acceleration are respected. -/
theorem free_step (c : Config) (s : State) (dt : ℝ) (hdt : 0 < dt) (ha : 0 < c.maxAcc) (hd : 0 < c.maxDec) (hk : 7 / 10 * c.maxAcc * dt ≤ 1)
    (M : ℝ) (hM : 1 ≤ M) (hs : |s.set - s.current| ≤ M) :
    |s.set - (free c s dt).current| ≤ |s.set - s.current| * (1 - min (7 / 10 * c.maxAcc * dt) (c.maxDec * dt) / M) ∧
      0 ≤ (s.set - (free c s dt).current) * (s.set - s.current) ∧
      s.current - c.maxDec * dt ≤ (free c s dt).current ∧ (free c s dt).current ≤ s.current + 7 / 10 * c.maxAcc * dt := by
  have hke : 0 < 7 / 10 * c.maxAcc * dt := by positivity
  have hde : 0 < c.maxDec * dt := by positivity
  have hM0 : 0 < M := by linarith
  have hmin1 : min (7 / 10 * c.maxAcc * dt) (c.maxDec * dt) / M ≤ 7 / 10 * c.maxAcc * dt / M :=
    div_le_div_of_nonneg_right (min_le_left _ _) hM0.le
  have hmin2 : min (7 / 10 * c.maxAcc * dt) (c.maxDec * dt) / M ≤ c.maxDec * dt / M :=
    div_le_div_of_nonneg_right (min_le_right _ _) hM0.le
  have hkM : 7 / 10 * c.maxAcc * dt / M ≤ 7 / 10 * c.maxAcc * dt := div_le_self hke.le hM
  have hcap : ∀ x, 0 ≤ x → |s.set - s.current| * (x / M) ≤ x := by
    intro x hx
    have := mul_le_mul_of_nonneg_right hs (div_nonneg hx hM0.le)
    rwa [mul_div_cancel₀ _ hM0.ne'] at this
  have hx1 := hcap _ hke.le
  have hx2 := hcap _ hde.le
  have hn := abs_nonneg (s.set - s.current)
  have hr1 := mul_le_mul_of_nonneg_left hmin1 hn
  have hr2 := mul_le_mul_of_nonneg_left hmin2 hn
  have hr3 := mul_le_mul_of_nonneg_left hkM hn
  generalize min (7 / 10 * c.maxAcc * dt) (c.maxDec * dt) / M = r at *
  generalize 7 / 10 * c.maxAcc * dt / M = r1 at *
  generalize c.maxDec * dt / M = r2 at *
  -- the acceleration
  have hacc : (s.set - s.current) * (7 / 10) * c.maxAcc * dt = (7 / 10 * c.maxAcc * dt) * (s.set - s.current) := by ring
  have fin : ∀ a, freeAcc c s = a → 0 ≤ a * dt * (s.set - s.current) → |a * dt| ≤ |s.set - s.current| →
      |s.set - s.current| * r ≤ |a * dt| → -c.maxDec * dt ≤ a * dt → a * dt ≤ 7 / 10 * c.maxAcc * dt →
      |s.set - (free c s dt).current| ≤ |s.set - s.current| * (1 - r) ∧
        0 ≤ (s.set - (free c s dt).current) * (s.set - s.current) ∧
        s.current - c.maxDec * dt ≤ (free c s dt).current ∧ (free c s dt).current ≤ s.current + 7 / 10 * c.maxAcc * dt := by
    intro a e h1 h2 h3 h4 h5
    have hno : ¬|s.current + a * dt - s.set| > |s.current - s.set| := by
      rw [abs_sub_comm s.current s.set]
      generalize a * dt = y at *
      rcases le_total 0 (s.set - s.current) with hp | hp
      · rw [abs_of_nonneg hp] at *
        rcases le_total 0 y with hy | hy
        · rw [abs_of_nonneg hy] at *
          rw [abs_of_nonpos (by linarith)]
          linarith
        · rw [abs_of_nonpos hy] at *
          have : y * (s.set - s.current) = 0 := le_antisymm (mul_nonpos_of_nonpos_of_nonneg hy hp) h1
          rcases mul_eq_zero.mp this with h | h
          · rw [h, abs_of_nonpos (by linarith)]
            linarith
          · have : y = 0 := by linarith
            rw [this, abs_of_nonpos (by linarith)]
            linarith
      · rw [abs_of_nonpos hp] at *
        rcases le_total 0 y with hy | hy
        · rw [abs_of_nonneg hy] at *
          have : y * (s.set - s.current) = 0 := le_antisymm (mul_nonpos_of_nonneg_of_nonpos hy hp) h1
          rcases mul_eq_zero.mp this with h | h
          · rw [h, abs_of_nonneg (by linarith)]
            linarith
          · have : y = 0 := by linarith
            rw [this, abs_of_nonneg (by linarith)]
            linarith
        · rw [abs_of_nonpos hy] at *
          rw [abs_of_nonneg (by linarith)]
          linarith
    have hf : (free c s dt).current = s.current + a * dt := by
      unfold free
      rw [e, if_neg hno]
    rw [hf]
    have e2 : s.set - (s.current + a * dt) = (s.set - s.current) - a * dt := by ring
    rw [e2]
    generalize a * dt = y at *
    generalize s.set - s.current = z at *
    refine ⟨?_, ?_, by linarith, by linarith⟩
    · rcases le_total 0 z with hp | hp <;> rcases le_total 0 y with hy | hy
      · rw [abs_of_nonneg hp, abs_of_nonneg hy] at *
        rw [abs_of_nonneg (by linarith)]
        linarith
      · rw [abs_of_nonneg hp, abs_of_nonpos hy] at *
        have : y * z = 0 := le_antisymm (mul_nonpos_of_nonpos_of_nonneg hy hp) h1
        rcases mul_eq_zero.mp this with h | h
        · subst h
          rw [abs_of_nonneg (by linarith)]
          linarith
        · subst h
          have : y = 0 := by linarith
          subst this
          simp
      · rw [abs_of_nonpos hp, abs_of_nonneg hy] at *
        have : y * z = 0 := le_antisymm (mul_nonpos_of_nonneg_of_nonpos hy hp) h1
        rcases mul_eq_zero.mp this with h | h
        · subst h
          rw [abs_of_nonpos (by linarith)]
          linarith
        · subst h
          have : y = 0 := by linarith
          subst this
          simp
      · rw [abs_of_nonpos hp, abs_of_nonpos hy] at *
        rw [abs_of_nonpos (by linarith)]
        linarith
    · rcases le_total 0 z with hp | hp
      · rw [abs_of_nonneg hp] at h2
        have := le_abs_self y
        exact mul_nonneg (by linarith) hp
      · rw [abs_of_nonpos hp] at h2
        have := neg_abs_le y
        exact mul_nonneg_of_nonpos_of_nonpos (by linarith) hp
  rcases le_or_gt ((s.set - s.current) * (7 / 10) * c.maxAcc) (-c.maxDec) with h1 | h1
  · have hz : s.set - s.current ≤ 0 := by
      by_contra hc
      have : 0 ≤ (s.set - s.current) * (7 / 10) * c.maxAcc := by
        have : 0 < s.set - s.current := lt_of_not_ge hc
        positivity
      linarith
    have h1t := mul_le_mul_of_nonneg_right h1 hdt.le
    rw [hacc] at h1t
    have hbound : -(c.maxDec * dt) ≥ s.set - s.current := by nlinarith
    refine fin (-c.maxDec) ?_ (mul_nonneg_of_nonpos_of_nonpos (by linarith) hz) ?_ ?_ le_rfl (by linarith)
    · unfold freeAcc clamp
      rw [max_eq_left h1, min_eq_right (by linarith)]
    · rw [abs_of_nonpos hz, abs_of_nonpos (by linarith)]
      linarith
    · rw [abs_of_nonpos (by linarith : -c.maxDec * dt ≤ 0)]
      linarith
  · rcases le_or_gt (7 / 10 * c.maxAcc) ((s.set - s.current) * (7 / 10) * c.maxAcc) with h2 | h2
    · have hz : 1 ≤ s.set - s.current := by
        by_contra hc
        have : (s.set - s.current) * (7 / 10 * c.maxAcc) < 1 * (7 / 10 * c.maxAcc) :=
          mul_lt_mul_of_pos_right (lt_of_not_ge hc) (by positivity)
        linarith
      refine fin (7 / 10 * c.maxAcc) ?_ (mul_nonneg hke.le (by linarith)) ?_ ?_ (by linarith) le_rfl
      · unfold freeAcc clamp
        rw [max_eq_right h1.le, min_eq_left h2]
      · rw [abs_of_pos hke, abs_of_nonneg (by linarith)]
        linarith
      · rw [abs_of_pos hke]
        linarith
    · have h1t := mul_lt_mul_of_pos_right h1 hdt
      have h2t := mul_lt_mul_of_pos_right h2 hdt
      refine fin ((s.set - s.current) * (7 / 10) * c.maxAcc) ?_ ?_ ?_ ?_ h1t.le (by linarith)
      · unfold freeAcc clamp
        rw [max_eq_right h1.le, min_eq_right h2.le]
      · rw [hacc, mul_assoc]
        exact mul_nonneg hke.le (mul_self_nonneg _)
      · rw [hacc, abs_mul, abs_of_pos hke]
        nlinarith
      · rw [hacc, abs_mul, abs_of_pos hke]
        linarith

/-- Free driving for a number of steps. -/
noncomputable def cruise (c : Config) (dt : ℝ) (s : State) : ℕ → State
  | 0 => s
  | n + 1 => step c (cruise c dt s n) [none] dt

theorem step_free (c : Config) (s : State) (dt : ℝ) (hv : c.virt = false) (h : s.object = s.current) :
    step c s [none] dt = { free c s dt with object := (free c s dt).current } := by
  unfold step
  rw [observe_id c s h]
  show report c (free c s dt) = _
  unfold report
  rw [hv]
  rfl

/-- C99, free driving: without a lead, and with time steps not too long, the speed approaches the set speed without passing it, within the
limits of acceleration, and tends to it. -/
theorem cruise_partial (c : Config) (dt : ℝ) (s : State) (hv : c.virt = false) (hobj : s.object = s.current) (hdt : 0 < dt) (ha : 0 < c.maxAcc)
    (hd : 0 < c.maxDec) (hk : 7 / 10 * c.maxAcc * dt ≤ 1) :
    (∀ n, 0 ≤ (s.set - (cruise c dt s (n + 1)).object) * (s.set - (cruise c dt s n).object) ∧
        |s.set - (cruise c dt s (n + 1)).object| ≤ |s.set - (cruise c dt s n).object| ∧
        (cruise c dt s n).object - c.maxDec * dt ≤ (cruise c dt s (n + 1)).object ∧
        (cruise c dt s (n + 1)).object ≤ (cruise c dt s n).object + c.maxAcc * dt) ∧
      Filter.Tendsto (fun n => (cruise c dt s n).object) Filter.atTop (nhds s.set) := by
  have hinv : ∀ n, (cruise c dt s n).object = (cruise c dt s n).current ∧ (cruise c dt s n).set = s.set := by
    intro n
    induction n with
    | zero => exact ⟨hobj, rfl⟩
    | succ n ih =>
      simp only [cruise]
      rw [step_free c _ dt hv ih.1]
      refine ⟨rfl, ?_⟩
      show (free c (cruise c dt s n) dt).set = _
      rw [← ih.2]
      unfold free
      split_ifs <;> rfl
  have hsucc : ∀ n, (cruise c dt s (n + 1)).object = (free c (cruise c dt s n) dt).current := by
    intro n
    simp only [cruise]
    rw [step_free c _ dt hv (hinv n).1]
  have hmono : ∀ n, |s.set - (cruise c dt s (n + 1)).object| ≤ |s.set - (cruise c dt s n).object| := by
    intro n
    have := free_error c (cruise c dt s n) dt
    rw [(hinv n).2, ← hsucc, ← (hinv n).1, abs_sub_comm, abs_sub_comm _ s.set] at this
    exact this
  set M := max |s.set - s.object| 1 with hMd
  have hM : 1 ≤ M := le_max_right _ _
  have hle : ∀ n, |s.set - (cruise c dt s n).object| ≤ M := by
    intro n
    induction n with
    | zero => exact le_max_left _ _
    | succ n ih => exact (hmono n).trans ih
  have hst : ∀ n, _ := fun n => by
    have := free_step c (cruise c dt s n) dt hdt ha hd hk M hM (by rw [(hinv n).2, ← (hinv n).1]; exact hle n)
    rw [(hinv n).2, ← hsucc, ← (hinv n).1] at this
    exact this
  refine ⟨fun n => ⟨(hst n).2.1, hmono n, (hst n).2.2.1, ?_⟩, ?_⟩
  · have := (hst n).2.2.2
    have h0 : 0 ≤ c.maxAcc * dt := by positivity
    linarith
  · have hr0 : 0 < min (7 / 10 * c.maxAcc * dt) (c.maxDec * dt) / M :=
      div_pos (lt_min (by positivity) (by positivity)) (by linarith)
    have hr1 : min (7 / 10 * c.maxAcc * dt) (c.maxDec * dt) / M ≤ 1 := by
      rw [div_le_one (by linarith)]
      exact (min_le_left _ _).trans (hk.trans hM)
    generalize min (7 / 10 * c.maxAcc * dt) (c.maxDec * dt) / M = r at *
    have hgeo : ∀ n, |s.set - (cruise c dt s n).object| ≤ |s.set - s.object| * (1 - r) ^ n := by
      intro n
      induction n with
      | zero => simp [cruise]
      | succ n ih =>
        refine (hst n).1.trans ?_
        rw [pow_succ, ← mul_assoc]
        exact mul_le_mul_of_nonneg_right ih (by linarith)
    have hz : Filter.Tendsto (fun n => |s.set - s.object| * (1 - r) ^ n) Filter.atTop (nhds 0) := by
      have := (tendsto_pow_atTop_nhds_zero_of_lt_one (r := 1 - r) (by linarith) (by linarith)).const_mul |s.set - s.object|
      simpa using this
    rw [tendsto_iff_dist_tendsto_zero]
    refine squeeze_zero (fun _ => dist_nonneg) (fun n => ?_) hz
    rw [Real.dist_eq, abs_sub_comm]
    exact hgeo n

/-- C99, negation: with an acceleration limit of ten and steps of 0.2 s the speed passes the set speed, although there is a check against
passing it. -/
theorem cruise_pass_fails : (step car ⟨19, 20, 19, 0⟩ [none] (1 / 5)).object = 20 + 2 / 5 := by
  rw [step_free car _ _ rfl rfl]
  have ha : freeAcc car ⟨19, 20, 19, 0⟩ = 7 := by
    unfold freeAcc clamp
    norm_num [car]
  show (free car ⟨19, 20, 19, 0⟩ (1 / 5)).current = _
  unfold free
  rw [ha, if_neg]
  · norm_num
  · norm_num [abs_of_nonneg, abs_of_nonpos]

/-- C99, limits: on a free road also a request of any other speed is reached from the speed driven so far, within the limits of acceleration and deceleration. -/
theorem request_limits_partial (c : Config) (s : State) (dt : ℝ) (hv : c.virt = false) (hdt : 0 < dt) (ha : 0 < c.maxAcc) (hd : 0 < c.maxDec)
    (hk : 7 / 10 * c.maxAcc * dt ≤ 1) :
    s.current - c.maxDec * dt ≤ (step c s [none] dt).object ∧ (step c s [none] dt).object ≤ s.current + c.maxAcc * dt := by
  have hcur : (observe c s).current = s.current := by
    unfold observe
    rw [hv]
    simp only [Bool.false_eq_true, if_false]
    split_ifs <;> rfl
  have hs : (step c s [none] dt).object = (free c (observe c s) dt).current := by
    simp [step, search, react, report, hv]
  have h := free_step c (observe c s) dt hdt ha hd hk (max 1 |(observe c s).set - (observe c s).current|) (le_max_left _ _) (le_max_right _ _)
  rw [hs, ← hcur]
  exact ⟨h.2.2.1, h.2.2.2.trans (by nlinarith [mul_pos ha hdt])⟩

/-- C99, long time steps: on a free road every step brings the speed nearer to the set speed, whatever its length, unless it ends as far beyond it as it began before it. -/
theorem free_approaches (c : Config) (s : State) (dt : ℝ) (hdt : 0 < dt) (ha : 0 < c.maxAcc) (hd : 0 < c.maxDec) (hne : s.current ≠ s.set) :
    |(free c s dt).current - s.set| < |s.current - s.set| ∨ (free c s dt).current - s.set = s.set - s.current := by
  have hpos : 0 < |s.current - s.set| := abs_pos.2 (sub_ne_zero.2 hne)
  by_cases h : |s.current + freeAcc c s * dt - s.set| > |s.current - s.set|
  · left
    have : (free c s dt).current = s.set := by
      unfold free
      rw [if_pos h]
    rw [this, sub_self, abs_zero]
    exact hpos
  · have hf : (free c s dt).current = s.current + freeAcc c s * dt := by
      unfold free
      rw [if_neg h]
    rw [hf]
    rcases lt_or_eq_of_le (not_lt.1 h) with h1 | h1
    · exact Or.inl h1
    · right
      rcases abs_eq_abs.1 h1 with h2 | h2
      · exfalso
        have h3 : freeAcc c s * dt = 0 := by linarith
        have h4 : freeAcc c s = 0 := (mul_eq_zero.1 h3).resolve_right hdt.ne'
        have h5 : (s.set - s.current) * (7 / 10) * c.maxAcc ≠ 0 := by
          refine mul_ne_zero (mul_ne_zero (sub_ne_zero.2 (Ne.symm hne)) (by norm_num)) ha.ne'
        have h6 : 0 < 7 / 10 * c.maxAcc := by positivity
        unfold freeAcc clamp at h4
        grind
      · linarith

example : (free car ⟨19, 20, 19, 0⟩ 1).current = 20 := by
  have ha : freeAcc car ⟨19, 20, 19, 0⟩ = 7 := by
    unfold freeAcc clamp
    norm_num [car]
  unfold free
  rw [ha, if_pos]
  norm_num [abs_of_nonneg, abs_of_nonpos]

/-! ### The set speed -/

/-- C99, set speed: a speed that differs by more than a millimetre per second from the one the controller has set becomes the set speed; it
is not changed otherwise. -/
theorem new_set_speed (c : Config) (s : State) (os : List (Option Other)) (dt : ℝ) (hv : c.virt = false) :
    (step c s os dt).set = if |s.object - s.current| > 1 / 1000 then s.object else s.set := by
  have hr : ∀ q, (report c q).set = q.set := by
    intro q
    unfold report
    split_ifs <;> rfl
  have hx : ∀ q l, (react c q os dt l).set = q.set := by
    intro q l
    unfold react
    split
    · unfold follow
      split_ifs <;> rfl
    · unfold free
      split_ifs <;> rfl
  unfold step
  rw [hr, hx]
  unfold observe
  rw [hv]
  simp only [Bool.false_eq_true, if_false]
  split_ifs <;> rfl

/-- C99, activation: in additive mode, or without a given set speed, the speed at activation is the set speed; otherwise the given one. -/
theorem activate_set (c : Config) (object acc : ℝ) :
    (activate c ⟨0, initialSet c, object, acc⟩).current = object ∧
      (activate c ⟨0, initialSet c, object, acc⟩).set =
        match c.additive, c.given with
        | false, some v => v
        | _, _ => object := by
  refine ⟨rfl, ?_⟩
  unfold activate initialSet
  rcases hg : c.given with _ | v <;> rcases ha : c.additive with _ | _ <;> simp

/-- C99, negation: an action that requests the speed at which the vehicle happens to be driving behind a lead is not noticed: the set speed stays
higher, and the vehicle accelerates beyond the requested speed once the lead is gone. -/
theorem same_speed_fails : 10 < (step car { (⟨10, 20, 10, 0⟩ : State) with object := 10 } [none] (1 / 10)).object := by
  rw [step_free car _ _ rfl rfl]
  have ha : freeAcc car ⟨10, 20, 10, 0⟩ = 7 := by
    unfold freeAcc clamp
    norm_num [car]
  show 10 < (free car ⟨10, 20, 10, 0⟩ (1 / 10)).current
  unfold free
  rw [ha, if_neg]
  · norm_num
  · norm_num [abs_of_nonneg, abs_of_nonpos]

/-- C99, virtual mode: the speed of the entity is left alone. -/
theorem virtual_keeps (c : Config) (s : State) (os : List (Option Other)) (dt : ℝ) (hv : c.virt = true) :
    (step c s os dt).object = s.object := by
  unfold step report
  rw [if_pos hv]
  have hx : ∀ q l, (react c q os dt l).object = q.object := by
    intro q l
    unfold react
    split
    · unfold follow
      split_ifs <;> rfl
    · unfold free
      split_ifs <;> rfl
  rw [hx]
  unfold observe
  rw [if_pos hv]

/-- C99, negation: in virtual mode the acceleration reported with a lead nearer than a metre, where the controller would stop, is zero, whatever
the speeds. -/
theorem virtual_close_fails (c : Config) (s : State) (lead gap dt : ℝ) (h : gap < 1) : (follow c s lead gap dt).acc = 0 := by
  unfold follow
  rw [if_pos h]

/-- Instances: two cars in a lane, 30 m/s, steps of 10 ms. -/
example (v : ℕ → ℝ) (m : ℕ → ℝ) (hm : ∀ n, 0 ≤ m n) (hb : ∀ n, (chase car 5 (1 / 100) v m ⟨30, 30, 30, 0⟩ 20 n).2 < 10000000000) (n : ℕ) :
    0 < (chase car 5 (1 / 100) v m ⟨30, 30, 30, 0⟩ 20 n).2 :=
  never_hits car 5 (1 / 100) v m _ 20 rfl (by norm_num [car]) (by norm_num [car]) (by norm_num) (by norm_num) (by norm_num) (by norm_num)
    (by norm_num) rfl (by norm_num) hm hb n

example (n : ℕ) : (chase car 5 (1 / 100) (fun _ => 20) (fun _ => 20 * (1 / 100)) ⟨20, 30, 20, 0⟩ (3 + car.timeGap * 20) n).1.object = 20 :=
  (keeps_gap car 5 (1 / 100) 20 ⟨20, 30, 20, 0⟩ rfl (by norm_num [car]) (by norm_num [car]) (by norm_num [car]) (by norm_num [car])
    (by norm_num) (by norm_num) rfl rfl (le_trans (by norm_num [car]) (lookahead_ge _ _)) (by norm_num [car]) n).2

example : Filter.Tendsto (fun n => (cruise car (1 / 10) ⟨0, 30, 0, 0⟩ n).object) Filter.atTop (nhds 30) :=
  (cruise_partial car (1 / 10) ⟨0, 30, 0, 0⟩ rfl rfl (by norm_num) (by norm_num [car]) (by norm_num [car]) (by norm_num [car])).2

example : (search car 0 0 [none, some (ahead car 5 0 (1 / 2)), some (ahead car 5 0 5)] ⟨large, none⟩).idx = some 2 := by
  rw [lead_nearest_fails.2.1]

end Verif.Acc

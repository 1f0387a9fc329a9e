import Verif.FollowRoute.Model
import Verif.Road.LaneModel
/-
Theorems about the controller that follows a route.
-/
namespace Verif.FollowRoute

/-! ### Lane changes -/

theorem mem_lanesTo (l o : Int) (h : o ≠ l) : o ∈ lanesTo l o := by
  unfold lanesTo
  rw [List.mem_map]
  refine ⟨(l - o).natAbs - 1, by simp; omega, ?_⟩
  split <;> omega

/-- When a change is allowed. -/
theorem canChange_iff (e : Ego) (width : Int → Option Rat) (minDist : Rat) (os : List Other) (lane : Int) :
    canChange e width minDist os lane = true ↔
      e.changing = false ∧ ∃ w, width lane = some w ∧
        (0 < minDist → 1 / 2 ≤ w ∧ ∀ o ∈ os, o.me = false → o.road = e.road → o.lane ≠ e.lane → (o.lane < 0 ↔ e.lane < 0) → minDist ≤ o.dist) := by
  have key : ∀ o : Other, blocks e minDist o = false ↔
      (o.me = false → o.road = e.road → o.lane ≠ e.lane → (o.lane < 0 ↔ e.lane < 0) → minDist ≤ o.dist) := by
    intro o
    have hs : (sign e.lane == sign o.lane) = true ↔ (o.lane < 0 ↔ e.lane < 0) := by
      unfold sign
      split <;> split <;> simp_all <;> omega
    unfold blocks
    by_cases h1 : o.me = true
    · simp [h1]
    · by_cases h2 : o.road = e.road
      · by_cases h3 : o.lane = e.lane
        · simp [h1, h2, h3]
        · have hm := mem_lanesTo e.lane o.lane h3
          by_cases h4 : (o.lane < 0 ↔ e.lane < 0)
          · have := hs.2 h4
            simp only [h1, h2, h3, this, List.contains_iff_mem.2 hm]
            simp [h4, Rat.not_lt]
          · have : (sign e.lane == sign o.lane) = false := by
              rw [← Bool.not_eq_true]
              exact fun h => h4 (hs.1 h)
            simp [h1, h2, h3, this, h4]
      · simp [h1, h2]
  unfold canChange
  cases hc : e.changing with
  | true => simp
  | false =>
    simp only [Bool.false_eq_true, if_false, true_and]
    cases hw : width lane with
    | none => simp
    | some w =>
      simp only [Option.some.injEq, exists_eq_left']
      by_cases hm : minDist ≤ 0
      · rw [if_pos hm]
        simp only [true_iff]
        intro h
        exact absurd h (Rat.not_lt.2 hm)
      · rw [if_neg hm]
        have hm' : 0 < minDist := Rat.not_le.1 hm
        by_cases hw2 : w < 1 / 2
        · rw [if_pos hw2]
          simp only [Bool.false_eq_true, false_iff]
          intro h
          exact absurd hw2 (Rat.not_lt.2 (h hm').1)
        · rw [if_neg hw2, Bool.not_eq_true', List.any_eq_false]
          constructor
          · intro h _
            refine ⟨Rat.not_lt.1 hw2, fun o ho => (key o).1 ?_⟩
            simpa using h o ho
          · intro h o ho
            have := (key o).2 ((h hm').2 o ho)
            simp [this]

/-- **Lane changes are safe on the road**: a change is only allowed into a lane that exists, not during another one, and with the collision check on, no other entity on
this road, on this side of it, in any of the lanes crossed or entered, is nearer than the minimum distance. -/
theorem change_safe {e : Ego} {width : Int → Option Rat} {minDist : Rat} {os : List Other} {lane : Int} (h : canChange e width minDist os lane = true) (hd : 0 < minDist)
    {o : Other} (ho : o ∈ os) (hm : o.me = false) (hr : o.road = e.road)
    (hl : (e.lane < o.lane ∧ o.lane ≤ lane) ∨ (lane ≤ o.lane ∧ o.lane < e.lane)) (hs : o.lane < 0 ↔ e.lane < 0) : minDist ≤ o.dist := by
  obtain ⟨-, w, -, h2⟩ := (canChange_iff e width minDist os lane).1 h
  exact (h2 hd).2 o ho hm hr (by omega) hs

/-- **Nothing near, nothing in the way**: the change is allowed if the lane is wide enough and all other entities are far. -/
theorem change_allowed {e : Ego} {width : Int → Option Rat} {minDist w : Rat} {os : List Other} {lane : Int} (hc : e.changing = false) (hw : width lane = some w)
    (hw2 : 1 / 2 ≤ w) (h : ∀ o ∈ os, o.me = false → minDist ≤ o.dist) : canChange e width minDist os lane = true :=
  (canChange_iff e width minDist os lane).2 ⟨hc, w, hw, fun _ => ⟨hw2, fun o ho hm _ _ _ => h o ho hm⟩⟩

/-- A vehicle in lane -1 keeps another one from changing from lane -2 to lane -3; a vehicle 1 m away in the lane to change to, but already on the next road, does not;
nor does a vehicle 1 m away in the lane of oncoming traffic that is to be entered. -/
theorem change_fails :
    canChange ⟨1, -2, false⟩ (fun _ => some 3) 10 [⟨false, 1, -1, 5⟩] (-3) = false ∧
    canChange ⟨1, -2, false⟩ (fun _ => some 3) 10 [⟨false, 2, -3, 1⟩] (-3) = true ∧
    canChange ⟨1, -1, false⟩ (fun _ => some 3) 10 [⟨false, 1, 1, 1⟩] 1 = true := by decide +kernel

example : canChange ⟨1, -2, false⟩ (fun _ => some 3) 10 [⟨true, 1, -2, 0⟩, ⟨false, 1, -3, 20⟩, ⟨false, 1, 1, 5⟩] (-3) = true := by decide +kernel

/-! ### Waypoints -/

/-- **A waypoint on the road of the vehicle** is reached when the vehicle is at it or beyond it in its driving direction; passed in its lane, missed in another one. -/
theorem status_same {v w : Place} {forward : Bool} {previous : List Nat} {laneBefore : Nat → Int} (hr : w.road = v.road) :
    (status v forward previous laneBefore w = .notReached ↔ if forward then v.s ≤ w.s - 1 / 1000000 else w.s + 1 / 1000000 ≤ v.s) ∧
    (status v forward previous laneBefore w = .passed → w.lane = v.lane) ∧ (status v forward previous laneBefore w = .missed → w.lane ≠ v.lane) := by
  unfold status
  simp only [hr, true_and, if_true]
  cases forward <;> simp only [Bool.false_eq_true, if_true, if_false, false_and, true_and, or_false, false_or, reduceCtorEq] <;>
    (split <;> grind)

/-- **A waypoint behind**: on the road the vehicle comes from, passed if it comes from its lane, else missed; on any other road not reached. -/
theorem status_other {v w : Place} {forward : Bool} {previous : List Nat} {laneBefore : Nat → Int} (hr : w.road ≠ v.road) :
    (status v forward previous laneBefore w = .passed ↔ w.road ∈ previous ∧ laneBefore w.road = w.lane) ∧
    (status v forward previous laneBefore w = .missed ↔ w.road ∈ previous ∧ laneBefore w.road ≠ w.lane) ∧
    (status v forward previous laneBefore w = .notReached ↔ w.road ∉ previous) := by
  unfold status
  simp only [hr, false_and, if_false]
  by_cases h : w.road ∈ previous <;> by_cases h2 : laneBefore w.road = w.lane <;> simp [h, h2]

/-- **A lane change is asked for** only on the road of the waypoint and out of a lane that does not lead to it. -/
theorem wants_spec {v w : Place} {connected : Int} {time speed : Rat} (h : wants v connected time speed w = true) :
    w.road = v.road ∧ w.lane ≠ v.lane ∧ connected ≠ w.lane := by
  simp [wants] at h
  exact ⟨h.1.1, h.1.2.1, h.1.2.2⟩

/-- A vehicle in a lane that leads to the waypoint, so that no lane change is wanted, misses it: it goes over to the next lane section, where its lane has another
number, in the step in which it passes the waypoint. -/
theorem section_fails : ∃ v w : Place, w.road = v.road ∧ w.s < v.s ∧ (∀ time speed, wants v w.lane time speed w = false) ∧ status v true [] (fun _ => 0) w = .missed :=
  ⟨⟨1, -1, 101⟩, ⟨1, -2, 100⟩, rfl, by decide +kernel, fun _ _ => by simp [wants], by decide +kernel⟩

/-- Two lane sections of 100 m: a lane is added next to the reference line at 100 m, so that the lanes -1 and -2 go on as -2 and -3. -/
def added : List Road.Section := [
  ⟨0, 100, [⟨-1, 1, [], some (-2), none⟩, ⟨-2, 1, [], some (-3), none⟩]⟩,
  ⟨100, 100, [⟨-1, 1, [], none, none⟩, ⟨-2, 1, [], none, some (-1)⟩, ⟨-3, 1, [], none, some (-2)⟩]⟩]

/-- On this road a waypoint lies in lane -2 at 90 m. A vehicle in lane -1 never asks for a lane change on its way to the waypoint and misses it: the lane it would have at
the waypoint (RoadManager.cpp:3127-3185) is taken to be the one after the end of the section. -/
theorem wrong_lane_fails :
    (∀ s time speed : Rat, 0 ≤ s → s < 90 → wants ⟨1, -1, s⟩ (Road.connectedLane added 200 (-1) s 90) time speed ⟨1, -2, 90⟩ = false) ∧
    status ⟨1, -1, 90⟩ true [] (fun _ => 0) ⟨1, -2, 90⟩ = .missed := by
  refine ⟨fun s time speed h0 h => ?_, by decide +kernel⟩
  have hc : Road.connectedLane added 200 (-1) s 90 = -2 := by
    have h1 : ¬ s < 0 - Road.small := by unfold Road.small; grind
    have h2 : ¬ (90 : Rat) < 0 - Road.small := by decide +kernel
    have h3 : (90 : Rat) > s - Road.small := by unfold Road.small; grind
    have h4 : Road.sectionIdx (added.map (fun x => ⟨x.s, x.len⟩)) s 0 = some 0 := by
      have : s < 0 + 100 := by grind
      have h5 : ¬ s < 0 := by grind
      simp [added, Road.sectionIdx, Road.secFwd, this, h5]
    unfold Road.connectedLane
    simp only [h1, h2, if_false, h4, h3, if_true]
    simp only [added, List.length_cons, List.length_nil, Nat.zero_add, Nat.reduceAdd, Road.connFwd]
    simp [h, Road.Section.connecting, Road.Section.laneById]
  rw [hc]
  simp [wants]

/-! ### The next target -/

theorem pickLoop_skip (sa sb : List Nat) (road : Nat) (ahead : Bool) (n : Nat) : ∀ (a b : List Nat) (i : Nat) (sp : List Nat), road ∉ a → sa.Sublist a →
    (∀ x ∈ a, x ∉ sb) → sb ≠ [] → (a ++ b).Nodup →
    pickLoop (sp ++ sa ++ sb) road ahead n i sp.length (a ++ b) = pickLoop (sp ++ sa ++ sb) road ahead n (i + a.length) (sp.length + sa.length) b
  | [], b, i, sp, _, hs, _, _, _ => by
    have : sa = [] := by simpa using hs
    subst this
    simp
  | x :: a, b, i, sp, hr, hs, hx, hne, hnd => by
    obtain ⟨s0, sb', hsb⟩ := List.exists_cons_of_ne_nil hne
    have hxr : x ≠ road := fun h => hr (by simp [h])
    have hra : road ∉ a := fun h => hr (by simp [h])
    have hxa : ∀ y ∈ a, y ∉ sb := fun y hy => hx y (by simp [hy])
    have hnd' : (a ++ b).Nodup := (List.nodup_cons.1 hnd).2
    have hxn : x ∉ a := fun h => (List.nodup_cons.1 hnd).1 (by simp [h])
    cases sa with
    | nil =>
      have h0 : (sp ++ [] ++ sb)[sp.length]? = some s0 := by simp [hsb]
      have hne0 : x ≠ s0 := fun h => hx x (by simp) (by simp [hsb, h])
      show (match (sp ++ [] ++ sb)[sp.length]? with | none => _ | some t => _) = _
      rw [h0]
      simp only [hne0, hxr, if_false, false_and]
      have ih := pickLoop_skip [] sb road ahead n a b (i + 1) sp hra (by simp) hxa hne hnd'
      refine Eq.trans ih ?_
      simp [Nat.add_comm, Nat.add_left_comm]
    | cons y sa' =>
      have h0 : (sp ++ (y :: sa') ++ sb)[sp.length]? = some y := by simp
      show (match (sp ++ (y :: sa') ++ sb)[sp.length]? with | none => _ | some t => _) = _
      rw [h0]
      simp only [hxr, false_and, if_false]
      by_cases hxy : x = y
      · subst hxy
        have hs' : sa'.Sublist a := by
          rcases List.sublist_cons_iff.1 hs with h | ⟨r, h1, h2⟩
          · exact absurd (h.subset (by simp)) hxn
          · simp only [List.cons.injEq, true_and] at h1
            rw [h1]
            exact h2
        have ih := pickLoop_skip sa' sb road ahead n a b (i + 1) (sp ++ [x]) hra hs' hxa hne hnd'
        simp only [List.append_assoc, List.cons_append, List.nil_append, List.length_append, List.length_cons, List.length_nil] at ih
        simp only [if_true, List.append_assoc, List.cons_append, List.length_cons]
        refine Eq.trans ih ?_
        congr 1 <;> omega
      · have hs' : (y :: sa').Sublist a := by
          rcases List.sublist_cons_iff.1 hs with h | ⟨r, h1, h2⟩
          · exact h
          · simp only [List.cons.injEq] at h1
            exact absurd h1.1.symm hxy
        have ih := pickLoop_skip (y :: sa') sb road ahead n a b (i + 1) sp hra hs' hxa hne hnd'
        simp only [hxy, if_false]
        refine Eq.trans ih ?_
        simp only [List.length_cons]
        congr 1
        omega

theorem sublist_one {l : List Nat} {x : Nat} (h : l.Sublist [x]) : l = [] ∨ l = [x] := by
  rcases List.sublist_cons_iff.1 h with h | ⟨r, h1, h2⟩
  · exact Or.inl (by simpa using h)
  · have : r = [] := by simpa using h2
    exact Or.inr (by rw [h1, this])

/-- **The next target**: on a route that has no road twice, a vehicle on one of its roads, not the last, is sent to the first scenario waypoint on the roads after it. -/
theorem next_target_partial {r : Route} {a b sa sb : List Nat} {road : Nat} {ahead : Bool} {current : Nat} (hall : r.all = a ++ road :: b) (hnd : r.all.Nodup)
    (hsc : r.scenario = sa ++ sb) (hsa : sa.Sublist (a ++ [road])) (hsb : sb.Sublist b) (hne : sb ≠ []) :
    ∃ t, sb.head? = some t ∧ ∃ k, pick r road ahead current = .ok k ∧ r.scenario[k]? = some t := by
  obtain ⟨t, sb', rfl⟩ := List.exists_cons_of_ne_nil hne
  refine ⟨t, rfl, sa.length, ?_, by simp [hsc]⟩
  have hra : road ∉ a := by
    rw [hall] at hnd
    intro h
    exact (List.nodup_append.1 hnd).2.2 road h road (by simp) rfl
  have hdis : ∀ x ∈ a ++ [road], x ∉ t :: sb' := by
    intro x hx hx'
    rw [hall, show a ++ road :: b = (a ++ [road]) ++ b by simp] at hnd
    exact (List.nodup_append.1 hnd).2.2 x hx x (hsb.subset hx') rfl
  have hblen : b ≠ [] := by
    intro h
    rw [h] at hsb
    simp at hsb
  have hpos : 0 < b.length := List.length_pos_iff.2 hblen
  have hlt : a.length < r.all.length - 1 := by
    rw [hall]
    simp
    omega
  have main : pickLoop r.scenario road ahead r.all.length 0 0 r.all = .ok (some sa.length) := by
    rw [hsc]
    by_cases hl : road ∈ sa
    · -- the road of the vehicle has a scenario waypoint, the last of `sa`
      obtain ⟨sa', rfl, hsa'⟩ : ∃ sa', sa = sa' ++ [road] ∧ sa'.Sublist a := by
        rcases List.sublist_append_iff.1 hsa with ⟨l1, l2, h1, h2, h3⟩
        rcases sublist_one h3 with h | h
        · rw [h, List.append_nil] at h1
          rw [h1] at hl
          exact absurd (h2.subset hl) hra
        · exact ⟨l1, by rw [h1, h], h2⟩
      have hx : ∀ x ∈ a, x ∉ road :: t :: sb' := by
        intro x hx h
        rcases List.mem_cons.1 h with h | h
        · exact hra (h ▸ hx)
        · exact hdis x (by simp [hx]) h
      have := pickLoop_skip sa' (road :: t :: sb') road ahead r.all.length a (road :: b) 0 [] hra hsa' hx (by simp) (hall ▸ hnd)
      simp only [List.nil_append, List.length_nil, Nat.zero_add, List.append_assoc, List.cons_append] at this ⊢
      rw [← hall] at this
      rw [this]
      unfold pickLoop
      simp only [List.getElem?_append_right (Nat.le_refl _), Nat.sub_self, List.getElem?_cons_zero, if_true, true_and, hlt, true_or]
      congr 2
      simp
    · have hsa' : sa.Sublist a := by
        rcases List.sublist_append_iff.1 hsa with ⟨l1, l2, h1, h2, h3⟩
        rcases sublist_one h3 with h | h
        · rw [h, List.append_nil] at h1
          rw [h1]
          exact h2
        · exact absurd (by rw [h1, h]; simp) hl
      have hx : ∀ x ∈ a, x ∉ t :: sb' := fun x hx => hdis x (by simp [hx])
      have := pickLoop_skip sa (t :: sb') road ahead r.all.length a (road :: b) 0 [] hra hsa' hx (by simp) (hall ▸ hnd)
      simp only [List.nil_append, List.length_nil, Nat.zero_add] at this ⊢
      rw [← hall] at this
      rw [this]
      have hne' : road ≠ t := fun h => hdis road (by simp) (by simp [h])
      unfold pickLoop
      simp only [List.getElem?_append_right (Nat.le_refl _), Nat.sub_self, List.getElem?_cons_zero, true_and, hlt, true_or, if_true, hne', if_false]
      congr 2
      simp
  unfold pick
  rw [main]

/-- **No access out of range** if the road of the last waypoint is nowhere else on the route. -/
theorem pick_ok_partial {r : Route} {a sa : List Nat} {last road : Nat} {ahead : Bool} {current : Nat} (hall : r.all = a ++ [last]) (hl : last ∉ a)
    (hsc : r.scenario = sa ++ [last]) : ∃ k, pick r road ahead current = .ok k := by
  have key : ∀ (l : List Nat) (i j : Nat), last ∉ l → j ≤ sa.length →
      ∃ o, pickLoop (sa ++ [last]) road ahead r.all.length i j (l ++ [last]) = .ok o := by
    intro l
    induction l with
    | nil =>
      intro i j _ hj
      have : j < (sa ++ [last]).length := by simp; omega
      rw [List.nil_append, pickLoop, List.getElem?_eq_getElem this]
      simp only
      split
      · exact ⟨_, rfl⟩
      · exact ⟨none, rfl⟩
    | cons x l ih =>
      intro i j hx hj
      have hlt : j < (sa ++ [last]).length := by simp; omega
      rw [List.cons_append, pickLoop, List.getElem?_eq_getElem hlt]
      simp only
      split
      · exact ⟨_, rfl⟩
      · refine ih (i + 1) _ (fun h => hx (by simp [h])) ?_
        split
        · rename_i h
          have : j ≠ sa.length := by
            rintro rfl
            rw [List.getElem_append_right (Nat.le_refl _)] at h
            simp only [Nat.sub_self, List.getElem_cons_zero] at h
            exact hx (by simp [h])
          omega
        · exact hj
  obtain ⟨o, ho⟩ := key a 0 0 hl (Nat.zero_le _)
  unfold pick
  rw [hall] at ho
  rw [hsc, hall, ho]
  cases o with
  | none => exact ⟨_, rfl⟩
  | some k => exact ⟨_, rfl⟩

/-! ### Routes as they are built -/

/-- The roads of a route through waypoints: each waypoint followed by the roads on the path to the next one. -/
def through (between : Nat → Nat → List Nat) : List Nat → List Nat
  | [] => []
  | [w] => [w]
  | w :: v :: rest => w :: (between w v ++ through between (v :: rest))

theorem through_concat (between : Nat → Nat → List Nat) (x y : Nat) : ∀ l : List Nat,
    through between (l ++ [x] ++ [y]) = through between (l ++ [x]) ++ between x y ++ [y]
  | [] => by simp [through]
  | [w] => by simp [through]
  | w :: v :: l => by
    have ih := through_concat between x y (v :: l)
    simp only [List.cons_append, List.append_assoc, through] at ih ⊢
    rw [ih]

theorem sublist_through (between : Nat → Nat → List Nat) : ∀ l : List Nat, l.Sublist (through between l)
  | [] => by simp [through]
  | [w] => by simp [through]
  | w :: v :: l => by
    have ih := sublist_through between (v :: l)
    simp only [through]
    exact List.Sublist.cons_cons w (ih.trans (List.sublist_append_right _ _))

theorem addWaypoint_keep {between : Nat → Nat → List Nat} {r : Route} {road last : Nat} (hl : r.minimal.getLast? = some last) (hne : last ≠ road)
    (h2 : r.minimal.length = 2 → r.minimal[0]? ≠ r.minimal[1]?) :
    addWaypoint between r road = ⟨r.all ++ between last road ++ [road], r.scenario ++ [road], r.minimal ++ between last road ++ [road]⟩ := by
  have hrs : removeSame r road = r := by
    unfold removeSame
    rw [if_neg]
    rintro ⟨-, ⟨h, h'⟩ | h⟩
    · exact h2 h h'
    · rw [hl] at h
      exact hne (Option.some.inj h)
  obtain ⟨a, s, m⟩ := r
  cases m with
  | nil => simp at hl
  | cons x m =>
    unfold addWaypoint
    simp only [hrs, hl, Option.getD_some]

theorem route_built_aux (between : Nat → Nat → List Nat) : ∀ (rl : List Nat) (x : Nat),
    (∀ i, i + 1 < (rl.reverse ++ [x]).length → (rl.reverse ++ [x])[i]? ≠ (rl.reverse ++ [x])[i + 1]?) →
    (rl.reverse ++ [x]).foldl (addWaypoint between) ⟨[], [], []⟩ =
      ⟨through between (rl.reverse ++ [x]), rl.reverse ++ [x], through between (rl.reverse ++ [x])⟩ ∧
    (through between (rl.reverse ++ [x])).getLast? = some x ∧
    ((through between (rl.reverse ++ [x])).length = 2 → (through between (rl.reverse ++ [x]))[0]? ≠ (through between (rl.reverse ++ [x]))[1]?)
  | [], x, _ => by simp [addWaypoint, through]
  | y :: rl, x, h => by
    simp only [List.reverse_cons] at h ⊢
    have hyx : y ≠ x := by
      have := h rl.length (by simp)
      simpa [List.getElem?_append] using this
    have hc : ∀ i, i + 1 < (rl.reverse ++ [y]).length → (rl.reverse ++ [y])[i]? ≠ (rl.reverse ++ [y])[i + 1]? := by
      intro i hi
      have := h i (by simp at hi ⊢; omega)
      rwa [List.getElem?_append_left (l₁ := rl.reverse ++ [y]) (by omega), List.getElem?_append_left (l₁ := rl.reverse ++ [y]) hi] at this
    obtain ⟨h1, h2, h3⟩ := route_built_aux between rl y hc
    rw [List.foldl_append, h1, through_concat]
    refine ⟨?_, by simp, ?_⟩
    · simp only [List.foldl_cons, List.foldl_nil]
      rw [addWaypoint_keep (last := y) h2 hyx h3]
    · intro hlen
      generalize through between (rl.reverse ++ [y]) = T at h2 hlen ⊢
      generalize between y x = B at hlen ⊢
      have hT : 0 < T.length := by
        cases T with
        | nil => simp at h2
        | cons _ _ => simp
      have hB : B = [] := by
        apply List.eq_nil_of_length_eq_zero
        simp at hlen
        omega
      subst hB
      match T, h2, hlen with
      | [z], h2, _ =>
        simp at h2
        simp [h2, hyx]
      | _ :: _ :: _, _, hlen =>
        simp at hlen

/-- **Routes**: if no two consecutive waypoints are on the same road, all of them are kept as scenario waypoints, and the route leads through them and the roads between. -/
theorem route_built (between : Nat → Nat → List Nat) (ws : List Nat) (h : ∀ i, i + 1 < ws.length → ws[i]? ≠ ws[i + 1]?) :
    (ws.foldl (addWaypoint between) ⟨[], [], []⟩).all = through between ws ∧ (ws.foldl (addWaypoint between) ⟨[], [], []⟩).scenario = ws ∧
    (ws.foldl (addWaypoint between) ⟨[], [], []⟩).minimal = through between ws := by
  rcases List.eq_nil_or_concat ws with rfl | ⟨l, x, rfl⟩
  · simp [through]
  · have := (route_built_aux between l.reverse x (by simpa using h)).1
    rw [List.reverse_reverse] at this
    rw [List.concat_eq_append, this]
    exact ⟨rfl, rfl, rfl⟩

theorem find_append {a b : List Nat} {t : Nat} {p : Nat → Bool} (ha : ∀ x ∈ a, p x = false) (ht : p t = true) : (a ++ t :: b).find? p = some t := by
  rw [List.find?_append, List.find?_eq_none.2 (fun x hx => by simp [ha x hx])]
  simp [ht]

/-- **The next target on a route as given in the scenario**: if the route passes no road twice, a vehicle on one of its roads, with `b` the roads after it, is sent to the
first waypoint of the scenario on these roads. -/
theorem built_target_partial (between : Nat → Nat → List Nat) (ws a b : List Nat) (road : Nat) (ahead : Bool) (current : Nat)
    (hall : through between ws = a ++ road :: b) (hnd : (through between ws).Nodup) (hb : ∃ t ∈ ws, t ∈ b) :
    ∃ k t, pick (ws.foldl (addWaypoint between) ⟨[], [], []⟩) road ahead current = .ok k ∧ ws[k]? = some t ∧ ws.find? (fun x => b.contains x) = some t := by
  have hwn : ws.Nodup := (sublist_through between ws).nodup hnd
  have hadj : ∀ i, i + 1 < ws.length → ws[i]? ≠ ws[i + 1]? := by
    intro i hi he
    rw [List.getElem?_eq_getElem hi, List.getElem?_eq_getElem (by omega)] at he
    have := (List.getElem_inj hwn).1 (Option.some.inj he)
    omega
  obtain ⟨h1, h2, -⟩ := route_built between ws hadj
  have hs : ws.Sublist ((a ++ [road]) ++ b) := by
    have := sublist_through between ws
    rw [hall] at this
    simpa using this
  obtain ⟨sa, sb, hws, hsa, hsb⟩ := List.sublist_append_iff.1 hs
  have hdis : ∀ x ∈ a ++ [road], x ∉ b := by
    intro x hx hx'
    rw [hall, show a ++ road :: b = (a ++ [road]) ++ b by simp] at hnd
    exact (List.nodup_append.1 hnd).2.2 x hx x hx' rfl
  have hne : sb ≠ [] := by
    rintro rfl
    obtain ⟨t, ht, htb⟩ := hb
    rw [hws, List.append_nil] at ht
    exact hdis t (hsa.subset ht) htb
  obtain ⟨t, ht, k, hk, hk'⟩ := next_target_partial (r := ws.foldl (addWaypoint between) ⟨[], [], []⟩) (ahead := ahead) (current := current)
    (h1.trans hall) (h1 ▸ hnd) (h2.trans hws) hsa hsb hne
  refine ⟨k, t, hk, h2 ▸ hk', ?_⟩
  obtain ⟨t', sb', rfl⟩ := List.exists_cons_of_ne_nil hne
  simp only [List.head?_cons, Option.some.injEq] at ht
  subst ht
  rw [hws]
  refine find_append (fun x hx => ?_) (by simpa using hsb.subset (List.mem_cons_self))
  simpa using hdis x (hsa.subset hx)

example : ∃ k t, pick ([1, 3, 5].foldl (addWaypoint (fun a b => if a + 2 = b then [a + 1] else [])) ⟨[], [], []⟩) 4 true 0 = .ok k ∧
    [1, 3, 5][k]? = some t ∧ [1, 3, 5].find? (fun x => [5].contains x) = some t :=
  built_target_partial _ [1, 3, 5] [1, 2, 3] [5] 4 true 0 (by decide +kernel) (by decide +kernel) ⟨5, by simp, by simp⟩

/-- A route of three waypoints, the last two on the same road: the list of all waypoints keeps both, that of the scenario waypoints only one. If the vehicle is not on the
route (it missed a waypoint), the list of scenario waypoints is read out of range. -/
theorem out_of_range_fails :
    [1, 3, 3].foldl (addWaypoint (fun a b => if a = 1 ∧ b = 3 then [2] else [])) ⟨[], [], []⟩ = ⟨[1, 2, 3, 3], [1, 3], [1, 2, 3]⟩ ∧
    ∀ ahead current, pick ⟨[1, 2, 3, 3], [1, 3], [1, 2, 3]⟩ 9 ahead current = .error () := by
  refine ⟨by decide +kernel, fun ahead current => ?_⟩
  cases ahead <;> rfl

/-- On a route that passes a road twice, a vehicle on its second visit is sent back to the waypoint after the first visit. -/
theorem loop_fails : ∀ ahead current, pick ⟨[1, 2, 3, 2, 4], [1, 3, 4], [1, 2, 3, 2, 4]⟩ 2 ahead current = .ok 1 := by
  intro ahead current
  cases ahead <;> rfl

example : pick ⟨[1, 2, 3, 4, 5], [1, 3, 5], []⟩ 4 true 0 = .ok 2 ∧ pick ⟨[1, 2, 3, 4, 5], [1, 3, 5], []⟩ 2 true 0 = .ok 1 ∧
    pick ⟨[1, 2, 3, 4, 5], [1, 3, 5], []⟩ 9 true 1 = .ok 1 := ⟨rfl, rfl, rfl⟩
example : [1, 3, 5].foldl (addWaypoint (fun a b => if a + 2 = b then [a + 1] else [])) ⟨[], [], []⟩ = ⟨[1, 2, 3, 4, 5], [1, 3, 5], [1, 2, 3, 4, 5]⟩ := by decide +kernel

end Verif.FollowRoute

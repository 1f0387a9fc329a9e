import Verif.Road.LaneTheorems
/-
Theorems on finding the lane at a lateral place (C69), on the width of a road (C70) and on the lane
links along a road (C71).
-/
namespace Verif.Road

/-! ## Specification -/

/-- Lane `l` may be chosen: its type matches, it is wide enough and on the side asked for. -/
def Eligible (sec : Section) (s : Rat) (side : Int) (noZero : Bool) (mask : Nat) (l : Lane) : Prop :=
  mask &&& l.type ≠ 0 ∧ (noZero = true → sec.width s l.id > small) ∧
    (side = 0 ∨ (l.id < 0 ↔ side < 0))

/-- Signed lateral place of the centre of lane `id`, left positive, from the centre lane. -/
def centre (sec : Section) (s : Rat) (id : Int) : Rat :=
  if id < 0 then -(sec.center s id) else sec.center s id

/-- The lateral place `d` lies strictly inside lane `id`. -/
def Inside (sec : Section) (s d : Rat) (id : Int) : Prop :=
  centre sec s id - sec.width s id / 2 < d ∧ d < centre sec s id + sec.width s id / 2

/-- Distance of `d` from the centre of lane `id`. -/
def dist (sec : Section) (s d : Rat) (id : Int) : Rat :=
  if d - centre sec s id < 0 then -(d - centre sec s id) else d - centre sec s id

theorem centre_eq (sec : Section) (s : Rat) (id : Int) :
    (sign id : Rat) * sec.center s id = centre sec s id := by
  unfold sign centre; split
  · show ((-1 : Int) : Rat) * _ = _
    have : ((-1 : Int) : Rat) = -1 := by decide +kernel
    rw [this]; grind
  · have : ((1 : Int) : Rat) = 1 := by decide +kernel
    rw [this]; grind

theorem fabs_lt_iff (sec : Section) (s d : Rat) (id : Int) :
    fabs (d - centre sec s id) < sec.width s id / 2 ↔ Inside sec s d id := by
  unfold fabs Inside; split <;> constructor <;> intro h <;> grind

theorem fabs_dist (sec : Section) (s d : Rat) (id : Int) : fabs (d - centre sec s id) = dist sec s d id := rfl

theorem eligible_iff (sec : Section) (s : Rat) (side : Int) (noZero : Bool) (mask : Nat) (l : Lane) :
    (mask &&& l.type ≠ 0 ∧ (noZero = false ∨ sec.width s l.id > small) ∧ (side = 0 ∨ sign l.id = sign side)) ↔
      Eligible sec s side noZero mask l := by
  unfold Eligible sign
  have h1 : (noZero = false ∨ sec.width s l.id > small) ↔ (noZero = true → sec.width s l.id > small) := by
    cases noZero <;> simp
  have h2 : ((if l.id < 0 then (-1 : Int) else 1) = if side < 0 then -1 else 1) ↔ (l.id < 0 ↔ side < 0) := by
    by_cases ha : l.id < 0 <;> by_cases hb : side < 0 <;> simp [ha, hb]
  rw [h1, h2]

/-- What the loop keeps: the candidate is a lane seen that may be chosen, with its offset; it is inside,
or the nearest of the lanes seen. -/
theorem closestLoop_spec (sec : Section) (s d : Rat) (side : Int) (noZero : Bool) (mask : Nat)
    (hd : Distinct sec.lanes) (rest : List Lane) (pre : List Lane) (c : Option Nat × Rat)
    (hsplit : sec.lanes = pre ++ rest)
    (hpre : ∀ l ∈ pre, Eligible sec s side noZero mask l → ¬ Inside sec s d l.id)
    (hc : match c.1 with
      | none => ∀ l ∈ pre, ¬ Eligible sec s side noZero mask l
      | some i => ∃ l, pre[i]? = some l ∧ Eligible sec s side noZero mask l ∧ c.2 = d - centre sec s l.id ∧
          ∀ m ∈ pre, Eligible sec s side noZero mask m → dist sec s d l.id ≤ dist sec s d m.id)
    (hcn : c.1 = none → c.2 = d) :
    match sec.closestLoop s d side noZero mask rest pre.length c with
    | (none, o) => o = d ∧ ∀ l ∈ sec.lanes, ¬ Eligible sec s side noZero mask l
    | (some i, o) => ∃ l, sec.lanes[i]? = some l ∧ Eligible sec s side noZero mask l ∧ o = d - centre sec s l.id ∧
        (Inside sec s d l.id ∨
          (∀ m ∈ sec.lanes, Eligible sec s side noZero mask m →
            ¬ Inside sec s d m.id ∧ dist sec s d l.id ≤ dist sec s d m.id)) := by
  induction rest generalizing pre c with
  | nil =>
    simp only [List.append_nil] at hsplit
    unfold Section.closestLoop
    rw [hsplit]
    obtain ⟨c1, c2⟩ := c
    cases c1 with
    | none => exact ⟨hcn rfl, hc⟩
    | some i =>
      obtain ⟨l, h1, h2, h3, h4⟩ := hc
      exact ⟨l, h1, h2, h3, Or.inr (fun m hm he => ⟨hpre m hm he, h4 m hm he⟩)⟩
  | cons l rest ih =>
    have hmem : l ∈ sec.lanes := by rw [hsplit]; simp
    have hget : sec.lanes[pre.length]? = some l := by rw [hsplit]; simp
    have hlen : (pre ++ [l]).length = pre.length + 1 := by simp
    have hsp : sec.lanes = (pre ++ [l]) ++ rest := by rw [hsplit]; simp
    unfold Section.closestLoop
    simp only [laneById_of_distinct sec l hd hmem, centre_eq]
    by_cases he : Eligible sec s side noZero mask l
    · rw [if_pos ((eligible_iff sec s side noZero mask l).mpr he)]
      by_cases hin : Inside sec s d l.id
      · rw [if_pos ((fabs_lt_iff sec s d l.id).mpr hin)]
        exact ⟨l, hget, he, rfl, Or.inl hin⟩
      · rw [if_neg (fun h => hin ((fabs_lt_iff sec s d l.id).mp h))]
        have hpre' : ∀ m ∈ pre ++ [l], Eligible sec s side noZero mask m → ¬ Inside sec s d m.id := by
          intro m hm hme
          rcases List.mem_append.mp hm with hm | hm
          · exact hpre m hm hme
          · rw [List.mem_singleton] at hm; subst hm; exact hin
        by_cases hcond : c.1 = none ∨ fabs (d - centre sec s l.id) < fabs c.2
        · rw [if_pos hcond, ← hlen]
          refine ih (pre ++ [l]) _ hsp hpre' ?_ (by simp)
          simp only
          refine ⟨l, by simp, he, rfl, ?_⟩
          intro m hm hme
          rcases List.mem_append.mp hm with hm | hm
          · obtain ⟨c1, c2⟩ := c
            cases c1 with
            | none => exact absurd hme (hc m hm)
            | some i =>
              obtain ⟨l0, _, _, h3, h4⟩ := hc
              rcases hcond with h | h
              · simp at h
              · simp only at h3 h
                rw [h3, fabs_dist, fabs_dist] at h
                have := h4 m hm hme
                grind
          · rw [List.mem_singleton] at hm; subst hm; exact Rat.le_refl
        · rw [if_neg hcond, ← hlen]
          refine ih (pre ++ [l]) _ hsp hpre' ?_ hcn
          obtain ⟨c1, c2⟩ := c
          cases c1 with
          | none => exact absurd (Or.inl rfl) hcond
          | some i =>
            obtain ⟨l0, h1, h2, h3, h4⟩ := hc
            simp only
            refine ⟨l0, ?_, h2, h3, ?_⟩
            · rw [List.getElem?_append_left]; exact h1
              exact (List.getElem?_eq_some_iff.mp h1).1
            · intro m hm hme
              rcases List.mem_append.mp hm with hm | hm
              · exact h4 m hm hme
              · rw [List.mem_singleton] at hm; subst hm
                have : ¬ fabs (d - centre sec s m.id) < fabs c2 := fun h => hcond (Or.inr h)
                simp only at h3
                rw [h3, fabs_dist, fabs_dist] at this
                grind
    · rw [if_neg (fun h => he ((eligible_iff sec s side noZero mask l).mp h)), ← hlen]
      refine ih (pre ++ [l]) _ hsp ?_ ?_ hcn
      · intro m hm hme
        rcases List.mem_append.mp hm with hm | hm
        · exact hpre m hm hme
        · rw [List.mem_singleton] at hm; subst hm; exact absurd hme he
      · obtain ⟨c1, c2⟩ := c
        cases c1 with
        | none =>
          intro m hm hme
          rcases List.mem_append.mp hm with hm | hm
          · exact hc m hm hme
          · rw [List.mem_singleton] at hm; subst hm; exact he hme
        | some i =>
          obtain ⟨l0, h1, h2, h3, h4⟩ := hc
          simp only
          refine ⟨l0, ?_, h2, h3, ?_⟩
          · rw [List.getElem?_append_left]; exact h1
            exact (List.getElem?_eq_some_iff.mp h1).1
          · intro m hm hme
            rcases List.mem_append.mp hm with hm | hm
            · exact h4 m hm hme
            · rw [List.mem_singleton] at hm; subst hm; exact absurd hme he

/-- The lane found: one that may be chosen, with the offset from its centre; it contains the place, or
no lane that may be chosen does and its centre is nearest.  If none may be chosen: the centre lane. -/
theorem closest_spec (sec : Section) (s t laneOff : Rat) (side : Int) (noZero : Bool) (mask : Nat)
    (hd : Distinct sec.lanes) :
    match sec.closest s t laneOff side noZero mask with
    | (r, o) =>
      ((∀ l ∈ sec.lanes, ¬ Eligible sec s side noZero mask l) → r = sec.idxById 0 ∧ o = t - laneOff) ∧
      ((∃ l ∈ sec.lanes, Eligible sec s side noZero mask l) →
        ∃ i l, r = some i ∧ sec.lanes[i]? = some l ∧ Eligible sec s side noZero mask l ∧
          o = t - laneOff - centre sec s l.id ∧
          (Inside sec s (t - laneOff) l.id ∨
            (∀ m ∈ sec.lanes, Eligible sec s side noZero mask m →
              ¬ Inside sec s (t - laneOff) m.id ∧
              dist sec s (t - laneOff) l.id ≤ dist sec s (t - laneOff) m.id))) := by
  have h := closestLoop_spec sec s (t - laneOff) side noZero mask hd sec.lanes [] (none, t - laneOff)
    rfl (by simp) (by simp) (by simp)
  simp only [List.length_nil] at h
  unfold Section.closest
  generalize sec.closestLoop s (t - laneOff) side noZero mask sec.lanes 0 (none, t - laneOff) = r at *
  obtain ⟨r1, o⟩ := r
  cases r1 with
  | none =>
    simp only at h ⊢
    refine ⟨fun _ => ⟨trivial, h.1⟩, ?_⟩
    rintro ⟨l, hl, he⟩
    exact absurd he (h.2 l hl)
  | some i =>
    simp only at h ⊢
    obtain ⟨l, h1, h2, h3, h4⟩ := h
    refine ⟨fun hn => ?_, fun _ => ⟨i, l, rfl, h1, h2, h3, h4⟩⟩
    exact absurd h2 (hn l (List.mem_of_getElem? h1))

example : demo.closest 10 (-4) 0 0 true 3 = (some 3, 1) ∧ demo.closest 10 (-4) 0 0 true 1 = (some 2, -5/2) ∧
    demo.closest 10 (-4) 0 0 true 8 = (some 1, -4) := by decide +kernel

theorem inside_edges (sec : Section) (s d : Rat) (id : Int) (h0 : id ≠ 0) :
    Inside sec s d id ↔ rightEdge sec s id < d ∧ d < leftEdge sec s id := by
  have h1 := outer_sub_inner sec s id
  have h2 := center_midway sec s id
  unfold Inside centre rightEdge leftEdge
  by_cases h : id < 0
  · rw [if_pos h, if_neg (by omega), if_neg (by omega)]
    constructor <;> intro hh <;> constructor <;> grind
  · rw [if_neg h, if_pos (by omega), if_pos (by omega)]
    constructor <;> intro hh <;> constructor <;> grind

theorem width_zero_id (sec : Section) (s : Rat) : sec.width s 0 = 0 := by simp [Section.width]

theorem not_inside_zero (sec : Section) (s d : Rat) : ¬ Inside sec s d 0 := by
  unfold Inside
  rw [width_zero_id]
  intro h; grind

/-- With non-negative widths a place lies inside at most one lane. -/
theorem inside_unique (sec : Section) (s d : Rat) (hw : Wide sec s) (a b : Int)
    (ha : Inside sec s d a) (hb : Inside sec s d b) : a = b := by
  have ha0 : a ≠ 0 := fun h => by subst h; exact not_inside_zero sec s d ha
  have hb0 : b ≠ 0 := fun h => by subst h; exact not_inside_zero sec s d hb
  have ea := (inside_edges sec s d a ha0).mp ha
  have eb := (inside_edges sec s d b hb0).mp hb
  rcases Int.lt_trichotomy a b with h | h | h
  · have := lanes_beside sec s hw a b h ha0 hb0; grind
  · exact h
  · have := lanes_beside sec s hw b a h hb0 ha0; grind

example : Inside demo 10 (-4) (-2) ∧ ¬ Inside demo 10 (-4) (-1) := by
  unfold Inside; decide +kernel

/-- From lane and offset to the lateral place and back gives the same lane and the same offset, for
every place inside a lane that may be chosen. -/
theorem lane_track_lane (sec : Section) (laneOff s offset : Rat) (mask : Nat) (l : Lane)
    (hd : Distinct sec.lanes) (hw : Wide sec s) (hl : l ∈ sec.lanes) (hm : mask &&& l.type ≠ 0)
    (hwid : sec.width s l.id > small) (ho : -(sec.width s l.id / 2) < offset ∧ offset < sec.width s l.id / 2) :
    track2lane sec laneOff s (lane2track sec laneOff s offset l.id) mask = some (l.id, offset) := by
  have hc : lane2track sec laneOff s offset l.id - laneOff = offset + centre sec s l.id := by
    unfold lane2track centre; split <;> grind
  have hel : Eligible sec s 0 true mask l := ⟨hm, fun _ => hwid, Or.inl rfl⟩
  have hin : Inside sec s (lane2track sec laneOff s offset l.id - laneOff) l.id := by
    rw [hc]; unfold Inside; grind
  have h := closest_spec sec s (lane2track sec laneOff s offset l.id) laneOff 0 true mask hd
  unfold track2lane
  generalize sec.closest s (lane2track sec laneOff s offset l.id) laneOff 0 true mask = r at *
  obtain ⟨r1, o⟩ := r
  simp only at h
  obtain ⟨i, m, h1, h2, h3, h4, h5⟩ := h.2 ⟨l, hl, hel⟩
  have hid : m.id = l.id := by
    rcases h5 with h5 | h5
    · exact inside_unique sec s _ hw _ _ h5 hin
    · exact absurd hin (h5 l hl hel).1
  subst h1
  simp only [Section.idByIdx, h2, hid, h4]
  rw [hc]
  congr 2; grind

/-- From a lateral place to lane and offset and back gives the same place. -/
theorem track_lane_track (sec : Section) (laneOff s t o : Rat) (mask : Nat) (id : Int)
    (hd : Distinct sec.lanes) (h : track2lane sec laneOff s t mask = some (id, o)) :
    lane2track sec laneOff s o id = t := by
  have hs := closest_spec sec s t laneOff 0 true mask hd
  unfold track2lane at h
  generalize sec.closest s t laneOff 0 true mask = r at *
  obtain ⟨r1, o'⟩ := r
  cases r1 with
  | none => simp at h
  | some i =>
    simp only [Option.some.injEq, Prod.mk.injEq] at h hs
    obtain ⟨h1, h2⟩ := h
    subst h2
    by_cases hex : ∃ l ∈ sec.lanes, Eligible sec s 0 true mask l
    · obtain ⟨i', l, g1, g2, _, g4, _⟩ := hs.2 hex
      subst g1
      simp only [Section.idByIdx, g2] at h1
      subst h1
      unfold lane2track
      rw [g4]; unfold centre
      split <;> grind
    · obtain ⟨g1, g2⟩ := hs.1 (fun l hl he => hex ⟨l, hl, he⟩)
      have hi : sec.idByIdx i = 0 := by
        unfold Section.idxById at g1
        obtain ⟨hlt, hp⟩ := List.findIdx?_eq_some_iff_getElem.mp g1.symm
        unfold Section.idByIdx
        rw [List.getElem?_eq_getElem hlt]
        simpa using hp.1
      rw [hi] at h1
      subst h1
      unfold lane2track Section.center
      rw [g2]; simp; grind

example : track2lane demo 1 10 (lane2track demo 1 10 (3/2) (-2)) 3 = some (-2, 3/2) := by decide +kernel

/-- Outside all lanes that may be chosen the lane with the nearest centre is taken, which need not be
the lane whose edge is nearest: 0.1 m beside a 10 m wide lane the narrow lane 2 m away is taken. -/
theorem nearest_edge_fails_witness :
    let sec : Section := ⟨0, 100, [⟨0, 1, [], none, none⟩, ⟨-1, 1, [⟨0, ⟨10, 0, 0, 0, 1⟩⟩], none, none⟩,
      ⟨-2, 2, [⟨0, ⟨2, 0, 0, 0, 1⟩⟩], none, none⟩, ⟨-3, 1, [⟨0, ⟨1, 0, 0, 0, 1⟩⟩], none, none⟩]⟩
    sec.closest 5 (-101/10) 0 0 true 1 = (some 3, 24/10) := by decide +kernel

/-! ## Width of a road -/

theorem outermost_right (sec : Section) (mask : Nat) (fuel i : Nat) (hf : sec.lanes.length + 1 ≤ fuel + i)
    (hi : i ≤ sec.lanes.length) :
    ∃ id, sec.outermost mask true fuel i = some id ∧
      ((∃ j, ∃ h : j < sec.lanes.length, i ≤ j ∧ sec.lanes[j].id = id ∧ sec.lanes[j].type &&& mask ≠ 0 ∧
          ∀ k (hk : k < sec.lanes.length), i ≤ k → k < j → sec.lanes[k].id ≠ 0 ∧ sec.lanes[k].type &&& mask = 0) ∨
       (id = 0 ∧ ∃ j, j ≤ sec.lanes.length ∧ (∀ h : j < sec.lanes.length, sec.lanes[j].id = 0) ∧
          ∀ k (hk : k < sec.lanes.length), i ≤ k → k < j → sec.lanes[k].id ≠ 0 ∧ sec.lanes[k].type &&& mask = 0)) := by
  induction fuel generalizing i with
  | zero => omega
  | succ fuel ih =>
    unfold Section.outermost
    by_cases hlt : i < sec.lanes.length
    · have hid : sec.idByIdx i = sec.lanes[i].id := by
        unfold Section.idByIdx; rw [List.getElem?_eq_getElem hlt]
      simp only [hid, List.getElem?_eq_getElem hlt]
      by_cases h0 : sec.lanes[i].id = 0
      · rw [if_pos h0]
        exact ⟨0, rfl, Or.inr ⟨rfl, i, by omega, fun _ => h0, fun k _ h1 h2 => by omega⟩⟩
      · rw [if_neg h0]
        by_cases hm : sec.lanes[i].type &&& mask ≠ 0
        · rw [if_pos hm]
          exact ⟨_, rfl, Or.inl ⟨i, hlt, Nat.le_refl _, rfl, hm, fun k _ h1 h2 => by omega⟩⟩
        · rw [if_neg hm]
          simp only [if_true]
          obtain ⟨id, e, hc⟩ := ih (i + 1) (by omega) (by omega)
          have hm0 : sec.lanes[i].type &&& mask = 0 := by
            rcases Classical.em (sec.lanes[i].type &&& mask = 0) with h | h
            · exact h
            · exact absurd h hm
          refine ⟨id, e, ?_⟩
          rcases hc with ⟨j, hj, h1, h2, h3, h4⟩ | ⟨hz, j, hj, h1, h2⟩
          · refine Or.inl ⟨j, hj, by omega, h2, h3, ?_⟩
            intro k hk hik hkj
            by_cases hki : k = i
            · subst hki; exact ⟨h0, hm0⟩
            · exact h4 k hk (by omega) hkj
          · refine Or.inr ⟨hz, j, hj, h1, ?_⟩
            intro k hk hik hkj
            by_cases hki : k = i
            · subst hki; exact ⟨h0, hm0⟩
            · exact h2 k hk (by omega) hkj
    · have hid : sec.idByIdx i = 0 := by
        unfold Section.idByIdx; rw [List.getElem?_eq_none (by omega)]
      simp only [hid, if_true]
      exact ⟨0, rfl, Or.inr ⟨rfl, i, hi, fun h => absurd h hlt, fun k _ h1 h2 => by omega⟩⟩

theorem outermost_left (sec : Section) (mask : Nat) (fuel i : Nat) (hf : i + 1 ≤ fuel)
    (hi : i < sec.lanes.length) :
    ∃ id, sec.outermost mask false fuel i = some id ∧
      ((∃ j, ∃ h : j < sec.lanes.length, j ≤ i ∧ sec.lanes[j].id = id ∧ sec.lanes[j].type &&& mask ≠ 0 ∧
          ∀ k (hk : k < sec.lanes.length), k ≤ i → j < k → sec.lanes[k].id ≠ 0 ∧ sec.lanes[k].type &&& mask = 0) ∨
       (id = 0 ∧ ((∃ j, ∃ h : j < sec.lanes.length, j ≤ i ∧ sec.lanes[j].id = 0 ∧
          ∀ k (hk : k < sec.lanes.length), k ≤ i → j < k → sec.lanes[k].id ≠ 0 ∧ sec.lanes[k].type &&& mask = 0) ∨
          ∀ k (hk : k < sec.lanes.length), k ≤ i → sec.lanes[k].id ≠ 0 ∧ sec.lanes[k].type &&& mask = 0))) := by
  induction fuel generalizing i with
  | zero => omega
  | succ fuel ih =>
    unfold Section.outermost
    have hid : sec.idByIdx i = sec.lanes[i].id := by
      unfold Section.idByIdx; rw [List.getElem?_eq_getElem hi]
    simp only [hid, List.getElem?_eq_getElem hi]
    by_cases h0 : sec.lanes[i].id = 0
    · rw [if_pos h0]
      exact ⟨0, rfl, Or.inr ⟨rfl, Or.inl ⟨i, hi, Nat.le_refl _, h0, fun k _ h1 h2 => by omega⟩⟩⟩
    · rw [if_neg h0]
      by_cases hm : sec.lanes[i].type &&& mask ≠ 0
      · rw [if_pos hm]
        exact ⟨_, rfl, Or.inl ⟨i, hi, Nat.le_refl _, rfl, hm, fun k _ h1 h2 => by omega⟩⟩
      · rw [if_neg hm]
        have hm0 : sec.lanes[i].type &&& mask = 0 := by
          rcases Classical.em (sec.lanes[i].type &&& mask = 0) with h | h
          · exact h
          · exact absurd h hm
        simp only [Bool.false_eq_true, if_false]
        by_cases hz : i = 0
        · rw [if_pos hz]
          refine ⟨0, rfl, Or.inr ⟨rfl, Or.inr ?_⟩⟩
          intro k hk hki
          have : k = i := by omega
          subst this; exact ⟨h0, hm0⟩
        · rw [if_neg hz]
          obtain ⟨id, e, hc⟩ := ih (i - 1) (by omega) (by omega)
          refine ⟨id, e, ?_⟩
          rcases hc with ⟨j, hj, h1, h2, h3, h4⟩ | ⟨hz, ⟨j, hj, h1, h2, h3⟩ | h1⟩
          · refine Or.inl ⟨j, hj, by omega, h2, h3, ?_⟩
            intro k hk hik hkj
            by_cases hki : k = i
            · subst hki; exact ⟨h0, hm0⟩
            · exact h4 k hk (by omega) hkj
          · refine Or.inr ⟨hz, Or.inl ⟨j, hj, by omega, h2, ?_⟩⟩
            intro k hk hik hkj
            by_cases hki : k = i
            · subst hki; exact ⟨h0, hm0⟩
            · exact h3 k hk (by omega) hkj
          · refine Or.inr ⟨hz, Or.inr ?_⟩
            intro k hk hik
            by_cases hki : k = i
            · subst hki; exact ⟨h0, hm0⟩
            · exact h1 k hk (by omega)

/-- `x` is the extent of the lanes of the types `mask` on the left side: the largest outer edge, 0 if
there is none. -/
def ExtentLeft (sec : Section) (s : Rat) (mask : Nat) (x : Rat) : Prop :=
  (∀ l ∈ sec.lanes, 0 < l.id → l.type &&& mask ≠ 0 → sec.outer s l.id ≤ x) ∧
    ((∃ l ∈ sec.lanes, 0 < l.id ∧ l.type &&& mask ≠ 0 ∧ x = sec.outer s l.id) ∨
     (x = 0 ∧ ∀ l ∈ sec.lanes, 0 < l.id → l.type &&& mask = 0))

/-- As `ExtentLeft`, on the right side. -/
def ExtentRight (sec : Section) (s : Rat) (mask : Nat) (x : Rat) : Prop :=
  (∀ l ∈ sec.lanes, l.id < 0 → l.type &&& mask ≠ 0 → sec.outer s l.id ≤ x) ∧
    ((∃ l ∈ sec.lanes, l.id < 0 ∧ l.type &&& mask ≠ 0 ∧ x = sec.outer s l.id) ∨
     (x = 0 ∧ ∀ l ∈ sec.lanes, l.id < 0 → l.type &&& mask = 0))

theorem fabs_of_nonneg {x : Rat} (h : 0 ≤ x) : fabs x = x := by unfold fabs; rw [if_neg (by grind)]

theorem left_extent (sec : Section) (s : Rat) (mask : Nat) (hw : Wide sec s)
    (hs : sec.lanes.Pairwise (fun a b => a.id > b.id)) (hz : ∃ l ∈ sec.lanes, l.id = 0) :
    ∃ id, sec.outermost mask true (sec.lanes.length + 1) 0 = some id ∧
      ExtentLeft sec s mask (fabs (sec.outer s id)) := by
  have hnn : ∀ id, 0 ≤ sec.outer s id := fun id => by
    rcases Int.le_total 0 id with h | h
    · exact (outer_grows sec s hw id id (Nat.le_refl _) (Or.inl ⟨h, h⟩)).1
    · exact (outer_grows sec s hw id id (Nat.le_refl _) (Or.inr ⟨h, h⟩)).1
  have hord : ∀ (i j : Nat) (hi : i < sec.lanes.length) (hj : j < sec.lanes.length), i < j →
      sec.lanes[i].id > sec.lanes[j].id := fun i j hi hj h => List.pairwise_iff_getElem.mp hs i j hi hj h
  obtain ⟨z, hzm, hz0⟩ := hz
  obtain ⟨zi, hzi, rfl⟩ := List.mem_iff_getElem.mp hzm
  obtain ⟨id, e, hc⟩ := outermost_right sec mask (sec.lanes.length + 1) 0 (by omega) (by omega)
  refine ⟨id, e, ?_⟩
  rw [fabs_of_nonneg (hnn id)]
  rcases hc with ⟨j, hj, _, h2, h3, h4⟩ | ⟨hid, j, hj, h1, h2⟩
  · have hjz : j ≤ zi := by
      rcases Nat.lt_or_ge zi j with h | h
      · exact absurd hz0 (h4 zi hzi (by omega) h).1
      · exact h
    have hpos : 0 ≤ sec.lanes[j].id := by
      by_cases he : j = zi
      · subst he; omega
      · have := hord j zi hj hzi (by omega); omega
    constructor
    · intro l hl hlp hlm
      obtain ⟨k, hk, rfl⟩ := List.mem_iff_getElem.mp hl
      have hjk : j ≤ k := by
        rcases Nat.lt_or_ge k j with h | h
        · exact absurd (h4 k hk (by omega) h).2 hlm
        · exact h
      have : sec.lanes[k].id ≤ sec.lanes[j].id := by
        by_cases he : j = k
        · subst he; omega
        · have := hord j k hj hk (by omega); omega
      rw [← h2]
      exact (outer_grows sec s hw _ _ (by omega) (Or.inl ⟨by omega, by omega⟩)).2
    · by_cases hp : 0 < sec.lanes[j].id
      · exact Or.inl ⟨sec.lanes[j], List.getElem_mem _, hp, h3, by rw [h2]⟩
      · right
        have hid0 : id = 0 := by omega
        refine ⟨by rw [hid0]; exact outer_zero sec s, ?_⟩
        intro l hl hlp
        obtain ⟨k, hk, rfl⟩ := List.mem_iff_getElem.mp hl
        have hkj : k < j := by
          rcases Nat.lt_or_ge k j with h | h
          · exact h
          · by_cases he : j = k
            · subst he; omega
            · have := hord j k hj hk (by omega); omega
        exact (h4 k hk (by omega) hkj).2
  · subst hid
    rw [outer_zero]
    have hjz : j = zi := by
      rcases Nat.lt_trichotomy j zi with h | h | h
      · have hjl : j < sec.lanes.length := by omega
        have h5 := hord j zi hjl hzi h
        have := h1 hjl
        omega
      · exact h
      · exact absurd hz0 (h2 zi hzi (by omega) h).1
    subst hjz
    have hnone : ∀ l ∈ sec.lanes, 0 < l.id → l.type &&& mask = 0 := by
      intro l hl hlp
      obtain ⟨k, hk, rfl⟩ := List.mem_iff_getElem.mp hl
      have hkj : k < j := by
        rcases Nat.lt_or_ge k j with h | h
        · exact h
        · by_cases he : j = k
          · subst he; omega
          · have := hord j k hzi hk (by omega); omega
      exact (h2 k hk (by omega) hkj).2
    exact ⟨fun l hl hlp hlm => absurd (hnone l hl hlp) hlm, Or.inr ⟨rfl, hnone⟩⟩

theorem right_extent (sec : Section) (s : Rat) (mask : Nat) (hw : Wide sec s)
    (hs : sec.lanes.Pairwise (fun a b => a.id > b.id)) (hz : ∃ l ∈ sec.lanes, l.id = 0) :
    ∃ id, sec.outermost mask false (sec.lanes.length + 1) (sec.lanes.length - 1) = some id ∧
      ExtentRight sec s mask (fabs (sec.outer s id)) := by
  have hnn : ∀ id, 0 ≤ sec.outer s id := fun id => by
    rcases Int.le_total 0 id with h | h
    · exact (outer_grows sec s hw id id (Nat.le_refl _) (Or.inl ⟨h, h⟩)).1
    · exact (outer_grows sec s hw id id (Nat.le_refl _) (Or.inr ⟨h, h⟩)).1
  have hord : ∀ (i j : Nat) (hi : i < sec.lanes.length) (hj : j < sec.lanes.length), i < j →
      sec.lanes[i].id > sec.lanes[j].id := fun i j hi hj h => List.pairwise_iff_getElem.mp hs i j hi hj h
  obtain ⟨z, hzm, hz0⟩ := hz
  obtain ⟨zi, hzi, rfl⟩ := List.mem_iff_getElem.mp hzm
  obtain ⟨id, e, hc⟩ := outermost_left sec mask (sec.lanes.length + 1) (sec.lanes.length - 1) (by omega) (by omega)
  refine ⟨id, e, ?_⟩
  rw [fabs_of_nonneg (hnn id)]
  have main : ∀ j (hj : j < sec.lanes.length), sec.lanes[j].id = id →
      (∀ k (hk : k < sec.lanes.length), k ≤ sec.lanes.length - 1 → j < k →
        sec.lanes[k].id ≠ 0 ∧ sec.lanes[k].type &&& mask = 0) →
      (sec.lanes[j].type &&& mask ≠ 0 ∨ id = 0) → ExtentRight sec s mask (sec.outer s id) := by
    intro j hj h2 h4 h3
    have hjz : zi ≤ j := by
      rcases Nat.lt_or_ge j zi with h | h
      · exact absurd hz0 (h4 zi hzi (by omega) h).1
      · exact h
    have hneg : sec.lanes[j].id ≤ 0 := by
      by_cases he : j = zi
      · subst he; omega
      · have := hord zi j hzi hj (by omega); omega
    constructor
    · intro l hl hlp hlm
      obtain ⟨k, hk, rfl⟩ := List.mem_iff_getElem.mp hl
      have hjk : k ≤ j := by
        rcases Nat.lt_or_ge j k with h | h
        · exact absurd (h4 k hk (by omega) h).2 hlm
        · exact h
      have : sec.lanes[k].id ≥ sec.lanes[j].id := by
        by_cases he : j = k
        · subst he; omega
        · have := hord k j hk hj (by omega); omega
      rw [← h2]
      exact (outer_grows sec s hw _ _ (by omega) (Or.inr ⟨by omega, by omega⟩)).2
    · by_cases hp : sec.lanes[j].id < 0
      · refine Or.inl ⟨sec.lanes[j], List.getElem_mem _, hp, ?_, by rw [h2]⟩
        rcases h3 with h3 | h3
        · exact h3
        · omega
      · right
        have hid0 : id = 0 := by omega
        refine ⟨by rw [hid0]; exact outer_zero sec s, ?_⟩
        intro l hl hlp
        obtain ⟨k, hk, rfl⟩ := List.mem_iff_getElem.mp hl
        have hkj : j < k := by
          rcases Nat.lt_or_ge j k with h | h
          · exact h
          · by_cases he : j = k
            · subst he; omega
            · have := hord k j hk hj (by omega); omega
        exact (h4 k hk (by omega) hkj).2
  rcases hc with ⟨j, hj, _, h2, h3, h4⟩ | ⟨hid, ⟨j, hj, _, h1, h2⟩ | h1⟩
  · exact main j hj h2 h4 (Or.inl h3)
  · exact main j hj (by omega) h2 (Or.inr hid)
  · exact absurd hz0 (h1 zi hzi (by omega)).1

/-- Width of a road with a centre lane, for non-negative widths: on one side the outer edge of the
outermost lane of the types asked for (0 if there is none), for both sides the sum. -/
theorem roadWidth_partial (sec : Section) (s : Rat) (mask : Nat) (hw : Wide sec s)
    (hs : sec.lanes.Pairwise (fun a b => a.id > b.id)) (hz : ∃ l ∈ sec.lanes, l.id = 0) :
    ∃ xl xr, ExtentLeft sec s mask xl ∧ ExtentRight sec s mask xr ∧
      sec.roadWidth s 1 mask = some xl ∧ sec.roadWidth s (-1) mask = some xr ∧
      sec.roadWidth s 0 mask = some (xr + xl) := by
  obtain ⟨il, el, hl⟩ := left_extent sec s mask hw hs hz
  obtain ⟨ir, er, hr⟩ := right_extent sec s mask hw hs hz
  obtain ⟨z, hzm, _⟩ := hz
  have hpos : sec.lanes.length > 0 := List.length_pos_of_mem hzm
  refine ⟨_, _, hl, hr, ?_, ?_, ?_⟩
  · unfold Section.roadWidth; simp [el]; grind
  · unfold Section.roadWidth; simp [er, hpos]; grind
  · unfold Section.roadWidth; simp [er, el, hpos]

example : demo.roadWidth 10 0 3 = some 9 ∧ demo.roadWidth 10 (-1) 1 = some 3 ∧ demo.roadWidth 10 1 2 = some 0 := by
  refine ⟨?_, ?_, ?_⟩ <;> decide +kernel

/-- Without centre lane the search runs on to the lanes of the other side: the left side has no lane of
the type, yet its width is reported as that of the right side. -/
theorem roadWidth_without_centre_fails_witness :
    let sec : Section := ⟨0, 100, [⟨1, 1, [⟨0, ⟨3, 0, 0, 0, 1⟩⟩], none, none⟩,
      ⟨-1, 2, [⟨0, ⟨5, 0, 0, 0, 1⟩⟩], none, none⟩]⟩
    sec.roadWidth 10 1 2 = some 5 := by decide +kernel

/-! ## Lane links along the road -/

/-- The lane reached from lane `id` by following the links of the sections in turn. -/
def follow (fwd : Bool) (secs : List Section) (id : Int) : Int :=
  secs.foldl (fun k sec => if k = 0 then 0 else
    match sec.lanes.find? (fun l => l.id == k) with
    | none => 0
    | some l => ((if fwd then l.succ else l.pred).getD k)) id

theorem follow_cons (fwd : Bool) (sec : Section) (secs : List Section) (id : Int) :
    follow fwd (sec :: secs) id = follow fwd secs (sec.connecting id fwd) := by
  unfold follow
  rw [List.foldl_cons]
  congr 1
  unfold Section.connecting Section.laneById
  by_cases h : id = 0
  · simp [h]
  · rw [if_neg h, if_neg h]
    cases sec.lanes.find? (fun l => l.id == id) with
    | none => rfl
    | some l => simp only; cases (if fwd then l.succ else l.pred) <;> rfl

theorem follow_zero (fwd : Bool) (secs : List Section) : follow fwd secs 0 = 0 := by
  induction secs with
  | nil => rfl
  | cons sec secs ih =>
    rw [follow_cons]
    have : sec.connecting 0 fwd = 0 := by simp [Section.connecting]
    rw [this, ih]

theorem connFwd_end (secs : List Section) (target : Rat) (fuel j : Nat) (id : Int) (s : Rat)
    (hf : secs.length ≤ fuel + j) (hs : s < target)
    (hall : ∀ sec ∈ secs, sec.s < target) :
    connFwd secs target fuel j id s = follow true (secs.drop j).dropLast id := by
  induction fuel generalizing j id s with
  | zero =>
    have : secs.drop j = [] := List.drop_eq_nil_of_le (by omega)
    rw [this]; rfl
  | succ fuel ih =>
    unfold connFwd
    by_cases hid : id = 0
    · subst hid; rw [if_neg (by simp), follow_zero]
    · by_cases hj : j < secs.length - 1
      · rw [if_pos ⟨hid, hj, hs⟩]
        have hjl : j < secs.length := by omega
        rw [List.getElem?_eq_getElem hjl]
        simp only
        rw [ih (j + 1) _ _ (by omega) (hall _ (List.getElem_mem _))]
        rw [List.drop_eq_getElem_cons hjl]
        have hne : secs.drop (j + 1) ≠ [] := by
          intro he; rw [List.drop_eq_nil_iff] at he; omega
        rw [List.dropLast_cons_of_ne_nil hne, follow_cons]
      · rw [if_neg (fun h => hj h.2.1)]
        have : (secs.drop j).dropLast = [] := by
          apply List.eq_nil_of_length_eq_zero
          rw [List.length_dropLast, List.length_drop]; omega
        rw [this]; rfl

theorem connBwd_start (secs : List Section) (target : Rat) (j : Nat) (id : Int) (s : Rat)
    (hj : j < secs.length) (hs : s > target)
    (hall : ∀ k (hk : k < secs.length), 0 < k → secs[k].s > target) :
    connBwd secs target j id s = follow false ((secs.take (j + 1)).drop 1).reverse id := by
  induction j generalizing id s with
  | zero =>
    cases secs with
    | nil => simp at hj
    | cons a r => simp [connBwd, follow]
  | succ j ih =>
    unfold connBwd
    by_cases hid : id = 0
    · subst hid; rw [if_neg (by simp), follow_zero]
    · rw [if_pos ⟨hid, hs⟩, List.getElem?_eq_getElem hj]
      simp only
      rw [ih _ _ (by omega) (hall _ hj (by omega))]
      rw [List.take_add_one (i := j + 1), List.getElem?_eq_getElem hj]
      simp only [Option.toList_some]
      rw [List.drop_append_of_le_length (by rw [List.length_take]; omega), List.reverse_append,
        List.reverse_singleton, List.singleton_append, follow_cons]

/-- The lane at the end of the road (asked for by a negative distance), from lane `id` at `s`: the
successor links of the sections from that of `s` to the last but one are followed. -/
theorem connected_to_end_partial (secs : List Section) (L : Rat) (id : Int) (s st : Rat) (i : Nat)
    (h0 : 0 ≤ s) (hsL : s < L) (hst : st < -small) (hall : ∀ sec ∈ secs, sec.s < L)
    (hi : sectionIdx (secs.map (fun x => ⟨x.s, x.len⟩)) s 0 = some i) :
    connectedLane secs L id s st = follow true (secs.drop i).dropLast id := by
  have hsm : (0 : Rat) < small := by decide +kernel
  unfold connectedLane
  rw [if_pos (by grind), if_neg (by grind)]
  simp only [hi]
  rw [if_pos (by grind)]
  exact connFwd_end secs L _ i id s (by omega) hsL hall

theorem sectionIdx_lt (l : List Span) (s : Rat) (h i : Nat) (he : sectionIdx l s h = some i) : i < l.length := by
  unfold sectionIdx at he
  cases hg : l[h]? with
  | none => rw [hg] at he; simp at he
  | some e =>
    have hh := (List.getElem?_eq_some_iff.mp hg).1
    rw [hg] at he
    simp only at he
    by_cases hb : s < e.s ∧ h > 0
    · rw [if_pos hb] at he
      obtain ⟨_, f2, _⟩ := secBwd_spec l s (h - 1) (by omega)
      have := Option.some.inj he; omega
    · rw [if_neg hb] at he
      obtain ⟨_, f2, _⟩ := secFwd_spec l s h (by omega)
      by_cases hend : secFwd l s h = l.length
      · rw [if_pos hend] at he
        cases hl : l.getLast? with
        | none => rw [hl] at he; simp at he
        | some b =>
          rw [hl] at he
          simp only at he
          split at he
          · simp at he
          · have := Option.some.inj he; omega
      · rw [if_neg hend] at he
        have := Option.some.inj he; omega

/-- The lane at the start of the road, from lane `id` at `s`: the predecessor links of the sections from
that of `s` to the second are followed. -/
theorem connected_to_start_partial (secs : List Section) (L : Rat) (id : Int) (s : Rat) (i : Nat)
    (hs : small ≤ s) (hall : ∀ k (hk : k < secs.length), 0 < k → secs[k].s > 0)
    (hi : sectionIdx (secs.map (fun x => ⟨x.s, x.len⟩)) s 0 = some i) :
    connectedLane secs L id s 0 = follow false ((secs.take (i + 1)).drop 1).reverse id := by
  have hsm : (0 : Rat) < small := by decide +kernel
  have hlt := sectionIdx_lt _ _ _ _ hi
  rw [List.length_map] at hlt
  unfold connectedLane
  rw [if_neg (by grind), if_neg (by grind)]
  simp only [hi]
  rw [if_neg (by grind)]
  exact connBwd_start secs 0 i id s hlt (by grind) hall

/-- Three sections of 10 m; the ids of the same lane are -1, -2, -3. -/
def linked : List Section := [
  ⟨0, 10, [⟨-1, 1, [], some (-2), none⟩]⟩,
  ⟨10, 10, [⟨-2, 1, [], some (-3), some (-1)⟩]⟩,
  ⟨20, 10, [⟨-3, 1, [], none, some (-2)⟩]⟩]

example : connectedLane linked 30 (-1) 5 (-1) = -3 ∧ connectedLane linked 30 (-3) 25 0 = -1 := by decide +kernel

/-- Asked for a place within the road the function goes too far: from 5 to 7 in the first section the
lane should stay -1, but the lane of the third section is returned; from 25 to 15 it should be -2. -/
theorem connected_within_fails :
    ¬ ∀ (secs : List Section) (L s t : Rat) (id : Int) (i j : Nat), 0 ≤ s → s < L → 0 ≤ t → t < L →
      sectionIdx (secs.map (fun x => ⟨x.s, x.len⟩)) s 0 = some i →
      sectionIdx (secs.map (fun x => ⟨x.s, x.len⟩)) t 0 = some j → i = j →
      connectedLane secs L id s t = id := by
  intro h
  have := h linked 30 5 7 (-1) 0 0 (by decide +kernel) (by decide +kernel) (by decide +kernel)
    (by decide +kernel) (by decide +kernel) (by decide +kernel) rfl
  revert this; decide +kernel

theorem connected_backwards_witness : connectedLane linked 30 (-3) 25 15 = -1 ∧
    connectedLane linked 30 (-3) 25 22 = -2 := by decide +kernel

/-! ## Lane along the road -/

theorem infoFwd_spec (secs : List Section) (s : Rat) (fuel j : Nat) (id : Int) (hf : secs.length ≤ fuel + j)
    (hj : j < secs.length) :
    match infoFwd secs s fuel j id with
    | (k, id') => j ≤ k ∧ ∃ h : k < secs.length,
        id' = follow true ((secs.drop j).take (k - j)) id ∧
        (k + 1 = secs.length ∨ s ≤ secs[k].s + secs[k].len - small) ∧
        ∀ m (hm : m < secs.length), j ≤ m → m < k → s > secs[m].s + secs[m].len - small := by
  induction fuel generalizing j id with
  | zero => omega
  | succ fuel ih =>
    unfold infoFwd
    rw [List.getElem?_eq_getElem hj]
    simp only
    by_cases hc : s > secs[j].s + secs[j].len - small ∧ j + 1 < secs.length
    · rw [if_pos hc]
      have hconn : (if id ≠ 0 then secs[j].connecting id true else id) = secs[j].connecting id true := by
        by_cases h : id = 0
        · subst h; simp [Section.connecting]
        · rw [if_pos h]
      rw [hconn]
      have := ih (j + 1) (secs[j].connecting id true) (by omega) hc.2
      generalize infoFwd secs s fuel (j + 1) (secs[j].connecting id true) = r at *
      obtain ⟨k, id'⟩ := r
      simp only at this ⊢
      obtain ⟨h1, h2, h3, h4, h5⟩ := this
      refine ⟨by omega, h2, ?_, h4, ?_⟩
      · rw [h3, List.drop_eq_getElem_cons hj]
        have e : k - j = (k - (j + 1)) + 1 := by omega
        rw [e, List.take_succ_cons, follow_cons]
      · intro m hm hjm hmk
        by_cases he : m = j
        · subst he; exact hc.1
        · exact h5 m hm (by omega) hmk
    · rw [if_neg hc]
      simp only
      refine ⟨Nat.le_refl _, hj, by simp [follow], ?_, fun m _ h1 h2 => by omega⟩
      by_cases h2 : j + 1 < secs.length
      · right
        rcases Classical.em (s > secs[j].s + secs[j].len - small) with h | h
        · exact absurd ⟨h, h2⟩ hc
        · grind
      · left; omega

theorem infoBwd_spec (secs : List Section) (s : Rat) (j : Nat) (id : Int) (hj : j < secs.length) :
    match infoBwd secs s j id with
    | (k, id') => k ≤ j ∧ ∃ h : k < secs.length,
        id' = follow false ((secs.take (j + 1)).drop (k + 1)).reverse id ∧
        (k = 0 ∨ secs[k].s ≤ s) ∧
        ∀ m (hm : m < secs.length), k < m → m ≤ j → s < secs[m].s := by
  induction j generalizing id with
  | zero =>
    unfold infoBwd
    simp only
    refine ⟨Nat.le_refl _, hj, ?_, Or.inl trivial, fun m _ h1 h2 => by omega⟩
    cases secs with
    | nil => simp at hj
    | cons a r => simp [follow]
  | succ j ih =>
    unfold infoBwd
    rw [List.getElem?_eq_getElem hj]
    simp only
    by_cases hc : s < secs[j + 1].s
    · rw [if_pos hc]
      have hconn : (if id ≠ 0 then secs[j + 1].connecting id false else id) = secs[j + 1].connecting id false := by
        by_cases h : id = 0
        · subst h; simp [Section.connecting]
        · rw [if_pos h]
      rw [hconn]
      have := ih (secs[j + 1].connecting id false) (by omega)
      generalize infoBwd secs s j (secs[j + 1].connecting id false) = r at *
      obtain ⟨k, id'⟩ := r
      simp only at this ⊢
      obtain ⟨h1, h2, h3, h4, h5⟩ := this
      refine ⟨by omega, h2, ?_, h4, ?_⟩
      · rw [h3, List.take_add_one (i := j + 1), List.getElem?_eq_getElem hj]
        simp only [Option.toList_some]
        rw [List.drop_append_of_le_length (by rw [List.length_take]; omega), List.reverse_append,
          List.reverse_singleton, List.singleton_append, follow_cons]
      · intro m hm hkm hmj
        by_cases he : m = j + 1
        · subst he; exact hc
        · exact h5 m hm hkm (by omega)
    · rw [if_neg hc]
      simp only
      refine ⟨Nat.le_refl _, hj, ?_, Or.inr (by grind), fun m _ h1 h2 => by omega⟩
      rw [List.drop_eq_nil_of_le (by rw [List.length_take]; omega)]
      rfl

/-- Moving along a road from section `j` and lane `id` to `s`: the section reached contains `s` (up to
1e-6 at its end), or is the first or last one, and the lane is the one the links of the sections in
between lead to, forwards by successor links, backwards by predecessor links. -/
theorem laneInfo_follows_links (secs : List Section) (s : Rat) (j : Nat) (id : Int) (hj : j < secs.length)
    (hlen : ∀ sec ∈ secs, 0 ≤ sec.len)
    (hadj : ∀ m (hm : m + 1 < secs.length), secs[m].s + secs[m].len = secs[m + 1].s) :
    match laneInfo secs s j id with
    | (k, id') => ∃ h : k < secs.length,
        (k = 0 ∨ secs[k].s ≤ s ∨ secs[k].s - small < s) ∧
        (k + 1 = secs.length ∨ s ≤ secs[k].s + secs[k].len) ∧
        (j ≤ k → id' = follow true ((secs.drop j).take (k - j)) id) ∧
        (k < j → id' = follow false ((secs.take (j + 1)).drop (k + 1)).reverse id) := by
  have hsm : (0 : Rat) < small := by decide +kernel
  unfold laneInfo
  rw [List.getElem?_eq_getElem hj]
  simp only
  by_cases h1 : s > secs[j].s + secs[j].len
  · rw [if_pos h1]
    have := infoFwd_spec secs s secs.length j id (by omega) hj
    generalize infoFwd secs s secs.length j id = r at *
    obtain ⟨k, id'⟩ := r
    simp only at this ⊢
    obtain ⟨g1, g2, g3, g4, g5⟩ := this
    refine ⟨g2, ?_, ?_, fun _ => g3, fun h => by omega⟩
    · by_cases hk : k = 0
      · exact Or.inl hk
      · by_cases hkj : k = j
        · subst hkj
          right; left
          have := hlen secs[k] (List.getElem_mem _)
          grind
        · have hm : k - 1 < secs.length := by omega
          have := g5 (k - 1) hm (by omega) (by omega)
          have e : k - 1 + 1 = k := by omega
          have ha := hadj (k - 1) (by omega)
          simp only [e] at ha
          right; right; grind
    · rcases g4 with g4 | g4
      · exact Or.inl g4
      · right; grind
  · rw [if_neg h1]
    by_cases h2 : s < secs[j].s
    · rw [if_pos h2]
      have := infoBwd_spec secs s j id hj
      generalize infoBwd secs s j id = r at *
      obtain ⟨k, id'⟩ := r
      simp only at this ⊢
      obtain ⟨g1, g2, g3, g4, g5⟩ := this
      refine ⟨g2, ?_, ?_, ?_, fun _ => g3⟩
      · rcases g4 with g4 | g4
        · exact Or.inl g4
        · exact Or.inr (Or.inl g4)
      · by_cases hkj : k = j
        · subst hkj; right; grind
        · have := g5 (k + 1) (by omega) (by omega) (by omega)
          have ha := hadj k (by omega)
          right; grind
      · intro hjk
        have : k = j := by omega
        subst this
        rw [g3, List.drop_eq_nil_of_le (by rw [List.length_take]; omega)]
        simp [follow]
    · rw [if_neg h2]
      refine ⟨hj, Or.inr (Or.inl (by grind)), Or.inr (by grind), ?_, fun h => by omega⟩
      intro _; simp [follow]

example : laneInfo linked 25 0 (-1) = (2, -3) ∧ laneInfo linked 5 2 (-3) = (0, -1) := by decide +kernel

end Verif.Road

import Verif.Limit.Spec
import Verif.Road.ProfileTheorems

/-!
# Theorems on speed limits
-/

namespace Verif.Limit

open Verif.Road

/-! ## The entry that applies -/

theorem lastFor_at (a b : List TypeNode) (n : TypeNode) (hb : ∀ m ∈ b, m.s ≠ n.s) :
    lastFor ((a ++ n :: b).map (fun n => (n.s, entryOf n))) n.s = some (entryOf n) := by
  have : (b.map (fun n => (n.s, entryOf n))).filter (fun e => decide (e.1 = n.s)) = [] := by
    rw [List.filter_eq_nil_iff]
    intro e he
    obtain ⟨m, hm, rfl⟩ := List.mem_map.1 he
    simpa using hb m hm
  simp only [lastFor, List.map_append, List.map_cons, List.filter_append, List.filter_cons, this, decide_true, if_true]
  simp

theorem entry_applies {ns : List TypeNode} {s : Rat} {n : TypeNode} (h : Applies ns s n) :
    typeByS (entries ns) s = some (n.s, entryOf n) := by
  obtain ⟨a, b, rfl, h⟩ := h
  have hmap : ∀ m ∈ a ++ n :: b, (m.s, entryOf m) ∈ (a ++ n :: b).map (fun n => (n.s, entryOf n)) :=
    fun m hm => List.mem_map.2 ⟨m, hm, rfl⟩
  rcases h with ⟨h1, h2, h3⟩ | ⟨h1, h2, h3⟩
  · obtain ⟨e, he, hf, hl⟩ := type_in_force ((a ++ n :: b).map (fun n => (n.s, entryOf n))) s
      ⟨_, hmap n (by simp), h1⟩
    obtain ⟨hm, hes, hmax⟩ := hf
    have hle : n.s ≤ e.1 := hmax _ (hmap n (by simp)) h1
    have hge : e.1 ≤ n.s := by
      obtain ⟨m, hm', rfl⟩ := List.mem_map.1 hm
      rcases List.mem_append.1 hm' with h | h
      · exact h2 m h hes
      · rcases List.mem_cons.1 h with rfl | h
        · exact Rat.le_refl
        · exact Rat.le_of_lt (h3 m h hes)
    have heq : e.1 = n.s := Rat.le_antisymm hge hle
    have hb : ∀ m ∈ b, m.s ≠ n.s := by
      intro m hm' hc
      have := h3 m hm' (by rw [hc]; exact h1)
      rw [hc] at this
      exact absurd this Rat.lt_irrefl
    rw [heq, lastFor_at a b n hb] at hl
    unfold entries
    rw [he]
    cases e
    simp_all
  · obtain ⟨e, he, hf, hl⟩ := type_before_all ((a ++ n :: b).map (fun n => (n.s, entryOf n))) s
      (by simp) (by
        intro e he
        obtain ⟨m, hm, rfl⟩ := List.mem_map.1 he
        exact h1 m hm)
    obtain ⟨hm, hmin⟩ := hf
    have hge : e.1 ≤ n.s := hmin _ (hmap n (by simp))
    have hle : n.s ≤ e.1 := by
      obtain ⟨m, hm', rfl⟩ := List.mem_map.1 hm
      rcases List.mem_append.1 hm' with h | h
      · exact h2 m h
      · rcases List.mem_cons.1 h with rfl | h
        · exact Rat.le_refl
        · exact Rat.le_of_lt (h3 m h)
    have heq : e.1 = n.s := Rat.le_antisymm hge hle
    have hb : ∀ m ∈ b, m.s ≠ n.s := by
      intro m hm' hc
      have := h3 m hm'
      rw [hc] at this
      exact absurd this Rat.lt_irrefl
    rw [heq, lastFor_at a b n hb] at hl
    unfold entries
    rw [he]
    cases e
    simp_all

theorem speed_unit {u : Text} {d t : Rat} (h : UnitIs u d t) (s : Rat) (ty : Text) (v : Rat) :
    (entryOf ⟨s, ty, some ⟨.number v, u⟩⟩).speed = v * d / t := by
  cases h
  · simp only [entryOf, Max.atof, if_true]; grind
  · have : ¬ ("mph".toList = "km/h".toList) := by decide +kernel
    simp only [entryOf, Max.atof, this, if_false, if_true]; grind
  · have h1 : ¬ ("m/s".toList = "km/h".toList) := by decide +kernel
    have h2 : ¬ ("m/s".toList = "mph".toList) := by decide +kernel
    simp only [entryOf, Max.atof, h1, h2, if_false, if_true]; grind

/-- **C171**: where the element `type` that applies states a speed, the limit is that speed in metres
per second. -/
theorem limit_stated (r : Road) (s : Rat) (id : Int) (n : TypeNode) (h : Applies r.types s n)
    (u : Text) (d t v : Rat) (hu : UnitIs u d t) (hn : n.speed = some ⟨.number v, u⟩)
    (hv : 1 / 1000000 ≤ v * d / t) : speedLimit (some r) s id = v * d / t := by
  have hs : speedByS r.types s = v * d / t := by
    simp only [speedByS, entry_applies h]
    rw [← speed_unit hu n.s n.type v, ← hn]
  have : ¬ (v * d / t < small) := by unfold small; grind
  simp only [speedLimit, hs, this, if_false]

/-- **C171**: the speed reported for the road (`speed_limit` of the road information) is that speed, and
zero where the element states none. -/
theorem reported_speed (ns : List TypeNode) (s : Rat) (n : TypeNode) (h : Applies ns s n) :
    (∀ u d t v, UnitIs u d t → n.speed = some ⟨.number v, u⟩ → speedByS ns s = v * d / t) ∧
    (n.speed = none → speedByS ns s = 0) ∧ (∀ u, n.speed = some ⟨.word, u⟩ → speedByS ns s = 0) := by
  refine ⟨fun u d t v hu hn => ?_, fun hn => ?_, fun u hn => ?_⟩
  · simp only [speedByS, entry_applies h]
    rw [← speed_unit hu n.s n.type v, ← hn]
  · simp only [speedByS, entry_applies h, entryOf, hn]
  · simp only [speedByS, entry_applies h, entryOf, hn, Max.atof]
    split
    · grind
    · split
      · grind
      · split <;> rfl

/-- **C171**: the type reported is that of the element that applies. -/
theorem reported_type (ns : List TypeNode) (s : Rat) (n : TypeNode) (h : Applies ns s n) (i : Nat)
    (hi : typeNames[i]? = some n.type) : typeAt ns s = i := by
  have hl : i < typeNames.length := (List.getElem?_eq_some_iff.1 hi).1
  have ht : (entryOf n).type = roadType n.type := by
    unfold entryOf
    split
    · rfl
    · simp only
      split
      · rfl
      · split
        · rfl
        · split <;> rfl
  simp only [typeAt, entry_applies h, ht]
  have key : ∀ i, i < 13 → ∀ t, typeNames[i]? = some t → roadType t = i := by
    intro i hi
    have : ∀ i, i < 13 → (typeNames[i]?).map roadType = some i := by decide +kernel
    intro t ht
    have := this i hi
    rw [ht] at this
    simpa using this
  exact key i hl n.type hi

/-! ## Without a stated speed -/

theorem sectionAt_applies : ∀ (rest : List Section) (sec x : Section) (s : Rat), Increasing (sec :: rest) →
    SectionApplies (sec :: rest) s x → sectionAt sec rest s = x
  | [], sec, x, s, _, h => by
    obtain ⟨a, b, h, -, -⟩ := h
    cases a with
    | nil => simp at h; simp [sectionAt, h.1]
    | cons c d => simp at h
  | n :: ns, sec, x, s, hi, h => by
    obtain ⟨a, b, he, ha, hb⟩ := h
    cases a with
    | nil =>
      simp at he
      have : s < n.s := hb n (by rw [← he.2]; simp)
      simp [sectionAt, this, he.1]
    | cons c d =>
      simp only [List.cons_append, List.cons.injEq] at he
      obtain ⟨rfl, he⟩ := he
      have hx : x.s ≤ s := by simpa using ha
      have hi' : Increasing (n :: ns) := (List.pairwise_cons.1 hi).2
      have hn : n.s ≤ x.s := by
        cases d with
        | nil => simp at he; rw [he.1]; exact Rat.le_refl
        | cons c' d' =>
          simp only [List.cons_append, List.cons.injEq] at he
          have := (List.pairwise_cons.1 hi').1 x (by rw [he.2]; simp)
          exact Rat.le_of_lt this
      have : ¬ (s < n.s) := by grind
      simp only [sectionAt, this, if_false]
      exact sectionAt_applies ns n x s hi' ⟨d, b, he, .inr hx, hb⟩

theorem two_iff (p : Lane → Bool) (q : Lane → Prop) (hq : ∀ l, p l = true ↔ q l) :
    ∀ ls : List Lane, 1 < ls.countP p ↔ Two q ls
  | [] => by
    constructor
    · intro h; simp at h
    · rintro ⟨a, x, b, y, c, h, -⟩; simp at h
  | l :: ls => by
    have ih := two_iff p q hq ls
    rw [List.countP_cons]
    constructor
    · intro h
      by_cases hl : p l = true
      · rw [if_pos hl] at h
        have : 0 < ls.countP p := by omega
        obtain ⟨y, hy, hpy⟩ := List.countP_pos_iff.1 this
        obtain ⟨b, c, rfl⟩ := List.append_of_mem hy
        exact ⟨[], l, b, y, c, by simp, (hq l).1 hl, (hq y).1 hpy⟩
      · rw [if_neg hl] at h
        obtain ⟨a, x, b, y, c, rfl, hx, hy⟩ := ih.1 (by omega)
        exact ⟨l :: a, x, b, y, c, by simp, hx, hy⟩
    · rintro ⟨a, x, b, y, c, h, hx, hy⟩
      cases a with
      | nil =>
        simp only [List.nil_append, List.cons_append, List.cons.injEq] at h
        obtain ⟨rfl, rfl⟩ := h
        have : 0 < (b ++ y :: c).countP p := List.countP_pos_iff.2 ⟨y, by simp, (hq y).2 hy⟩
        rw [if_pos ((hq l).2 hx)]
        omega
      | cons a0 a1 =>
        simp only [List.cons_append, List.cons.injEq] at h
        have := ih.2 ⟨a1, x, b, y, c, h.2, hx, hy⟩
        omega

theorem side_iff (id : Int) (l : Lane) : (sign l.id == sign (sign id) && l.isDriving) = true ↔ SameSide id l := by
  unfold sign Lane.isDriving SameSide
  by_cases h1 : id < 0 <;> by_cases h2 : l.id < 0 <;> by_cases h3 : l.id = 0 <;> simp [h1, h2, h3] <;> grind

/-- **C171**: where no speed is stated (no element `type`, none with a speed, or a word such as `no limit`),
the limit is 120 km/h if the road has two driving lanes or more on that side there, otherwise 60 km/h. -/
theorem limit_default (r : Road) (s : Rat) (id : Int) (x : Section)
    (hx : SectionApplies (r.first :: r.rest) s x) (hi : Increasing (r.first :: r.rest))
    (h : r.types = [] ∨ ∃ n, Applies r.types s n ∧ (n.speed = none ∨ ∃ u, n.speed = some ⟨.word, u⟩)) :
    (Two (SameSide id) x.lanes → speedLimit (some r) s id * 3600 = 120 * 1000) ∧
    (¬ Two (SameSide id) x.lanes → speedLimit (some r) s id * 3600 = 60 * 1000) := by
  have h0 : speedByS r.types s = 0 := by
    rcases h with h | ⟨n, hn, h | ⟨u, h⟩⟩
    · rw [h]; rfl
    · exact (reported_speed _ _ n hn).2.1 h
    · exact (reported_speed _ _ n hn).2.2 u h
  have hsm : (0 : Rat) < small := by decide +kernel
  have hsec := sectionAt_applies r.rest r.first x s hi hx
  have h2 := two_iff _ (SameSide id) (side_iff id) x.lanes
  simp only [speedLimit, h0, hsm, if_true, hsec, drivingSide]
  constructor
  · intro ht
    rw [if_pos (h2.2 ht)]; grind
  · intro ht
    rw [if_neg (fun hc => ht (h2.1 hc))]; grind

/-- **C171**: the limit at a position is always positive. -/
theorem limit_pos (road : Option Road) (s : Rat) (id : Int) : 0 < speedLimit road s id := by
  unfold speedLimit small
  cases road with
  | none => grind
  | some r => simp only; repeat' split <;> grind

/-- **C171**: a vehicle driven with the keyboard never gets a maximum speed above its own or above the limit
times the factor; and it is one of the two. -/
theorem interactive_max (r : Road) (s : Rat) (id : Int) (factor maxSpeed : Rat) :
    interactiveMax r s id factor maxSpeed ≤ maxSpeed ∧
    interactiveMax r s id factor maxSpeed ≤ factor * speedLimit (some r) s id ∧
    (interactiveMax r s id factor maxSpeed = maxSpeed ∨
      interactiveMax r s id factor maxSpeed = factor * speedLimit (some r) s id) := by
  have h : ¬ (speedLimit (some r) s id < small) := by
    unfold speedLimit small
    simp only
    repeat' split <;> grind
  simp only [interactiveMax, h, if_false, cmin]
  split <;> grind

/-- **C171**: the follower off the road drives at most 20 % faster than the limit. -/
theorem offroad_max (road : Option Road) (s : Rat) (id : Int) (maxSpeed : Rat) :
    offroadMax road s id maxSpeed ≤ maxSpeed ∧
    offroadMax road s id maxSpeed ≤ speedLimit road s id * 120 / 100 ∧
    (offroadMax road s id maxSpeed = maxSpeed ∨
      offroadMax road s id maxSpeed = speedLimit road s id * 120 / 100) := by
  simp only [offroadMax, cmin]
  split <;> grind

/-! A road with a limit of 50 km/h, from 100 m on one of 30 mph, from 200 m on none. -/

def two : List Lane := [⟨1, true⟩, ⟨0, true⟩, ⟨-1, true⟩, ⟨-2, true⟩, ⟨-3, false⟩]

def exRoad : Road := ⟨[⟨0, "town".toList, some ⟨.number 50, "km/h".toList⟩⟩,
    ⟨100, "rural".toList, some ⟨.number 30, "mph".toList⟩⟩, ⟨200, "motorway".toList, some ⟨.word, "km/h".toList⟩⟩],
  ⟨0, two⟩, [⟨250, [⟨0, false⟩, ⟨-1, true⟩]⟩]⟩

example : Applies exRoad.types 120 ⟨100, "rural".toList, some ⟨.number 30, "mph".toList⟩⟩ ∧
    speedLimit (some exRoad) 120 (-1) = 30 * (1609344 / 1000) / 3600 ∧
    speedLimit (some exRoad) 20 (-1) * 36 = 500 ∧ typeAt exRoad.types 120 = 1 := by
  refine ⟨⟨[⟨0, "town".toList, some ⟨.number 50, "km/h".toList⟩⟩],
    [⟨200, "motorway".toList, some ⟨.word, "km/h".toList⟩⟩], rfl, .inl (by decide +kernel)⟩, by decide +kernel⟩

example : Applies exRoad.types 220 ⟨200, "motorway".toList, some ⟨.word, "km/h".toList⟩⟩ ∧
    SectionApplies (exRoad.first :: exRoad.rest) 220 ⟨0, two⟩ ∧ Increasing (exRoad.first :: exRoad.rest) ∧
    speedLimit (some exRoad) 220 (-1) * 3600 = 120 * 1000 ∧ speedLimit (some exRoad) 220 1 * 3600 = 60 * 1000 ∧
    speedLimit (some exRoad) 260 (-1) * 3600 = 60 * 1000 := by
  refine ⟨⟨[⟨0, "town".toList, some ⟨.number 50, "km/h".toList⟩⟩,
      ⟨100, "rural".toList, some ⟨.number 30, "mph".toList⟩⟩], [], rfl, .inl (by decide +kernel)⟩,
    ⟨[], [⟨250, [⟨0, false⟩, ⟨-1, true⟩]⟩], rfl, .inl rfl, by decide +kernel⟩, ?_, by decide +kernel⟩
  simp only [Increasing, exRoad, List.pairwise_cons]
  decide +kernel

/-! ## The unit -/

theorem unit_kept (u : SpeedUnit) (hu : u ≠ .undefined) : ∀ ns, unitOf u ns = u
  | [] => rfl
  | n :: ns => by simp only [unitOf, hu, if_false]; exact unit_kept u hu ns

/-- **C171**: the unit reported is that of the first speed in the file, if all elements before it state a speed
and it has a unit. -/
theorem unit_partial (n : TypeNode) (ns : List TypeNode) (sp : SpeedNode) (k : Nat) (hn : n.speed = some sp)
    (hr : Reports sp.unit k) (h0 : sp.unit ≠ []) : getSpeedUnit (n :: ns) = k := by
  unfold getSpeedUnit
  simp only [unitOf, if_true]
  have : (entryOf n).unit ≠ .undefined ∧ (entryOf n).unit.num = k := by
    obtain ⟨m, u⟩ := sp
    simp only at hr h0
    cases hr with
    | none => exact absurd rfl h0
    | kmh => simp only [entryOf, hn, if_true]; decide
    | ms =>
      have h1 : ¬ ("m/s".toList = "km/h".toList) := by decide +kernel
      have h2 : ¬ ("m/s".toList = "mph".toList) := by decide +kernel
      simp only [entryOf, hn, h1, h2, if_true, if_false]; decide
    | mph =>
      have h1 : ¬ ("mph".toList = "km/h".toList) := by decide +kernel
      simp only [entryOf, hn, h1, if_true, if_false]; decide
  rw [unit_kept _ this.1, this.2]

/-- Without any element `type` the unit is undefined. -/
example : getSpeedUnit [] = 0 ∧ getSpeedUnit exRoad.types = 1 := by decide +kernel

/-- An element `type` without speed makes the unit m/s, although the only speed stated is in mph, and although
the unit should be undefined without any speed. -/
theorem unit_fails : ∃ (n m : TypeNode) (sp : SpeedNode), n.speed = none ∧ m.speed = some sp ∧ Reports sp.unit 3 ∧
    getSpeedUnit [n, m] = 2 ∧ getSpeedUnit [n] = 2 :=
  ⟨⟨0, "town".toList, none⟩, ⟨50, "town".toList, some ⟨.number 30, "mph".toList⟩⟩, ⟨.number 30, "mph".toList⟩, rfl, rfl,
    .mph, by decide +kernel⟩

/-- A speed without unit is reported as undefined, not as m/s, and a later one with a unit counts. -/
theorem unit_missing_fails : ∃ (n m : TypeNode) (sp : SpeedNode), n.speed = some sp ∧ Reports sp.unit 2 ∧
    getSpeedUnit [n] = 0 ∧ getSpeedUnit [n, m] = 3 :=
  ⟨⟨0, "town".toList, some ⟨.number 10, []⟩⟩, ⟨50, "town".toList, some ⟨.number 30, "mph".toList⟩⟩, ⟨.number 10, []⟩, rfl,
    .none, by decide +kernel⟩

end Verif.Limit

import Verif.Osi.Model
import Mathlib.Tactic.Linarith
import Mathlib.Data.Rat.Floor
import Mathlib.Data.List.Induction
import Mathlib.Tactic.NormNum
import Mathlib.Tactic.Ring

/-
Properties of OSI time stamps (C112) and of cropping (C113).
-/
namespace Verif.Osi

/-! ### Time stamps -/

/-- The time a stamp stands for. -/
def seconds (p : Int × Int) : Rat := p.1 + p.2 / 1000000000

theorem simStamp_range (t : Rat) : 0 ≤ (simStamp t).2 ∧ (simStamp t).2 < 1000000000 := by
  simp only [simStamp]
  have h1 := Rat.floor_le t
  have h2 := Rat.lt_floor_add_one t
  constructor
  · rw [Rat.le_floor_iff]; push_cast; nlinarith
  · rw [Rat.floor_lt_iff]; push_cast at *; nlinarith

/-- The stamp of a simulation time is at most that time and less than a nanosecond before it; the nanoseconds are a proper
fraction of a second. -/
theorem stamp_time (t : Rat) (ht : 0 ≤ t) :
    0 ≤ (stamp undefStamp t).1 ∧ 0 ≤ (stamp undefStamp t).2 ∧ (stamp undefStamp t).2 < 1000000000 ∧
      seconds (stamp undefStamp t) ≤ t ∧ t < seconds (stamp undefStamp t) + 1 / 1000000000 := by
  have e : stamp undefStamp t = simStamp t := by simp [stamp]
  rw [e]
  refine ⟨by simp only [simStamp]; rw [Rat.le_floor_iff]; exact_mod_cast ht, (simStamp_range t).1, (simStamp_range t).2, ?_, ?_⟩
  · have := Rat.floor_le ((t - t.floor) * 1000000000)
    simp only [seconds, simStamp]
    linarith
  · have := Rat.lt_floor_add_one ((t - t.floor) * 1000000000)
    simp only [seconds, simStamp]
    push_cast at this
    linarith

/-- Order of stamps: by seconds, then by nanoseconds. -/
def stampLe (a b : Int × Int) : Prop := a.1 < b.1 ∨ (a.1 = b.1 ∧ a.2 ≤ b.2)

/-- Later simulation times do not get earlier stamps. -/
theorem stamp_mono (t u : Rat) (h : t ≤ u) : stampLe (stamp undefStamp t) (stamp undefStamp u) := by
  have e : ∀ x, stamp undefStamp x = simStamp x := by simp [stamp]
  rw [e, e]
  have hf : t.floor ≤ u.floor := Rat.floor_monotone h
  rcases lt_or_eq_of_le hf with hl | hl
  · exact .inl hl
  · refine .inr ⟨hl, Rat.floor_monotone ?_⟩
    rw [hl]; nlinarith

example : stamp undefStamp (3 / 2) = (1, 500000000) := by decide +kernel

/-- A time stamp given by `SE_OSISetTimeStamp` is reported exactly, independent of the simulation time. -/
theorem stamp_explicit (ns : Nat) (h : ns ≠ undefStamp) (t : Rat) :
    (stamp ns t).1 * 1000000000 + (stamp ns t).2 = ns ∧ 0 ≤ (stamp ns t).2 ∧ (stamp ns t).2 < 1000000000 := by
  have e : stamp ns t = explStamp ns := by simp [stamp, h]
  rw [e, explStamp]
  refine ⟨by omega, by omega, by omega⟩

example : stamp 1700000000123456789 0 = (1700000000, 123456789) := by decide +kernel

/-! ### Table of cropping -/

/-- The radius set for an id. -/
def radius (l : List (Int × Rat)) (id : Int) : Option Rat := (l.find? (fun c => c.1 = id)).map (·.2)

theorem radius_cons (c : Int × Rat) (l : List (Int × Rat)) (id : Int) :
    radius (c :: l) id = if c.1 = id then some c.2 else radius l id := by
  unfold radius
  rw [List.find?_cons]
  by_cases h : c.1 = id <;> simp [h]

theorem radius_append (l : List (Int × Rat)) (c : Int × Rat) (id : Int) (h : l.any (fun c => c.1 = id) = false ∨ c.1 ≠ id) :
    radius (l ++ [c]) id = if c.1 = id then some c.2 else radius l id := by
  induction l with
  | nil => simp [radius_cons, radius]
  | cons a l ih =>
    rw [List.cons_append, radius_cons, radius_cons]
    rcases h with h | h
    · simp only [List.any_cons, Bool.or_eq_false_iff, decide_eq_false_iff_not] at h
      rw [if_neg h.1, ih (.inl h.2), if_neg h.1]
    · rw [ih (.inr h), if_neg h, if_neg h]

theorem radius_none (l : List (Int × Rat)) (id : Int) (h : l.any (fun c => c.1 = id) = false) : radius l id = none := by
  induction l with
  | nil => rfl
  | cons a l ih =>
    simp only [List.any_cons, Bool.or_eq_false_iff, decide_eq_false_iff_not] at h
    rw [radius_cons, if_neg h.1, ih h.2]

theorem radius_replace (id : Int) (r : Rat) (l : List (Int × Rat)) (hn : (l.map (·.1)).Nodup)
    (h : l.any (fun c => c.1 = id) = true) (j : Int) :
    radius (cropReplace id r l) j = if j = id then (if r > small then some r else none) else radius l j := by
  induction l with
  | nil => simp at h
  | cons c l ih =>
    simp only [List.map_cons, List.nodup_cons] at hn
    unfold cropReplace
    by_cases hc : c.1 = id
    · rw [if_pos hc]
      have hno : l.any (fun x => x.1 = id) = false := by
        rw [← hc]
        by_contra hx
        simp only [Bool.not_eq_false, List.any_eq_true, decide_eq_true_eq] at hx
        obtain ⟨x, hx1, hx2⟩ := hx
        exact hn.1 (List.mem_map.mpr ⟨x, hx1, hx2⟩)
      by_cases hr : r > small
      · rw [if_pos hr, radius_cons, radius_cons]
        by_cases hj : j = id
        · simp [hj, hr]
        · rw [if_neg (fun e => hj e.symm), if_neg hj, if_neg (by rw [hc]; exact fun e => hj e.symm)]
      · rw [if_neg hr, radius_cons]
        by_cases hj : j = id
        · rw [if_pos hj, if_neg hr, hj]; exact radius_none l id hno
        · rw [if_neg hj, if_neg (by rw [hc]; exact fun e => hj e.symm)]
    · rw [if_neg hc, radius_cons, radius_cons]
      have h' : l.any (fun x => x.1 = id) = true := by simpa [hc] using h
      by_cases hj : c.1 = j
      · rw [if_pos hj, if_pos hj, if_neg (by rw [← hj]; exact hc)]
      · rw [if_neg hj, if_neg hj, ih hn.2 h']

theorem cropReplace_ids (id : Int) (r : Rat) (l : List (Int × Rat)) :
    ((cropReplace id r l).map (·.1)).Sublist (l.map (·.1)) := by
  induction l with
  | nil => simp [cropReplace]
  | cons c l ih =>
    unfold cropReplace
    split_ifs with h1 h2
    · simp [← h1]
    · simp
    · simpa using ih

/-- `SE_CropOSIDynamicGroundTruth(id, r)` sets the radius of `id` if `r` is positive and removes it otherwise (positive: more
than 1e-6), and leaves other ids alone; ids stay unique. -/
theorem cropSet_spec (id : Int) (r : Rat) (l : List (Int × Rat)) (hn : (l.map (·.1)).Nodup) :
    ((cropSet id r l).map (·.1)).Nodup ∧
      ∀ j, radius (cropSet id r l) j = if j = id then (if r > small then some r else none) else radius l j := by
  unfold cropSet
  by_cases h1 : l.isEmpty ∧ r > small
  · rw [if_pos h1]
    obtain ⟨hl, hr⟩ := h1
    have : l = [] := by simpa using hl
    subst this
    refine ⟨by simp, fun j => ?_⟩
    rw [radius_cons]
    by_cases hj : j = id
    · simp [hj, hr]
    · rw [if_neg (fun e => hj e.symm), if_neg hj]
  rw [if_neg h1]
  by_cases h2 : l.any (fun c => c.1 = id) = true
  · rw [if_pos h2]
    exact ⟨List.Nodup.sublist (cropReplace_ids id r l) hn, fun j => radius_replace id r l hn h2 j⟩
  rw [if_neg h2]
  have h2' : l.any (fun c => c.1 = id) = false := Bool.eq_false_iff.mpr h2
  by_cases h3 : r > small
  · rw [if_pos h3]
    constructor
    · rw [List.map_append, List.nodup_append]
      refine ⟨hn, by simp, ?_⟩
      intro a ha b hb
      simp at hb; subst hb
      intro e; subst e
      obtain ⟨x, hx, hx2⟩ := List.mem_map.mp ha
      have := List.any_eq_false.mp h2' x hx
      simp [hx2] at this
    · intro j
      by_cases hj : j = id
      · subst hj; rw [radius_append l _ _ (.inl h2')]; simp [h3]
      · rw [radius_append l _ _ (.inr (fun e => hj e.symm)), if_neg (fun e => hj e.symm), if_neg hj]
  · rw [if_neg h3]
    refine ⟨hn, fun j => ?_⟩
    by_cases hj : j = id
    · subst hj; simpa [h3] using radius_none l j h2'
    · rw [if_neg hj]

/-- The table after a number of calls. -/
def table (calls : List (Int × Rat)) : List (Int × Rat) := calls.foldl (fun l c => cropSet c.1 c.2 l) []

/-- After any calls, the radius of an id is the one of the last call for it; none if that call had no positive radius or if
there was none. -/
theorem table_spec (calls : List (Int × Rat)) : ((table calls).map (·.1)).Nodup ∧
    ∀ j, radius (table calls) j = (calls.reverse.find? (fun c => c.1 = j)).bind
      (fun c => if c.2 > small then some c.2 else none) := by
  rw [table]
  induction calls using List.reverseRecOn with
  | nil => exact ⟨by simp, fun j => rfl⟩
  | append_singleton l c ih =>
    rw [List.foldl_append]
    have := cropSet_spec c.1 c.2 _ ih.1
    refine ⟨this.1, fun j => ?_⟩
    simp only [List.foldl_cons, List.foldl_nil]
    rw [this.2 j, List.reverse_append]
    simp only [List.reverse_cons, List.reverse_nil, List.nil_append, List.cons_append, List.find?_cons]
    by_cases hj : c.1 = j
    · simp [hj]
    · rw [if_neg (fun e => hj e.symm), ih.2 j]
      simp [hj]

example : radius (table [(1, 10), (2, 20), (1, 0), (2, 30)]) 1 = none ∧ radius (table [(1, 10), (2, 20), (1, 0), (2, 30)]) 2 = some 30 := by
  decide +kernel

/-! ### Cropped objects -/

theorem cropInner_spec (c : Obj) (r : Rat) (l : List Obj) (acc : List Int × List Obj) (hacc : acc.1 = acc.2.map (·.id))
    (hn : acc.1.Nodup) :
    (cropInner c r l acc).1 = (cropInner c r l acc).2.map (·.id) ∧ (cropInner c r l acc).1.Nodup ∧
      (∀ o, o ∈ (cropInner c r l acc).2 → o ∈ acc.2 ∨ (o ∈ l ∧ inCrop c r o = true)) ∧
      (∀ o ∈ acc.2, o ∈ (cropInner c r l acc).2) ∧
      ∀ o ∈ l, inCrop c r o = true → o.id ∈ (cropInner c r l acc).1 := by
  induction l generalizing acc with
  | nil => exact ⟨hacc, hn, fun o h => .inl h, fun o h => h, by simp⟩
  | cons a l ih =>
    unfold cropInner
    by_cases h : (inCrop c r a && !(acc.1.contains a.id)) = true
    · rw [if_pos h]
      simp only [Bool.and_eq_true, Bool.not_eq_true', List.contains_eq_mem, decide_eq_false_iff_not] at h
      obtain ⟨h1, h2, h3, h4, h5⟩ := ih (acc.1 ++ [a.id], acc.2 ++ [a]) (by simp [hacc]) (by
        rw [List.nodup_append]
        refine ⟨hn, by simp, ?_⟩
        intro x hx y hy; simp at hy; subst hy; intro e; subst e; exact h.2 hx)
      refine ⟨h1, h2, ?_, ?_, ?_⟩
      · intro o ho
        rcases h3 o ho with h6 | h6
        · rcases List.mem_append.mp h6 with h7 | h7
          · exact .inl h7
          · simp at h7; subst h7; exact .inr ⟨List.mem_cons_self, h.1⟩
        · exact .inr ⟨List.mem_cons_of_mem _ h6.1, h6.2⟩
      · intro o ho; exact h4 o (List.mem_append_left _ ho)
      · intro o ho hi
        rcases List.mem_cons.mp ho with rfl | ho
        · have := h4 o (by simp)
          rw [h1]; exact List.mem_map.mpr ⟨o, this, rfl⟩
        · exact h5 o ho hi
    · rw [if_neg h]
      obtain ⟨h1, h2, h3, h4, h5⟩ := ih acc hacc hn
      refine ⟨h1, h2, ?_, h4, ?_⟩
      · intro o ho
        rcases h3 o ho with h6 | h6
        · exact .inl h6
        · exact .inr ⟨List.mem_cons_of_mem _ h6.1, h6.2⟩
      · intro o ho hi
        rcases List.mem_cons.mp ho with rfl | ho
        · simp only [hi, Bool.true_and, Bool.not_eq_true', Bool.not_eq_false, List.contains_eq_mem, decide_eq_true_eq] at h
          rw [hacc] at h
          obtain ⟨x, hx, hx2⟩ := List.mem_map.mp h
          rw [h1]; exact List.mem_map.mpr ⟨x, h4 x hx, hx2⟩
        · exact h5 o ho hi

/-- An object is within the crop areas: some id with a radius belongs to an entity that is the object or closer than the
radius. -/
def Within (crop : List (Int × Rat)) (objs : List Obj) (o : Obj) : Prop :=
  ∃ c ∈ crop, ∃ e ∈ objs, e.id = c.1 ∧
    (e.id = o.id ∨ (e.x - o.x) ^ 2 + (e.y - o.y) ^ 2 + (e.z - o.z) ^ 2 < c.2 ^ 2)

theorem inCrop_iff (c : Obj) (r : Rat) (o : Obj) :
    inCrop c r o = true ↔ c.id = o.id ∨ (c.x - o.x) ^ 2 + (c.y - o.y) ^ 2 + (c.z - o.z) ^ 2 < r ^ 2 := by
  have : r ^ 2 = r * r := by ring
  rw [this]; simp only [inCrop, dist2, Bool.or_eq_true, decide_eq_true_eq]
  exact or_congr Iff.rfl ⟨of_decide_eq_true, decide_eq_true⟩

theorem find_unique (objs : List Obj) (hn : (objs.map (·.id)).Nodup) (e : Obj) (he : e ∈ objs) :
    objs.find? (fun o => o.id = e.id) = some e := by
  induction objs with
  | nil => simp at he
  | cons a l ih =>
    simp only [List.map_cons, List.nodup_cons] at hn
    rw [List.find?_cons]
    rcases List.mem_cons.mp he with rfl | he
    · simp
    · have : ¬ a.id = e.id := fun c => hn.1 (c ▸ List.mem_map.mpr ⟨e, he, rfl⟩)
      simp only [this, decide_false]
      exact ih hn.2 he

theorem mem_of_id (objs : List Obj) (hn : (objs.map (·.id)).Nodup) (a b : Obj) (ha : a ∈ objs) (hb : b ∈ objs)
    (h : a.id = b.id) : a = b := by
  have h1 := find_unique objs hn a ha
  have h2 := find_unique objs hn b hb
  rw [h, h2] at h1
  exact (Option.some.inj h1).symm

theorem cropOuter_spec (objs : List Obj) (hno : (objs.map (·.id)).Nodup) (crop : List (Int × Rat))
    (acc : List Int × List Obj) (hacc : acc.1 = acc.2.map (·.id)) (hn : acc.1.Nodup) (hs : ∀ o ∈ acc.2, o ∈ objs) :
    (cropOuter objs crop acc).1 = (cropOuter objs crop acc).2.map (·.id) ∧ (cropOuter objs crop acc).1.Nodup ∧
      ∀ o, o ∈ (cropOuter objs crop acc).2 ↔ o ∈ acc.2 ∨ (o ∈ objs ∧ Within crop objs o) := by
  induction crop generalizing acc with
  | nil =>
    refine ⟨hacc, hn, fun o => ⟨fun h => .inl h, fun h => ?_⟩⟩
    rcases h with h | ⟨-, c, hc, -⟩
    · exact h
    · simp at hc
  | cons c l ih =>
    unfold cropOuter
    cases hf : objs.find? (fun o => o.id = c.1) with
    | none =>
      obtain ⟨h1, h2, h3⟩ := ih acc hacc hn hs
      refine ⟨h1, h2, fun o => (h3 o).trans ⟨?_, ?_⟩⟩
      · rintro (h | ⟨h, d, hd, e, he⟩)
        · exact .inl h
        · exact .inr ⟨h, d, List.mem_cons_of_mem _ hd, e, he⟩
      · rintro (h | ⟨h, d, hd, e, he, he2, he3⟩)
        · exact .inl h
        · rcases List.mem_cons.mp hd with rfl | hd
          · have := List.find?_eq_none.mp hf e he
            simp [he2] at this
          · exact .inr ⟨h, d, hd, e, he, he2, he3⟩
    | some co =>
      have hco := List.mem_of_find?_eq_some hf
      have hid : co.id = c.1 := by simpa using List.find?_some hf
      obtain ⟨i1, i2, i3, i4, i5⟩ := cropInner_spec co c.2 objs acc hacc hn
      have hs' : ∀ o ∈ (cropInner co c.2 objs acc).2, o ∈ objs := by
        intro o ho
        rcases i3 o ho with h | h
        · exact hs o h
        · exact h.1
      obtain ⟨h1, h2, h3⟩ := ih (cropInner co c.2 objs acc) i1 i2 hs'
      refine ⟨h1, h2, fun o => (h3 o).trans ⟨?_, ?_⟩⟩
      · rintro (h | ⟨h, d, hd, e, he⟩)
        · rcases i3 o h with h | ⟨h, hi⟩
          · exact .inl h
          · refine .inr ⟨h, c, List.mem_cons_self, co, hco, hid, ?_⟩
            exact (inCrop_iff _ _ _).mp hi
        · exact .inr ⟨h, d, List.mem_cons_of_mem _ hd, e, he⟩
      · rintro (h | ⟨h, d, hd, e, he, he2, he3⟩)
        · exact .inl (i4 o h)
        · rcases List.mem_cons.mp hd with rfl | hd
          · have : e = co := mem_of_id objs hno e co he hco (by rw [he2, hid])
            subst this
            have hin : inCrop e d.2 o = true := (inCrop_iff _ _ _).mpr he3
            have h6 := i5 o h hin
            rw [i1] at h6
            obtain ⟨x, hx, hx2⟩ := List.mem_map.mp h6
            have := mem_of_id objs hno x o (hs' x hx) h hx2
            subst this
            exact .inl hx
          · exact .inr ⟨h, d, hd, e, he, he2, he3⟩

/-- With cropping, the ground truth holds exactly the vehicles and pedestrians within a crop area (closer than the radius to
an entity for which a radius is set, or this entity itself), each once; without it, all. -/
theorem reported_spec (crop : List (Int × Rat)) (objs : List Obj) (hn : (objs.map (·.id)).Nodup) :
    ((reported crop objs).map (·.id)).Nodup ∧
      ∀ o, o ∈ reported crop objs ↔ o ∈ objs ∧ o.moving = true ∧ (crop = [] ∨ Within crop objs o) := by
  unfold reported
  by_cases hc : crop = []
  · subst hc
    simp only [List.isEmpty_nil, if_true, List.mem_filter, true_or, and_true]
    exact ⟨List.Nodup.sublist (List.filter_sublist.map _) hn, fun o => by trivial⟩
  · have : crop.isEmpty = false := by simpa using hc
    rw [this]
    obtain ⟨h1, h2, h3⟩ := cropOuter_spec objs hn crop ([], []) rfl (by simp) (by simp)
    simp only [Bool.false_eq_true, if_false]
    refine ⟨?_, fun o => ?_⟩
    · rw [h1] at h2
      exact List.Nodup.sublist (List.filter_sublist.map _) h2
    · rw [List.mem_filter, h3 o]
      simp [hc]
      tauto

example : reported [(1, 10)] [⟨1, 0, 0, 0, true⟩, ⟨2, 3, 4, 0, true⟩, ⟨3, 30, 0, 0, true⟩, ⟨4, 1, 0, 0, false⟩] =
    [⟨1, 0, 0, 0, true⟩, ⟨2, 3, 4, 0, true⟩] := by decide +kernel

end Verif.Osi

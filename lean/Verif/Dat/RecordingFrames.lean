import Verif.Dat.RecordingLemmas

namespace Verif.Dat
open Verif.Common

theorem quantities_nodup : quantities.Nodup := by decide
theorem quantities_all (q : Quantity) : q ∈ quantities := by cases q <;> decide

/-- The entries appended to a timeline in a frame. -/
def added (t : Rat) (q : Quantity) (old new : Val) : List (Rat × Val) := if changed q old new then [(t, new)] else []

/-- The cached value after a frame. -/
def updated (q : Quantity) (old new : Val) : Val := if changed q old new then new else old

theorem writeQuantities_out (vals : Values) (ql : List Quantity) (wc : Writer × Values) :
    ∃ l, (ql.foldl (Writer.writeQuantity vals) wc).1.out = wc.1.out ++ l := by
  induction ql generalizing wc with
  | nil => exact ⟨[], by simp⟩
  | cons q ql ih =>
    simp only [List.foldl_cons]
    obtain ⟨l, hl⟩ := ih (Writer.writeQuantity vals wc q)
    rw [hl]
    unfold Writer.writeQuantity
    split
    · obtain ⟨l', hl'⟩ := write_out wc.1 (.value q (vals q))
      simp only
      rw [hl']
      exact ⟨l' ++ l, by simp⟩
    · exact ⟨l, rfl⟩

/-- The activity of the object written: activated by the first change. -/
def activity (known : Bool) (active : List (Rat × Bool)) (t : Rat) (done any : Bool) : List (Rat × Bool) :=
  if done = false ∧ any = true then activateAt known active t else active

theorem writeQuantities_spec (vals : Values) (ql : List Quantity) (hnd : ql.Nodup) {w : Writer} {c : Values}
    {r : Reader} {t : Rat} (h : Sync w r t) :
    (Rejected (ql.foldl (Writer.writeQuantity vals) (w, c)).1 ∧
      ∃ q ∈ ql, blank (vals q) = true ∧ changed q (c q) (vals q) = true) ∨
    ∃ r', Sync (ql.foldl (Writer.writeQuantity vals) (w, c)).1 r' t ∧
      SameState w (ql.foldl (Writer.writeQuantity vals) (w, c)).1 ∧
      (∀ j q, r'.tl j q = if j = w.cur ∧ q ∈ ql then r.tl j q ++ added t q (c q) (vals q) else r.tl j q) ∧
      (∀ q, (ql.foldl (Writer.writeQuantity vals) (w, c)).2 q = if q ∈ ql then updated q (c q) (vals q) else c q) ∧
      (∀ j, r'.active j = if j = w.cur then
        activity (r.known j) (r.active j) t w.idWritten (ql.any (fun q => changed q (c q) (vals q))) else r.active j) ∧
      (∀ j, r'.known j = if j = w.cur ∧ w.idWritten = false ∧ ql.any (fun q => changed q (c q) (vals q)) = true
        then true else r.known j) := by
  induction ql generalizing w c r with
  | nil =>
    refine Or.inr ⟨r, h, SameState.refl w, by simp, by simp, by simp [activity], by simp⟩
  | cons q ql ih =>
    have hq : q ∉ ql := (List.nodup_cons.1 hnd).1
    simp only [List.foldl_cons]
    by_cases hc : changed q (c q) (vals q) = true
    · have e : Writer.writeQuantity vals (w, c) q =
          (w.write (.value q (vals q)), fun q' => if q' = q then vals q else c q') := by
        simp [Writer.writeQuantity, hc]
      rw [e]
      rcases write_value h q (vals q) with ⟨hr, hb⟩ | ⟨r1, h1, h2, h3, h4, h5, h6⟩
      · left
        obtain ⟨l, hl⟩ := writeQuantities_out vals ql (w.write (.value q (vals q)), fun q' => if q' = q then vals q else c q')
        exact ⟨hr.append l hl, q, by simp, hb, hc⟩
      · rcases ih (List.nodup_cons.1 hnd).2 (c := fun q' => if q' = q then vals q else c q') h1 with
          ⟨hr, q', ha, hb, hb'⟩ | ⟨r2, k1, k2, k3, k4, k5, k6⟩
        · have : q' ≠ q := fun e => hq (e ▸ ha)
          simp only [this, if_false] at hb'
          exact Or.inl ⟨hr, q', List.mem_cons_of_mem _ ha, hb, hb'⟩
        · refine Or.inr ⟨r2, k1, h3.trans k2, ?_, ?_, ?_, ?_⟩
          · intro j q'
            rw [k3 j q', h2, h3.2.2.1]
            by_cases hj : j = w.cur
            · subst hj
              by_cases hqq : q' = q
              · subst hqq; simp [hq, added, hc]
              · simp [hqq, added]
            · simp [hj]
          · intro q'
            rw [k4 q']
            by_cases hqq : q' = q
            · subst hqq; simp [hq, updated, hc]
            · simp [hqq, updated]
          · intro j
            rw [k5 j, h3.2.2.1, h4]
            by_cases hj : j = w.cur
            · subst hj
              cases hw : w.idWritten
              · rw [(h6 hw).1]
                simp [activity, hc]
              · rw [(h5 hw).1]
                simp [activity]
            · cases hw : w.idWritten
              · rw [(h6 hw).1]; simp [hj]
              · rw [(h5 hw).1]; simp [hj]
          · intro j
            rw [k6 j, h3.2.2.1, h4]
            cases hw : w.idWritten
            · rw [(h6 hw).2]
              simp [hc]
            · rw [(h5 hw).2]
              simp
    · have e : Writer.writeQuantity vals (w, c) q = (w, c) := by simp [Writer.writeQuantity, hc]
      rw [e]
      have hc' : changed q (c q) (vals q) = false := by simpa using hc
      rcases ih (List.nodup_cons.1 hnd).2 (c := c) h with ⟨hr, q', ha, hb⟩ | ⟨r2, k1, k2, k3, k4, k5, k6⟩
      · exact Or.inl ⟨hr, q', List.mem_cons_of_mem _ ha, hb⟩
      · refine Or.inr ⟨r2, k1, k2, ?_, ?_, ?_, ?_⟩
        · intro j q'
          rw [k3 j q']
          by_cases hqq : q' = q
          · subst hqq; simp [hq, added, hc]
          · simp [hqq]
        · intro q'
          rw [k4 q']
          by_cases hqq : q' = q
          · subst hqq; simp [hq, updated, hc]
          · simp [hqq]
        · intro j; rw [k5 j]; simp [hc']
        · intro j; rw [k6 j]; simp [hc']

theorem writeObject_out (w : Writer) (o : Int × Values) : ∃ l, (w.writeObject o).out = w.out ++ l :=
  writeQuantities_out o.2 quantities ({ w with cur := o.1 }, w.cached o.1)

/-- Whether anything of an object is written. -/
def anyChanged (old new : Values) : Bool := quantities.any (fun q => changed q (old q) (new q))

theorem writeObject_spec (o : Int × Values) {w : Writer} {r : Reader} {t : Rat} (h : Sync w r t)
    (hid : w.idWritten = false) :
    (Rejected (w.writeObject o) ∧ ∃ q, blank (o.2 q) = true ∧ changed q (w.cached o.1 q) (o.2 q) = true) ∨
    ∃ r', Sync (w.writeObject o) r' t ∧ (w.writeObject o).idWritten = false ∧ (w.writeObject o).prev = w.prev ∧
      (∀ j, (w.writeObject o).cache j = if j = o.1 then some (fun q => updated q (w.cached j q) (o.2 q)) else w.cache j) ∧
      (∀ j q, r'.tl j q = if j = o.1 then r.tl j q ++ added t q (w.cached j q) (o.2 q) else r.tl j q) ∧
      (∀ j, r'.active j = if j = o.1 ∧ anyChanged (w.cached j) o.2 = true then
        activateAt (r.known j) (r.active j) t else r.active j) ∧
      (∀ j, r'.known j = if j = o.1 ∧ anyChanged (w.cached j) o.2 = true then true else r.known j) := by
  have h' : Sync { w with cur := o.1 } r t := ⟨h.parsed, h.sim, h.ts, by simp [hid]⟩
  rcases writeQuantities_spec o.2 quantities quantities_nodup (c := w.cached o.1) h' with
    ⟨hr, q, _, hb⟩ | ⟨r', h1, h2, h3, h4, h5, h6⟩
  · exact Or.inl ⟨hr, q, hb⟩
  · refine Or.inr ⟨r', ⟨h1.parsed, h1.sim, h1.ts, ?_⟩, rfl, h2.2.1, ?_, ?_, ?_, ?_⟩
    · intro hh; simp [Writer.writeObject] at hh
    · intro j
      simp only [Writer.writeObject]
      by_cases hj : j = o.1
      · subst hj
        simp only [if_true]
        congr 1
        funext q
        rw [h4 q]
        simp [quantities_all]
      · simp only [hj, if_false]
        rw [h2.1]
    · intro j q
      rw [h3 j q]
      by_cases hj : j = o.1
      · subst hj; simp [quantities_all]
      · simp [hj]
    · intro j
      rw [h5 j]
      by_cases hj : j = o.1
      · subst hj; simp [activity, hid, anyChanged]
      · simp [hj]
    · intro j
      rw [h6 j]
      by_cases hj : j = o.1
      · subst hj; simp [hid, anyChanged]
      · simp [hj]

theorem writeObjs_out (objs : List (Int × Values)) (w : Writer) :
    ∃ l, (objs.foldl Writer.writeObject w).out = w.out ++ l := by
  induction objs generalizing w with
  | nil => exact ⟨[], by simp⟩
  | cons o objs ih =>
    obtain ⟨l, hl⟩ := ih (w.writeObject o)
    obtain ⟨l', hl'⟩ := writeObject_out w o
    simp only [List.foldl_cons]
    rw [hl, hl']
    exact ⟨l' ++ l, by simp⟩

/-- The values handed over for an object in a frame. -/
def valuesOf (objs : List (Int × Values)) (j : Int) : Option Values := (objs.find? (fun o => o.1 = j)).map (·.2)

theorem valuesOf_none {objs : List (Int × Values)} {j : Int} : valuesOf objs j = none ↔ j ∉ objs.map (·.1) := by
  simp only [valuesOf, Option.map_eq_none_iff, List.find?_eq_none, List.mem_map, not_exists, not_and]
  simp

theorem valuesOf_some {objs : List (Int × Values)} {j : Int} {v : Values} (h : valuesOf objs j = some v) :
    (j, v) ∈ objs := by
  simp only [valuesOf, Option.map_eq_some_iff] at h
  obtain ⟨o, h1, rfl⟩ := h
  have h2 := List.mem_of_find?_eq_some h1
  have h3 := List.find?_some h1
  simp only [decide_eq_true_eq] at h3
  subst h3
  exact h2

theorem valuesOf_mem {objs : List (Int × Values)} {j : Int} {v : Values} (hnd : (objs.map (·.1)).Nodup)
    (h : (j, v) ∈ objs) : valuesOf objs j = some v := by
  induction objs with
  | nil => simp at h
  | cons o objs ih =>
    simp only [List.map_cons, List.nodup_cons] at hnd
    rcases List.mem_cons.1 h with rfl | h
    · simp [valuesOf]
    · have : o.1 ≠ j := by
        intro e
        exact hnd.1 (e ▸ List.mem_map_of_mem (f := (·.1)) h)
      simpa [valuesOf, this] using ih hnd.2 h

theorem writeObjs_spec (objs : List (Int × Values)) (hnd : (objs.map (·.1)).Nodup) {w : Writer} {r : Reader} {t : Rat}
    (h : Sync w r t) (hid : w.idWritten = false) :
    (Rejected (objs.foldl Writer.writeObject w) ∧
      ∃ j v q, (j, v) ∈ objs ∧ blank (v q) = true ∧ changed q (w.cached j q) (v q) = true) ∨
    ∃ r', Sync (objs.foldl Writer.writeObject w) r' t ∧ (objs.foldl Writer.writeObject w).idWritten = false ∧
      (objs.foldl Writer.writeObject w).prev = w.prev ∧
      (∀ j v, valuesOf objs j = some v →
        (objs.foldl Writer.writeObject w).cache j = some (fun q => updated q (w.cached j q) (v q)) ∧
        (∀ q, r'.tl j q = r.tl j q ++ added t q (w.cached j q) (v q)) ∧
        r'.active j = (if anyChanged (w.cached j) v = true then activateAt (r.known j) (r.active j) t else r.active j) ∧
        r'.known j = (anyChanged (w.cached j) v || r.known j)) ∧
      (∀ j, valuesOf objs j = none →
        (objs.foldl Writer.writeObject w).cache j = w.cache j ∧ (∀ q, r'.tl j q = r.tl j q) ∧
        r'.active j = r.active j ∧ r'.known j = r.known j) := by
  induction objs generalizing w r with
  | nil => exact Or.inr ⟨r, h, hid, rfl, by simp [valuesOf], by simp⟩
  | cons o objs ih =>
    simp only [List.map_cons, List.nodup_cons] at hnd
    simp only [List.foldl_cons]
    rcases writeObject_spec o h hid with ⟨hr, q, hb⟩ | ⟨r1, h1, h2, h3, h4, h5, h6, h7⟩
    · obtain ⟨l, hl⟩ := writeObjs_out objs (w.writeObject o)
      exact Or.inl ⟨hr.append l hl, o.1, o.2, q, by simp, hb⟩
    rcases ih hnd.2 h1 h2 with ⟨hr, j, v, q, ha, hb, hc⟩ | ⟨r2, k1, k2, k3, k4, k5⟩
    · have hj : j ≠ o.1 := fun e => hnd.1 (e ▸ List.mem_map_of_mem (f := (·.1)) ha)
      have hcache : (w.writeObject o).cached j = w.cached j := by simp [Writer.cached, h4, hj]
      rw [hcache] at hc
      exact Or.inl ⟨hr, j, v, q, List.mem_cons_of_mem _ ha, hb, hc⟩
    refine Or.inr ⟨r2, k1, k2, k3.trans h3, ?_, ?_⟩
    · intro j v hv
      by_cases hj : o.1 = j
      · subst hj
        have hv' : o.2 = v := by simpa [valuesOf] using hv
        subst hv'
        obtain ⟨a, b, c, d⟩ := k5 o.1 (valuesOf_none.2 hnd.1)
        refine ⟨by rw [a, h4]; simp, fun q => by rw [b, h5]; simp, by rw [c, h6]; simp, ?_⟩
        rw [d, h7]
        cases anyChanged (w.cached o.1) o.2 <;> simp
      · have hj' : j ≠ o.1 := fun e => hj e.symm
        have hv' : valuesOf objs j = some v := by simpa [valuesOf, hj] using hv
        obtain ⟨a, b, c, d⟩ := k4 j v hv'
        have hcache : (w.writeObject o).cached j = w.cached j := by simp [Writer.cached, h4, hj']
        rw [hcache] at a b c d
        refine ⟨a, fun q => by rw [b, h5]; simp [hj'], by rw [c, h6, h7]; simp [hj'], by rw [d, h7]; simp [hj']⟩
    · intro j hv
      rw [valuesOf_none] at hv
      simp only [List.map_cons, List.mem_cons, not_or] at hv
      obtain ⟨a, b, c, d⟩ := k5 j (valuesOf_none.2 hv.2)
      refine ⟨by rw [a, h4]; simp [hv.1], fun q => by rw [b, h5]; simp [hv.1], by rw [c, h6]; simp [hv.1],
        by rw [d, h7]; simp [hv.1]⟩

theorem deleteIfGone_out (current : List Int) (w : Writer) (i : Int) :
    ∃ l, (w.deleteIfGone current i).out = w.out ++ l := by
  unfold Writer.deleteIfGone
  split
  · exact ⟨[], by simp⟩
  · exact write_out { w with cur := i } .deleted

theorem deletes_out (current : List Int) (ids : List Int) (w : Writer) :
    ∃ l, (ids.foldl (Writer.deleteIfGone current) w).out = w.out ++ l := by
  induction ids generalizing w with
  | nil => exact ⟨[], by simp⟩
  | cons o objs ih =>
    obtain ⟨l, hl⟩ := ih (w.deleteIfGone current o)
    obtain ⟨l', hl'⟩ := deleteIfGone_out current w o
    simp only [List.foldl_cons]
    rw [hl, hl']
    exact ⟨l' ++ l, by simp⟩

theorem deletes_spec (current : List Int) (ids : List Int) (hnd : ids.Nodup) {w : Writer} {r : Reader} {t : Rat}
    (h : Sync w r t) (hid : w.idWritten = false) :
    ∃ r', Sync (ids.foldl (Writer.deleteIfGone current) w) r' t ∧
      (ids.foldl (Writer.deleteIfGone current) w).idWritten = false ∧ r'.tl = r.tl ∧
      (∀ j, (ids.foldl (Writer.deleteIfGone current) w).cache j =
        if j ∈ ids ∧ j ∉ current then none else w.cache j) ∧
      (∀ j, r'.active j = if j ∈ ids ∧ j ∉ current then activateAt (r.known j) (r.active j) t ++ [(t, false)]
        else r.active j) ∧
      (∀ j, r'.known j = if j ∈ ids ∧ j ∉ current then true else r.known j) := by
  induction ids generalizing w r with
  | nil => exact ⟨r, h, hid, rfl, by simp, by simp, by simp⟩
  | cons i ids ih =>
    simp only [List.nodup_cons] at hnd
    simp only [List.foldl_cons]
    by_cases hi : i ∈ current
    · have e : w.deleteIfGone current i = w := by simp [Writer.deleteIfGone, hi]
      rw [e]
      obtain ⟨r', h1, h2, h3, h4, h5, h6⟩ := ih hnd.2 h hid
      have key : ∀ j, (j ∈ i :: ids ∧ j ∉ current) ↔ (j ∈ ids ∧ j ∉ current) := by
        intro j
        constructor
        · rintro ⟨ha, hb⟩
          rcases List.mem_cons.1 ha with rfl | ha
          · exact absurd hi hb
          · exact ⟨ha, hb⟩
        · rintro ⟨ha, hb⟩; exact ⟨List.mem_cons_of_mem _ ha, hb⟩
      refine ⟨r', h1, h2, h3, ?_, ?_, ?_⟩ <;> intro j <;> simp only [key] <;> solve_by_elim
    · have h' : Sync { w with cur := i } r t := ⟨h.parsed, h.sim, h.ts, by simp [hid]⟩
      obtain ⟨r1, h1, h2, h3, h4, h5⟩ := write_deleted h' hid
      have e : w.deleteIfGone current i = { Writer.write { w with cur := i } .deleted with
          cache := fun k => if k = i then none else (Writer.write { w with cur := i } .deleted).cache k
          idWritten := false } := by simp [Writer.deleteIfGone, hi]
      have hs : Sync (w.deleteIfGone current i) r1 t := by
        rw [e]; exact ⟨h1.parsed, h1.sim, h1.ts, by simp⟩
      have hcache : ∀ j, (w.deleteIfGone current i).cache j = if j = i then none else w.cache j := by
        intro j; rw [e]; simp only; rw [h3.1]
      obtain ⟨r', k1, k2, k3, k4, k5, k6⟩ := ih hnd.2 hs (by rw [e])
      refine ⟨r', k1, k2, k3.trans h2, ?_, ?_, ?_⟩
      · intro j
        rw [k4 j, hcache j]
        by_cases hj : j = i
        · subst hj; simp [hi]
        · simp [hj]
      · intro j
        rw [k5 j, h4, h5]
        by_cases hj : j = i
        · subst hj; simp [hi, hnd.1]
        · simp [hj]
      · intro j
        rw [k6 j, h5]
        by_cases hj : j = i
        · subst hj; simp [hi]
        · simp [hj]

theorem writeOthers_spec (n : Nat) {w : Writer} {r : Reader} {t : Rat} (h : Sync w r t) (hid : w.idWritten = false) :
    ∃ r', Sync (w.writeOthers n) r' t ∧ r'.tl = r.tl ∧ r'.active = r.active ∧ r'.known = r.known ∧
      SameState w (w.writeOthers n) ∧ (w.writeOthers n).idWritten = false := by
  induction n generalizing w r with
  | zero => exact ⟨r, h, rfl, rfl, rfl, SameState.refl w, hid⟩
  | succ n ih =>
    obtain ⟨r1, h1, h2, h3, h4, h5, h6⟩ := write_plain h (p := .other) (Or.inr rfl)
    obtain ⟨r2, k1, k2, k3, k4, k5, k6⟩ := ih h1 (h6.trans hid)
    exact ⟨r2, k1, k2.trans h2, k3.trans h3, k4.trans h4, h5.trans k5, k6⟩

theorem writeDt_spec (dt : Rat) {w : Writer} {r : Reader} {t : Rat} (h : Sync w r t) (hid : w.idWritten = false) :
    ∃ r', Sync (w.writeDt dt) r' t ∧ r'.tl = r.tl ∧ r'.active = r.active ∧ r'.known = r.known ∧
      SameState w (w.writeDt dt) ∧ (w.writeDt dt).idWritten = false := by
  have h' : Sync { w with cacheDt := some dt } r t := ⟨h.parsed, h.sim, h.ts, h.id⟩
  have key : ∃ r', Sync (Writer.write { w with cacheDt := some dt } (.dt dt)) r' t ∧ r'.tl = r.tl ∧
      r'.active = r.active ∧ r'.known = r.known ∧
      SameState w (Writer.write { w with cacheDt := some dt } (.dt dt)) ∧
      (Writer.write { w with cacheDt := some dt } (.dt dt)).idWritten = false := by
    obtain ⟨r1, h1, h2, h3, h4, h5, h6⟩ := write_plain h' (p := .dt dt) (Or.inl ⟨dt, rfl⟩)
    exact ⟨r1, h1, h2, h3, h4, h5, h6.trans hid⟩
  unfold Writer.writeDt
  split
  · split
    · exact ⟨r, h, rfl, rfl, rfl, SameState.refl w, hid⟩
    · exact key
  · exact key

/-- One frame, seen from one object. -/
theorem writeFrame_spec (f : Frame) (hnd : (f.objs.map (·.1)).Nodup) {w : Writer} {r : Reader}
    (hp : parse {} w.out = .ok r) (hts : w.tsWritten = false) (hid : w.idWritten = false) (hprev : w.prev.Nodup) :
    (Rejected (w.writeFrame f) ∧
      ∃ j v q, (j, v) ∈ f.objs ∧ blank (v q) = true ∧ changed q (w.cached j q) (v q) = true) ∨
    ∃ r', parse {} (w.writeFrame f).out = .ok r' ∧ (w.writeFrame f).tsWritten = false ∧
      (w.writeFrame f).idWritten = false ∧ (w.writeFrame f).prev = f.objs.map (·.1) ∧
      (∀ j v, (j, v) ∈ f.objs →
        (w.writeFrame f).cache j = some (fun q => updated q (w.cached j q) (v q)) ∧
        (∀ q, r'.tl j q = r.tl j q ++ added f.time q (w.cached j q) (v q)) ∧
        r'.active j = (if anyChanged (w.cached j) v = true then activateAt (r.known j) (r.active j) f.time
          else r.active j) ∧
        r'.known j = (anyChanged (w.cached j) v || r.known j)) ∧
      (∀ j, j ∉ f.objs.map (·.1) →
        (w.writeFrame f).cache j = (if j ∈ w.prev then none else w.cache j) ∧ (∀ q, r'.tl j q = r.tl j q) ∧
        r'.active j = (if j ∈ w.prev then activateAt (r.known j) (r.active j) f.time ++ [(f.time, false)]
          else r.active j) ∧
        r'.known j = (if j ∈ w.prev then true else r.known j)) := by
  have h0 : Sync { w with simTime := f.time } r f.time := ⟨hp, rfl, by simp [hts], by simp [hid]⟩
  obtain ⟨r1, h1, a1, a2, a3, a4, a5⟩ := writeDt_spec f.dt h0 hid
  obtain ⟨r2, h2, b1, b2, b3, b4, b5⟩ := writeOthers_spec f.others h1 a5
  have hs := a4.trans b4
  simp only [Writer.writeFrame, Writer.writeObjects]
  generalize hw : Writer.writeOthers (Writer.writeDt { w with simTime := f.time } f.dt) f.others = w2 at *
  have hc2 : w2.cached = w.cached := by
    funext j; simp [Writer.cached, hs.1]
  rcases writeObjs_spec f.objs hnd h2 b5 with ⟨hr, j, v, q, ha, hb, hc⟩ | ⟨r3, h3, c1, c2, c3, c4⟩
  · left
    rw [hc2] at hc
    refine ⟨?_, j, v, q, ha, hb, hc⟩
    obtain ⟨l, hl⟩ := deletes_out (f.objs.map (·.1)) (f.objs.foldl Writer.writeObject w2).prev
      (f.objs.foldl Writer.writeObject w2)
    exact hr.append l hl
  · right
    have hpr : (f.objs.foldl Writer.writeObject w2).prev = w.prev := c2.trans hs.2.1
    obtain ⟨r4, h4, d1, d2, d3, d4, d5⟩ := deletes_spec (f.objs.map (·.1)) (f.objs.foldl Writer.writeObject w2).prev
      (by rw [hpr]; exact hprev) h3 c1
    rw [hc2] at c3
    rw [hpr] at d3 d4 d5
    rw [hpr] at h4 d1
    refine ⟨r4, by rw [hpr]; exact h4.parsed, trivial, by rw [hpr]; exact d1, trivial, ?_, ?_⟩
    · intro j v hv
      have hmem : j ∈ f.objs.map (·.1) := List.mem_map_of_mem (f := (·.1)) hv
      obtain ⟨x1, x2, x3, x4⟩ := c3 j v (valuesOf_mem hnd hv)
      rw [hpr]
      refine ⟨by rw [d3]; simp only [hmem, not_true, and_false, if_false]; exact x1,
        fun q => by rw [d2, x2, b1, a1], ?_, ?_⟩
      · rw [d4]; simp only [hmem, not_true, and_false, if_false]; rw [x3, b3, b2, a3, a2]
      · rw [d5]; simp only [hmem, not_true, and_false, if_false]; rw [x4, b3, a3]
    · intro j hv
      obtain ⟨x1, x2, x3, x4⟩ := c4 j (valuesOf_none.2 hv)
      rw [hpr]
      refine ⟨by rw [d3, x1, hs.1]; simp only [hv, not_false_eq_true, and_true],
        fun q => by rw [d2, x2, b1, a1], ?_, ?_⟩
      · rw [d4, x3, x4, b3, b2, a3, a2]; simp only [hv, not_false_eq_true, and_true]
      · rw [d5, x4, b3, a3]; simp only [hv, not_false_eq_true, and_true]

theorem writeDt_out (dt : Rat) (w : Writer) : ∃ l, (w.writeDt dt).out = w.out ++ l := by
  unfold Writer.writeDt
  split
  · split
    · exact ⟨[], by simp⟩
    · exact write_out { w with cacheDt := some dt } _
  · exact write_out { w with cacheDt := some dt } _

theorem writeOthers_out (n : Nat) (w : Writer) : ∃ l, (w.writeOthers n).out = w.out ++ l := by
  induction n generalizing w with
  | zero => exact ⟨[], by simp [Writer.writeOthers]⟩
  | succ n ih =>
    obtain ⟨l, hl⟩ := ih (w.write .other)
    obtain ⟨l', hl'⟩ := write_out w .other
    exact ⟨l' ++ l, by simp [Writer.writeOthers, hl, hl']⟩

theorem writeFrame_out (f : Frame) (w : Writer) : ∃ l, (w.writeFrame f).out = w.out ++ l := by
  simp only [Writer.writeFrame, Writer.writeObjects]
  obtain ⟨l1, h1⟩ := writeDt_out f.dt { w with simTime := f.time }
  obtain ⟨l2, h2⟩ := writeOthers_out f.others (Writer.writeDt { w with simTime := f.time } f.dt)
  generalize Writer.writeOthers (Writer.writeDt { w with simTime := f.time } f.dt) f.others = w2 at *
  obtain ⟨l3, h3⟩ := writeObjs_out f.objs w2
  obtain ⟨l4, h4⟩ := deletes_out (f.objs.map (·.1)) (f.objs.foldl Writer.writeObject w2).prev
    (f.objs.foldl Writer.writeObject w2)
  refine ⟨l1 ++ l2 ++ l3 ++ l4, ?_⟩
  rw [h4, h3, h2, h1]
  simp

end Verif.Dat

import Verif.Dat.Recording

namespace Verif.Dat
open Verif.Common

theorem parse_append (r : Reader) (a b : List Pkt) : parse r (a ++ b) = (parse r a).bind (fun r => parse r b) := by
  induction a generalizing r with
  | nil => rfl
  | cons p a ih =>
    simp only [List.cons_append, parse]
    cases r.step p with
    | error e => rfl
    | ok r' => exact ih r'

theorem parse_snoc (r : Reader) (a : List Pkt) (p : Pkt) : parse r (a ++ [p]) = (parse r a).bind (fun r => r.step p) := by
  rw [parse_append]
  congr 1
  funext r
  simp only [parse]
  cases r.step p <;> rfl

/-- The reader has followed the writer. -/
structure Sync (w : Writer) (r : Reader) (t : Rat) : Prop where
  parsed : parse {} w.out = .ok r
  sim : w.simTime = t
  ts : w.tsWritten = true → r.time = t
  id : w.idWritten = true → w.tsWritten = true ∧ r.cur = some w.cur

def Rejected (w : Writer) : Prop := parse {} w.out = .error .rejected

/-- Everything of a writer but the file and the flags. -/
def SameState (w w' : Writer) : Prop :=
  w'.cache = w.cache ∧ w'.prev = w.prev ∧ w'.cur = w.cur ∧ w'.simTime = w.simTime

theorem SameState.refl (w) : SameState w w := ⟨rfl, rfl, rfl, rfl⟩

theorem SameState.trans {a b c} (h : SameState a b) (k : SameState b c) : SameState a c :=
  ⟨k.1.trans h.1, k.2.1.trans h.2.1, k.2.2.1.trans h.2.2.1, k.2.2.2.trans h.2.2.2⟩

theorem Rejected.append {w w' : Writer} (h : Rejected w) (l : List Pkt) (hl : w'.out = w.out ++ l) : Rejected w' := by
  unfold Rejected at *
  rw [hl, parse_append, h]
  rfl

theorem stamp_out (w : Writer) : ∃ l, w.stamp.out = w.out ++ l := by
  unfold Writer.stamp
  split
  · exact ⟨[], by simp⟩
  · exact ⟨_, rfl⟩

theorem stamp_spec {w : Writer} {r : Reader} {t : Rat} (h : Sync w r t) :
    ∃ r', Sync w.stamp r' t ∧ r'.tl = r.tl ∧ r'.active = r.active ∧ r'.known = r.known ∧ r'.cur = r.cur ∧
      SameState w w.stamp ∧ w.stamp.tsWritten = true ∧ w.stamp.idWritten = w.idWritten := by
  unfold Writer.stamp
  split
  · next hw => exact ⟨r, h, rfl, rfl, rfl, rfl, SameState.refl w, hw, rfl⟩
  · next hw =>
    refine ⟨{ r with time := t }, ⟨?_, h.sim, fun _ => rfl, ?_⟩, rfl, rfl, rfl, rfl, SameState.refl _, rfl, rfl⟩
    · simp only
      rw [parse_snoc, h.parsed, h.sim]
      rfl
    · intro hid
      exact ⟨rfl, (h.id hid).2⟩

theorem identify_out (w : Writer) : ∃ l, w.identify.out = w.out ++ l := by
  unfold Writer.identify
  split
  · exact ⟨[], by simp⟩
  · obtain ⟨l, hl⟩ := stamp_out { w with idWritten := true }
    simp only at hl ⊢
    rw [hl]
    exact ⟨l ++ [.objId ({ w with idWritten := true } : Writer).stamp.cur], by simp⟩

/-- `activate` at time `t`. -/
def activateAt (known : Bool) (active : List (Rat × Bool)) (t : Rat) : List (Rat × Bool) :=
  if known = false then (if t > 0 then [(0, false), (t, true)] else [(t, true)])
  else if (active.getLast?.map (·.2)) = some true then active
  else active ++ [(t, true)]

theorem identify_spec {w : Writer} {r : Reader} {t : Rat} (h : Sync w r t) :
    ∃ r', Sync w.identify r' t ∧ r'.tl = r.tl ∧ SameState w w.identify ∧ w.identify.idWritten = true ∧
      w.identify.tsWritten = true ∧
      (w.idWritten = true → r'.active = r.active ∧ r'.known = r.known) ∧
      (w.idWritten = false →
        r'.active = (fun j => if j = w.cur then activateAt (r.known j) (r.active j) t else r.active j) ∧
        r'.known = (fun j => if j = w.cur then true else r.known j)) := by
  unfold Writer.identify
  split
  · next hw => exact ⟨r, h, rfl, SameState.refl w, hw, (h.id hw).1, fun _ => ⟨rfl, rfl⟩, by simp [hw]⟩
  · next hw =>
    have hw' : w.idWritten = false := by simpa using hw
    -- the state in between does not satisfy `Sync.id`; go through the writer with the flag still false
    have hst : ({ w with idWritten := true } : Writer).stamp = { w.stamp with idWritten := true } := by
      unfold Writer.stamp; split <;> rfl
    obtain ⟨r1, h1, h2, h3, h4, h5, h6, h7, h8⟩ := stamp_spec h
    refine ⟨{ r1 with
        cur := some w.stamp.cur
        known := fun j => if j = w.stamp.cur then true else r1.known j
        active := fun j => if j = w.stamp.cur then r1.activate w.stamp.cur else r1.active j },
      ⟨?_, ?_, ?_, ?_⟩, h2, ?_, ?_, ?_, by simp [hw'], ?_⟩
    · simp only [hst]
      rw [parse_snoc, h1.parsed]
      rfl
    · simp only [hst]; exact h1.sim
    · intro _; exact h1.ts h7
    · intro _
      simp only [hst]
      exact ⟨h7, trivial⟩
    · simp only [hst]; exact ⟨h6.1, h6.2.1, h6.2.2.1, h6.2.2.2⟩
    · simp only [hst]
    · simp only [hst]; exact h7
    · intro _
      have hcur : w.stamp.cur = w.cur := h6.2.2.1
      refine ⟨?_, ?_⟩
      · funext j
        simp only [hcur, h3]
        by_cases hj : j = w.cur
        · subst hj
          simp only [if_true]
          unfold Reader.activate activateAt
          rw [h4, h3, h1.ts h7]
        · simp [hj]
      · funext j
        simp only [hcur, h4]

theorem write_out (w : Writer) (p : Pkt) : ∃ l, (w.write p).out = w.out ++ l := by
  unfold Writer.write
  simp only
  have h1 : ∃ l, (if p.needsObjId = true then w.identify else w).out = w.out ++ l := by
    split
    · exact identify_out w
    · exact ⟨[], by simp⟩
  obtain ⟨l1, h1⟩ := h1
  generalize (if p.needsObjId = true then w.identify else w) = w1 at *
  have h2 : ∃ l, (if p.isEnd = true then w1 else w1.stamp).out = w1.out ++ l := by
    split
    · exact ⟨[], by simp⟩
    · exact stamp_out w1
  obtain ⟨l2, h2⟩ := h2
  rw [h2, h1]
  exact ⟨l1 ++ l2 ++ [p], by simp⟩

/-- Writing a packet without object. -/
theorem write_plain {w : Writer} {r : Reader} {t : Rat} (h : Sync w r t) {p : Pkt} (hp : (∃ x, p = .dt x) ∨ p = .other) :
    ∃ r', Sync (w.write p) r' t ∧ r'.tl = r.tl ∧ r'.active = r.active ∧ r'.known = r.known ∧
      SameState w (w.write p) ∧ (w.write p).idWritten = w.idWritten := by
  obtain ⟨r1, h1, h2, h3, h4, h5, h6, h7, h8⟩ := stamp_spec h
  have e1 : w.write p = { w.stamp with out := w.stamp.out ++ [p] } := by
    rcases hp with ⟨x, rfl⟩ | rfl <;> simp [Writer.write, Pkt.needsObjId, Pkt.isEnd]
  rw [e1]
  refine ⟨r1, ⟨?_, h1.sim, h1.ts, h1.id⟩, h2, h3, h4, h6, h8⟩
  simp only
  rw [parse_snoc, h1.parsed]
  rcases hp with ⟨x, rfl⟩ | rfl <;> rfl

/-- The packet is written after the object id. -/
theorem write_obj_eq (w : Writer) {p : Pkt} (hp : p.needsObjId = true) (he : p.isEnd = false)
    (hts : w.identify.tsWritten = true) : w.write p = { w.identify with out := w.identify.out ++ [p] } := by
  simp [Writer.write, hp, he, Writer.stamp, hts]

/-- Writing a value of the current object. -/
theorem write_value {w : Writer} {r : Reader} {t : Rat} (h : Sync w r t) (q : Quantity) (v : Val) :
    (Rejected (w.write (.value q v)) ∧ blank v = true) ∨
    ∃ r', Sync (w.write (.value q v)) r' t ∧
      r'.tl = (fun j q' => if j = w.cur ∧ q' = q then r.tl j q' ++ [(t, v)] else r.tl j q') ∧
      SameState w (w.write (.value q v)) ∧ (w.write (.value q v)).idWritten = true ∧
      (w.idWritten = true → r'.active = r.active ∧ r'.known = r.known) ∧
      (w.idWritten = false →
        r'.active = (fun j => if j = w.cur then activateAt (r.known j) (r.active j) t else r.active j) ∧
        r'.known = (fun j => if j = w.cur then true else r.known j)) := by
  obtain ⟨r1, h1, h2, h3, h4, h5, h6, h7⟩ := identify_spec h
  have hcur : r1.cur = some w.identify.cur := (h1.id h4).2
  have hcur' : w.identify.cur = w.cur := h3.2.2.1
  rw [write_obj_eq w rfl rfl h5]
  by_cases hb : blank v = true
  · left
    refine ⟨?_, hb⟩
    unfold Rejected
    simp only
    rw [parse_snoc, h1.parsed]
    simp [Except.bind, Reader.step, hcur, hb]
  · right
    have htime := h1.ts h5
    refine ⟨{ r1 with tl := fun j q' => if j = w.identify.cur ∧ q' = q then r1.tl j q' ++ [(r1.time, v)] else r1.tl j q' },
      ⟨?_, h1.sim, h1.ts, h1.id⟩, ?_, h3, h4, h6, h7⟩
    · simp only
      rw [parse_snoc, h1.parsed]
      simp [Except.bind, Reader.step, hcur, hb]
    · simp only [htime, h2, hcur']

/-- Writing the deletion of the current object. -/
theorem write_deleted {w : Writer} {r : Reader} {t : Rat} (h : Sync w r t) (hid : w.idWritten = false) :
    ∃ r', Sync (w.write .deleted) r' t ∧ r'.tl = r.tl ∧ SameState w (w.write .deleted) ∧
      r'.active = (fun j => if j = w.cur then activateAt (r.known j) (r.active j) t ++ [(t, false)] else r.active j) ∧
      r'.known = (fun j => if j = w.cur then true else r.known j) := by
  obtain ⟨r1, h1, h2, h3, h4, h5, h6, h7⟩ := identify_spec h
  obtain ⟨h7a, h7b⟩ := h7 hid
  have hcur : r1.cur = some w.identify.cur := (h1.id h4).2
  have hcur' : w.identify.cur = w.cur := h3.2.2.1
  rw [write_obj_eq w rfl rfl h5]
  have htime := h1.ts h5
  refine ⟨{ r1 with active := fun j => if j = w.identify.cur then r1.active j ++ [(r1.time, false)] else r1.active j },
    ⟨?_, h1.sim, h1.ts, h1.id⟩, h2, h3, ?_, h7b⟩
  · simp only
    rw [parse_snoc, h1.parsed]
    simp [Except.bind, Reader.step, hcur]
  · funext j
    simp only [htime, hcur', h7a]
    by_cases hj : j = w.cur <;> simp [hj]

end Verif.Dat

import Verif.Move.Model
import Verif.Road.FindTheorems
/-
Spec of moving along a road network, and what the functions of the model do on roads whose lanes go
through from one end to the other.
-/
namespace Verif.Move
open Verif.Road (Section Span laneInfo sectionIdx)

/-! Spec -/

/-- Spec: a road whose sections lie one after the other from 0 to its length and have the same lanes, each
linked with itself in the neighbouring sections. -/
structure Steady (r : Road) : Prop where
  pos : 0 < r.len
  some : 0 < r.secs.length
  len0 : ∀ sec ∈ r.secs, 0 ≤ sec.len
  adj : ∀ m (hm : m + 1 < r.secs.length), r.secs[m].s + r.secs[m].len = r.secs[m + 1].s
  first : r.secs[0].s = 0
  last : r.secs[r.secs.length - 1].s + r.secs[r.secs.length - 1].len = r.len
  ids : ∀ a ∈ r.secs, ∀ b ∈ r.secs, a.lanes.map (·.id) = b.lanes.map (·.id)
  up : ∀ m (hm : m + 1 < r.secs.length), ∀ lane ∈ r.secs[m].lanes, lane.succ = none ∨ lane.succ = lane.id
  down : ∀ m (hm : m + 1 < r.secs.length), ∀ lane ∈ r.secs[m + 1].lanes, lane.pred = none ∨ lane.pred = lane.id

/-- Spec: a place on a lane together with the direction of travel: `up` with growing s. -/
structure Spot where
  road : Nat
  lane : Int
  s : Rat
  off : Rat
  up : Bool
deriving DecidableEq, Repr

/-- Spec: distance to the end of the road ahead. -/
def Spot.ahead (p : Spot) (r : Road) : Rat := if p.up then r.len - p.s else p.s

/-- Spec: the place at distance `d` ahead. -/
def Spot.shift (p : Spot) (d : Rat) : Spot := { p with s := if p.up then p.s + d else p.s - d }

/-- Spec: the section at the end ahead. -/
def Spot.endSec (p : Spot) (r : Road) : Option Section := if p.up then r.secs.getLast? else r.secs.head?

/-- Spec: the link at the end ahead. -/
def Spot.link (p : Spot) (r : Road) : Option Link := if p.up then r.succ else r.pred

/-- Spec: road, contact point and lane after the link. -/
def Spot.exit (p : Spot) (net : Net) (lane : Verif.Road.Lane) : Link → Option (Nat × End × Int)
  | .road id c => (if p.up then lane.succ else lane.pred).map fun l => (id, c, l)
  | .junction j => net.connect j p.road p.lane

/-- Spec: where the lane goes on after the end ahead: at the linked end of the linked lane.  The side changes
if the next road runs against the direction of travel where this one ran with it, or the reverse. -/
def Spot.next (net : Net) (r : Road) (p : Spot) : Option Spot :=
  (p.endSec r).bind fun sec => (sec.laneById p.lane).bind fun lane => (p.link r).bind fun link =>
    (p.exit net lane link).bind fun x => (net.roads x.1).bind fun r' => r'.secs.head?.bind fun sec' =>
      (sec'.laneById x.2.2).bind fun _ =>
        if x.2.2 = 0 then none
        else some ⟨x.1, x.2.2, if x.2.1 = .start then 0 else r'.len,
          if decide (x.2.1 = .start) = p.up then p.off else -p.off, decide (x.2.1 = .start)⟩

/-- Spec: `q` is reached from `p` by travelling the distance `d` over `n` road ends. -/
inductive Reach (net : Net) : Nat → Spot → Rat → Spot → Prop
  | stay (p : Spot) (r : Road) (d : Rat) (hr : net.roads p.road = some r) (h0 : 0 ≤ d) (h : d ≤ p.ahead r) :
      Reach net 0 p d (p.shift d)
  | pass (n : Nat) (p p' q : Spot) (r : Road) (d : Rat) (hr : net.roads p.road = some r)
      (h : p.ahead r < d) (hn : p.next net r = some p') (h' : Reach net n p' (d - p.ahead r) q) :
      Reach net (n + 1) p d q

/-- Spec: the position lies on a lane of its road (not the centre lane). -/
structure Good (r : Road) (p : Pos) : Prop where
  sec : p.sec < r.secs.length
  idx : ∀ sec ∈ r.secs, sec.idxById p.lane = some p.idx
  lane : p.lane ≠ 0
  s0 : 0 ≤ p.s
  s1 : p.s ≤ r.len

/-- Spec: the position as a place, with the direction of travel. -/
def Pos.spot (p : Pos) (up : Bool) : Spot := ⟨p.road, p.lane, p.s, p.off, up⟩

/-! Lemmas -/

theorem idx_lane (sec : Section) (id : Int) (i : Nat) (h : sec.idxById id = some i) :
    ∃ lane, sec.lanes[i]? = some lane ∧ sec.laneById id = some lane ∧ lane.id = id := by
  unfold Section.idxById at h
  obtain ⟨hi, h1, h2⟩ := List.findIdx?_eq_some_iff_getElem.mp h
  refine ⟨sec.lanes[i], List.getElem?_eq_getElem hi, ?_, by simpa using h1⟩
  unfold Section.laneById
  exact List.find?_eq_some_iff_getElem.mpr ⟨h1, i, hi, rfl, fun j hj => by
    have := h2 j hj
    simpa using this⟩

theorem idx_map (sec : Section) (id : Int) :
    sec.idxById id = (sec.lanes.map (·.id)).findIdx? (fun x => x == id) := by
  unfold Section.idxById
  rw [List.findIdx?_map]
  rfl

theorem idx_some (sec : Section) (id : Int) (lane : Verif.Road.Lane) (h : sec.laneById id = some lane) :
    ∃ i, sec.idxById id = some i := by
  unfold Section.idxById
  unfold Section.laneById at h
  cases hc : sec.lanes.findIdx? (fun l => l.id == id) with
  | some i => exact ⟨i, rfl⟩
  | none =>
    exfalso
    have h1 := List.findIdx?_eq_none_iff.mp hc lane (List.mem_of_find?_eq_some h)
    have h2 := List.find?_some h
    simp only [h1] at h2
    exact absurd h2 (by simp)

theorem steady_idx (r : Road) (hs : Steady r) (a : Section) (ha : a ∈ r.secs) (id : Int) (i : Nat)
    (h : a.idxById id = some i) : ∀ b ∈ r.secs, b.idxById id = some i := by
  intro b hb
  rw [idx_map] at h ⊢
  rw [hs.ids b hb a ha]
  exact h

theorem connect_up (r : Road) (hs : Steady r) (m : Nat) (hm : m + 1 < r.secs.length) (id : Int) (h0 : id ≠ 0)
    (i : Nat) (h : (r.secs[m]).idxById id = some i) : (r.secs[m]).connecting id true = id := by
  obtain ⟨lane, _, h2, h3⟩ := idx_lane _ _ _ h
  unfold Section.connecting
  rw [if_neg h0, h2]
  simp only [if_true]
  have hmem : lane ∈ (r.secs[m]).lanes := List.mem_of_find?_eq_some h2
  rcases hs.up m hm lane hmem with e | e
  · rw [e]
  · rw [e]; exact h3

theorem connect_down (r : Road) (hs : Steady r) (m : Nat) (hm : m + 1 < r.secs.length) (id : Int) (h0 : id ≠ 0)
    (i : Nat) (h : (r.secs[m + 1]).idxById id = some i) : (r.secs[m + 1]).connecting id false = id := by
  obtain ⟨lane, _, h2, h3⟩ := idx_lane _ _ _ h
  unfold Section.connecting
  rw [if_neg h0, h2]
  simp only [Bool.false_eq_true, if_false]
  have hmem : lane ∈ (r.secs[m + 1]).lanes := List.mem_of_find?_eq_some h2
  rcases hs.down m hm lane hmem with e | e
  · rw [e]
  · rw [e]; exact h3

theorem infoFwd_steady (r : Road) (hs : Steady r) (s : Rat) (id : Int) (h0 : id ≠ 0) (i : Nat)
    (hi : ∀ sec ∈ r.secs, sec.idxById id = some i) : ∀ (fuel j : Nat), j < r.secs.length →
    ∃ k, Verif.Road.infoFwd r.secs s fuel j id = (k, id) ∧ k < r.secs.length := by
  intro fuel
  induction fuel with
  | zero => intro j hj; exact ⟨j, rfl, hj⟩
  | succ fuel ih =>
    intro j hj
    simp only [Verif.Road.infoFwd]
    rw [List.getElem?_eq_getElem hj]
    simp only [if_pos h0]
    split
    · rename_i hc
      rw [connect_up r hs j hc.2 id h0 i (hi _ (List.getElem_mem _))]
      exact ih (j + 1) hc.2
    · exact ⟨j, rfl, hj⟩

theorem infoBwd_steady (r : Road) (hs : Steady r) (s : Rat) (id : Int) (h0 : id ≠ 0) (i : Nat)
    (hi : ∀ sec ∈ r.secs, sec.idxById id = some i) : ∀ (j : Nat), j < r.secs.length →
    ∃ k, Verif.Road.infoBwd r.secs s j id = (k, id) ∧ k < r.secs.length := by
  intro j
  induction j with
  | zero => intro hj; exact ⟨0, rfl, hj⟩
  | succ j ih =>
    intro hj
    simp only [Verif.Road.infoBwd]
    rw [List.getElem?_eq_getElem hj]
    simp only [if_pos h0]
    split
    · rw [connect_down r hs j hj id h0 i (hi _ (List.getElem_mem _))]
      exact ih (by omega)
    · exact ⟨j + 1, rfl, hj⟩

theorem laneInfo_steady (r : Road) (hs : Steady r) (s : Rat) (id : Int) (h0 : id ≠ 0) (i : Nat)
    (hi : ∀ sec ∈ r.secs, sec.idxById id = some i) (j : Nat) (hj : j < r.secs.length) :
    ∃ k, laneInfo r.secs s j id = (k, id) ∧ k < r.secs.length := by
  unfold laneInfo
  rw [List.getElem?_eq_getElem hj]
  simp only
  split
  · exact infoFwd_steady r hs s id h0 i hi _ j hj
  · split
    · exact infoBwd_steady r hs s id h0 i hi j hj
    · exact ⟨j, rfl, hj⟩

theorem info_steady (net : Net) (road : Nat) (r : Road) (hs : Steady r) (p : Pos) (s : Rat)
    (h0 : p.lane ≠ 0) (i : Nat) (hi : ∀ sec ∈ r.secs, sec.idxById p.lane = some i) (hj : p.sec < r.secs.length) :
    ∃ k, info net road r p s = (.ok, k, p.lane) ∧ k < r.secs.length := by
  unfold info
  rw [List.getElem?_eq_getElem hj]
  simp only
  split
  · obtain ⟨k, h1, h2⟩ := laneInfo_steady r hs s p.lane h0 i hi p.sec hj
    rw [h1]
    simp only
    rw [List.getElem?_eq_getElem h2]
    simp only
    obtain ⟨lane, _, h3, _⟩ := idx_lane _ _ _ (hi _ (List.getElem_mem h2))
    rw [h3]
    simp only [Option.isNone_some, Bool.false_eq_true, and_false, if_false]
    exact ⟨k, rfl, h2⟩
  · exact ⟨p.sec, rfl, hj⟩

/-- The section found at an end of a steady road. -/
theorem sectionIdx_end (r : Road) (hs : Steady r) (c : End) :
    ∃ k, sectionIdx (r.secs.map fun x => (⟨x.s, x.len⟩ : Span)) (c.s r) 0 = some k ∧ k < r.secs.length := by
  have hl := hs.some
  have hsm : (0 : Rat) < Verif.Road.small := by decide +kernel
  have hlast := hs.last
  suffices h : ∃ k, sectionIdx (r.secs.map fun x => (⟨x.s, x.len⟩ : Span)) (c.s r) 0 = some k by
    obtain ⟨k, hk⟩ := h
    refine ⟨k, hk, ?_⟩
    have := Verif.Road.sectionIdx_lt _ _ _ _ hk
    simpa using this
  unfold sectionIdx
  rw [List.getElem?_eq_getElem (by simpa using hl)]
  simp only [gt_iff_lt, Nat.lt_irrefl, and_false, if_false]
  split
  · have hne : (r.secs.map fun x => (⟨x.s, x.len⟩ : Span)) ≠ [] := by
      intro h
      have := congrArg List.length h
      simp at this
      rw [this] at hl
      simp at hl
    rw [List.getLast?_eq_getElem?, List.getElem?_eq_getElem (by simp; omega)]
    simp only [List.getElem_map, List.length_map]
    have : ¬ c.s r > r.secs[r.secs.length - 1].s + r.secs[r.secs.length - 1].len + Verif.Road.small := by
      rw [hlast]
      have hp := hs.pos
      cases c
      · simp only [End.s]; grind
      · simp only [End.s]; grind
    rw [if_neg this]
    exact ⟨_, rfl⟩
  · exact ⟨_, rfl⟩

/-- Setting a position on the lane it is on. -/
theorem setLane_same (net : Net) (r : Road) (hs : Steady r) (p : Pos) (hr : net.roads p.road = some r)
    (hg : Good r p) (s off : Rat) (h0 : 0 ≤ s) (h1 : s ≤ r.len) :
    ∃ k, setLane net p p.road p.lane s off none =
      (.ok, { p with sec := k, s := s, off := off, ended := atEnd r s }) ∧ k < r.secs.length := by
  have n1 : ¬ s > r.len := by grind
  have n2 : ¬ s < 0 := by grind
  have hl : setLong net { p with off := off } p.road s =
      (.ok, { p with s := s, off := off, ended := atEnd r s }) := by
    simp [setLong, hr, n1, n2]
  unfold setLane
  rw [hl]
  simp only [reduceCtorEq, if_false, hr, ne_eq, not_true_eq_false, false_and]
  obtain ⟨k, h2, h3⟩ := info_steady net p.road r hs { p with s := s, off := off, ended := atEnd r s } s
    hg.lane p.idx hg.idx hg.sec
  refine ⟨k, ?_, h3⟩
  rw [h2]
  simp only [if_true]
  rw [List.getElem?_eq_getElem h3]
  simp only
  rw [hg.idx _ (List.getElem_mem h3)]

/-- Entering a lane at an end of a road. -/
theorem setLane_enter (net : Net) (p : Pos) (id : Nat) (r : Road) (hs : Steady r) (hr : net.roads id = some r)
    (lane : Int) (hl0 : lane ≠ 0) (i : Nat) (hi : ∀ sec ∈ r.secs, sec.idxById lane = some i) (c : End) (off : Rat)
    (sec : Option Nat) (hsec : ∀ j, sec = some j → j < r.secs.length)
    (hp : p.road = id → p.sec < r.secs.length) :
    ∃ k code, setLane net p id lane (c.s r) off sec =
      (code, ⟨id, k, lane, i, c.s r, off, p.fwd, atEnd r (c.s r)⟩) ∧ k < r.secs.length := by
  have hpos := hs.pos
  have n1 : ¬ c.s r > r.len := by cases c <;> simp only [End.s] <;> grind
  have n2 : ¬ c.s r < 0 := by cases c <;> simp only [End.s] <;> grind
  obtain ⟨P, hP⟩ : ∃ P : Pos, P = (setLong net { p with off := off } id (c.s r)).2 := ⟨_, rfl⟩
  have hc : setLong net { p with off := off } id (c.s r) = (.ok, P) := by
    rw [hP]
    simp only [setLong, hr, n1, n2, if_false]
  have e1 : P.road = id := by
    rw [hP]
    simp only [setLong, hr, n1, n2, if_false]
    split
    · rfl
    · rename_i h; exact (Decidable.not_not.mp h).symm
  have e2 : P.s = c.s r ∧ P.off = off ∧ P.fwd = p.fwd ∧ P.ended = atEnd r (c.s r) := by
    rw [hP]
    simp only [setLong, hr, n1, n2, if_false]
    split <;> simp
  have e3 : P.sec < r.secs.length := by
    rw [hP]
    simp only [setLong, hr, n1, n2, if_false]
    split
    · exact hs.some
    · rename_i h
      exact hp (Decidable.not_not.mp h).symm
  obtain ⟨a, hsc, ha⟩ := sectionIdx_end r hs c
  unfold setLane
  rw [hc]
  simp only [reduceCtorEq, if_false, hr]
  by_cases h : lane ≠ P.lane ∧ sec = none
  · rw [if_pos h, hsc]
    simp only
    rw [List.getElem?_eq_getElem ha]
    simp only
    rw [hi _ (List.getElem_mem ha)]
    refine ⟨a, .ok, ?_, ha⟩
    obtain ⟨f1, f2, f3, f4⟩ := e2
    simp only [e1, f1, f2, f3, f4]
  · rw [if_neg h]
    cases sec with
    | some j =>
      have hj := hsec j rfl
      simp only
      rw [List.getElem?_eq_getElem hj]
      simp only
      rw [hi _ (List.getElem_mem hj)]
      refine ⟨j, .ok, ?_, hj⟩
      obtain ⟨f1, f2, f3, f4⟩ := e2
      simp only [e1, f1, f2, f3, f4]
    | none =>
      have hl : P.lane = lane := by
        refine Decidable.byContradiction fun hne => ?_
        exact h ⟨fun e => hne e.symm, rfl⟩
      obtain ⟨k, h2, h3⟩ := info_steady net id r hs P P.s (by rw [hl]; exact hl0) i (by rw [hl]; exact hi) e3
      rw [h2]
      simp only [if_true]
      rw [List.getElem?_eq_getElem h3]
      simp only
      rw [hl, hi _ (List.getElem_mem h3)]
      refine ⟨k, .ok, ?_, h3⟩
      obtain ⟨f1, f2, f3, f4⟩ := e2
      simp only [e1, f1, f2, f3, f4]

/-- The update at the end of a round. -/
theorem settle_steady (net : Net) (r : Road) (hs : Steady r) (p : Pos) (hr : net.roads p.road = some r)
    (hg : Good r p) (s off : Rat) (h0 : 0 ≤ s) (h1 : s ≤ r.len) (code : Code) (hc : code.fine = true) :
    ∃ k, settle net p s off code = (code, { p with sec := k, s := s, off := off, ended := atEnd r s }) ∧
      k < r.secs.length := by
  obtain ⟨k, h2, h3⟩ := setLane_same net r hs p hr hg s off h0 h1
  refine ⟨k, ?_, h3⟩
  unfold settle
  rw [h2]
  obtain ⟨k2, h4, _⟩ := info_steady net p.road r hs { p with sec := k, s := s, off := off, ended := atEnd r s }
    s hg.lane p.idx hg.idx h3
  simp only [ne_eq, not_true_eq_false, if_false, Code.fine, if_true, hg.lane, not_false_eq_true, hr, h4]
  cases code <;> simp_all [Code.fine]

theorem good_update (r : Road) (p : Pos) (hg : Good r p) (k : Nat) (s off : Rat) (e : Bool)
    (hk : k < r.secs.length) (h0 : 0 ≤ s) (h1 : s ≤ r.len) :
    Good r { p with sec := k, s := s, off := off, ended := e } :=
  ⟨hk, hg.idx, hg.lane, h0, h1⟩

end Verif.Move

import Verif.Move.Lemmas
/-
Theorems about moving along the road network.
-/
namespace Verif.Move
open Verif.Road (Section Span laneInfo sectionIdx)

/-- Spec: the code for a crossed link. -/
def linkCode : Link → Code
  | .road _ _ => .entered
  | .junction _ => .junction

/-- Entering the next road. -/
theorem moveTo_steady (net : Net) (hst : ∀ id r, net.roads id = some r → Steady r) (r : Road) (p : Pos)
    (hr : net.roads p.road = some r) (hg : Good r p) (succ : Bool)
    (hsec : p.sec = if succ then r.secs.length - 1 else 0) (p' : Spot)
    (hn : (p.spot succ).next net r = some p') (link : Link) (hl : r.link succ = some link) :
    ∃ code e q r', moveTo net p link succ = (code, e, q) ∧ code.fine = true ∧ code ≠ .generic ∧ code ≠ .ok ∧
      q.spot p'.up = p' ∧ e = (if p'.up then .start else .finish) ∧ net.roads q.road = some r' ∧ Good r' q ∧
      q.s = (if p'.up then 0 else r'.len) ∧ (q.fwd = p.fwd ↔ p'.up = succ) := by
  have hs := hst _ _ hr
  have hends : (p.spot succ).endSec r = r.secs[p.sec]? := by
    unfold Spot.endSec
    rw [hsec]
    simp only [Pos.spot]
    cases succ
    · simp [List.head?_eq_getElem?]
    · simp [List.getLast?_eq_getElem?]
  obtain ⟨lane, l1, l2, l3⟩ := idx_lane _ _ _ (hg.idx _ (List.getElem_mem hg.sec))
  have hup : (p.spot succ).up = succ := rfl
  unfold Spot.next at hn
  rw [hends, List.getElem?_eq_getElem hg.sec] at hn
  simp only [Option.bind_some] at hn
  have hlane : (p.spot succ).lane = p.lane := rfl
  have hroad : (p.spot succ).road = p.road := rfl
  have hoff : (p.spot succ).off = p.off := rfl
  have hlk : (p.spot succ).link r = some link := hl
  rw [hlane, l2, hlk] at hn
  simp only [Option.bind_some] at hn
  rw [Option.bind_eq_some_iff] at hn
  obtain ⟨⟨id, c, nl⟩, hx, hn⟩ := hn
  rw [Option.bind_eq_some_iff] at hn
  obtain ⟨r', hr', hn⟩ := hn
  rw [Option.bind_eq_some_iff] at hn
  obtain ⟨sec', hsec', hn⟩ := hn
  rw [Option.bind_eq_some_iff] at hn
  obtain ⟨lane', hlane', hn⟩ := hn
  have hs' := hst _ _ hr'
  by_cases hnl : nl = 0
  · rw [if_pos hnl] at hn; exact absurd hn (by simp)
  rw [if_neg hnl] at hn
  simp only [Option.some.injEq] at hn
  obtain ⟨i, hi⟩ := idx_some _ _ _ hlane'
  have hi' := steady_idx r' hs' sec' (List.mem_of_head? hsec') nl i hi
  have hlen' := hs'.some
  have hpos' := hs'.pos
  -- the connection
  have hto : leave net p.road lane succ link =
      some (linkCode link, id, c, nl) := by
    cases link with
    | road id0 c0 =>
      simp only [Spot.exit, leave, hup] at hx ⊢
      rw [Option.map_eq_some_iff] at hx
      obtain ⟨l, hl1, hl2⟩ := hx
      simp only [Prod.mk.injEq] at hl2
      obtain ⟨rfl, rfl, rfl⟩ := hl2
      rw [hl1]
      rfl
    | junction j =>
      simp only [Spot.exit, leave, hroad, hlane] at hx ⊢
      rw [l3, hx]
      rfl
  obtain ⟨P, hP⟩ : ∃ P : Pos, P = { p with fwd := if (succ = false ∧ c = .start) ∨ (succ = true ∧ c = .finish)
    then !p.fwd else p.fwd } := ⟨_, rfl⟩
  obtain ⟨k, code, h1, hk⟩ := setLane_enter net P id r' hs' hr' nl hnl i hi' c
    (if (succ = false ∧ c = .start) ∨ (succ = true ∧ c = .finish) then -p.off else p.off) (entrySec r' link)
    (by
      intro j hj
      cases link with
      | junction _ => simp [entrySec] at hj
      | road _ c0 =>
        cases c0
        · simp [entrySec] at hj; omega
        · simp [entrySec] at hj; omega)
    (by
      intro he
      have : P.road = p.road := by rw [hP]
      rw [this] at he
      rw [← he, hr] at hr'
      have hrr := Option.some.inj hr'
      rw [← hrr, hP]
      exact hg.sec)
  refine ⟨linkCode link, c,
    ⟨id, k, nl, i, c.s r', if (succ = false ∧ c = .start) ∨ (succ = true ∧ c = .finish) then -p.off else p.off,
      P.fwd, atEnd r' (c.s r')⟩, r', ?_, ?_, ?_, ?_, ?_,
    ?_, ?_, ?_, ?_, ?_⟩
  · unfold moveTo
    rw [hr]
    simp only
    rw [List.getElem?_eq_getElem hg.sec]
    simp only
    rw [l1]
    simp only
    rw [hto]
    simp only
    rw [hr']
    simp only [if_neg hnl]
    rw [hP] at h1
    simp only at h1
    rw [h1, hP]
  · cases link <;> rfl
  · cases link <;> simp [linkCode]
  · cases link <;> simp [linkCode]
  · rw [← hn]
    simp only [Pos.spot, Spot.mk.injEq, true_and]
    cases c <;> cases succ <;> simp [End.s]
  · rw [← hn]; cases c <;> simp
  · exact hr'
  · refine ⟨hk, hi', hnl, ?_, ?_⟩
    · cases c <;> simp only [End.s] <;> grind
    · cases c <;> simp only [End.s] <;> grind
  · rw [← hn]; cases c <;> simp [End.s]
  · rw [← hn, hP]
    cases c <;> cases succ <;> simp

theorem ab_of_nonneg (x : Rat) (h : 0 ≤ x) : ab x = x := by unfold ab; split <;> grind
theorem ab_of_neg (x : Rat) (h : x < 0) : ab x = -x := by unfold ab; split <;> grind

/-- One round of the loop over the end of a road. -/
theorem loop_pass (net : Net) (hst : ∀ id r, net.roads id = some r → Steady r) (k : Nat) (p : Pos) (r : Road)
    (up : Bool) (d : Rat) (code : Code) (p' : Spot) (hr : net.roads p.road = some r) (hg : Good r p)
    (hlt : (p.spot up).ahead r < d) (hnext : (p.spot up).next net r = some p') :
    ∃ Q r1 c1, moveLoop net 0 (k + 1) p (if up then d else -d) 0 code =
        moveLoop net 0 k Q (if p'.up then d - (p.spot up).ahead r else -(d - (p.spot up).ahead r)) 0 c1 ∧
      c1.fine = true ∧ c1 ≠ .ok ∧ Q.spot p'.up = p' ∧ net.roads Q.road = some r1 ∧ Good r1 Q ∧
      (Q.fwd = p.fwd ↔ p'.up = up) := by
  have hs := hst _ _ hr
  have hs0 := hg.s0
  have hs1 := hg.s1
  have hb : ¬ (0 ≤ p.s + (if up then d else -d) ∧ p.s + (if up then d else -d) ≤ r.len) := by
    simp only [Spot.ahead, Pos.spot] at hlt
    cases up
    · simp only [Bool.false_eq_true, if_false] at hlt ⊢; grind
    · simp only [if_true] at hlt ⊢; grind
  have hup : decide (p.s + (if up then d else -d) > r.len) = up := by
    simp only [Spot.ahead, Pos.spot] at hlt
    have := hs.pos
    cases up
    · simp only [Bool.false_eq_true, if_false] at hlt ⊢
      simp only [gt_iff_lt, decide_eq_false_iff_not]; grind
    · simp only [if_true] at hlt ⊢
      simp only [gt_iff_lt, decide_eq_true_eq]; grind
  have hlink : ∃ link, r.link up = some link := by
    unfold Spot.next at hnext
    simp only [Option.bind_eq_some_iff] at hnext
    obtain ⟨_, _, _, _, link, h, _⟩ := hnext
    exact ⟨link, h⟩
  obtain ⟨link, hlink⟩ := hlink
  obtain ⟨P, hP⟩ : ∃ P : Pos, P = { p with sec := if up then r.secs.length - 1 else 0 } := ⟨_, rfl⟩
  have hPspot : P.spot up = p.spot up := by rw [hP]; rfl
  have hPg : Good r P := by
    have := hs.some
    refine ⟨?_, by rw [hP]; exact hg.idx, by rw [hP]; exact hg.lane, by rw [hP]; exact hs0, by rw [hP]; exact hs1⟩
    rw [hP]
    simp only
    split <;> omega
  obtain ⟨c1, e, q1, r1, m1, m2, m3, m3b, m4, m5, m6, m7, m8, m9⟩ := moveTo_steady net hst r P
    (by rw [hP]; exact hr) hPg up (by rw [hP]) p' (by rw [hPspot]; exact hnext) link hlink
  have hs1' := hst _ _ m6
  obtain ⟨j, hset, hj⟩ := settle_steady net r1 hs1' q1 m6 m7 q1.s (q1.off + 0) m7.s0 m7.s1 c1 m2
  refine ⟨{ q1 with sec := j, s := q1.s, off := q1.off + 0, ended := atEnd r1 q1.s }, r1, c1, ?_, m2, m3b, ?_, m6,
    good_update r1 q1 m7 j _ _ _ hj m7.s0 m7.s1, ?_⟩
  · rw [moveLoop.eq_def]
    simp only
    rw [hr]
    simp only
    rw [if_neg hb, hup, hlink]
    simp only
    rw [← hP, m1]
    simp only [m2, Bool.true_eq_false, if_false]
    have hab : ab (if up = true then p.s + (if up then d else -d) - r.len
        else p.s + (if up then d else -d)) = d - (p.spot up).ahead r := by
      simp only [Spot.ahead, Pos.spot] at hlt ⊢
      cases up
      · simp only [Bool.false_eq_true, if_false] at hlt ⊢
        rw [ab_of_neg _ (by grind)]; grind
      · simp only [if_true] at hlt ⊢
        rw [ab_of_nonneg _ (by grind)]; grind
    have hds : e.signed (d - (p.spot up).ahead r) =
        (if p'.up then d - (p.spot up).ahead r else -(d - (p.spot up).ahead r)) := by
      rw [m5]
      cases p'.up <;> simp [End.signed]
    have hoff : e.signed 0 = 0 := by cases e <;> rfl
    rw [hab, hds, hoff, hset]
    simp only [m3, if_false]
  · rw [← m4]; simp [Pos.spot, Rat.add_zero]
  · have hPf : P.fwd = p.fwd := by rw [hP]
    rw [hPf] at m9
    exact m9

/-- The status tells whether the place is at an end of the road that is not linked. -/
theorem atEnd_iff (r : Road) (s : Rat) : atEnd r s = true ↔
    (s < 1 / 1000000 ∧ r.pred = none) ∨ (r.len - 1 / 1000000 < s ∧ r.succ = none) := by
  unfold atEnd
  rw [Bool.or_eq_true, Bool.and_eq_true, Bool.and_eq_true, decide_eq_true_iff, decide_eq_true_iff,
    Option.isNone_iff_eq_none, Option.isNone_iff_eq_none]
  rfl

/-- A place set along a road is kept within the road; whether it was beyond its end is reported. -/
theorem place_on_road (net : Net) (p : Pos) (road : Nat) (r : Road) (hr : net.roads road = some r)
    (hl : 0 ≤ r.len) (s : Rat) :
    (setLong net p road s).2.road = road ∧
    (0 ≤ s → s ≤ r.len → (setLong net p road s).2.s = s) ∧
    (s ≤ 0 → (setLong net p road s).2.s = 0) ∧ (r.len ≤ s → (setLong net p road s).2.s = r.len) ∧
    ((setLong net p road s).1 = .endOfRoad ↔ r.len < s) ∧
    ((setLong net p road s).1 = .ok ↔ s ≤ r.len) ∧
    ((setLong net p road s).2.ended = true ↔ r.len < s ∨
      ((setLong net p road s).2.s < 1 / 1000000 ∧ r.pred = none) ∨
      (r.len - 1 / 1000000 < (setLong net p road s).2.s ∧ r.succ = none)) := by
  unfold setLong
  rw [hr]
  simp only
  have hroad : (if road ≠ p.road then { p with road := road, sec := 0, lane := 0, idx := 0 } else p : Pos).road = road := by
    split
    · rfl
    · rename_i h; exact (Decidable.not_not.1 h).symm
  generalize (if road ≠ p.road then { p with road := road, sec := 0, lane := 0, idx := 0 } else p : Pos) = P at hroad
  by_cases h : s > r.len
  · rw [if_pos h]
    refine ⟨hroad, ?_, ?_, ?_, ?_, ?_, ?_⟩ <;> simp <;> grind
  · rw [if_neg h]
    refine ⟨hroad, ?_, ?_, ?_, ?_, ?_, ?_⟩
    · simp only; grind
    · simp only; grind
    · simp only; grind
    · simp; grind
    · simp; grind
    · simp only
      rw [atEnd_iff]
      grind

example : (setLong ⟨fun _ => some ⟨30, false, [], none, none⟩, fun _ _ _ => none, fun _ _ _ => 0⟩ ⟨1, 0, -1, 0, 5, 0, true, false⟩ 1 40).1
    = .endOfRoad := by decide +kernel

/-- A place given in a lane beyond the end of the road is reported, whatever is found out about
the lane. -/
theorem beyond_reported (net : Net) (p : Pos) (road : Nat) (r : Road) (hr : net.roads road = some r)
    (lane : Int) (s off : Rat) (h : r.len < s) (sec : Option Nat) :
    (setLane net p road lane s off sec).1 ≠ .ok ∧ (setLane net p road lane s off sec).1 ≠ .endOfLane := by
  have hc : (setLong net { p with off := off } road s).1 = .endOfRoad := by
    unfold setLong
    rw [hr]
    simp only
    rw [if_pos h]
  obtain ⟨c, P, hcp⟩ : ∃ c P, setLong net { p with off := off } road s = (c, P) := ⟨_, _, rfl⟩
  rw [hcp] at hc
  simp only at hc
  unfold setLane
  rw [hcp, hc]
  simp only [hr]
  generalize (if lane ≠ P.lane ∧ sec = none then _ else sec : Option Nat) = x
  cases x with
  | some j =>
    simp only
    split
    · simp
    · split
      · simp
      · split <;> simp
  | none =>
    simp only
    split
    · simp
    · split
      · simp
      · split <;> simp

/-- The loop travels the distance. -/
theorem loop_reach (net : Net) (hst : ∀ id r, net.roads id = some r → Steady r) :
    ∀ (k n : Nat), n < k → ∀ (p : Pos) (r : Road) (up : Bool) (d : Rat) (q : Spot) (code : Code),
      net.roads p.road = some r → Good r p → code.fine = true → Reach net n (p.spot up) d q →
      ∃ c q' r', moveLoop net 0 k p (if up then d else -d) 0 code = (c, q') ∧ c.fine = true ∧
        q'.spot q.up = q ∧ net.roads q'.road = some r' ∧ Good r' q' ∧ (q'.fwd = p.fwd ↔ q.up = up) ∧
        q'.ended = atEnd r' q'.s ∧ (n = 0 → c = code) ∧ (0 < n → c ≠ .ok) := by
  intro k
  induction k with
  | zero => intro n hn; omega
  | succ k ih =>
    intro n hn p r up d q code hr hg hc hreach
    have hs := hst _ _ hr
    have hs0 := hg.s0
    have hs1 := hg.s1
    cases hreach with
    | stay _ r0 _ hr0 h0 h1 =>
      have : r0 = r := by
        have h : net.roads p.road = some r0 := hr0
        rw [hr] at h
        exact (Option.some.inj h).symm
      subst this
      have hb : 0 ≤ p.s + (if up then d else -d) ∧ p.s + (if up then d else -d) ≤ r0.len := by
        simp only [Spot.ahead, Pos.spot] at h1
        cases up
        · simp only [Bool.false_eq_true, if_false] at h1 ⊢; grind
        · simp only [if_true] at h1 ⊢; grind
      obtain ⟨j, hset, hj⟩ := settle_steady net r0 hs p hr hg (p.s + (if up then d else -d)) (p.off + 0) hb.1 hb.2
        code hc
      refine ⟨code, { p with sec := j, s := p.s + (if up then d else -d), off := p.off + 0,
                             ended := atEnd r0 (p.s + (if up then d else -d)) }, r0, ?_, hc, ?_, hr,
        good_update r0 p hg j _ _ _ hj hb.1 hb.2, ?_, rfl, fun _ => rfl, fun h => absurd h (by omega)⟩
      · unfold moveLoop
        rw [hr]
        simp only
        rw [if_pos hb, hset]
        unfold closing
        simp only [hr]
      · simp only [Pos.spot, Spot.shift, Rat.add_zero]
        cases up
        · simp only [Bool.false_eq_true, if_false, Spot.mk.injEq, true_and, and_true]; grind
        · simp only [if_true]
      · simp [Spot.shift, Pos.spot]
    | pass n _ p' _ r0 _ hr0 hlt hnext hrest =>
      have : r0 = r := by
        have h : net.roads p.road = some r0 := hr0
        rw [hr] at h
        exact (Option.some.inj h).symm
      subst this
      obtain ⟨Q, r1, c1, m1, m2, m3, m4, m5, m6, m7⟩ := loop_pass net hst k p r0 up d code p' hr hg hlt hnext
      obtain ⟨c, q', r', i1, i2, i3, i4, i5, i6, i7, i8, i9⟩ := ih n (by omega) Q r1 p'.up
        (d - (p.spot up).ahead r0) q c1 m5 m6 m2 (by rw [m4]; exact hrest)
      refine ⟨c, q', r', by rw [m1]; exact i1, i2, i3, i4, i5, ?_, i7, fun h => absurd h (by omega), ?_⟩
      · revert i6 m7
        cases q'.fwd <;> cases Q.fwd <;> cases p.fwd <;> cases q.up <;> cases p'.up <;> cases up <;> simp
      · intro _
        cases Nat.eq_zero_or_pos n with
        | inl h => rw [i8 h]; exact m3
        | inr h => exact i9 h

/-- Spec: the way ahead ends: no link, or a junction without connection for the lane. -/
def Spot.closed (net : Net) (r : Road) (p : Spot) : Prop :=
  p.link r = none ∨ ∃ j, p.link r = some (.junction j) ∧ net.connect j p.road p.lane = none

/-- Spec: travelling the distance `d` from `p`, the way ends at `q` after `n` road ends. -/
inductive Blocked (net : Net) : Nat → Spot → Rat → Spot → Prop
  | stop (p : Spot) (r : Road) (d : Rat) (hr : net.roads p.road = some r) (h : p.ahead r < d)
      (hc : p.closed net r) : Blocked net 0 p d (p.shift (p.ahead r))
  | pass (n : Nat) (p p' q : Spot) (r : Road) (d : Rat) (hr : net.roads p.road = some r)
      (h : p.ahead r < d) (hn : p.next net r = some p') (h' : Blocked net n p' (d - p.ahead r) q) :
      Blocked net (n + 1) p d q

/-- The loop stops where the way ends. -/
theorem loop_blocked (net : Net) (hst : ∀ id r, net.roads id = some r → Steady r) :
    ∀ (k n : Nat), n < k → ∀ (p : Pos) (r : Road) (up : Bool) (d : Rat) (q : Spot) (code : Code),
      net.roads p.road = some r → Good r p → Blocked net n (p.spot up) d q →
      ∃ q' r', moveLoop net 0 k p (if up then d else -d) 0 code = (.endOfRoad, q') ∧
        q'.spot q.up = q ∧ net.roads q'.road = some r' ∧ Good r' q' ∧ (q'.fwd = p.fwd ↔ q.up = up) ∧
        q'.ended = true := by
  intro k
  induction k with
  | zero => intro n hn; omega
  | succ k ih =>
    intro n hn p r up d q code hr hg hreach
    have hs := hst _ _ hr
    have hs0 := hg.s0
    have hs1 := hg.s1
    cases hreach with
    | stop _ r0 _ hr0 hlt hcl =>
      have : r0 = r := by
        have h : net.roads p.road = some r0 := hr0
        rw [hr] at h
        exact (Option.some.inj h).symm
      subst this
      have hb : ¬ (0 ≤ p.s + (if up then d else -d) ∧ p.s + (if up then d else -d) ≤ r0.len) := by
        simp only [Spot.ahead, Pos.spot] at hlt
        cases up
        · simp only [Bool.false_eq_true, if_false] at hlt ⊢; grind
        · simp only [if_true] at hlt ⊢; grind
      have hup : decide (p.s + (if up then d else -d) > r0.len) = up := by
        simp only [Spot.ahead, Pos.spot] at hlt
        have := hs.pos
        cases up
        · simp only [Bool.false_eq_true, if_false] at hlt ⊢
          simp only [gt_iff_lt, decide_eq_false_iff_not]; grind
        · simp only [if_true] at hlt ⊢
          simp only [gt_iff_lt, decide_eq_true_eq]; grind
      obtain ⟨P, hP⟩ : ∃ P : Pos, P = { p with sec := if up then r0.secs.length - 1 else 0 } := ⟨_, rfl⟩
      have hPr : net.roads P.road = some r0 := by rw [hP]; exact hr
      have hPg : Good r0 P := by
        have := hs.some
        refine ⟨?_, by rw [hP]; exact hg.idx, by rw [hP]; exact hg.lane, by rw [hP]; exact hs0,
          by rw [hP]; exact hs1⟩
        rw [hP]
        simp only
        split <;> omega
      have hst0 : 0 ≤ (if up = true then r0.len else 0) ∧ (if up = true then r0.len else 0) ≤ r0.len := by
        have := hs.pos
        cases up <;> simp <;> grind
      obtain ⟨j, hset, hj⟩ := setLane_same net r0 hs P hPr hPg (if up = true then r0.len else 0) P.off hst0.1 hst0.2
      refine ⟨{ P with sec := j, s := if up = true then r0.len else 0, off := P.off, ended := true }, r0, ?_, ?_, hPr,
        good_update r0 P hPg j _ _ _ hj hst0.1 hst0.2, ?_, rfl⟩
      · rw [moveLoop.eq_def]
        simp only
        rw [hr]
        simp only
        rw [if_neg hb, hup]
        rw [← hP, show p.road = P.road by rw [hP], show p.lane = P.lane by rw [hP], show p.off = P.off by rw [hP],
          hset]
        rcases hcl with hcl | ⟨jn, hcl, hco⟩
        · have hcl : r0.link up = none := hcl
          rw [hcl]
        · have hcl : r0.link up = some (.junction jn) := hcl
          simp only [Pos.spot] at hco
          rw [hcl]
          simp only
          obtain ⟨lane, l1, l2, l3⟩ := idx_lane _ _ _ (hPg.idx _ (List.getElem_mem hPg.sec))
          have hm : moveTo net P (.junction jn) up = (.generic, .start, P) := by
            unfold moveTo
            rw [hPr]
            simp only
            rw [List.getElem?_eq_getElem hPg.sec]
            simp only
            rw [l1]
            simp only [leave]
            rw [l3, show P.road = p.road by rw [hP], show P.lane = p.lane by rw [hP], hco]
            rfl
          rw [hm]
          simp only [Code.fine, if_true]
      · rw [hP]
        simp only [Pos.spot, Spot.shift, Spot.ahead]
        cases up
        · simp only [Bool.false_eq_true, if_false, Spot.mk.injEq, true_and, and_true]; grind
        · simp only [if_true, Spot.mk.injEq, true_and, and_true]; grind
      · rw [hP]; simp [Spot.shift, Pos.spot]
    | pass n _ p' _ r0 _ hr0 hlt hnext hrest =>
      have : r0 = r := by
        have h : net.roads p.road = some r0 := hr0
        rw [hr] at h
        exact (Option.some.inj h).symm
      subst this
      obtain ⟨Q, r1, c1, m1, m2, m3, m4, m5, m6, m7⟩ := loop_pass net hst k p r0 up d code p' hr hg hlt hnext
      obtain ⟨q', r', i1, i3, i4, i5, i6, i7⟩ := ih n (by omega) Q r1 p'.up
        (d - (p.spot up).ahead r0) q c1 m5 m6 (by rw [m4]; exact hrest)
      refine ⟨q', r', by rw [m1]; exact i1, i3, i4, i5, ?_, i7⟩
      revert i6 m7
      cases q'.fwd <;> cases Q.fwd <;> cases p.fwd <;> cases q.up <;> cases p'.up <;> cases up <;> simp

/-! The properties -/

/-- Spec: whether a positive distance goes with growing s: in the direction of the heading, of the traffic on
the lane (right of the centre with growing s, for left-hand traffic the reverse), or of the road. -/
def ahead (r : Road) (p : Pos) : Mode → Bool
  | .heading => p.fwd
  | .lane => if r.left then decide (0 < p.lane) else decide (p.lane < 0)
  | .road => true

/-- Spec: direction of travel for a signed distance. -/
def travelUp (r : Road) (p : Pos) (ds : Rat) (mode : Mode) : Bool :=
  if 0 ≤ ds then ahead r p mode else !ahead r p mode

theorem roadDs_eq (net : Net) (p : Pos) (r : Road) (hr : net.roads p.road = some r) (hl : p.lane ≠ 0) (ds : Rat)
    (mode : Mode) : roadDs net p ds mode = if travelUp r p ds mode then ab ds else -ab ds := by
  unfold travelUp ab
  have h2 : sign p.lane = if p.lane < 0 then -1 else 1 := rfl
  cases mode with
  | heading =>
    simp only [roadDs, ahead]
    by_cases hf : p.fwd = true <;> by_cases h : 0 ≤ ds <;> by_cases h3 : ds < 0 <;> simp [hf, h, h3] <;> grind
  | lane =>
    simp only [roadDs, ahead, hr]
    rw [h2]
    have hs : 0 < p.lane ∨ p.lane < 0 := by omega
    rcases hs with hs | hs
    · have : ¬ p.lane < 0 := by omega
      by_cases hf : r.left = true <;> by_cases h : 0 ≤ ds <;> by_cases h3 : ds < 0 <;> simp [hf, h, h3, hs, this] <;> grind
    · have : ¬ 0 < p.lane := by omega
      by_cases hf : r.left = true <;> by_cases h : 0 ≤ ds <;> by_cases h3 : ds < 0 <;> simp [hf, h, h3, hs, this] <;> grind
  | road =>
    simp only [roadDs, ahead]
    by_cases h : 0 ≤ ds <;> by_cases h3 : ds < 0 <;> simp [h, h3] <;> grind

/-- Moving by a distance ends at the place reached by travelling that distance along the linked lanes, with the
lateral offset and the heading kept relative to the direction of travel, as long as at most 7 road ends are
passed; the code tells whether a road end was passed, and the end of road status is that of the place. -/
theorem move_travels (net : Net) (hst : ∀ id r, net.roads id = some r → Steady r) (p : Pos) (r : Road)
    (hr : net.roads p.road = some r) (hg : Good r p) (ds : Rat) (mode : Mode) (n : Nat) (hn : n ≤ 7) (q : Spot)
    (hq : Reach net n (p.spot (travelUp r p ds mode)) (ab ds) q) :
    ∃ c q' r', moveAlongS net p ds 0 mode = (c, q') ∧ c.fine = true ∧ (c = .ok ↔ n = 0) ∧
      q'.road = q.road ∧ q'.lane = q.lane ∧ q'.s = q.s ∧ q'.off = q.off ∧
      (q'.fwd = p.fwd ↔ q.up = travelUp r p ds mode) ∧
      net.roads q'.road = some r' ∧ Good r' q' ∧
      (q'.ended = true ↔ (q'.s < 1 / 1000000 ∧ r'.pred = none) ∨
        (r'.len - 1 / 1000000 < q'.s ∧ r'.succ = none)) := by
  obtain ⟨c, q', r', h1, h2, h3, h4, h5, h6, h7, h8, h9⟩ := loop_reach net hst 8 n (by omega) p r _ (ab ds) q .ok hr hg
    rfl hq
  refine ⟨c, q', r', ?_, h2, ?_, ?_, ?_, ?_, ?_, h6, h4, h5, by rw [h7]; exact atEnd_iff r' q'.s⟩
  · unfold moveAlongS
    rw [roadDs_eq net p r hr hg.lane]
    exact h1
  · constructor
    · intro hc
      cases Nat.eq_zero_or_pos n with
      | inl h => exact h
      | inr h => exact absurd hc (h9 h)
    · exact h8
  all_goals rw [← h3]; rfl

/-- Where the way ends on the distance, the position stops at that end, and says so. -/
theorem move_stops (net : Net) (hst : ∀ id r, net.roads id = some r → Steady r) (p : Pos) (r : Road)
    (hr : net.roads p.road = some r) (hg : Good r p) (ds : Rat) (mode : Mode) (n : Nat) (hn : n ≤ 7) (q : Spot)
    (hq : Blocked net n (p.spot (travelUp r p ds mode)) (ab ds) q) :
    ∃ q' r', moveAlongS net p ds 0 mode = (.endOfRoad, q') ∧
      q'.road = q.road ∧ q'.lane = q.lane ∧ q'.s = q.s ∧ q'.off = q.off ∧
      (q'.fwd = p.fwd ↔ q.up = travelUp r p ds mode) ∧
      net.roads q'.road = some r' ∧ Good r' q' ∧ q'.ended = true := by
  obtain ⟨q', r', h1, h3, h4, h5, h6, h7⟩ := loop_blocked net hst 8 n (by omega) p r _ (ab ds) q .ok hr hg hq
  refine ⟨q', r', ?_, ?_, ?_, ?_, ?_, h6, h4, h5, h7⟩
  · unfold moveAlongS
    rw [roadDs_eq net p r hr hg.lane]
    exact h1
  all_goals rw [← h3]; rfl

theorem next_shift (net : Net) (r : Road) (p : Spot) (d : Rat) : (p.shift d).next net r = p.next net r := by
  unfold Spot.next Spot.shift
  rfl

/-- Distances add up. -/
theorem reach_add (net : Net) (n : Nat) (p q : Spot) (d : Rat) (h : Reach net n p d q) :
    ∀ (m : Nat) (e : Rat) (t : Spot), 0 ≤ e → Reach net m q e t → Reach net (n + m) p (d + e) t := by
  induction h with
  | stay p r d hr h0 h =>
    intro m e t he ht
    have hah : (p.shift d).ahead r = p.ahead r - d := by
      unfold Spot.ahead Spot.shift
      cases p.up <;> simp <;> grind
    cases ht with
    | stay _ r1 _ hr1 g0 g1 =>
      have : r1 = r := by
        have h : net.roads p.road = some r1 := hr1
        rw [hr] at h
        exact (Option.some.inj h).symm
      subst this
      rw [hah] at g1
      have : (p.shift d).shift e = p.shift (d + e) := by
        unfold Spot.shift
        simp only [Spot.mk.injEq, true_and, and_true]
        cases p.up <;> simp <;> grind
      rw [this]
      exact Reach.stay p r1 (d + e) hr (by grind) (by grind)
    | pass m _ p' _ r1 _ hr1 g1 g2 g3 =>
      have : r1 = r := by
        have h : net.roads p.road = some r1 := hr1
        rw [hr] at h
        exact (Option.some.inj h).symm
      subst this
      rw [hah] at g1 g3
      rw [next_shift] at g2
      have hd : d + e - p.ahead r1 = e - (p.ahead r1 - d) := by grind
      have := Reach.pass (net := net) m p p' t r1 (d + e) hr (by grind) g2 (by rw [hd]; exact g3)
      rw [Nat.zero_add]
      exact this
  | pass n p p' q r d hr h hn h' ih =>
    intro m e t he ht
    have h1 := ih m e t he ht
    have hd : d - p.ahead r + e = d + e - p.ahead r := by grind
    rw [hd] at h1
    have hlt : p.ahead r < d + e := by grind
    have := Reach.pass (net := net) (n + m) p p' t r (d + e) hr hlt hn h1
    rw [show n + 1 + m = n + m + 1 by omega]
    exact this

/-- Spec: travelling the other way. -/
def Spot.turn (p : Spot) : Spot := { p with up := !p.up }

/-- Spec: every way from one road to the next leads back: the next road's lane leads, the other way, to the end
it was left from. -/
def Mutual (net : Net) : Prop := ∀ (p : Spot) (r : Road) (p' : Spot) (r' : Road), net.roads p.road = some r →
  p.next net r = some p' → net.roads p'.road = some r' →
  p'.turn.next net r' = some ⟨p.road, p.lane, if p.up then r.len else 0, p.off, !p.up⟩

theorem next_spot (net : Net) (r : Road) (p p' : Spot) (h : p.next net r = some p') :
    ∃ r', net.roads p'.road = some r' ∧ p'.s = if p'.up then 0 else r'.len := by
  unfold Spot.next at h
  simp only [Option.bind_eq_some_iff] at h
  obtain ⟨_, _, _, _, _, _, x, _, r', hr', _, _, _, _, h⟩ := h
  by_cases hz : x.2.2 = 0
  · rw [if_pos hz] at h; exact absurd h (by simp)
  · rw [if_neg hz] at h
    have := Option.some.inj h
    subst this
    refine ⟨r', hr', ?_⟩
    simp only
    cases x.2.1 <;> simp

/-- Travelling back the same distance leads to the start. -/
theorem reach_back (net : Net) (hst : ∀ id r, net.roads id = some r → Steady r) (hm : Mutual net) (n : Nat)
    (p q : Spot) (d : Rat) (h : Reach net n p d q) :
    (∀ r, net.roads p.road = some r → 0 < p.ahead r ∧ 0 ≤ p.s ∧ p.s ≤ r.len) →
    Reach net n q.turn d p.turn := by
  induction h with
  | stay p r d hr h0 h =>
    intro hp
    obtain ⟨_, hp2, hp3⟩ := hp r hr
    have h1 : (p.shift d).turn.shift d = p.turn := by
      unfold Spot.turn Spot.shift
      cases p with
      | mk road lane s off up => cases up <;> simp <;> grind
    have := Reach.stay (net := net) (p.shift d).turn r d hr h0 (by
      unfold Spot.ahead Spot.turn Spot.shift at *
      cases p with
      | mk road lane s off up => cases up <;> simp at * <;> grind)
    rw [h1] at this
    exact this
  | pass n p p' q r d hr h hn h' ih =>
    intro hp
    obtain ⟨hp1, hp2, hp3⟩ := hp r hr
    obtain ⟨r', hr', hs'⟩ := next_spot net r p p' hn
    have hpos' := (hst _ _ hr').pos
    have hpos := (hst _ _ hr).pos
    have h1 := ih (by
      intro r2 hr2
      rw [hr'] at hr2
      have := Option.some.inj hr2
      subst this
      unfold Spot.ahead
      cases hup : p'.up <;> simp only [hup] at hs' ⊢ <;> simp at hs' ⊢ <;> grind)
    have hback := hm p r p' r' hr hn hr'
    have hah : p'.turn.ahead r' = 0 := by
      unfold Spot.ahead Spot.turn
      cases hup : p'.up <;> simp only [hup] at hs' ⊢ <;> simp at hs' ⊢ <;> grind
    obtain ⟨e, he⟩ : ∃ e : Spot, e = ⟨p.road, p.lane, if p.up then r.len else 0, p.off, !p.up⟩ := ⟨_, rfl⟩
    rw [← he] at hback
    have hshift : e.shift (p.ahead r) = p.turn := by
      rw [he]
      unfold Spot.shift Spot.turn Spot.ahead
      cases p with
      | mk road lane s off up => cases up <;> simp <;> grind
    have h2 : Reach net 0 e (p.ahead r) (e.shift (p.ahead r)) := Reach.stay e r _ (by rw [he]; exact hr) (by grind) (by
      rw [he]
      unfold Spot.ahead at *
      cases p with
      | mk road lane s off up => cases up <;> simp at * <;> grind)
    rw [hshift] at h2
    have h3 : Reach net 1 p'.turn (p.ahead r) p.turn := Reach.pass 0 p'.turn e p.turn r' _ hr' (by rw [hah]; exact hp1)
      hback (by rw [hah, show p.ahead r - 0 = p.ahead r by grind]; exact h2)
    have h4 := reach_add net n q.turn p'.turn _ h1 1 (p.ahead r) p.turn (by grind) h3
    rw [show d - p.ahead r + p.ahead r = d by grind] at h4
    exact h4

/-- Moving twice is moving by the sum: steps of any size lead to the same place. -/
theorem move_twice (net : Net) (hst : ∀ id r, net.roads id = some r → Steady r) (p : Pos) (r : Road)
    (hr : net.roads p.road = some r) (hg : Good r p) (d e : Rat) (hd : 0 ≤ d) (he : 0 ≤ e) (n m : Nat)
    (hn : n + m ≤ 7) (q t : Spot) (hq : Reach net n (p.spot p.fwd) d q) (ht : Reach net m q e t) :
    ∃ c1 q' c2 t' c3 t'', moveAlongS net p d 0 .heading = (c1, q') ∧ moveAlongS net q' e 0 .heading = (c2, t') ∧
      moveAlongS net p (d + e) 0 .heading = (c3, t'') ∧ c1.fine = true ∧ c2.fine = true ∧ c3.fine = true ∧
      t'.road = t''.road ∧ t'.lane = t''.lane ∧ t'.s = t''.s ∧ t'.off = t''.off ∧ t'.fwd = t''.fwd := by
  have hde : 0 ≤ d + e := by grind
  have u1 : travelUp r p d .heading = p.fwd := by simp [travelUp, ahead, hd]
  have u3 : travelUp r p (d + e) .heading = p.fwd := by simp [travelUp, ahead, hde]
  obtain ⟨c1, q', r1, a1, a2, _, a4, a5, a6, a7, a8, a9, a10, _⟩ := move_travels net hst p r hr hg d .heading n (by omega) q
    (by rw [u1, ab_of_nonneg d hd]; exact hq)
  have u2 : travelUp r1 q' e .heading = q.up := by
    simp only [travelUp, ahead, he, if_true]
    rw [u1] at a8
    revert a8
    cases q'.fwd <;> cases p.fwd <;> cases q.up <;> simp
  have hqs : q'.spot q.up = q := by
    unfold Pos.spot
    rw [a4, a5, a6, a7]
  obtain ⟨c2, t', r2, b1, b2, _, b4, b5, b6, b7, b8, _⟩ := move_travels net hst q' r1 a9 a10 e .heading m (by omega) t
    (by rw [u2, hqs, ab_of_nonneg e he]; exact ht)
  obtain ⟨c3, t'', r3, d1, d2, _, d4, d5, d6, d7, d8, _⟩ := move_travels net hst p r hr hg (d + e) .heading (n + m) hn t
    (by rw [u3, ab_of_nonneg _ hde]; exact reach_add net n _ q d hq m e t he ht)
  refine ⟨c1, q', c2, t', c3, t'', a1, b1, d1, a2, b2, d2, by rw [b4, d4], by rw [b5, d5], by rw [b6, d6],
    by rw [b7, d7], ?_⟩
  rw [u1] at a8
  rw [u2] at b8
  rw [u3] at d8
  revert a8 b8 d8
  cases t'.fwd <;> cases t''.fwd <;> cases q'.fwd <;> cases p.fwd <;> cases q.up <;> cases t.up <;> simp

/-- Moving forth and back leads to the start, on roads whose lane links are mutual. -/
theorem move_back (net : Net) (hst : ∀ id r, net.roads id = some r → Steady r) (hm : Mutual net) (p : Pos) (r : Road)
    (hr : net.roads p.road = some r) (hg : Good r p) (d : Rat) (hd : 0 < d) (n : Nat) (hn : n ≤ 7)
    (hp : 0 < (p.spot p.fwd).ahead r) (q : Spot) (hq : Reach net n (p.spot p.fwd) d q) :
    ∃ c1 q' c2 p', moveAlongS net p d 0 .heading = (c1, q') ∧ moveAlongS net q' (-d) 0 .heading = (c2, p') ∧
      c1.fine = true ∧ c2.fine = true ∧ p'.road = p.road ∧ p'.lane = p.lane ∧ p'.s = p.s ∧ p'.off = p.off ∧
      p'.fwd = p.fwd := by
  have hd0 : 0 ≤ d := by grind
  have hnd : ¬ 0 ≤ -d := by grind
  have u1 : travelUp r p d .heading = p.fwd := by simp [travelUp, ahead, hd0]
  obtain ⟨c1, q', r1, a1, a2, _, a4, a5, a6, a7, a8, a9, a10, _⟩ := move_travels net hst p r hr hg d .heading n hn q
    (by rw [u1, ab_of_nonneg d hd0]; exact hq)
  have u2 : travelUp r1 q' (-d) .heading = !q.up := by
    simp only [travelUp, ahead, hnd, if_false]
    rw [u1] at a8
    revert a8
    cases q'.fwd <;> cases p.fwd <;> cases q.up <;> simp
  have hqs : q'.spot (!q.up) = q.turn := by
    unfold Pos.spot Spot.turn
    rw [a4, a5, a6, a7]
  have hback := reach_back net hst hm n _ q d hq (by
    intro r2 hr2
    have h : net.roads p.road = some r2 := hr2
    rw [hr] at h
    have := Option.some.inj h
    subst this
    exact ⟨hp, hg.s0, hg.s1⟩)
  obtain ⟨c2, p', r2, b1, b2, _, b4, b5, b6, b7, b8, _⟩ := move_travels net hst q' r1 a9 a10 (-d) .heading n hn
    (p.spot p.fwd).turn (by rw [u2, hqs, ab_of_neg (-d) (by grind), show - -d = d by grind]; exact hback)
  refine ⟨c1, q', c2, p', a1, b1, a2, b2, by rw [b4]; rfl, by rw [b5]; rfl, by rw [b6]; rfl, by rw [b7]; rfl, ?_⟩
  rw [u1] at a8
  rw [u2] at b8
  simp only [Spot.turn, Pos.spot] at b8
  revert a8 b8
  cases p'.fwd <;> cases q'.fwd <;> cases p.fwd <;> cases q.up <;> simp

/-! The choice in a junction -/

theorem pickAngle_spec (ds : List Rat) : ∀ (i best : Nat) (m : Rat) (coins : List Bool),
    (pickAngle i best m ds coins = best ∧ ∀ d ∈ ds, m ≤ d) ∨
    (∃ k d, pickAngle i best m ds coins = i + k ∧ ds[k]? = some d ∧
      d ≤ m + small * (ds.length : Nat) ∧ ∀ e ∈ ds, d ≤ e + small * (ds.length : Nat)) := by
  have hsm : (0 : Rat) < small := by decide +kernel
  induction ds with
  | nil => intro i best m coins; exact Or.inl ⟨rfl, by simp⟩
  | cons a ds ih =>
    intro i best m coins
    have hlen : ((a :: ds).length : Rat) = ((ds.length : Nat) : Rat) + 1 := by
      simp only [List.length_cons]
      push_cast
      rfl
    have hl0 : (0 : Rat) ≤ ((ds.length : Nat) : Rat) := by exact_mod_cast Nat.zero_le _
    have hmul : (0 : Rat) ≤ small * ((ds.length : Nat) : Rat) := Rat.mul_nonneg (by grind) hl0
    have hmul2 : small * ((a :: ds).length : Rat) = small * ((ds.length : Nat) : Rat) + small := by
      rw [hlen]; grind
    -- the candidate is taken
    have take : ∀ cs, a ≤ m + small →
        (∃ k d, pickAngle (i + 1) i a ds cs = i + k ∧ (a :: ds)[k]? = some d ∧
          d ≤ m + small * ((a :: ds).length : Nat) ∧ ∀ e ∈ a :: ds, d ≤ e + small * ((a :: ds).length : Nat)) := by
      intro cs ha
      rcases ih (i + 1) i a cs with ⟨h1, h2⟩ | ⟨k, d, h1, h2, h3, h4⟩
      · refine ⟨0, a, by simpa using h1, rfl, by grind, ?_⟩
        intro e he
        rcases List.mem_cons.mp he with rfl | he
        · grind
        · have := h2 e he; grind
      · refine ⟨k + 1, d, by rw [h1]; omega, by simpa using h2, by grind, ?_⟩
        intro e he
        rcases List.mem_cons.mp he with rfl | he
        · grind
        · have := h4 e he; grind
    -- it is not
    have keep : ∀ cs, m ≤ a →
        (pickAngle (i + 1) best m ds cs = best ∧ ∀ d ∈ a :: ds, m ≤ d) ∨
        (∃ k d, pickAngle (i + 1) best m ds cs = i + k ∧ (a :: ds)[k]? = some d ∧
          d ≤ m + small * ((a :: ds).length : Nat) ∧ ∀ e ∈ a :: ds, d ≤ e + small * ((a :: ds).length : Nat)) := by
      intro cs ha
      rcases ih (i + 1) best m cs with ⟨h1, h2⟩ | ⟨k, d, h1, h2, h3, h4⟩
      · refine Or.inl ⟨h1, ?_⟩
        intro e he
        rcases List.mem_cons.mp he with rfl | he
        · exact ha
        · exact h2 e he
      · refine Or.inr ⟨k + 1, d, by rw [h1]; omega, by simpa using h2, by grind, ?_⟩
        intro e he
        rcases List.mem_cons.mp he with rfl | he
        · grind
        · have := h4 e he; grind
    unfold pickAngle
    by_cases h1 : a < m
    · rw [if_pos h1]
      exact Or.inr (take coins (by grind))
    · rw [if_neg h1]
      by_cases h2 : ab (a - m) < small
      · rw [if_pos h2]
        rw [ab_of_nonneg _ (by grind)] at h2
        by_cases h3 : coins.headD false = true
        · rw [if_pos h3]
          exact Or.inr (take coins.tail (by grind))
        · rw [if_neg h3]
          exact keep coins.tail (by grind)
      · rw [if_neg h2]
        exact keep coins (by grind)

/-- With a selector angle, the connection taken is the one whose heading is closest to it, up to 1e-6 per
connection, whatever the random numbers. -/
theorem angle_closest (diffs : List Rat) (coins : List Bool) (hne : diffs ≠ [])
    (hd : ∀ d ∈ diffs, d < 10000000000) :
    ∃ d, diffs[byAngle diffs coins]? = some d ∧ ∀ e ∈ diffs, d ≤ e + small * (diffs.length : Nat) := by
  unfold byAngle
  rcases pickAngle_spec diffs 0 0 10000000000 coins with ⟨_, h2⟩ | ⟨k, d, h1, h2, _, h4⟩
  · exfalso
    cases diffs with
    | nil => exact hne rfl
    | cons a l =>
      have g1 := h2 a (by simp)
      have g2 := hd a (by simp)
      grind
  · exact ⟨d, by rw [h1, Nat.zero_add]; exact h2, h4⟩

theorem pickRoute_spec (target track : Nat) (l : List (Option Nat × Nat)) : ∀ (i idx : Nat) (opt : Option Nat)
    (done : List (Option Nat × Nat)), done.length = i →
    (∀ j, opt = some j → ∃ x, (done ++ l)[j]? = some x ∧ x.1 = some target ∧ x.2 = track) →
    (opt = none → ∀ x ∈ done, ¬ (x.1 = some target ∧ x.2 = track)) →
    ((∃ x ∈ done, x.1 = some target) → ∃ x, (done ++ l)[idx]? = some x ∧ x.1 = some target) →
    ((∃ x ∈ done ++ l, x.1 = some target) →
      ∃ x, (done ++ l)[pickRoute target track i idx opt l]? = some x ∧ x.1 = some target) ∧
    ((∃ x ∈ done ++ l, x.1 = some target ∧ x.2 = track) →
      ∃ x, (done ++ l)[pickRoute target track i idx opt l]? = some x ∧ x.1 = some target ∧ x.2 = track) := by
  induction l with
  | nil =>
    intro i idx opt done hi h1 h2 h3
    simp only [List.append_nil, pickRoute] at *
    constructor
    · intro hx
      cases opt with
      | none => exact h3 hx
      | some j =>
        obtain ⟨x, g1, g2, _⟩ := h1 j rfl
        exact ⟨x, g1, g2⟩
    · intro hx
      cases opt with
      | none =>
        obtain ⟨x, g1, g2⟩ := hx
        exact absurd g2 (h2 rfl x g1)
      | some j =>
        exact h1 j rfl
  | cons a l ih =>
    intro i idx opt done hi h1 h2 h3
    have happ : done ++ a :: l = (done ++ [a]) ++ l := by simp
    have hget : (done ++ a :: l)[i]? = some a := by
      rw [← hi]; simp
    obtain ⟨out, conn⟩ := a
    unfold pickRoute
    by_cases ht : out = some target
    · rw [if_pos ht]
      rw [happ] at hget h1 ⊢
      refine ih (i + 1) i (if conn = track then some i else opt) (done ++ [(out, conn)]) (by simp [hi]) ?_ ?_ ?_
      · intro j hj
        by_cases hc : conn = track
        · rw [if_pos hc] at hj
          have := Option.some.inj hj
          subst this
          exact ⟨_, hget, ht, hc⟩
        · rw [if_neg hc] at hj
          exact h1 j hj
      · intro ho x hx
        by_cases hc : conn = track
        · rw [if_pos hc] at ho; exact absurd ho (by simp)
        · rw [if_neg hc] at ho
          rcases List.mem_append.mp hx with hx | hx
          · exact h2 ho x hx
          · rw [List.mem_singleton] at hx
            subst hx
            exact fun h => hc h.2
      · intro _
        exact ⟨_, hget, ht⟩
    · rw [if_neg ht]
      rw [happ] at h1 h3 ⊢
      refine ih (i + 1) idx opt (done ++ [(out, conn)]) (by simp [hi]) h1 ?_ ?_
      · intro ho x hx
        rcases List.mem_append.mp hx with hx | hx
        · exact h2 ho x hx
        · rw [List.mem_singleton] at hx
          subst hx
          exact fun h => ht h.1
      · rintro ⟨x, hx, hx2⟩
        rcases List.mem_append.mp hx with hx | hx
        · exact h3 ⟨x, hx, hx2⟩
        · rw [List.mem_singleton] at hx
          subst hx
          exact absurd hx2 ht

/-- On a route, the connection taken leads to the road the route goes on to, if one does, and is the one of the
route itself, if it is among them. -/
theorem route_followed (target track : Nat) (conns : List (Option Nat × Nat)) :
    ((∃ x ∈ conns, x.1 = some target) →
      ∃ x, conns[byRoute target track conns]? = some x ∧ x.1 = some target) ∧
    ((∃ x ∈ conns, x.1 = some target ∧ x.2 = track) →
      ∃ x, conns[byRoute target track conns]? = some x ∧ x.1 = some target ∧ x.2 = track) := by
  have := pickRoute_spec target track conns 0 0 none [] rfl (by simp) (by simp) (by simp)
  simpa [byRoute] using this

/-- A lateral shift asked for along with the move is made once if the position stays on its road. -/
theorem move_shifts_partial (net : Net) (p : Pos) (r : Road) (hs : Steady r) (hr : net.roads p.road = some r)
    (hg : Good r p) (ds dOff : Rat) (mode : Mode)
    (h : ab ds ≤ (p.spot (travelUp r p ds mode)).ahead r) :
    ∃ q, moveAlongS net p ds dOff mode = (.ok, q) ∧ q.road = p.road ∧ q.lane = p.lane ∧
      q.s = (if travelUp r p ds mode then p.s + ab ds else p.s - ab ds) ∧ q.off = p.off + dOff ∧ q.fwd = p.fwd := by
  have hs0 := hg.s0
  have hs1 := hg.s1
  have hab : 0 ≤ ab ds := by unfold ab; split <;> grind
  unfold moveAlongS
  rw [roadDs_eq net p r hr hg.lane]
  obtain ⟨up, hup⟩ : ∃ up, up = travelUp r p ds mode := ⟨_, rfl⟩
  rw [← hup] at h ⊢
  have hb : 0 ≤ p.s + (if up then ab ds else -ab ds) ∧ p.s + (if up then ab ds else -ab ds) ≤ r.len := by
    simp only [Spot.ahead, Pos.spot] at h
    cases up
    · simp only [Bool.false_eq_true, if_false] at h ⊢; grind
    · simp only [if_true] at h ⊢; grind
  obtain ⟨j, hset, hj⟩ := settle_steady net r hs p hr hg (p.s + (if up then ab ds else -ab ds)) (p.off + dOff) hb.1 hb.2
    .ok rfl
  refine ⟨{ p with sec := j, s := p.s + (if up then ab ds else -ab ds), off := p.off + dOff,
                   ended := atEnd r (p.s + (if up then ab ds else -ab ds)) }, ?_, rfl, rfl, ?_, rfl, rfl⟩
  · unfold moveLoop
    rw [hr]
    simp only
    rw [if_pos hb, hset]
    unfold closing
    simp only [hr]
  · cases up
    · simp only [Bool.false_eq_true, if_false]; grind
    · simp only [if_true]

/-- Spec: distance travelled at the offset `t` when the place on the road axis moves by `x` along an arc. -/
def arcLength (curvature t x : Rat) : Rat := (1 - curvature * t) * x

/-- The distance along the road axis is chosen such that the given distance is travelled at the offset of the
position, on an arc, up to the tolerance for straight roads. -/
theorem actual_distance (k t ds : Rat) (h : k * t < 1) :
    ab (arcLength k t (distanceToDs k t ds) - ds) ≤ small * ab t * ab ds := by
  have hsm : (0 : Rat) < small := by decide +kernel
  have hab : ∀ x : Rat, 0 ≤ ab x := by intro x; unfold ab; split <;> grind
  have habm : ∀ x y : Rat, ab (x * y) = ab x * ab y := by
    intro x y
    by_cases hx : x < 0
    · by_cases hy : y < 0
      · have : 0 < x * y := by
          have := Rat.mul_pos (a := -x) (b := -y) (by grind) (by grind)
          grind
        rw [ab_of_neg x hx, ab_of_neg y hy, ab_of_nonneg _ (by grind)]; grind
      · have : 0 ≤ -x * y := Rat.mul_nonneg (by grind) (by grind)
        rw [ab_of_neg x hx, ab_of_nonneg y (by grind)]
        by_cases hz : x * y < 0
        · rw [ab_of_neg _ hz]; grind
        · have : x * y = 0 := by grind
          rw [this]; unfold ab; split <;> grind
    · by_cases hy : y < 0
      · have : 0 ≤ x * -y := Rat.mul_nonneg (by grind) (by grind)
        rw [ab_of_neg y hy, ab_of_nonneg x (by grind)]
        by_cases hz : x * y < 0
        · rw [ab_of_neg _ hz]; grind
        · have : x * y = 0 := by grind
          rw [this]; unfold ab; split <;> grind
      · rw [ab_of_nonneg x (by grind), ab_of_nonneg y (by grind),
          ab_of_nonneg _ (Rat.mul_nonneg (by grind) (by grind))]
  have hr : 0 ≤ small * ab t * ab ds := Rat.mul_nonneg (Rat.mul_nonneg (by grind) (hab t)) (hab ds)
  unfold arcLength distanceToDs
  by_cases hk : ab k > small
  · rw [if_pos hk]
    have hne : 1 - k * t ≠ 0 := by grind
    have : (1 - k * t) * (ds * (1 / (1 - k * t))) - ds = 0 := by
      rw [Rat.div_def, Rat.one_mul, Rat.mul_comm ds, ← Rat.mul_assoc, Rat.mul_inv_cancel _ hne, Rat.one_mul]
      grind
    have h0 : ab 0 = 0 := by decide +kernel
    rw [this, h0]
    exact hr
  · rw [if_neg hk]
    have : (1 - k * t) * ds - ds = (-k * t) * ds := by grind
    rw [this, habm, habm]
    have hk2 : ab (-k) ≤ small := by
      have : ab (-k) = ab k := by unfold ab; split <;> split <;> grind
      rw [this]; grind
    exact Rat.mul_le_mul_of_nonneg_right (Rat.mul_le_mul_of_nonneg_right hk2 (hab t)) (hab ds)

/-! Examples and counterexamples -/

/-- A road with a lane on each side and one section. -/
def secDemo (len : Rat) (a b c d : Option Int) : List Section :=
  [⟨0, len, [{ id := 1, pred := a, succ := b }, { id := 0 }, { id := -1, pred := c, succ := d }]⟩]

/-- Three roads of 10, 5 and 8 m; the one in the middle runs the other way. -/
def demo : Net where
  roads := fun i =>
    if i = 0 then some ⟨10, false, secDemo 10 none (some (-1)) none (some 1), none, some (.road 1 .finish)⟩
    else if i = 1 then some ⟨5, false, secDemo 5 (some (-1)) (some (-1)) (some 1) (some 1), some (.road 2 .start),
      some (.road 0 .finish)⟩
    else if i = 2 then some ⟨8, false, secDemo 8 (some (-1)) none (some 1) none, some (.road 1 .start), none⟩
    else none
  connect := fun _ _ _ => none
  closest := fun _ _ _ => -1

/-- A vehicle on the first, 4 m from its start, 0.5 m left of the middle of the lane. -/
def posDemo : Pos := ⟨0, 0, -1, 2, 4, 1 / 2, true, false⟩

theorem secDemo_steady (len : Rat) (h : 0 < len) (left : Bool) (a b c d : Option Int) (x y : Option Link) :
    Steady ⟨len, left, secDemo len a b c d, x, y⟩ := by
  refine ⟨h, by simp [secDemo], ?_, ?_, rfl, ?_, ?_, ?_, ?_⟩
  · intro sec hs; simp [secDemo] at hs; rw [hs]; grind
  · intro m hm; simp [secDemo] at hm
  · simp [secDemo, Rat.zero_add]
  · intro u hu v hv; simp [secDemo] at hu hv; rw [hu, hv]
  · intro m hm; simp [secDemo] at hm
  · intro m hm; simp [secDemo] at hm

theorem demo_steady : ∀ id r, demo.roads id = some r → Steady r := by
  intro id r h
  simp only [demo] at h
  split at h
  · have := Option.some.inj h; rw [← this]; exact secDemo_steady _ (by decide +kernel) _ _ _ _ _ _ _
  · split at h
    · have := Option.some.inj h; rw [← this]; exact secDemo_steady _ (by decide +kernel) _ _ _ _ _ _ _
    · split at h
      · have := Option.some.inj h; rw [← this]; exact secDemo_steady _ (by decide +kernel) _ _ _ _ _ _ _
      · exact absurd h (by simp)

theorem posDemo_good : ∃ r, demo.roads posDemo.road = some r ∧ Good r posDemo := by
  refine ⟨_, rfl, ⟨by decide +kernel, ?_, by decide, by decide +kernel, by decide +kernel⟩⟩
  intro sec hs
  simp [secDemo] at hs
  rw [hs]
  decide +kernel

/-- 12 m ahead: over the middle road to the third, 1 m from its start. -/
theorem demo_reach : Reach demo 2 (posDemo.spot true) 12 ⟨2, -1, 1, 1 / 2, true⟩ := by
  have h3 : Reach demo 0 ⟨2, -1, 0, 1 / 2, true⟩ 1 ⟨2, -1, 1, 1 / 2, true⟩ := by
    have := Reach.stay (net := demo) ⟨2, -1, 0, 1 / 2, true⟩ _ 1 rfl (by decide +kernel) (by decide +kernel)
    have e : (⟨2, -1, 0, 1 / 2, true⟩ : Spot).shift 1 = ⟨2, -1, 1, 1 / 2, true⟩ := by decide +kernel
    rw [e] at this
    exact this
  have h2 : Reach demo 1 ⟨1, 1, 5, -1 / 2, false⟩ 6 ⟨2, -1, 1, 1 / 2, true⟩ := by
    refine Reach.pass 0 _ ⟨2, -1, 0, 1 / 2, true⟩ _ _ 6 rfl (by decide +kernel) (by decide +kernel) ?_
    have e : 6 - (⟨1, 1, 5, -1 / 2, false⟩ : Spot).ahead ⟨5, false, secDemo 5 (some (-1)) (some (-1)) (some 1) (some 1),
      some (.road 2 .start), some (.road 0 .finish)⟩ = 1 := by decide +kernel
    rw [e]
    exact h3
  refine Reach.pass 1 _ ⟨1, 1, 5, -1 / 2, false⟩ _ _ 12 rfl (by decide +kernel) (by decide +kernel) ?_
  have e : 12 - (posDemo.spot true).ahead ⟨10, false, secDemo 10 none (some (-1)) none (some 1), none,
    some (.road 1 .finish)⟩ = 6 := by decide +kernel
  rw [e]
  exact h2

example : moveAlongS demo posDemo 12 0 .heading =
    (.entered, ⟨2, 0, -1, 2, 1, 1 / 2, true, false⟩) := by decide +kernel

/-- In the middle of it the vehicle faces against the road, on its left lane, on the other side of its middle. -/
example : moveAlongS demo posDemo 8 0 .heading =
    (.entered, ⟨1, 0, 1, 0, 3, -1 / 2, false, false⟩) := by decide +kernel

/-- The links of the example are mutual. -/
theorem demo_mutual : Mutual demo := by
  intro p r p' r' hr hn hr'
  obtain ⟨road, lane, s, off, up⟩ := p
  simp only [demo] at hr
  have key : lane = 1 ∨ lane = -1 := by
    unfold Spot.next at hn
    simp only [Option.bind_eq_some_iff] at hn
    obtain ⟨sec, h1, l, h2, link, h3, x, h4, _, _, _, _, _, _, h5⟩ := hn
    have hmem := List.mem_of_find?_eq_some h2
    have hid := List.find?_some h2
    have : sec ∈ r.secs := by
      simp only [Spot.endSec] at h1
      cases up
      · exact List.mem_of_head? h1
      · exact List.mem_of_getLast? h1
    have hsec : ∃ len a b c d, r.secs = secDemo len a b c d := by
      split at hr
      · have := Option.some.inj hr; rw [← this]; exact ⟨_, _, _, _, _, rfl⟩
      · split at hr
        · have := Option.some.inj hr; rw [← this]; exact ⟨_, _, _, _, _, rfl⟩
        · split at hr
          · have := Option.some.inj hr; rw [← this]; exact ⟨_, _, _, _, _, rfl⟩
          · exact absurd hr (by simp)
    obtain ⟨len, a, b, c, d, hsec⟩ := hsec
    rw [hsec] at this
    simp only [secDemo, List.mem_singleton] at this
    subst this
    simp only [List.mem_cons, List.not_mem_nil, or_false] at hmem
    rcases hmem with e | e | e
    · left; rw [e] at hid; simp at hid; exact hid.symm
    · exfalso
      rw [e] at h4
      cases link with
      | road _ _ => cases up <;> simp [Spot.exit] at h4
      | junction _ => simp [Spot.exit, demo] at h4
    · right; rw [e] at hid; simp at hid; exact hid.symm
  have e0 : demo.roads 0 = some ⟨10, false, secDemo 10 none (some (-1)) none (some 1), none,
    some (.road 1 .finish)⟩ := rfl
  have e1 : demo.roads 1 = some ⟨5, false, secDemo 5 (some (-1)) (some (-1)) (some 1) (some 1),
    some (.road 2 .start), some (.road 0 .finish)⟩ := rfl
  have e2 : demo.roads 2 = some ⟨8, false, secDemo 8 (some (-1)) none (some 1) none, some (.road 1 .start),
    none⟩ := rfl
  have all : road = 0 ∨ road = 1 ∨ road = 2 := by
    by_cases h0 : road = 0
    · exact Or.inl h0
    · by_cases h1 : road = 1
      · exact Or.inr (Or.inl h1)
      · by_cases h2 : road = 2
        · exact Or.inr (Or.inr h2)
        · rw [if_neg h0, if_neg h1, if_neg h2] at hr; exact absurd hr (by simp)
  have nn : ∀ x : Rat, - -x = x := by intro x; grind
  rcases all with rfl | rfl | rfl <;> rcases key with rfl | rfl <;> cases up <;>
    (simp at hr; subst hr; simp [Spot.next, Spot.endSec, Spot.link, Spot.exit, secDemo, Section.laneById, e0, e1, e2] at hn) <;>
    (subst hn; simp only [e0, e1, e2, Option.some.injEq] at hr'; subst hr'
     simp [Spot.next, Spot.turn, Spot.endSec, Spot.link, Spot.exit, secDemo, Section.laneById, e0, e1, e2, nn])

/-- The third road ends after 8 m. -/
example : moveAlongS demo posDemo 22 0 .heading = (.endOfRoad, ⟨2, 0, -1, 2, 8, 1 / 2, true, true⟩) := by
  decide +kernel

/-- Roads of 1 m one after the other. -/
def chain : Net where
  roads := fun i => some ⟨1, false, secDemo 1 (some 1) (some 1) (some (-1)) (some (-1)),
    if i = 0 then none else some (.road (i - 1) .finish), some (.road (i + 1) .start)⟩
  connect := fun _ _ _ => none
  closest := fun _ _ _ => -1

/-- After 8 road ends the rest of the distance is dropped, and the code returned is that of a move made in full: on
roads of 1 m, moving by 8.5 m or by 100 m leads 8 m ahead. -/
theorem move_lost_fails :
    moveAlongS chain ⟨0, 0, -1, 2, 0, 0, true, false⟩ (15 / 2) 0 .heading =
      (.entered, ⟨7, 0, -1, 2, 1 / 2, 0, true, false⟩) ∧
    moveAlongS chain ⟨0, 0, -1, 2, 0, 0, true, false⟩ (17 / 2) 0 .heading =
      (.entered, ⟨8, 0, -1, 2, 0, 0, true, false⟩) ∧
    moveAlongS chain ⟨0, 0, -1, 2, 0, 0, true, false⟩ 100 0 .heading =
      (.entered, ⟨8, 0, -1, 2, 0, 0, true, false⟩) := by decide +kernel

/-- A lateral shift is made once more for every road end passed: 0.25 m asked for, 0.75 m made. -/
theorem move_shift_repeated_fails :
    moveAlongS chain ⟨0, 0, -1, 2, 0, 0, true, false⟩ (5 / 2) (1 / 4) .heading =
      (.entered, ⟨2, 0, -1, 2, 1 / 2, 3 / 4, true, false⟩) := by decide +kernel

/-- And it goes to the other side when the next road is entered at its end from the start of a road that runs
the same way. -/
theorem move_shift_side_fails :
    moveAlongS chain ⟨5, 0, -1, 2, 1 / 4, 0, false, false⟩ (1 / 8) (1 / 4) .heading =
      (.ok, ⟨5, 0, -1, 2, 1 / 8, 1 / 4, false, false⟩) ∧
    moveAlongS chain ⟨5, 0, -1, 2, 1 / 4, 0, false, false⟩ (1 / 2) (1 / 4) .heading =
      (.entered, ⟨4, 0, -1, 2, 3 / 4, -1 / 2, false, false⟩) := by decide +kernel

/-- A road whose second half has a lane more on the left. -/
def widening : Net where
  roads := fun i =>
    if i = 0 then some ⟨20, false, [⟨0, 10, [{ id := 0 }, { id := -1, succ := some (-1) }, { id := -2, succ := some (-2) }]⟩,
        ⟨10, 10, [{ id := 1 }, { id := 0 }, { id := -1, pred := some (-1), succ := some (-1) },
          { id := -2, pred := some (-2), succ := some (-2) }]⟩], none, some (.road 1 .start)⟩
    else if i = 1 then some ⟨20, false, [⟨0, 20, [{ id := 1 }, { id := 0 }, { id := -1, pred := some (-1) },
        { id := -2, pred := some (-2) }]⟩], some (.road 0 .finish), none⟩
    else none
  connect := fun _ _ _ => none
  closest := fun _ _ _ => -1

/-- A step over the end of a road from one of its earlier sections takes the lane with the same index in the last
section, not the one linked: from lane -2 to -1, where two steps of the same length in all stay on -2. -/
theorem move_lane_index_fails :
    moveAlongS widening ⟨0, 0, -2, 2, 9, 0, true, false⟩ 16 0 .heading =
      (.entered, ⟨1, 0, -1, 2, 5, 0, true, false⟩) ∧
    moveAlongS widening ⟨0, 0, -2, 2, 9, 0, true, false⟩ 5 0 .heading = (.ok, ⟨0, 1, -2, 3, 14, 0, true, false⟩) ∧
    moveAlongS widening ⟨0, 1, -2, 3, 14, 0, true, false⟩ 11 0 .heading =
      (.entered, ⟨1, 0, -2, 3, 5, 0, true, false⟩) := by decide +kernel

/-- A lane linked to a lane that the next road does not have. -/
def missing : Net where
  roads := fun i =>
    if i = 0 then some ⟨10, false, secDemo 10 none none none (some (-2)), none, some (.road 1 .start)⟩
    else if i = 1 then some ⟨10, false, secDemo 10 none none none none, some (.road 0 .finish), none⟩
    else none
  connect := fun _ _ _ => none
  closest := fun _ _ _ => -1

/-- The vehicle goes on along the centre line, and the code is that of a road entered. -/
theorem move_missing_lane_fails :
    moveAlongS missing ⟨0, 0, -1, 2, 9, 0, true, false⟩ 5 0 .heading =
      (.entered, ⟨1, 0, 0, 1, 4, 0, true, false⟩) := by decide +kernel

/-- The choice by angle. -/
example : byAngle [1, 1 / 2, 2] [] = 1 := by decide +kernel

/-- Differences that are equal up to the tolerance one by one add up: the last of the three is taken although the
first is closer by more than 1e-6. -/
theorem angle_drift_fails :
    byAngle [1, 1 + 9 / 10000000, 1 + 18 / 10000000] [true, true] = 2 ∧
      ((1 : Rat) + 18 / 10000000) - 1 > small := by decide +kernel

/-- The choice along a route: the second and third lead on, the third is on the route. -/
example : byRoute 7 30 [(some 5, 10), (some 7, 20), (some 7, 30), (none, 40)] = 2 := by decide +kernel

end Verif.Move

import Verif.Choice.Model
/-
Theorems about the choice at junctions.
-/
namespace Verif.Choice
open Verif.Junction

/-! ### Specification -/

/-- The connecting road `c` leads from `road` to the road `e`. -/
def Leads (net : Nat → Option Info) (road c e : Nat) : Prop :=
  ∃ i, net c = some i ∧ i.junction ≠ none ∧ (net e).isSome ∧
    ((i.pred = some ⟨true, road⟩ ∧ i.succ = some ⟨true, e⟩) ∨ (i.succ = some ⟨true, road⟩ ∧ i.pred = some ⟨true, e⟩))

/-- The junction has a connection from `road` by the connecting road `w`. -/
def From (cs : List Conn) (road w : Nat) : Prop := ∃ c ∈ cs, c.incoming.map (·.id) = some road ∧ c.connecting.id = w

/-- Every connecting road belongs to the junction and leads from its incoming road to another one. -/
def WellFormed (net : Nat → Option Info) (cs : List Conn) (j : Nat) : Prop :=
  ∀ c ∈ cs, ∀ r, c.incoming = some r → ∃ e, e ≠ r.id ∧ Leads net r.id c.connecting.id e ∧
    ∀ i, net c.connecting.id = some i → i.junction = some j

/-! ### Lemmas -/

theorem look_some {net : Nat → Option Info} {a e : Nat} : look net a = some e ↔ a = e ∧ (net e).isSome := by
  unfold look
  split
  · rename_i h
    simp only [Option.some.injEq]
    exact ⟨fun x => ⟨x, x ▸ h⟩, fun x => x.1⟩
  · rename_i h
    simp only [reduceCtorEq, false_iff, not_and]
    rintro rfl
    exact h

theorem farEnd_iff {net : Nat → Option Info} {i : Info} {c road e : Nat} (hc : net c = some i) :
    farEnd net i road = some e ↔ Leads net road c e := by
  obtain ⟨ij, ip, is⟩ := i
  unfold Leads
  rw [hc]
  simp only [Option.some.injEq, exists_eq_left']
  unfold farEnd
  simp only
  by_cases hj : ij = none
  · simp [hj]
  rw [if_neg hj]
  simp only [ne_eq, hj, not_false_eq_true, true_and]
  cases ip with
  | none =>
    cases is with
    | none => simp [oneEnd]
    | some s => simp [oneEnd]
  | some p =>
    obtain ⟨pr, pid⟩ := p
    cases is with
    | none => simp [oneEnd]
    | some s =>
      obtain ⟨sr, sid⟩ := s
      simp only [oneEnd, Option.some.injEq, Link.mk.injEq]
      by_cases h1 : pr = true ∧ pid = road <;> by_cases h2 : sr = true ∧ sid = road <;> cases pr <;> cases sr <;>
        simp_all [look_some] <;> grind

theorem leads_unique {net : Nat → Option Info} {road c e f : Nat} (h : Leads net road c e) (g : Leads net road c f) : e = f := by
  obtain ⟨i, hi, _⟩ := id h
  have h1 := (farEnd_iff hi).2 h
  have h2 := (farEnd_iff hi).2 g
  rw [h1] at h2
  exact Option.some.inj h2

/-- Connections of a junction for a waypoint. -/
theorem scan_other {net : Nat → Option Info} {road w : Nat} {i : Info} : ∀ {cs : List Conn}, ¬ From cs road w → scan net road w i cs = some none
  | [], _ => rfl
  | c :: cs, h => by
    unfold scan
    rw [if_neg (fun hc => h ⟨c, by simp, hc⟩)]
    exact scan_other (fun ⟨c', hm, hc⟩ => h ⟨c', by simp [hm], hc⟩)

theorem scan_from {net : Nat → Option Info} {road w e : Nat} {i : Info} (hi : net w = some i) (hl : Leads net road w e) (hne : e ≠ road) :
    ∀ {cs : List Conn}, From cs road w → scan net road w i cs = some (some (some e))
  | [], h => by
    obtain ⟨c, hm, _⟩ := h
    cases hm
  | c :: cs, h => by
    unfold scan
    by_cases hc : c.incoming.map (·.id) = some road ∧ c.connecting.id = w
    · rw [if_pos hc]
      obtain ⟨i', hi', _, hs, h2⟩ := hl
      rw [hi] at hi'
      cases hi'
      rcases h2 with ⟨hp, hsu⟩ | ⟨hsu, hp⟩
      · rw [hsu]
        simp only
        rw [if_pos ⟨trivial, hne⟩]
        rw [look_some.2 ⟨rfl, hs⟩]
      · rw [hsu]
        simp only
        rw [if_neg (by simp), hp]
        simp only
        rw [if_pos ⟨trivial, hne⟩]
        rw [look_some.2 ⟨rfl, hs⟩]
    · rw [if_neg hc]
      refine scan_from hi hl hne ?_
      obtain ⟨c', hm, h'⟩ := h
      rcases List.mem_cons.1 hm with rfl | hm
      · exact absurd h' hc
      · exact ⟨c', hm, h'⟩

theorem wf_from {net : Nat → Option Info} {cs : List Conn} {j road w : Nat} (hw : WellFormed net cs j) (hf : From cs road w) :
    ∃ e i, e ≠ road ∧ Leads net road w e ∧ net w = some i ∧ i.junction = some j := by
  obtain ⟨c, hm, hin, hcn⟩ := hf
  obtain ⟨r, hr, hrid⟩ := Option.map_eq_some_iff.1 hin
  obtain ⟨e, hne, hl, hj⟩ := hw c hm r hr
  rw [hrid] at hne hl
  rw [hcn] at hl hj
  obtain ⟨i, hi, _⟩ := id hl
  exact ⟨e, i, hne, hl, hi, hj i hi⟩

/-- **C179**, route: the exit is where the first waypoint leads which is a connecting road from here. -/
theorem exit_first {net : Nat → Option Info} {cs : List Conn} {j road w : Nat} {b : List Nat} (hw : WellFormed net cs j) (hf : From cs road w) :
    ∀ {a : List Nat}, (∀ v ∈ a, ¬ From cs road v) → ∃ e, Leads net road w e ∧ exitOf net cs j road (a ++ w :: b) = some (some e)
  | [], _ => by
    obtain ⟨e, i, hne, hl, hi, hj⟩ := wf_from hw hf
    refine ⟨e, hl, ?_⟩
    rw [List.nil_append]
    unfold exitOf
    rw [hi]
    simp only
    rw [if_pos hj, scan_from hi hl hne hf]
  | v :: a, ha => by
    obtain ⟨e, hl, he⟩ := exit_first (b := b) hw hf (a := a) (fun u hu => ha u (by simp [hu]))
    refine ⟨e, hl, ?_⟩
    rw [List.cons_append]
    unfold exitOf
    cases hv : net v with
    | none => exact he
    | some i =>
      simp only
      split
      · rw [scan_other (ha v (by simp))]
        exact he
      · exact he

/-- What the loop over the connections finds. -/
structure Found (P : Nat → Prop) (T : Nat → Prop) (done : List Nat) (cur : Nat) (opt : Option Nat) : Prop where
  curOk : (∃ i ∈ done, P i) → cur ∈ done ∧ P cur
  optOk : ∀ k, opt = some k → k ∈ done ∧ P k ∧ T k
  allOk : opt = none → ∀ k ∈ done, P k → ¬ T k

theorem routeLoop_found {net : Nat → Option Info} {cs : List Conn} {road track : Nat} {lane : Int} {e : Nat} (hs : Sectioned cs)
    (P T : Nat → Prop)
    (hP : ∀ i, P i ↔ ∃ x, (linksFrom cs road lane)[i]? = some x ∧ Leads net road x.1.connecting.id e)
    (hT : ∀ i, T i ↔ ∃ x, (linksFrom cs road lane)[i]? = some x ∧ x.1.connecting.id = track) :
    ∀ (is done : List Nat) (cur : Nat) (opt : Option Nat), Found P T done cur opt →
      ∃ cur' opt', routeLoop net cs road lane (some e) track is cur opt = some (cur', opt') ∧ Found P T (done ++ is) cur' opt'
  | [], done, cur, opt, h => ⟨cur, opt, rfl, by simpa using h⟩
  | i :: is, done, cur, opt, h => by
    have app : done ++ i :: is = (done ++ [i]) ++ is := by simp
    rw [app]
    -- a connection which does not lead to the exit
    have skip : ¬ P i → Found P T (done ++ [i]) cur opt := by
      intro hp
      refine ⟨?_, ?_, ?_⟩
      · rintro ⟨k, hk, hpk⟩
        have hk' : k ∈ done := by
          rcases List.mem_append.1 hk with h1 | h1
          · exact h1
          · rw [List.mem_singleton.1 h1] at hpk
            exact absurd hpk hp
        have := h.curOk ⟨k, hk', hpk⟩
        exact ⟨by simp [this.1], this.2⟩
      · intro k hk
        have := h.optOk k hk
        exact ⟨by simp [this.1], this.2⟩
      · intro ho k hk hpk
        rcases List.mem_append.1 hk with h1 | h1
        · exact h.allOk ho k h1 hpk
        · rw [List.mem_singleton.1 h1] at hpk
          exact absurd hpk hp
    unfold routeLoop
    rw [byIdx_eq cs road lane i hs]
    cases hx : (linksFrom cs road lane)[i]? with
    | none =>
      simp only
      have hp : ¬ P i := by
        rw [hP, hx]
        rintro ⟨x, hx', _⟩
        cases hx'
      exact routeLoop_found hs P T hP hT is _ cur opt (skip hp)
    | some x =>
      simp only [resultOf]
      cases hc : net x.1.connecting.id with
      | none =>
        simp only
        have hp : ¬ P i := by
          rw [hP, hx]
          rintro ⟨x', hx', i', hi', _⟩
          cases hx'
          rw [hc] at hi'
          cases hi'
        exact routeLoop_found hs P T hP hT is _ cur opt (skip hp)
      | some info =>
        simp only
        by_cases hf : farEnd net info road = some e
        · rw [if_pos hf]
          have hp : P i := (hP i).2 ⟨x, hx, (farEnd_iff hc).1 hf⟩
          refine routeLoop_found hs P T hP hT is _ i _ ⟨fun _ => ⟨by simp, hp⟩, ?_, ?_⟩
          · intro k hk
            split at hk
            · rename_i ht
              cases hk
              exact ⟨by simp, hp, (hT i).2 ⟨x, hx, ht⟩⟩
            · have := h.optOk k hk
              exact ⟨by simp [this.1], this.2⟩
          · intro ho k hk hpk htk
            split at ho
            · cases ho
            · rename_i ht
              rcases List.mem_append.1 hk with h1 | h1
              · exact h.allOk ho k h1 hpk htk
              · rw [List.mem_singleton.1 h1] at htk
                obtain ⟨x', hx', ht'⟩ := (hT i).1 htk
                rw [hx] at hx'
                cases hx'
                exact ht ht'
        · rw [if_neg hf]
          have hp : ¬ P i := by
            rw [hP, hx]
            rintro ⟨x', hx', hl⟩
            cases hx'
            exact hf ((farEnd_iff hc).2 hl)
          exact routeLoop_found hs P T hP hT is _ cur opt (skip hp)

/-- **C179**, route: let `w` be the first waypoint of the route which is a connecting road from here. If the lane has several continuations, one of them
leading to the same road as `w`, then the one taken leads to that road; and it is by the road of the current waypoint, if that is possible. -/
theorem follows_route_partial {s : Setting} {w track : Nat} {a b : List Nat} {angle : ℝ} (hs : Sectioned s.conns)
    (hw : WellFormed s.net s.conns s.junction) (ha : ∀ v ∈ a, ¬ From s.conns s.road v) (hf : From s.conns s.road w)
    (hn : 2 ≤ (linksFrom s.conns s.road s.lane).length) :
    ∃ e, Leads s.net s.road w e ∧ ((∃ x ∈ linksFrom s.conns s.road s.lane, Leads s.net s.road x.1.connecting.id e) →
      ∃ x ∈ linksFrom s.conns s.road s.lane, choose s (some (a ++ w :: b, track)) angle = some (some (resultOf s.lane x)) ∧
        Leads s.net s.road x.1.connecting.id e ∧
        ((∃ y ∈ linksFrom s.conns s.road s.lane, y.1.connecting.id = track ∧ Leads s.net s.road track e) → x.1.connecting.id = track)) := by
  obtain ⟨e, hl, he⟩ := exit_first (b := b) hw hf ha
  refine ⟨e, hl, ?_⟩
  rintro ⟨x0, hx0, hl0⟩
  set ls := linksFrom s.conns s.road s.lane with hls
  have hcount : count s.road s.lane s.conns 0 = ls.length := count_eq _ _ _
  obtain ⟨cur, opt, hloop, hfound⟩ := routeLoop_found (net := s.net) (cs := s.conns) (road := s.road) (track := track) (lane := s.lane) (e := e) hs
    (fun i => ∃ x, ls[i]? = some x ∧ Leads s.net s.road x.1.connecting.id e) (fun i => ∃ x, ls[i]? = some x ∧ x.1.connecting.id = track)
    (fun _ => Iff.rfl) (fun _ => Iff.rfl) (List.range ls.length) [] 0 none
    ⟨fun ⟨_, h, _⟩ => (List.not_mem_nil h).elim, (fun _ h => nomatch h), fun _ _ h => (List.not_mem_nil h).elim⟩
  rw [List.nil_append] at hfound
  have hidx : index s (some (a ++ w :: b, track)) angle ls.length = some (opt.getD cur) := by
    unfold index
    rw [if_neg (by omega)]
    simp only
    unfold routeIdx
    rw [he]
    simp only
    rw [hloop]
  have hmem : ∀ {x}, x ∈ ls → ∃ i, i ∈ List.range ls.length ∧ ls[i]? = some x := by
    intro x hx
    obtain ⟨i, hi, rfl⟩ := List.getElem_of_mem hx
    exact ⟨i, List.mem_range.2 hi, List.getElem?_eq_getElem hi⟩
  have fin : ∀ x, ls[opt.getD cur]? = some x → choose s (some (a ++ w :: b, track)) angle = some (some (resultOf s.lane x)) := by
    intro x hx
    unfold choose
    rw [hcount, if_neg (by omega), hidx]
    simp only
    rw [byIdx_eq _ _ _ _ hs, ← hls, hx]
    rfl
  obtain ⟨i0, hi0, hx0'⟩ := hmem hx0
  cases ho : opt with
  | some k =>
    obtain ⟨_, ⟨x, hx, hlx⟩, ⟨x', hx', ht⟩⟩ := hfound.optOk k ho
    rw [hx] at hx'
    cases hx'
    refine ⟨x, List.mem_of_getElem? hx, fin x (by rw [ho]; exact hx), hlx, fun _ => ht⟩
  | none =>
    obtain ⟨_, x, hx, hlx⟩ := hfound.curOk ⟨i0, hi0, x0, hx0', hl0⟩
    refine ⟨x, List.mem_of_getElem? hx, fin x (by rw [ho]; exact hx), hlx, ?_⟩
    rintro ⟨y, hy, hyt, hyl⟩
    obtain ⟨k, hk, hky⟩ := hmem hy
    exact absurd ⟨y, hky, hyt⟩ (hfound.allOk ho k hk ⟨y, hky, by rw [hyt]; exact hyl⟩)

/-! ### Angle -/

theorem headingDiff_spec (out driving angle : ℝ) :
    (∃ c, Geom.Turns Real.pi c (out - (driving + angle)) ∧ |c| = headingDiff out driving angle) ∧
    (∀ c, Geom.Turns Real.pi c (out - (driving + angle)) → headingDiff out driving angle ≤ |c|) ∧ headingDiff out driving angle ≤ Real.pi := by
  have hp := Real.pi_pos
  set u := Geom.interval2PI Real.pi (Geom.angleDiff Real.pi out driving) with hu
  have h1 := Geom.absAngleDiff_spec hp u angle
  have h2 := Geom.angleDiff_spec hp u angle
  have h3 := Geom.angleDiff_spec hp out driving
  have h4 : Geom.Turns Real.pi u (Geom.angleDiff Real.pi out driving) := (Geom.interval2PI_spec hp _).2.2
  have h5 : Geom.Turns Real.pi (u - angle) (out - (driving + angle)) := by
    obtain ⟨k, hk⟩ := h4.trans h3.1
    exact ⟨k, by linarith⟩
  have e : headingDiff out driving angle = |Geom.angleDiff Real.pi u angle| := h1.1
  refine ⟨⟨_, h2.1.trans h5, e.symm⟩, fun c hc => ?_, ?_⟩
  · rw [e]
    exact h2.2 c (hc.trans h5.symm)
  · rw [e, ← h1.1]
    exact h1.2.2

theorem best_spec (coin : Nat → Bool) (all : List ℝ) : ∀ (ds : List ℝ) (i b : Nat) (m : ℝ), all.drop i = ds → i ≤ all.length → all[b]? = some m →
    (∀ j d, j < i → all[j]? = some d → m ≤ d + i * (1 / 1000000)) →
    ∃ m', all[best coin ds i b m]? = some m' ∧ ∀ (j : Nat) (d : ℝ), all[j]? = some d → m' ≤ d + all.length * (1 / 1000000)
  | [], i, b, m, hd, hi, hb, hj => by
    refine ⟨m, hb, fun j d hjd => ?_⟩
    have hlen : i = all.length := by
      have := congrArg List.length hd
      simp at this
      omega
    obtain ⟨hjl, _⟩ := List.getElem?_eq_some_iff.1 hjd
    rw [← hlen]
    exact hj j d (by omega) hjd
  | d :: ds, i, b, m, hd, hi, hb, hj => by
    have hil : i < all.length := by
      have := congrArg List.length hd
      simp at this
      omega
    have hdi : all[i]? = some d := by
      have := List.getElem?_drop (xs := all) (i := i) (j := 0)
      rw [hd] at this
      simpa using this.symm
    have hds : all.drop (i + 1) = ds := by
      rw [← List.drop_drop, hd]
      rfl
    unfold best
    split
    · rename_i h
      have hdm : d < m + 1 / 1000000 := by
        rcases h with h | h
        · linarith
        · linarith [(abs_lt.1 h.1).2]
      refine best_spec coin all ds (i + 1) i d hds hil hdi (fun j x hji hjx => ?_)
      rcases Nat.lt_succ_iff_lt_or_eq.1 hji with h1 | h1
      · have := hj j x h1 hjx
        push_cast
        linarith
      · rw [h1, hdi] at hjx
        cases hjx
        have : (0 : ℝ) ≤ ((i + 1 : ℕ) : ℝ) * (1 / 1000000) := by positivity
        linarith
    · rename_i h
      refine best_spec coin all ds (i + 1) b m hds hil hb (fun j x hji hjx => ?_)
      rcases Nat.lt_succ_iff_lt_or_eq.1 hji with h1 | h1
      · have := hj j x h1 hjx
        push_cast
        linarith
      · rw [h1, hdi] at hjx
        cases hjx
        have h2 : m ≤ d := not_lt.1 (fun hc => h (Or.inl hc))
        have : (0 : ℝ) ≤ ((i + 1 : ℕ) : ℝ) * (1 / 1000000) := by positivity
        linarith

/-- The direction in which a connecting road is left: forwards for one entered at its start, backwards for one entered at its end. -/
noncomputable def outOf (ends : Nat → Option (ℝ × ℝ)) (c : Conn) : Option ℝ :=
  (ends c.connecting.id).map (fun e => if c.contact = 1 then e.2 else e.1 + Real.pi)

theorem diffs_spec {ends : Nat → Option (ℝ × ℝ)} {cs : List Conn} {road : Nat} {lane : Int} {driving angle : ℝ} (hs : Sectioned cs)
    (hc : ∀ x ∈ linksFrom cs road lane, (x.1.contact = 1 ∨ x.1.contact = 2) ∧ (ends x.1.connecting.id).isSome) :
    ∀ is : List Nat, (∀ i ∈ is, i < (linksFrom cs road lane).length) → ∃ ds, diffs ends cs road lane driving angle is = some ds ∧ ds.length = is.length ∧
      ∀ (k i : Nat) (d : ℝ), is[k]? = some i → ds[k]? = some d → ∃ x o, (linksFrom cs road lane)[i]? = some x ∧ outOf ends x.1 = some o ∧
        headingDiff o driving angle = d
  | [], _ => ⟨[], rfl, rfl, fun k i d h => by simp at h⟩
  | i :: is, hi => by
    obtain ⟨ds, hds, hlen, hall⟩ := diffs_spec (driving := driving) (angle := angle) hs hc is (fun j hj => hi j (by simp [hj]))
    have hil := hi i (by simp)
    have hx : (linksFrom cs road lane)[i]? = some (linksFrom cs road lane)[i] := List.getElem?_eq_getElem hil
    set x := (linksFrom cs road lane)[i] with hxd
    obtain ⟨hct, hce⟩ := hc x (List.getElem_mem hil)
    obtain ⟨e, he⟩ := Option.isSome_iff_exists.1 hce
    unfold diffs
    rw [byIdx_eq cs road lane i hs, hx]
    simp only [resultOf, Option.bind_some, he, hds, Option.map_some]
    refine ⟨_, rfl, by simp [hlen], ?_⟩
    intro k j d hk hd
    cases k with
    | succ k => exact hall k j d (by simpa using hk) (by simpa using hd)
    | zero =>
      simp only [List.getElem?_cons_zero, Option.some.injEq] at hk hd
      subst hk
      refine ⟨x, if x.1.contact = 1 then e.2 else e.1 + Real.pi, hx, by unfold outOf; rw [he]; rfl, ?_⟩
      rw [← hd]
      unfold outHeading
      rcases hct with h1 | h1
      · simp [h1]
      · simp only [h1, Option.some.injEq]
        norm_num
        -- the two headings differ by whole turns
        have ht : Geom.Turns Real.pi (Geom.angleSum Real.pi e.1 Real.pi) (e.1 + Real.pi) := (Geom.interval2PI_spec Real.pi_pos _).2.2
        obtain ⟨⟨c1, hc1, ec1⟩, m1, _⟩ := headingDiff_spec (e.1 + Real.pi) driving angle
        obtain ⟨⟨c2, hc2, ec2⟩, m2, _⟩ := headingDiff_spec (Geom.angleSum Real.pi e.1 Real.pi) driving angle
        have hsub : Geom.Turns Real.pi (Geom.angleSum Real.pi e.1 Real.pi - (driving + angle)) (e.1 + Real.pi - (driving + angle)) := by
          obtain ⟨k, hk⟩ := ht
          exact ⟨k, by linarith⟩
        apply le_antisymm
        · rw [← ec2]
          exact m1 c2 (hc2.trans hsub)
        · rw [← ec1]
          exact m2 c1 (hc1.trans hsub.symm)

/-- **C179**, angle: without a route and with an angle selected, the connecting road taken is one whose direction out of the junction is closest to
the driving direction turned by the angle, up to 1e-6 per connection, whatever the coin says. -/
theorem closest_angle {s : Setting} {angle : ℝ} (hs : Sectioned s.conns) (hn : 2 ≤ (linksFrom s.conns s.road s.lane).length) (ha : 0 ≤ angle)
    (hc : ∀ x ∈ linksFrom s.conns s.road s.lane, (x.1.contact = 1 ∨ x.1.contact = 2) ∧ (s.ends x.1.connecting.id).isSome) :
    ∃ x ∈ linksFrom s.conns s.road s.lane, choose s none angle = some (some (resultOf s.lane x)) ∧
      ∃ o, outOf s.ends x.1 = some o ∧ ∃ c, Geom.Turns Real.pi c (o - (s.driving + angle)) ∧
        ∀ y ∈ linksFrom s.conns s.road s.lane, ∀ o', outOf s.ends y.1 = some o' → ∀ c', Geom.Turns Real.pi c' (o' - (s.driving + angle)) →
          |c| ≤ |c'| + (linksFrom s.conns s.road s.lane).length * (1 / 1000000) := by
  set ls := linksFrom s.conns s.road s.lane with hls
  have hcount : count s.road s.lane s.conns 0 = ls.length := count_eq _ _ _
  obtain ⟨ds, hds, hlen, hall⟩ := diffs_spec (driving := s.driving) (angle := angle) hs hc (List.range ls.length) (fun i hi => List.mem_range.1 hi)
  rw [List.length_range] at hlen
  have hnth : ∀ (k : Nat) (d : ℝ), ds[k]? = some d → ∃ x o, ls[k]? = some x ∧ outOf s.ends x.1 = some o ∧ headingDiff o s.driving angle = d := by
    intro k d hd
    obtain ⟨hk, _⟩ := List.getElem?_eq_some_iff.1 hd
    exact hall k k d (by rw [List.getElem?_range (by omega)]) hd
  obtain ⟨d0, ds', rfl⟩ : ∃ d0 ds', ds = d0 :: ds' := by
    cases ds with
    | nil => simp at hlen; omega
    | cons a b => exact ⟨a, b, rfl⟩
  have hb : ∃ m', (d0 :: ds')[best s.coin (d0 :: ds') 0 0 10000000000]? = some m' ∧
      ∀ (j : Nat) (d : ℝ), (d0 :: ds')[j]? = some d → m' ≤ d + (d0 :: ds').length * (1 / 1000000) := by
    have h0 : d0 < 10000000000 := by
      obtain ⟨x, o, _, _, hd⟩ := hnth 0 d0 rfl
      rw [← hd]
      have := (headingDiff_spec o s.driving angle).2.2
      have := Real.pi_le_four
      linarith
    have : best s.coin (d0 :: ds') 0 0 10000000000 = best s.coin ds' 1 0 d0 := by
      conv_lhs => unfold best
      rw [if_pos (Or.inl h0)]
    rw [this]
    refine best_spec s.coin (d0 :: ds') ds' 1 0 d0 rfl (by simp) rfl (fun j d hj hd => ?_)
    obtain rfl : j = 0 := by omega
    simp only [List.getElem?_cons_zero, Option.some.injEq] at hd
    rw [hd]
    norm_num
  obtain ⟨m, hm, hmin⟩ := hb
  obtain ⟨x, o, hx, ho, hd⟩ := hnth _ m hm
  refine ⟨x, List.mem_of_getElem? hx, ?_, o, ho, ?_⟩
  · unfold choose
    rw [hcount, if_neg (by omega)]
    unfold index
    rw [if_neg (by omega)]
    simp only
    rw [if_pos ha, hds]
    simp only
    rw [byIdx_eq _ _ _ _ hs, ← hls, hx]
    rfl
  · obtain ⟨⟨c, hct, hce⟩, _, _⟩ := headingDiff_spec o s.driving angle
    refine ⟨c, hct, fun y hy o' ho' c' hc' => ?_⟩
    obtain ⟨j, hj, rfl⟩ := List.getElem_of_mem hy
    have hdj : (d0 :: ds')[j]? = some (d0 :: ds')[j] := List.getElem?_eq_getElem (by omega)
    obtain ⟨y', o'', hy', ho'', hd'⟩ := hnth j _ hdj
    rw [List.getElem?_eq_getElem hj] at hy'
    cases hy'
    rw [ho'] at ho''
    cases ho''
    have h1 := hmin j _ hdj
    have h2 := (headingDiff_spec o' s.driving angle).2.1 c' hc'
    rw [hce, hd, ← hlen]
    linarith

/-! ### In any case -/

theorem routeLoop_lt {net : Nat → Option Info} {cs : List Conn} {road track : Nat} {lane : Int} {e : Option Nat} {n : Nat} :
    ∀ (is : List Nat) (cur : Nat) (opt : Option Nat) (r : Nat × Option Nat), (∀ i ∈ is, i < n) → cur < n → (∀ k, opt = some k → k < n) →
      routeLoop net cs road lane e track is cur opt = some r → r.2.getD r.1 < n
  | [], cur, opt, r, _, hc, ho, h => by
    unfold routeLoop at h
    cases h
    cases opt with
    | none => exact hc
    | some k => exact ho k rfl
  | i :: is, cur, opt, r, hi, hc, ho, h => by
    have hi' : ∀ j ∈ is, j < n := fun j hj => hi j (by simp [hj])
    have hin := hi i (by simp)
    unfold routeLoop at h
    split at h
    · cases h
    · split at h
      · exact routeLoop_lt is cur opt r hi' hc ho h
      · split at h
        · exact routeLoop_lt is cur opt r hi' hc ho h
        · split at h
          · refine routeLoop_lt is i _ r hi' hin (fun k hk => ?_) h
            split at hk
            · cases hk
              exact hin
            · exact ho k hk
          · exact routeLoop_lt is cur opt r hi' hc ho h

theorem best_lt (coin : Nat → Bool) : ∀ (ds : List ℝ) (i b : Nat) (m : ℝ) (n : Nat), i + ds.length ≤ n → b < n → best coin ds i b m < n
  | [], _, _, _, _, _, h => h
  | d :: ds, i, b, m, n, hl, h => by
    rw [List.length_cons] at hl
    unfold best
    split
    · exact best_lt coin ds (i + 1) i d n (by omega) (by omega)
    · exact best_lt coin ds (i + 1) b m n (by omega) h

theorem diffs_length {ends : Nat → Option (ℝ × ℝ)} {cs : List Conn} {road : Nat} {lane : Int} {driving angle : ℝ} :
    ∀ {is : List Nat} {ds : List ℝ}, diffs ends cs road lane driving angle is = some ds → ds.length = is.length
  | [], ds, h => by
    unfold diffs at h
    cases h
    rfl
  | i :: is, ds, h => by
    unfold diffs at h
    split at h
    · cases h
    · split at h
      · cases h
      · obtain ⟨ds', hd, rfl⟩ := Option.map_eq_some_iff.1 h
        simp [diffs_length hd]

theorem index_lt {s : Setting} {route : Option (List Nat × Nat)} {angle : ℝ} {n k : Nat} (hn : 0 < n) (h : index s route angle n = some k) : k < n := by
  unfold index at h
  split at h
  · cases h
    exact hn
  · split at h
    · rename_i ws track
      unfold routeIdx at h
      split at h
      · cases h
      · split at h
        · cases h
        · rename_i cur opt hl
          cases h
          exact routeLoop_lt _ 0 none (cur, opt) (fun i hi => List.mem_range.1 hi) hn (fun _ h => nomatch h) hl
    · split at h
      · split at h
        · cases h
        · rename_i ds hd
          cases h
          have hl := diffs_length hd
          rw [List.length_range] at hl
          exact best_lt s.coin ds 0 0 _ n (by omega) hn
      · cases h
        exact Nat.mod_lt _ hn

/-- **C179**: the connecting road taken is one of those which the junction has for the lane; with none of them the move fails. -/
theorem only_connections {s : Setting} {route : Option (List Nat × Nat)} {angle : ℝ} (hs : Sectioned s.conns) :
    (∀ r, choose s route angle = some (some r) → ∃ x ∈ linksFrom s.conns s.road s.lane, r = resultOf s.lane x) ∧
    (linksFrom s.conns s.road s.lane = [] ↔ choose s route angle = some none) := by
  have hcount : count s.road s.lane s.conns 0 = (linksFrom s.conns s.road s.lane).length := count_eq _ _ _
  unfold choose
  rw [hcount]
  by_cases h0 : (linksFrom s.conns s.road s.lane).length = 0
  · rw [if_pos h0]
    simp [List.length_eq_zero_iff.1 h0]
  · rw [if_neg h0]
    cases hi : index s route angle (linksFrom s.conns s.road s.lane).length with
    | none =>
      simp only [reduceCtorEq, false_implies, implies_true, iff_false, true_and]
      exact fun h => h0 (by simp [h])
    | some k =>
      have hk := index_lt (by omega) hi
      simp only
      rw [byIdx_eq _ _ _ _ hs, List.getElem?_eq_getElem hk]
      simp only [Option.map_some, Option.some.injEq, reduceCtorEq, iff_false]
      exact ⟨fun r hr => ⟨_, List.getElem_mem hk, hr.symm⟩, fun h => h0 (by simp [h])⟩

/-- **C179**: a road with one lane link into the junction leaves no choice. -/
theorem single {s : Setting} {route : Option (List Nat × Nat)} {angle : ℝ} {x : Conn × Int} (hs : Sectioned s.conns)
    (h : linksFrom s.conns s.road s.lane = [x]) : choose s route angle = some (some (resultOf s.lane x)) := by
  have hcount : count s.road s.lane s.conns 0 = 1 := by
    rw [count_eq, h]
    rfl
  unfold choose
  rw [hcount]
  simp only [one_ne_zero, if_false]
  unfold index
  simp only [if_true]
  rw [byIdx_eq _ _ _ _ hs, h]
  rfl

/-! ### Negations -/

/-- A junction where road 1 leads to road 2 by the connecting road 12, to road 3 by 13, and back to itself by 11. -/
def net : Nat → Option Info
  | 1 => some ⟨none, none, some ⟨false, 0⟩⟩
  | 2 => some ⟨none, none, some ⟨false, 0⟩⟩
  | 3 => some ⟨none, none, some ⟨false, 0⟩⟩
  | 11 => some ⟨some 0, some ⟨true, 1⟩, some ⟨true, 1⟩⟩
  | 12 => some ⟨some 0, some ⟨true, 1⟩, some ⟨true, 2⟩⟩
  | 13 => some ⟨some 0, some ⟨true, 1⟩, some ⟨true, 3⟩⟩
  | _ => none

def conn (c : Nat) : Conn := ⟨some ⟨1, [[(-1, 1)]]⟩, ⟨c, [[(-1, 1)]]⟩, 1, [(-1, -1)]⟩

noncomputable def at' (cs : List Nat) : Setting := ⟨net, cs.map conn, 0, 1, -1, fun _ => some (0, 0), 0, fun _ => true, 0⟩

theorem choose_at (cs ws : List Nat) (track k : Nat) (r : Result) (h2 : count 1 (-1) (cs.map conn) 0 = cs.length)
    (hl : 2 ≤ cs.length) (hi : routeIdx net (cs.map conn) 0 1 (-1) ws track cs.length = some k)
    (hb : byIdx 1 (-1) k (cs.map conn) 0 = some r) (angle : ℝ) : choose (at' cs) (some (ws, track)) angle = some (some r) := by
  have e : choose (at' cs) (some (ws, track)) angle =
      if count 1 (-1) (cs.map conn) 0 = 0 then some none else
        match (if count 1 (-1) (cs.map conn) 0 = 1 then some 0 else routeIdx net (cs.map conn) 0 1 (-1) ws track (count 1 (-1) (cs.map conn) 0)) with
        | none => none
        | some k => (byIdx 1 (-1) k (cs.map conn) 0).map some := rfl
  rw [e, h2, if_neg (by omega), if_neg (by omega), hi]
  simp only
  rw [hb]
  rfl

/-- The hypotheses of `follows_route_partial` are met: the route goes from road 1 by 13 to road 3. -/
example : Sectioned (at' [12, 13]).conns ∧ From (at' [12, 13]).conns 1 13 ∧ ¬ From (at' [12, 13]).conns 1 1 ∧
    (linksFrom (at' [12, 13]).conns 1 (-1)).length = 2 ∧ Leads net 1 13 3 ∧ Leads net 1 12 2 := by
  refine ⟨?_, ⟨conn 13, by simp [at'], rfl, rfl⟩, ?_, by decide, ⟨_, rfl, by simp, rfl, Or.inl ⟨rfl, rfl⟩⟩, ⟨_, rfl, by simp, rfl, Or.inl ⟨rfl, rfl⟩⟩⟩
  · intro c hc
    simp [at'] at hc
    rcases hc with rfl | rfl <;> simp [conn]
  · rintro ⟨c, hc, _, h⟩
    simp [at'] at hc
    rcases hc with rfl | rfl <;> simp [conn] at h

example : WellFormed net (at' [12, 13]).conns 0 := by
  intro c hc r hr
  simp only [at', List.map_cons, List.map_nil, List.mem_cons, List.not_mem_nil, or_false] at hc
  rcases hc with rfl | rfl <;> cases hr
  · exact ⟨2, by decide, ⟨_, rfl, by simp, rfl, Or.inl ⟨rfl, rfl⟩⟩, fun i hi => by cases hi; rfl⟩
  · exact ⟨3, by decide, ⟨_, rfl, by simp, rfl, Or.inl ⟨rfl, rfl⟩⟩, fun i hi => by cases hi; rfl⟩

/-- The hypotheses of `closest_angle` are met. -/
example : ∀ x ∈ linksFrom (at' [12, 13]).conns 1 (-1), (x.1.contact = 1 ∨ x.1.contact = 2) ∧ ((at' [12, 13]).ends x.1.connecting.id).isSome :=
  fun x hx => ⟨Or.inl (by
    obtain ⟨c, hc, h⟩ := List.mem_flatMap.1 hx
    obtain ⟨l, _, rfl⟩ := List.mem_map.1 h
    simp only [at', List.map_cons, List.map_nil, List.mem_filter, List.mem_cons, List.not_mem_nil, or_false] at hc
    rcases hc.1 with rfl | rfl <;> rfl), rfl⟩

/-- The negation for a route which passes the junction twice from the same road, first to road 2 and then to road 3: at the second pass, the current
waypoint being on 13, the entity takes 12 again. -/
theorem second_pass_fails (angle : ℝ) :
    choose (at' [12, 13]) (some ([1, 12, 2, 1, 13, 3], 13)) angle = some (some ⟨-1, some 1, some 12, -1⟩) :=
  choose_at [12, 13] _ _ 0 _ (by decide) (by decide) (by decide) (by decide) angle

/-- The negation for a route which turns back to its road by 11: the entity takes the first connection instead. -/
theorem turn_back_fails (angle : ℝ) :
    choose (at' [12, 11, 13]) (some ([1, 11, 1], 11)) angle = some (some ⟨-1, some 1, some 12, -1⟩) :=
  choose_at [12, 11, 13] _ _ 0 _ (by decide) (by decide) (by decide) (by decide) angle

end Verif.Choice

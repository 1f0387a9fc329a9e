import Verif.Path.Model
/-
Distances along the road network: a path found exists and is the shortest one up to the part on the target
road, and if none is found there is none.
-/
namespace Verif.Path
open Verif.Move (End Link)

/-! Spec -/

/-- Spec: leaving road `r` at its end `e` leads to the end `c` of road `r'`. -/
inductive Hop (net : Net) : Nat → End → Nat → End → Prop
  | road (r : Nat) (e : End) (R : Road) (r' : Nat) (c : End) (hr : net.roads r = some R)
      (hl : R.link e = some (.road r' c)) : Hop net r e r' c
  | junction (r : Nat) (e : End) (R : Road) (j : Nat) (J : Junction) (k : Conn) (hr : net.roads r = some R)
      (hl : R.link e = some (.junction j)) (hj : net.junctions j = some J) (hk : k ∈ J.conns)
      (hi : k.incoming = r) : Hop net r e k.connecting k.contact

/-- Spec: the end a position faces. -/
def Start.facing (a : Start) : End := if a.fwd then .finish else .start

/-- How an end of a road is given to `laneAt`. -/
def endS : End → Rat
  | .start => 0
  | .finish => -1

/-- Spec: from the start, first towards its end `root`, one can travel `d` to the end `e` of road `r` and is on
lane `l` there; the road goes on there. -/
inductive Walk (net : Net) (a : Start) (both : Bool) : End → Nat → End → Int → Rat → Prop
  | start (e : End) (R : Road) (hr : net.roads a.road = some R) (hb : both = true ∨ e = a.facing)
      (hl : R.link e ≠ none) :
      Walk net a both e a.road e (net.laneAt a.road a.lane a.s (endS e)) (a.toEnd R.len e)
  | step (root : End) (r : Nat) (e : End) (l : Int) (d : Rat) (r' : Nat) (c : End) (R' : Road)
      (hw : Walk net a both root r e l d) (hh : Hop net r e r' c) (he : net.enter r e l r' ≠ 0)
      (hr : net.roads r' = some R') (hl : R'.link (other c) ≠ none) :
      Walk net a both root r' (other c) (net.laneAt r' (net.enter r e l r') (endS c) (endS (other c))) (d + R'.len)

/-- Spec: a consistent network. -/
structure Sane (net : Net) : Prop where
  /-- lengths are not negative -/
  len : ∀ id R, net.roads id = some R → 0 ≤ R.len
  /-- links lead to roads and junctions that exist -/
  hop : ∀ r e r' c, Hop net r e r' c → ∃ R, net.roads r' = some R
  /-- a connecting road has a link back at the contact point, and only there -/
  back : ∀ j J k R, net.junctions j = some J → k ∈ J.conns → net.roads k.connecting = some R →
    (R.link k.contact).map linkId = some (if J.direct then j else k.incoming) ∧
    (R.link (other k.contact)).map linkId ≠ some (if J.direct then j else k.incoming)
  /-- from one road another one is entered at one end only -/
  contact : ∀ r e e' r' c c', Hop net r e r' c → Hop net r e' r' c' → c = c'
  /-- one connection for an incoming and a connecting road -/
  single : ∀ j J, net.junctions j = some J → J.conns.Pairwise fun k k' =>
    ¬ (k.incoming = k'.incoming ∧ k.connecting = k'.connecting)

/-- Spec: the lane at an end of a road does not depend on the way taken there. -/
def OneLane (net : Net) (a : Start) (both : Bool) : Prop := ∀ root root' r e l l' d d',
  Walk net a both root r e l d → Walk net a both root' r e l' d' → l = l'

/-! Lemmas -/

theorem across_eq (net : Net) (r : Nat) (c : End) (l : Int) :
    across net r (other c) l = net.laneAt r l (endS c) (endS (other c)) := by cases c <;> rfl

theorem walk_road (net : Net) (a : Start) (both : Bool) (root : End) (r : Nat) (e : End) (l : Int) (d : Rat)
    (h : Walk net a both root r e l d) : ∃ R link, net.roads r = some R ∧ R.link e = some link := by
  cases h with
  | start R hr hb hl => exact ⟨R, _, hr, Option.some_get (Option.isSome_iff_ne_none.mpr hl) |>.symm⟩
  | step r e l d r' c R' hw hh he hr hl =>
    exact ⟨R', _, hr, Option.some_get (Option.isSome_iff_ne_none.mpr hl) |>.symm⟩

/-- The node for a road entered from `src`. -/
def newNode (net : Net) (src : Node) (next : Nat) (exit : End) (len : Rat) : Node :=
  ⟨next, exit, src.dist + len, across net next exit (net.enter src.road src.exit src.lane next), src.root⟩

/-- The nodes know no longer way than over the whole road. -/
def Near (net : Net) (d : Rat) (unv : List Node) : Prop :=
  ∀ u ∈ unv, ∀ R, net.roads u.road = some R → u.dist ≤ d + R.len

theorem relax_id (net : Net) (d : Rat) (unv : List Node) (hn : Near net d unv) (next : Nat) (e : End) (R : Road)
    (hr : net.roads next = some R) : unv.map (relax next e (d + R.len)) = unv := by
  have : ∀ u ∈ unv, relax next e (d + R.len) u = u := by
    intro u hu
    unfold relax
    rw [if_neg]
    rintro ⟨h1, _, h3⟩
    have := hn u hu R (h1 ▸ hr)
    grind
  calc unv.map (relax next e (d + R.len)) = unv.map id := List.map_congr_left (fun u hu => this u hu)
    _ = unv := by simp

theorem link_other (R : Road) (c : End) (x : Nat) (h1 : (R.link c).map linkId = some x)
    (h2 : (R.link (other c)).map linkId ≠ some x) (y : Nat) (hy : y = x) :
    (if R.succ.map linkId = some y then some End.start
      else if R.pred.map linkId = some y then some End.finish else none) = some (other c) := by
  subst hy
  cases c with
  | start =>
    simp only [Road.link, other] at h1 h2 ⊢
    rw [if_neg h2, if_pos h1]
  | finish =>
    simp only [Road.link, other] at h1 h2 ⊢
    rw [if_pos h1]

theorem exitOf_junction (net : Net) (hs : Sane net) (src : Node) (j : Nat) (J : Junction) (k : Conn) (R : Road)
    (hj : net.junctions j = some J) (hk : k ∈ J.conns) (hi : k.incoming = src.road)
    (hr : net.roads k.connecting = some R) : exitOf net src (.junction j) R = some (other k.contact) := by
  obtain ⟨h1, h2⟩ := hs.back j J k R hj hk hr
  unfold exitOf
  simp only [hj]
  refine link_other R k.contact _ h1 h2 _ ?_
  rw [hi]

/-- Checking a road adds its node unless the lane or the road ends, or it has been visited. -/
theorem checkRoad_spec (net : Net) (vis : List (Nat × End)) (unv : List Node) (src : Node) (link : Link) (next : Nat)
    (R : Road) (hr : net.roads next = some R) (hn : Near net src.dist unv) (e : End)
    (he : exitOf net src link R = some e) :
    ∃ extra, checkRoad net vis unv src link next R = unv ++ extra ∧
      (∀ u ∈ extra, u = newNode net src next e R.len ∧ net.enter src.road src.exit src.lane next ≠ 0 ∧
        R.link e ≠ none) ∧
      (net.enter src.road src.exit src.lane next ≠ 0 → R.link e ≠ none → (next, e) ∈ vis ∨
        newNode net src next e R.len ∈ extra) := by
  unfold checkRoad
  by_cases h1 : net.enter src.road src.exit src.lane next = 0
  · rw [if_pos h1]
    exact ⟨[], by simp, by simp, fun h => absurd h1 h⟩
  · rw [if_neg h1, he]
    simp only
    by_cases h2 : R.link e = none
    · rw [if_pos h2]
      exact ⟨[], by simp, by simp, fun _ h => absurd h2 h⟩
    · rw [if_neg h2]
      by_cases h3 : (next, e) ∈ vis
      · rw [if_pos h3]
        exact ⟨[], by simp, by simp, fun _ _ => Or.inl h3⟩
      · rw [if_neg h3]
        refine ⟨[newNode net src next e R.len], ?_, ?_, fun _ _ => Or.inr (by simp)⟩
        · unfold addNode
          rw [relax_id net src.dist unv hn next e R hr]
          rfl
        · intro u hu
          exact ⟨by simpa using hu, h1, h2⟩

theorem near_append (net : Net) (d : Rat) (u v : List Node) (hu : Near net d u) (hv : Near net d v) :
    Near net d (u ++ v) := by
  intro x hx
  rcases List.mem_append.mp hx with h | h
  · exact hu x h
  · exact hv x h

theorem near_new (net : Net) (src : Node) (extra : List Node)
    (h : ∀ u ∈ extra, ∃ next e R, net.roads next = some R ∧ u = newNode net src next e R.len) :
    Near net src.dist extra := by
  intro u hu R hr
  obtain ⟨next, e, R', hr', rfl⟩ := h u hu
  simp only [newNode] at hr ⊢
  rw [hr'] at hr
  rw [Option.some.inj hr]
  exact Rat.le_refl

/-- The connections of a junction, none of which is the target. -/
theorem conns_spec (net : Net) (hs : Sane net) (vis : List (Nat × End)) (src : Node) (pivot : Road) (j : Nat)
    (J : Junction) (hj : net.junctions j = some J) (target : Nat) (s d : Rat)
    (hroads : ∀ k ∈ J.conns, k.incoming = src.road → ∃ R, net.roads k.connecting = some R) :
    ∀ (ks : List Conn) (unv : List Node) (f : Bool), (∀ k ∈ ks, k ∈ J.conns ∧ k.incoming = src.road) →
      (∀ k ∈ ks, k.connecting ≠ target) → Near net src.dist unv →
      ∃ extra, conns net vis src pivot (.junction j) target s ks unv d f = .go (unv ++ extra) d f ∧
        (∀ u ∈ extra, ∃ k ∈ ks, ∃ R, net.roads k.connecting = some R ∧
          u = newNode net src k.connecting (other k.contact) R.len ∧
          net.enter src.road src.exit src.lane k.connecting ≠ 0 ∧ R.link (other k.contact) ≠ none) ∧
        (∀ k ∈ ks, ∀ R, net.roads k.connecting = some R → net.enter src.road src.exit src.lane k.connecting ≠ 0 →
          R.link (other k.contact) ≠ none → (k.connecting, other k.contact) ∈ vis ∨
            newNode net src k.connecting (other k.contact) R.len ∈ extra) := by
  intro ks
  induction ks with
  | nil => intro unv f _ _ _; exact ⟨[], by simp [conns], by simp, by simp⟩
  | cons k ks ih =>
    intro unv f hk ht hn
    obtain ⟨hk1, hk2⟩ := hk k (by simp)
    obtain ⟨R, hR⟩ := hroads k hk1 hk2
    have hne := ht k (by simp)
    have hex := exitOf_junction net hs src j J k R hj hk1 hk2 hR
    obtain ⟨ex1, c1, c2, c3⟩ := checkRoad_spec net vis unv src (.junction j) k.connecting R hR hn _ hex
    have hn' : Near net src.dist (unv ++ ex1) :=
      near_append net _ _ _ hn (near_new net src ex1 fun u hu => ⟨_, _, R, hR, (c2 u hu).1⟩)
    obtain ⟨ex2, d1, d2, d3⟩ := ih (unv ++ ex1) f (fun x hx => hk x (List.mem_cons_of_mem _ hx))
      (fun x hx => ht x (List.mem_cons_of_mem _ hx)) hn'
    refine ⟨ex1 ++ ex2, ?_, ?_, ?_⟩
    · simp only [conns, hR, if_neg hne, c1]
      rw [d1, List.append_assoc]
    · intro u hu
      rcases List.mem_append.mp hu with h | h
      · exact ⟨k, by simp, R, hR, (c2 u h).1, (c2 u h).2.1, (c2 u h).2.2⟩
      · obtain ⟨k', hk', rest⟩ := d2 u h
        exact ⟨k', List.mem_cons_of_mem _ hk', rest⟩
    · intro k' hk' R' hR' h1 h2
      rcases List.mem_cons.mp hk' with rfl | hk'
      · rw [hR] at hR'
        have := Option.some.inj hR'
        subst this
        rcases c3 h1 h2 with h | h
        · exact Or.inl h
        · exact Or.inr (List.mem_append_left _ h)
      · rcases d3 k' hk' R' hR' h1 h2 with h | h
        · exact Or.inl h
        · exact Or.inr (List.mem_append_right _ h)

theorem contactVia_hop (net : Net) (pivot : Road) (r target : Nat) (hr : net.roads r = some pivot) (e : End) (c : End)
    (h : contactVia net pivot r target e = some c) : Hop net r e target c := by
  unfold contactVia at h
  cases hl : pivot.link e with
  | none => rw [hl] at h; simp at h
  | some link =>
    rw [hl] at h
    cases link with
    | road id c' =>
      simp only at h
      split at h
      · rename_i hid
        have := Option.some.inj h
        subst this hid
        exact Hop.road r e pivot _ _ hr hl
      · simp at h
    | junction j =>
      simp only at h
      cases hj : net.junctions j with
      | none => rw [hj] at h; simp at h
      | some J =>
        rw [hj] at h
        simp only [Option.map_eq_some_iff] at h
        obtain ⟨k, hk, hc⟩ := h
        have hm := List.mem_of_find?_eq_some hk
        have hp := List.find?_some hk
        simp only [decide_eq_true_eq] at hp
        rw [← hc, ← hp.2]
        exact Hop.junction r e pivot j J k hr hl hj hm hp.1

theorem hop_contactVia (net : Net) (pivot : Road) (r target : Nat) (hr : net.roads r = some pivot) (e : End) (c : End)
    (h : Hop net r e target c) : ∃ c', contactVia net pivot r target e = some c' := by
  unfold contactVia
  cases h with
  | road R _ _ hr' hl =>
    rw [hr] at hr'
    have := Option.some.inj hr'
    subst this
    rw [hl]
    exact ⟨c, by simp⟩
  | junction R j J k hr' hl hj hk hi =>
    rw [hr] at hr'
    have := Option.some.inj hr'
    subst this
    rw [hl]
    simp only [hj]
    cases hf : J.conns.find? fun k' => decide (k'.incoming = r ∧ k'.connecting = k.connecting) with
    | some k' => exact ⟨_, rfl⟩
    | none =>
      have := List.find?_eq_none.mp hf k hk
      simp [hi] at this

/-- The contact point found for the target is the one of the hop. -/
theorem contact_or (net : Net) (hs : Sane net) (pivot : Road) (r target : Nat) (hr : net.roads r = some pivot)
    (e c : End) (h : Hop net r e target c) :
    (contactVia net pivot r target .finish).or (contactVia net pivot r target .start) = some c := by
  cases h1 : contactVia net pivot r target .finish with
  | some c' =>
    show some c' = some c
    exact congrArg some (hs.contact r _ _ _ _ _ (contactVia_hop net pivot r target hr _ _ h1) h)
  | none =>
    rw [Option.none_or]
    cases h2 : contactVia net pivot r target .start with
    | some c' => exact congrArg some (hs.contact r _ _ _ _ _ (contactVia_hop net pivot r target hr _ _ h2) h)
    | none =>
      exfalso
      obtain ⟨c', hc'⟩ := hop_contactVia net pivot r target hr e c h
      cases e
      · rw [hc'] at h2; simp at h2
      · rw [hc'] at h1; simp at h1

theorem near_check (net : Net) (vis : List (Nat × End)) (unv : List Node) (src : Node) (j : Nat) (next : Nat)
    (R : Road) (hr : net.roads next = some R) (hn : Near net src.dist unv) (e : End)
    (he : exitOf net src (.junction j) R = some e) :
    Near net src.dist (checkRoad net vis unv src (.junction j) next R) := by
  obtain ⟨ex, c1, c2, _⟩ := checkRoad_spec net vis unv src (.junction j) next R hr hn e he
  rw [c1]
  exact near_append net _ _ _ hn (near_new net src ex fun u hu => ⟨_, _, R, hr, (c2 u hu).1⟩)

/-- The connections of a junction, one of which is the target. -/
theorem conns_found (net : Net) (hs : Sane net) (vis : List (Nat × End)) (src : Node) (pivot : Road) (j : Nat)
    (J : Junction) (hj : net.junctions j = some J) (target : Nat) (s : Rat) (T : Road)
    (hT : net.roads target = some T) (c : End)
    (hc : (contactVia net pivot src.road target .finish).or (contactVia net pivot src.road target .start) = some c)
    (hroads : ∀ k ∈ J.conns, k.incoming = src.road → ∃ R, net.roads k.connecting = some R) :
    ∀ (ks : List Conn) (unv : List Node) (d : Rat) (f : Bool), (∀ k ∈ ks, k ∈ J.conns ∧ k.incoming = src.road) →
      (ks.Pairwise fun k k' => ¬ (k.incoming = k'.incoming ∧ k.connecting = k'.connecting)) →
      (∃ k ∈ ks, k.connecting = target) → Near net src.dist unv →
      ∃ unv', conns net vis src pivot (.junction j) target s ks unv d f = .go unv' (d + entry c T.len s) true := by
  intro ks
  induction ks with
  | nil => intro unv d f _ _ h; obtain ⟨k, hk, _⟩ := h; exact absurd hk (by simp)
  | cons k ks ih =>
    intro unv d f hk hp hex hn
    obtain ⟨hk1, hk2⟩ := hk k (by simp)
    obtain ⟨R, hR⟩ := hroads k hk1 hk2
    have hp' := List.pairwise_cons.mp hp
    by_cases ht : k.connecting = target
    · have hno : ∀ k' ∈ ks, k'.connecting ≠ target := by
        intro k' hk' h
        refine hp'.1 k' hk' ⟨?_, by rw [ht, h]⟩
        rw [hk2, (hk k' (List.mem_cons_of_mem _ hk')).2]
      obtain ⟨ex, c1, _, _⟩ := conns_spec net hs vis src pivot j J hj target s (d + entry c T.len s) hroads ks unv true
        (fun x hx => hk x (List.mem_cons_of_mem _ hx)) hno hn
      have hRT : R = T := by rw [ht, hT] at hR; exact (Option.some.inj hR).symm
      refine ⟨unv ++ ex, ?_⟩
      simp only [conns, hR, if_pos ht, hc]
      rw [hRT]
      exact c1
    · have hex' := exitOf_junction net hs src j J k R hj hk1 hk2 hR
      obtain ⟨unv', h⟩ := ih (checkRoad net vis unv src (.junction j) k.connecting R) d f
        (fun x hx => hk x (List.mem_cons_of_mem _ hx)) hp'.2
        (by
          obtain ⟨k', hk', h'⟩ := hex
          rcases List.mem_cons.mp hk' with rfl | h2
          · exact absurd h' ht
          · exact ⟨k', h2, h'⟩)
        (near_check net vis unv src j k.connecting R hR hn _ hex')
      exact ⟨unv', by simp only [conns, hR, if_neg ht]; exact h⟩

/-- One round: either a hop leads to the target, which is found, or the roads ahead are added. -/
theorem visit_spec (net : Net) (hs : Sane net) (vis : List (Nat × End)) (unv : List Node) (src : Node) (target : Nat)
    (s : Rat) (T : Road) (hT : net.roads target = some T) (R : Road) (link : Link) (hr : net.roads src.road = some R)
    (hl : R.link src.exit = some link) (hn : Near net src.dist unv) :
    (∃ c unv', Hop net src.road src.exit target c ∧
      visit net vis unv src target s = .go unv' (src.dist + entry c T.len s) true) ∨
    ((∀ c, ¬ Hop net src.road src.exit target c) ∧ ∃ extra,
      visit net vis unv src target s = .go (unv ++ extra) src.dist false ∧
      (∀ u ∈ extra, ∃ next c R', Hop net src.road src.exit next c ∧ net.roads next = some R' ∧
        u = newNode net src next (other c) R'.len ∧ net.enter src.road src.exit src.lane next ≠ 0 ∧
        R'.link (other c) ≠ none) ∧
      (∀ next c R', Hop net src.road src.exit next c → net.roads next = some R' →
        net.enter src.road src.exit src.lane next ≠ 0 → R'.link (other c) ≠ none →
        (next, other c) ∈ vis ∨ newNode net src next (other c) R'.len ∈ extra)) := by
  unfold visit
  simp only [hr, hl]
  cases link with
  | road id c =>
    have hh : Hop net src.road src.exit id c := Hop.road _ _ R _ _ hr hl
    obtain ⟨R', hR'⟩ := hs.hop _ _ _ _ hh
    simp only [hR']
    have uniq : ∀ next c', Hop net src.road src.exit next c' → next = id ∧ c' = c := by
      intro next c' h
      cases h with
      | road R2 _ _ hr2 hl2 =>
        rw [hr] at hr2
        have := Option.some.inj hr2
        subst this
        rw [hl] at hl2
        injection (Option.some.inj hl2) with h1 h2
        exact ⟨h1.symm, h2.symm⟩
      | junction R2 j J k hr2 hl2 hj hk hi =>
        rw [hr] at hr2
        have := Option.some.inj hr2
        subst this
        rw [hl] at hl2
        exact absurd (Option.some.inj hl2) (by simp)
    by_cases ht : id = target
    · left
      rw [if_pos ht]
      rw [ht] at hh hR'
      refine ⟨c, unv, hh, ?_⟩
      rw [hT] at hR'
      rw [Option.some.inj hR']
    · right
      rw [if_neg ht]
      refine ⟨fun c' h => ht (uniq _ _ h).1.symm, ?_⟩
      obtain ⟨ex, c1, c2, c3⟩ := checkRoad_spec net vis unv src (.road id c) id R' hR' hn (other c) rfl
      refine ⟨ex, by rw [c1], ?_, ?_⟩
      · intro u hu
        exact ⟨id, c, R', hh, hR', (c2 u hu).1, (c2 u hu).2.1, (c2 u hu).2.2⟩
      · intro next c' R2 h hR2 h1 h2
        obtain ⟨rfl, rfl⟩ := uniq _ _ h
        rw [hR'] at hR2
        have := Option.some.inj hR2
        subst this
        exact c3 h1 h2
  | junction j =>
    simp only
    cases hj : net.junctions j with
    | none =>
      right
      refine ⟨?_, [], by simp, by simp, ?_⟩
      · intro c h
        cases h with
        | road R2 _ _ hr2 hl2 =>
          rw [hr] at hr2
          have := Option.some.inj hr2
          subst this
          rw [hl] at hl2
          exact absurd (Option.some.inj hl2) (by simp)
        | junction R2 j2 J k hr2 hl2 hj2 hk hi =>
          rw [hr] at hr2
          have := Option.some.inj hr2
          subst this
          rw [hl] at hl2
          injection (Option.some.inj hl2) with h1
          rw [← h1, hj] at hj2
          exact absurd hj2 (by simp)
      · intro next c R' h
        exfalso
        cases h with
        | road R2 _ _ hr2 hl2 =>
          rw [hr] at hr2
          have := Option.some.inj hr2
          subst this
          rw [hl] at hl2
          exact absurd (Option.some.inj hl2) (by simp)
        | junction R2 j2 J k hr2 hl2 hj2 hk hi =>
          rw [hr] at hr2
          have := Option.some.inj hr2
          subst this
          rw [hl] at hl2
          injection (Option.some.inj hl2) with h1
          rw [← h1, hj] at hj2
          exact absurd hj2 (by simp)
    | some J =>
      simp only
      have inv : ∀ next c, Hop net src.road src.exit next c →
          ∃ k ∈ J.conns, k.incoming = src.road ∧ k.connecting = next ∧ k.contact = c := by
        intro next c h
        cases h with
        | road R2 _ _ hr2 hl2 =>
          rw [hr] at hr2
          have := Option.some.inj hr2
          subst this
          rw [hl] at hl2
          exact absurd (Option.some.inj hl2) (by simp)
        | junction R2 j2 J2 k hr2 hl2 hj2 hk hi =>
          rw [hr] at hr2
          have := Option.some.inj hr2
          subst this
          rw [hl] at hl2
          injection (Option.some.inj hl2) with h1
          rw [← h1, hj] at hj2
          have := Option.some.inj hj2
          subst this
          exact ⟨k, hk, hi, rfl, rfl⟩
      have mk : ∀ k ∈ J.conns, k.incoming = src.road → Hop net src.road src.exit k.connecting k.contact :=
        fun k hk hi => Hop.junction _ _ R j J k hr hl hj hk hi
      have hroads : ∀ k ∈ J.conns, k.incoming = src.road → ∃ R, net.roads k.connecting = some R :=
        fun k hk hi => hs.hop _ _ _ _ (mk k hk hi)
      have hmem : ∀ k ∈ J.conns.filter (fun k => decide (k.incoming = src.road)), k ∈ J.conns ∧ k.incoming = src.road := by
        intro k hk
        have := List.mem_filter.mp hk
        exact ⟨this.1, by simpa using this.2⟩
      by_cases hex : ∃ k ∈ J.conns.filter (fun k => decide (k.incoming = src.road)), k.connecting = target
      · left
        obtain ⟨k, hk, hkt⟩ := hex
        have hh := mk k (hmem k hk).1 (hmem k hk).2
        rw [hkt] at hh
        have hc := contact_or net hs R src.road target hr _ _ hh
        obtain ⟨unv', h⟩ := conns_found net hs vis src R j J hj target s T hT k.contact hc hroads _ unv src.dist false hmem
          ((hs.single j J hj).filter _) ⟨k, hk, hkt⟩ hn
        exact ⟨k.contact, unv', hh, h⟩
      · right
        have hno : ∀ k ∈ J.conns.filter (fun k => decide (k.incoming = src.road)), k.connecting ≠ target :=
          fun k hk h => hex ⟨k, hk, h⟩
        refine ⟨?_, ?_⟩
        · intro c h
          obtain ⟨k, hk, hi, hkt, _⟩ := inv _ _ h
          exact hno k (List.mem_filter.mpr ⟨hk, by simpa using hi⟩) hkt
        · obtain ⟨ex, c1, c2, c3⟩ := conns_spec net hs vis src R j J hj target s src.dist hroads _ unv false hmem hno hn
          refine ⟨ex, c1, ?_, ?_⟩
          · intro u hu
            obtain ⟨k, hk, R', hR', h1, h2, h3⟩ := c2 u hu
            exact ⟨k.connecting, k.contact, R', mk k (hmem k hk).1 (hmem k hk).2, hR', h1, h2, h3⟩
          · intro next c R' h hR' h1 h2
            obtain ⟨k, hk, hi, hkt, hkc⟩ := inv _ _ h
            subst hkt hkc
            exact c3 k (List.mem_filter.mpr ⟨hk, by simpa using hi⟩) R' hR' h1 h2

/-- The node picked is the closest one, or all are beyond the largest number. -/
theorem minIdx_spec (us : List Node) : ∀ (i best : Nat) (m : Rat),
    (minIdx i m best us = best ∧ ∀ u ∈ us, m ≤ u.dist) ∨
    (∃ k u, minIdx i m best us = i + k ∧ us[k]? = some u ∧ u.dist < m ∧ ∀ v ∈ us, u.dist ≤ v.dist) := by
  induction us with
  | nil => intro i best m; exact Or.inl ⟨rfl, by simp⟩
  | cons x us ih =>
    intro i best m
    simp only [minIdx]
    by_cases h : x.dist < m
    · rw [if_pos h]
      right
      rcases ih (i + 1) i x.dist with ⟨h1, h2⟩ | ⟨k, u, h1, h2, h3, h4⟩
      · refine ⟨0, x, by rw [h1]; rfl, rfl, h, ?_⟩
        intro v hv
        rcases List.mem_cons.mp hv with rfl | hv
        · exact Rat.le_refl
        · exact h2 v hv
      · refine ⟨k + 1, u, by rw [h1]; omega, by simpa using h2, by grind, ?_⟩
        intro v hv
        rcases List.mem_cons.mp hv with rfl | hv
        · grind
        · exact h4 v hv
    · rw [if_neg h]
      rcases ih (i + 1) best m with ⟨h1, h2⟩ | ⟨k, u, h1, h2, h3, h4⟩
      · refine Or.inl ⟨h1, ?_⟩
        intro v hv
        rcases List.mem_cons.mp hv with rfl | hv
        · grind
        · exact h2 v hv
      · refine Or.inr ⟨k + 1, u, by rw [h1]; omega, by simpa using h2, h3, ?_⟩
        intro v hv
        rcases List.mem_cons.mp hv with rfl | hv
        · grind
        · exact h4 v hv

theorem pick (unv : List Node) (h : unv ≠ []) : ∃ src, unv[minIdx 0 large 0 unv]? = some src ∧ src ∈ unv ∧
    ((∀ v ∈ unv, src.dist ≤ v.dist) ∨ ∀ v ∈ unv, large ≤ v.dist) := by
  rcases minIdx_spec unv 0 0 large with ⟨h1, h2⟩ | ⟨k, u, h1, h2, _, h4⟩
  · rw [h1]
    cases unv with
    | nil => exact absurd rfl h
    | cons x xs => exact ⟨x, rfl, by simp, Or.inr h2⟩
  · rw [h1, Nat.zero_add]
    exact ⟨u, h2, List.mem_of_getElem? h2, Or.inl h4⟩

theorem erase_mem (l : List Node) (i : Nat) (x u : Node) (hx : l[i]? = some x) (hu : u ∈ l) :
    u = x ∨ u ∈ l.eraseIdx i := by
  obtain ⟨k, hk⟩ := List.getElem?_of_mem hu
  by_cases h : k = i
  · left
    rw [h, hx] at hk
    exact (Option.some.inj hk).symm
  · right
    exact List.mem_eraseIdx_iff_getElem?.mpr ⟨k, h, hk⟩

/-! The invariant of the search -/

/-- What holds of the nodes that have been visited: the first visit was by a shortest way, it did not lead to
the target, and all roads ahead have been taken up. -/
def Seen (net : Net) (a : Start) (both : Bool) (target : Nat) (maxDist : Rat) (vis : List (Nat × End))
    (unv : List Node) : Prop :=
  ∀ x ∈ vis, ∃ root l dv, Walk net a both root x.1 x.2 l dv ∧
    (∀ root' l' d', Walk net a both root' x.1 x.2 l' d' → d' < maxDist → dv ≤ d') ∧
    (∀ c, ¬ Hop net x.1 x.2 target c) ∧
    (∀ next c R', Hop net x.1 x.2 next c → net.roads next = some R' → net.enter x.1 x.2 l next ≠ 0 →
      R'.link (other c) ≠ none → (next, other c) ∈ vis ∨
        ∃ u ∈ unv, u.road = next ∧ u.exit = other c ∧ u.dist ≤ dv + R'.len)

/-- The ends of the road of the start have been taken up. -/
def Begun (net : Net) (a : Start) (both : Bool) (vis : List (Nat × End)) (unv : List Node) : Prop :=
  ∀ e R, net.roads a.road = some R → (both = true ∨ e = a.facing) → R.link e ≠ none →
    (a.road, e) ∈ vis ∨ ∃ u ∈ unv, u.road = a.road ∧ u.exit = e ∧ u.dist ≤ a.toEnd R.len e

/-- Any way shorter than the maximum leads to a visited link or is not shorter than one of the nodes. -/
theorem frontier (net : Net) (hs : Sane net) (a : Start) (both : Bool) (target : Nat) (maxDist : Rat)
    (vis : List (Nat × End)) (unv : List Node) (ho : OneLane net a both)
    (hv : Seen net a both target maxDist vis unv) (hb : Begun net a both vis unv) (root : End) (r : Nat) (e : End)
    (l : Int) (d : Rat) (hw : Walk net a both root r e l d) :
    d < maxDist → (r, e) ∈ vis ∨ ∃ u ∈ unv, u.dist ≤ d := by
  induction hw with
  | start R hr hb' hl =>
    intro _
    rcases hb _ R hr hb' hl with h | ⟨u, hu, _, _, h⟩
    · exact Or.inl h
    · exact Or.inr ⟨u, hu, h⟩
  | step r e l d r' c R' hw hh he hr hl ih =>
    intro hd
    have hlen := hs.len r' R' hr
    rcases ih (by grind) with h | ⟨u, hu, h⟩
    · obtain ⟨root', l', dv, w1, w2, w3, w4⟩ := hv (r, e) h
      have hll := ho _ _ _ _ _ _ _ _ hw w1
      rw [hll] at he hw
      have hdv := w2 root l' d hw (by grind)
      rcases w4 r' c R' hh hr he hl with h' | ⟨u, hu, _, _, h'⟩
      · exact Or.inl h'
      · exact Or.inr ⟨u, hu, by grind⟩
    · exact Or.inr ⟨u, hu, by grind⟩

/-- What the result of the search has to meet. -/
def Right (net : Net) (a : Start) (both : Bool) (target : Nat) (s maxDist : Rat) (T : Road) : Res → Prop
  | .crash => False
  | .fail => False
  | .found d last => ∃ c, Walk net a both last.root last.road last.exit last.lane last.dist ∧
      Hop net last.road last.exit target c ∧ d = last.dist + entry c T.len s ∧
      (OneLane net a both → ∀ root r e l d' c', Walk net a both root r e l d' → Hop net r e target c' →
        d' < maxDist → last.dist ≤ d')
  | .none rest d => (rest = [] ∨ maxDist ≤ d) → OneLane net a both →
      ∀ root r e l d' c', Walk net a both root r e l d' → Hop net r e target c' → maxDist ≤ d'

theorem search_right (net : Net) (hs : Sane net) (a : Start) (both : Bool) (target : Nat) (s maxDist : Rat) (T : Road)
    (hT : net.roads target = some T) (hm : maxDist ≤ large) :
    ∀ (n : Nat) (vis : List (Nat × End)) (unv : List Node) (d : Rat),
      (∀ u ∈ unv, Walk net a both u.root u.road u.exit u.lane u.dist) → Near net d unv →
      (∀ u ∈ unv, d ≤ u.dist ∨ maxDist ≤ u.dist) →
      (OneLane net a both → Seen net a both target maxDist vis unv ∧ Begun net a both vis unv) →
      Right net a both target s maxDist T (search net target s maxDist n vis unv d) := by
  have final : ∀ (vis : List (Nat × End)) (unv : List Node) (d : Rat),
      (∀ u ∈ unv, d ≤ u.dist ∨ maxDist ≤ u.dist) →
      (OneLane net a both → Seen net a both target maxDist vis unv ∧ Begun net a both vis unv) →
      Right net a both target s maxDist T (.none unv d) := by
    intro vis unv d hlow hinv hstop ho root r e l d' c' hw hh
    obtain ⟨hv, hb⟩ := hinv ho
    apply Decidable.byContradiction
    intro hlt
    rcases frontier net hs a both target maxDist vis unv ho hv hb root r e l d' hw (by grind) with h | ⟨u, hu, h⟩
    · obtain ⟨_, _, _, _, _, h3, _⟩ := hv (r, e) h
      exact h3 c' hh
    · rcases hstop with h' | h'
      · rw [h'] at hu; exact absurd hu (by simp)
      · rcases hlow u hu with h2 | h2 <;> grind
  intro n
  induction n with
  | zero => intro vis unv d _ _ hlow hinv; exact final vis unv d hlow hinv
  | succ n ih =>
    intro vis unv d hw hn hlow hinv
    simp only [search]
    by_cases hstop : unv = [] ∨ ¬ d < maxDist
    · rw [if_pos hstop]
      exact final vis unv d hlow hinv
    · rw [if_neg hstop]
      have hne : unv ≠ [] := fun h => hstop (Or.inl h)
      have hdm : d < maxDist := by
        apply Decidable.byContradiction
        exact fun h => hstop (Or.inr h)
      obtain ⟨src, hi, hsrc, hmin⟩ := pick unv hne
      simp only [hi]
      have hws := hw src hsrc
      obtain ⟨R, link, hR, hl⟩ := walk_road _ _ _ _ _ _ _ _ hws
      have hds : d ≤ src.dist := by
        rcases hlow src hsrc with h | h
        · exact h
        · grind
      have hn' : Near net src.dist unv := by
        intro u hu R hr
        have := hn u hu R hr
        grind
      -- what the frontier says of any way to the target
      have hbest : OneLane net a both → ∀ root r e l d', Walk net a both root r e l d' → d' < maxDist →
          (r, e) ∉ vis → src.dist ≤ d' := by
        intro ho root r e l d' hw' hd' hnv
        obtain ⟨hv, hb⟩ := hinv ho
        rcases frontier net hs a both target maxDist vis unv ho hv hb root r e l d' hw' hd' with h | ⟨u, hu, h⟩
        · exact absurd h hnv
        · rcases hmin with h2 | h2
          · have := h2 u hu; grind
          · have := h2 u hu; grind
      rcases visit_spec net hs vis unv src target s T hT R link hR hl hn' with
        ⟨c, unv', hh, hvis⟩ | ⟨hno, extra, hvis, hex1, hex2⟩
      · rw [hvis]
        refine ⟨c, hws, hh, rfl, ?_⟩
        intro ho root r e l d' c' hw' hh' hd'
        apply hbest ho root r e l d' hw' hd'
        intro hmem
        obtain ⟨hv, _⟩ := hinv ho
        obtain ⟨_, _, _, _, _, h3, _⟩ := hv (r, e) hmem
        exact h3 c' hh'
      · rw [hvis]
        simp only
        have hilt : minIdx 0 large 0 unv < unv.length := by
          have := List.getElem?_eq_some_iff.mp hi
          exact this.1
        rw [List.eraseIdx_append_of_lt_length hilt]
        have hsub : ∀ u ∈ unv.eraseIdx (minIdx 0 large 0 unv), u ∈ unv := fun u hu => List.mem_of_mem_eraseIdx hu
        have hkeep : ∀ u ∈ unv, u = src ∨ u ∈ unv.eraseIdx (minIdx 0 large 0 unv) ++ extra := by
          intro u hu
          rcases erase_mem unv _ src u hi hu with h | h
          · exact Or.inl h
          · exact Or.inr (List.mem_append_left _ h)
        apply ih
        · intro u hu
          rcases List.mem_append.mp hu with h | h
          · exact hw u (hsub u h)
          · obtain ⟨next, c, R', hh, hR', rfl, h1, h2⟩ := hex1 u h
            have hst := Walk.step _ _ _ _ _ _ _ _ hws hh h1 hR' h2
            rw [← across_eq] at hst
            exact hst
        · apply near_append
          · intro u hu
            exact hn' u (hsub u hu)
          · refine near_new net src extra ?_
            intro u hu
            obtain ⟨next, c, R', _, hR', h1, _⟩ := hex1 u hu
            exact ⟨next, other c, R', hR', h1⟩
        · intro u hu
          rcases List.mem_append.mp hu with h | h
          · rcases hmin with h2 | h2
            · exact Or.inl (h2 u (hsub u h))
            · right
              have := h2 u (hsub u h)
              grind
          · obtain ⟨next, c, R', _, hR', rfl, _⟩ := hex1 u h
            left
            have := hs.len next R' hR'
            simp only [newNode]
            grind
        · intro ho
          obtain ⟨hv, hb⟩ := hinv ho
          constructor
          · intro x hx
            have hold : ∀ x ∈ vis, ∃ root l dv, Walk net a both root x.1 x.2 l dv ∧
                (∀ root' l' d', Walk net a both root' x.1 x.2 l' d' → d' < maxDist → dv ≤ d') ∧
                (∀ c, ¬ Hop net x.1 x.2 target c) ∧
                (∀ next c R', Hop net x.1 x.2 next c → net.roads next = some R' → net.enter x.1 x.2 l next ≠ 0 →
                  R'.link (other c) ≠ none → (next, other c) ∈ (src.road, src.exit) :: vis ∨
                    ∃ u ∈ unv.eraseIdx (minIdx 0 large 0 unv) ++ extra, u.road = next ∧ u.exit = other c ∧
                      u.dist ≤ dv + R'.len) := by
              intro x hx
              obtain ⟨root, l, dv, w1, w2, w3, w4⟩ := hv x hx
              refine ⟨root, l, dv, w1, w2, w3, ?_⟩
              intro next c R' hh hR' h1 h2
              rcases w4 next c R' hh hR' h1 h2 with h | ⟨u, hu, e1, e2, e3⟩
              · exact Or.inl (List.mem_cons_of_mem _ h)
              · rcases hkeep u hu with h | h
                · left
                  rw [← e1, ← e2, h]
                  simp
                · exact Or.inr ⟨u, h, e1, e2, e3⟩
            rcases List.mem_cons.mp hx with rfl | hx
            · by_cases hmem : (src.road, src.exit) ∈ vis
              · exact hold _ hmem
              · refine ⟨src.root, src.lane, src.dist, hws, ?_, hno, ?_⟩
                · intro root' l' d' hw' hd'
                  exact hbest ho root' _ _ l' d' hw' hd' hmem
                · intro next c R' hh hR' h1 h2
                  rcases hex2 next c R' hh hR' h1 h2 with h | h
                  · exact Or.inl (List.mem_cons_of_mem _ h)
                  · exact Or.inr ⟨_, List.mem_append_right _ h, rfl, rfl, Rat.le_refl⟩
            · exact hold x hx
          · intro e R hr he hl
            rcases hb e R hr he hl with h | ⟨u, hu, e1, e2, e3⟩
            · exact Or.inl (List.mem_cons_of_mem _ h)
            · rcases hkeep u hu with h | h
              · left
                rw [← e1, ← e2, h]
                simp
              · exact Or.inr ⟨u, h, e1, e2, e3⟩

/-! The first nodes -/

/-- Spec: the start lies on its road, and, if both directions are searched, its lane keeps its number up to the
start of the road. -/
structure Placed (net : Net) (a : Start) (both : Bool) (R : Road) : Prop where
  road : net.roads a.road = some R
  s0 : 0 ≤ a.s
  s1 : a.s ≤ R.len
  lane : both = true → R.pred ≠ none → R.succ ≠ none → net.laneAt a.road a.lane a.s 0 = a.lane

theorem firstNode_walk (net : Net) (a : Start) (both : Bool) (R : Road) (hr : net.roads a.road = some R) (e : End)
    (hb : both = true ∨ e = a.facing) (hl : R.link e ≠ none) :
    Walk net a both (firstNode net a R a.lane e).root (firstNode net a R a.lane e).road
      (firstNode net a R a.lane e).exit (firstNode net a R a.lane e).lane (firstNode net a R a.lane e).dist := by
  have := Walk.start (net := net) (a := a) (both := both) e R hr hb hl
  cases e <;> exact this

theorem firstNodes_mem (net : Net) (a : Start) (both : Bool) (R : Road) (h : Placed net a both R) (u : Node) :
    u ∈ firstNodes net a R both ↔ ∃ e, (both = true ∨ e = a.facing) ∧ R.link e ≠ none ∧
      u = firstNode net a R a.lane e := by
  unfold firstNodes
  cases both with
  | false =>
    simp only [Bool.false_eq_true, if_false, false_or]
    have hf : (if a.fwd then End.finish else End.start) = a.facing := rfl
    rw [hf]
    by_cases hl : R.link a.facing = none
    · rw [if_pos hl]
      constructor
      · intro h; exact absurd h (by simp)
      · rintro ⟨e, rfl, h1, _⟩; exact absurd hl h1
    · rw [if_neg hl]
      simp only [List.mem_singleton]
      constructor
      · intro h; exact ⟨_, rfl, hl, h⟩
      · rintro ⟨e, rfl, _, h2⟩; exact h2
  | true =>
    simp only [if_true, true_or, true_and]
    have l1 : R.link .start = R.pred := rfl
    have l2 : R.link .finish = R.succ := rfl
    have hlane := h.lane rfl
    have first : (firstNode net a R a.lane .start).lane = net.laneAt a.road a.lane a.s 0 := rfl
    cases hp : R.pred with
    | none =>
      cases hq : R.succ with
      | none =>
        simp only
        constructor
        · intro h; exact absurd h (by simp)
        · rintro ⟨e, h1, _⟩; cases e <;> simp [l1, l2, hp, hq] at h1
      | some y =>
        simp only [List.mem_singleton]
        constructor
        · intro h; exact ⟨.finish, by simp [l2, hq], h⟩
        · rintro ⟨e, h1, h2⟩
          cases e
          · simp [l1, hp] at h1
          · exact h2
    | some x =>
      cases hq : R.succ with
      | none =>
        simp only [List.mem_singleton]
        constructor
        · intro h; exact ⟨.start, by simp [l1, hp], h⟩
        · rintro ⟨e, h1, h2⟩
          cases e
          · exact h2
          · simp [l2, hq] at h1
      | some y =>
        simp only
        rw [first, hlane (by simp [hp]) (by simp [hq])]
        simp only [List.mem_cons, List.not_mem_nil, or_false]
        constructor
        · rintro (h | h)
          · exact ⟨.start, by simp [l1, hp], h⟩
          · exact ⟨.finish, by simp [l2, hq], h⟩
        · rintro ⟨e, _, h2⟩
          cases e
          · exact Or.inl h2
          · exact Or.inr h2

theorem toEnd_bounds (a : Start) (len : Rat) (h0 : 0 ≤ a.s) (h1 : a.s ≤ len) (e : End) :
    0 ≤ a.toEnd len e ∧ a.toEnd len e ≤ len := by
  cases e <;> simp only [Start.toEnd] <;> constructor <;> grind

/-- The search from the start. -/
theorem search_start (net : Net) (hs : Sane net) (a : Start) (both : Bool) (R : Road) (h : Placed net a both R)
    (target : Nat) (s maxDist : Rat) (T : Road) (hT : net.roads target = some T) (hm : maxDist ≤ large) (n : Nat) :
    Right net a both target s maxDist T (search net target s maxDist n [] (firstNodes net a R both) 0) := by
  have hmem := firstNodes_mem net a both R h
  apply search_right net hs a both target s maxDist T hT hm
  · intro u hu
    obtain ⟨e, h1, h2, rfl⟩ := (hmem u).mp hu
    exact firstNode_walk net a both R h.road e h1 h2
  · intro u hu R' hR'
    obtain ⟨e, h1, h2, rfl⟩ := (hmem u).mp hu
    have e1 : (firstNode net a R a.lane e).road = a.road := rfl
    have e2 : (firstNode net a R a.lane e).dist = a.toEnd R.len e := rfl
    rw [e1, h.road] at hR'
    rw [e2, ← Option.some.inj hR']
    have := (toEnd_bounds a R.len h.s0 h.s1 e).2
    grind
  · intro u hu
    obtain ⟨e, h1, h2, rfl⟩ := (hmem u).mp hu
    exact Or.inl (toEnd_bounds a R.len h.s0 h.s1 e).1
  · intro _
    refine ⟨fun x hx => absurd hx (by simp), ?_⟩
    intro e R' hR' h1 h2
    rw [h.road] at hR'
    have := Option.some.inj hR'
    subst this
    right
    exact ⟨firstNode net a R a.lane e, (hmem _).mpr ⟨e, h1, h2, rfl⟩, rfl, rfl, Rat.le_refl⟩

/-! Distances -/

/-- Spec: the target at `s` on a road can be reached over the distance `d`, first towards the end `root`; the
target road is entered at `c`. -/
def Reachable (net : Net) (a : Start) (both : Bool) (target : Nat) (s : Rat) (root : End) (c : End) (d : Rat) : Prop :=
  ∃ r e l d0 T, Walk net a both root r e l d0 ∧ Hop net r e target c ∧ net.roads target = some T ∧
    d = d0 + (if c = .start then s else T.len - s)

theorem entry_eq (c : End) (len s : Rat) : entry c len s = if c = .start then s else len - s := by
  cases c <;> rfl

theorem ab_dir (a : Start) (root : End) (w : Bool) (d : Rat) (hd : 0 ≤ d) :
    ab (if w then -(direction a root * d) else direction a root * d) = d := by
  have : direction a root = 1 ∨ direction a root = -1 := by
    unfold direction
    cases root <;> simp only <;> split <;> simp
  rcases this with h | h <;> rw [h] <;> cases w <;> simp only [Bool.false_eq_true, if_false, if_true] <;> unfold ab <;>
    split <;> grind

theorem walk_nonneg (net : Net) (hs : Sane net) (a : Start) (both : Bool) (R : Road) (h : Placed net a both R)
    (root : End) (r : Nat) (e : End) (l : Int) (d : Rat) (hw : Walk net a both root r e l d) : 0 ≤ d := by
  induction hw with
  | start R' hr hb hl =>
    rw [h.road] at hr
    rw [← Option.some.inj hr]
    exact (toEnd_bounds a R.len h.s0 h.s1 _).1
  | step r e l d r' c R' hw hh he hr hl ih =>
    have := hs.len r' R' hr
    grind

/-- A distance reported between positions on different roads is the length of a way that exists; it is positive if
that way starts ahead of the vehicle.  It never fails otherwise than by reporting that there is no way. -/
theorem distance_exists (net : Net) (hs : Sane net) (a : Start) (both : Bool) (R : Road) (h : Placed net a both R)
    (target : Nat) (s maxDist : Rat) (T : Road) (hT : net.roads target = some T) (hs0 : 0 ≤ s) (hs1 : s ≤ T.len)
    (hm : maxDist ≤ large) (hne : a.road ≠ target) :
    calculate net a target s both maxDist = .no ∨
    ∃ d dir last root c, calculate net a target s both maxDist = .ok d dir (some last) ∧
      Reachable net a both target s root c (ab d) ∧ (dir = 1 ↔ root = a.facing) ∧ (dir = 1 ∨ dir = -1) ∧
      (a.wrong = false → d = dir * ab d) := by
  have hr := search_start net hs a both R h target s maxDist T hT hm 100
  unfold calculate
  simp only [h.road, hT, if_neg hne]
  cases hres : search net target s maxDist 100 [] (firstNodes net a R both) 0 with
  | crash => rw [hres] at hr; exact absurd hr (by simp [Right])
  | fail => rw [hres] at hr; exact absurd hr (by simp [Right])
  | none rest d => left; rfl
  | found d last =>
    right
    rw [hres] at hr
    obtain ⟨c, hw, hh, hd, _⟩ := hr
    have h0 := walk_nonneg net hs a both R h _ _ _ _ _ hw
    have he : 0 ≤ entry c T.len s := by cases c <;> simp only [entry] <;> grind
    have hd0 : 0 ≤ d := by rw [hd]; grind
    refine ⟨_, _, last, last.root, c, rfl, ?_, ?_, ?_, ?_⟩
    · rw [ab_dir a last.root a.wrong d hd0]
      exact ⟨_, _, _, _, T, hw, hh, hT, by rw [hd, entry_eq]⟩
    · have h11 : ¬ ((-1 : Rat) = 1) := by decide +kernel
      unfold direction Start.facing
      cases last.root <;> by_cases hf : a.fwd = true <;> simp [hf, h11]
    · unfold direction
      cases last.root <;> by_cases hf : a.fwd = true <;> simp [hf]
    · intro hwr
      rw [ab_dir a last.root a.wrong d hd0, hwr]
      simp

/-- The distance reported is not longer than any way that enters the target road at the same end, provided the lane
reached at the end of a road does not depend on the way. -/
theorem distance_shortest_partial (net : Net) (hs : Sane net) (a : Start) (both : Bool) (R : Road)
    (h : Placed net a both R) (ho : OneLane net a both) (target : Nat) (s maxDist : Rat) (T : Road)
    (hT : net.roads target = some T) (hs0 : 0 ≤ s) (hs1 : s ≤ T.len) (hm : maxDist ≤ large) (hne : a.road ≠ target)
    (d dir : Rat) (last : Option Node) (hc : calculate net a target s both maxDist = .ok d dir last)
    (hd : ab d < maxDist) :
    ∃ root c, Reachable net a both target s root c (ab d) ∧
      (∀ root' d', Reachable net a both target s root' c d' → ab d ≤ d') ∧
      ∀ root' c' d', Reachable net a both target s root' c' d' → ab d ≤ d' + T.len := by
  have hr := search_start net hs a both R h target s maxDist T hT hm 100
  unfold calculate at hc
  simp only [h.road, hT, if_neg hne] at hc
  cases hres : search net target s maxDist 100 [] (firstNodes net a R both) 0 with
  | crash => rw [hres] at hc; simp [conclude] at hc
  | fail => rw [hres] at hc; simp [conclude] at hc
  | none rest d => rw [hres] at hc; simp [conclude] at hc
  | found d0 last0 =>
    rw [hres] at hr hc
    obtain ⟨c, hw, hh, hd0, hbest⟩ := hr
    have h0 := walk_nonneg net hs a both R h _ _ _ _ _ hw
    have he : 0 ≤ entry c T.len s ∧ entry c T.len s ≤ T.len := by cases c <;> simp only [entry] <;> constructor <;> grind
    have hnn : 0 ≤ d0 := by rw [hd0]; grind
    simp only [conclude, Ans.ok.injEq] at hc
    obtain ⟨hc1, _, _⟩ := hc
    have hab : ab d = d0 := by rw [← hc1]; exact ab_dir a last0.root a.wrong d0 hnn
    rw [hab] at hd ⊢
    refine ⟨last0.root, c, ⟨_, _, _, _, T, hw, hh, hT, by rw [hd0, entry_eq]⟩, ?_, ?_⟩
    · rintro root' d' ⟨r, e, l, d1, T', hw', hh', hT', hd'⟩
      rw [hT] at hT'
      have := Option.some.inj hT'
      subst this
      rw [← entry_eq] at hd'
      by_cases hlt : d1 < maxDist
      · have := hbest ho _ _ _ _ _ _ hw' hh' hlt
        grind
      · grind
    · rintro root' c' d' ⟨r, e, l, d1, T', hw', hh', hT', hd'⟩
      rw [hT] at hT'
      have := Option.some.inj hT'
      subst this
      rw [← entry_eq] at hd'
      have he' : 0 ≤ entry c' T.len s := by cases c' <;> simp only [entry] <;> grind
      by_cases hlt : d1 < maxDist
      · have := hbest ho _ _ _ _ _ _ hw' hh' hlt
        grind
      · grind

/-- If no way is reported, there is none shorter than the maximum, unless the search was stopped by the limit of 100
rounds (`rest` are the nodes left, `tmp` is the distance of the last one). -/
theorem no_distance_partial (net : Net) (hs : Sane net) (a : Start) (both : Bool) (R : Road) (h : Placed net a both R)
    (ho : OneLane net a both) (target : Nat) (s maxDist : Rat) (T : Road) (hT : net.roads target = some T)
    (hs0 : 0 ≤ s) (hs1 : s ≤ T.len) (hm : maxDist ≤ large) (hne : a.road ≠ target) (rest : List Node) (tmp : Rat)
    (hres : search net target s maxDist 100 [] (firstNodes net a R both) 0 = .none rest tmp)
    (hstop : rest = [] ∨ maxDist ≤ tmp) :
    calculate net a target s both maxDist = .no ∧
      ∀ root c d, Reachable net a both target s root c d → maxDist ≤ d := by
  have hr := search_start net hs a both R h target s maxDist T hT hm 100
  rw [hres] at hr
  constructor
  · unfold calculate
    simp only [h.road, hT, if_neg hne, hres]
    rfl
  · rintro root c d ⟨r, e, l, d1, T', hw', hh', hT', hd'⟩
    rw [hT] at hT'
    have := Option.some.inj hT'
    subst this
    rw [← entry_eq] at hd'
    have he : 0 ≤ entry c T.len s := by cases c <;> simp only [entry] <;> grind
    have := hr hstop ho _ _ _ _ _ _ hw' hh'
    grind

/-- On the same road the distance is the difference in s, positive ahead of the vehicle. -/
theorem distance_same_road (net : Net) (a : Start) (both : Bool) (R : Road) (hr : net.roads a.road = some R)
    (s maxDist : Rat) :
    calculate net a a.road s both maxDist = .ok (if a.fwd then s - a.s else a.s - s) 0 none := by
  unfold calculate
  simp only [hr, if_true]
  congr 1
  unfold sameRoad
  by_cases hf : a.fwd = true
  · simp only [hf, if_true]
    split <;> grind
  · simp only [hf]
    split <;> simp only [Bool.false_eq_true, if_false] <;> grind

/-! Differences between positions -/

/-- Spec: the heading of the vehicle, carried along a way that starts at the end `root` and enters the target road at
`c`, points along the target road. -/
def headingUp (a : Start) (root c : End) : Bool :=
  if root = a.facing then decide (c = .start) else decide (c = .finish)

/-- Whether the vehicles head the same way is right if the last road before the target is left at the same end as the
target road is entered, and wrong otherwise: in particular for any two roads that run one after the other. -/
theorem direction_right_iff (net : Net) (hs : Sane net) (a : Start) (both : Bool) (R : Road) (h : Placed net a both R)
    (target : Nat) (s maxDist : Rat) (T : Road) (hT : net.roads target = some T) (hm : maxDist ≤ large)
    (hne : a.road ≠ target) (tA tB : Rat) (laneB : Int) (bFwd : Bool) (x : Diff)
    (hx : delta net a tA target s laneB tB bFwd both maxDist = some x) :
    ∃ root r e l d c, Walk net a both root r e l d ∧ Hop net r e target c ∧
      x.same = if e = c then headingUp a root c == bFwd else !(headingUp a root c == bFwd) := by
  have hr := search_start net hs a both R h target s maxDist T hT hm 100
  unfold delta calculate at hx
  simp only [h.road, hT, if_neg hne] at hx
  cases hres : search net target s maxDist 100 [] (firstNodes net a R both) 0 with
  | crash => rw [hres] at hx; simp [conclude] at hx
  | fail => rw [hres] at hx; simp [conclude] at hx
  | none rest d => rw [hres] at hx; simp [conclude] at hx
  | found d0 last =>
    rw [hres] at hr hx
    obtain ⟨c, hw, hh, _, _⟩ := hr
    simp only [conclude] at hx
    generalize (if a.wrong = true then -(direction a last.root * d0) else direction a last.root * d0) = v at hx
    split at hx
    · have hx' := Option.some.inj hx
      refine ⟨last.root, last.road, last.exit, last.lane, last.dist, c, hw, hh, ?_⟩
      rw [← hx']
      simp only [sameDirection]
      have hroot : both = true ∨ last.root = a.facing := by
        have hgen : ∀ rt r e l d, Walk net a both rt r e l d → both = true ∨ rt = a.facing := by
          intro rt r e l d hw
          induction hw with
          | start R' hr hb hl => exact hb
          | step r e l d r' c R' hw hh he hr hl ih => exact ih
        exact hgen _ _ _ _ _ hw
      have h11 : ¬ ((1 : Rat) = -1) := by decide +kernel
      generalize hroot' : last.root = rt at *
      generalize last.exit = ex at *
      have hdir : (direction a rt = -1) ↔ ¬ rt = a.facing := by
        unfold direction Start.facing
        cases rt <;> by_cases hf : a.fwd = true <;> simp [hf, h11]
      by_cases hf : rt = a.facing
      · have hd : ¬ direction a rt = -1 := fun h' => (hdir.mp h') hf
        rw [if_neg (fun h' => hd h'.2)]
        unfold headingUp
        rw [if_pos hf]
        cases ex <;> cases c <;> cases bFwd <;> decide
      · have hb : both = true := by
          rcases hroot with h' | h'
          · exact h'
          · exact absurd h' hf
        rw [if_pos ⟨hb, hdir.mpr hf⟩]
        unfold headingUp
        rw [if_neg hf]
        cases ex <;> cases c <;> cases bFwd <;> decide
    · exact absurd hx (by simp)

/-- Spec: lanes counted from right to left without the centre lane. -/
def place (lane : Int) : Int := if lane < 0 then lane else lane - 1

/-- The difference of lanes is that of their places, if the lanes keep their numbers along each road. -/
theorem lanes_partial (net : Net) (hs : Sane net) (a : Start) (both : Bool) (R : Road) (h : Placed net a both R)
    (hk : ∀ r l x y, net.laneAt r l x y = l)
    (target : Nat) (s maxDist : Rat) (T : Road) (hT : net.roads target = some T) (hm : maxDist ≤ large)
    (hne : a.road ≠ target) (tA tB : Rat) (laneB : Int) (hB : laneB ≠ 0) (bFwd : Bool) (x : Diff)
    (hx : delta net a tA target s laneB tB bFwd both maxDist = some x) :
    ∃ root r e l d c, Walk net a both root r e l d ∧ Hop net r e target c ∧
      (net.enter r e l target ≠ 0 → x.lanes = place laneB - place (net.enter r e l target) ∧
        (x.opposite = true ↔ (laneB < 0 ↔ 0 < net.enter r e l target)) ∧
        x.dt = if (0 ≤ net.enter r e l target ↔ 0 ≤ a.lane) then tB - tA else tB + tA) := by
  have hr := search_start net hs a both R h target s maxDist T hT hm 100
  unfold delta calculate at hx
  simp only [h.road, hT, if_neg hne] at hx
  cases hres : search net target s maxDist 100 [] (firstNodes net a R both) 0 with
  | crash => rw [hres] at hx; simp [conclude] at hx
  | fail => rw [hres] at hx; simp [conclude] at hx
  | none rest d => rw [hres] at hx; simp [conclude] at hx
  | found d0 last =>
    rw [hres] at hr hx
    obtain ⟨c, hw, hh, _, _⟩ := hr
    simp only [conclude] at hx
    generalize (if a.wrong = true then -(direction a last.root * d0) else direction a last.root * d0) = v at hx
    split at hx
    · have hx' := Option.some.inj hx
      refine ⟨last.root, last.road, last.exit, last.lane, last.dist, c, hw, hh, ?_⟩
      have hadj : adjusted net a target s (some last) = net.enter last.road last.exit last.lane target := by
        unfold adjusted
        cases he : last.exit <;> simp only [he, hk]
      rw [← hx']
      simp only [hadj]
      generalize net.enter last.road last.exit last.lane target = m
      intro hm0
      refine ⟨?_, ?_, ?_⟩
      · unfold laneDiff place sign
        simp only
        by_cases h1 : laneB < 0 <;> by_cases h2 : m < 0 <;> simp only [h1, h2, if_true, if_false]
        · rw [if_neg (by decide)]
        · rw [if_pos (by decide), if_pos (by omega)]; omega
        · rw [if_pos (by decide), if_neg (by omega)]; omega
        · rw [if_neg (by decide)]; omega
      · unfold sign
        simp only [decide_eq_true_eq]
        split <;> split <;> omega
      · unfold latDiff sign
        by_cases h1 : m < 0 <;> by_cases h2 : a.lane < 0
        · rw [if_pos h1, if_pos h2, if_pos rfl, if_pos (by omega)]
        · rw [if_pos h1, if_neg h2, if_neg (by decide), if_neg (by omega)]
        · rw [if_neg h1, if_pos h2, if_neg (by decide), if_neg (by omega)]
        · rw [if_neg h1, if_neg h2, if_pos rfl, if_pos (by omega)]
    · exact absurd hx (by simp)

/-! Examples and counterexamples -/

/-- Networks whose lanes keep their numbers and go on as they are. -/
def plain (roads : Nat → Option Road) (junctions : Nat → Option Junction) : Net :=
  ⟨roads, junctions, fun _ _ l _ => l, fun _ l _ _ => l⟩

/-- Three roads one after the other. -/
def line : Net := plain
  (fun i => if i = 0 then some ⟨10, none, some (.road 1 .start)⟩
    else if i = 1 then some ⟨20, some (.road 0 .finish), some (.road 2 .start)⟩
    else if i = 2 then some ⟨30, some (.road 1 .finish), none⟩ else none)
  (fun _ => none)

theorem line_hop (r r' : Nat) (e c : End) (h : Hop line r e r' c) :
    (r = 0 ∧ e = .finish ∧ r' = 1 ∧ c = .start) ∨ (r = 1 ∧ e = .start ∧ r' = 0 ∧ c = .finish) ∨
    (r = 1 ∧ e = .finish ∧ r' = 2 ∧ c = .start) ∨ (r = 2 ∧ e = .start ∧ r' = 1 ∧ c = .finish) := by
  cases h with
  | road R _ _ hr hl =>
    simp only [line, plain] at hr
    split at hr
    · have := Option.some.inj hr; subst this
      cases e <;> simp [Road.link] at hl; grind
    · split at hr
      · have := Option.some.inj hr; subst this
        cases e <;> simp [Road.link] at hl <;> grind
      · split at hr
        · have := Option.some.inj hr; subst this
          cases e <;> simp [Road.link] at hl; grind
        · simp at hr
  | junction R j J k hr hl hj hk hi => simp [line, plain] at hj

theorem line_sane : Sane line where
  len := by
    intro id R h
    simp only [line, plain] at h
    split at h
    · rw [← Option.some.inj h]; decide +kernel
    · split at h
      · rw [← Option.some.inj h]; decide +kernel
      · split at h
        · rw [← Option.some.inj h]; decide +kernel
        · simp at h
  hop := by
    intro r e r' c h
    rcases line_hop r r' e c h with ⟨_, _, rfl, _⟩ | ⟨_, _, rfl, _⟩ | ⟨_, _, rfl, _⟩ | ⟨_, _, rfl, _⟩ <;>
      exact ⟨_, rfl⟩
  back := by intro j J k R hj; simp [line, plain] at hj
  contact := by
    intro r e e' r' c c' h h'
    have h1 := line_hop r r' e c h
    have h2 := line_hop r r' e' c' h'
    grind
  single := by intro j J hj; simp [line, plain] at hj

/-- From 4 m on the first road. -/
def aLine : Start := ⟨0, 4, -1, true, false⟩

theorem line_placed : ∃ R, Placed line aLine true R :=
  ⟨_, rfl, by decide +kernel, by decide +kernel, fun _ _ _ => rfl⟩

theorem line_oneLane (a : Start) (both : Bool) : OneLane line a both := by
  have key : ∀ root r e l d, Walk line a both root r e l d → l = a.lane := by
    intro root r e l d hw
    induction hw with
    | start R hr hb hl => rfl
    | step r e l d r' c R' hw hh he hr hl ih => cases c <;> exact ih
  intro root root' r e l l' d d' h h'
  rw [key _ _ _ _ _ h, key _ _ _ _ _ h']

/-- To 7 m on the third: 6 + 20 + 7. -/
example : calculate line aLine 2 7 true large = .ok 33 1 (some ⟨1, .finish, 26, -1, .finish⟩) := by decide +kernel

/-- The vehicle turned round: the same way, now behind it. -/
example : calculate line ⟨0, 4, 1, false, false⟩ 2 7 true large = .ok (-33) (-1) (some ⟨1, .finish, 26, 1, .finish⟩) := by
  decide +kernel

/-- Ahead of it there is no way. -/
example : search line 2 7 large 100 [] (firstNodes line ⟨0, 4, 1, false, false⟩ ⟨10, none, some (.road 1 .start)⟩ false) 0 =
    .none [] 0 := by decide +kernel

/-- Two roads joined by a connecting road of a junction. -/
def joined : Net := plain
  (fun i => if i = 0 then some ⟨10, none, some (.junction 7)⟩
    else if i = 1 then some ⟨20, some (.road 0 .finish), some (.road 2 .start)⟩
    else if i = 2 then some ⟨30, some (.junction 7), none⟩ else none)
  (fun j => if j = 7 then some ⟨false, [⟨0, 1, .start⟩, ⟨2, 1, .finish⟩]⟩ else none)

theorem joined_hop (r r' : Nat) (e c : End) (h : Hop joined r e r' c) :
    (r = 0 ∧ e = .finish ∧ r' = 1 ∧ c = .start) ∨ (r = 1 ∧ e = .start ∧ r' = 0 ∧ c = .finish) ∨
    (r = 1 ∧ e = .finish ∧ r' = 2 ∧ c = .start) ∨ (r = 2 ∧ e = .start ∧ r' = 1 ∧ c = .finish) := by
  cases h with
  | road R _ _ hr hl =>
    simp only [joined, plain] at hr
    split at hr
    · have := Option.some.inj hr; subst this
      cases e <;> simp [Road.link] at hl
    · split at hr
      · have := Option.some.inj hr; subst this
        cases e <;> simp [Road.link] at hl <;> grind
      · split at hr
        · have := Option.some.inj hr; subst this
          cases e <;> simp [Road.link] at hl
        · simp at hr
  | junction R j J k hr hl hj hk hi =>
    simp only [joined, plain] at hr hj
    split at hj
    · have := Option.some.inj hj; subst this
      simp only [List.mem_cons, List.not_mem_nil, or_false] at hk
      rcases hk with rfl | rfl
      · simp only at hi
        subst hi
        have := Option.some.inj hr; subst this
        cases e <;> simp [Road.link] at hl
        grind
      · simp only at hi
        subst hi
        have := Option.some.inj hr; subst this
        cases e <;> simp [Road.link] at hl
        grind
    · simp at hj

/-- It is a consistent network. -/
theorem joined_sane : Sane joined where
  len := by
    intro id R h
    simp only [joined, plain] at h
    split at h
    · rw [← Option.some.inj h]; decide +kernel
    · split at h
      · rw [← Option.some.inj h]; decide +kernel
      · split at h
        · rw [← Option.some.inj h]; decide +kernel
        · simp at h
  hop := by
    intro r e r' c h
    rcases joined_hop r r' e c h with ⟨_, _, rfl, _⟩ | ⟨_, _, rfl, _⟩ | ⟨_, _, rfl, _⟩ | ⟨_, _, rfl, _⟩ <;>
      exact ⟨_, rfl⟩
  back := by
    intro j J k R hj hk hR
    simp only [joined, plain] at hj
    split at hj
    · have := Option.some.inj hj; subst this
      simp only [List.mem_cons, List.not_mem_nil, or_false] at hk
      rcases hk with rfl | rfl
      · have := Option.some.inj hR; subst this
        simp [Road.link, linkId, other]
      · have := Option.some.inj hR; subst this
        simp [Road.link, linkId, other]
    · simp at hj
  contact := by
    intro r e e' r' c c' h h'
    have h1 := joined_hop r r' e c h
    have h2 := joined_hop r r' e' c' h'
    grind
  single := by
    intro j J hj
    simp only [joined, plain] at hj
    split at hj
    · have := Option.some.inj hj; subst this
      simp
    · simp at hj

example : calculate joined aLine 2 7 true large = .ok 33 1 (some ⟨1, .finish, 26, -1, .finish⟩) := by decide +kernel

/-- A ring of three roads: from the first one the target road is reached at its start, and over a short road at its
end. -/
def ring : Net := plain
  (fun i => if i = 0 then some ⟨10, some (.road 2 .finish), some (.road 1 .start)⟩
    else if i = 1 then some ⟨100, some (.road 0 .finish), some (.road 2 .start)⟩
    else if i = 2 then some ⟨10, some (.road 1 .finish), some (.road 0 .start)⟩ else none)
  (fun _ => none)

/-- The way found to 95 m on the target road is 100 m, although there is one of 20 m: the search ends as soon as the
target road is reached. -/
theorem shortest_fails :
    calculate ring ⟨0, 5, -1, true, false⟩ 1 95 true large = .ok 100 1 (some ⟨0, .finish, 5, -1, .finish⟩) ∧
    Reachable ring ⟨0, 5, -1, true, false⟩ true 1 95 .start .finish 20 := by
  refine ⟨by decide +kernel, 2, .start, -1, 15, ⟨100, some (.road 0 .finish), some (.road 2 .start)⟩, ?_, ?_, rfl,
    by decide +kernel⟩
  · have h0 : Walk ring ⟨0, 5, -1, true, false⟩ true .start 0 .start (-1) 5 :=
      Walk.start .start ⟨10, some (.road 2 .finish), some (.road 1 .start)⟩ rfl (Or.inl rfl) (by simp [Road.link])
    have h1 := Walk.step _ _ _ _ _ 2 .finish ⟨10, some (.road 1 .finish), some (.road 0 .start)⟩ h0
      (Hop.road _ _ ⟨10, some (.road 2 .finish), some (.road 1 .start)⟩ _ _ rfl rfl) (by decide +kernel) rfl
      (by simp [Road.link, other])
    have : (5 : Rat) + (⟨10, some (.road 1 .finish), some (.road 0 .start)⟩ : Road).len = 15 := by decide +kernel
    rw [this] at h1
    exact h1
  · exact Hop.road _ _ ⟨10, some (.road 1 .finish), some (.road 0 .start)⟩ _ _ rfl rfl

/-- A junction with two connections for the same roads, one for each lane. -/
def double : Net := plain
  (fun i => if i = 0 then some ⟨10, none, some (.junction 7)⟩
    else if i = 1 then some ⟨20, some (.road 0 .finish), none⟩ else none)
  (fun j => if j = 7 then some ⟨false, [⟨0, 1, .start⟩, ⟨0, 1, .start⟩]⟩ else none)

/-- The part on the target road is counted twice: 6 + 8 + 8 instead of 6 + 8. -/
theorem double_connection_fails :
    calculate double aLine 1 8 true large = .ok 22 1 (some ⟨0, .finish, 6, -1, .finish⟩) := by decide +kernel

/-- Roads of 1 m one after the other. -/
def chain : Net := plain
  (fun i => some ⟨1, if i = 0 then none else some (.road (i - 1) .finish), some (.road (i + 1) .start)⟩) (fun _ => none)

/-- A target 100 roads ahead is found, one 101 roads ahead is not: the search is limited to 100 rounds. -/
theorem rounds_fail :
    (match calculate chain ⟨0, 0, -1, true, false⟩ 100 (1 / 2) true large with | .ok d _ _ => some d | _ => none) =
      some (201 / 2) ∧
    calculate chain ⟨0, 0, -1, true, false⟩ 101 (1 / 2) true large = .no := by decide +kernel

/-- A junction with a short and a long way to road 3, on different lanes; only lane -2 of road 3 goes on. -/
def merge : Net where
  roads := fun i => if i = 0 then some ⟨10, none, some (.junction 7)⟩
    else if i = 1 then some ⟨5, some (.road 0 .finish), some (.road 3 .start)⟩
    else if i = 2 then some ⟨40, some (.road 0 .finish), some (.road 3 .start)⟩
    else if i = 3 then some ⟨20, none, some (.road 4 .start)⟩
    else if i = 4 then some ⟨20, some (.road 3 .finish), some (.road 5 .start)⟩
    else if i = 5 then some ⟨20, some (.road 4 .finish), none⟩ else none
  junctions := fun j => if j = 7 then some ⟨false, [⟨0, 1, .start⟩, ⟨0, 2, .start⟩]⟩ else none
  enter := fun r _ l _ => if r = 2 then -2 else if r = 3 then (if l = -2 then -2 else 0) else l
  laneAt := fun _ l _ _ => l

/-- No way is found although there is one: the end of road 3 has been visited on the lane that ends. -/
theorem lanes_merge_fails :
    calculate merge aLine 5 3 true large = .no ∧ Reachable merge aLine true 5 3 .finish .start 89 := by
  refine ⟨by decide +kernel, 4, .finish, -2, 86, ⟨20, some (.road 4 .finish), none⟩, ?_, ?_, rfl, by decide +kernel⟩
  · have h0 : Walk merge aLine true .finish 0 .finish (-1) 6 := by
      have := Walk.start (net := merge) (a := aLine) (both := true) .finish ⟨10, none, some (.junction 7)⟩ rfl (Or.inl rfl)
        (by simp [Road.link])
      have e : aLine.toEnd (⟨10, none, some (.junction 7)⟩ : Road).len .finish = 6 := by decide +kernel
      rw [e] at this
      exact this
    have h1 : Walk merge aLine true .finish 2 .finish (-1) 46 := by
      have := Walk.step _ _ _ _ _ 2 .start ⟨40, some (.road 0 .finish), some (.road 3 .start)⟩ h0
        (Hop.junction _ _ ⟨10, none, some (.junction 7)⟩ 7 ⟨false, [⟨0, 1, .start⟩, ⟨0, 2, .start⟩]⟩ ⟨0, 2, .start⟩ rfl rfl rfl
          (by simp) rfl) (by decide +kernel) rfl (by simp [Road.link, other])
      have e : (6 : Rat) + (⟨40, some (.road 0 .finish), some (.road 3 .start)⟩ : Road).len = 46 := by decide +kernel
      rw [e] at this
      exact this
    have h2 : Walk merge aLine true .finish 3 .finish (-2) 66 := by
      have := Walk.step _ _ _ _ _ 3 .start ⟨20, none, some (.road 4 .start)⟩ h1
        (Hop.road _ _ ⟨40, some (.road 0 .finish), some (.road 3 .start)⟩ _ _ rfl rfl) (by decide +kernel) rfl
        (by simp [Road.link, other])
      have e : (46 : Rat) + (⟨20, none, some (.road 4 .start)⟩ : Road).len = 66 := by decide +kernel
      rw [e] at this
      exact this
    have h3 := Walk.step _ _ _ _ _ 4 .start ⟨20, some (.road 3 .finish), some (.road 5 .start)⟩ h2
      (Hop.road _ _ ⟨20, none, some (.road 4 .start)⟩ _ _ rfl rfl) (by decide +kernel) rfl (by simp [Road.link, other])
    have e : (66 : Rat) + (⟨20, some (.road 3 .finish), some (.road 5 .start)⟩ : Road).len = 86 := by decide +kernel
    rw [e] at h3
    exact h3
  · exact Hop.road _ _ ⟨20, some (.road 3 .finish), some (.road 5 .start)⟩ _ _ rfl rfl

/-- A vehicle that faces against the driving direction of its lane: a target 2 m ahead of it on its road is at +2, one
ahead on the next road at a negative distance. -/
theorem sign_fails :
    calculate line ⟨1, 12, -1, false, true⟩ 1 10 true large = .ok 2 0 none ∧
    calculate line ⟨1, 12, -1, false, true⟩ 0 9 true large = .ok (-13) 1 (some ⟨1, .start, 12, -1, .start⟩) := by
  decide +kernel

/-- Two vehicles that drive one behind the other on consecutive roads are found to head in opposite directions. -/
theorem direction_fails :
    delta line aLine (-2) 1 8 (-1) (-2) true true large = some ⟨14, 0, 0, false, false⟩ := by decide +kernel

/-- A road with a lane more from 10 m on, added next to the centre line. -/
def inner : List Verif.Road.Section :=
  [⟨0, 10, [{ id := 0 }, { id := -1, pred := some (-1), succ := some (-2) }, { id := -2, pred := some (-2), succ := some (-3) }]⟩,
   ⟨10, 10, [{ id := 0 }, { id := -1 }, { id := -2, pred := some (-1) }, { id := -3, pred := some (-2) }]⟩]

/-- The road after a plain one. -/
def widened : Net where
  roads := fun i => if i = 0 then some ⟨10, none, some (.road 1 .start)⟩
    else if i = 1 then some ⟨20, some (.road 0 .finish), none⟩ else none
  junctions := fun _ => none
  enter := fun _ _ l _ => l
  laneAt := fun r l x y => if r = 1 then Verif.Road.connectedLane inner 20 l x y else l

/-- The vehicle behind on lane -1 and the vehicle ahead on the lane that continues it, -2: found to be a lane apart. -/
theorem lanes_fail :
    delta widened aLine (-2) 1 15 (-2) (-5) true true large = some ⟨21, -3, -1, false, false⟩ := by decide +kernel

/-- A road whose lane -1 becomes lane -2 (as before) between two plain ones; the lane of the start at the end of the road
is found from its lane at the start of the road, so that the way ahead ends there. -/
def between : Net where
  roads := fun i => if i = 0 then some ⟨10, none, some (.road 1 .start)⟩
    else if i = 1 then some ⟨20, some (.road 0 .finish), some (.road 2 .start)⟩
    else if i = 2 then some ⟨5, some (.road 1 .finish), some (.road 3 .start)⟩
    else if i = 3 then some ⟨5, some (.road 2 .finish), none⟩ else none
  junctions := fun _ => none
  enter := fun r e l _ => if r = 1 ∧ e = .finish then (if l = -3 then -1 else 0) else l
  laneAt := fun r l x y => if r = 1 then Verif.Road.connectedLane inner 20 l x y else l

theorem start_lane_fails :
    calculate between ⟨1, 15, -3, true, false⟩ 3 3 true large = .no ∧
    calculate between ⟨1, 15, -3, true, false⟩ 3 3 false large = .ok 13 1 (some ⟨2, .finish, 10, -1, .finish⟩) := by
  decide +kernel

end Verif.Path

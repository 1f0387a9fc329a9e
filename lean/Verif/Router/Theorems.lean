import Verif.Router.Model

namespace Verif.Router
open Verif.Common

/-! ## Specification -/

/-- The link at an end of road `cur` leads to road `next`: directly, or by a connection of the junction. -/
def LeadsTo (n : Net) (l : Link) (cur next : Road) : Prop :=
  ∃ id, n.roadById id = some next ∧
    ((l.elem = .road ∧ id = l.elemId) ∨ (l.elem = .junction ∧ (cur.id, id) ∈ (n.junction l.elemId).conns))

/-- One can leave road `k.road` through its end `l` from lane `f`, arriving in lane `t` of `next`: `f` is a driving lane on the
side of `k.lane`. -/
def LaneOk (n : Net) (k : Key) (l : Link) (next : Road) (f t : Int) : Prop :=
  (f, true) ∈ (match l.type with | .succ => k.road.last | .pred => k.road.first) ∧ (f < 0 ↔ k.lane < 0) ∧ f ≠ 0 ∧ t ≠ 0 ∧
    n.connLane k.road l f next.id = t

/-- Going on from `k` to `k'` at the given cost. The journey ends at the target. -/
def Step (n : Net) (st : Strategy) (tgt : Pos) (k k' : Key) (cost : Rat) : Prop :=
  ∃ l, k.link = some l ∧ LeadsTo n l k.road k'.road ∧ LaneOk n k l k'.road k'.fromLane k'.lane ∧
    if k'.road.id = tgt.road ∧ k'.lane = tgt.lane then
      k'.link = none ∧ cost = calcWeight st l (targetPart l tgt k'.road) k'.road
    else k'.link ≠ none ∧ k'.link = nextLink n k.road l k'.road ∧ cost = calcWeight st l k'.road.length k'.road

/-- A route from `k0`, latest element first, and its total cost. -/
inductive Route (n : Net) (st : Strategy) (tgt : Pos) (k0 : Key) (w0 : Rat) : List Key → Rat → Prop
  | start : Route n st tgt k0 w0 [k0] w0
  | step {k p w k' c} : Route n st tgt k0 w0 (k :: p) w → Step n st tgt k k' c → Route n st tgt k0 w0 (k' :: k :: p) (w + c)

/-- The element is at the target. -/
def AtTarget (tgt : Pos) (k : Key) : Prop := k.road.id = tgt.road ∧ k.lane = tgt.lane

/-- What is asked of the priority queue: it returns and removes a node of least weight. -/
structure Queue (pick : Picker) : Prop where
  empty : pick [] = none
  some : ∀ q, q ≠ [] → ∃ v q', pick q = some (v, q') ∧ (v :: q').Perm q ∧ ∀ u, u ∈ q → v.weight ≤ u.weight

/-- The contract of `std::priority_queue`: no node in the queue should come out before the one returned. -/
structure Heap (pick : Picker) : Prop where
  empty : pick [] = none
  some : ∀ q, q ≠ [] → ∃ v q', pick q = some (v, q') ∧ (v :: q').Perm q ∧ ∀ u, u ∈ q → weightCompare v u = false

/-- The comparison of the code gives a queue as asked for. -/
theorem heap_queue {pick : Picker} (h : Heap pick) : Queue pick := by
  refine ⟨h.empty, fun q hq => ?_⟩
  obtain ⟨v, q', h1, h2, h3⟩ := h.some q hq
  refine ⟨v, q', h1, h2, fun u hu => ?_⟩
  have := h3 u hu
  unfold weightCompare at this
  split at this <;> grind

/-- The comparison is a strict weak order, as `std::priority_queue` requires. -/
theorem weightCompare_order : (∀ a, weightCompare a a = false) ∧
    (∀ a b c, weightCompare a b = true → weightCompare b c = true → weightCompare a c = true) ∧
    (∀ a b c, weightCompare a b = false → weightCompare b c = false → weightCompare a c = false) := by
  refine ⟨?_, ?_, ?_⟩
  · intro a; simp [weightCompare]
  · intro a b c h1 h2
    unfold weightCompare at *
    split at h1 <;> split at h2 <;> split <;> grind
  · intro a b c h1 h2
    unfold weightCompare at *
    split at h1 <;> split at h2 <;> split <;> grind

/-- Of two nodes of equal weight, the one with the smaller lane change comes first. -/
theorem weightCompare_tie {a b : Node} (hw : a.weight = b.weight) (h : a.laneShift < b.laneShift) :
    weightCompare a b = false ∧ weightCompare b a = true := by
  simp [weightCompare, hw, h]; omega

/-! ## The successor list is the specification -/

theorem signI_iff (a b : Int) : signI a = signI b ↔ (a < 0 ↔ b < 0) := by
  unfold signI; split <;> split <;> simp_all <;> omega

theorem mem_nextRoads {n : Net} {l : Link} {cur next : Road} : next ∈ nextRoads n l cur ↔ LeadsTo n l cur next := by
  unfold nextRoads LeadsTo
  cases h : l.elem with
  | road =>
    simp only [Option.mem_toList, true_and, reduceCtorEq, false_and, or_false]
    constructor
    · intro h; exact ⟨_, h, rfl⟩
    · rintro ⟨id, h, rfl⟩; exact h
  | junction =>
    simp only [List.mem_filterMap, List.mem_filter, beq_iff_eq, reduceCtorEq, false_and, true_and, false_or]
    constructor
    · rintro ⟨⟨a, b⟩, ⟨h1, h2⟩, h3⟩
      exact ⟨b, h3, h2 ▸ h1⟩
    · rintro ⟨id, h1, h2⟩
      exact ⟨(cur.id, id), ⟨h2, rfl⟩, h1⟩
  | unknown => simp

theorem mem_connectingLanes {n : Net} {k : Key} {l : Link} {next : Road} {p : Int × Int} :
    p ∈ connectingLanes n k l next ↔ LaneOk n k l next p.1 p.2 := by
  obtain ⟨f, t⟩ := p
  unfold connectingLanes LaneOk
  simp only [List.mem_filterMap]
  constructor
  · rintro ⟨⟨a, b⟩, h1, h2⟩
    split at h2
    · rename_i h3
      split at h2
      · rename_i h4
        cases h2
        simp only at h3 h4
        rw [signI_iff] at h3
        rw [h3.1] at h1
        exact ⟨h1, h3.2.1, h3.2.2, h4, rfl⟩
      · cases h2
    · cases h2
  · rintro ⟨h1, h2, h3, h4, h5⟩
    refine ⟨(f, true), h1, ?_⟩
    have hs : signI f = signI k.lane := (signI_iff _ _).2 h2
    subst h5
    simp [hs, h3, h4]

/-- Every step of the specification is taken by the router, with its cost, and no other. -/
theorem mem_nextNodes {n : Net} {st : Strategy} {tgt : Pos} {v u : Node} :
    u ∈ nextNodes n st tgt v ↔ ∃ c, Step n st tgt v.key u.key c ∧ u.weight = v.weight + c ∧ u.prev = v.key :: v.prev := by
  unfold nextNodes Step
  cases hl : v.key.link with
  | none => simp
  | some l =>
    simp only [List.mem_flatMap, List.mem_filterMap, mem_nextRoads, mem_connectingLanes]
    constructor
    · rintro ⟨r, h1, p, h2, h3⟩
      unfold nextNode at h3
      split at h3
      · rename_i ht
        cases h3
        exact ⟨_, ⟨l, rfl, h1, h2, by simp [ht]⟩, rfl, rfl⟩
      · rename_i ht
        split at h3
        · cases h3
        · rename_i nl hnl
          cases h3
          exact ⟨calcWeight st l r.length r, ⟨l, rfl, h1, h2, by simp only [ht, if_false]; exact ⟨by simp, hnl.symm, trivial⟩⟩, rfl, rfl⟩
    · rintro ⟨c, ⟨l', e, h1, h2, h3⟩, hw, hp⟩
      cases e
      refine ⟨u.key.road, h1, (u.key.fromLane, u.key.lane), h2, ?_⟩
      obtain ⟨⟨r, la, fl, lk⟩, w, pr⟩ := u
      unfold nextNode
      split at h3
      · rename_i ht
        simp only at ht h3 hw hp
        simp only [ht, and_self, if_true]
        rw [h3.1, hw, hp, h3.2]
      · rename_i ht
        simp only at ht h3 hw hp
        simp only [ht, if_false, ← h3.2.1]
        cases lk with
        | none => exact absurd rfl h3.1
        | some nl => simp [hw, hp, h3.2.2]

/-! ## Costs are not negative -/

theorem defaultSpeed_pos (t : RType) : 0 < defaultSpeed t := by cases t <;> decide +kernel

theorem typeSpeed_pos (t : RType × Rat) : 0 < typeSpeed t := by
  unfold typeSpeed
  split
  · rename_i h
    have : (0 : Rat) < small := by decide +kernel
    grind
  · exact defaultSpeed_pos t.1

theorem sum_pos (l : List (RType × Rat)) (a : Rat) (ha : 0 ≤ a) :
    a ≤ l.foldl (fun a t => a + typeSpeed t) a ∧ (l ≠ [] → 0 < l.foldl (fun a t => a + typeSpeed t) a) := by
  induction l generalizing a with
  | nil => exact ⟨Rat.le_refl, fun h => absurd rfl h⟩
  | cons x l ih =>
    have hx := typeSpeed_pos x
    have h := ih (a + typeSpeed x) (by grind)
    simp only [List.foldl_cons]
    exact ⟨by grind, fun _ => by grind⟩

/-- The average speed is positive, so dividing by it is defined. -/
theorem avgSpeed_pos (r : Road) : 0 < avgSpeed r := by
  unfold avgSpeed
  split
  · decide +kernel
  · rename_i h
    have h1 := (sum_pos r.types 0 (by decide +kernel)).2 (by intro e; simp [e] at h)
    rw [Rat.div_def]
    apply Rat.mul_pos h1
    rw [Rat.inv_pos]
    have : 0 < r.types.length := by omega
    exact_mod_cast this

theorem calcWeight_nonneg {st : Strategy} {l : Link} {len : Rat} {r : Road} (h : 0 ≤ len) : 0 ≤ calcWeight st l len r := by
  unfold calcWeight
  split
  · exact h
  · split
    · decide +kernel
    · rw [Rat.div_def]
      exact Rat.mul_nonneg h (Rat.le_of_lt (Rat.inv_pos.2 (avgSpeed_pos r)))
  · split <;> decide +kernel

/-- The network data: lengths are not negative, the target lies on its road. -/
structure Sound (n : Net) (tgt : Pos) : Prop where
  length : ∀ r, r ∈ n.roads → 0 ≤ r.length
  target : ∀ r, n.roadById tgt.road = some r → 0 ≤ tgt.s ∧ tgt.s ≤ r.length

theorem roadById_mem {n : Net} {id : Nat} {r : Road} (h : n.roadById id = some r) : r ∈ n.roads ∧ r.id = id :=
  ⟨List.mem_of_find?_eq_some h, by simpa using List.find?_some h⟩

theorem step_cost_nonneg {n : Net} {st : Strategy} {tgt : Pos} {k k' : Key} {c : Rat} (hs : Sound n tgt)
    (h : Step n st tgt k k' c) : 0 ≤ c := by
  obtain ⟨l, _, ⟨id, hid, _⟩, _, h⟩ := h
  have hm := roadById_mem hid
  split at h
  · rename_i ht
    rw [h.2]
    apply calcWeight_nonneg
    have htr : n.roadById tgt.road = some k'.road := by rw [← ht.1, hm.2]; exact hid
    have := hs.target _ htr
    unfold targetPart
    split <;> grind
  · rw [h.2.2]
    exact calcWeight_nonneg (hs.length _ hm.1)

/-! ## The search -/

/-- A key refers to a road of the network. -/
def Known (n : Net) (k : Key) : Prop := n.roadById k.road.id = some k.road

theorem same_iff {n : Net} {a b : Key} (ha : Known n a) (hb : Known n b) : a.same b = true ↔ a = b := by
  unfold Key.same
  constructor
  · intro h
    simp only [Bool.and_eq_true, beq_iff_eq] at h
    have hr : a.road = b.road := by
      have h1 : n.roadById b.road.id = some a.road := by rw [h.1.1.1]; exact ha
      rw [hb] at h1; exact (Option.some.inj h1).symm
    cases a; cases b; simp_all
  · rintro rfl; simp

theorem step_known {n : Net} {st : Strategy} {tgt : Pos} {k k' : Key} {c : Rat} (h : Step n st tgt k k' c) : Known n k' := by
  obtain ⟨l, _, ⟨id, hid, _⟩, _⟩ := h
  have := (roadById_mem hid).2
  unfold Known
  rw [this]; exact hid

/-- The state of the search: queue `q`, visited `vis`. -/
structure Inv (n : Net) (st : Strategy) (tgt : Pos) (k0 : Key) (w0 : Rat) (q vis : List Node) : Prop where
  /-- every node carries a route and its cost -/
  route : ∀ v, v ∈ q ∨ v ∈ vis → Route n st tgt k0 w0 (v.key :: v.prev) v.weight
  /-- every node is on a road of the network -/
  known : ∀ v, v ∈ q ∨ v ∈ vis → Known n v.key
  /-- visited nodes are not dearer than those in the queue -/
  mono : ∀ v u, v ∈ vis → u ∈ q → v.weight ≤ u.weight
  /-- no visited node is at the target -/
  goal : ∀ v, v ∈ vis → ¬AtTarget tgt v.key
  /-- the start is in the queue or visited -/
  start : (∃ v, v ∈ vis ∧ v.key = k0 ∧ v.weight ≤ w0) ∨ ∃ u, u ∈ q ∧ u.key = k0 ∧ u.weight ≤ w0
  /-- every step from a visited node leads to a visited node or one in the queue, not dearer -/
  closed : ∀ v k c, v ∈ vis → Step n st tgt v.key k c →
    (∃ v', v' ∈ vis ∧ v'.key = k ∧ v'.weight ≤ v.weight + c) ∨ ∃ u, u ∈ q ∧ u.key = k ∧ u.weight ≤ v.weight + c

/-- Any route is overtaken: its end has been visited at no higher cost, or the queue holds a node of no higher cost. -/
theorem overtaken {n : Net} {st : Strategy} {tgt : Pos} {k0 : Key} {w0 : Rat} {q vis : List Node} (hs : Sound n tgt)
    (hi : Inv n st tgt k0 w0 q vis) {p : List Key} {w : Rat} (hr : Route n st tgt k0 w0 p w) :
    ∃ k p', p = k :: p' ∧ ((∃ v, v ∈ vis ∧ v.key = k ∧ v.weight ≤ w) ∨ ∃ u, u ∈ q ∧ u.weight ≤ w) := by
  induction hr with
  | start =>
    refine ⟨k0, [], rfl, ?_⟩
    rcases hi.start with h | ⟨u, h1, _, h2⟩
    · exact .inl h
    · exact .inr ⟨u, h1, h2⟩
  | @step k p w k' c hr hstep ih =>
    refine ⟨k', k :: p, rfl, ?_⟩
    have hc := step_cost_nonneg hs hstep
    obtain ⟨k1, p1, e, ih⟩ := ih
    cases e
    rcases ih with ⟨v, hv, hk, hw⟩ | ⟨u, hu, hw⟩
    · subst hk
      rcases hi.closed v k' c hv hstep with ⟨v', h1, h2, h3⟩ | ⟨u, h1, _, h3⟩
      · exact .inl ⟨v', h1, h2, by grind⟩
      · exact .inr ⟨u, h1, by grind⟩
    · exact .inr ⟨u, hu, by grind⟩

theorem inv_skip {n : Net} {st : Strategy} {tgt : Pos} {k0 : Key} {w0 : Rat} {q q' vis : List Node} {v u : Node}
    (hi : Inv n st tgt k0 w0 q vis) (hp : (v :: q').Perm q) (hu : u ∈ vis) (he : u.key = v.key) :
    Inv n st tgt k0 w0 q' vis := by
  have hsub : ∀ x, x ∈ q' → x ∈ q := fun x hx => hp.mem_iff.1 (by simp [hx])
  have hcase : ∀ x, x ∈ q → x = v ∨ x ∈ q' := fun x hx => by simpa using hp.mem_iff.2 hx
  have huv : u.weight ≤ v.weight := hi.mono u v hu (hp.mem_iff.1 (by simp))
  refine ⟨fun x hx => hi.route x (hx.imp_left (hsub x)), fun x hx => hi.known x (hx.imp_left (hsub x)),
    fun a b ha hb => hi.mono a b ha (hsub b hb), hi.goal, ?_, ?_⟩
  · rcases hi.start with h | ⟨x, h1, h2, h3⟩
    · exact .inl h
    · rcases hcase x h1 with e | e
      · subst e; exact .inl ⟨u, hu, he.trans h2, by grind⟩
      · exact .inr ⟨x, e, h2, h3⟩
  · intro a k c ha hst
    rcases hi.closed a k c ha hst with h | ⟨x, h1, h2, h3⟩
    · exact .inl h
    · rcases hcase x h1 with e | e
      · subst e; exact .inl ⟨u, hu, he.trans h2, by grind⟩
      · exact .inr ⟨x, e, h2, h3⟩

theorem inv_visit {n : Net} {st : Strategy} {tgt : Pos} {k0 : Key} {w0 : Rat} {q q' vis : List Node} {v : Node}
    (hs : Sound n tgt) (hi : Inv n st tgt k0 w0 q vis) (hp : (v :: q').Perm q) (hmin : ∀ u, u ∈ q → v.weight ≤ u.weight)
    (hg : ¬AtTarget tgt v.key) : Inv n st tgt k0 w0 (q' ++ nextNodes n st tgt v) (v :: vis) := by
  have hsub : ∀ x, x ∈ q' → x ∈ q := fun x hx => hp.mem_iff.1 (by simp [hx])
  have hcase : ∀ x, x ∈ q → x = v ∨ x ∈ q' := fun x hx => by simpa using hp.mem_iff.2 hx
  have hv : v ∈ q := hp.mem_iff.1 (by simp)
  constructor
  · intro x hx
    simp only [List.mem_append, List.mem_cons] at hx
    rcases hx with (hx | hx) | (rfl | hx)
    · exact hi.route x (.inl (hsub x hx))
    · rw [mem_nextNodes] at hx
      obtain ⟨c, h1, h2, h3⟩ := hx
      rw [h2, h3]
      exact .step (hi.route v (.inl hv)) h1
    · exact hi.route _ (.inl hv)
    · exact hi.route x (.inr hx)
  · intro x hx
    simp only [List.mem_append, List.mem_cons] at hx
    rcases hx with (hx | hx) | (rfl | hx)
    · exact hi.known x (.inl (hsub x hx))
    · rw [mem_nextNodes] at hx
      obtain ⟨c, h1, h2, h3⟩ := hx
      exact step_known h1
    · exact hi.known _ (.inl hv)
    · exact hi.known x (.inr hx)
  · intro a b ha hb
    simp only [List.mem_append, List.mem_cons] at ha hb
    have h1 : a.weight ≤ v.weight := by
      rcases ha with rfl | ha
      · exact Rat.le_refl
      · exact hi.mono a v ha hv
    rcases hb with hb | hb
    · have := hmin b (hsub b hb); grind
    · rw [mem_nextNodes] at hb
      obtain ⟨c, h2, h3, _⟩ := hb
      have := step_cost_nonneg hs h2
      grind
  · intro x hx
    simp only [List.mem_cons] at hx
    rcases hx with rfl | hx
    · exact hg
    · exact hi.goal x hx
  · rcases hi.start with ⟨x, h1, h2⟩ | ⟨x, h1, h2, h3⟩
    · exact .inl ⟨x, by simp [h1], h2⟩
    · rcases hcase x h1 with e | e
      · subst e; exact .inl ⟨x, by simp, h2, h3⟩
      · exact .inr ⟨x, by simp [e], h2, h3⟩
  · intro a k c ha hst
    simp only [List.mem_cons] at ha
    rcases ha with rfl | ha
    · right
      refine ⟨{ key := k, weight := a.weight + c, prev := a.key :: a.prev }, ?_, rfl, Rat.le_refl⟩
      rw [List.mem_append]
      right
      rw [mem_nextNodes]
      exact ⟨c, hst, rfl, rfl⟩
    · rcases hi.closed a k c ha hst with ⟨x, h1, h2⟩ | ⟨x, h1, h2, h3⟩
      · exact .inl ⟨x, by simp [h1], h2⟩
      · rcases hcase x h1 with e | e
        · subst e; exact .inl ⟨x, by simp, h2, h3⟩
        · exact .inr ⟨x, by simp [e], h2, h3⟩

theorem isGoal_iff (tgt : Pos) (k : Key) : isGoal tgt k = true ↔ AtTarget tgt k := by
  simp [isGoal, AtTarget]

/-- What the search returns. -/
theorem findGoal_spec {n : Net} {st : Strategy} {tgt : Pos} {k0 : Key} {w0 : Rat} {pick : Picker} (hq : Queue pick)
    (hs : Sound n tgt) (fuel : Nat) : ∀ (q vis : List Node) (res : Option Node), Inv n st tgt k0 w0 q vis →
    findGoal n st tgt pick fuel q vis = some res →
    match res with
    | none => ∀ k p w, Route n st tgt k0 w0 (k :: p) w → ¬AtTarget tgt k
    | some v => AtTarget tgt v.key ∧ Route n st tgt k0 w0 (v.key :: v.prev) v.weight ∧
        ∀ k p w, Route n st tgt k0 w0 (k :: p) w → AtTarget tgt k → v.weight ≤ w := by
  induction fuel with
  | zero => intro q vis res _ h; simp [findGoal] at h
  | succ fuel ih =>
    intro q vis res hi h
    unfold findGoal at h
    by_cases hqe : q = []
    · subst hqe
      rw [hq.empty] at h
      simp only [Option.some.injEq] at h
      subst h
      intro k p w hr hg
      obtain ⟨k', p', e, h⟩ := overtaken hs hi hr
      cases e
      rcases h with ⟨v, h1, h2, _⟩ | ⟨u, h1, _⟩
      · exact hi.goal v h1 (h2 ▸ hg)
      · simp at h1
    · obtain ⟨v, q', hpk, hperm, hmin⟩ := hq.some q hqe
      have hv : v ∈ q := hperm.mem_iff.1 (by simp)
      rw [hpk] at h
      simp only at h
      split at h
      · rename_i hany
        rw [List.any_eq_true] at hany
        obtain ⟨u, hu, hsame⟩ := hany
        rw [same_iff (hi.known u (.inr hu)) (hi.known v (.inl hv))] at hsame
        exact ih q' vis res (inv_skip hi hperm hu hsame) h
      · split at h
        · rename_i hg
          rw [isGoal_iff] at hg
          simp only [Option.some.injEq] at h
          subst h
          refine ⟨hg, hi.route v (.inl hv), ?_⟩
          intro k p w hr hk
          obtain ⟨k', p', e, h⟩ := overtaken hs hi hr
          cases e
          rcases h with ⟨x, h1, h2, _⟩ | ⟨u, h1, h2⟩
          · exact absurd (h2 ▸ hk) (hi.goal x h1)
          · have := hmin u h1; grind
        · rename_i hg
          have hg' : ¬AtTarget tgt v.key := by rw [← isGoal_iff]; simpa using hg
          exact ih _ _ res (inv_visit hs hi hperm hmin hg') h

/-! ## The search ends -/

/-- The node at `k` with nothing before it. -/
def bare (k : Key) : Node := ⟨k, 0, []⟩

theorem nextNodes_bare (n : Net) (st : Strategy) (tgt : Pos) (v : Node) :
    nextNodes n st tgt v = (nextNodes n st tgt (bare v.key)).map fun u => ⟨u.key, v.weight + u.weight, v.key :: v.prev⟩ := by
  have h1 : ∀ link r p, nextNode n st tgt v link r p =
      (nextNode n st tgt (bare v.key) link r p).map fun u => ⟨u.key, v.weight + u.weight, v.key :: v.prev⟩ := by
    intro link r p
    unfold nextNode bare
    split
    · simp [Rat.zero_add]
    · cases nextLink n v.key.road link r <;> simp [Rat.zero_add]
  unfold nextNodes
  have e : (bare v.key).key = v.key := rfl
  rw [e]
  cases v.key.link with
  | none => rfl
  | some l =>
    simp only [List.map_flatMap, List.map_filterMap]
    simp only [h1]

/-- Number of steps that leave `k`. -/
def out (n : Net) (st : Strategy) (tgt : Pos) (k : Key) : Nat := (nextNodes n st tgt (bare k)).length

theorem nextNodes_length (n : Net) (st : Strategy) (tgt : Pos) (v : Node) : (nextNodes n st tgt v).length = out n st tgt v.key := by
  rw [nextNodes_bare]; simp [out]

/-- The steps that leave the elements of `K` not visited yet. -/
def todo (n : Net) (st : Strategy) (tgt : Pos) (K : List Key) (vis : List Node) : Nat :=
  ((K.filter fun k => !(vis.any fun u => u.key.same k)).map (out n st tgt)).sum

theorem sum_filter_le (f : Key → Nat) (P : Key → Bool) (L : List Key) : ((L.filter P).map f).sum ≤ (L.map f).sum := by
  induction L with
  | nil => simp
  | cons x L ih =>
    rw [List.filter_cons]
    split <;> simp <;> omega

theorem sum_filter_lt (f : Key → Nat) (P : Key → Bool) (L : List Key) {k : Key} (hk : k ∈ L) (hP : P k = false) :
    f k + ((L.filter P).map f).sum ≤ (L.map f).sum := by
  induction L with
  | nil => simp at hk
  | cons x L ih =>
    rw [List.filter_cons]
    rcases List.mem_cons.1 hk with rfl | h
    · rw [hP]
      have := sum_filter_le f P L
      simp; omega
    · have := ih h
      split <;> simp <;> omega

theorem same_refl (k : Key) : k.same k = true := by simp [Key.same]

theorem todo_visit (n : Net) (st : Strategy) (tgt : Pos) (K : List Key) (vis : List Node) (v : Node) (hv : v.key ∈ K)
    (hn : vis.any (fun u => u.key.same v.key) = false) :
    out n st tgt v.key + todo n st tgt K (v :: vis) ≤ todo n st tgt K vis := by
  unfold todo
  have h1 : (K.filter fun k => !((v :: vis).any fun u => u.key.same k)) =
      (K.filter fun k => !(vis.any fun u => u.key.same k)).filter fun k => !(v.key.same k) := by
    rw [List.filter_filter]
    apply List.filter_congr
    intro k _
    simp [List.any_cons]
  rw [h1]
  apply sum_filter_lt
  · rw [List.mem_filter]
    exact ⟨hv, by simp [hn]⟩
  · simp [same_refl]

/-- The search ends if all elements in the queue belong to a finite collection that no step leaves. -/
theorem findGoal_ends {n : Net} {st : Strategy} {tgt : Pos} {pick : Picker} (hq : Queue pick) (K : List Key)
    (hK : ∀ k k' c, k ∈ K → Step n st tgt k k' c → k' ∈ K) (fuel : Nat) : ∀ (q vis : List Node), (∀ v, v ∈ q → v.key ∈ K) →
    q.length + todo n st tgt K vis < fuel → findGoal n st tgt pick fuel q vis ≠ none := by
  induction fuel with
  | zero => intro q vis _ h; omega
  | succ fuel ih =>
    intro q vis hin hlt
    unfold findGoal
    by_cases hqe : q = []
    · subst hqe; rw [hq.empty]; simp
    · obtain ⟨v, q', hpk, hperm, _⟩ := hq.some q hqe
      have hlen : q.length = q'.length + 1 := by simpa using hperm.length_eq.symm
      have hv : v ∈ q := hperm.mem_iff.1 (by simp)
      have hsub : ∀ x, x ∈ q' → x ∈ q := fun x hx => hperm.mem_iff.1 (by simp [hx])
      rw [hpk]
      simp only
      split
      · exact ih q' vis (fun x hx => hin x (hsub x hx)) (by omega)
      · rename_i hany
        split
        · simp
        · apply ih
          · intro x hx
            rw [List.mem_append] at hx
            rcases hx with hx | hx
            · exact hin x (hsub x hx)
            · rw [mem_nextNodes] at hx
              obtain ⟨c, h1, _⟩ := hx
              exact hK _ _ c (hin v hv) h1
          · have := todo_visit n st tgt K vis v (hin v hv) (by simpa using hany)
            rw [List.length_append, nextNodes_length]
            omega

/-- All elements a search can meet: the start, and what follows a road end in either driving direction. -/
def reachables (n : Net) (st : Strategy) (tgt : Pos) (k0 : Key) : List Key :=
  k0 :: n.roads.flatMap fun r => [r.succ, r.pred].flatMap fun l => [(1 : Int), -1].flatMap fun s =>
    (nextNodes n st tgt (bare { road := r, lane := s, fromLane := 0, link := l })).map (·.key)

/-- The link of an element is a link of its road. -/
def LinkOf (k : Key) : Prop := k.link = none ∨ k.link = k.road.succ ∨ k.link = k.road.pred

theorem nextLink_of (n : Net) (cur : Road) (l : Link) (next : Road) :
    nextLink n cur l next = none ∨ nextLink n cur l next = next.succ ∨ nextLink n cur l next = next.pred := by
  unfold nextLink
  cases l.elem with
  | road => simp only; split <;> simp
  | junction =>
    simp only
    generalize (if (n.junction l.elemId).direct = true then l.elemId else cur.id) = e
    split
    · simp
    · split <;> simp
  | unknown => simp

theorem step_linkOf {n : Net} {st : Strategy} {tgt : Pos} {k k' : Key} {c : Rat} (h : Step n st tgt k k' c) : LinkOf k' := by
  obtain ⟨l, _, _, _, h⟩ := h
  split at h
  · exact .inl h.1
  · unfold LinkOf
    rw [h.2.1]
    exact nextLink_of ..

theorem step_side {n : Net} {st : Strategy} {tgt : Pos} {k k' : Key} {c : Rat} (h : Step n st tgt k k' c) :
    Step n st tgt { road := k.road, lane := if k.lane < 0 then -1 else 1, fromLane := 0, link := k.link } k' c := by
  obtain ⟨l, h1, h2, h3, h4⟩ := h
  refine ⟨l, h1, h2, ?_, h4⟩
  unfold LaneOk at *
  refine ⟨h3.1, ?_, h3.2.2⟩
  rw [h3.2.1]
  simp only
  split <;> omega

theorem reachables_closed {n : Net} {st : Strategy} {tgt : Pos} {k0 : Key} (h0 : Known n k0 ∧ LinkOf k0) {k k' : Key} {c : Rat}
    (hk : k ∈ reachables n st tgt k0) (hst : Step n st tgt k k' c) : k' ∈ reachables n st tgt k0 := by
  have hgood : Known n k ∧ LinkOf k := by
    unfold reachables at hk
    simp only [List.mem_cons, List.mem_flatMap, List.mem_map] at hk
    rcases hk with rfl | ⟨r, _, l, _, s, _, u, hu, rfl⟩
    · exact h0
    · rw [mem_nextNodes] at hu
      obtain ⟨c, h1, _⟩ := hu
      exact ⟨step_known h1, step_linkOf h1⟩
  unfold reachables
  simp only [List.mem_cons, List.mem_flatMap, List.mem_map]
  right
  have hl : k.link ≠ none := by
    obtain ⟨l, h, _⟩ := hst
    rw [h]; simp
  refine ⟨k.road, (roadById_mem hgood.1).1, k.link, ?_, if k.lane < 0 then -1 else 1, ?_,
    { key := k', weight := 0 + c, prev := [{ road := k.road, lane := if k.lane < 0 then -1 else 1, fromLane := 0, link := k.link }] }, ?_, rfl⟩
  · rcases hgood.2 with h | h | h
    · exact absurd h hl
    · simp [h]
    · simp [h]
  · split <;> simp
  · rw [mem_nextNodes]
    exact ⟨c, step_side hst, rfl, rfl⟩

/-! ## The result -/

/-- The element at which the router starts. -/
def StartKey (n : Net) (start : Pos) (fwd : Bool) (k0 : Key) : Prop :=
  ∃ r l, n.roadById start.road = some r ∧ (if fwd then r.succ else r.pred) = some l ∧
    k0 = { road := r, lane := start.lane, fromLane := 0, link := some l }

theorem inv_init {n : Net} {st : Strategy} {tgt : Pos} {k0 : Key} {w0 : Rat} (hk : Known n k0) :
    Inv n st tgt k0 w0 [{ key := k0, weight := w0, prev := [] }] [] := by
  refine ⟨?_, ?_, by simp, by simp, ?_, by simp⟩
  · intro v hv; simp at hv; subst hv; exact .start
  · intro v hv; simp at hv; subst hv; exact hk
  · right; exact ⟨{ key := k0, weight := w0, prev := [] }, by simp, rfl, Rat.le_refl⟩

/-- The road lengths of a network are not negative. -/
def Lengths (n : Net) : Prop := ∀ r, r ∈ n.roads → 0 ≤ r.length

theorem validPos_sound {n : Net} {tgt : Pos} (hl : Lengths n) (h : validPos n tgt = true) : Sound n tgt := by
  refine ⟨hl, ?_⟩
  intro r hr
  unfold validPos at h
  rw [hr] at h
  simp only [Bool.and_eq_true, decide_eq_true_eq, not_or] at h
  grind

/-- The situations in which a search is made. -/
structure Searches (n : Net) (start : Pos) (fwd : Bool) (tgt : Pos) (k0 : Key) : Prop where
  source : validPos n start = true
  target : validPos n tgt = true
  key : StartKey n start fwd k0
  differ : ¬(start.road = tgt.road ∧ start.lane = tgt.lane)

theorem calculatePath_eq {n : Net} {st : Strategy} {pick : Picker} {start tgt : Pos} {fwd : Bool} {k0 : Key} (fuel : Nat)
    (h : Searches n start fwd tgt k0) : calculatePath n st pick fuel start fwd tgt =
      (findGoal n st tgt pick fuel [{ key := k0, weight := startWeight st k0.road fwd start.s, prev := [] }] []).map fun
        | none => ([], 0)
        | some v => ((v.key :: v.prev).reverse, v.weight) := by
  obtain ⟨r, l, h1, h2, rfl⟩ := h.key
  have h3 : r.getLink (if fwd then .succ else .pred) = some l := by
    cases fwd <;> simpa [Road.getLink] using h2
  simp only [calculatePath, h.source, h.target, Bool.true_eq_false, if_false, h1, h.differ, h3]
  rfl

theorem startKey_known {n : Net} {start : Pos} {fwd : Bool} {k0 : Key} (h : StartKey n start fwd k0) : Known n k0 ∧ LinkOf k0 := by
  obtain ⟨r, l, h1, h2, rfl⟩ := h
  refine ⟨?_, ?_⟩
  · unfold Known; simp only; rw [(roadById_mem h1).2]; exact h1
  · right
    cases fwd with
    | true => left; simpa using h2.symm
    | false => right; simpa using h2.symm

/-- With the comparison of the code. -/
theorem calculatePath_heap {n : Net} {st : Strategy} {pick : Picker} {fuel : Nat} {start tgt : Pos} {fwd : Bool} {k0 : Key}
    {path : List Key} {w : Rat} (hq : Heap pick) (hl : Lengths n) (hs : Searches n start fwd tgt k0)
    (h : calculatePath n st pick fuel start fwd tgt = some (path, w)) :
    ∀ k p w', Route n st tgt k0 (startWeight st k0.road fwd start.s) (k :: p) w' → AtTarget tgt k → path ≠ [] ∧ w ≤ w' := by
  rw [calculatePath_eq fuel hs] at h
  simp only [Option.map_eq_some_iff] at h
  obtain ⟨res, h1, h2⟩ := h
  have := findGoal_spec (heap_queue hq) (validPos_sound hl hs.target) fuel _ _ res (inv_init (startKey_known hs.key).1) h1
  cases res with
  | none => intro k p w' hr ht; exact absurd ht (this k p w' hr)
  | some v =>
    simp only [Prod.mk.injEq] at h2
    obtain ⟨rfl, rfl⟩ := h2
    intro k p w' hr ht
    exact ⟨by simp, this.2.2 k p w' hr ht⟩

/-- C22: a route that is returned leads from the start to the target step by step, and no route to the target is
cheaper; it is empty only if there is no route. Whatever order the queue uses among equal weights. -/
theorem calculatePath_optimal {n : Net} {st : Strategy} {pick : Picker} {fuel : Nat} {start tgt : Pos} {fwd : Bool} {k0 : Key}
    {path : List Key} {w : Rat} (hq : Queue pick) (hl : Lengths n) (hs : Searches n start fwd tgt k0)
    (h : calculatePath n st pick fuel start fwd tgt = some (path, w)) :
    (path = [] ∧ ∀ k p w', Route n st tgt k0 (startWeight st k0.road fwd start.s) (k :: p) w' → ¬AtTarget tgt k) ∨
    ((∃ k p, path.reverse = k :: p ∧ AtTarget tgt k) ∧
      Route n st tgt k0 (startWeight st k0.road fwd start.s) path.reverse w ∧
      ∀ k p w', Route n st tgt k0 (startWeight st k0.road fwd start.s) (k :: p) w' → AtTarget tgt k → w ≤ w') := by
  rw [calculatePath_eq fuel hs] at h
  simp only [Option.map_eq_some_iff] at h
  obtain ⟨res, h1, h2⟩ := h
  have := findGoal_spec hq (validPos_sound hl hs.target) fuel _ _ res (inv_init (startKey_known hs.key).1) h1
  cases res with
  | none =>
    simp only [Prod.mk.injEq] at h2
    exact .inl ⟨h2.1.symm, this⟩
  | some v =>
    simp only [Prod.mk.injEq] at h2
    obtain ⟨rfl, rfl⟩ := h2
    right
    rw [List.reverse_reverse]
    exact ⟨⟨_, _, rfl, this.1⟩, this.2.1, this.2.2⟩

/-- C22: the search always ends. -/
theorem calculatePath_ends (n : Net) (st : Strategy) (pick : Picker) (start tgt : Pos) (fwd : Bool) (hq : Queue pick) :
    ∃ fuel, calculatePath n st pick fuel start fwd tgt ≠ none := by
  by_cases h : ∃ k0, Searches n start fwd tgt k0
  · obtain ⟨k0, h⟩ := h
    refine ⟨1 + todo n st tgt (reachables n st tgt k0) [] + 1, ?_⟩
    rw [calculatePath_eq _ h]
    have := findGoal_ends (st := st) (tgt := tgt) hq (reachables n st tgt k0)
      (fun k k' c hk hst => reachables_closed (startKey_known h.key) hk hst)
      (1 + todo n st tgt (reachables n st tgt k0) [] + 1)
      [{ key := k0, weight := startWeight st k0.road fwd start.s, prev := [] }] [] (by simp [reachables]) (by simp)
    intro hn
    rw [Option.map_eq_none_iff] at hn
    exact this hn
  · refine ⟨0, ?_⟩
    unfold calculatePath
    split
    · simp
    · split
      · simp
      · rename_i h1 h2
        split
        · simp
        · rename_i r hr
          split
          · simp
          · rename_i hd
            split
            · simp
            · rename_i l hlk
              exfalso
              apply h
              refine ⟨{ road := r, lane := start.lane, fromLane := 0, link := some l }, by simpa using h1, by simpa using h2,
                ⟨r, l, hr, ?_, rfl⟩, hd⟩
              cases fwd <;> simpa [Road.getLink] using hlk

/-- C22: without a search the answer is empty: an invalid position, no link at the end of the road, or start and target on
the same road and lane. -/
theorem calculatePath_empty {n : Net} {st : Strategy} {pick : Picker} {fuel : Nat} {start tgt : Pos} {fwd : Bool}
    (h : ¬∃ k0, Searches n start fwd tgt k0) : calculatePath n st pick fuel start fwd tgt = some ([], 0) := by
  unfold calculatePath
  split
  · rfl
  · split
    · rfl
    · rename_i h1 h2
      split
      · rfl
      · rename_i r hr
        split
        · rfl
        · rename_i hd
          split
          · rfl
          · rename_i l hlk
            exfalso
            apply h
            refine ⟨{ road := r, lane := start.lane, fromLane := 0, link := some l }, by simpa using h1, by simpa using h2,
              ⟨r, l, hr, ?_, rfl⟩, hd⟩
            cases fwd <;> simpa [Road.getLink] using hlk

/-! ## Meaning of the cost -/

/-- The total length of a route by road lengths: the start part, whole roads in between, and on the target road the part up to
the target according to where it is entered. -/
theorem shortest_cost {n : Net} {tgt : Pos} {k k' : Key} {c : Rat} (h : Step n .shortest tgt k k' c) :
    (AtTarget tgt k' → ∃ l, k.link = some l ∧ (l.contact = .start → c = tgt.s) ∧ (l.contact = .stop → c = k'.road.length - tgt.s)) ∧
    (¬AtTarget tgt k' → c = k'.road.length) := by
  obtain ⟨l, h1, _, _, h⟩ := h
  unfold AtTarget
  split at h
  · rename_i ht
    refine ⟨fun _ => ⟨l, h1, ?_, ?_⟩, fun h => absurd ht h⟩
    · intro e; rw [h.2]; simp [calcWeight, targetPart, e]
    · intro e; rw [h.2]; simp [calcWeight, targetPart, e]
  · rename_i ht
    refine ⟨fun h => absurd h ht, fun _ => ?_⟩
    rw [h.2.2]; rfl

/-- The fastest route counts each road with length over average speed. -/
theorem fastest_cost {n : Net} {tgt : Pos} {k k' : Key} {c : Rat} (h : Step n .fastest tgt k k' c) (ht : ¬AtTarget tgt k') :
    c * avgSpeed k'.road = k'.road.length := by
  obtain ⟨l, h1, _, _, h⟩ := h
  have hne : avgSpeed k'.road ≠ 0 := by have := avgSpeed_pos k'.road; grind
  unfold AtTarget at ht
  simp only [ht, if_false] at h
  rw [h.2.2]
  simp only [calcWeight, hne, if_false]
  exact Rat.div_mul_cancel hne

/-- The number of intersections grows by one for each junction entered. -/
theorem minInter_cost {n : Net} {tgt : Pos} {k k' : Key} {c : Rat} (h : Step n .minInter tgt k k' c) :
    ∃ l, k.link = some l ∧ c = if l.elem = .junction then 1 else 0 := by
  obtain ⟨l, h1, _, _, h⟩ := h
  refine ⟨l, h1, ?_⟩
  split at h
  · rw [h.2]; rfl
  · rw [h.2.2]; rfl

/-- The way still to go on the start road, as counted by the shortest route. -/
theorem start_cost_shortest (r : Road) (s : Rat) :
    startWeight .shortest r true s + s = r.length ∧ startWeight .shortest r false s = s := by
  simp only [startWeight, if_true]
  constructor <;> grind

/-- The time still to go on the start road, as counted by the fastest route. -/
theorem start_cost_fastest (r : Road) (s : Rat) :
    startWeight .fastest r true s * avgSpeed r = r.length - s ∧ startWeight .fastest r false s * avgSpeed r = s := by
  have hne : avgSpeed r ≠ 0 := by have := avgSpeed_pos r; grind
  simp only [startWeight, if_true]
  exact ⟨Rat.div_mul_cancel hne, Rat.div_mul_cancel hne⟩

theorem start_cost_minInter (r : Road) (s : Rat) (fwd : Bool) : startWeight .minInter r fwd s = 0 := rfl

/-- A road without type information counts with 70 km/h, one with a single type with the speed of that type. -/
theorem avgSpeed_single (r : Road) : (r.types = [] → avgSpeed r = 19444/1000) ∧
    (∀ t v, r.types = [(t, v)] → t ≠ .other → v > small → avgSpeed r = v) := by
  constructor
  · intro h; simp [avgSpeed, h]
  · intro t v h ht hv
    simp [avgSpeed, h, typeSpeed, ht, hv]
    have : (0 : Rat) + v = v := by grind
    rw [this, Rat.div_def]
    grind

/-- With several types the average times their number is the sum. -/
theorem avgSpeed_mean (r : Road) (h : r.types ≠ []) : avgSpeed r * r.types.length = r.types.foldl (fun a t => a + typeSpeed t) 0 := by
  have : r.types.length ≠ 0 := by simpa using h
  simp only [avgSpeed, this, if_false]
  exact Rat.div_mul_cancel (by simpa using h)

/-- A route does not go on after the target. -/
theorem route_stops {n : Net} {st : Strategy} {tgt : Pos} {k0 : Key} {w0 : Rat} {k : Key} {p : List Key} {w : Rat}
    (h0 : ¬AtTarget tgt k0) (h : Route n st tgt k0 w0 (k :: p) w) (ht : AtTarget tgt k) : k.link = none := by
  cases h with
  | start => exact absurd ht h0
  | step _ hs =>
    obtain ⟨l, _, _, _, h⟩ := hs
    unfold AtTarget at ht
    simp only [ht, and_self, if_true] at h
    exact h.1

theorem step_from {n : Net} {st : Strategy} {tgt : Pos} {k k' : Key} {c : Rat} (h : Step n st tgt k k' c) : k.link ≠ none := by
  obtain ⟨l, h, _⟩ := h
  simp [h]

/-- A route that is not yet at the target costs the start part plus the lengths of all roads entered. -/
theorem shortest_so_far {n : Net} {tgt : Pos} {k0 : Key} {w0 : Rat} {L : List Key} {w : Rat} (h0 : ¬AtTarget tgt k0)
    (h : Route n .shortest tgt k0 w0 L w) (ht : ∀ k p, L = k :: p → ¬AtTarget tgt k) :
    w = w0 + (L.dropLast.map (·.road.length)).sum := by
  induction h with
  | start => simp; grind
  | @step k p w k' c hr hs ih =>
    have hk : ¬AtTarget tgt k := fun hat => step_from hs (route_stops h0 hr hat)
    have e := ih (by intro k2 p2 e; cases e; exact hk)
    have ec := (shortest_cost hs).2 (ht k' _ rfl)
    rw [ec, e, List.dropLast_cons₂, List.map_cons, List.sum_cons]
    grind

/-- The total of a shortest route at the target: start part, the full length of every road in between and the part of the target
road up to the target. -/
theorem shortest_total {n : Net} {tgt : Pos} {k0 : Key} {w0 : Rat} {k' : Key} {p : List Key} {w : Rat} (h0 : ¬AtTarget tgt k0)
    (h : Route n .shortest tgt k0 w0 (k' :: p) w) (ht : AtTarget tgt k') :
    ∃ k l, p.head? = some k ∧ k.link = some l ∧
      (l.contact = .start → w = w0 + (p.dropLast.map (·.road.length)).sum + tgt.s) ∧
      (l.contact = .stop → w = w0 + (p.dropLast.map (·.road.length)).sum + (k'.road.length - tgt.s)) := by
  cases h with
  | start => exact absurd ht h0
  | @step k p w _ c hr hs =>
    have hk : ¬AtTarget tgt k := fun hat => step_from hs (route_stops h0 hr hat)
    have e := shortest_so_far h0 hr (by intro k2 p2 e; cases e; exact hk)
    obtain ⟨l, h1, h2, h3⟩ := (shortest_cost hs).1 ht
    exact ⟨k, l, rfl, h1, fun hc => by rw [h2 hc, e], fun hc => by rw [h3 hc, e]⟩

/-- Going on, a road entered at its start is left at its end and the other way round. -/
theorem leaves_far_end {n : Net} {st : Strategy} {tgt : Pos} {k k' : Key} {c : Rat} {l : Link} (h : Step n st tgt k k' c)
    (ht : ¬AtTarget tgt k') (hl : k.link = some l) (he : l.elem = .road) :
    (l.contact = .start → k'.link = k'.road.succ) ∧ (l.contact = .stop → k'.link = k'.road.pred) := by
  obtain ⟨l', h1, _, _, h⟩ := h
  rw [hl] at h1; cases h1
  unfold AtTarget at ht
  simp only [ht, if_false] at h
  rw [h.2.1]
  constructor <;> intro hc <;> simp [nextLink, he, hc]

/-- The same for a connecting road of a junction, one end of which is linked to the road before. -/
theorem leaves_far_end_junction {n : Net} {st : Strategy} {tgt : Pos} {k k' : Key} {c : Rat} {l : Link} (h : Step n st tgt k k' c)
    (ht : ¬AtTarget tgt k') (hl : k.link = some l) (he : l.elem = .junction) (hd : (n.junction l.elemId).direct = false) :
    ((∃ q, k'.road.pred = some q ∧ q.elemId = k.road.id) → (∀ q, k'.road.succ = some q → q.elemId ≠ k.road.id) →
      k'.link = k'.road.succ) ∧
    ((∃ q, k'.road.succ = some q ∧ q.elemId = k.road.id) → k'.link = k'.road.pred) := by
  obtain ⟨l', h1, _, _, h⟩ := h
  rw [hl] at h1; cases h1
  unfold AtTarget at ht
  simp only [ht, if_false] at h
  rw [h.2.1]
  constructor
  · rintro ⟨q, hq, hi⟩ hn
    have : ¬k'.road.succ.map (·.elemId) = some k.road.id := by
      intro e
      simp only [Option.map_eq_some_iff] at e
      obtain ⟨x, hx, hx2⟩ := e
      exact hn x hx hx2
    simp [nextLink, he, hd, this, hq, hi]
  · rintro ⟨q, hq, hi⟩
    simp [nextLink, he, hd, hq, hi]

/-- And for a direct junction, when the other end of the road entered does not carry the number of the junction. -/
theorem leaves_far_end_direct {n : Net} {st : Strategy} {tgt : Pos} {k k' : Key} {c : Rat} {l : Link} (h : Step n st tgt k k' c)
    (ht : ¬AtTarget tgt k') (hl : k.link = some l) (he : l.elem = .junction) (hd : (n.junction l.elemId).direct = true) :
    ((∃ q, k'.road.pred = some q ∧ q.elemId = l.elemId) → (∀ q, k'.road.succ = some q → q.elemId ≠ l.elemId) →
      k'.link = k'.road.succ) ∧
    ((∃ q, k'.road.succ = some q ∧ q.elemId = l.elemId) → k'.link = k'.road.pred) := by
  obtain ⟨l', h1, _, _, h⟩ := h
  rw [hl] at h1; cases h1
  unfold AtTarget at ht
  simp only [ht, if_false] at h
  rw [h.2.1]
  constructor
  · rintro ⟨q, hq, hi⟩ hn
    have : ¬k'.road.succ.map (·.elemId) = some l.elemId := by
      intro e
      simp only [Option.map_eq_some_iff] at e
      obtain ⟨x, hx, hx2⟩ := e
      exact hn x hx hx2
    simp [nextLink, he, hd, this, hq, hi]
  · rintro ⟨q, hq, hi⟩
    simp [nextLink, he, hd, hq, hi]

/-- The numbers of junctions and roads are compared without regard to which of the two they name: a road entered from the direct
junction 7 at its start and followed by road 7 is left backwards, through the junction again. -/
theorem direct_junction_fails : ∃ (n : Net) (cur next : Road) (l : Link), l.elem = .junction ∧ (n.junction l.elemId).direct = true ∧
    next.pred = some ⟨.pred, .junction, l.elemId, .undefined⟩ ∧ next.succ = some ⟨.succ, .road, 7, .start⟩ ∧
    nextLink n cur l next = next.pred :=
  ⟨⟨[], fun _ => ⟨true, []⟩, fun _ _ _ _ => 0, fun _ _ _ => true⟩, ⟨1, 100, none, none, [], [], []⟩,
    ⟨2, 100, some ⟨.succ, .road, 7, .start⟩, some ⟨.pred, .junction, 7, .undefined⟩, [], [], []⟩,
    ⟨.succ, .junction, 7, .undefined⟩, rfl, rfl, rfl, rfl, by decide⟩

/-- C22 fails in one respect: when the target road is entered directly from a junction (whose links have no contact point), the way
driven on it is not counted, wherever the target is. -/
theorem target_after_junction_fails {n : Net} {tgt : Pos} {k k' : Key} {c : Rat} (h : Step n .shortest tgt k k' c)
    (ht : AtTarget tgt k') (hc : ∀ l, k.link = some l → l.contact = .undefined) : c = 0 := by
  obtain ⟨l, h1, _, _, h⟩ := h
  unfold AtTarget at ht
  simp only [ht, and_self, if_true] at h
  rw [h.2]
  simp [calcWeight, targetPart, hc l h1]

/-! ## A queue and a concrete network -/

/-- A queue that returns the first node of least weight. -/
def pickMin : Picker
  | [] => none
  | v :: q => match pickMin q with
    | none => some (v, q)
    | some (u, q') => if u.weight < v.weight then some (u, v :: q') else some (v, q)

theorem pickMin_none {q : List Node} (h : pickMin q = none) : q = [] := by
  cases q with
  | nil => rfl
  | cons v q =>
    unfold pickMin at h
    split at h
    · cases h
    · split at h <;> cases h

theorem pickMin_queue : Queue pickMin := by
  refine ⟨rfl, ?_⟩
  intro q
  induction q with
  | nil => intro h; exact absurd rfl h
  | cons v q ih =>
    intro _
    unfold pickMin
    split
    · rename_i h
      have := pickMin_none h
      subst this
      exact ⟨v, [], rfl, List.Perm.refl _, by simp⟩
    · rename_i u q' h
      have hne : q ≠ [] := by rintro rfl; simp [pickMin] at h
      obtain ⟨u2, q2, h1, h2, h3⟩ := ih hne
      rw [h] at h1
      cases h1
      split
      · rename_i hlt
        refine ⟨u, v :: q', rfl, (List.Perm.swap ..).trans (h2.cons v), ?_⟩
        intro x hx
        rcases List.mem_cons.1 hx with rfl | hx
        · grind
        · exact h3 x hx
      · rename_i hlt
        refine ⟨v, q, rfl, List.Perm.refl _, ?_⟩
        intro x hx
        rcases List.mem_cons.1 hx with rfl | hx
        · exact Rat.le_refl
        · have := h3 x hx; grind

def laneSec : List (Int × Bool) := [(-1, true)]

/-- Road 1 forks by a junction into roads 2 (300 m) and 3 (200 m), which both lead to road 4. -/
def fork : Net :=
  { roads := [⟨1, 100, some ⟨.succ, .junction, 9, .undefined⟩, none, laneSec, laneSec, []⟩,
              ⟨2, 300, some ⟨.succ, .road, 4, .start⟩, some ⟨.pred, .road, 1, .stop⟩, laneSec, laneSec, []⟩,
              ⟨3, 200, some ⟨.succ, .road, 4, .start⟩, some ⟨.pred, .road, 1, .stop⟩, laneSec, laneSec, []⟩,
              ⟨4, 50, none, none, laneSec, laneSec, []⟩],
    junction := fun _ => ⟨false, [(1, 2), (1, 3)]⟩,
    connLane := fun _ _ l _ => l, drivable := fun _ _ l => l == -1 }

example : (calculatePath fork .shortest pickMin 20 ⟨1, -1, 40⟩ true ⟨4, -1, 10⟩).map (fun x => (x.1.map (·.road.id), x.2)) =
    some ([1, 3, 4], 270) := by decide +kernel

example : Lengths fork ∧ ∃ k0, Searches fork ⟨1, -1, 40⟩ true ⟨4, -1, 10⟩ k0 := by
  refine ⟨?_, _, ?_, ?_, ⟨_, _, rfl, rfl, rfl⟩, by simp⟩
  · intro r hr
    simp only [fork, List.mem_cons, List.not_mem_nil, or_false] at hr
    rcases hr with rfl | rfl | rfl | rfl <;> decide +kernel
  · decide +kernel
  · decide +kernel

/-- A road of 100 m whose end is its start. -/
def ring : Net :=
  { roads := [⟨1, 100, some ⟨.succ, .road, 1, .start⟩, some ⟨.pred, .road, 1, .stop⟩, laneSec, laneSec, []⟩],
    junction := fun _ => ⟨false, []⟩, connLane := fun _ _ l _ => l, drivable := fun _ _ l => l == -1 }

/-- C22 fails for a target on the road and lane of the start but behind it: there is a route, none is returned. -/
theorem behind_on_same_lane_fails : ∃ k0 k p w, StartKey ring ⟨1, -1, 50⟩ true k0 ∧
    Route ring .shortest ⟨1, -1, 10⟩ k0 50 (k :: p) w ∧ AtTarget ⟨1, -1, 10⟩ k ∧
    ∀ pick fuel, calculatePath ring .shortest pick fuel ⟨1, -1, 50⟩ true ⟨1, -1, 10⟩ = some ([], 0) := by
  refine ⟨_, ⟨⟨1, 100, some ⟨.succ, .road, 1, .start⟩, some ⟨.pred, .road, 1, .stop⟩, laneSec, laneSec, []⟩, -1, -1, none⟩, _,
    50 + 10, ⟨_, _, rfl, rfl, rfl⟩, .step .start ?_, ⟨rfl, rfl⟩, ?_⟩
  · refine ⟨_, rfl, ⟨1, rfl, .inl ⟨rfl, rfl⟩⟩, ⟨by simp [laneSec], by simp, by simp, by simp, rfl⟩, ?_⟩
    simp [calcWeight, targetPart]
  · intro pick fuel
    apply calculatePath_empty
    rintro ⟨k0, h⟩
    exact h.differ ⟨rfl, rfl⟩

end Verif.Router

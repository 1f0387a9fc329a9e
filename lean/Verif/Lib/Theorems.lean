import Verif.Lib.InjectTheorems
/-! Object callbacks and permitted lane changes. -/
namespace Verif.Lib

/-! ### Specification of callbacks -/

variable {F D : Type}

/-- The calls a user expects of a frame: each registration on an existing object once, with its own user data, in order. -/
def Expected (ex : Int → Bool) (rs : List (Reg F D)) : List (F × Int × D) :=
  (rs.filter fun r => ex r.id).map fun r => (r.fn, r.id, r.data)

/-- Before the first registration. -/
def noCbs : Cbs F D := ⟨[], []⟩

theorem registerAll_eq (rs : List (Reg F D)) (c : Cbs F D) :
    registerAll rs c = ⟨c.lib ++ rs.map (fun r => (r.id, r.fn)), c.pl ++ rs.map fun r => (r.id, r.data)⟩ := by
  induction rs generalizing c with
  | nil => simp [registerAll]
  | cons r rs ih =>
    rw [registerAll, List.foldl_cons]
    change registerAll rs _ = _
    rw [ih]
    simp [register]

theorem mem_calls {ex : Int → Bool} {c : Cbs F D} {f : F} {i : Int} {d : D} :
    (f, i, d) ∈ calls ex c ↔ ex i = true ∧ (i, f) ∈ c.lib ∧ (i, d) ∈ c.pl := by
  simp only [calls, List.mem_flatMap]
  constructor
  · rintro ⟨⟨j, e⟩, hj, h⟩
    cases hx : ex j with
    | false => simp [hx] at h
    | true =>
      simp only [hx, cond_true, forward, List.mem_map, List.mem_filter, decide_eq_true_eq, Prod.mk.injEq] at h
      obtain ⟨⟨k, g⟩, ⟨hk, hkj⟩, h1, h2, h3⟩ := h
      simp only at hkj h1
      subst hkj; subst h1; subst h2; subst h3
      exact ⟨hx, hk, hj⟩
  · rintro ⟨hx, hl, hp⟩
    refine ⟨(i, d), hp, ?_⟩
    simp only [hx, cond_true]
    exact List.mem_map.2 ⟨(i, f), List.mem_filter.2 ⟨hl, by simp⟩, rfl⟩

/-- Every registered function on an existing object is called with its own data, also with several registrations and after restarts. -/
theorem registered_called {ex : Int → Bool} (c : Cbs F D) {rs : List (Reg F D)} {r : Reg F D} (hr : r ∈ rs) (hx : ex r.id = true) :
    (r.fn, r.id, r.data) ∈ calls ex (registerAll rs c) := by
  rw [mem_calls, registerAll_eq]
  exact ⟨hx, List.mem_append_right _ (List.mem_map.2 ⟨r, hr, rfl⟩), List.mem_append_right _ (List.mem_map.2 ⟨r, hr, rfl⟩)⟩

/-- No call for an object that does not exist, or that nothing was registered for since the start of the scenario. -/
theorem only_registered {ex : Int → Bool} {c : Cbs F D} {rs : List (Reg F D)} {f : F} {i : Int} {d : D}
    (h : (f, i, d) ∈ calls ex (registerAll rs (restart c))) : ex i = true ∧ ∃ r, r ∈ rs ∧ r.id = i ∧ r.data = d := by
  rw [mem_calls, registerAll_eq] at h
  obtain ⟨hx, -, hp⟩ := h
  simp only [restart, List.nil_append, List.mem_map, Prod.mk.injEq] at hp
  obtain ⟨r, hr, h1, h2⟩ := hp
  exact ⟨hx, r, hr, h1, h2⟩

theorem forward_single {c : Cbs F D} {i : Int} {d : D} {pre post : List (Int × F)} {f : F} (h : c.lib = pre ++ (i, f) :: post)
    (hp : ∀ x, x ∈ pre ++ post → x.1 ≠ i) : forward c i d = [(f, i, d)] := by
  have h1 : pre.filter (fun r => decide (r.1 = i)) = [] :=
    List.filter_eq_nil_iff.2 fun x hx => by simpa using hp x (List.mem_append_left _ hx)
  have h2 : post.filter (fun r => decide (r.1 = i)) = [] :=
    List.filter_eq_nil_iff.2 fun x hx => by simpa using hp x (List.mem_append_right _ hx)
  rw [forward, h, List.filter_append, List.filter_cons_of_pos (by simp), h1, h2]
  rfl

/-- In the first scenario of a process, with at most one registration per object, the calls are those expected. Missing: several
registrations on an object, and further scenarios. -/
theorem calls_partial (ex : Int → Bool) {rs : List (Reg F D)} (hn : rs.Pairwise fun a b => a.id ≠ b.id) :
    calls ex (registerAll rs noCbs) = Expected ex rs := by
  rw [registerAll_eq]
  simp only [noCbs, List.nil_append]
  have key : ∀ r, r ∈ rs → ∀ d, forward (⟨rs.map fun r => (r.id, r.fn), rs.map fun r => (r.id, r.data)⟩ : Cbs F D) r.id d = [(r.fn, r.id, d)] := by
    intro r hr d
    obtain ⟨pre, post, rfl⟩ := List.append_of_mem hr
    have hd := List.pairwise_append.1 hn
    refine forward_single (pre := pre.map fun r => (r.id, r.fn)) (post := post.map fun r => (r.id, r.fn)) (by simp) ?_
    intro x hx
    rw [← List.map_append] at hx
    obtain ⟨y, hy, rfl⟩ := List.mem_map.1 hx
    rcases List.mem_append.1 hy with h | h
    · exact hd.2.2 y h r (List.mem_cons_self ..)
    · exact fun he => (List.pairwise_cons.1 hd.2.1).1 y h he.symm
  rw [calls, List.flatMap_map]
  generalize hc : (⟨rs.map fun r => (r.id, r.fn), rs.map fun r => (r.id, r.data)⟩ : Cbs F D) = c at key
  clear hc hn
  suffices hh : ∀ qs : List (Reg F D), (∀ r, r ∈ qs → r ∈ rs) →
      qs.flatMap (fun a => bif ex a.id then forward c a.id a.data else []) = Expected ex qs from hh rs fun _ h => h
  intro qs
  induction qs with
  | nil => intro _; rfl
  | cons q qs ih =>
    intro hq
    rw [List.flatMap_cons, ih fun r hr => hq r (List.mem_cons_of_mem _ hr), key q (hq q (List.mem_cons_self ..))]
    unfold Expected
    cases hx : ex q.id with
    | true => rw [List.filter_cons_of_pos (by simpa using hx)]; rfl
    | false => rw [List.filter_cons_of_neg (by simp [hx])]; rfl

theorem forward_length {c : Cbs F D} {i : Int} {d : D} : (forward c i d).length = c.lib.countP fun r => decide (r.1 = i) := by
  rw [forward, List.length_map, List.countP_eq_length_filter]

/-- Number of calls for an object: the registrations on it since the process started times those since the scenario started. -/
theorem calls_count {ex : Int → Bool} (c : Cbs F D) {i : Int} (hx : ex i = true) :
    (calls ex c).countP (fun x => decide (x.2.1 = i)) =
      c.lib.countP (fun r => decide (r.1 = i)) * c.pl.countP fun r => decide (r.1 = i) := by
  obtain ⟨lib, pl⟩ := c
  suffices hh : ∀ (c : Cbs F D) (l : List (Int × D)),
      (l.flatMap fun r => bif ex r.1 then forward c r.1 r.2 else []).countP (fun x => decide (x.2.1 = i)) =
      c.lib.countP (fun r => decide (r.1 = i)) * l.countP fun r => decide (r.1 = i) from hh _ pl
  intro c l
  induction l with
  | nil => simp
  | cons r l ih =>
    rw [List.flatMap_cons, List.countP_append, ih]
    have hf : ∀ x, x ∈ forward c r.1 r.2 → x.2.1 = r.1 := by
      intro x hx'
      simp only [forward, List.mem_map] at hx'
      obtain ⟨y, -, rfl⟩ := hx'
      rfl
    by_cases hr : r.1 = i
    · rw [List.countP_cons_of_pos (by simpa using hr), Nat.mul_succ, Nat.add_comm]
      congr 1
      simp only [hr, hx, cond_true]
      rw [← forward_length (c := c) (i := i) (d := r.2), List.countP_eq_length]
      intro x hx'
      have := hf x (hr ▸ hx')
      simpa [hr] using this
    · rw [List.countP_cons_of_neg (by simpa using hr)]
      have : (bif ex r.1 then forward c r.1 r.2 else []).countP (fun x => decide (x.2.1 = i)) = 0 := by
        rw [List.countP_eq_zero]
        intro x hx'
        cases hxr : ex r.1 with
        | false => simp [hxr] at hx'
        | true =>
          simp only [hxr, cond_true] at hx'
          simpa [hf x hx'] using hr
      rw [this, Nat.zero_add]

/-- Two registrations on one object: each function is called twice a frame, once with the data of the other. -/
theorem calls_fails (ex : Int → Bool) (f g : F) (d e : D) {i : Int} (hx : ex i = true) :
    calls ex (registerAll [⟨i, f, d⟩, ⟨i, g, e⟩] noCbs) = [(f, i, d), (g, i, d), (f, i, e), (g, i, e)] := by
  simp [registerAll, register, noCbs, calls, forward, hx]

/-- A function registered in an earlier scenario is called again once something is registered for an object with the same id. -/
theorem restart_fails (ex : Int → Bool) (f g : F) (d e : D) {i : Int} (hx : ex i = true) :
    (f, i, e) ∈ calls ex (registerAll [⟨i, g, e⟩] (restart (registerAll [⟨i, f, d⟩] noCbs))) := by
  simp [registerAll, register, noCbs, restart, calls, forward, hx]

example : (calls (fun i => decide (i ≠ 2)) (registerAll [⟨1, "f", 10⟩, ⟨2, "g", 20⟩, ⟨0, "h", 30⟩] noCbs) : List (String × Int × Nat)) =
    [("f", 1, 10), ("h", 0, 30)] := by decide

/-! ### Specification of permitted lane changes -/

/-- The mark in force: the last one starting at or before `s`. -/
def InForce (x : Sec) (l : Lane) (s : Rat) (m : Mark) : Prop :=
  m ∈ l.marks ∧ x.s + m.sOffset ≤ s ∧ ∀ m', m' ∈ l.marks → x.s + m'.sOffset ≤ s → m'.sOffset ≤ m.sOffset

/-- What a mark permits according to OpenDRIVE; a missing attribute stands for both directions. -/
def Permits (m : Mark) (up : Bool) : Prop :=
  m.attr = none ∨ m.attr = some .both ∨ (up = true ∧ m.attr = some .increase) ∨ (up = false ∧ m.attr = some .decrease)

/-- Change from a lane to the next one of higher (`up`) or lower id: there is such a driving lane on the same side of the reference
line, and the mark between the two, that of the lane closer to the reference line, permits it. -/
def Permitted (x : Sec) (s : Rat) (frm : Int) (up : Bool) : Prop :=
  ∃ to, to = (if up then frm + 1 else frm - 1) ∧ (∃ l, l ∈ x.lanes ∧ l.id = to ∧ l.id ≠ 0 ∧ l.driving = true) ∧
    ∀ l m, l ∈ x.lanes → (l.id = frm ∨ l.id = to) → l.id.natAbs = min frm.natAbs to.natAbs → InForce x l s m → Permits m up

/-- A lane section as read from a file: one lane per id, marks in order. -/
structure Sound (x : Sec) : Prop where
  ids : x.lanes.Pairwise fun a b => a.id ≠ b.id
  marks : ∀ l, l ∈ x.lanes → l.marks.Pairwise fun a b => a.sOffset < b.sOffset

/-- All marks carry the attribute `laneChange`. -/
def Attributed (x : Sec) : Prop := ∀ l, l ∈ x.lanes → ∀ m, m ∈ l.marks → m.attr ≠ none

/-! ### Lemmas -/

theorem lane?_eq {x : Sec} (hx : Sound x) {l : Lane} (hl : l ∈ x.lanes) : x.lane? l.id = some l := by
  obtain ⟨s, lanes⟩ := x
  have hi := hx.ids
  simp only [Sec.lane?] at hi hl ⊢
  clear hx
  induction lanes with
  | nil => simp at hl
  | cons a as ih =>
    rw [List.pairwise_cons] at hi
    rcases List.mem_cons.1 hl with h | h
    · subst h; simp
    · rw [List.find?_cons_of_neg (by simpa using hi.1 l h)]
      exact ih h hi.2

theorem lane?_mem {x : Sec} {i : Int} {l : Lane} (h : x.lane? i = some l) : l ∈ x.lanes ∧ l.id = i :=
  ⟨List.mem_of_find?_eq_some h, by simpa using List.find?_some h⟩

theorem hasDriving_iff {x : Sec} (hx : Sound x) {i : Int} :
    hasDriving x i = true ↔ ∃ l, l ∈ x.lanes ∧ l.id = i ∧ l.id ≠ 0 ∧ l.driving = true := by
  constructor
  · intro h
    unfold hasDriving at h
    rcases hl : x.lane? i with _ | l
    · rw [hl] at h; simp at h
    · rw [hl] at h
      obtain ⟨h1, h2⟩ := lane?_mem hl
      simp only [Option.any_some, Lane.isDriving] at h
      by_cases h0 : l.id = 0
      · simp [h0] at h
      · simp [h0] at h; exact ⟨l, h1, h2, h0, h⟩
  · rintro ⟨l, h1, rfl, h0, h⟩
    simp [hasDriving, lane?_eq hx h1, Lane.isDriving, h0, h]

theorem markFold {x : Sec} {s : Rat} : ∀ (ms : List Mark) (act : Option Mark), ms.Pairwise (fun a b => a.sOffset < b.sOffset) →
    (∀ a, act = some a → x.s + a.sOffset ≤ s ∧ ∀ m, m ∈ ms → a.sOffset < m.sOffset) → ∀ r, ms.foldl (markStep x s) act = r →
    match r with
    | none => act = none ∧ ∀ m, m ∈ ms → ¬ (x.s + m.sOffset ≤ s)
    | some m => (some m = act ∨ m ∈ ms) ∧ x.s + m.sOffset ≤ s ∧ ∀ m', m' ∈ ms → x.s + m'.sOffset ≤ s → m'.sOffset ≤ m.sOffset
  | [], act, _, ha, r, hr => by
    simp only [List.foldl_nil] at hr
    subst hr
    cases act with
    | none => exact ⟨rfl, by simp⟩
    | some a => exact ⟨.inl rfl, (ha a rfl).1, by simp⟩
  | m :: ms, act, hs, ha, r, hr => by
    rw [List.pairwise_cons] at hs
    rw [List.foldl_cons] at hr
    by_cases hm : x.s + m.sOffset ≤ s
    · have e : markStep x s act m = some m := by simp [markStep, hm]
      rw [e] at hr
      have := markFold ms (some m) hs.2 (by
        intro a h
        rw [Option.some.injEq] at h
        subst h
        exact ⟨hm, hs.1⟩) r hr
      cases r with
      | none => exact absurd this.1 (by simp)
      | some q =>
        obtain ⟨h1, h2, h3⟩ := this
        refine ⟨?_, h2, ?_⟩
        · rcases h1 with h | h
          · rw [Option.some.injEq] at h; subst h; exact .inr (List.mem_cons_self ..)
          · exact .inr (List.mem_cons_of_mem _ h)
        · intro m' hm' hle
          rcases List.mem_cons.1 hm' with h | h
          · subst h
            rcases h1 with h | h
            · rw [Option.some.injEq] at h; subst h; grind
            · have := hs.1 q h; grind
          · exact h3 m' h hle
    · have e : markStep x s act m = act := by simp [markStep, hm]
      rw [e] at hr
      have := markFold ms act hs.2 (fun a h => ⟨(ha a h).1, fun m' hm' => (ha a h).2 m' (List.mem_cons_of_mem _ hm')⟩) r hr
      cases r with
      | none =>
        refine ⟨this.1, ?_⟩
        intro m' hm'
        rcases List.mem_cons.1 hm' with h | h
        · subst h; exact hm
        · exact this.2 m' h
      | some q =>
        obtain ⟨h1, h2, h3⟩ := this
        refine ⟨h1.imp id (List.mem_cons_of_mem _), h2, ?_⟩
        intro m' hm' hle
        rcases List.mem_cons.1 hm' with h | h
        · subst h; exact absurd hle hm
        · exact h3 m' h hle

/-- The mark found is the one in force; none is found exactly if none is in force. -/
theorem markAt_inForce {x : Sec} {l : Lane} {s : Rat} (hs : l.marks.Pairwise fun a b => a.sOffset < b.sOffset) (m : Mark) :
    markAt x (some l) s = some m ↔ InForce x l s m := by
  have h := markFold (x := x) (s := s) l.marks none hs (by simp) _ rfl
  have e : markAt x (some l) s = l.marks.foldl (markStep x s) none := rfl
  rw [e]
  cases hr : l.marks.foldl (markStep x s) none with
  | none =>
    rw [hr] at h
    simp only [reduceCtorEq, false_iff]
    exact fun hi => h.2 m hi.1 hi.2.1
  | some q =>
    rw [hr] at h
    obtain ⟨h1, h2, h3⟩ := h
    have hq : q ∈ l.marks := by simpa using h1
    constructor
    · intro hm
      rw [Option.some.injEq] at hm
      subst hm
      exact ⟨hq, h2, h3⟩
    · rintro ⟨k1, k2, k3⟩
      have a1 := h3 m k1 k2
      have a2 := k3 q hq h2
      have : q = m := by
        have key : ∀ (ms : List Mark), ms.Pairwise (fun a b => a.sOffset < b.sOffset) → q ∈ ms → m ∈ ms → q = m := by
          intro ms
          induction ms with
          | nil => intro _ h; simp at h
          | cons b bs ih =>
            intro hp hq hm
            rw [List.pairwise_cons] at hp
            rcases List.mem_cons.1 hq with h | h <;> rcases List.mem_cons.1 hm with h' | h'
            · rw [h, h']
            · have := hp.1 m h'; rw [← h] at this; grind
            · have := hp.1 q h; rw [← h'] at this; grind
            · exact ih hp.2 h h'
        exact key _ hs hq k1
      rw [this]

theorem allows_iff {m : Mark} {up : Bool} (ha : m.attr ≠ none) : allows (some m) up = true ↔ Permits m up := by
  obtain ⟨o, a⟩ := m
  cases a with
  | none => exact absurd rfl ha
  | some c => cases c <;> cases up <;> simp [allows, readLC, Permits]

theorem allows_lane {x : Sec} (hx : Sound x) (ha : Attributed x) {i : Int} {s : Rat} {up : Bool} :
    allows (markAt x (x.lane? i) s) up = true ↔ ∀ l m, l ∈ x.lanes → l.id = i → InForce x l s m → Permits m up := by
  rcases hl : x.lane? i with _ | l
  · simp only [markAt, Option.bind_none, allows, true_iff]
    intro l m h1 h2
    rw [← h2, lane?_eq hx h1] at hl
    simp at hl
  · obtain ⟨h1, h2⟩ := lane?_mem hl
    have hsame : ∀ l', l' ∈ x.lanes → l'.id = i → l' = l := by
      intro l' h3 h4
      have := lane?_eq hx h3
      rw [h4, hl, Option.some.injEq] at this
      exact this.symm
    rcases hm : markAt x (some l) s with _ | m
    · simp only [allows, true_iff]
      intro l' m' h3 h4 hi
      rw [hsame l' h3 h4, ← markAt_inForce (hx.marks l h1), hm] at hi
      simp at hi
    · have hi := (markAt_inForce (hx.marks l h1) m).1 hm
      rw [allows_iff (ha l h1 m hi.1)]
      constructor
      · intro hp l' m' h3 h4 hi'
        rw [hsame l' h3 h4, ← markAt_inForce (hx.marks l h1), hm, Option.some.injEq] at hi'
        exact hi' ▸ hp
      · intro h; exact h l m h1 h2 hi

theorem canLeft_iff {x : Sec} (hx : Sound x) (ha : Attributed x) {i : Int} (hi : i ≠ 0) {s : Rat} : canLeft x s i = true ↔ Permitted x s i true := by
  have e : (bif decide (0 < i) then x.lane? i else x.lane? (i + 1)) = x.lane? (if 0 < i then i else i + 1) := by
    by_cases h : 0 < i <;> simp [h]
  simp only [canLeft, Bool.and_eq_true, decide_eq_true_eq, hasDriving_iff hx, e, allows_lane hx ha, Permitted, if_true]
  constructor
  · rintro ⟨⟨-, h2⟩, h3⟩
    refine ⟨i + 1, rfl, h2, ?_⟩
    intro l m hl hid hab
    obtain ⟨l', -, h4, h5, -⟩ := h2
    refine h3 l m hl ?_
    split <;> omega
  · rintro ⟨to, rfl, h2, h3⟩
    obtain ⟨l', k1, k2, k3, k4⟩ := h2
    refine ⟨⟨k2 ▸ k3, l', k1, k2, k3, k4⟩, ?_⟩
    intro l m hl hid
    refine h3 l m hl ?_ ?_ <;> (split at hid <;> omega)

theorem canRight_iff {x : Sec} (hx : Sound x) (ha : Attributed x) {i : Int} (hi : i ≠ 0) {s : Rat} : canRight x s i = true ↔ Permitted x s i false := by
  have e : (bif decide (i < 0) then x.lane? i else x.lane? (i - 1)) = x.lane? (if i < 0 then i else i - 1) := by
    by_cases h : i < 0 <;> simp [h]
  simp only [canRight, Bool.and_eq_true, decide_eq_true_eq, hasDriving_iff hx, e, allows_lane hx ha, Permitted, Bool.false_eq_true, if_false]
  constructor
  · rintro ⟨⟨-, h2⟩, h3⟩
    refine ⟨i - 1, rfl, h2, ?_⟩
    intro l m hl hid hab
    obtain ⟨l', -, h4, h5, -⟩ := h2
    refine h3 l m hl ?_
    split <;> omega
  · rintro ⟨to, rfl, h2, h3⟩
    obtain ⟨l', k1, k2, k3, k4⟩ := h2
    refine ⟨⟨k2 ▸ k3, l', k1, k2, k3, k4⟩, ?_⟩
    intro l m hl hid
    refine h3 l m hl ?_ ?_ <;> (split at hid <;> omega)

/-! ### Theorems -/

/-- For an object in a driving lane, heading along the road, on roads whose marks carry the attribute `laneChange`: left and right
are reported exactly if permitted. Missing: marks without the attribute, and objects heading against the road. -/
theorem change_partial {x : Sec} (hx : Sound x) (ha : Attributed x) {s : Rat} {l : Lane} (hl : l ∈ x.lanes) (h0 : l.id ≠ 0)
    (hd : l.driving = true) :
    canChange x s l.id ≤ 3 ∧ (canChange x s l.id % 2 = 1 ↔ Permitted x s l.id true) ∧
      (2 ≤ canChange x s l.id ↔ Permitted x s l.id false) := by
  have h : hasDriving x l.id = true := (hasDriving_iff hx).2 ⟨l, hl, rfl, h0, hd⟩
  rw [← canLeft_iff hx ha h0, ← canRight_iff hx ha h0]
  simp only [canChange, h0, decide_false, cond_false, h, cond_true]
  cases canLeft x s l.id <;> cases canRight x s l.id <;> simp

/-- Outside of driving lanes no change is reported. -/
theorem change_none {x : Sec} (hx : Sound x) (s : Rat) {i : Int} (h : ∀ l, l ∈ x.lanes → l.id = i → l.id ≠ 0 → l.driving = false) :
    canChange x s i = 0 := by
  unfold canChange
  by_cases h0 : i = 0
  · simp [h0]
  · have : hasDriving x i = false := by
      rw [Bool.eq_false_iff]
      intro hh
      obtain ⟨l, h1, h2, h3, h4⟩ := (hasDriving_iff hx).1 hh
      rw [h l h1 h2 h3] at h4
      simp at h4
    simp [h0, this]

/-- A lane change across the reference line is never reported. -/
theorem change_centre (x : Sec) (s : Rat) : canChange x s (-1) % 2 = 0 ∧ canChange x s 1 < 2 := by
  constructor
  · unfold canChange canLeft
    simp only [show ((-1 : Int) = 0) ↔ False by decide, decide_false, cond_false]
    cases hasDriving x (-1) <;> simp [show (-1 : Int) + 1 = 0 by decide]
    cases canRight x s (-1) <;> simp
  · unfold canChange canRight
    simp only [show ((1 : Int) = 0) ↔ False by decide, decide_false, cond_false]
    cases hasDriving x 1 <;> simp
    cases canLeft x s 1 <;> simp

/-- On a road whose marks lack the attribute no change is reported, although both are permitted. -/
theorem attribute_fails : ∃ (x : Sec) (s : Rat), Sound x ∧ canChange x s (-2) = 0 ∧ Permitted x s (-2) true ∧ Permitted x s (-2) false := by
  have hm : ∀ l : Lane, l ∈ [(⟨-1, true, [⟨0, none⟩]⟩ : Lane), ⟨-2, true, [⟨0, none⟩]⟩, ⟨-3, true, [⟨0, none⟩]⟩] → l.marks = [⟨0, none⟩] := by
    simp
  have hp : ∀ l : Lane, ∀ m, l ∈ [(⟨-1, true, [⟨0, none⟩]⟩ : Lane), ⟨-2, true, [⟨0, none⟩]⟩, ⟨-3, true, [⟨0, none⟩]⟩] →
      m ∈ l.marks → m.attr = none := by
    intro l m h1 h2
    rw [hm l h1] at h2
    simp at h2
    rw [h2]
  refine ⟨⟨0, [⟨-1, true, [⟨0, none⟩]⟩, ⟨-2, true, [⟨0, none⟩]⟩, ⟨-3, true, [⟨0, none⟩]⟩]⟩, 5, ⟨by decide, ?_⟩, by decide +kernel, ?_, ?_⟩
  · intro l h
    rw [hm l h]
    exact List.pairwise_singleton _ _
  · exact ⟨-1, rfl, ⟨⟨-1, true, [⟨0, none⟩]⟩, by simp, rfl, by decide, rfl⟩, fun l m h _ _ hi => .inl (hp l m h hi.1)⟩
  · exact ⟨-3, rfl, ⟨⟨-3, true, [⟨0, none⟩]⟩, by simp, rfl, by decide, rfl⟩, fun l m h _ _ hi => .inl (hp l m h hi.1)⟩

/-- An object in the outermost of two lanes of traffic against the road direction, heading as its lane: the lane to its left is the
one of lower id, and the change to it is reported as one to the right. -/
theorem heading_fails : ∃ (x : Sec) (s : Rat), Sound x ∧ Attributed x ∧ Permitted x s 2 false ∧ ¬ Permitted x s 2 true ∧
    canChange x s 2 = 2 := by
  have hx : Sound ⟨0, [⟨2, true, [⟨0, some .none⟩]⟩, ⟨1, true, [⟨0, some .both⟩]⟩]⟩ := ⟨by decide, by
    intro l h
    simp at h
    rcases h with rfl | rfl <;> exact List.pairwise_singleton _ _⟩
  have ha : Attributed ⟨0, [⟨2, true, [⟨0, some .none⟩]⟩, ⟨1, true, [⟨0, some .both⟩]⟩]⟩ := by
    intro l h m hm
    simp at h
    rcases h with rfl | rfl <;> simp at hm <;> simp [hm]
  refine ⟨_, 5, hx, ha, ?_, ?_, by decide +kernel⟩
  · rw [← canRight_iff hx ha (by decide)]; decide +kernel
  · rw [← canLeft_iff hx ha (by decide)]; decide +kernel

/-- A road with three lanes in its direction: from the middle one to the left only, past the start of the second mark of that lane. -/
example : canChange ⟨10, [⟨-1, true, [⟨0, some .both⟩]⟩, ⟨-2, true, [⟨0, some .both⟩, ⟨20, some .increase⟩]⟩, ⟨-3, true, []⟩]⟩ 31 (-2) = 1 ∧
    canChange ⟨10, [⟨-1, true, [⟨0, some .both⟩]⟩, ⟨-2, true, [⟨0, some .both⟩, ⟨20, some .increase⟩]⟩, ⟨-3, true, []⟩]⟩ 29 (-2) = 3 := by
  decide +kernel

end Verif.Lib

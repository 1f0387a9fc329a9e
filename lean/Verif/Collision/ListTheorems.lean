import Verif.Collision.ListModel

namespace Verif.Collision

/-! ## Specification -/

/-- `a` comes before `b` among the objects. -/
def Before (objs : List Nat) (a b : Nat) : Prop := [a, b].Sublist objs

/-- The lists of a set of objects say the same about every two of them, each entry once, nobody with itself. -/
structure Agree (objs : List Nat) (L : Nat → List Nat) : Prop where
  sym : ∀ a ∈ objs, ∀ b ∈ objs, b ∈ L a ↔ a ∈ L b
  once : ∀ a ∈ objs, (L a).Nodup
  self : ∀ a ∈ objs, a ∉ L a

/-- No object comes back after it was gone for a frame or more. `seen` are all earlier objects, `last` those of the last frame. -/
def NoReturn : List Nat → List Nat → List Frame → Prop
  | _, _, [] => True
  | seen, last, f :: rest => f.objs.Nodup ∧ (∀ a ∈ f.objs, a ∈ last ∨ a ∉ seen) ∧ NoReturn (seen ++ f.objs) f.objs rest

/-! ## Lists -/

theorem mem_push {L : Nat → List Nat} {a b x y : Nat} : y ∈ push L a b x ↔ y ∈ L x ∨ (x = a ∧ y = b) := by
  unfold push setList
  by_cases h : x = a <;> simp [h]

theorem mem_drop {L : Nat → List Nat} {a b x y : Nat} : y ∈ drop L a b x ↔ y ∈ L x ∧ ¬(x = a ∧ y = b) := by
  unfold drop setList
  by_cases h : x = a <;> simp [h]

theorem nodup_push {L : Nat → List Nat} {a b x : Nat} (h : (L x).Nodup) (hb : x = a → b ∉ L a) : (push L a b x).Nodup := by
  unfold push setList
  by_cases hx : x = a
  · subst hx
    simp only [if_true]
    rw [List.nodup_append]
    refine ⟨h, by simp, ?_⟩
    intro u hu v hv
    simp at hv
    subst hv
    intro e; subst e
    exact hb rfl hu
  · simp [hx, h]

theorem nodup_drop {L : Nat → List Nat} {a b x : Nat} (h : (L x).Nodup) : (drop L a b x).Nodup := by
  unfold drop setList
  by_cases hx : x = a
  · subst hx; simp only [if_true]; exact h.filter _
  · simp [hx, h]

theorem unregister_eq (objs l : List Nat) : unregister objs l = l.filter (fun y => decide (y ∈ objs)) := by
  induction l with
  | nil => rfl
  | cons y r ih => simp only [unregister, List.filter_cons, ih, decide_eq_true_eq]

/-! ## One pair -/

theorem pairStep_pairs (ov : Nat → Nat → Bool) (a b : Nat) (s : St) :
    (pairStep ov a b s).pairs = s.pairs ++ (if ov a b then [(a, b)] else []) := by
  unfold pairStep
  cases ov a b <;> simp

theorem pairStep_own {ov : Nat → Nat → Bool} {a b : Nat} {s : St} : b ∈ (pairStep ov a b s).lists a ↔ ov a b = true := by
  unfold pairStep
  cases ho : ov a b
  · by_cases h : b ∈ s.lists a
    · simp only [h]
      simp [mem_drop]
    · simp [h]
  · by_cases h : b ∈ s.lists a
    · simp [h]
    · simp [h, mem_push]

theorem pairStep_other {ov : Nat → Nat → Bool} {a b x y : Nat} {s : St} (h1 : ¬(x = a ∧ y = b)) (h2 : ¬(x = b ∧ y = a)) :
    y ∈ (pairStep ov a b s).lists x ↔ y ∈ s.lists x := by
  unfold pairStep
  cases ho : ov a b <;> by_cases h : b ∈ s.lists a <;> simp [h, mem_drop, mem_push, h1, h2]

theorem pairStep_agree {ov : Nat → Nat → Bool} {objs : List Nat} {a b : Nat} {s : St} (ha : a ∈ objs) (hb : b ∈ objs) (hab : a ≠ b)
    (h : Agree objs s.lists) : Agree objs (pairStep ov a b s).lists := by
  have hs := h.sym a ha b hb
  unfold pairStep
  cases ho : ov a b
  · by_cases hm : b ∈ s.lists a
    · simp only [hm]
      refine ⟨?_, ?_, ?_⟩
      · intro x hx y hy
        have := h.sym x hx y hy
        simp only [Bool.false_eq_true, if_false, if_true, mem_drop]
        grind
      · intro x hx
        exact nodup_drop (nodup_drop (h.once x hx))
      · intro x hx
        have := h.self x hx
        simp only [Bool.false_eq_true, if_false, if_true, mem_drop]
        grind
    · simpa [hm] using h
  · by_cases hm : b ∈ s.lists a
    · simpa [hm] using h
    · simp only [hm]
      refine ⟨?_, ?_, ?_⟩
      · intro x hx y hy
        have := h.sym x hx y hy
        simp only [if_true, if_false, mem_push]
        grind
      · intro x hx
        refine nodup_push (nodup_push (h.once x hx) fun e => hm) fun e => ?_
        rw [mem_push]
        rintro (h' | ⟨h', -⟩)
        · exact hm (hs.2 h')
        · exact hab h'.symm
      · intro x hx
        have := h.self x hx
        simp only [if_true, if_false, mem_push]
        grind

/-! ## The loops -/

theorem inner_other {ov : Nat → Nat → Bool} {a x y : Nat} {l : List Nat} (h1 : ¬(x = a ∧ y ∈ l)) (h2 : ¬(y = a ∧ x ∈ l)) :
    ∀ s : St, y ∈ (inner ov a l s).lists x ↔ y ∈ s.lists x := by
  induction l with
  | nil => intro s; rfl
  | cons b r ih =>
    intro s
    rw [inner, ih (by simp at h1; grind) (by simp at h2; grind)]
    exact pairStep_other (by simp at h1; grind) (by simp at h2; grind)

theorem inner_own {ov : Nat → Nat → Bool} {a b : Nat} {l : List Nat} (hl : (a :: l).Nodup) (hb : b ∈ l) :
    ∀ s : St, b ∈ (inner ov a l s).lists a ↔ ov a b = true := by
  induction l with
  | nil => simp at hb
  | cons c r ih =>
    intro s
    rw [inner]
    simp only [List.nodup_cons, List.mem_cons, not_or] at hl
    obtain ⟨⟨hac, har⟩, hcr, hr⟩ := hl
    by_cases hbr : b ∈ r
    · exact ih (by simp [har, hr]) hbr _
    · have : b = c := by simpa [hbr] using hb
      subst this
      rw [inner_other (by simp [hbr]) (by intro h; exact har h.2), pairStep_own]

theorem inner_agree {ov : Nat → Nat → Bool} {objs l : List Nat} {a : Nat} (ha : a ∈ objs) (hl : ∀ b ∈ l, b ∈ objs ∧ b ≠ a) :
    ∀ s : St, Agree objs s.lists → Agree objs (inner ov a l s).lists := by
  induction l with
  | nil => intro s h; exact h
  | cons b r ih =>
    intro s h
    rw [inner]
    have := hl b (by simp)
    exact ih (fun c hc => hl c (by simp [hc])) _ (pairStep_agree ha this.1 this.2.symm h)

theorem outer_other {ov : Nat → Nat → Bool} {x y : Nat} {l : List Nat} (h : ¬(x ∈ l ∧ y ∈ l)) :
    ∀ s : St, y ∈ (outer ov l s).lists x ↔ y ∈ s.lists x := by
  induction l with
  | nil => intro s; rfl
  | cons a r ih =>
    intro s
    rw [outer, ih (by simp at h; grind)]
    exact inner_other (by simp at h; grind) (by simp at h; grind) s

theorem before_cons {l : List Nat} {a b c : Nat} : Before (c :: l) a b ↔ Before l a b ∨ (a = c ∧ b ∈ l) := by
  unfold Before
  constructor
  · intro h
    cases h with
    | cons _ h => exact Or.inl h
    | cons_cons _ h => exact Or.inr ⟨rfl, List.singleton_sublist.1 h⟩
  · rintro (h | ⟨rfl, h⟩)
    · exact h.cons _
    · exact List.Sublist.cons_cons _ (List.singleton_sublist.2 h)

theorem before_mem {l : List Nat} {a b : Nat} (h : Before l a b) : a ∈ l ∧ b ∈ l :=
  ⟨h.subset (by simp), h.subset (by simp)⟩

theorem outer_earlier {ov : Nat → Nat → Bool} {a b : Nat} {l : List Nat} (hl : l.Nodup) (h : Before l a b) :
    ∀ s : St, b ∈ (outer ov l s).lists a ↔ ov a b = true := by
  induction l with
  | nil => simp [Before] at h
  | cons c r ih =>
    intro s
    rw [outer]
    rcases before_cons.1 h with h' | ⟨rfl, h'⟩
    · exact ih (List.nodup_cons.1 hl).2 h' _
    · rw [outer_other (fun hh => (List.nodup_cons.1 hl).1 hh.1), inner_own hl h']

theorem outer_agree {ov : Nat → Nat → Bool} {objs l : List Nat} (hs : ∀ a ∈ l, a ∈ objs) (hl : l.Nodup) :
    ∀ s : St, Agree objs s.lists → Agree objs (outer ov l s).lists := by
  induction l with
  | nil => intro s h; exact h
  | cons c r ih =>
    intro s h
    rw [outer]
    refine ih (fun a ha => hs a (by simp [ha])) (List.nodup_cons.1 hl).2 _ ?_
    refine inner_agree (hs c (by simp)) ?_ s h
    intro b hb
    exact ⟨hs b (by simp [hb]), fun e => (List.nodup_cons.1 hl).1 (e ▸ hb)⟩

theorem inner_pairs (ov : Nat → Nat → Bool) (a : Nat) (l : List Nat) :
    ∀ s : St, (inner ov a l s).pairs = s.pairs ++ (l.filter (fun b => ov a b)).map (fun b => (a, b)) := by
  induction l with
  | nil => intro s; simp [inner]
  | cons b r ih =>
    intro s
    rw [inner, ih, pairStep_pairs]
    cases h : ov a b <;> simp [h]

theorem outer_pairs_mem {ov : Nat → Nat → Bool} {a b : Nat} {l : List Nat} :
    ∀ s : St, (a, b) ∈ (outer ov l s).pairs ↔ (a, b) ∈ s.pairs ∨ (Before l a b ∧ ov a b = true) := by
  induction l with
  | nil => intro s; simp [outer, Before]
  | cons c r ih =>
    intro s
    rw [outer, ih, inner_pairs, before_cons]
    simp only [List.mem_append, List.mem_map, List.mem_filter, Prod.mk.injEq]
    constructor
    · rintro ((h | ⟨x, ⟨hx, ho⟩, rfl, rfl⟩) | ⟨h, ho⟩)
      · exact Or.inl h
      · exact Or.inr ⟨Or.inr ⟨rfl, hx⟩, ho⟩
      · exact Or.inr ⟨Or.inl h, ho⟩
    · rintro (h | ⟨h | ⟨rfl, h⟩, ho⟩)
      · exact Or.inl (Or.inl h)
      · exact Or.inr ⟨h, ho⟩
      · exact Or.inl (Or.inr ⟨b, ⟨h, ho⟩, rfl, rfl⟩)

theorem outer_pairs_nodup {ov : Nat → Nat → Bool} {l : List Nat} (hl : l.Nodup) :
    ∀ s : St, s.pairs.Nodup → (∀ p ∈ s.pairs, p.1 ∉ l) → (outer ov l s).pairs.Nodup := by
  induction l with
  | nil => intro s h _; exact h
  | cons c r ih =>
    intro s h hd
    rw [outer]
    obtain ⟨hc, hr⟩ := List.nodup_cons.1 hl
    refine ih hr _ ?_ ?_
    · rw [inner_pairs, List.nodup_append]
      refine ⟨h, ?_, ?_⟩
      · unfold List.Nodup
        rw [List.pairwise_map]
        exact (hr.filter _).imp fun hne he => hne (Prod.mk.inj he).2
      · intro p hp q hq e
        subst e
        obtain ⟨x, -, rfl⟩ := List.mem_map.1 hq
        exact hd _ hp (by simp)
    · intro p hp
      rw [inner_pairs, List.mem_append] at hp
      rcases hp with hp | hp
      · exact fun hh => hd p hp (by simp [hh])
      · obtain ⟨x, -, rfl⟩ := List.mem_map.1 hp
        exact hc

/-! ## One frame -/

theorem detect_list {ov : Nat → Nat → Bool} {objs : List Nat} {s : St} {x y : Nat} (hx : x ∈ objs) :
    y ∈ (detect ov objs s).lists x ↔ y ∈ objs ∧ y ∈ (outer ov objs ⟨[], s.lists⟩).lists x := by
  unfold detect
  simp only [hx, if_true, unregister_eq, List.mem_filter, decide_eq_true_eq]
  exact And.comm

/-- The pairs reported for a frame are exactly the overlapping pairs, each once, whatever happened before. -/
theorem pairs_exact {ov : Nat → Nat → Bool} {objs : List Nat} (h : objs.Nodup) (s : St) :
    (detect ov objs s).pairs.Nodup ∧ ∀ a b, (a, b) ∈ (detect ov objs s).pairs ↔ Before objs a b ∧ ov a b = true := by
  refine ⟨outer_pairs_nodup h _ (by simp) (by simp), ?_⟩
  intro a b
  show (a, b) ∈ (outer ov objs ⟨[], s.lists⟩).pairs ↔ _
  rw [outer_pairs_mem]
  simp

/-- The list of the object that comes first in the scenario is always exact. -/
theorem first_exact_partial {ov : Nat → Nat → Bool} {objs : List Nat} (h : objs.Nodup) {a b : Nat} (hab : Before objs a b) (s : St) :
    b ∈ (detect ov objs s).lists a ↔ ov a b = true := by
  have hm := before_mem hab
  rw [detect_list hm.1, outer_earlier h hab]
  exact ⟨fun h => h.2, fun h => ⟨hm.2, h⟩⟩

/-- Only objects of the scenario are in the list of an object of the scenario. -/
theorem no_vanished {ov : Nat → Nat → Bool} {objs : List Nat} (s : St) {a b : Nat} (ha : a ∈ objs)
    (h : b ∈ (detect ov objs s).lists a) : b ∈ objs := ((detect_list ha).1 h).1

theorem detect_agree {ov : Nat → Nat → Bool} {objs : List Nat} (h : objs.Nodup) {s : St} (hs : Agree objs s.lists) :
    Agree objs (detect ov objs s).lists := by
  have ho := outer_agree (ov := ov) (fun a ha => ha) h ⟨[], s.lists⟩ hs
  refine ⟨?_, ?_, ?_⟩
  · intro a ha b hb
    rw [detect_list ha, detect_list hb]
    have := ho.sym a ha b hb
    grind
  · intro a ha
    unfold detect
    simp only [ha, if_true, unregister_eq]
    exact (ho.once a ha).filter _
  · intro a ha
    rw [detect_list ha]
    exact fun h => ho.self a ha h.2

/-- Objects outside of the scenario keep their lists. -/
theorem outside_kept {ov : Nat → Nat → Bool} {objs : List Nat} (s : St) {x : Nat} (hx : x ∉ objs) (y : Nat) :
    y ∈ (detect ov objs s).lists x ↔ y ∈ s.lists x := by
  unfold detect
  simp only [hx, if_false]
  exact outer_other (fun h => hx h.1) _

/-! ## All frames -/

theorem run_append (fs gs : List Frame) (s : St) : run (fs ++ gs) s = run gs (run fs s) := by
  induction fs generalizing s with
  | nil => rfl
  | cons f r ih => simp only [List.cons_append, run]; exact ih _

/-- What is known between two frames. -/
structure Known (seen last : List Nat) (s : St) : Prop where
  agree : Agree last s.lists
  inside : ∀ a ∈ last, ∀ b ∈ s.lists a, b ∈ last
  fresh : ∀ a, a ∉ seen → s.lists a = []
  sub : ∀ a ∈ last, a ∈ seen

theorem known_step {seen last : List Nat} {s : St} {f : Frame} (h : Known seen last s) (hn : f.objs.Nodup)
    (hr : ∀ a ∈ f.objs, a ∈ last ∨ a ∉ seen) :
    Agree f.objs (detect f.ov f.objs s).lists ∧ Known (seen ++ f.objs) f.objs (detect f.ov f.objs s) := by
  have pre : Agree f.objs s.lists := by
    refine ⟨?_, ?_, ?_⟩
    · intro a ha b hb
      rcases hr a ha with h1 | h1 <;> rcases hr b hb with h2 | h2
      · exact h.agree.sym a h1 b h2
      · rw [h.fresh b h2]
        simp only [List.not_mem_nil, iff_false]
        exact fun hm => h2 (h.sub b (h.inside a h1 b hm))
      · rw [h.fresh a h1]
        simp only [List.not_mem_nil, false_iff]
        exact fun hm => h1 (h.sub a (h.inside b h2 a hm))
      · rw [h.fresh a h1, h.fresh b h2]; simp
    · intro a ha
      rcases hr a ha with h1 | h1
      · exact h.agree.once a h1
      · rw [h.fresh a h1]; simp
    · intro a ha
      rcases hr a ha with h1 | h1
      · exact h.agree.self a h1
      · rw [h.fresh a h1]; simp
  have post := detect_agree (ov := f.ov) hn pre
  refine ⟨post, post, fun a ha b hb => no_vanished s ha hb, ?_, fun a ha => by simp [ha]⟩
  intro a ha
  simp only [List.mem_append, not_or] at ha
  have : ∀ y, y ∉ (detect f.ov f.objs s).lists a := by
    intro y
    rw [outside_kept s ha.2, h.fresh a ha.1]; simp
  exact List.eq_nil_iff_forall_not_mem.2 this

/-- After every frame of a history in which no object comes back after it was gone, each of two objects is in the
list of the other exactly if they overlap in that frame, and every list has each entry once. -/
theorem lists_exact_partial {fs : List Frame} {f : Frame} (h : NoReturn [] [] (fs ++ [f])) {a b : Nat} (hab : Before f.objs a b) :
    (b ∈ (run (fs ++ [f]) start).lists a ↔ f.ov a b = true) ∧ (a ∈ (run (fs ++ [f]) start).lists b ↔ f.ov a b = true) ∧
    ((run (fs ++ [f]) start).lists a).Nodup ∧ ((run (fs ++ [f]) start).lists b).Nodup := by
  have main : ∀ (fs : List Frame) (seen last : List Nat) (s : St), Known seen last s → NoReturn seen last (fs ++ [f]) →
      Agree f.objs (run (fs ++ [f]) s).lists ∧ (b ∈ (run (fs ++ [f]) s).lists a ↔ f.ov a b = true) := by
    intro fs
    induction fs with
    | nil =>
      intro seen last s hk hn
      obtain ⟨h1, h2, -⟩ := hn
      exact ⟨(known_step hk h1 h2).1, first_exact_partial h1 hab s⟩
    | cons g r ih =>
      intro seen last s hk hn
      obtain ⟨h1, h2, h3⟩ := hn
      exact ih _ _ _ (known_step hk h1 h2).2 h3
  have hk : Known [] [] start := ⟨⟨by simp, by simp, by simp⟩, by simp, fun _ _ => rfl, by simp⟩
  obtain ⟨hA, hE⟩ := main fs [] [] start hk h
  have hm := before_mem hab
  exact ⟨hE, (hA.sym a hm.1 b hm.2).symm.trans hE, hA.once a hm.1, hA.once b hm.2⟩

/-! ## Concrete cases -/

/-- Frames: 1 and 2 overlap; then 3 appears and overlaps 1; then 2 is removed. -/
example : NoReturn [] [] [⟨[1, 2], fun a b => a == 1 && b == 2⟩, ⟨[1, 2, 3], fun a b => a == 1 && b == 3⟩, ⟨[1, 3], fun _ _ => true⟩] ∧
    Before [1, 3] 1 3 := by
  refine ⟨?_, ?_⟩
  · simp [NoReturn]
  · unfold Before; decide

example : (run [⟨[1, 2], fun a b => a == 1 && b == 2⟩, ⟨[1, 2, 3], fun a b => a == 1 && b == 3⟩] start).lists 1 = [3] ∧
    (run [⟨[1, 2], fun a b => a == 1 && b == 2⟩, ⟨[1, 2, 3], fun a b => a == 1 && b == 3⟩] start).lists 2 = [] ∧
    (run [⟨[1, 2], fun a b => a == 1 && b == 2⟩, ⟨[1, 2, 3], fun a b => a == 1 && b == 3⟩] start).pairs = [(1, 3)] := by decide

/-- Three frames: 1 and 2 overlap; 1 is removed; 1 is added again (at the end of the object list). -/
def comeback (ov : Nat → Nat → Bool) : List Frame :=
  [⟨[1, 2], fun _ _ => true⟩, ⟨[2], fun _ _ => true⟩, ⟨[2, 1], ov⟩]

/-- An object that is added again far from the other still has the other in its list, and the other does not have it. -/
theorem stale_witness : (run (comeback fun _ _ => false) start).lists 1 = [2] ∧ (run (comeback fun _ _ => false) start).lists 2 = [] := by
  decide

/-- An object that is added again where it overlaps has the other in its list twice. -/
theorem duplicate_witness : (run (comeback fun _ _ => true) start).lists 1 = [2, 2] := by decide

/-- Hence "in each other's list exactly if they overlap" is not true of all histories. -/
theorem lists_exact_fails : ¬∀ (fs : List Frame) (f : Frame), (∀ g ∈ fs ++ [f], g.objs.Nodup) → ∀ a b, Before f.objs a b →
    (a ∈ (run (fs ++ [f]) start).lists b ↔ f.ov a b = true) := by
  intro h
  have := (h [⟨[1, 2], fun _ _ => true⟩, ⟨[2], fun _ _ => true⟩] ⟨[2, 1], fun _ _ => false⟩ (by simp) 2 1 (by unfold Before; decide)).1 (by decide)
  simp at this

end Verif.Collision

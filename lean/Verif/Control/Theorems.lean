import Verif.Control.Lemmas
/-
Controller assignment and activation: what each operation does to each domain, that an activation takes
over its domains, and who moves the vehicle.
-/
namespace Verif.Control

/-! Spec -/

/-- No two of the object's controllers are active on the same domain. -/
def Excl (s : St) : Prop :=
  ∀ d, ∀ p ∈ s.ctrls, ∀ q ∈ s.ctrls, On (s.heap p) d → On (s.heap q) d → p = q

/-- At most one of the object's controllers is active on anything. -/
def OneActive (s : St) : Prop :=
  ∀ d e, ∀ p ∈ s.ctrls, ∀ q ∈ s.ctrls, On (s.heap p) d → On (s.heap q) e → p = q

/-- No controller is active where it cannot operate. -/
def Sound (c : Ctrl) : Prop := ∀ d, On c d → Can c d

/-! A small world used in the examples: three controllers, the first two active on one domain each -/

/-- Controllers 0, 1 and 2 (2 inactive), any other address like 2. -/
def demoHeap (a0 a1 : Mask) : Heap := fun p =>
  if p = 0 then ⟨"A", 8, .override, 3, a0, true⟩
  else if p = 1 then ⟨"B", 4, .additive, 3, a1, true⟩
  else ⟨"C", 10, .override, 3, 0, true⟩

/-! One controller -/

/-- A newly made controller is inactive, can operate on the two driving domains and overrides the
scenario's actions unless told to be additive. -/
theorem new_inactive (n : String) (t : Nat) (m : Option String) (d : Dom) :
    ¬ On (Ctrl.new n t m) d ∧ (Can (Ctrl.new n t m) d ↔ d = .lat ∨ d = .long) ∧
    ((Ctrl.new n t m).mode = .additive ↔ m = some "additive") ∧
    ((Ctrl.new n t m).mode = .override ↔ m ≠ some "additive") := by
  refine ⟨?_, ?_, ?_, ?_⟩
  · cases d <;> simp [On, Ctrl.new]
  · cases d <;> simp [Can, Ctrl.new, maskLatLong, Dom.idx]
  · cases m with
    | none => simp [Ctrl.new, parseMode]
    | some m =>
      simp only [Ctrl.new, parseMode]
      by_cases h1 : m = "override"
      · subst h1; simp
      · by_cases h2 : m = "additive"
        · subst h2; simp
        · simp [h1, h2]
  · cases m with
    | none => simp [Ctrl.new, parseMode]
    | some m =>
      simp only [Ctrl.new, parseMode]
      by_cases h1 : m = "override"
      · subst h1; simp
      · by_cases h2 : m = "additive"
        · subst h2; simp
        · simp [h1, h2]

example : (Ctrl.new "x" 8 (some "additive")).mode = .additive :=
  (new_inactive "x" 8 (some "additive") .lat).2.2.1.mpr rfl

/-- Activation decides each domain by itself: off switches it off, on switches it on where the
controller can operate, and a domain left unspecified keeps its state. -/
theorem activate_domain (c : Ctrl) (mode : Dom → ActMode) (d : Dom) :
    (mode d = .off → ¬ On (c.activate mode) d) ∧
    (mode d = .on → Can c d → On (c.activate mode) d) ∧
    (mode d = .on → ¬ Can c d → (On (c.activate mode) d ↔ On c d)) ∧
    (mode d = .undefined → (On (c.activate mode) d ↔ On c d)) := by
  unfold On Can
  rw [activate_bit]
  refine ⟨?_, ?_, ?_, ?_⟩ <;> intro h <;> simp [h]
  · intro h2; exact Or.inl h2
  · intro h2; simp [h2]

example : On ((Ctrl.new "x" 8 none).activate (fun d => if d = .lat then .on else .undefined)) .lat :=
  (activate_domain _ _ .lat).2.1 rfl (by decide)

/-- Activation changes nothing but the active domains. -/
theorem activate_frame (c : Ctrl) (mode : Dom → ActMode) :
    (c.activate mode).name = c.name ∧ (c.activate mode).typ = c.typ ∧ (c.activate mode).mode = c.mode ∧
    (c.activate mode).operating = c.operating ∧ (c.activate mode).linked = c.linked :=
  ⟨rfl, rfl, rfl, rfl, rfl⟩

/-- No controller ever becomes active where it cannot operate. -/
theorem activate_sound (c : Ctrl) (mode : Dom → ActMode) (h : Sound c) : Sound (c.activate mode) := by
  intro d hd
  have hop : (c.activate mode).operating = c.operating := rfl
  have key := activate_bit c mode d
  unfold On at hd
  unfold Can
  rw [hop]
  rw [key] at hd
  cases hm : mode d with
  | off => simp [hm] at hd
  | undefined => simp only [hm] at hd; exact h d hd
  | on =>
    simp only [hm, Bool.or_eq_true] at hd
    rcases hd with hd | hd
    · exact hd
    · exact h d hd

example : Sound ((Ctrl.new "x" 8 none).activate fun _ => .on) :=
  activate_sound _ _ fun d h => absurd h (new_inactive "x" 8 none d).1

/-- Whether a controller is active at all agrees with the per domain answers, as long as only the four
domains exist in its mask. -/
theorem active_iff_some_domain (c : Ctrl) (h : ∀ i, 4 ≤ i → c.active.getLsbD i = false) :
    c.isActive = true ↔ ∃ d, On c d := by
  rw [isActive_iff]
  constructor
  · rintro ⟨i, hi⟩
    by_cases h4 : 4 ≤ i
    · rw [h i h4] at hi; simp at hi
    · have : i = 0 ∨ i = 1 ∨ i = 2 ∨ i = 3 := by omega
      rcases this with h | h | h | h <;> subst h
      · exact ⟨.long, hi⟩
      · exact ⟨.lat, hi⟩
      · exact ⟨.light, hi⟩
      · exact ⟨.anim, hi⟩
  · rintro ⟨d, hd⟩; exact ⟨d.idx, hd⟩

example : (Ctrl.mk "x" 8 .override 3 2 true).isActive = true :=
  (active_iff_some_domain _ (fun i hi => by
    have h := mask_bit .lat i
    have hne : i ≠ Dom.lat.idx := by simp only [Dom.idx]; omega
    rw [decide_eq_false hne] at h
    exact h)).mpr ⟨.lat, by decide⟩

/-! Assignment -/

/-- Assigning puts the controller at the end of the list, exactly once, keeps the others in their order
and touches no controller. -/
theorem assign_effect (s : St) (p : Nat) :
    (assign s p).ctrls.getLast? = some p ∧ (assign s p).ctrls.count p = 1 ∧
    (∀ q, q ∈ (assign s p).ctrls ↔ q ∈ s.ctrls ∨ q = p) ∧
    ((assign s p).ctrls.filter (fun q => q != p)) = s.ctrls.filter (fun q => q != p) ∧
    (assign s p).heap = s.heap ∧ (s.ctrls.Nodup → (assign s p).ctrls.Nodup) := by
  have hc : (List.filter (fun q => q != p) s.ctrls).count p = 0 := by
    rw [List.count_eq_zero]; simp
  refine ⟨by simp [assign], ?_, ?_, ?_, rfl, ?_⟩
  · simp [assign, List.count_append, hc]
  · intro q
    by_cases h : q = p <;> simp [assign, h]
  · simp [assign, List.filter_append]
  · intro hn
    simp only [assign]
    rw [List.nodup_append]
    refine ⟨hn.filter _, by simp, ?_⟩
    intro a ha b hb
    simp at ha hb
    rw [hb]; exact ha.2

example : (assign ⟨demoHeap 0 0, [0, 1]⟩ 0).ctrls = [1, 0] := by decide

/-- Unassigning one controller takes it out of the list, switches it off on every domain and unlinks it;
every other controller stays as it was. -/
theorem unassign_effect (s : St) (p : Nat) :
    (unassign s p).ctrls = s.ctrls.filter (fun q => q != p) ∧
    (p ∈ s.ctrls → (∀ d, ¬ On ((unassign s p).heap p) d) ∧ ((unassign s p).heap p).linked = false) ∧
    (p ∉ s.ctrls → (unassign s p).heap = s.heap) ∧
    (∀ q, q ≠ p → (unassign s p).heap q = s.heap q) := by
  refine ⟨rfl, ?_, ?_, ?_⟩
  · intro hp
    have hf : s.ctrls.find? (fun q => q == p) ≠ none := by
      simp only [ne_eq, List.find?_eq_none]
      intro h; have := h p hp; simp at this
    simp only [unassign, if_pos hf, set_self]
    exact ⟨fun d => deactivate_off _ d, rfl⟩
  · intro hp
    have hf : s.ctrls.find? (fun q => q == p) = none := by
      rw [List.find?_eq_none]
      intro x hx; simp; rintro rfl; exact hp hx
    simp only [unassign, hf, ne_eq, not_true_eq_false, if_false]
  · intro q hq
    simp only [unassign]
    split
    · exact set_other _ _ hq
    · rfl

example : ∀ d, ¬ On ((unassign ⟨demoHeap 1 2, [0, 1]⟩ 1).heap 1) d :=
  ((unassign_effect ⟨demoHeap 1 2, [0, 1]⟩ 1).2.1 (by decide)).1

theorem foldl_deactivate (l : List Nat) : ∀ (h : Heap) (q : Nat),
    (q ∉ l → (l.foldl (fun h p => h.set p (h p).deactivate) h) q = h q) ∧
    (q ∈ l → (∀ d, ¬ On ((l.foldl (fun h p => h.set p (h p).deactivate) h) q) d)) ∧
    ((l.foldl (fun h p => h.set p (h p).deactivate) h) q).linked = (h q).linked := by
  induction l with
  | nil => intro h q; exact ⟨fun _ => rfl, fun hq => absurd hq (by simp), rfl⟩
  | cons p ps ih =>
    intro h q
    simp only [List.foldl_cons]
    obtain ⟨h1, h2, h3⟩ := ih (h.set p (h p).deactivate) q
    refine ⟨?_, ?_, ?_⟩
    · intro hq
      simp only [List.mem_cons, not_or] at hq
      rw [h1 hq.2, set_other _ _ hq.1]
    · intro hq
      by_cases hps : q ∈ ps
      · exact h2 hps
      · have : q = p := by simpa [hps] using hq
        rw [h1 hps, this, set_self]
        exact deactivate_off _
    · rw [h3]
      by_cases hq : q = p
      · rw [hq, set_self]; rfl
      · rw [set_other _ _ hq]

/-- Unassigning all controllers empties the list and switches every one of them off; controllers of
other objects stay as they were. -/
theorem unassignAll_effect (s : St) :
    (unassignAll s).ctrls = [] ∧ (∀ q ∈ s.ctrls, ∀ d, ¬ On ((unassignAll s).heap q) d) ∧
    (∀ q, q ∉ s.ctrls → (unassignAll s).heap q = s.heap q) :=
  ⟨rfl, fun q hq => (foldl_deactivate s.ctrls s.heap q).2.1 hq,
    fun q hq => (foldl_deactivate s.ctrls s.heap q).1 hq⟩

example : ∀ d, ¬ On ((unassignAll ⟨demoHeap 1 2, [0, 1]⟩).heap 1) d :=
  (unassignAll_effect ⟨demoHeap 1 2, [0, 1]⟩).2.1 1 (by decide)

/-- But, unlike unassigning one by one, it leaves every controller linked to the object. -/
theorem unassignAll_links_fails (s : St) (q : Nat) :
    ((unassignAll s).heap q).linked = (s.heap q).linked :=
  (foldl_deactivate s.ctrls s.heap q).2.2

example : ((unassignAll ⟨demoHeap 1 2, [0, 1]⟩).heap 1).linked = true ∧
    ((unassign ⟨demoHeap 1 2, [0, 1]⟩ 1).heap 1).linked = false := by decide

/-! Activation by the scenario -/

/-- The requested activation of a domain. -/
def want (lat long light anim : ActMode) : Dom → ActMode
  | .long => long
  | .lat => lat
  | .light => light
  | .anim => anim

/-- An assign action with activation asks for lateral control and gets longitudinal control: the two are
swapped. -/
theorem assign_activation_swapped_fails :
    ∃ s : St, let s' := assignAction s 2 .on .undefined .undefined .undefined
      Can (s.heap 2) .lat ∧ ¬ On (s'.heap 2) .lat ∧ On (s'.heap 2) .long := by
  refine ⟨⟨demoHeap 0 0, []⟩, by decide, by decide, by decide⟩

/-- What it does for any inactive controller: the lateral request goes to the longitudinal domain and the
other way round. -/
theorem assign_activation_exact (s : St) (p : Nat) (lat long light anim : ActMode)
    (hi : (s.heap p).isActive = false) :
    (On ((assignAction s p lat long light anim).heap p) .long ↔ lat = .on ∧ Can (s.heap p) .long) ∧
    (On ((assignAction s p lat long light anim).heap p) .lat ↔ long = .on ∧ Can (s.heap p) .lat) ∧
    (On ((assignAction s p lat long light anim).heap p) .light ↔ light = .on ∧ Can (s.heap p) .light) ∧
    (On ((assignAction s p lat long light anim).heap p) .anim ↔ anim = .on ∧ Can (s.heap p) .anim) := by
  have hoff : ∀ d : Dom, (s.heap p).active.getLsbD d.idx = false := by
    intro d
    cases hb : (s.heap p).active.getLsbD d.idx
    · rfl
    · have := (isActive_iff (s.heap p)).mpr ⟨_, hb⟩
      rw [hi] at this; simp at this
  have hh : (assign s p).heap = s.heap := rfl
  unfold assignAction
  simp only [hh, hi, Bool.not_false, if_true]
  by_cases hu : lat ≠ .undefined ∨ long ≠ .undefined ∨ light ≠ .undefined ∨ anim ≠ .undefined
  · simp only [if_pos hu, set_self]
    unfold On Can
    simp only [activate_bit, hoff]
    simp only [assignModes, Dom.idx]
    refine ⟨?_, ?_, ?_, ?_⟩
    · cases lat <;> simp
    · cases long <;> simp
    · cases light <;> simp
    · cases anim <;> simp
  · simp only [if_neg hu, hh]
    simp only [not_or, ne_eq, Classical.not_not] at hu
    obtain ⟨h1, h2, h3, h4⟩ := hu
    subst h1; subst h2; subst h3; subst h4
    unfold On
    simp [hoff]

example : On ((assignAction ⟨demoHeap 0 0, []⟩ 2 .on .off .off .off).heap 2) .long :=
  (assign_activation_exact ⟨demoHeap 0 0, []⟩ 2 .on .off .off .off (by decide)).1.mpr ⟨rfl, by decide⟩

/-- When the lateral and longitudinal requests are the same, the assign action activates what was asked
for, where the controller can operate.  Missing: different requests (see
`assign_activation_swapped_fails`). -/
theorem assign_activation_partial (s : St) (p : Nat) (drive light anim : ActMode) (d : Dom)
    (hi : (s.heap p).isActive = false) :
    On ((assignAction s p drive drive light anim).heap p) d ↔
      want drive drive light anim d = .on ∧ Can (s.heap p) d := by
  obtain ⟨h1, h2, h3, h4⟩ := assign_activation_exact s p drive drive light anim hi
  cases d
  · exact h1
  · exact h2
  · exact h3
  · exact h4

example : On ((assignAction ⟨demoHeap 0 0, []⟩ 2 .on .on .off .off).heap 2) .lat :=
  (assign_activation_partial ⟨demoHeap 0 0, []⟩ 2 .on .off .off .lat (by decide)).mpr ⟨rfl, by decide⟩

/-- The list after an activate action is the same, and the action is carried out exactly when the
controller is found: the named one or, without a name, the one assigned last. -/
theorem activate_action_target (s : St) (name : String) (lat long light anim : ActMode) (minor : Nat) :
    ((activateAction s name lat long light anim minor).2 = true ↔
      (name = "" ∧ s.ctrls ≠ []) ∨ (name ≠ "" ∧ ∃ p ∈ s.ctrls, (s.heap p).name = name)) ∧
    ((activateAction s name lat long light anim minor).2 = false →
      (activateAction s name lat long light anim minor).1 = s) := by
  unfold activateAction
  by_cases h0 : s.ctrls.length = 0
  · have : s.ctrls = [] := List.length_eq_zero_iff.mp h0
    simp [this]
  · have hne : s.ctrls ≠ [] := fun h => h0 (by simp [h])
    simp only [if_neg h0]
    unfold chosen
    by_cases hn : name = ""
    · simp only [if_pos hn]
      cases hl : s.ctrls.getLast? with
      | none => exact absurd (List.getLast?_eq_none_iff.mp hl) hne
      | some p => simp [hn, hne]
    · simp only [if_neg hn]
      cases hg : getController s name with
      | none =>
        have := List.find?_eq_none.mp hg
        simp only [beq_iff_eq] at this
        simp [hn]
        exact this
      | some p =>
        have h1 := List.find?_some hg
        have h2 := List.mem_of_find?_eq_some hg
        simp [hn]
        exact ⟨p, h2, by simpa using h1⟩

example : (activateAction ⟨demoHeap 1 2, [0, 1, 2]⟩ "B" .on .on .off .off 1).2 = true :=
  (activate_action_target _ _ _ _ _ _ _).1.mpr (Or.inr ⟨by decide, 1, by decide, by decide⟩)

theorem activateModes_want (lat long light anim : ActMode) :
    activateModes lat long light anim = want lat long light anim := by
  funext d; cases d <;> rfl

theorem activateAction_some {s : St} {name : String} {p : Nat} (lat long light anim : ActMode)
    (minor : Nat) (hp : chosen s name = some p) (hne : s.ctrls ≠ []) :
    activateAction s name lat long light anim minor =
      ({ (makeRoom p (want lat long light anim) minor Dom.all s) with
          heap := (makeRoom p (want lat long light anim) minor Dom.all s).heap.set p
            (((makeRoom p (want lat long light anim) minor Dom.all s).heap p).activate
              (want lat long light anim)) }, true) := by
  have h0 : ¬ s.ctrls.length = 0 := fun h => hne (List.length_eq_zero_iff.mp h)
  unfold activateAction
  simp only [if_neg h0, hp, activateModes_want]

theorem chosen_ne {s : St} {name : String} {p : Nat} (hp : chosen s name = some p) :
    s.ctrls ≠ [] ∧ p ∈ s.ctrls := by
  unfold chosen at hp
  have hm : p ∈ s.ctrls := by
    by_cases hn : name = ""
    · rw [if_pos hn] at hp
      exact List.mem_of_getLast? hp
    · rw [if_neg hn] at hp
      exact List.mem_of_find?_eq_some hp
  exact ⟨fun h => by rw [h] at hm; simp at hm, hm⟩

/-- An activate action activates its controller on each domain asked for on which it can operate, and
switches it off on each domain asked off. -/
theorem activate_action_gets (s : St) (name : String) (p : Nat) (lat long light anim : ActMode)
    (minor : Nat) (d : Dom) (hp : chosen s name = some p) :
    (want lat long light anim d = .on → Can (s.heap p) d →
      On ((activateAction s name lat long light anim minor).1.heap p) d) ∧
    (want lat long light anim d = .off →
      ¬ On ((activateAction s name lat long light anim minor).1.heap p) d) := by
  rw [activateAction_some lat long light anim minor hp (chosen_ne hp).1]
  simp only [set_self]
  have hop : ((makeRoom p (want lat long light anim) minor Dom.all s).heap p).operating =
      (s.heap p).operating := by
    by_cases hm : minor ≥ 3
    · exact (makeRoom_new p _ minor hm Dom.all s).2.2.1
    · rcases makeRoom_old p (want lat long light anim) minor (by omega) Dom.all s with
        ⟨h, _⟩ | ⟨_, _, _, q, _, _, h⟩
      · rw [h]
      · rw [h]
        by_cases hq : p = q
        · subst hq; simp only [set_self]; rfl
        · simp only [set_other _ _ hq]
  constructor
  · intro h1 h2
    refine (activate_domain _ _ d).2.1 h1 ?_
    unfold Can; rw [hop]; exact h2
  · intro h1
    exact (activate_domain _ _ d).1 h1

example : On ((activateAction ⟨demoHeap 1 2, [0, 1, 2]⟩ "" .on .undefined .off .off 1).1.heap 2) .lat :=
  (activate_action_gets _ _ 2 _ _ _ _ _ .lat (by decide)).1 rfl (by decide)

/-- From OpenSCENARIO 1.3 on an activate action keeps its controller's state on every domain it does not
mention. -/
theorem activate_action_keeps_unspecified (s : St) (name : String) (p : Nat)
    (lat long light anim : ActMode) (minor : Nat) (d : Dom) (hp : chosen s name = some p)
    (hm : minor ≥ 3) (hd : want lat long light anim d = .undefined) :
    On ((activateAction s name lat long light anim minor).1.heap p) d ↔ On (s.heap p) d := by
  rw [activateAction_some lat long light anim minor hp (chosen_ne hp).1]
  simp only [set_self]
  rw [(activate_domain _ _ d).2.2.2 hd]
  exact (makeRoom_new p _ minor hm Dom.all s).2.2.2.1 d (by rw [hd]; simp)

example : On ((activateAction ⟨demoHeap 3 0, [0, 1]⟩ "A" .undefined .on .off .off 3).1.heap 0) .lat :=
  (activate_action_keeps_unspecified _ _ 0 _ _ _ _ 3 .lat (by decide) (by decide) rfl).mpr (by decide)

/-- Before 1.3 it does not: asking a controller active on both driving domains to be active on the
longitudinal one makes it lose the lateral one. -/
theorem activate_old_loses_unspecified_fails :
    ∃ s : St, chosen s "A" = some 0 ∧ On (s.heap 0) .lat ∧ On (s.heap 0) .long ∧
      ¬ On ((activateAction s "A" .undefined .on .undefined .undefined 2).1.heap 0) .lat := by
  refine ⟨⟨demoHeap 3 0, [0, 1]⟩, by decide, by decide, by decide, by decide⟩

/-- From 1.3 on, an activate action does not take the domain from the controller active on it: both end
up active. -/
theorem activate_new_exclusive_fails :
    ∃ s : St, Excl s ∧ chosen s "B" = some 1 ∧ (activateAction s "B" .on .on .undefined .undefined 3).2 = true ∧
      ¬ Excl (activateAction s "B" .on .on .undefined .undefined 3).1 := by
  refine ⟨⟨demoHeap 3 0, [0, 1]⟩, ?_, by decide, by decide, ?_⟩
  · intro d p hp q hq h1 h2
    have hp' : p = 0 ∨ p = 1 := by simpa using hp
    have hq' : q = 0 ∨ q = 1 := by simpa using hq
    rcases hp' with rfl | rfl <;> rcases hq' with rfl | rfl <;> revert h1 h2 <;> cases d <;> decide
  · intro h
    exact absurd (h .lat 0 (by decide) 1 (by decide) (by decide) (by decide)) (by decide)

/-- Precisely: from 1.3 on no controller other than the one activated is ever changed. -/
theorem activate_new_others_untouched (s : St) (name : String) (p q : Nat)
    (lat long light anim : ActMode) (minor : Nat) (hp : chosen s name = some p) (hm : minor ≥ 3)
    (hq : q ≠ p) :
    (activateAction s name lat long light anim minor).1.heap q = s.heap q := by
  rw [activateAction_some lat long light anim minor hp (chosen_ne hp).1]
  simp only [set_other _ _ hq]
  exact (makeRoom_new p _ minor hm Dom.all s).2.1 q hq

example : On ((activateAction ⟨demoHeap 3 0, [0, 1]⟩ "B" .on .on .off .off 3).1.heap 0) .lat := by
  rw [activate_new_others_untouched ⟨demoHeap 3 0, [0, 1]⟩ "B" 1 0 .on .on .off .off 3 (by decide)
    (by decide) (by decide)]
  decide

/-- Before 1.3, two controllers on one domain each and a third one asked onto both: one of the two stays
active together with the new one.  All three states are reached from scratch by activate actions. -/
theorem activate_old_exclusive_fails :
    ∃ s : St, (∀ q d, ¬ On (s.heap q) d) ∧
      let s1 := (activateAction s "A" .undefined .on .undefined .undefined 2).1
      let s2 := (activateAction s1 "B" .on .undefined .undefined .undefined 2).1
      let s3 := (activateAction s2 "C" .on .on .undefined .undefined 2).1
      On (s3.heap 1) .lat ∧ On (s3.heap 2) .lat ∧ 1 ∈ s3.ctrls ∧ 2 ∈ s3.ctrls := by
  refine ⟨⟨demoHeap 0 0, [0, 1, 2]⟩, ?_, by decide, by decide, by decide, by decide⟩
  intro q d
  by_cases h0 : q = 0
  · subst h0; cases d <;> decide
  · by_cases h1 : q = 1
    · subst h1; cases d <;> decide
    · cases d <;> simp [On, demoHeap, h0, h1]

/-- An activate action keeps every domain with at most one controller if no controller but the chosen one
is active on a requested domain.  Missing: taking a domain over from another controller from 1.3 on. -/
theorem activate_exclusive_partial (s : St) (name : String) (p : Nat) (lat long light anim : ActMode)
    (minor : Nat) (hp : chosen s name = some p) (hx : Excl s)
    (hfree : ∀ d, want lat long light anim d = .on → ∀ q ∈ s.ctrls, q ≠ p → ¬ On (s.heap q) d) :
    Excl (activateAction s name lat long light anim minor).1 := by
  have key : ∀ t : St, t.ctrls = s.ctrls → (∀ q, q ≠ p → ∀ d, On (t.heap q) d → On (s.heap q) d) →
      (∀ d, On (t.heap p) d → On (s.heap p) d) →
      Excl { t with heap := t.heap.set p ((t.heap p).activate (want lat long light anim)) } := by
    intro t hc ho hpp d a ha b hb h1 h2
    simp only [hc] at ha hb
    have aux : ∀ x ∈ s.ctrls, x ≠ p →
        On ((t.heap.set p ((t.heap p).activate (want lat long light anim))) x) d →
        On ((t.heap.set p ((t.heap p).activate (want lat long light anim))) p) d → False := by
      intro x hx' hne hox hop
      rw [set_other _ _ hne] at hox
      rw [set_self] at hop
      have hs := ho x hne d hox
      cases hw : want lat long light anim d with
      | off => exact (activate_domain _ _ d).1 hw hop
      | on => exact hfree d hw x hx' hne hs
      | undefined =>
        have := ((activate_domain (t.heap p) _ d).2.2.2 hw).mp hop
        have hps := hpp d this
        exact hne (hx d x hx' p (chosen_ne hp).2 hs hps)
    by_cases hap : a = p
    · by_cases hbp : b = p
      · rw [hap, hbp]
      · subst hap
        exact (aux b hb hbp h2 h1).elim
    · by_cases hbp : b = p
      · subst hbp
        exact (aux a ha hap h1 h2).elim
      · simp only [set_other _ _ hap] at h1
        simp only [set_other _ _ hbp] at h2
        exact hx d a ha b hb (ho a hap d h1) (ho b hbp d h2)
  rw [activateAction_some lat long light anim minor hp (chosen_ne hp).1]
  by_cases hm : minor ≥ 3
  · obtain ⟨h1, h2, _, _, h5⟩ := makeRoom_new p (want lat long light anim) minor hm Dom.all s
    exact key _ h1 (fun q hq d h => by rw [h2 q hq] at h; exact h) h5
  · rcases makeRoom_old p (want lat long light anim) minor (by omega) Dom.all s with
      ⟨h, _⟩ | ⟨e, _, _, q, _, _, h⟩
    · rw [h]; exact key s rfl (fun _ _ _ h => h) (fun _ h => h)
    · rw [h]
      have off : ∀ x d, On ((s.heap.set q (s.heap q).deactivate) x) d → On (s.heap x) d := by
        intro x d hon
        by_cases hxq : x = q
        · rw [hxq, set_self] at hon; exact absurd hon (deactivate_off _ d)
        · rw [set_other _ _ hxq] at hon; exact hon
      exact key _ rfl (fun x _ d => off x d) (fun d => off p d)

example : Excl (activateAction ⟨demoHeap 1 0, [0, 1]⟩ "B" .on .undefined .undefined .undefined 3).1 := by
  refine activate_exclusive_partial _ _ 1 _ _ _ _ _ (by decide) ?_ ?_
  · intro d p hp q hq h1 h2
    have hp' : p = 0 ∨ p = 1 := by simpa using hp
    have hq' : q = 0 ∨ q = 1 := by simpa using hq
    rcases hp' with rfl | rfl <;> rcases hq' with rfl | rfl <;> revert h1 h2 <;> cases d <;> decide
  · intro d hd q hq hne
    have hq' : q = 0 ∨ q = 1 := by simpa using hq
    rcases hq' with rfl | rfl
    · revert hd; cases d <;> decide
    · exact absurd rfl hne

/-- Before 1.3: if at most one controller is active on anything, after an activate action no domain has
two controllers.  Missing: several controllers active before (see `activate_old_exclusive_fails`). -/
theorem activate_old_takes_over_partial (s : St) (name : String) (p : Nat) (lat long light anim : ActMode)
    (minor : Nat) (hm : minor < 3) (hp : chosen s name = some p) (hone : OneActive s) :
    Excl (activateAction s name lat long light anim minor).1 := by
  rcases makeRoom_old p (want lat long light anim) minor hm Dom.all s with
      ⟨_, hno⟩ | ⟨e, _, _, q, hq, hqe, h⟩
  · exact activate_exclusive_partial s name p lat long light anim minor hp
      (fun d a ha b hb h1 h2 => hone d d a ha b hb h1 h2)
      (fun d hd a ha _ => hno d (dom_mem d) hd a ha)
  · rw [activateAction_some lat long light anim minor hp (chosen_ne hp).1, h]
    -- after switching off the only active controller nothing is active
    have hnone : ∀ x ∈ s.ctrls, ∀ d, ¬ On ((s.heap.set q (s.heap q).deactivate) x) d := by
      intro x hx d hon
      by_cases hxq : x = q
      · rw [hxq, set_self] at hon; exact deactivate_off _ d hon
      · rw [set_other _ _ hxq] at hon
        exact hxq (hone d e x hx q hq hon hqe)
    intro d a ha b hb h1 h2
    have only : ∀ x ∈ s.ctrls,
        On (((s.heap.set q (s.heap q).deactivate).set p
          (((s.heap.set q (s.heap q).deactivate) p).activate (want lat long light anim))) x) d → x = p := by
      intro x hx hon
      by_cases hxp : x = p
      · exact hxp
      · rw [set_other _ _ hxp] at hon
        exact absurd hon (hnone x hx d)
    rw [only a ha h1, only b hb h2]

example : Excl (activateAction ⟨demoHeap 3 0, [0, 1]⟩ "B" .on .on .undefined .undefined 2).1 := by
  refine activate_old_takes_over_partial _ _ 1 _ _ _ _ 2 (by decide) (by decide) ?_
  intro d e p hp q hq h1 h2
  have hp' : p = 0 ∨ p = 1 := by simpa using hp
  have hq' : q = 0 ∨ q = 1 := by simpa using hq
  rcases hp' with rfl | rfl <;> rcases hq' with rfl | rfl
  · rfl
  · revert h2; cases e <;> decide
  · revert h1; cases d <;> decide
  · rfl

/-! Queries -/

/-- Asking for an active controller on the given domains: the requested type plays no role. -/
theorem active_query_exact (s : St) (m : Mask) (t : Nat) :
    (isActiveOnDomains s m t = true ↔
      ∃ p ∈ s.ctrls, ∀ i, m.getLsbD i = true → (s.heap p).active.getLsbD i = true) ∧
    (isActiveOnAny s m t = true ↔
      ∃ p ∈ s.ctrls, ∃ i, m.getLsbD i = true ∧ (s.heap p).active.getLsbD i = true) := by
  constructor
  · unfold isActiveOnDomains
    simp only [List.any_eq_true, beq_self_eq_true, Bool.or_true, Bool.and_true, activeOn_iff]
  · unfold isActiveOnAny
    simp only [List.any_eq_true, beq_self_eq_true, Bool.or_true, Bool.and_true, activeOnAny_iff]

example : isActiveOnDomains ⟨demoHeap 1 2, [0, 1]⟩ 2 typeUndefined = true :=
  (active_query_exact _ _ _).1.mpr ⟨1, by decide, fun i hi => hi⟩

/-- So asking for an active controller of a given type is answered yes though none of that type is even
assigned. -/
theorem active_query_type_fails :
    ∃ (s : St) (t : Nat), isActiveOnDomains s Dom.lat.mask t = true ∧ t ≠ typeUndefined ∧
      ∀ p ∈ s.ctrls, (s.heap p).typ ≠ t := by
  refine ⟨⟨demoHeap 3 0, [0, 1]⟩, 11, by decide, by decide, by decide⟩

/-- With at most one controller per domain, asking whether the domain is controlled in a mode says
whether some assigned controller is active on it with that mode. -/
theorem mode_query_exact (s : St) (mode : OpMode) (d : Dom) (t : Nat) (hx : Excl s) :
    isModeOnDomains s mode d.mask t = true ↔
      ∃ p ∈ s.ctrls, On (s.heap p) d ∧ (s.heap p).mode = mode := by
  unfold isModeOnDomains
  constructor
  · intro h
    obtain ⟨p, hp, h1, h2⟩ := modeLoop_true h
    exact ⟨p, hp, (activeOn_mask _ _).mp h1, h2⟩
  · rintro ⟨p, hp, h1, h2⟩
    cases hl : modeLoop s.heap mode d.mask t s.ctrls
    · exfalso
      exact modeLoop_false (fun a ha b hb h1 h2 =>
        hx d a ha b hb ((activeOn_mask _ _).mp h1) ((activeOn_mask _ _).mp h2)) hl p hp
        ((activeOn_mask _ _).mpr h1) h2
    · rfl

theorem demo_excl (a : Mask) : Excl ⟨demoHeap a 0, [0, 1]⟩ := by
  intro d p hp q hq h1 h2
  have hp' : p = 0 ∨ p = 1 := by simpa using hp
  have hq' : q = 0 ∨ q = 1 := by simpa using hq
  rcases hp' with rfl | rfl <;> rcases hq' with rfl | rfl
  · rfl
  · exact absurd h2 (by cases d <;> simp [On, demoHeap])
  · exact absurd h1 (by cases d <;> simp [On, demoHeap])
  · rfl

example : isModeOnDomains ⟨demoHeap 3 0, [0, 1]⟩ .override Dom.lat.mask 0 = true :=
  (mode_query_exact _ _ .lat _ (demo_excl 3)).mpr ⟨0, by decide, by decide, by decide⟩

/-- Without that, the answer is the first active controller's: an overriding controller second in the
list goes unseen. -/
theorem mode_query_shadowed_fails :
    ∃ s : St, (∃ p ∈ s.ctrls, On (s.heap p) .lat ∧ (s.heap p).mode = .override) ∧
      isModeOnDomains s .override Dom.lat.mask typeUndefined = false := by
  refine ⟨⟨demoHeap 3 2, [1, 0]⟩, ⟨0, by decide, by decide, by decide⟩, by decide⟩

/-- The type reported for a domain is that of a controller active on it, the default controller's (or
ghost's) when there is none. -/
theorem type_active_on (s : St) (d : Dom) (g : Bool) (dt gt : Nat) :
    ((∃ p ∈ s.ctrls, On (s.heap p) d ∧ typeActiveOn s d g dt gt = (s.heap p).typ) ∨
      ((∀ p ∈ s.ctrls, ¬ On (s.heap p) d) ∧ typeActiveOn s d g dt gt = if g then gt else dt)) := by
  unfold typeActiveOn
  cases h : activeOnMask s d.mask with
  | some p =>
    left
    obtain ⟨h1, h2⟩ := activeOnMask_some h
    exact ⟨p, h1, (activeOn_mask _ _).mp h2, rfl⟩
  | none =>
    right
    refine ⟨?_, rfl⟩
    intro p hp hon
    have := activeOnMask_none h p hp
    rw [(activeOn_mask _ _).mpr hon] at this
    simp at this

example : typeActiveOn ⟨demoHeap 3 0, [0, 1]⟩ .lat false 0 100 = 8 ∧
    typeActiveOn ⟨demoHeap 1 0, [0, 1]⟩ .lat true 0 100 = 100 := by decide

/-! Who moves the vehicle -/

/-- With at most one controller per domain, the engine moves a vehicle along the road exactly when no
overriding controller has the longitudinal domain, no action has moved it in this step, it is not
standing still, is no trailer, and is not held during a ghost restart. -/
theorem default_moves_iff (s : St) (speed : Rat) (ghost restarting tow dirtyLong : Bool) (hx : Excl s) :
    defaultMoves s speed ghost restarting tow dirtyLong = true ↔
      (¬ ∃ p ∈ s.ctrls, On (s.heap p) .long ∧ (s.heap p).mode = .override) ∧
      dirtyLong = false ∧ (speed > 1/1000000 ∨ speed < -(1/1000000)) ∧ tow = false ∧
      (restarting = true → ghost = true) := by
  have hq := mode_query_exact s .override .long typeUndefined hx
  have himp : isModeOnDomains s .override maskLatLong typeUndefined = true →
      isModeOnDomains s .override Dom.long.mask typeUndefined = true := by
    intro h
    obtain ⟨p, hp, h1, h2⟩ := modeLoop_true h
    exact hq.mpr ⟨p, hp, ((activeOn_latLong _).mp h1).2, h2⟩
  have hs : (speed > 1/1000000 ∨ -speed > 1/1000000) ↔ (speed > 1/1000000 ∨ speed < -(1/1000000)) := by
    grind
  rw [← hq, ← hs]
  unfold defaultMoves
  cases h1 : isModeOnDomains s .override maskLatLong typeUndefined <;>
    cases h2 : isModeOnDomains s .override Dom.long.mask typeUndefined
  · by_cases h3 : (speed > 1/1000000 ∨ -speed > 1/1000000) <;>
      cases ghost <;> cases restarting <;> cases tow <;> cases dirtyLong <;> simp [h3]
  · by_cases h3 : (speed > 1/1000000 ∨ -speed > 1/1000000) <;>
      cases ghost <;> cases restarting <;> cases tow <;> cases dirtyLong <;> simp
  · rw [himp h1] at h2; simp at h2
  · simp

example : defaultMoves ⟨demoHeap 2 0, [0, 1]⟩ 10 false false false false = true :=
  (default_moves_iff _ _ _ _ _ _ (demo_excl 2)).mpr
    ⟨by decide, rfl, Or.inl (by decide +kernel), rfl, by decide⟩

/-- The lateral distance action looks at the wrong domain: it yields to an overriding *longitudinal*
controller. -/
theorem lat_distance_yields_to_long (s : St) : latDistanceSkips s = longActionSkips s := rfl

/-- So it goes on steering though an overriding controller has the lateral domain, and stops steering
though none has. -/
theorem lat_distance_domain_fails :
    (∃ s : St, Excl s ∧ latActionSkips s = true ∧ latDistanceSkips s = false) ∧
    (∃ s : St, Excl s ∧ latActionSkips s = false ∧ latDistanceSkips s = true) :=
  ⟨⟨⟨demoHeap 2 0, [0, 1]⟩, demo_excl 2, by decide, by decide⟩,
   ⟨⟨demoHeap 1 0, [0, 1]⟩, demo_excl 1, by decide, by decide⟩⟩

/-- The other actions yield exactly to an overriding controller on their domain (with at most one
controller per domain). -/
theorem actions_yield (s : St) (hx : Excl s) :
    (latActionSkips s = true ↔ ∃ p ∈ s.ctrls, On (s.heap p) .lat ∧ (s.heap p).mode = .override) ∧
    (longActionSkips s = true ↔ ∃ p ∈ s.ctrls, On (s.heap p) .long ∧ (s.heap p).mode = .override) :=
  ⟨mode_query_exact s .override .lat _ hx, mode_query_exact s .override .long _ hx⟩

example : latActionSkips ⟨demoHeap 2 0, [0, 1]⟩ = true ∧ longActionSkips ⟨demoHeap 2 0, [0, 1]⟩ = false :=
  ⟨(actions_yield _ (demo_excl 2)).1.mpr ⟨0, by decide, by decide, by decide⟩, by decide⟩

end Verif.Control

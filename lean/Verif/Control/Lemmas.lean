import Verif.Control.Model
/-
Lemmas on masks and on the controller queries.
-/
namespace Verif.Control

/-- Spec: the controller is active on the domain (the bit of the domain's number is set). -/
def On (c : Ctrl) (d : Dom) : Prop := c.active.getLsbD d.idx = true

/-- Spec: the controller can operate on the domain. -/
def Can (c : Ctrl) (d : Dom) : Prop := c.operating.getLsbD d.idx = true

instance (c : Ctrl) (d : Dom) : Decidable (On c d) := inferInstanceAs (Decidable (_ = true))
instance (c : Ctrl) (d : Dom) : Decidable (Can c d) := inferInstanceAs (Decidable (_ = true))

theorem idx_lt (d : Dom) : d.idx < 32 := by cases d <;> decide

theorem idx_inj {d e : Dom} : d.idx = e.idx ↔ d = e := by cases d <;> cases e <;> decide

theorem mask_bit (d : Dom) (i : Nat) : d.mask.getLsbD i = decide (i = d.idx) := by
  by_cases hi : i < 32
  · revert i; cases d <;> decide
  · have h1 := idx_lt d
    have : i ≠ d.idx := by omega
    simp only [this, decide_false]
    exact BitVec.getLsbD_of_ge _ _ (by omega)

theorem and_mask_zero (m : Mask) (d : Dom) : m &&& d.mask = 0 ↔ m.getLsbD d.idx = false := by
  constructor
  · intro h
    have := congrArg (fun x : Mask => x.getLsbD d.idx) h
    simpa [mask_bit] using this
  · intro h
    apply BitVec.eq_of_getLsbD_eq
    intro i hi
    by_cases hd : i = d.idx
    · subst hd; simp [h]
    · simp [mask_bit, hd]

theorem activeOn_iff (c : Ctrl) (m : Mask) :
    c.activeOn m = true ↔ ∀ i, m.getLsbD i = true → c.active.getLsbD i = true := by
  unfold Ctrl.activeOn
  rw [beq_iff_eq]
  constructor
  · intro h i hi
    have := congrArg (fun x : Mask => x.getLsbD i) h
    simp only [BitVec.getLsbD_and, hi, Bool.true_and] at this
    exact this
  · intro h
    apply BitVec.eq_of_getLsbD_eq
    intro i _
    rw [BitVec.getLsbD_and]
    cases hm : m.getLsbD i
    · rfl
    · rw [h i hm]; rfl

theorem activeOn_mask (c : Ctrl) (d : Dom) : c.activeOn d.mask = true ↔ On c d := by
  rw [activeOn_iff]
  constructor
  · intro h; exact h d.idx (by simp [mask_bit])
  · intro h i hi
    rw [mask_bit] at hi
    have : i = d.idx := by simpa using hi
    subst this; exact h

theorem maskLatLong_bit (i : Nat) : maskLatLong.getLsbD i = decide (i = 0 ∨ i = 1) := by
  by_cases hi : i < 32
  · revert i; decide
  · have : ¬ (i = 0 ∨ i = 1) := by omega
    simp only [this, decide_false]
    exact BitVec.getLsbD_of_ge _ _ (by omega)

theorem activeOn_latLong (c : Ctrl) : c.activeOn maskLatLong = true ↔ On c .lat ∧ On c .long := by
  rw [activeOn_iff]
  constructor
  · intro h
    exact ⟨h 1 (by simp [maskLatLong_bit]), h 0 (by simp [maskLatLong_bit])⟩
  · rintro ⟨h1, h2⟩ i hi
    rw [maskLatLong_bit] at hi
    have : i = 0 ∨ i = 1 := by simpa using hi
    rcases this with h | h <;> subst h
    · exact h2
    · exact h1

theorem activeOnAny_iff (c : Ctrl) (m : Mask) :
    c.activeOnAny m = true ↔ ∃ i, m.getLsbD i = true ∧ c.active.getLsbD i = true := by
  unfold Ctrl.activeOnAny
  rw [bne_iff_ne]
  constructor
  · intro h
    by_cases hc : ∃ i, m.getLsbD i = true ∧ c.active.getLsbD i = true
    · exact hc
    · exfalso; apply h
      apply BitVec.eq_of_getLsbD_eq
      intro i _
      cases hm : m.getLsbD i
      · simp [hm]
      · cases ha : c.active.getLsbD i
        · simp [ha]
        · exact absurd ⟨i, hm, ha⟩ hc
  · rintro ⟨i, h1, h2⟩ h
    have := congrArg (fun x : Mask => x.getLsbD i) h
    simp [h1, h2] at this

theorem maskAll_bit (d : Dom) : maskAll.getLsbD d.idx = true := by cases d <;> decide

theorem isActive_iff (c : Ctrl) : c.isActive = true ↔ ∃ i, c.active.getLsbD i = true := by
  unfold Ctrl.isActive
  rw [bne_iff_ne]
  constructor
  · intro h
    by_cases hc : ∃ i, c.active.getLsbD i = true
    · exact hc
    · exfalso; apply h
      apply BitVec.eq_of_getLsbD_eq
      intro i _
      cases ha : c.active.getLsbD i
      · simp
      · exact absurd ⟨i, ha⟩ hc
  · rintro ⟨i, h1⟩ h
    rw [h] at h1
    simp at h1

/-- One round changes the bit of its own domain only. -/
theorem activateOne_bit (op a : Mask) (d : Dom) (m : ActMode) (e : Dom) :
    (activateOne op a d m).getLsbD e.idx =
      if e = d then
        (match m with
          | .off => false
          | .on => op.getLsbD d.idx || a.getLsbD e.idx
          | .undefined => a.getLsbD e.idx)
      else a.getLsbD e.idx := by
  have he := idx_lt e
  by_cases h : e = d
  · subst h
    cases m with
    | undefined => simp [activateOne]
    | off => simp [activateOne, mask_bit]
    | on =>
      simp only [activateOne, and_mask_zero]
      cases hop : op.getLsbD e.idx <;> simp [mask_bit]
  · have hi : ¬ e.idx = d.idx := fun hh => h (idx_inj.mp hh)
    cases m with
    | undefined => simp [activateOne]
    | off => simp only [activateOne, BitVec.getLsbD_and, BitVec.getLsbD_not, mask_bit, hi, he, h, decide_true, decide_false,
        Bool.not_false, Bool.and_true, if_false]
    | on =>
      simp only [activateOne, and_mask_zero]
      cases hop : op.getLsbD d.idx <;> simp [mask_bit, hi, h]

theorem activate_bit (c : Ctrl) (mode : Dom → ActMode) (e : Dom) :
    (c.activate mode).active.getLsbD e.idx =
      (match mode e with
          | .off => false
          | .on => c.operating.getLsbD e.idx || c.active.getLsbD e.idx
          | .undefined => c.active.getLsbD e.idx) := by
  unfold Ctrl.activate Dom.all
  simp only [List.foldl_cons, List.foldl_nil]
  cases e <;> simp [activateOne_bit]

theorem deactivateDomains_on (c : Ctrl) (d e : Dom) :
    On (c.deactivateDomains d.mask) e ↔ On c e ∧ e ≠ d := by
  have he := idx_lt e
  unfold On Ctrl.deactivateDomains
  by_cases h : e = d
  · subst h; simp [mask_bit]
  · have hi : ¬ e.idx = d.idx := fun hh => h (idx_inj.mp hh)
    simp only [BitVec.getLsbD_and, BitVec.getLsbD_not, mask_bit, hi, he, decide_true, decide_false,
        Bool.not_false, Bool.and_true]
    simp [h]

theorem deactivate_off (c : Ctrl) (e : Dom) : ¬ On c.deactivate e := by
  unfold On Ctrl.deactivate Ctrl.deactivateDomains
  simp [maskAll_bit]

theorem set_self (h : Heap) (p : Nat) (c : Ctrl) : h.set p c p = c := by simp [Heap.set]

theorem set_other (h : Heap) {p q : Nat} (c : Ctrl) (hq : q ≠ p) : h.set p c q = h q := by
  simp [Heap.set, hq]

/-- A heap where each controller is either unchanged or switched off on some domains. -/
theorem activeOnMask_some {s : St} {m : Mask} {q : Nat} (h : activeOnMask s m = some q) :
    q ∈ s.ctrls ∧ (s.heap q).activeOn m = true := by
  have h1 := List.find?_some h
  exact ⟨List.mem_of_find?_eq_some h, h1⟩

theorem activeOnMask_none {s : St} {m : Mask} (h : activeOnMask s m = none) :
    ∀ q ∈ s.ctrls, (s.heap q).activeOn m = false := by
  have := List.find?_eq_none.mp h
  intro q hq
  simpa using this q hq

/-- From OSC 1.3 on only the controller to be activated is touched, and it loses only bits which are
requested on. -/
theorem makeRoom_new (p : Nat) (mode : Dom → ActMode) (minor : Nat) (hm : minor ≥ 3) :
    ∀ (ds : List Dom) (s : St),
      (makeRoom p mode minor ds s).ctrls = s.ctrls ∧
      (∀ q, q ≠ p → (makeRoom p mode minor ds s).heap q = s.heap q) ∧
      ((makeRoom p mode minor ds s).heap p).operating = (s.heap p).operating ∧
      (∀ d, mode d ≠ .on → (On ((makeRoom p mode minor ds s).heap p) d ↔ On (s.heap p) d)) ∧
      (∀ d, On ((makeRoom p mode minor ds s).heap p) d → On (s.heap p) d) := by
  intro ds
  induction ds with
  | nil => intro s; exact ⟨rfl, fun _ _ => rfl, rfl, fun _ _ => Iff.rfl, fun _ h => h⟩
  | cons d ds ih =>
    intro s
    by_cases hd : mode d = .on
    · cases ha : activeOnMask s d.mask with
      | none =>
        simp only [makeRoom, hd, if_true, ha]
        exact ih s
      | some q =>
        simp only [makeRoom, hd, if_true, ha, if_pos hm]
        obtain ⟨h1, h2, h3, h4, h5⟩ :=
          ih { s with heap := s.heap.set p ((s.heap p).deactivateDomains d.mask) }
        refine ⟨h1, ?_, ?_, ?_, ?_⟩
        · intro q hq; rw [h2 q hq]; exact set_other _ _ hq
        · rw [h3]; simp only [set_self]; rfl
        · intro e he
          rw [h4 e he]; simp only [set_self, deactivateDomains_on]
          have : e ≠ d := fun hh => he (hh ▸ hd)
          simp [this]
        · intro e he
          have := h5 e he
          simp only [set_self, deactivateDomains_on] at this
          exact this.1
    · simp only [makeRoom, hd, if_false]
      exact ih s

/-- Before OSC 1.3: nothing happens, or exactly the first controller found active on a requested domain
is switched off. -/
theorem makeRoom_old (p : Nat) (mode : Dom → ActMode) (minor : Nat) (hm : minor < 3) :
    ∀ (ds : List Dom) (s : St),
      (makeRoom p mode minor ds s = s ∧
        ∀ d ∈ ds, mode d = .on → ∀ q ∈ s.ctrls, ¬ On (s.heap q) d) ∨
      (∃ d ∈ ds, mode d = .on ∧ ∃ q ∈ s.ctrls, On (s.heap q) d ∧
        makeRoom p mode minor ds s = { s with heap := s.heap.set q (s.heap q).deactivate }) := by
  intro ds
  have hm' : ¬ minor ≥ 3 := by omega
  induction ds with
  | nil => intro s; left; exact ⟨rfl, fun d hd => absurd hd (by simp)⟩
  | cons d ds ih =>
    intro s
    by_cases hd : mode d = .on
    · cases ha : activeOnMask s d.mask with
      | none =>
        simp only [makeRoom, hd, if_true, ha]
        have hn := activeOnMask_none ha
        rcases ih s with ⟨h1, h2⟩ | ⟨e, he, h1, q, h2⟩
        · left
          refine ⟨h1, ?_⟩
          intro e he hon q hq
          rcases List.mem_cons.mp he with rfl | he
          · intro hon'
            have := (activeOn_mask (s.heap q) e).mpr hon'
            rw [hn q hq] at this
            simp at this
          · exact h2 e he hon q hq
        · right; exact ⟨e, List.mem_cons_of_mem _ he, h1, q, h2⟩
      | some q =>
        obtain ⟨h1, h2⟩ := activeOnMask_some ha
        right
        refine ⟨d, List.mem_cons_self, hd, q, h1, (activeOn_mask _ _).mp h2, ?_⟩
        simp only [makeRoom, hd, if_true, ha, if_neg hm']
    · simp only [makeRoom, hd, if_false]
      rcases ih s with ⟨h1, h2⟩ | ⟨e, he, h1, q, h2⟩
      · left
        refine ⟨h1, ?_⟩
        intro e he hon q hq
        rcases List.mem_cons.mp he with rfl | he
        · exact absurd hon hd
        · exact h2 e he hon q hq
      · right; exact ⟨e, List.mem_cons_of_mem _ he, h1, q, h2⟩

theorem dom_mem (d : Dom) : d ∈ Dom.all := by cases d <;> decide

theorem modeLoop_true {h : Heap} {mode : OpMode} {m : Mask} {typ : Nat} {l : List Nat}
    (hl : modeLoop h mode m typ l = true) :
    ∃ p ∈ l, (h p).activeOn m = true ∧ (h p).mode = mode := by
  induction l with
  | nil => simp [modeLoop] at hl
  | cons p ps ih =>
    unfold modeLoop at hl
    by_cases ha : (h p).activeOn m = true
    · simp only [ha, if_true, Bool.and_eq_true, beq_iff_eq] at hl
      exact ⟨p, List.mem_cons_self, ha, hl.1⟩
    · simp only [ha] at hl
      obtain ⟨q, hq, h2⟩ := ih hl
      exact ⟨q, List.mem_cons_of_mem _ hq, h2⟩

theorem modeLoop_false {h : Heap} {mode : OpMode} {m : Mask} {typ : Nat} {l : List Nat}
    (hex : ∀ p ∈ l, ∀ q ∈ l, (h p).activeOn m = true → (h q).activeOn m = true → p = q)
    (hl : modeLoop h mode m typ l = false) :
    ∀ p ∈ l, (h p).activeOn m = true → (h p).mode ≠ mode := by
  induction l with
  | nil => intro p hp; simp at hp
  | cons p ps ih =>
    unfold modeLoop at hl
    by_cases ha : (h p).activeOn m = true
    · simp only [ha, if_true, beq_self_eq_true, Bool.or_true, Bool.and_true] at hl
      intro q hq haq
      have : q = p := hex q hq p List.mem_cons_self haq ha
      subst this
      simpa using hl
    · simp only [ha] at hl
      have := ih (fun a ha b hb => hex a (List.mem_cons_of_mem _ ha) b (List.mem_cons_of_mem _ hb)) hl
      intro q hq haq
      rcases List.mem_cons.mp hq with rfl | hq
      · exact absurd haq ha
      · exact this q hq haq

end Verif.Control

import Verif.Override.Model
/-
C168: overridden controls of an entity.
-/
namespace Verif.Override

/-! ## Specification -/

/-- `w` is the point of the interval nearest to `v`. -/
def Nearest (v lo hi w : Rat) : Prop :=
  lo ≤ w ∧ w ≤ hi ∧ (lo ≤ v → v ≤ hi → w = v) ∧ (v < lo → w = lo) ∧ (hi < v → w = hi)

/-- The last entry for a control in a list. -/
def LastOf (l : List Status) (c : Ctl) (s : Status) : Prop :=
  ∃ pre post, l = pre ++ s :: post ∧ s.type = c ∧ ∀ x ∈ post, x.type ≠ c

/-- Controls of the longitudinal motion. -/
def long (c : Ctl) : Bool := c ≠ .steeringWheel

/-- Truth values of an XML boolean. -/
def TrueText (s : String) : Prop := s = "true" ∨ s = "1"

def FalseText (s : String) : Prop := s = "false" ∨ s = "0"

/-! ## Reading -/

/-- All branches of the reader. -/
theorem readNode_cases {v12 : Bool} {pi : Rat} {n : Node} {s : Status}
    (h : readNode v12 pi n = some s) :
    s.active = decide (n.active = "true") ∧
    ((s.type = .throttle ∧ n.name = "Throttle" ∨ s.type = .clutch ∧ n.name = "Clutch") ∧
        s.value = rangeCheck n.value 0 1 ∧
        s.maxRate = (if v12 then n.maxRate.getD (-1) else -1) ∧ s.maxTorque = -1 ∨
     (s.type = .steeringWheel ∧ n.name = "SteeringWheel") ∧
        s.value = rangeCheck n.value (-2 * pi) (2 * pi) ∧
        s.maxRate = (if v12 then n.maxRate.getD (-1) else -1) ∧
        s.maxTorque = (if v12 then n.maxTorque.getD (-1) else -1) ∨
     (s.type = .brake ∧ n.name = "Brake" ∨ s.type = .parkingBrake ∧ n.name = "ParkingBrake") ∧
        s.maxTorque = -1 ∧
        (n.child = none ∧ s.value = rangeCheck n.value 0 1 ∧ s.valueType = 0 ∧ s.maxRate = -1 ∨
         ∃ ch, n.child = some ch ∧ s.maxRate = ch.maxRate.getD (-1) ∧
          (ch.name = "BrakeForce" ∧ s.valueType = 1 ∧
              s.value = (if ch.value < 0 then 0 else ch.value) ∨
           ch.name = "BrakePercent" ∧ s.valueType = 0 ∧ s.value = rangeCheck ch.value 0 1)) ∨
     (s.type = .gear ∧ n.name = "Gear") ∧ s.maxRate = -1 ∧ s.maxTorque = -1 ∧
        (n.child = none ∧ s.valueType = 0 ∧ (∀ x, n.number = some x → s.number = toInt x) ∨
         ∃ ch, n.child = some ch ∧
          (ch.name = "ManualGear" ∧ s.valueType = 0 ∧ s.number = ch.number ∨
           ch.name = "AutomaticGear" ∧ s.valueType = 1 ∧
            (ch.gear = "r" ∧ s.number = -1 ∨ ch.gear = "p" ∧ s.number = 1 ∨
             ch.gear = "n" ∧ s.number = 0 ∨ ch.gear = "d" ∧ s.number = 2)))) := by
  unfold readNode at h
  dsimp only at h
  have hbrake : ∀ c, readBrake c (decide (n.active = "true")) n = some s → s.type = c ∧
      s.active = decide (n.active = "true") ∧ s.maxTorque = -1 ∧
        (n.child = none ∧ s.value = rangeCheck n.value 0 1 ∧ s.valueType = 0 ∧ s.maxRate = -1 ∨
         ∃ ch, n.child = some ch ∧ s.maxRate = ch.maxRate.getD (-1) ∧
          (ch.name = "BrakeForce" ∧ s.valueType = 1 ∧
              s.value = (if ch.value < 0 then 0 else ch.value) ∨
           ch.name = "BrakePercent" ∧ s.valueType = 0 ∧ s.value = rangeCheck ch.value 0 1)) := by
    intro c h
    unfold readBrake at h
    cases hc : n.child with
    | none => simp only [hc] at h; cases h; simp
    | some ch =>
      simp only [hc] at h
      by_cases h1 : ch.name = "BrakeForce"
      · rw [if_pos h1] at h; cases h; simp [h1]
      · rw [if_neg h1] at h
        by_cases h2 : ch.name = "BrakePercent"
        · rw [if_pos h2] at h; cases h; simp [h2]
        · rw [if_neg h2] at h; simp at h
  by_cases h1 : n.name = "Throttle"
  · rw [if_pos h1] at h; cases h; simp [h1]
  rw [if_neg h1] at h
  by_cases h2 : n.name = "Brake"
  · rw [if_pos h2] at h
    obtain ⟨k1, k2, k3, k4⟩ := hbrake _ h
    exact ⟨k2, .inr (.inr (.inl ⟨.inl ⟨k1, h2⟩, k3, k4⟩))⟩
  rw [if_neg h2] at h
  by_cases h3 : n.name = "Clutch"
  · rw [if_pos h3] at h; cases h; simp [h3]
  rw [if_neg h3] at h
  by_cases h4 : n.name = "ParkingBrake"
  · rw [if_pos h4] at h
    obtain ⟨k1, k2, k3, k4⟩ := hbrake _ h
    exact ⟨k2, .inr (.inr (.inl ⟨.inr ⟨k1, h4⟩, k3, k4⟩))⟩
  rw [if_neg h4] at h
  by_cases h5 : n.name = "SteeringWheel"
  · rw [if_pos h5] at h; cases h; simp [h5]
  rw [if_neg h5] at h
  by_cases h6 : n.name = "Gear"
  · rw [if_pos h6] at h
    unfold readGear at h
    cases hc : n.child with
    | none =>
      simp only [hc] at h
      cases hn : n.number with
      | some x => simp only [hn] at h; cases h; simp [h6]
      | none =>
        simp only [hn] at h
        split at h
        · cases h; simp [h6]
        · simp at h
    | some ch =>
      simp only [hc] at h
      by_cases g1 : ch.name = "AutomaticGear"
      · rw [if_pos g1] at h
        by_cases r : ch.gear = "r"
        · rw [if_pos r] at h; cases h; simp [h6, g1, r]
        rw [if_neg r] at h
        by_cases r : ch.gear = "p"
        · rw [if_pos r] at h; cases h; simp [h6, g1, r]
        rw [if_neg r] at h
        by_cases r : ch.gear = "n"
        · rw [if_pos r] at h; cases h; simp [h6, g1, r]
        rw [if_neg r] at h
        by_cases r : ch.gear = "d"
        · rw [if_pos r] at h; cases h; simp [h6, g1, r]
        rw [if_neg r] at h; simp at h
      · rw [if_neg g1] at h
        by_cases g2 : ch.name = "ManualGear"
        · rw [if_pos g2] at h; cases h; simp [h6, g2]
        · rw [if_neg g2] at h; simp at h
  · rw [if_neg h6] at h; simp at h

theorem rangeCheck_nearest (v lo hi : Rat) (h : lo ≤ hi) : Nearest v lo hi (rangeCheck v lo hi) := by
  unfold Nearest rangeCheck
  grind

/-- C168: throttle, clutch and (by value or by percent) both brakes are within 0 and 1, the value of
the file if it is within. -/
theorem pedal_values {v12 : Bool} {pi : Rat} {n : Node} {s : Status}
    (h : readNode v12 pi n = some s) :
    (s.type = .throttle ∨ s.type = .clutch → Nearest n.value 0 1 s.value) ∧
    (s.type = .brake ∨ s.type = .parkingBrake →
      (n.child = none → Nearest n.value 0 1 s.value ∧ s.valueType = 0) ∧
      ∀ ch, n.child = some ch → (ch.name = "BrakePercent" → Nearest ch.value 0 1 s.value ∧
        s.valueType = 0)) := by
  have hc := fun v => rangeCheck_nearest v 0 1 (by decide)
  have h := readNode_cases h
  constructor
  · intro ht; grind
  · intro ht
    constructor
    · intro hn; grind
    · intro ch hn hp; grind

/-- C168: brake forces have no upper limit and are not negative. -/
theorem brake_force {v12 : Bool} {pi : Rat} {n : Node} {s : Status} {ch : Child}
    (h : readNode v12 pi n = some s) (ht : s.type = .brake ∨ s.type = .parkingBrake)
    (hn : n.child = some ch) (hf : ch.name = "BrakeForce") :
    0 ≤ s.value ∧ (0 ≤ ch.value → s.value = ch.value) ∧ s.valueType = 1 := by
  have h := readNode_cases h
  grind

/-- C168: the steering wheel is turned at most once around either way. -/
theorem wheel_value {v12 : Bool} {pi : Rat} (hpi : 0 ≤ pi) {n : Node} {s : Status}
    (h : readNode v12 pi n = some s) (ht : s.type = .steeringWheel) :
    Nearest n.value (-2 * pi) (2 * pi) s.value := by
  have hc := rangeCheck_nearest n.value (-2 * pi) (2 * pi) (by grind)
  have h := readNode_cases h
  grind

/-- C168: limits that are not given are reported as -1, given ones (of brakes, and from version 1.2
on) as they are. -/
theorem limits {v12 : Bool} {pi : Rat} {n : Node} {s : Status} (h : readNode v12 pi n = some s) :
    (n.maxRate = none → (∀ ch, n.child = some ch → ch.maxRate = none) → s.maxRate = -1) ∧
    (n.maxTorque = none → s.maxTorque = -1) ∧
    (v12 = true → s.type = .throttle ∨ s.type = .clutch ∨ s.type = .steeringWheel →
      ∀ r, n.maxRate = some r → s.maxRate = r) ∧
    (v12 = true → s.type = .steeringWheel → ∀ r, n.maxTorque = some r → s.maxTorque = r) ∧
    (s.type = .brake ∨ s.type = .parkingBrake → ∀ ch r, n.child = some ch → ch.maxRate = some r →
      s.maxRate = r) := by
  have h := readNode_cases h
  refine ⟨?_, ?_, ?_, ?_, ?_⟩ <;> intros <;> grind

/-- C168: gears by their numbers and letters; a whole number is kept. -/
theorem gears {v12 : Bool} {pi : Rat} {n : Node} {s : Status} (h : readNode v12 pi n = some s)
    (ht : s.type = .gear) :
    (∀ ch, n.child = some ch → ch.name = "AutomaticGear" → s.valueType = 1 ∧
      (s.number = -1 ↔ ch.gear = "r") ∧ (s.number = 0 ↔ ch.gear = "n") ∧
      (s.number = 1 ↔ ch.gear = "p") ∧ (s.number = 2 ↔ ch.gear = "d")) ∧
    (∀ ch, n.child = some ch → ch.name = "ManualGear" → s.valueType = 0 ∧ s.number = ch.number) ∧
    (∀ k : Int, n.child = none → n.number = some (k : Rat) → s.valueType = 0 ∧ s.number = k) := by
  have hi : ∀ k : Int, toInt (k : Rat) = k := by
    intro k; unfold toInt; split <;> simp [Rat.floor_intCast, Rat.ceil_intCast]
  have h := readNode_cases h
  refine ⟨?_, ?_, ?_⟩
  · intro ch hc hn; simp only [hc] at h; grind
  · intro ch hc hn; simp only [hc] at h; grind
  · intro k hc hn; simp only [hc, hn] at h; grind

/-- C168: "true" activates, "false" and "0" deactivate. -/
theorem active_partial {v12 : Bool} {pi : Rat} {n : Node} {s : Status}
    (h : readNode v12 pi n = some s) :
    (n.active = "true" → s.active = true) ∧ (FalseText n.active → s.active = false) := by
  have h := readNode_cases h
  unfold FalseText
  constructor
  · intro ha; simp only [ha, decide_true] at h; grind
  · intro ha
    have : decide (n.active = "true") = false := by rcases ha with h | h <;> rw [h] <;> decide
    simp only [this] at h; grind

/-- C168 fails: `active="1"` does not override. -/
theorem active_fails : ¬ ∀ v12 pi n s, readNode v12 pi n = some s → TrueText n.active →
    s.active = true := by
  intro h
  exact absurd (h true 3 { name := "Throttle", active := "1" }
    { type := .throttle, active := false } (by decide +kernel) (.inr rfl)) (by decide)

/-! ## Effect -/

theorem start_append (l m : List Status) (d d' : BitVec 4) (t : Table) :
    start ⟨l ++ m, d⟩ t = start ⟨m, d'⟩ (start ⟨l, d'⟩ t) := by
  simp [start, List.foldl_append]

theorem start_other (l : List Status) (d : BitVec 4) (c : Ctl) : ∀ t : Table,
    (∀ x ∈ l, x.type ≠ c) → start ⟨l, d⟩ t c = t c := by
  induction l with
  | nil => intro t _; rfl
  | cons x l ih =>
    intro t h
    have := ih (t.set x.type x) (fun y hy => h y (by simp [hy]))
    simp only [start, List.foldl_cons] at this ⊢
    rw [this]
    have hx := h x (by simp)
    simp [Table.set, hx.symm]

/-- C168: after the start of an action each control has the last entry the action has for it. -/
theorem start_last (a : Action) (t : Table) {c : Ctl} {s : Status} (h : LastOf a.list c s) :
    start a t c = s := by
  obtain ⟨pre, post, hl, hs, hp⟩ := h
  obtain ⟨l, d⟩ := a
  simp only at hl
  subst hl
  rw [start_append _ _ _ d]
  have := start_other post d c ((start ⟨pre, d⟩ t).set s.type s) hp
  simp only [start, List.foldl_cons] at this ⊢
  rw [this]
  simp [Table.set, hs]

/-- Controls the action does not name keep their state. -/
theorem start_frame (a : Action) (t : Table) {c : Ctl} (h : ∀ x ∈ a.list, x.type ≠ c) :
    start a t c = t c := start_other a.list a.domains c t h

/-- C168: after any sequence of override actions a control is as the last of them that names it
left it, and not overridden if none does. -/
theorem after_actions (l : List Action) (c : Ctl) :
    (∀ s, LastOf (l.flatMap Action.list) c s → l.foldl (fun t a => start a t) Table.init c = s) ∧
    ((∀ a ∈ l, ∀ x ∈ a.list, x.type ≠ c) →
      (l.foldl (fun t a => start a t) Table.init c).active = false) := by
  have hfold : ∀ (l : List Action) (t : Table),
      l.foldl (fun t a => start a t) t = start ⟨l.flatMap Action.list, 0#4⟩ t := by
    intro l
    induction l with
    | nil => intro t; rfl
    | cons a l ih =>
      intro t
      rw [List.foldl_cons, ih, List.flatMap_cons, start_append _ _ _ 0#4]
      rfl
  refine ⟨fun s h => ?_, fun h => ?_⟩
  · rw [hfold]; exact start_last ⟨_, 0#4⟩ _ h
  · rw [hfold, start_other _ _ c]
    · rfl
    · intro x hx
      obtain ⟨a, ha, hx⟩ := List.mem_flatMap.1 hx
      exact h a ha x hx

/-- The table entry of a control always names that control. -/
theorem table_types (l : List Action) (c : Ctl) :
    (l.foldl (fun t a => start a t) Table.init c).type = c := by
  suffices ∀ (l : List Action) (t : Table), (∀ c, (t c).type = c) →
      ∀ c, (l.foldl (fun t a => start a t) t c).type = c from this l _ (fun _ => rfl) c
  intro l
  induction l with
  | nil => intro t h; exact h
  | cons a l ih =>
    intro t h
    rw [List.foldl_cons]
    refine ih _ ?_
    obtain ⟨m, d⟩ := a
    suffices ∀ (m : List Status) (t : Table), (∀ c, (t c).type = c) →
        ∀ c, (start ⟨m, d⟩ t c).type = c from this m t h
    intro m
    induction m with
    | nil => intro t h; exact h
    | cons x m ihm =>
      intro t h
      refine ihm (t.set x.type x) ?_
      intro c; unfold Table.set; split
      · next hc => exact hc.symm
      · exact h c

/-- C168: the library reports throttle, wheel and gear of the last entries. -/
theorem reported (a : Action) (t : Table) :
    (∀ s, LastOf a.list .throttle s → (report (start a t)).throttle = ⟨s.active, s.value, s.maxRate⟩) ∧
    (∀ s, LastOf a.list .clutch s → (report (start a t)).clutch = ⟨s.active, s.value, s.maxRate⟩) ∧
    (∀ s, LastOf a.list .brake s →
      (report (start a t)).brake = ⟨s.active, .brake, s.value, s.maxRate, s.valueType⟩) ∧
    (∀ s, LastOf a.list .parkingBrake s → (report (start a t)).parkingBrake =
      ⟨s.active, .parkingBrake, s.value, s.maxRate, s.valueType⟩) ∧
    (∀ s, LastOf a.list .steeringWheel s → (report (start a t)).steeringWheel =
      ⟨s.active, s.value, s.maxRate, s.maxTorque⟩) ∧
    (∀ s, LastOf a.list .gear s →
      (report (start a t)).gear = ⟨s.active, .gear, s.number, s.valueType⟩) := by
  refine ⟨?_, ?_, ?_, ?_, ?_, ?_⟩ <;> intro s h <;> have h1 := start_last a t h <;>
    have h2 : s.type = _ := h.choose_spec.choose_spec.2.1 <;> simp [report, h1, h2]

/-! ## Reading a whole action, domains -/

/-- The entries of an action that has been read are those of the controls in the file, in order. -/
theorem readAll_list {v12 : Bool} {pi : Rat} : ∀ (l : List Node) {a : Action},
    readAll v12 pi l = some a → l.map (readNode v12 pi) = a.list.map some := by
  suffices ∀ (l : List Node) (a0 a : Action),
      l.foldlM (fun a n => (readNode v12 pi n).map (Action.add a)) a0 = some a →
      a.list.map some = a0.list.map some ++ l.map (readNode v12 pi) from
    fun l a h => by have := this l {} a h; simpa using this.symm
  intro l
  induction l with
  | nil => intro a0 a h; simp at h; simp [h]
  | cons n l ih =>
    intro a0 a h
    simp only [List.foldlM_cons, bind, Option.bind_eq_some_iff, Option.map_eq_some_iff] at h
    obtain ⟨a1, ⟨s, hs, rfl⟩, h⟩ := h
    rw [ih _ _ h]
    simp [Action.add, hs]

/-- Domain bits from entries added one after the other. -/
def addAll (l : List Status) : Action := l.foldl Action.add {}

/-- The bits after the entries: each is that of the last entry of its domain. -/
theorem addAll_bits (l : List Status) : ∀ a : Action,
    ((l.foldl Action.add a).domains &&& 1#4 ≠ 0#4 ↔
      (∃ pre x post, l = pre ++ x :: post ∧ long x.type = true ∧ x.active = true ∧
        ∀ y ∈ post, long y.type = false) ∨
      ((∀ y ∈ l, long y.type = false) ∧ a.domains &&& 1#4 ≠ 0#4)) ∧
    ((l.foldl Action.add a).domains &&& 2#4 ≠ 0#4 ↔
      (∃ pre x post, l = pre ++ x :: post ∧ long x.type = false ∧ x.active = true ∧
        ∀ y ∈ post, long y.type = true) ∨
      ((∀ y ∈ l, long y.type = true) ∧ a.domains &&& 2#4 ≠ 0#4)) := by
  induction l with
  | nil => intro a; simp
  | cons s l ih =>
    intro a
    obtain ⟨i1, i2⟩ := ih (a.add s)
    have hsplit : ∀ (b : Bool), (∃ pre x post, s :: l = pre ++ x :: post ∧ long x.type = b ∧
        x.active = true ∧ ∀ y ∈ post, long y.type = !b) ↔
        (long s.type = b ∧ s.active = true ∧ ∀ y ∈ l, long y.type = !b) ∨
        (∃ pre x post, l = pre ++ x :: post ∧ long x.type = b ∧ x.active = true ∧
          ∀ y ∈ post, long y.type = !b) := by
      intro b
      constructor
      · rintro ⟨pre, x, post, hl, h1, h2, h3⟩
        cases pre with
        | nil => simp at hl; obtain ⟨rfl, rfl⟩ := hl; exact .inl ⟨h1, h2, h3⟩
        | cons p pre => simp at hl; exact .inr ⟨pre, x, post, hl.2, h1, h2, h3⟩
      · rintro (⟨h1, h2, h3⟩ | ⟨pre, x, post, rfl, h1, h2, h3⟩)
        · exact ⟨[], s, l, rfl, h1, h2, h3⟩
        · exact ⟨s :: pre, x, post, rfl, h1, h2, h3⟩
    have e1 := hsplit true
    have e2 := hsplit false
    simp only [Bool.not_true, Bool.not_false] at e1 e2
    rw [List.foldl_cons, i1, i2, e1, e2]
    have hd : ((a.add s).domains &&& 1#4 ≠ 0#4 ↔
          (long s.type = true ∧ s.active = true ∨ long s.type = false ∧ a.domains &&& 1#4 ≠ 0#4)) ∧
        ((a.add s).domains &&& 2#4 ≠ 0#4 ↔
          (long s.type = false ∧ s.active = true ∨ long s.type = true ∧ a.domains &&& 2#4 ≠ 0#4)) := by
      clear i1 i2 hsplit e1 e2 ih
      simp only [Action.add, long]
      generalize a.domains = d
      generalize s.active = b
      generalize s.type = c
      cases c <;> revert d b <;> decide
    rw [hd.1, hd.2]
    simp only [List.mem_cons, forall_eq_or_imp]
    generalize (∃ pre x post, l = pre ++ x :: post ∧ long x.type = true ∧ x.active = true ∧
        ∀ y ∈ post, long y.type = false) = P
    generalize (∃ pre x post, l = pre ++ x :: post ∧ long x.type = false ∧ x.active = true ∧
        ∀ y ∈ post, long y.type = true) = Q
    generalize (∀ y ∈ l, long y.type = false) = R
    generalize (∀ y ∈ l, long y.type = true) = S
    clear ih i1 i2 e1 e2 hsplit hd
    cases long s.type <;> cases s.active <;> simp <;> grind

/-- C168: if the entries agree on being active, the action has the longitudinal domain exactly if it
overrides pedals, brakes or gear, and the lateral one exactly if it overrides the wheel. -/
theorem domains_partial (l : List Status)
    (hsame : ∀ x ∈ l, ∀ y ∈ l, long x.type = long y.type → x.active = y.active) :
    ((addAll l).domains &&& 1#4 ≠ 0#4 ↔ ∃ x ∈ l, long x.type = true ∧ x.active = true) ∧
    ((addAll l).domains &&& 2#4 ≠ 0#4 ↔ ∃ x ∈ l, long x.type = false ∧ x.active = true) := by
  have hlast : ∀ (b : Bool) (l : List Status), (∃ x ∈ l, long x.type = b) →
      ∃ pre x post, l = pre ++ x :: post ∧ long x.type = b ∧ ∀ y ∈ post, long y.type = !b := by
    intro b l
    induction l with
    | nil => simp
    | cons s l ih =>
      intro h
      by_cases h' : ∃ x ∈ l, long x.type = b
      · obtain ⟨pre, x, post, rfl, h1, h2⟩ := ih h'
        exact ⟨s :: pre, x, post, rfl, h1, h2⟩
      · refine ⟨[], s, l, rfl, by grind, fun y hy => ?_⟩
        have : long y.type ≠ b := fun hh => h' ⟨y, hy, hh⟩
        revert this; cases long y.type <;> cases b <;> simp
  obtain ⟨h1, h2⟩ := addAll_bits l {}
  unfold addAll
  rw [h1, h2]
  have hz : ({} : Action).domains &&& 1#4 = 0#4 ∧ ({} : Action).domains &&& 2#4 = 0#4 := by decide
  constructor
  · constructor
    · rintro (⟨pre, x, post, rfl, k1, k2, _⟩ | h)
      · exact ⟨x, by simp, k1, k2⟩
      · exact absurd hz.1 h.2
    · rintro ⟨x, hx, k1, k2⟩
      obtain ⟨pre, y, post, hl, j1, j2⟩ := hlast true l ⟨x, hx, k1⟩
      exact .inl ⟨pre, y, post, hl, j1, by rw [hsame y (by simp [hl]) x hx (by rw [j1, k1]), k2], j2⟩
  · constructor
    · rintro (⟨pre, x, post, rfl, k1, k2, _⟩ | h)
      · exact ⟨x, by simp, k1, k2⟩
      · exact absurd hz.2 h.2
    · rintro ⟨x, hx, k1, k2⟩
      obtain ⟨pre, y, post, hl, j1, j2⟩ := hlast false l ⟨x, hx, k1⟩
      exact .inl ⟨pre, y, post, hl, j1, by rw [hsame y (by simp [hl]) x hx (by rw [j1, k1]), k2], j2⟩

/-- The domains of an action that has been read are those of its entries. -/
theorem readAll_domains {v12 : Bool} {pi : Rat} {l : List Node} {a : Action}
    (h : readAll v12 pi l = some a) : a = addAll a.list := by
  suffices ∀ (l : List Node) (a0 a : Action), a0 = addAll a0.list →
      l.foldlM (fun a n => (readNode v12 pi n).map (Action.add a)) a0 = some a →
      a = addAll a.list from this l {} a rfl h
  intro l
  induction l with
  | nil => intro a0 a h0 h; simp at h; rw [← h]; exact h0
  | cons n l ih =>
    intro a0 a h0 h
    simp only [List.foldlM_cons, bind, Option.bind_eq_some_iff, Option.map_eq_some_iff] at h
    obtain ⟨a1, ⟨s, hs, rfl⟩, h⟩ := h
    refine ih _ _ ?_ h
    have : addAll (a0.add s).list = (addAll a0.list).add s := by
      simp [addAll, Action.add, List.foldl_append]
    rw [this, ← h0]

/-- The wheel overridden, the other controls released: a case for the theorems. -/
example : ∃ a, readAll true 3 [{ name := "SteeringWheel", active := "true", value := 10 },
      { name := "Brake", active := "false", child := some { name := "BrakeForce", value := 9 } },
      { name := "Gear", active := "false", child := some { name := "AutomaticGear", gear := "d" } }]
      = some a ∧ a.domains = 2#4 ∧ (start a Table.init .steeringWheel).value = 6 ∧
      (start a Table.init .brake).value = 9 ∧ (start a Table.init .gear).number = 2 :=
  ⟨_, rfl, by decide, by decide +kernel, by decide +kernel, by decide⟩

example : LastOf [{ type := .brake, value := 1 }, { type := .brake }, { type := .gear }] .brake
    { type := .brake } :=
  ⟨[{ type := .brake, value := 1 }], [{ type := .gear }], rfl, rfl, by simp⟩

/-- C168 fails: an action that overrides the throttle and releases the brake has no domain, so it
neither ends nor is ended by other actions; in the other order it has the longitudinal domain. -/
theorem domains_fails :
    (∃ l, (∃ x ∈ l, long x.type = true ∧ x.active = true) ∧ (addAll l).domains = 0#4) ∧
    (∃ l, (∃ x ∈ l, long x.type = true ∧ x.active = true) ∧ (addAll l.reverse).domains = 0#4 ∧
      (addAll l).domains = 1#4) :=
  ⟨⟨[{ type := .throttle, active := true }, { type := .brake }],
    ⟨{ type := .throttle, active := true }, by simp, rfl, rfl⟩, by decide⟩,
   ⟨[{ type := .brake }, { type := .throttle, active := true }],
    ⟨{ type := .throttle, active := true }, by simp, rfl, rfl⟩, by decide, by decide⟩⟩

/-- C168 fails: the copy of an action made for a ghost has no domains. -/
theorem copy_fails : ∃ l, (addAll l).domains = 3#4 ∧ (addAll l).copy.domains = 0#4 ∧
    (addAll l).copy.list = l :=
  ⟨[{ type := .throttle, active := true }, { type := .steeringWheel, active := true }],
    by decide, by decide, by decide⟩

end Verif.Override

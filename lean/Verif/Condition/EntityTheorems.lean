import Verif.Condition.Entity

/-! C12: any/all over the triggering entities. -/
namespace Verif.Condition
open Verif.Common

/-- Specification: the rule applied to the outcomes of the active entities. -/
def Wanted (rule : ERule) (outcomes : List Bool) : Prop :=
  match rule with
  | .any => ∃ b ∈ outcomes, b = true
  | .all => outcomes ≠ [] ∧ ∀ b ∈ outcomes, b = true

/-- outcomes of the active entities -/
def outcomesF (es : List Ent) : List Bool := (es.filter (·.active)).map (·.sat)

theorem loopFresh_spec (rule : ERule) (r : Bool) (es : List Ent) (hr : evalDone r rule = false) :
    loopFresh rule r es = true ↔
      (match rule with
       | .any => ∃ b ∈ outcomesF es, b = true
       | .all => (r = true ∨ outcomesF es ≠ []) ∧ ∀ b ∈ outcomesF es, b = true) := by
  induction es generalizing r with
  | nil => cases rule <;> cases r <;> simp [loopFresh, outcomesF, evalDone] at hr ⊢
  | cons e es ih =>
    obtain ⟨a, s⟩ := e
    cases a
    · simpa [loopFresh, outcomesF] using ih r hr
    · cases rule <;> cases s <;> simp [loopFresh, outcomesF, evalDone]
      · simpa [outcomesF] using ih false rfl
      · simpa [outcomesF] using ih true rfl

/-- **C12** for distance, relative distance, travelled distance, speed, relative speed, acceleration and angle
conditions: exactly the any/all rule over the active triggering entities. Under rule `all` the initial
value of the loop is returned if no entity is active. -/
theorem any_all_fresh (rule : ERule) (es : List Ent) : checkFresh rule es = true ↔ Wanted rule (outcomesF es) := by
  cases rule with
  | any => simpa [Wanted, checkFresh] using loopFresh_spec .any false es rfl
  | all =>
    -- the loop starts with `false`, which rule `all` treats as done; unfold one step
    unfold checkFresh
    induction es with
    | nil => simp [loopFresh, Wanted, outcomesF]
    | cons e es ih =>
      obtain ⟨a, s⟩ := e
      cases a
      · simpa [loopFresh, outcomesF, Wanted] using ih
      · cases s
        · simp [loopFresh, outcomesF, evalDone, Wanted]
        · have := loopFresh_spec .all true es rfl
          simp [loopFresh, outcomesF, evalDone, Wanted] at *
          exact this

example : checkFresh .all [⟨true, true⟩, ⟨false, false⟩, ⟨true, true⟩] = true := by decide
example : checkFresh .any [⟨true, false⟩, ⟨false, true⟩, ⟨true, false⟩] = false := by decide

/-! The other condition types are correct for rule `any`. -/

def outcomesU (es : List EntU) : List Bool := (es.filter (·.active)).map (fun e => e.sat == some true)

theorem any_undef_partial (es : List EntU) : checkUndef .any es = true ↔ Wanted .any (outcomesU es) := by
  unfold checkUndef
  induction es with
  | nil => simp [loopUndef, Wanted, outcomesU]
  | cons e es ih =>
    obtain ⟨a, s⟩ := e
    cases a
    · simpa [loopUndef, outcomesU, Wanted] using ih
    · cases s with
      | none => simpa [loopUndef, outcomesU, Wanted] using ih
      | some b => cases b <;> simpa [loopUndef, outcomesU, Wanted, evalDone] using ih

def outcomesR (es : List EntR) : List Bool := (es.filter (·.active)).map (fun e => e.near && e.orient.getD true)

theorem any_reach_partial (es : List EntR) : checkReach .any es = true ↔ Wanted .any (outcomesR es) := by
  unfold checkReach
  induction es with
  | nil => simp [loopReach, Wanted, outcomesR]
  | cons e es ih =>
    obtain ⟨a, n, o⟩ := e
    cases a
    · simpa [loopReach, outcomesR, Wanted] using ih
    · cases n
      · simpa [loopReach, outcomesR, Wanted, evalDone] using ih
      · cases o with
        | none => simp [loopReach, outcomesR, Wanted, evalDone]
        | some b => cases b <;> simpa [loopReach, outcomesR, Wanted, evalDone] using ih

theorem any_sticky_partial (es : List Ent) : checkSticky .any es = true ↔ Wanted .any (outcomesF es) := by
  unfold checkSticky
  induction es with
  | nil => simp [loopSticky, Wanted, outcomesF]
  | cons e es ih =>
    obtain ⟨a, s⟩ := e
    cases a
    · simpa [loopSticky, outcomesF, Wanted] using ih
    · cases s <;> simpa [loopSticky, outcomesF, Wanted, evalDone] using ih

def outcomesD (duration : Rat) (es : List EntD) : List Bool :=
  (es.filter (·.active)).map (fun e => match e.since with | none => false | some d => decide (d > duration))

theorem loopDuration_any (duration : Rat) (r : Bool) (cur : Rat) (hr : r = false) (hc : ¬ cur > duration) (es : List EntD) :
    loopDuration duration .any r cur es = true ↔ Wanted .any (outcomesD duration es) := by
  induction es generalizing cur r with
  | nil => simp [loopDuration, Wanted, outcomesD, hr]
  | cons e es ih =>
    obtain ⟨a, s⟩ := e
    cases a
    · simpa [loopDuration, outcomesD, Wanted] using ih r cur hr hc
    · cases s with
      | none =>
        have := ih false cur rfl hc
        simpa [loopDuration, outcomesD, Wanted, evalDone, hc] using this
      | some d =>
        by_cases hd : d > duration
        · simp [loopDuration, outcomesD, Wanted, evalDone, hd]
        · have := ih false d rfl hd
          simpa [loopDuration, outcomesD, Wanted, evalDone, hd] using this

/-- For a non-negative duration the stand-still and off-road conditions are right for rule `any`. -/
theorem any_duration_partial (duration : Rat) (h : 0 ≤ duration) (es : List EntD) :
    checkDuration duration .any es = true ↔ Wanted .any (outcomesD duration es) :=
  loopDuration_any duration false 0 rfl (by grind) es

/-! For rule `all` the other types are only right for a single active entity; with two entities they are not. -/

theorem all_undef_single_partial (b : Bool) : checkUndef .all [⟨true, some b⟩] = true ↔ Wanted .all [b] := by
  cases b <;> simp [checkUndef, loopUndef, evalDone, Wanted]

/-- **C12 fails** for time headway / time to collision with rule all: an entity whose headway is not defined is
skipped, so the condition holds although not every active entity satisfies it. -/
theorem all_undef_fails : ∃ es, checkUndef .all es = true ∧ ¬ Wanted .all (outcomesU es) :=
  ⟨[⟨true, none⟩, ⟨true, some true⟩], by decide, by simp [Wanted, outcomesU]⟩

/-- ... and an inactive entity at the end of the list makes it false although all active ones satisfy it. -/
theorem all_undef_inactive_fails : ∃ es, checkUndef .all es = false ∧ Wanted .all (outcomesU es) :=
  ⟨[⟨true, some true⟩, ⟨false, none⟩], by decide, by simp [Wanted, outcomesU]⟩

/-- **C12 fails** for reach position with rule all: the outcome of the first entity is kept for the second. -/
theorem all_reach_fails : ∃ es, checkReach .all es = true ∧ ¬ Wanted .all (outcomesR es) :=
  ⟨[⟨true, true, none⟩, ⟨true, false, none⟩], by decide, by simp [Wanted, outcomesR]⟩

/-- **C12 fails** for collision and end of road with rule all. -/
theorem all_sticky_fails : ∃ es, checkSticky .all es = true ∧ ¬ Wanted .all (outcomesF es) :=
  ⟨[⟨true, true⟩, ⟨true, false⟩], by decide, by simp [Wanted, outcomesF]⟩

/-- **C12 fails** for stand still and off road with rule all: the duration of the first entity is used for
the second. -/
theorem all_duration_fails : ∃ d es, checkDuration d .all es = true ∧ ¬ Wanted .all (outcomesD d es) :=
  ⟨3, [⟨true, some 5⟩, ⟨true, none⟩], by decide +kernel, by simp [Wanted, outcomesD]⟩

def outcomesC (es : List EntC) : List Bool := es.map (fun e => !(e.refs.any id) && e.lane)

/-- **C12 fails** for relative clearance with rule any: the object found for one entity is still taken
as found for the next one, which has none to check. -/
theorem any_clear_fails : ∃ es, checkClear .any es = false ∧ Wanted .any (outcomesC es) :=
  ⟨[⟨[true], true⟩, ⟨[], true⟩], by decide, by simp [Wanted, outcomesC]⟩

theorem findObj_any (f : Bool) (l : List Bool) (h : l ≠ []) : findObj f l = l.any id := by
  induction l generalizing f with
  | nil => exact absurd rfl h
  | cons b r ih =>
    cases b
    · cases r with
      | nil => rfl
      | cons c r => simpa [findObj] using ih false (by simp)
    · simp [findObj]

theorem loopClear_spec (rule : ERule) (r f : Bool) (es : List EntC) (hne : ∀ e ∈ es, e.refs ≠ []) :
    loopClear rule r f es = loopFresh rule r (es.map (fun e => ⟨true, !(e.refs.any id) && e.lane⟩)) := by
  induction es generalizing r f with
  | nil => rfl
  | cons e es ih =>
    have h1 := findObj_any f e.refs (hne e List.mem_cons_self)
    have h2 := fun r f => ih r f (fun x hx => hne x (List.mem_cons_of_mem _ hx))
    simp only [loopClear, List.map_cons, loopFresh, h1, h2, Bool.not_true, Bool.false_eq_true, if_false]
    cases e.refs.any id <;> simp

/-- Relative clearance is right for both rules if every triggering entity has at least one other
entity to check. -/
theorem any_all_clear_partial (rule : ERule) (es : List EntC) (hne : ∀ e ∈ es, e.refs ≠ []) :
    checkClear rule es = true ↔ Wanted rule (outcomesC es) := by
  unfold checkClear
  rw [loopClear_spec rule false false es hne]
  have := any_all_fresh rule (es.map (fun e => ⟨true, !(e.refs.any id) && e.lane⟩))
  unfold checkFresh at this
  rw [this]
  have : outcomesF (es.map (fun e => ⟨true, !(e.refs.any id) && e.lane⟩)) = outcomesC es := by
    simp only [outcomesF, outcomesC]
    rw [List.filter_eq_self.2 (by simp)]
    simp
  rw [this]

example : checkClear .all [⟨[false, false], true⟩, ⟨[false], true⟩] = true := by decide

/-- Positive part for rule `all` of the sticky loops: true is only reported if the first active entity satisfies
the expression, and if all active entities satisfy it, true is reported. -/
theorem all_sticky_partial (es : List Ent) (h : Wanted .all (outcomesF es)) : checkSticky .all es = true := by
  have aux : ∀ es : List Ent, (∀ b ∈ outcomesF es, b = true) → loopSticky .all true es = true := by
    intro es
    induction es with
    | nil => simp [loopSticky]
    | cons e es ih =>
      obtain ⟨a, s⟩ := e
      cases a
      · intro h; simpa [loopSticky] using ih (by simpa [outcomesF] using h)
      · cases s
        · intro h; simp [outcomesF] at h
        · intro h; simpa [loopSticky, evalDone] using ih (by simpa [outcomesF] using h)
  unfold checkSticky
  induction es with
  | nil => simp [Wanted, outcomesF] at h
  | cons e es ih =>
    obtain ⟨a, s⟩ := e
    cases a
    · simpa [loopSticky] using ih (by simpa [outcomesF, Wanted] using h)
    · cases s
      · simp [outcomesF, Wanted] at h
      · simpa [loopSticky, evalDone] using aux es (by
          have := h.2
          simpa [outcomesF] using this)

end Verif.Condition

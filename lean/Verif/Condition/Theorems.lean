import Verif.Condition.Lemmas

/-! Properties C09, C10, C11 and C13, and C43/C44 (negations). -/
namespace Verif.Condition
open Verif.Common

/-! ### C13: comparison rules -/

/-- On integers exactly one of `lessThan`, `equalTo`, `greaterThan` holds. -/
theorem ruleI_trichotomy (a b : Int) :
    (evalRuleI a b .lessThan = true ∧ evalRuleI a b .equalTo = false ∧ evalRuleI a b .greaterThan = false) ∨
    (evalRuleI a b .lessThan = false ∧ evalRuleI a b .equalTo = true ∧ evalRuleI a b .greaterThan = false) ∨
    (evalRuleI a b .lessThan = false ∧ evalRuleI a b .equalTo = false ∧ evalRuleI a b .greaterThan = true) := by
  simp [evalRuleI]; omega

/-- Each rule on integers means the comparison it is named after. -/
theorem ruleI_meaning (a b : Int) :
    (evalRuleI a b .lessThan = true ↔ a < b) ∧ (evalRuleI a b .greaterThan = true ↔ b < a) ∧
    (evalRuleI a b .equalTo = true ↔ a = b) ∧ (evalRuleI a b .lessOrEqual = true ↔ a ≤ b) ∧
    (evalRuleI a b .greaterOrEqual = true ↔ b ≤ a) ∧ (evalRuleI a b .notEqualTo = true ↔ a ≠ b) := by
  simp [evalRuleI]

/-- the rule that must give the opposite answer -/
def Rule.negate : Rule → Rule
  | .greaterThan => .lessOrEqual
  | .lessOrEqual => .greaterThan
  | .lessThan => .greaterOrEqual
  | .greaterOrEqual => .lessThan
  | .equalTo => .notEqualTo
  | .notEqualTo => .equalTo

/-- the rule with the operands exchanged -/
def Rule.swap : Rule → Rule
  | .greaterThan => .lessThan
  | .lessThan => .greaterThan
  | .lessOrEqual => .greaterOrEqual
  | .greaterOrEqual => .lessOrEqual
  | .equalTo => .equalTo
  | .notEqualTo => .notEqualTo

theorem ruleI_negate (a b : Int) (r : Rule) : evalRuleI a b r.negate = !evalRuleI a b r := by
  cases r <;> simp [evalRuleI, Rule.negate] <;> grind

/-- Also with tolerance the non-strict rules are the exact negations of the strict ones. -/
theorem ruleR_negate (a b : Rat) (r : Rule) : evalRuleR a b r.negate = !evalRuleR a b r := by
  have := small_pos
  cases r <;> simp [evalRuleR, Rule.negate] <;> grind

theorem ruleR_swap (a b : Rat) (r : Rule) : evalRuleR b a r.swap = evalRuleR a b r := by
  have := small_pos
  cases r <;> simp [evalRuleR, Rule.swap] <;> grind

/-- Outside the tolerance band the rules are the exact comparisons. -/
theorem ruleR_outside_band (a b : Rat) (h : a < b - small ∨ b + small < a) :
    (evalRuleR a b .lessThan = true ↔ a < b) ∧ (evalRuleR a b .greaterThan = true ↔ b < a) ∧
    (evalRuleR a b .lessOrEqual = true ↔ a ≤ b) ∧ (evalRuleR a b .greaterOrEqual = true ↔ b ≤ a) ∧
    (evalRuleR a b .equalTo = true ↔ a = b) ∧ (evalRuleR a b .notEqualTo = true ↔ a ≠ b) := by
  have := small_pos
  simp [evalRuleR]; grind

/-- Inside the tolerance band the non-strict rules hold and the strict ones do not. -/
theorem ruleR_inside_band (a b : Rat) (h1 : b - small < a) (h2 : a < b + small) :
    evalRuleR a b .lessThan = false ∧ evalRuleR a b .greaterThan = false ∧
    evalRuleR a b .lessOrEqual = true ∧ evalRuleR a b .greaterOrEqual = true ∧
    evalRuleR a b .equalTo = true ∧ evalRuleR a b .notEqualTo = false := by
  have := small_pos
  simp [evalRuleR]; grind

/-- Exactly one of the three, except at exactly the tolerance, where none holds. -/
theorem ruleR_trichotomy (a b : Rat) (h1 : a ≠ b - small) (h2 : a ≠ b + small) :
    (evalRuleR a b .lessThan = true ∧ evalRuleR a b .equalTo = false ∧ evalRuleR a b .greaterThan = false) ∨
    (evalRuleR a b .lessThan = false ∧ evalRuleR a b .equalTo = true ∧ evalRuleR a b .greaterThan = false) ∨
    (evalRuleR a b .lessThan = false ∧ evalRuleR a b .equalTo = false ∧ evalRuleR a b .greaterThan = true) := by
  have := small_pos
  simp [evalRuleR]; grind

/-- At exactly the tolerance none of the three rules holds (so the hypotheses above are needed). -/
theorem ruleR_band_edge (b : Rat) :
    evalRuleR (b + small) b .lessThan = false ∧ evalRuleR (b + small) b .equalTo = false ∧
    evalRuleR (b + small) b .greaterThan = false := by
  have := small_pos
  simp [evalRuleR]; grind

theorem ruleB_negate (a b : Bool) (r : Rule) : evalRuleB a b r.negate = !evalRuleB a b r := by
  cases r <;> cases a <;> cases b <;> rfl

theorem ruleB_meaning (a b : Bool) :
    (evalRuleB a b .lessThan = true ↔ a < b) ∧ (evalRuleB a b .greaterThan = true ↔ b < a) ∧
    (evalRuleB a b .lessOrEqual = true ↔ a ≤ b) ∧ (evalRuleB a b .greaterOrEqual = true ↔ b ≤ a) ∧
    (evalRuleB a b .equalTo = true ↔ a = b) ∧ (evalRuleB a b .notEqualTo = true ↔ a ≠ b) := by
  cases a <;> cases b <;> decide

theorem ruleS_negate (a b : String) (r : Rule) : evalRuleS a b r.negate = !evalRuleS a b r := by
  cases r <;> simp [evalRuleS, Rule.negate]

theorem ruleS_trichotomy (a b : String) :
    (evalRuleS a b .lessThan = true ∧ evalRuleS a b .equalTo = false ∧ evalRuleS a b .greaterThan = false) ∨
    (evalRuleS a b .lessThan = false ∧ evalRuleS a b .equalTo = true ∧ evalRuleS a b .greaterThan = false) ∨
    (evalRuleS a b .lessThan = false ∧ evalRuleS a b .equalTo = false ∧ evalRuleS a b .greaterThan = true) := by
  have irr : ∀ x : String, ¬ x < x := String.lt_irrefl
  have asym : a < b → ¬ b < a := fun h1 h2 => irr a (String.lt_trans h1 h2)
  have tot : a < b ∨ a = b ∨ b < a := by
    by_cases h1 : a < b
    · exact Or.inl h1
    · by_cases h2 : b < a
      · exact Or.inr (Or.inr h2)
      · exact Or.inr (Or.inl (String.le_antisymm (String.not_lt.1 h2) (String.not_lt.1 h1)))
  simp only [evalRuleS, decide_eq_true_eq, decide_eq_false_iff_not]
  rcases tot with h | h | h
  · exact Or.inl ⟨h, fun e => irr b (e ▸ h), asym h⟩
  · subst h; exact Or.inr (Or.inl ⟨irr _, rfl, irr _⟩)
  · exact Or.inr (Or.inr ⟨fun h' => asym h' h, fun e => irr b (e ▸ h), h⟩)

example : evalRuleR (5 : Rat) (3 : Rat) .greaterThan = true := by decide +kernel
example : evalRuleR (3 + 1/10000000 : Rat) (3 : Rat) .greaterThan = false := by decide +kernel

/-! ### One condition over time -/

/-- What can happen to a condition: it is evaluated at time `t` while its logical expression has
value `v`; the trigger it belongs to fires (which puts the condition back to its initial
evaluation state); the trigger is reset. -/
inductive Op where
  | eval (t : Rat) (v : Bool)
  | fired
  | reset
deriving DecidableEq

/-- Perform the operations; the list of values reported by the evaluations. -/
def runOps (c : Cond) : List Op → Option (Cond × List Bool)
  | [] => some (c, [])
  | .eval t v :: r => do
    let (c, b) ← evalCond t v c
    let (c, bs) ← runOps c r
    some (c, b :: bs)
  | .fired :: r => runOps c.idle r
  | .reset :: r => runOps c.reset r

/-- the times of the evaluations, with the values -/
def evals : List Op → List Entry
  | [] => []
  | .eval t v :: r => ⟨t, v⟩ :: evals r
  | _ :: r => evals r

/-- the logical expression at the previous evaluation since the trigger last fired -/
def prevResult (p : Option Bool) : List Op → Option Bool
  | [] => p
  | .eval _ v :: r => prevResult (some v) r
  | .fired :: r => prevResult none r
  | .reset :: r => prevResult p r

/-- Specification of edges: which pairs (previous value if any, current value) are the edge. -/
def IsEdge : Edge → Option Bool → Bool → Prop
  | .none, _, v => v = true
  | .rising, p, v => p = some false ∧ v = true
  | .falling, p, v => p = some true ∧ v = false
  | .risingOrFalling, p, v => ∃ w, p = some w ∧ w ≠ v

instance (e p v) : Decidable (IsEdge e p v) := by
  cases e <;> cases p <;> simp only [IsEdge] <;> infer_instance

/-- The undelayed value of the condition at each evaluation since the last reset. -/
def signal (e : Edge) (p : Option Bool) (acc : List Entry) : List Op → List Entry
  | [] => acc
  | .eval t v :: r => signal e (some v) (acc ++ [⟨t, decide (IsEdge e p v)⟩]) r
  | .fired :: r => signal e none acc r
  | .reset :: r => signal e p [] r

/-- `s` holds at time `τ`: its last sample not later than `τ` (up to tolerance) is true. -/
def HoldsAt (s : List Entry) (τ : Rat) : Prop :=
  ∃ pre e post, s = pre ++ e :: post ∧ e.value = true ∧ e.time - small < τ ∧ ∀ f ∈ post, τ ≤ f.time - small

/-- `e` is a sample of `s` at which the signal becomes true. -/
def RisesAt (s : List Entry) (e : Entry) : Prop :=
  ∃ pre post, s = pre ++ e :: post ∧ e.value = true ∧ ∀ p, pre.getLast? = some p → p.value = false

/-- Specification of the delay: the value reported at the last sample `x` of `s ++ [x]` is true iff the
signal was true `d` earlier or became true in the window between `d` before the previous
evaluation and `d` before this one. -/
def Delayed (d : Rat) (s : List Entry) (x : Entry) : Prop :=
  HoldsAt (s ++ [x]) (x.time - d) ∨
  ∃ e, RisesAt (s ++ [x]) e ∧ e.time - small < x.time - d ∧ ∀ p, s.getLast? = some p → p.time - d ≤ e.time - small

theorem holdsAt_iff {s : List Entry} (hs : Sorted s) (τ : Rat) :
    HoldsAt s τ ↔ lastVal none (s.filter (fun e => decide (τ > e.time - small))) = some true := by
  have sp := small_pos
  obtain ⟨C, h1, h2⟩ := filter_prefix hs τ
  have h3 : ∀ e ∈ s.filter (fun e => decide (τ > e.time - small)), e.time - small < τ := by
    intro e he; simpa using (List.mem_filter.1 he).2
  generalize hP : s.filter (fun e => decide (τ > e.time - small)) = P at *
  constructor
  · rintro ⟨pre, e, post, heq, hv, ht, hpost⟩
    have hpre : ∀ f ∈ pre, f.time - small < τ := by
      intro f hf
      rw [heq] at hs
      have := (List.pairwise_append.1 hs).2.2 f hf e (by simp)
      grind
    have : P = pre ++ [e] := by
      rw [← hP, heq, List.filter_append, List.filter_cons_of_pos (by simpa using ht)]
      rw [List.filter_eq_self.2 (by intro f hf; simpa using hpre f hf)]
      rw [List.filter_eq_nil_iff.2 (by intro f hf; have := hpost f hf; grind)]
    rw [this, lastVal_append, lastVal_cons]
    simp [lastVal, hv]
  · intro h
    unfold lastVal at h
    cases hl : P.getLast? with
    | none => simp [hl] at h
    | some e =>
      simp [hl] at h
      obtain ⟨ys, hys⟩ := List.getLast?_eq_some_iff.1 hl
      refine ⟨ys, e, C, ?_, h, ?_, h2⟩
      · rw [h1, hys]; simp
      · exact h3 e (by rw [hys]; simp)

theorem risesAt_iff (s : List Entry) (e : Entry) :
    RisesAt s e ↔ e ∈ changesFrom none s ∧ e.value = true := by
  rw [mem_changesFrom_iff]
  constructor
  · rintro ⟨pre, post, heq, hv, hp⟩
    refine ⟨⟨pre, post, heq, ?_⟩, hv⟩
    unfold lastVal
    cases hl : pre.getLast? with
    | none => simp
    | some p => have := hp p hl; simp [this, hv]
  · rintro ⟨⟨pre, post, heq, hl⟩, hv⟩
    refine ⟨pre, post, heq, hv, ?_⟩
    intro p hp
    unfold lastVal at hl
    rw [hp] at hl
    simp [hv] at hl
    simpa using hl

theorem buffer_spec {d : Rat} (hd : 0 ≤ d) (s : List Entry) (x : Entry) (hs : Sorted (s ++ [x])) :
    ∃ b, getValueAt (x.time - d) (register x.time x.value (bufferOf d s)) = some (bufferOf d (s ++ [x]), b) ∧
      (b = true ↔ Delayed d s x) := by
  have sp := small_pos
  obtain ⟨A, B, C, h1, h2, h3, h4⟩ := buffer_step hd s x hs
  refine ⟨_, h4, ?_⟩
  unfold Delayed
  rw [holdsAt_iff hs]
  rw [← lastVal_changesFrom none (List.filter _ (s ++ [x])), ← filter_changesFrom hs, ← h3]
  -- rises in the window are the true entries of B
  have hB : (∃ e, RisesAt (s ++ [x]) e ∧ e.time - small < x.time - d ∧
      ∀ p, s.getLast? = some p → p.time - d ≤ e.time - small) ↔ ∃ e ∈ B, e.value = true := by
    constructor
    · rintro ⟨e, hr, ht, hp⟩
      rw [risesAt_iff] at hr
      have hm : e ∈ A ++ B := by rw [h3]; exact List.mem_filter.2 ⟨hr.1, by simpa using ht⟩
      rcases List.mem_append.1 hm with hA | hB
      · exfalso
        rw [h2] at hA
        unfold lastQuery passedBy at hA
        cases hl : s.getLast? with
        | none => simp [hl] at hA
        | some p =>
          simp only [hl, Option.map_some] at hA
          have := hp p hl
          have := (List.mem_filter.1 hA).2
          simp at this
          grind
      · exact ⟨e, hB, hr.2⟩
    · rintro ⟨e, he, hv⟩
      have hm : e ∈ A ++ B := List.mem_append_right _ he
      rw [h3] at hm
      have hm := List.mem_filter.1 hm
      refine ⟨e, (risesAt_iff _ _).2 ⟨hm.1, hv⟩, by simpa using hm.2, ?_⟩
      intro p hp
      have hq : lastQuery d s = some (p.time - d) := by simp [lastQuery, hp]
      rw [hq] at h2
      -- e is not in A since the list is sorted
      have hsrt : Sorted (changesFrom none (s ++ [x])) := sorted_sublist (changesFrom_sublist _ _) hs
      rcases Rat.le_total (a := p.time - d) (b := e.time - small) with h | h
      · exact h
      · rcases Rat.le_iff_lt_or_eq.1 h with h | h
        · exfalso
          have heA : e ∈ A := by rw [h2]; exact List.mem_filter.2 ⟨hm.1, by simpa using h⟩
          rw [h1] at hsrt
          have := (List.pairwise_append.1 (List.pairwise_append.1 hsrt).1).2.2 e heA e he
          grind
        · grind
  rw [hB]
  split
  · next hB0 =>
    subst hB0
    simp only [List.append_nil, List.not_mem_nil, false_and, exists_false, or_false]
    cases lastVal none A with
    | none => simp
    | some v => simp
  · next hB0 =>
    rw [List.any_eq_true]
    constructor
    · exact Or.inr
    · rintro (h | h)
      · obtain ⟨ys, y, rfl⟩ := (List.eq_nil_or_concat B).resolve_left hB0
        rw [List.concat_eq_append, ← List.append_assoc, lastVal_append, lastVal_cons, lastVal_nil] at h
        exact ⟨y, by simp, by simpa using h⟩
      · exact h

/-- A condition as the scenario reader leaves it. -/
def fresh (id : Nat) (e : Edge) (d : Rat) : Cond := { id := id, edge := e, delay := d }

/-- the state of a condition after some operations -/
structure CondOK (e : Edge) (d : Rat) (p : Option Bool) (s : List Entry) (c : Cond) : Prop where
  edge : c.edge = e
  delay : c.delay = d
  evaluated : c.evaluated = p.isSome
  last : ∀ v, p = some v → c.last = v
  hist : c.hist = bufferOf d s

theorem checkEdge_spec {e d p s c} (h : CondOK e d p s c) (v : Bool) :
    checkEdge c.evaluated v c.last c.edge = decide (IsEdge e p v) := by
  rw [h.edge, h.evaluated]
  cases p with
  | none => cases e <;> cases v <;> simp [checkEdge, IsEdge]
  | some w =>
    have := h.last w rfl
    rw [this]
    cases e <;> cases v <;> cases w <;> simp [checkEdge, IsEdge]

theorem evalCond_spec {e d p s c} (hd : 0 ≤ d) (h : CondOK e d p s c) (t : Rat) (v : Bool)
    (hs : Sorted (s ++ [⟨t, decide (IsEdge e p v)⟩])) :
    ∃ c' b, evalCond t v c = some (c', b) ∧ c'.id = c.id ∧
      CondOK e d (some v) (s ++ [⟨t, decide (IsEdge e p v)⟩]) c' ∧
      (b = true ↔ Delayed d s ⟨t, decide (IsEdge e p v)⟩) := by
  obtain ⟨b, h1, h2⟩ := buffer_spec hd s ⟨t, decide (IsEdge e p v)⟩ hs
  refine ⟨⟨c.id, c.edge, c.delay, true, v, bufferOf d (s ++ [⟨t, decide (IsEdge e p v)⟩]), b⟩, b, ?_, ?_, ?_, h2⟩
  · unfold evalCond
    rw [checkEdge_spec h, h.hist, h.delay]
    simp only at h1
    simp only [h1, bind, Option.bind_some]
  · rfl
  · exact ⟨h.edge, h.delay, rfl, fun _ hv => by cases hv; rfl, rfl⟩

/-- evaluation times at least `SMALL_NUMBER` apart -/
def Forward (ops : List Op) : Prop := Sorted (evals ops)

theorem runOps_append (c : Cond) (l r : List Op) :
    runOps c (l ++ r) = (runOps c l).bind (fun x => (runOps x.1 r).map (fun y => (y.1, x.2 ++ y.2))) := by
  induction l generalizing c with
  | nil => cases h : runOps c r <;> simp [runOps, h]
  | cons o l ih =>
    cases o with
    | eval t v =>
      simp only [List.cons_append, runOps]
      cases h : evalCond t v c with
      | none => rfl
      | some x =>
        simp only [ih, bind, Option.bind_some]
        cases h2 : runOps x.1 l with
        | none => rfl
        | some y =>
          simp only [Option.bind_some]
          cases h3 : runOps y.1 r <;> simp
    | fired => simpa [runOps] using ih _
    | reset => simpa [runOps] using ih _

/-- the samples so far lie before all later evaluations -/
theorem runOps_inv {e d} (hd : 0 ≤ d) (ops : List Op) :
    ∀ (c : Cond) (p : Option Bool) (s : List Entry), CondOK e d p s c →
      Sorted s → (∀ x ∈ s, ∀ y ∈ evals ops, x.time + small ≤ y.time) → Sorted (evals ops) →
      ∃ c' bs, runOps c ops = some (c', bs) ∧ c'.id = c.id ∧ bs.length = (evals ops).length ∧
        CondOK e d (prevResult p ops) (signal e p s ops) c' ∧
        Sorted (signal e p s ops) ∧
        (∀ x ∈ signal e p s ops, x ∈ s ∨ ∃ y ∈ evals ops, y.time = x.time) := by
  induction ops with
  | nil =>
    intro c p s h hs _ _
    exact ⟨c, [], rfl, rfl, rfl, h, hs, fun x hx => Or.inl hx⟩
  | cons o ops ih =>
    intro c p s h hs hb hev
    cases o with
    | eval t v =>
      have hsx : Sorted (s ++ [⟨t, decide (IsEdge e p v)⟩]) := by
        refine List.pairwise_append.2 ⟨hs, by simp, ?_⟩
        intro x hx y hy
        simp at hy
        subst hy
        exact hb x hx ⟨t, v⟩ (by simp [evals])
      obtain ⟨c1, b, h1, hid, hok, _⟩ := evalCond_spec hd h t v hsx
      have hev' : Sorted (evals ops) := (List.pairwise_cons.1 hev).2
      have hfst := (List.pairwise_cons.1 hev).1
      obtain ⟨c2, bs, h2, hid2, hlen, hok2, hs2, hm⟩ := ih c1 (some v) _ hok hsx (by
        intro x hx y hy
        rcases List.mem_append.1 hx with hx | hx
        · exact hb x hx y (by simp [evals, hy])
        · simp at hx; subst hx; exact hfst y hy) hev'
      refine ⟨c2, b :: bs, ?_, hid2.trans hid, by simp [evals, hlen], hok2, hs2, ?_⟩
      · simp [runOps, h1, h2]
      · intro x hx
        rcases hm x hx with hx | ⟨y, hy, hyt⟩
        · rcases List.mem_append.1 hx with hx | hx
          · exact Or.inl hx
          · simp at hx; subst hx
            exact Or.inr ⟨⟨t, v⟩, by simp [evals], rfl⟩
        · exact Or.inr ⟨y, by simp [evals, hy], hyt⟩
    | fired =>
      obtain ⟨c2, bs, h2, hid, hr⟩ := ih c.idle none s ⟨h.edge, h.delay, rfl, by simp, h.hist⟩ hs hb hev
      exact ⟨c2, bs, h2, hid, hr⟩
    | reset =>
      obtain ⟨c2, bs, h2, hid, hlen, hok, hs2, hm⟩ := ih c.reset p []
        ⟨h.edge, h.delay, h.evaluated, h.last, rfl⟩ List.Pairwise.nil (by simp) hev
      refine ⟨c2, bs, h2, hid, hlen, hok, hs2, ?_⟩
      intro x hx
      rcases hm x hx with hx | hx
      · simp at hx
      · exact Or.inr hx

theorem fresh_ok (id e d) : CondOK e d none [] (fresh id e d) :=
  ⟨rfl, rfl, rfl, by simp, rfl⟩

theorem evals_append (l r : List Op) : evals (l ++ r) = evals l ++ evals r := by
  induction l with
  | nil => rfl
  | cons o l ih => cases o <;> simp [evals, ih]

/-- **C10 and C11.** For every condition (edge, delay), every history of evaluations, trigger firings and
resets with evaluation times moving forward, the evaluation at time `t` gives a value, and it is true
iff the edge signal was true `d` earlier or became true in the window since the previous evaluation. -/
theorem condition_reports (id : Nat) (e : Edge) (d : Rat) (hd : 0 ≤ d) (ops : List Op) (t : Rat) (v : Bool)
    (hf : Forward (ops ++ [.eval t v])) :
    ∃ c bs b, runOps (fresh id e d) (ops ++ [.eval t v]) = some (c, bs ++ [b]) ∧
      (b = true ↔ Delayed d (signal e none [] ops) ⟨t, decide (IsEdge e (prevResult none ops) v)⟩) := by
  unfold Forward at hf
  rw [evals_append] at hf
  have hfa := List.pairwise_append.1 hf
  obtain ⟨c1, bs, h1, _, _, hok, hs, hm⟩ := runOps_inv hd ops (fresh id e d) none [] (fresh_ok id e d)
    List.Pairwise.nil (by simp) hfa.1
  obtain ⟨c2, b, h2, _, _, hb⟩ := evalCond_spec hd hok t v (by
    refine List.pairwise_append.2 ⟨hs, by simp, ?_⟩
    intro x hx y hy
    simp at hy; subst hy
    rcases hm x hx with hx | ⟨z, hz, hzt⟩
    · simp at hx
    · have := hfa.2.2 z hz ⟨t, v⟩ (by simp [evals])
      simp only at this ⊢
      grind)
  refine ⟨c2, bs, b, ?_, hb⟩
  rw [runOps_append, h1]
  simp [runOps, h2]

theorem delayed_zero {s : List Entry} {x : Entry} (hs : Sorted (s ++ [x])) : Delayed 0 s x ↔ x.value = true := by
  have sp := small_pos
  have hb := hs.spaced_mem
  constructor
  · rintro (⟨pre, e, post, heq, hv, ht, hpost⟩ | ⟨e, ⟨pre, post, heq, hv, hp⟩, ht, hlo⟩)
    · rcases List.eq_nil_or_concat post with rfl | ⟨post', y, rfl⟩
      · have := List.append_inj_right' heq rfl
        simp at this; rw [this]; exact hv
      · exfalso
        have hy : y = x := by
          rw [List.concat_eq_append] at heq
          have h3 : pre ++ e :: (post' ++ [y]) = (pre ++ e :: post') ++ [y] := by simp
          rw [h3] at heq
          have := List.append_inj_right' heq rfl
          simpa using this.symm
        have := hpost y (by simp [List.concat_eq_append])
        rw [hy] at this
        grind
    · rcases List.eq_nil_or_concat post with rfl | ⟨post', y, rfl⟩
      · have := List.append_inj_right' heq rfl
        simp at this; rw [this]; exact hv
      · exfalso
        have hs2 : s = pre ++ e :: post' := by
          rw [List.concat_eq_append] at heq
          have : pre ++ e :: (post' ++ [y]) = (pre ++ e :: post') ++ [y] := by simp
          rw [this] at heq
          exact List.append_inj_left' heq rfl
        -- the last sample of s is at or after e
        obtain ⟨l, hl⟩ : ∃ l, s.getLast? = some l := by
          cases h : s.getLast? with
          | none => simp [hs2] at h
          | some l => exact ⟨l, rfl⟩
        have h1 := hlo l hl
        have hle : e = l ∨ e.time + small ≤ l.time := by
          have hl' := List.mem_of_getLast? hl
          rcases List.eq_nil_or_concat post' with rfl | ⟨q, z, rfl⟩
          · left
            rw [hs2] at hl; simp at hl; exact hl
          · right
            have : l = z := by
              have h3 : pre ++ e :: (q ++ [z]) = (pre ++ e :: q) ++ [z] := by simp
              rw [hs2, List.concat_eq_append, h3, List.getLast?_append] at hl
              simpa using hl.symm
            subst this
            have hss : Sorted s := (List.pairwise_append.1 hs).1
            rw [hs2] at hss
            have := (List.pairwise_append.1 hss).2.1
            exact (List.pairwise_cons.1 this).1 l (by simp [List.concat_eq_append])
        rcases hle with rfl | hle <;> grind
  · intro h
    exact Or.inl ⟨s, x, [], rfl, h, by grind, by simp⟩

/-- **C10.** Without delay, the evaluation reports exactly the edges of the logical expression: compared with
the previous evaluation since the trigger last fired. -/
theorem edge_fires_exactly (id : Nat) (e : Edge) (ops : List Op) (t : Rat) (v : Bool)
    (hf : Forward (ops ++ [.eval t v])) :
    ∃ c bs b, runOps (fresh id e 0) (ops ++ [.eval t v]) = some (c, bs ++ [b]) ∧
      (b = true ↔ IsEdge e (prevResult none ops) v) := by
  have sp := small_pos
  unfold Forward at hf
  rw [evals_append] at hf
  have hfa := List.pairwise_append.1 hf
  obtain ⟨c1, bs, h1, _, _, hok, hs, hm⟩ := runOps_inv (Rat.le_refl) ops (fresh id e 0) none [] (fresh_ok id e 0)
    List.Pairwise.nil (by simp) hfa.1
  have hsrt : Sorted (signal e none [] ops ++ [⟨t, decide (IsEdge e (prevResult none ops) v)⟩]) := by
    refine List.pairwise_append.2 ⟨hs, by simp, ?_⟩
    intro x hx y hy
    simp at hy; subst hy
    rcases hm x hx with hx | ⟨z, hz, hzt⟩
    · simp at hx
    · have := hfa.2.2 z hz ⟨t, v⟩ (by simp [evals])
      simp only at this ⊢
      grind
  obtain ⟨c2, b, h2, _, _, hb⟩ := evalCond_spec Rat.le_refl hok t v hsrt
  refine ⟨c2, bs, b, ?_, ?_⟩
  · rw [runOps_append, h1]; simp [runOps, h2]
  · rw [hb, delayed_zero hsrt]; simp

/-- **C10**, first evaluation: an edge condition never reports true before it has a previous value. -/
theorem edge_not_at_first (e : Edge) (he : e ≠ .none) (v : Bool) : ¬ IsEdge e none v := by
  cases e <;> simp [IsEdge] at *

/-- **C11**, soundness: if true is reported at `t` then the signal was true at some sample at
least `d` (up to tolerance) before `t`. -/
theorem delay_not_early {d : Rat} {s : List Entry} {x : Entry} (h : Delayed d s x) :
    ∃ e ∈ s ++ [x], e.value = true ∧ e.time - small < x.time - d := by
  rcases h with ⟨pre, e, post, heq, hv, ht, _⟩ | ⟨e, ⟨pre, post, heq, hv, _⟩, ht, _⟩
  · exact ⟨e, by rw [heq]; simp, hv, ht⟩
  · exact ⟨e, by rw [heq]; simp, hv, ht⟩

/-- **C11**, completeness: if the signal becomes true at a sample `e`, then true is reported at
the first evaluation that lies `d` (up to tolerance) after `e`. -/
theorem delay_not_lost {d : Rat} {s : List Entry} {x e : Entry} (hr : RisesAt (s ++ [x]) e)
    (hnow : e.time - small < x.time - d) (hfirst : ∀ p, s.getLast? = some p → ¬ e.time - small < p.time - d) :
    Delayed d s x := by
  refine Or.inr ⟨e, hr, hnow, ?_⟩
  intro p hp
  have := hfirst p hp
  grind

/-- **C11**, constant: while the signal is true over the whole shifted window, true is reported, and while it
is false (no sample in force or in the window is true), false is reported. -/
theorem delay_false {d : Rat} {s : List Entry} {x : Entry}
    (h : ∀ e ∈ s ++ [x], e.time - small < x.time - d → e.value = false) : ¬ Delayed d s x := by
  intro hD
  obtain ⟨e, he, hv, ht⟩ := delay_not_early hD
  simp [h e he ht] at hv

/-- The hypotheses are met by a real history: rising edge with a delay of 1 s, evaluated each 0.5 s. -/
example : runOps (fresh 0 .rising 1) [.eval 0 false, .eval (1/2) true, .eval 1 true, .eval (3/2) true, .eval 2 true]
    = some (⟨0, .rising, 1, true, true, ⟨[⟨0, false⟩, ⟨1/2, true⟩, ⟨1, false⟩], 3⟩, false⟩,
        [false, false, false, true, false]) := by decide +kernel
example : Forward [.eval 0 false, .eval (1/2) true, .eval 1 true, .eval (3/2) true, .eval 2 true] := by
  simp only [Forward, evals, Sorted]; decide +kernel
example : (runOps (fresh 0 .falling 0) [.eval 0 true, .eval 1 false, .fired, .eval 2 false, .eval 3 true, .eval 4 false]).map (·.2)
    = some [false, true, false, false, true] := by decide +kernel

end Verif.Condition

import Verif.Var.Model
import Verif.Params.Theorems
import Verif.Condition.Theorems
import Mathlib.Data.Rat.Floor
import Mathlib.Tactic.Linarith
import Mathlib.Tactic.NormNum
/-
C121, C122: variable actions, conditions on variables and parameters.
-/
namespace Verif.Var
open Verif.Params Verif.Condition

/-- What a user sees of a variable: its type and value. -/
inductive Val where
  | int (i : Int)
  | dbl (x : Rat)
  | str (s : Text)
  | bool (b : Bool)
deriving DecidableEq, Repr

/-- The value of a variable (or parameter) as the library calls give it. -/
def view (p : Params) (n : Text) : Option Val :=
  match getInt p n, getDouble p n, getStr p n, getBool p n with
  | some i, _, _, _ => some (.int i)
  | _, some x, _, _ => some (.dbl x)
  | _, _, some s, _ => some (.str s)
  | _, _, _, some b => some (.bool b)
  | _, _, _, _ => none

/-- What an action on the variable does to its value, `none` for a result that is not determined by exact arithmetic:
integers changed by other than whole amounts. -/
def effect (cv : Conv) : Act → Val → Option Val
  | .set _ v, .int _ => some (.int (cv.strtoi v))
  | .set _ v, .dbl _ => some (.dbl (cv.strtod v))
  | .set _ v, .str _ => some (.str v)
  | .set _ v, .bool _ => some (.bool (decide (v = "true".toList)))
  | .add _ x, .int i => if (i : Rat) + x = ((i : Rat) + x).floor then some (.int ((i : Rat) + x).floor) else none
  | .add _ x, .dbl y => some (.dbl (y + x))
  | .mul _ x, .int i => if (i : Rat) * x = ((i : Rat) * x).floor then some (.int ((i : Rat) * x).floor) else none
  | .mul _ x, .dbl y => some (.dbl (y * x))
  | .add _ _, v => some v
  | .mul _ _, v => some v

/-- The variable an action names. -/
def Act.name : Act → Text
  | .set n _ => n
  | .add n _ => n
  | .mul n _ => n

/-- The value of one variable after actions, those on other variables do not matter. -/
def effects (cv : Conv) (n : Text) : List Act → Val → Option Val
  | [], v => some v
  | a :: as, v => if a.name = n then (effect cv a v).bind (effects cv n as) else effects cv n as v

theorem inRange_eq {a b : Int} (h : inRange a = some b) : b = a := by
  unfold inRange at h
  split at h
  · injection h with h; exact h.symm
  · exact absurd h (by simp)

theorem trunc_whole {x : Rat} (hx : x = x.floor) : trunc x = x.floor := by
  unfold trunc
  by_cases hn : x < 0
  · rw [if_pos hn]
    have : (-x).floor = -x.floor := by
      have e : -x = ((-x.floor : Int) : Rat) := by rw [Rat.intCast_neg, ← hx]
      rw [e, Rat.floor_intCast]
    rw [this]; omega
  · rw [if_neg hn]

theorem trunc_near (x : Rat) : |(trunc x : Rat) - x| < 1 := by
  unfold trunc
  have h1 : ∀ y : Rat, (y.floor : Rat) ≤ y ∧ y < y.floor + 1 := fun y =>
    ⟨Int.floor_le y, Int.lt_floor_add_one y⟩
  by_cases hn : x < 0
  · rw [if_pos hn]
    have := h1 (-x)
    rw [abs_lt]; push_cast; constructor <;> linarith [this.1, this.2]
  · rw [if_neg hn]
    have := h1 x
    rw [abs_lt]; constructor <;> linarith [this.1, this.2]

/-- What a declaration shows. -/
def valOf (d : Decl) : Val :=
  match d.type with
  | .integer => .int d.int
  | .double => .dbl d.dbl
  | .string => .str d.str
  | .bool => .bool d.bool

theorem view_eq (p : Params) (n : Text) : view p n = (getParameterEntry p.decls n).map valOf := by
  unfold view getInt getDouble getStr getBool
  cases getParameterEntry p.decls n with
  | none => rfl
  | some d => cases h : d.type <;> simp [valOf, h]

theorem setTyped_entry (t : PType) (f : Decl → Decl) (p : Params) (n : Text) (d : Decl)
    (hf : ∀ d, (f d).name = d.name ∧ (f d).type = d.type) (hd : getParameterEntry p.decls n = some d) (ht : d.type = t) :
    getParameterEntry (setTyped t f p n).1.decls n = some (f d) := by
  unfold setTyped
  rw [hd]
  simp only [ht, ne_eq, not_true, if_false]
  rw [find_modifyFirst n f (fun d => (hf d).1), hd]; rfl

/-- One action on the variable itself. -/
theorem start_same (cv : Conv) {p q : Params} {a : Act} {b : Bool} (h : start cv p a = some (q, b)) {v w : Val}
    (hv : view p a.name = some v) (hw : effect cv a v = some w) : view q a.name = some w ∧ b = true := by
  rw [view_eq] at hv ⊢
  cases hd : getParameterEntry p.decls a.name with
  | none => rw [hd] at hv; exact absurd hv (by simp)
  | some d =>
    rw [hd] at hv
    simp only [Option.map_some, Option.some.injEq] at hv
    subst hv
    cases a with
    | set n x =>
      simp only [start, Option.some.injEq, Prod.mk.injEq] at h
      obtain ⟨rfl, rfl⟩ := h
      simp only [Act.name] at hd ⊢
      refine ⟨?_, trivial⟩
      unfold setByString
      rw [hd]
      simp only
      rw [find_modifyFirst n (withString cv x) (fun _ => rfl), hd]
      have hb : (x == "true".toList) = decide (x = "true".toList) := by rw [Bool.eq_iff_iff]; simp
      cases ht : d.type <;> simp only [valOf, ht, effect, Option.some.injEq] at hw <;>
        simp only [Option.map_some, valOf, withString, ht, if_true, hb, hw]
    | add n x =>
      simp only [Act.name] at hd ⊢
      simp only [start, hd] at h
      cases ht : d.type with
      | integer =>
        rw [ht] at h
        simp only [getInt, hd, Option.bind_some, ht, ne_eq, not_true, if_false, Option.getD_some, Option.map_eq_some_iff,
          Prod.mk.injEq] at h
        obtain ⟨i, hi, rfl, rfl⟩ := h
        refine ⟨?_, rfl⟩
        unfold setInt
        rw [setTyped_entry .integer _ p n d (by intro d; exact ⟨rfl, rfl⟩) hd ht]
        simp only [valOf, ht, effect] at hw
        split at hw
        · rename_i hfl
          injection hw with hw
          subst hw
          unfold addedInt at hi
          rw [Option.bind_eq_some_iff] at hi
          obtain ⟨k, hk, hi⟩ := hi
          have e1 := inRange_eq hi
          have e2 := inRange_eq hk
          have hx : x = x.floor := by
            have : x = ((((d.int : Rat) + x).floor - d.int : Int) : Rat) := by
              push_cast; rw [← hfl]; ring
            rw [this, Rat.floor_intCast]
          rw [trunc_whole hx] at e2
          have : ((d.int : Rat) + x).floor = d.int + x.floor := by
            have e : (d.int : Rat) + x = ((d.int + x.floor : Int) : Rat) := by push_cast; rw [← hx]
            rw [e, Rat.floor_intCast]
          simp [valOf, ht, e1, e2, this]
        · exact absurd hw (by simp)
      | double =>
        rw [ht] at h
        simp only [getDouble, hd, Option.bind_some, ht, ne_eq, not_true, if_false, Option.getD_some, Option.some.injEq,
          Prod.mk.injEq] at h
        obtain ⟨rfl, rfl⟩ := h
        refine ⟨?_, rfl⟩
        unfold setDouble
        rw [setTyped_entry .double _ p n d (by intro d; exact ⟨rfl, rfl⟩) hd ht]
        simp only [valOf, ht, effect, Option.some.injEq] at hw
        simp [valOf, ht, ← hw]
      | string =>
        rw [ht] at h
        simp only [Option.some.injEq, Prod.mk.injEq] at h
        obtain ⟨rfl, rfl⟩ := h
        rw [hd]
        simp only [valOf, ht, effect, Option.some.injEq] at hw
        simp [valOf, ht, ← hw]
      | bool =>
        rw [ht] at h
        simp only [Option.some.injEq, Prod.mk.injEq] at h
        obtain ⟨rfl, rfl⟩ := h
        rw [hd]
        simp only [valOf, ht, effect, Option.some.injEq] at hw
        simp [valOf, ht, ← hw]
    | mul n x =>
      simp only [Act.name] at hd ⊢
      simp only [start, hd] at h
      cases ht : d.type with
      | integer =>
        rw [ht] at h
        simp only [getInt, hd, Option.bind_some, ht, ne_eq, not_true, if_false, Option.getD_some, Option.map_eq_some_iff,
          Prod.mk.injEq] at h
        obtain ⟨i, hi, rfl, rfl⟩ := h
        refine ⟨?_, rfl⟩
        unfold setInt
        rw [setTyped_entry .integer _ p n d (by intro d; exact ⟨rfl, rfl⟩) hd ht]
        simp only [valOf, ht, effect] at hw
        split at hw
        · rename_i hfl
          injection hw with hw
          subst hw
          have e1 := inRange_eq hi
          rw [trunc_whole hfl] at e1
          simp [valOf, ht, e1]
        · exact absurd hw (by simp)
      | double =>
        rw [ht] at h
        simp only [getDouble, hd, Option.bind_some, ht, ne_eq, not_true, if_false, Option.getD_some, Option.some.injEq,
          Prod.mk.injEq] at h
        obtain ⟨rfl, rfl⟩ := h
        refine ⟨?_, rfl⟩
        unfold setDouble
        rw [setTyped_entry .double _ p n d (by intro d; exact ⟨rfl, rfl⟩) hd ht]
        simp only [valOf, ht, effect, Option.some.injEq] at hw
        simp [valOf, ht, ← hw]
      | string =>
        rw [ht] at h
        simp only [Option.some.injEq, Prod.mk.injEq] at h
        obtain ⟨rfl, rfl⟩ := h
        rw [hd]
        simp only [valOf, ht, effect, Option.some.injEq] at hw
        simp [valOf, ht, ← hw]
      | bool =>
        rw [ht] at h
        simp only [Option.some.injEq, Prod.mk.injEq] at h
        obtain ⟨rfl, rfl⟩ := h
        rw [hd]
        simp only [valOf, ht, effect, Option.some.injEq] at hw
        simp [valOf, ht, ← hw]

/-- An action on another variable. -/
theorem start_other (cv : Conv) {p q : Params} {a : Act} {b : Bool} (h : start cv p a = some (q, b)) {m : Text}
    (hm : ¬ related a.name m) : view q m = view p m := by
  rw [view_eq, view_eq]
  congr 1
  have hs := fun (n : Text) (hn : ¬ related n m) (i : Int) (x : Rat) (s : Text) => setters_frame cv p n m i x s false hn
  cases a with
  | set n v =>
    simp only [start, Option.some.injEq, Prod.mk.injEq] at h
    obtain ⟨rfl, _⟩ := h
    exact (hs n hm 0 0 v).2.2.2.2
  | add n x =>
    simp only [start] at h
    cases hd : getParameterEntry p.decls n with
    | none =>
      rw [hd] at h
      simp only [Option.some.injEq, Prod.mk.injEq] at h
      rw [h.1]
    | some d =>
      rw [hd] at h
      simp only at h
      cases ht : d.type with
      | integer =>
        rw [ht] at h
        simp only [Option.map_eq_some_iff, Prod.mk.injEq] at h
        obtain ⟨i, _, rfl, _⟩ := h
        exact (hs n hm i 0 []).1
      | double =>
        rw [ht] at h
        simp only [Option.some.injEq, Prod.mk.injEq] at h
        obtain ⟨rfl, _⟩ := h
        exact (hs n hm 0 _ []).2.1
      | string => rw [ht] at h; simp only [Option.some.injEq, Prod.mk.injEq] at h; rw [h.1]
      | bool => rw [ht] at h; simp only [Option.some.injEq, Prod.mk.injEq] at h; rw [h.1]
  | mul n x =>
    simp only [start] at h
    cases hd : getParameterEntry p.decls n with
    | none =>
      rw [hd] at h
      simp only [Option.some.injEq, Prod.mk.injEq] at h
      rw [h.1]
    | some d =>
      rw [hd] at h
      simp only at h
      cases ht : d.type with
      | integer =>
        rw [ht] at h
        simp only [Option.map_eq_some_iff, Prod.mk.injEq] at h
        obtain ⟨i, _, rfl, _⟩ := h
        exact (hs n hm i 0 []).1
      | double =>
        rw [ht] at h
        simp only [Option.some.injEq, Prod.mk.injEq] at h
        obtain ⟨rfl, _⟩ := h
        exact (hs n hm 0 _ []).2.1
      | string => rw [ht] at h; simp only [Option.some.injEq, Prod.mk.injEq] at h; rw [h.1]
      | bool => rw [ht] at h; simp only [Option.some.injEq, Prod.mk.injEq] at h; rw [h.1]

/-- C121: after any actions a variable has the value that the actions on it give one after another, whatever is done to
other variables. Names do not begin with `$`. -/
theorem actions_value_partial (cv : Conv) (as : List Act) {p q : Params} {n : Text} {v w : Val}
    (h : startAll cv p as = some q) (hn : n.head? ≠ some '$') (ha : ∀ a ∈ as, a.name.head? ≠ some '$')
    (hv : view p n = some v) (hw : effects cv n as v = some w) : view q n = some w := by
  induction as generalizing p v with
  | nil =>
    simp only [startAll, Option.some.injEq] at h
    simp only [effects, Option.some.injEq] at hw
    rw [← h, ← hw]; exact hv
  | cons a as ih =>
    simp only [startAll, Option.bind_eq_some_iff] at h
    obtain ⟨⟨p', b⟩, h1, h2⟩ := h
    have ha' := fun x hx => ha x (List.mem_cons_of_mem _ hx)
    simp only [effects] at hw
    by_cases he : a.name = n
    · rw [if_pos he, Option.bind_eq_some_iff] at hw
      obtain ⟨u, hu, hw⟩ := hw
      subst he
      exact ih h2 ha' (start_same cv h1 hv hu).1 hw
    · rw [if_neg he] at hw
      refine ih h2 ha' ?_ hw
      rw [start_other cv h1, hv]
      rintro (e | e | e)
      · exact he e
      · exact ha a List.mem_cons_self (by rw [e]; rfl)
      · exact hn (by rw [e]; rfl)

/-- C121: a whole variable changed by a fraction ends less than one away from the exact result. -/
theorem integer_near {v w : Int} {x : Rat} :
    (addedInt v x = some w → |(w : Rat) - (v + x)| < 1) ∧ (multipliedInt v x = some w → |(w : Rat) - v * x| < 1) := by
  constructor
  · intro h
    unfold addedInt at h
    rw [Option.bind_eq_some_iff] at h
    obtain ⟨k, hk, hi⟩ := h
    rw [inRange_eq hi, inRange_eq hk]
    have := trunc_near x
    push_cast
    rw [show (v : Rat) + (trunc x : Rat) - (v + x) = trunc x - x by ring]
    exact this
  · intro h
    rw [inRange_eq h]
    exact trunc_near _

/-- C121: an action on a declared variable starts (and stops with the next step). -/
theorem declared_starts (cv : Conv) {p q : Params} {a : Act} {b : Bool} (h : start cv p a = some (q, b))
    (hd : (view p a.name).isSome) : b = true := by
  rw [view_eq] at hd
  cases a with
  | set n v => simp only [start, Option.some.injEq, Prod.mk.injEq] at h; exact h.2.symm
  | add n x =>
    simp only [start] at h
    cases he : getParameterEntry p.decls n with
    | none => simp only [Act.name, he] at hd; exact absurd hd (by simp)
    | some d =>
      rw [he] at h
      simp only at h
      cases ht : d.type <;> rw [ht] at h <;>
        simp only [Option.map_eq_some_iff, Option.some.injEq, Prod.mk.injEq] at h <;> grind
  | mul n x =>
    simp only [start] at h
    cases he : getParameterEntry p.decls n with
    | none => simp only [Act.name, he] at hd; exact absurd hd (by simp)
    | some d =>
      rw [he] at h
      simp only at h
      cases ht : d.type <;> rw [ht] at h <;>
        simp only [Option.map_eq_some_iff, Option.some.injEq, Prod.mk.injEq] at h <;> grind

/-- C121 does not hold for a variable that is not declared: AddValue and MultiplyByValue do not start (so the event never
ends, `Verif.Storyboard`), SetAction does. -/
theorem undeclared_fails (cv : Conv) (p : Params) (n v : Text) (x : Rat) (h : view p n = none) :
    start cv p (.add n x) = some (p, false) ∧ start cv p (.mul n x) = some (p, false) ∧
    start cv p (.set n v) = some (p, true) := by
  rw [view_eq, Option.map_eq_none_iff] at h
  simp [start, h, setByString]

/-- C121 does not hold for values given by a parameter: for SetAction `$name` is the value of the parameter, for AddValue
and MultiplyByValue it is looked up among the variables. -/
theorem parameter_value_fails (cv : Conv) (ps vs : List Decl) (n name value : Text) (hn : n.head? ≠ some '$')
    (hname : name ≠ [] ∧ name.head? ≠ some '{') (hp : getParameter ps ('$' :: name) = some value) :
    readAct cv ps vs (.set n ('$' :: name)) = some (.set n value) ∧
    readAct cv ps vs (.add n ('$' :: name)) = (getParameter vs ('$' :: name)).map (fun v => .add n (cv.strtod v)) ∧
    readAct cv ps vs (.mul n ('$' :: name)) = (getParameter vs ('$' :: name)).map (fun v => .mul n (cv.strtod v)) := by
  have hr : ∀ ds, readAttribute cv ds n = some n := by
    intro ds
    cases n with
    | nil => rfl
    | cons c r =>
      have : c ≠ '$' := by simpa using hn
      unfold readAttribute
      split
      · rename_i heq; injection heq with h1 _; exact absurd h1 this
      · rfl
  have hv : ∀ ds, readAttribute cv ds ('$' :: name) = getParameter ds ('$' :: name) := by
    intro ds
    obtain ⟨c, r, rfl⟩ := List.exists_cons_of_ne_nil hname.1
    have : c ≠ '{' := by simpa using hname.2
    simp [readAttribute, this]
  refine ⟨?_, ?_, ?_⟩
  · simp [readAct, hr, hv, hp]
  · simp only [readAct, hr, hv, Option.bind_some]
  · simp only [readAct, hr, hv, Option.bind_some]

/-- C121 does not hold for whole variables: 100 multiplied by the number read from `0.29` is 28; 3 changed by -0.5 stays 3
while 3 multiplied by 0.5 is 1; results out of range are undefined. -/
theorem integer_fails (cv : Conv) (h : cv.strtod "0.29".toList = 5224175567749775 / 18014398509481984) :
    multipliedInt 100 (cv.strtod "0.29".toList) = some 28 ∧ addedInt 3 (-1 / 2) = some 3 ∧
    multipliedInt 2000000000 2 = none ∧ addedInt 2000000000 2000000000 = none := by
  rw [h]; decide +kernel

/-- Library functions that read single digits. -/
def cv1 : Conv :=
  { strtoi := fun t => ((t.headD '0').toNat - 48 : Nat), strtod := fun t => ((t.headD '0').toNat - 48 : Nat),
    fmtInt := fun _ => [], fmtDouble := fun _ => [], eval := fun _ _ => none }

/-- Two variables. -/
def vars : Params :=
  ⟨[newDecl cv1 "x".toList "3".toList .double, newDecl cv1 "n".toList "4".toList .integer], [], []⟩

example : ∃ q, startAll cv1 vars [.add "x".toList (1 / 2), .mul "n".toList 3, .mul "x".toList 2, .add "n".toList (-1)] = some q ∧
    view q "x".toList = some (.dbl 7) ∧ view q "n".toList = some (.int 11) := by
  have h : (startAll cv1 vars [.add "x".toList (1 / 2), .mul "n".toList 3, .mul "x".toList 2, .add "n".toList (-1)]).map
      (fun q => (view q "x".toList, view q "n".toList)) = some (some (.dbl 7), some (.int 11)) := by decide +kernel
  rw [Option.map_eq_some_iff] at h
  obtain ⟨q, hq, he⟩ := h
  rw [Prod.mk.injEq] at he
  exact ⟨q, hq, he.1, he.2⟩

/-! ### C122 -/

/-- The comparison a rule is named after. -/
def Means {α : Type} [LT α] : Rule → α → α → Prop
  | .greaterThan, a, b => b < a
  | .greaterOrEqual, a, b => b < a ∨ a = b
  | .lessThan, a, b => a < b
  | .lessOrEqual, a, b => a < b ∨ a = b
  | .equalTo, a, b => a = b
  | .notEqualTo, a, b => a ≠ b

/-- C122: a condition on a variable or parameter holds exactly if its value stands in the given relation to the given value
(read as the type says; numbers further apart than the tolerance or equal). -/
theorem condition_value_partial (cv : Conv) (p : Params) (n value : Text) (r : Rule) :
    (view p n = none → check cv p n value r = false) ∧
    (∀ i, view p n = some (.int i) → (check cv p n value r = true ↔ Means r i (cv.strtoi value))) ∧
    (∀ x, view p n = some (.dbl x) → (x = cv.strtod value ∨ Verif.Common.small < |x - cv.strtod value|) →
      (check cv p n value r = true ↔ Means r x (cv.strtod value))) ∧
    (∀ s, view p n = some (.str s) → (check cv p n value r = true ↔ Means r (String.ofList s) (String.ofList value))) ∧
    (∀ b, view p n = some (.bool b) → (check cv p n value r = true ↔ Means r b (decide (value = "true".toList)))) := by
  simp only [view_eq, check]
  cases hd : getParameterEntry p.decls n with
  | none => simp
  | some d =>
    simp only [Option.map_some, Option.some.injEq, reduceCtorEq, false_implies, true_and]
    cases ht : d.type with
    | integer =>
      simp only [valOf, ht, reduceCtorEq, false_implies, implies_true, and_true, Val.int.injEq]
      rintro i rfl
      cases r <;> simp [evalRuleI, Means] <;> omega
    | double =>
      simp only [valOf, ht, reduceCtorEq, false_implies, implies_true, and_true, true_and, Val.dbl.injEq]
      rintro x rfl hb
      have hs : 0 < Verif.Common.small := by decide +kernel
      have hb' : d.dbl = cv.strtod value ∨ d.dbl < cv.strtod value - Verif.Common.small ∨
          cv.strtod value + Verif.Common.small < d.dbl := by
        rcases hb with h | h
        · exact Or.inl h
        · rcases lt_abs.mp h with h | h
          · right; right; linarith
          · right; left; linarith
      generalize cv.strtod value = y at *
      clear hb
      cases r <;> simp [evalRuleR, Means] <;> grind
    | string =>
      simp only [valOf, ht, reduceCtorEq, false_implies, implies_true, and_true, true_and, Val.str.injEq]
      rintro s rfl
      have tri := ruleS_trichotomy (String.ofList d.str) (String.ofList value)
      generalize String.ofList d.str = a at *
      generalize String.ofList value = b at *
      have irr : ∀ x : String, ¬ x < x := String.lt_irrefl
      simp only [evalRuleS] at tri
      cases r <;> simp [evalRuleS, Means] <;> grind
    | bool =>
      simp only [valOf, ht, reduceCtorEq, false_implies, implies_true, true_and, Val.bool.injEq]
      rintro b rfl
      have hb : (value == "true".toList) = decide (value = "true".toList) := by
        rw [Bool.eq_iff_iff]; simp
      rw [hb]
      generalize decide (value = "true".toList) = c
      cases r <;> cases d.bool <;> cases c <;> simp [evalRuleB, Means]

/-- The condition `x > 2` holds for the variable 3, `n < 4` does not for 4. -/
example : check cv1 vars "x".toList "2".toList .greaterThan = true ∧ check cv1 vars "n".toList "4".toList .lessThan = false := by
  decide +kernel

/-- C122 does not hold for a whole variable and a fraction, which is cut by `atoi`: 2 counts as equal to 2.5 and not as less;
nor for truth values written as 1. -/
theorem condition_value_fails (cv : Conv) (h : cv.strtoi "2.5".toList = 2) (p : Params) (n : Text)
    (hn : view p n = some (.int 2)) :
    check cv p n "2.5".toList .equalTo = true ∧ check cv p n "2.5".toList .lessThan = false ∧
    (∀ m, view p m = some (.bool true) → check cv p m "1".toList .equalTo = false) := by
  have h1 := (condition_value_partial cv p n "2.5".toList .equalTo).2.1 2 hn
  have h2 := (condition_value_partial cv p n "2.5".toList .lessThan).2.1 2 hn
  refine ⟨h1.mpr (by rw [h]; rfl), ?_, ?_⟩
  · rw [Bool.eq_false_iff]; intro hc; rw [h2, h] at hc; exact absurd hc (by simp [Means])
  · intro m hm
    have h3 := (condition_value_partial cv p m "1".toList .equalTo).2.2.2.2 true hm
    rw [Bool.eq_false_iff]; intro hc; rw [h3] at hc; exact absurd hc (by show ¬ (true = decide _); decide)

end Verif.Var

import Verif.Expr.Spec
import Mathlib.Tactic.FinCases
/-
The loop of the parser on the parts of a text written by the grammar.
-/
namespace Verif.Expr

variable {V : Type} {A : Arith V}

/-- The run from one state continues from another. -/
def Reach (A : Arith V) (st : St V) (s : Text) (st' : St V) (s' : Text) : Prop :=
  ∀ n, s.length ≤ n → ∃ m, s'.length ≤ m ∧ run A n st s = run A m st' s'

theorem Reach.refl (st : St V) (s : Text) : Reach A st s st s := fun n hn => ⟨n, hn, rfl⟩

theorem Reach.trans {a b c : St V} {s1 s2 s3 : Text} (h1 : Reach A a s1 b s2) (h2 : Reach A b s2 c s3) :
    Reach A a s1 c s3 := by
  intro n hn
  obtain ⟨m, hm, e1⟩ := h1 n hn
  obtain ⟨k, hk, e2⟩ := h2 m hm
  exact ⟨k, hk, e1.trans e2⟩

theorem Reach.step {st st' : St V} {s rest t : Text} {f : Flags} (hl : nextToken st.flags s = .tok t rest f)
    (ht : turn A st t f = .ok st') (hlen : rest.length < s.length) : Reach A st s st' rest := by
  intro n hn
  obtain ⟨k, rfl⟩ : ∃ k, n = k + 1 := ⟨n - 1, by omega⟩
  refine ⟨k, by omega, ?_⟩
  simp only [run, hl, ht]

theorem run_nil (st : St V) (m : Nat) : run A m st [] = finish A st := by
  cases m <;> simp [run, nextToken]

/-- Bind a list of operators, first one first. -/
def bindAll : List Op → List (Tree V) → Option (List (Tree V))
  | [], es => some es
  | o :: os, es => (bindOp o es).bind (bindAll os)

/-- An operand may come next. -/
structure Ready (st : St V) (es : List (Tree V)) (os : List Item) (as : List (Frame V)) : Prop where
  top : st.flags.top = false
  num : st.flags.num = true
  word : st.flags.word = true
  opn : st.flags.opn = true
  comma : st.flags.comma = false
  paren : st.paren = .allowed
  id : st.id = []
  hes : st.es = es
  hos : st.os = os
  has : st.as = as

/-- An operand has been read. -/
structure Done (st : St V) (es : List (Tree V)) (os : List Item) (as : List (Frame V)) : Prop where
  top : st.flags.top = true
  close : st.flags.close = true
  unary : st.flags.unary = false
  comma : st.flags.comma = false
  hos : st.os = os
  has : st.as = as
  hes : (st.id = [] ∧ st.es = es ∧ st.paren = .forbidden) ∨
    (∃ c, st.id ≠ [] ∧ exprVar st.id = some c ∧ es = .var c :: st.es)

/-- The tree of an expression. -/
def Ast.tree (A : Arith V) : Ast → Tree V
  | .lit ds fs => .num (decimal A ds fs)
  | .const c => .var c
  | .un o a => .un o (a.tree A)
  | .bin o a b => .bin o (a.tree A) (b.tree A)
  | .app1 f a => .call f [a.tree A]
  | .app2 f a b => .call f [a.tree A, b.tree A]

/-! ### Characters -/

theorem blank_isBlank {c : Char} (h : c = ' ' ∨ c = '\t') : isBlank c = true := by
  rcases h with rfl | rfl <;> decide

theorem takeWhile_append {p : Char → Bool} {a b : Text} (ha : ∀ c ∈ a, p c = true)
    (hb : ∀ c, b.head? = some c → p c = false) : (a ++ b).takeWhile p = a ∧ (a ++ b).dropWhile p = b := by
  induction a with
  | nil =>
    cases b with
    | nil => simp
    | cons c cs => simp [hb c rfl]
  | cons x xs ih =>
    have := ih fun c hc => ha c (List.mem_cons_of_mem _ hc)
    simp [ha x List.mem_cons_self, this.1, this.2]

/-- The head of a text is not blank. -/
def NoBlank (s : Text) : Prop := ∀ c, s.head? = some c → isBlank c = false

/-- What follows a number or a word. -/
def Delim (s : Text) : Prop := ∀ c, s.head? = some c → isVar c = false ∧ c ≠ '.'

/-- Blanks are skipped. -/
theorem reach_blanks (st : St V) {b r : Text} (hb : Blanks b) (hr : NoBlank r)
    (hu : st.flags.unary = true → b.length ≠ 1) : Reach A st (b ++ r) st r := by
  cases b with
  | nil => exact Reach.refl _ _
  | cons c cs =>
    have hc := hb c List.mem_cons_self
    have htw := takeWhile_append (p := isBlank) (a := c :: cs) (b := r) (fun x hx => blank_isBlank (hb x hx)) hr
    have hl : nextToken st.flags ((c :: cs) ++ r) = .tok (c :: cs) r st.flags := by
      rw [List.cons_append] at htw ⊢
      simp only [nextToken]
      rw [htw.1, htw.2]
      rcases hc with rfl | rfl <;> rfl
    refine Reach.step hl ?_ (by simp; omega)
    have hun : unaryName st.flags (c :: cs) = some (c :: cs) := by
      unfold unaryName
      cases h : st.flags.unary with
      | false => rfl
      | true =>
        have := hu h
        have h2 : ((c :: cs).length == 1) = false := by simpa using this
        rw [h2]; rfl
    unfold turn
    rw [hun]
    have h1 : (c :: cs).head? ≠ some '#' := by
      rcases hc with rfl | rfl <;> simp
    have h2 : ¬ ((c :: cs).head? = some '\n' ∧ st.flags.comma = true) := by
      rcases hc with rfl | rfl <;> simp
    have h3 : ((c :: cs).head?.map isSpace) = some true := by
      rcases hc with rfl | rfl <;> rfl
    rw [if_neg h1]
    simp only [if_neg h2, if_pos h3]

/-! ### Numbers -/

theorem digit_isDigit {c : Char} (h : c ∈ ['0', '1', '2', '3', '4', '5', '6', '7', '8', '9']) : isDigit c = true := by
  fin_cases h <;> decide

theorem isDigit_not_dot {c : Char} (h : isDigit c = true) : (c == '.') = false := by
  cases hc : (c == '.') with
  | false => rfl
  | true => rw [beq_iff_eq] at hc; subst hc; simp [isDigit] at h

theorem numLoop_whole {ds : Text} (hd : ∀ c ∈ ds, isDigit c = true) (r : Text) (v : V) (n : Nat) :
    numLoop A (ds ++ r) v 0 n = numLoop A r (ds.foldl (fun v c => A.push v (digit c)) v) 0 (n + ds.length) := by
  induction ds generalizing v n with
  | nil => simp
  | cons c cs ih =>
    have hc := hd c List.mem_cons_self
    simp only [List.cons_append, numLoop, isDigit_not_dot hc, Bool.false_and, Bool.false_eq_true, if_false, hc, if_true,
      Nat.lt_irrefl, List.foldl_cons]
    rw [ih fun x hx => hd x (List.mem_cons_of_mem _ hx)]
    simp only [List.length_cons, digit]
    congr 1; omega

theorem numLoop_frac {fs : Text} (hd : ∀ c ∈ fs, isDigit c = true) (v : V) (k n : Nat) :
    numLoop A fs v (k + 1) n =
      some (fs.foldl (fun v c => A.push v (digit c)) v, k + 1 + fs.length, n + fs.length) := by
  induction fs generalizing v k n with
  | nil => simp [numLoop]
  | cons c cs ih =>
    have hc := hd c List.mem_cons_self
    simp only [numLoop, isDigit_not_dot hc, Bool.false_and, Bool.false_eq_true, if_false, hc, if_true,
      Nat.zero_lt_succ, List.foldl_cons]
    rw [ih fun x hx => hd x (List.mem_cons_of_mem _ hx)]
    simp only [List.length_cons, digit]
    congr 3 <;> omega

theorem shiftDown_eq (k : Nat) (v : V) : shiftDown A (k + 1) v = (A.div10)^[k] v := by
  induction k generalizing v with
  | zero => rfl
  | succ k ih => simp only [shiftDown, Function.iterate_succ_apply, ih]

theorem parse_int {ds : Text} (h0 : ds ≠ []) (hd : Digits ds) : parseNumber A ds = some (decimal A ds []) := by
  have h := numLoop_whole (A := A) (fun c hc => digit_isDigit (hd c hc)) [] A.zero 0
  rw [List.append_nil] at h
  have hp : 0 < ds.length := List.length_pos_iff.mpr h0
  simp only [parseNumber, h, numLoop, Nat.zero_add, hp, if_true, decimal, List.append_nil, List.length_nil,
    Function.iterate_zero, id_eq]
  rfl

theorem parse_dec {ds fs : Text} (h0 : ds ≠ []) (hd : Digits ds) (hf : Digits fs) :
    parseNumber A (ds ++ '.' :: fs) = some (decimal A ds fs) := by
  have h := numLoop_whole (A := A) (fun c hc => digit_isDigit (hd c hc)) ('.' :: fs) A.zero 0
  have hp : 0 < 0 + ds.length + fs.length := by have := List.length_pos_iff.mpr h0; omega
  have h2 : numLoop A ('.' :: fs) (ds.foldl (fun v c => A.push v (digit c)) A.zero) 0 (0 + ds.length) =
      numLoop A fs (ds.foldl (fun v c => A.push v (digit c)) A.zero) (0 + 1) (0 + ds.length) := by
    simp [numLoop]
  rw [h2, numLoop_frac (fun c hc => digit_isDigit (hf c hc))] at h
  simp only [parseNumber, h, hp, if_true, decimal, List.foldl_append]
  rw [show 0 + 1 + fs.length = fs.length + 1 by omega, shiftDown_eq]

theorem digit_isVar {c : Char} (h : isDigit c = true) : isVar c = true := by simp [isVar, h]

theorem delim_num {r : Text} (hr : Delim r) : ∀ c, r.head? = some c → isNum c = false := by
  intro c hc
  obtain ⟨h1, h2⟩ := hr c hc
  cases hd : isDigit c with
  | true => rw [digit_isVar hd] at h1; exact absurd h1 (by simp)
  | false => simp [isNum, hd, h2]

theorem ne_of_isDigit {c d : Char} (h : isDigit c = true) (hd : isDigit d = false) : c ≠ d := by
  rintro rfl; rw [h] at hd; exact absurd hd (by simp)

/-- A number token. -/
theorem nextToken_num {f : Flags} (hf : f.num = true) {c : Char} {ds r : Text} (hc : isDigit c = true)
    (hd : ∀ x ∈ ds, isNum x = true) (hr : Delim r) : nextToken f (c :: ds ++ r) = .tok (c :: ds) r tOperand := by
  have htw := takeWhile_append (p := isNum) (a := c :: ds) (b := r)
    (by intro x hx; rcases List.mem_cons.mp hx with rfl | h
        · simp [isNum, hc]
        · exact hd x h) (delim_num hr)
  have h1 : (c == '#') = false := by simpa using ne_of_isDigit hc (d := '#') (by decide)
  have h2 : (c == '\n') = false := by simpa using ne_of_isDigit hc (d := '\n') (by decide)
  have h3 : isSpace c = false := by
    unfold isSpace
    simp only [Bool.or_eq_false_iff, beq_eq_false_iff_ne]
    exact ⟨⟨⟨⟨⟨ne_of_isDigit hc (by decide), ne_of_isDigit hc (by decide)⟩, ne_of_isDigit hc (by decide)⟩,
      ne_of_isDigit hc (by decide)⟩, ne_of_isDigit hc (by decide)⟩, ne_of_isDigit hc (by decide)⟩
  rw [List.cons_append] at htw ⊢
  simp only [nextToken]
  rw [htw.1, htw.2]
  simp only [h1, h2, h3, hc, hf, Bool.false_eq_true, if_false, if_true]

theorem reach_num {st : St V} {es : List (Tree V)} {os : List Item} {as : List (Frame V)} (hs : Ready st es os as)
    {c : Char} {ds r : Text} (hc : isDigit c = true) (hd : ∀ x ∈ ds, isNum x = true) (hr : Delim r) {v : V}
    (hp : parseNumber A (c :: ds) = some v) :
    ∃ st', Reach A st (c :: ds ++ r) st' r ∧ Done st' (.num v :: es) os as := by
  refine ⟨{ st with flags := tOperand, es := .num v :: st.es, paren := .forbidden },
    Reach.step (nextToken_num hs.num hc hd hr) ?_ (by simp; omega), ?_⟩
  · have h1 : (c :: ds).head? ≠ some '#' := by simpa using ne_of_isDigit hc (d := '#') (by decide)
    have hu : unaryName tOperand (c :: ds) = some (c :: ds) := rfl
    have h2 : ¬ ((c :: ds).head? = some '\n' ∧ tOperand.comma = true) := by simp [tOperand]
    have h3 : ¬ ((c :: ds).head?.map isSpace) = some true := by
      simp only [List.head?_cons, Option.map_some, Option.some.injEq, Bool.not_eq_true]
      unfold isSpace
      simp only [Bool.or_eq_false_iff, beq_eq_false_iff_ne]
      exact ⟨⟨⟨⟨⟨ne_of_isDigit hc (by decide), ne_of_isDigit hc (by decide)⟩, ne_of_isDigit hc (by decide)⟩,
        ne_of_isDigit hc (by decide)⟩, ne_of_isDigit hc (by decide)⟩, ne_of_isDigit hc (by decide)⟩
    have h4 : (c :: ds) ≠ ['('] := by
      intro h; injection h with h; exact ne_of_isDigit hc (d := '(') (by decide) h
    have h5 : (c :: ds) ≠ [')'] := by
      intro h; injection h with h; exact ne_of_isDigit hc (d := ')') (by decide) h
    unfold turn
    rw [if_neg h1, hu]
    simp only [if_neg h2, if_neg h3]
    unfold feed settle
    rw [if_pos hs.id]
    simp only [doToken, if_neg h4, if_neg h5, hs.paren, doOther, hp]
    simp
  · exact ⟨rfl, rfl, rfl, rfl, hs.hos, hs.has, Or.inl ⟨hs.id, by simp [hs.hes], rfl⟩⟩

/-! ### Other tokens -/

/-- A token that is not a comment or space is handled by `feed`. -/
theorem turn_feed {st : St V} {f : Flags} {c : Char} {cs : Text} (hu : f.unary = false) (hc : c ≠ '#')
    (hs : isSpace c = false) : turn A st (c :: cs) f = feed A { st with flags := f } (c :: cs) := by
  have h1 : (c :: cs).head? ≠ some '#' := by simpa using hc
  have hu : unaryName f (c :: cs) = some (c :: cs) := by simp [unaryName, hu]
  have h2 : ¬ ((c :: cs).head? = some '\n' ∧ f.comma = true) := by
    rintro ⟨h, _⟩
    simp only [List.head?_cons, Option.some.injEq] at h
    subst h; exact absurd hs (by decide)
  have h3 : ¬ ((c :: cs).head?.map isSpace) = some true := by simp [hs]
  unfold turn
  rw [if_neg h1, hu]
  simp only [if_neg h2, if_neg h3]

theorem feed_ready {st : St V} {f : Flags} (h : st.id = []) (tok : Text) :
    feed A { st with flags := f } tok = doToken A { st with flags := f } tok := by
  unfold feed settle
  rw [if_pos h]

/-- The pending word of an operand is pushed by the next token. -/
theorem feed_done {st : St V} {es : List (Tree V)} {os : List Item} {as : List (Frame V)} (h : Done st es os as)
    {f : Flags} {tok : Text} (ht : tok ≠ ['(']) :
    feed A { st with flags := f } tok = doToken A ⟨f, .forbidden, [], es, os, as⟩ tok := by
  obtain ⟨_, _, _, _, rfl, rfl, hes⟩ := h
  rcases hes with ⟨h1, rfl, h3⟩ | ⟨c, h1, h2, rfl⟩
  · rw [feed_ready h1]
    cases st; simp_all
  · unfold feed settle
    simp only [if_neg h1, if_neg ht, h2]

/-- The name of a function or constant. -/
structure Name (w : Text) : Prop where
  ne : w ≠ []
  first : ∀ c, w.head? = some c → isFirstVar c = true ∧ c ≠ '#' ∧ isSpace c = false ∧ isDigit c = false
  all : ∀ c ∈ w, isVar c = true
  num : ∀ {V : Type} (A : Arith V), parseNumber A w = none
  op : exprOp w none = none

theorem constNames_name {w : Text} {c : Const} (h : (w, c) ∈ constNames) : Name w ∧ exprVar w = some c := by
  simp only [constNames, List.mem_cons, Prod.mk.injEq, List.not_mem_nil, or_false] at h
  rcases h with ⟨rfl, rfl⟩ | ⟨rfl, rfl⟩
  · exact ⟨⟨by decide, by simp only [String.toList]; intro c hc; injection hc with hc; subst hc; decide, by decide,
      fun A => rfl, by decide⟩, by decide⟩
  · exact ⟨⟨by decide, by simp only [String.toList]; intro c hc; injection hc with hc; subst hc; decide, by decide,
      fun A => rfl, by decide⟩, by decide⟩

theorem names1_name {w : Text} {f : Fn} (h : (w, f) ∈ names1) :
    Name w ∧ exprFunc w = some f ∧ f.binary = false ∧ w ≠ ['$'] := by
  simp only [names1, List.mem_cons, Prod.mk.injEq, List.not_mem_nil, or_false] at h
  rcases h with ⟨rfl, rfl⟩ | ⟨rfl, rfl⟩ | ⟨rfl, rfl⟩ | ⟨rfl, rfl⟩ | ⟨rfl, rfl⟩ | ⟨rfl, rfl⟩ | ⟨rfl, rfl⟩ | ⟨rfl, rfl⟩ |
    ⟨rfl, rfl⟩ | ⟨rfl, rfl⟩ | ⟨rfl, rfl⟩ | ⟨rfl, rfl⟩ <;>
  exact ⟨⟨by decide, by simp only [String.toList]; intro c hc; injection hc with hc; subst hc; decide, by decide,
      fun A => rfl, by decide⟩, by decide, rfl, by decide⟩

theorem names2_name {w : Text} {f : Fn} (h : (w, f) ∈ names2) :
    Name w ∧ exprFunc w = some f ∧ f.binary = true ∧ w ≠ ['$'] := by
  simp only [names2, List.mem_cons, Prod.mk.injEq, List.not_mem_nil, or_false] at h
  rcases h with ⟨rfl, rfl⟩ | ⟨rfl, rfl⟩ | ⟨rfl, rfl⟩ <;>
  exact ⟨⟨by decide, by simp only [String.toList]; intro c hc; injection hc with hc; subst hc; decide, by decide,
      fun A => rfl, by decide⟩, by decide, rfl, by decide⟩

/-- A word. -/
theorem reach_word {st : St V} {es : List (Tree V)} {os : List Item} {as : List (Frame V)} (hs : Ready st es os as)
    {w r : Text} (hw : Name w) (hr : ∀ c, r.head? = some c → isVar c = false) :
    Reach A st (w ++ r) { st with flags := tWord, id := w } r := by
  have htw := takeWhile_append (p := isVar) (a := w) (b := r) hw.all hr
  obtain ⟨c, cs, rfl⟩ := List.exists_cons_of_ne_nil hw.ne
  obtain ⟨h1, h2, h3, h4⟩ := hw.first c rfl
  have hn : (c == '\n') = false := by
    cases h : (c == '\n') with
    | false => rfl
    | true => rw [beq_iff_eq] at h; subst h; exact absurd h3 (by decide)
  have hl : nextToken st.flags ((c :: cs) ++ r) = .tok (c :: cs) r tWord := by
    rw [List.cons_append] at htw ⊢
    simp only [nextToken]
    rw [htw.1, htw.2]
    simp only [beq_eq_false_iff_ne.mpr h2, hn, h3, h4, h1, hs.word, Bool.false_eq_true, if_false, if_true]
  refine Reach.step hl ?_ (by simp; omega)
  rw [turn_feed rfl h2 h3, feed_ready hs.id]
  have hp1 : (c :: cs) ≠ ['('] := by
    intro h; injection h with h; subst h; exact absurd h1 (by decide)
  have hp2 : (c :: cs) ≠ [')'] := by
    intro h; injection h with h; subst h; exact absurd h1 (by decide)
  have hpar := hs.paren
  have h5 : ((c :: cs).head?.map isDigit == some true) = false := by simp [h4]
  simp only [doToken, if_neg hp1, if_neg hp2, hs.paren, doOther, hw.num A, hw.op, h5]
  simp

/-- `(` before an operand. -/
theorem reach_open {st : St V} {es : List (Tree V)} {os : List Item} {as : List (Frame V)} (hs : Ready st es os as)
    (r : Text) : ∃ st', Reach A st ('(' :: r) st' r ∧ Ready st' es (.lpar :: os) as ∧ st'.flags.unary = false := by
  refine ⟨{ st with flags := tOpen, os := .lpar :: st.os, paren := .allowed }, Reach.step (t := ['(']) (f := tOpen) ?_ ?_
    (by simp), ⟨rfl, rfl, rfl, rfl, rfl, rfl, hs.id, hs.hes, by simp [hs.hos], hs.has⟩, rfl⟩
  · simp only [nextToken, hs.opn]; rfl
  · rw [turn_feed rfl (by decide) (by decide), feed_ready hs.id]
    simp only [doToken, if_true, doOpen, hs.paren]

/-- `(` after the name of a function. -/
theorem reach_call {st : St V} {es : List (Tree V)} {os : List Item} {as : List (Frame V)} (hs : Ready st es os as)
    {w : Text} {f : Fn} (hw : Name w) (hf : exprFunc w = some f) (hd : w ≠ ['$']) (r : Text) :
    ∃ st', Reach A { st with flags := tWord, id := w } ('(' :: r) st' r ∧
      Ready st' es (.brace :: .func f :: os) (⟨os.length + 2, es.length, []⟩ :: as) ∧ st'.flags.unary = false := by
  obtain ⟨h1, h2, h3, h4, h5, h6, h7, rfl, rfl, rfl⟩ := hs
  refine ⟨⟨tOpen, .allowed, [], st.es, .brace :: .func f :: st.os, ⟨st.os.length + 2, st.es.length, []⟩ :: st.as⟩,
    Reach.step (t := ['(']) (f := tOpen) ?_ ?_ (by simp), ⟨rfl, rfl, rfl, rfl, rfl, rfl, rfl, rfl, rfl, rfl⟩, rfl⟩
  · rfl
  · rw [turn_feed rfl (by decide) (by decide)]
    simp [feed, settle, hw.ne, hd, hf, doToken, doOpen]

/-! ### Operators -/

/-- How tight an operator binds. -/
def lev : Op → Nat
  | .umin | .unot | .ubnot => 0
  | .pow => 1
  | o => prec o

/-- The next operator `o` leaves the operators on the stack. -/
def Stops (o : Op) (os : List Item) : Prop := ∀ p r, os = .op p :: r → exprPrec o p = false

theorem opLoop_stop {o : Op} {os : List Item} (h : Stops o os) (hc : o ≠ .comma) (es : List (Tree V))
    (as : List (Frame V)) : opLoop o os es as = .ok (.op o :: os, es, as) := by
  cases os with
  | nil => rfl
  | cons i r =>
    cases i with
    | op p => simp [opLoop, h p r rfl]
    | lpar => rfl
    | brace => simp [opLoop, hc]
    | func f => rfl

theorem opLoop_pop {o : Op} {pd : List Op} (hp : ∀ p ∈ pd, exprPrec o p = true) (os : List Item)
    (es es' : List (Tree V)) (as : List (Frame V)) (hb : bindAll pd es = some es') :
    opLoop o (pd.map .op ++ os) es as = opLoop o os es' as := by
  induction pd generalizing es with
  | nil => simp only [bindAll, Option.some.injEq] at hb; subst hb; rfl
  | cons p r ih =>
    simp only [bindAll] at hb
    cases hb1 : bindOp p es with
    | none => rw [hb1] at hb; exact absurd hb (by simp)
    | some e1 =>
      rw [hb1] at hb
      simp only [List.map_cons, List.cons_append, opLoop, hp p List.mem_cons_self, if_true, hb1]
      exact ih (fun q hq => hp q (List.mem_cons_of_mem _ hq)) e1 hb

theorem closeLoop_pop {m : Nat} {pd : List Op} {os : List Item} (hm : m ≤ os.length) (es es' : List (Tree V))
    (hb : bindAll pd es = some es') : closeLoop m (pd.map .op ++ os) es = closeLoop m os es' := by
  induction pd generalizing es with
  | nil => simp only [bindAll, Option.some.injEq] at hb; subst hb; rfl
  | cons p r ih =>
    simp only [bindAll] at hb
    cases hb1 : bindOp p es with
    | none => rw [hb1] at hb; exact absurd hb (by simp)
    | some e1 =>
      rw [hb1] at hb
      have hc : m < (r.map Item.op ++ os).length + 1 ∧ Item.op p ≠ .lpar ∧ Item.op p ≠ .brace := by
        refine ⟨?_, by simp, by simp⟩
        simp; omega
      simp only [List.map_cons, List.cons_append, closeLoop, if_pos hc, bindItem, hb1]
      exact ih e1 hb

theorem flush_pop {pd : List Op} (es : List (Tree V)) : flush (pd.map .op) es = bindAll pd es := by
  induction pd generalizing es with
  | nil => rfl
  | cons p r ih =>
    simp only [List.map_cons, flush, bindItem, bindAll]
    cases bindOp p es with
    | none => rfl
    | some e1 => exact ih e1

theorem bindAll_append (a b : List Op) (es : List (Tree V)) :
    bindAll (a ++ b) es = (bindAll a es).bind (bindAll b) := by
  induction a generalizing es with
  | nil => rfl
  | cons p r ih =>
    simp only [List.cons_append, bindAll]
    cases bindOp p es with
    | none => rfl
    | some e1 => exact ih e1

/-- A unary sign. -/
theorem reach_unary {st : St V} {es : List (Tree V)} {os : List Item} {as : List (Frame V)} (hs : Ready st es os as)
    {o : Op} {c : Char} (ho : (o, c) ∈ unarySigns) (hst : Stops o os) (r : Text) :
    ∃ st', Reach A st (c :: r) st' r ∧ Ready st' es (.op o :: os) as := by
  obtain ⟨h1, h2, h3, h4, h5, h6, h7, rfl, rfl, rfl⟩ := hs
  refine ⟨⟨tUnary, .allowed, [], st.es, .op o :: st.os, st.as⟩, Reach.step (t := [c]) (f := tUnary) ?_ ?_ (by simp),
    ⟨rfl, rfl, rfl, rfl, rfl, rfl, rfl, rfl, rfl, rfl⟩⟩
  · simp only [unarySigns, List.mem_cons, Prod.mk.injEq, List.not_mem_nil, or_false] at ho
    rcases ho with ⟨rfl, rfl⟩ | ⟨rfl, rfl⟩ | ⟨rfl, rfl⟩ <;> (simp only [nextToken, h1]; rfl)
  · simp only [unarySigns, List.mem_cons, Prod.mk.injEq, List.not_mem_nil, or_false] at ho
    have key : ∀ tok : Text, exprOp tok none = some o → parseNumber A tok = none → tok ≠ ['('] → tok ≠ [')'] →
        o ≠ .comma → feed A { st with flags := tUnary } tok =
          .ok ⟨tUnary, .allowed, [], st.es, .op o :: st.os, st.as⟩ := by
      intro tok e1 e2 e3 e4 e5
      rw [feed_ready h7]
      simp only [doToken, if_neg e3, if_neg e4, h6, doOther, e1, e2, opLoop_stop hst e5]
      simp [h7]
    rcases ho with ⟨rfl, rfl⟩ | ⟨rfl, rfl⟩ | ⟨rfl, rfl⟩
    · exact key ['-', 'u'] (by decide) rfl (by decide) (by decide) (by decide)
    · exact key ['!', 'u'] (by decide) rfl (by decide) (by decide) (by decide)
    · exact key ['^', 'u'] (by decide) rfl (by decide) (by decide) (by decide)

/-- What may follow an operator. -/
def Start (c : Char) : Prop := isVar c = true ∨ isSpace c = true ∨ c = '(' ∨ c = '-' ∨ c = '!' ∨ c = '^'

theorem munch_stop {pre : Text} {c : Char} {cs : Text}
    (h : (isVar c || isSpace c || c == '(' || c == ')') = true ∨ exprOp (pre ++ [c]) (some false) = none) :
    munch pre true (c :: cs) = some (pre, c :: cs) := by
  unfold munch
  cases hb : (isVar c || isSpace c || c == '(' || c == ')') with
  | true => rfl
  | false =>
    rw [hb] at h
    rcases h with h | h
    · exact absurd h (by simp)
    · rw [h]; rfl

/-- Facts about the signs between operands. -/
theorem sign_facts {o : Op} {w : Text} {l : Nat} (h : (o, w, l) ∈ binarySigns) :
    (∀ r, munch [] false (w ++ r) = munch w true r) ∧
    (∀ c, c = '-' ∨ c = '!' ∨ c = '^' → exprOp (w ++ [c]) (some false) = none) ∧
    exprOp w none = some o ∧ lev o = l ∧ isUnary o = false ∧ o ≠ .comma ∧ o ≠ .assign ∧
    (∀ {V : Type} (A : Arith V), parseNumber A w = none) ∧ w ≠ ['('] ∧ w ≠ [')'] ∧ w ≠ [] ∧
    (∀ (f : Flags) r, f.top = true → nextToken f (w ++ r) =
      (match munch [] false (w ++ r) with | none => .error | some (t, rest) => .tok t rest tBinary)) ∧
    (∀ c, w.head? = some c → isVar c = false ∧ c ≠ '.' ∧ isBlank c = false ∧ c ≠ '#' ∧ isSpace c = false) := by
  simp only [binarySigns, List.mem_cons, Prod.mk.injEq, List.not_mem_nil, or_false] at h
  rcases h with ⟨rfl, rfl, rfl⟩ | ⟨rfl, rfl, rfl⟩ | ⟨rfl, rfl, rfl⟩ | ⟨rfl, rfl, rfl⟩ | ⟨rfl, rfl, rfl⟩ |
    ⟨rfl, rfl, rfl⟩ | ⟨rfl, rfl, rfl⟩ | ⟨rfl, rfl, rfl⟩ | ⟨rfl, rfl, rfl⟩ | ⟨rfl, rfl, rfl⟩ | ⟨rfl, rfl, rfl⟩ |
    ⟨rfl, rfl, rfl⟩ | ⟨rfl, rfl, rfl⟩ | ⟨rfl, rfl, rfl⟩ | ⟨rfl, rfl, rfl⟩ | ⟨rfl, rfl, rfl⟩ | ⟨rfl, rfl, rfl⟩ |
    ⟨rfl, rfl, rfl⟩ | ⟨rfl, rfl, rfl⟩ <;>
  refine ⟨fun r => rfl, by rintro c (rfl | rfl | rfl) <;> decide, by decide, rfl, rfl, by decide, by decide, fun A => rfl,
    by decide, by decide, by decide, ?_, by intro c hc; injection hc with hc; subst hc; decide⟩ <;>
  (intro f r hf; simp only [List.cons_append, nextToken, hf]; rfl)

/-- A sign between operands. -/
theorem reach_binary {st : St V} {es' es : List (Tree V)} {os : List Item} {as : List (Frame V)} {pd : List Op}
    (hs : Done st es' (pd.map .op ++ os) as) (hb : bindAll pd es' = some es) {o : Op} {w : Text} {l : Nat}
    (ho : (o, w, l) ∈ binarySigns) (hp : ∀ p ∈ pd, exprPrec o p = true) (hst : Stops o os) {r : Text}
    (hr : ∃ c cs, r = c :: cs ∧ Start c) :
    ∃ st', Reach A st (w ++ r) st' r ∧ Ready st' es (.op o :: os) as ∧ st'.flags.unary = false := by
  obtain ⟨f1, f2, f3, _, _, f6, _, f8, f9, f10, f11, f12, f13⟩ := sign_facts ho
  obtain ⟨c, cs, rfl, hc⟩ := hr
  have hm : munch [] false (w ++ c :: cs) = some (w, c :: cs) := by
    rw [f1]
    apply munch_stop
    rcases hc with h | h | h | h
    · left; simp [h]
    · left; simp [h]
    · left; simp [h]
    · right; exact f2 c h
  refine ⟨⟨tBinary, .allowed, [], es, .op o :: os, as⟩, Reach.step (t := w) (f := tBinary) ?_ ?_ ?_,
    ⟨rfl, rfl, rfl, rfl, rfl, rfl, rfl, rfl, rfl, rfl⟩, rfl⟩
  · rw [f12 _ _ hs.top, hm]
  · obtain ⟨d, ds, rfl⟩ := List.exists_cons_of_ne_nil f11
    obtain ⟨_, _, _, h4, h5⟩ := f13 d rfl
    rw [turn_feed rfl h4 h5, feed_done hs f9]
    simp only [doToken, if_neg f9, if_neg f10, doOther, f8 A, f3, opLoop_pop hp os es' es as hb, opLoop_stop hst f6]
    simp
  · have := List.length_pos_iff.mpr f11
    simp; omega

/-- `)` of a pair of parentheses. -/
theorem reach_close {st : St V} {es' es : List (Tree V)} {os : List Item} {as : List (Frame V)} {pd : List Op}
    (hs : Done st es' (pd.map .op ++ .lpar :: os) as) (hb : bindAll pd es' = some es)
    (hf : ∀ a, as.head? = some a → a.oslen ≤ os.length) (r : Text) :
    ∃ st', Reach A st (')' :: r) st' r ∧ Done st' es os as := by
  refine ⟨⟨tOperand, .forbidden, [], es, os, as⟩, Reach.step (t := [')']) (f := tOperand) ?_ ?_ (by simp),
    ⟨rfl, rfl, rfl, rfl, rfl, rfl, Or.inl ⟨rfl, rfl, rfl⟩⟩⟩
  · simp only [nextToken, hs.close]; rfl
  · rw [turn_feed rfl (by decide) (by decide), feed_done hs (by decide)]
    have hm : minLen as ≤ (Item.lpar :: os).length := by
      cases as with
      | nil => simp [minLen]
      | cons a _ => have := hf a rfl; simp [minLen]; omega
    have hc := closeLoop_pop hm es' es hb
    have hc2 : closeLoop (minLen as) (Item.lpar :: os) es =
        some (.lpar :: os, es) := by simp [closeLoop]
    simp only [doToken, if_neg (by decide : ([')'] : Text) ≠ ['('])]
    simp only [if_true, doClose, hc, hc2]
    simp

/-- `)` at the end of a call. -/
theorem reach_end {st : St V} {es' es : List (Tree V)} {os : List Item} {as : List (Frame V)} {pd : List Op} {f : Fn}
    {x : Tree V} {args : List (Tree V)}
    (hs : Done st es' (pd.map .op ++ .brace :: .func f :: os) (⟨os.length + 2, es.length, args⟩ :: as))
    (hb : bindAll pd es' = some (x :: es)) (r : Text) :
    ∃ st', Reach A st (')' :: r) st' r ∧ Done st' (.call f (args ++ [x]) :: es) os as := by
  refine ⟨⟨tOperand, .forbidden, [], .call f (args ++ [x]) :: es, os, as⟩, Reach.step (t := [')']) (f := tOperand) ?_ ?_
    (by simp), ⟨rfl, rfl, rfl, rfl, rfl, rfl, Or.inl ⟨rfl, rfl, rfl⟩⟩⟩
  · simp only [nextToken, hs.close]; rfl
  · rw [turn_feed rfl (by decide) (by decide), feed_done hs (by decide)]
    have hc := closeLoop_pop (m := os.length + 2) (os := Item.brace :: .func f :: os) (by simp) es' (x :: es) hb
    have hc2 : closeLoop (os.length + 2) (Item.brace :: .func f :: os) (x :: es) =
        some (.brace :: .func f :: os, x :: es) := by simp [closeLoop]
    simp only [doToken, if_neg (by decide : ([')'] : Text) ≠ ['('])]
    simp only [if_true, doClose, minLen, hc, hc2, closeCall]
    simp

/-- `,` between the arguments of a call. -/
theorem reach_comma {st : St V} {es' es : List (Tree V)} {os : List Item} {as : List (Frame V)} {pd : List Op}
    {x : Tree V} {a : Frame V} (hs : Done st es' (pd.map .op ++ .brace :: os) (a :: as))
    (hb : bindAll pd es' = some (x :: es)) (hp : ∀ p ∈ pd, lev p ≤ 10) {r : Text} (hr : ∃ c cs, r = c :: cs ∧ Start c) :
    ∃ st', Reach A st (',' :: r) st' r ∧ Ready st' es (.brace :: os) ({ a with args := a.args ++ [x] } :: as) ∧
      st'.flags.unary = false := by
  obtain ⟨c, cs, rfl, hc⟩ := hr
  refine ⟨⟨tBinary, .allowed, [], es, .brace :: os, { a with args := a.args ++ [x] } :: as⟩,
    Reach.step (t := [',']) (f := tBinary) ?_ ?_ (by simp),
    ⟨rfl, rfl, rfl, rfl, rfl, rfl, rfl, rfl, rfl, rfl⟩, rfl⟩
  · have hm : munch [] false (',' :: c :: cs) = some ([','], c :: cs) := by
      have h1 : munch [] false (',' :: c :: cs) = munch [','] true (c :: cs) := rfl
      rw [h1]
      apply munch_stop
      rcases hc with h | h | h | h | h | h
      · left; simp [h]
      · left; simp [h]
      · left; simp [h]
      · right; subst h; decide
      · right; subst h; decide
      · right; subst h; decide
    have h1 : nextToken st.flags (',' :: c :: cs) =
        (match munch [] false (',' :: c :: cs) with | none => .error | some (t, rest) => .tok t rest tBinary) := by
      simp only [nextToken, hs.top]; rfl
    rw [h1, hm]
  · rw [turn_feed rfl (by decide) (by decide), feed_done hs (by decide)]
    have hpp : ∀ p ∈ pd, exprPrec .comma p = true := by
      intro p h
      have := hp p h
      cases p <;> first | rfl | (simp [lev, prec] at this)
    have h1 : opLoop .comma (pd.map .op ++ .brace :: os) es' (a :: as) =
        .ok (.brace :: os, es, { a with args := a.args ++ [x] } :: as) := by
      rw [opLoop_pop hpp _ es' (x :: es) _ hb]; simp [opLoop]
    have h2 : parseNumber A [','] = none := rfl
    have h3 : exprOp [','] none = some .comma := by decide
    simp only [doToken, if_neg (by decide : ([','] : Text) ≠ ['(']), if_neg (by decide : ([','] : Text) ≠ [')']), doOther,
      h2, h3, h1]
    simp

/-! ### Levels -/

theorem pops_left {o p : Op} (ho : lev o ≤ 10) (h2 : 2 ≤ lev o) (h : lev p ≤ lev o) : exprPrec o p = true := by
  revert ho h2 h
  cases o <;> cases p <;> decide

theorem pops_power {p : Op} (h : lev p = 0) : exprPrec .pow p = true := by
  revert h
  cases p <;> decide

theorem stops_left {o c : Op} (h : lev o < lev c) : exprPrec o c = false := by
  revert h
  cases o <;> cases c <;> decide

theorem stops_power {o : Op} (h : lev o ≤ 1) : exprPrec o .pow = false := by
  revert h
  cases o <;> decide

theorem stops_unary {o c : Op} (h : lev o = 0) : exprPrec o c = false := by
  revert h
  cases o <;> cases c <;> decide

/-- Operators up to level `l` leave what is on the stack. -/
def Holds (l : Nat) (os : List Item) : Prop := ∀ o, lev o ≤ l → Stops o os

theorem holds_mono {k l : Nat} {os : List Item} (h : Holds l os) (hk : k ≤ l) : Holds k os :=
  fun o ho => h o (by omega)

theorem holds_lpar (l : Nat) (os : List Item) : Holds l (.lpar :: os) := by
  intro o _ p r h; exact absurd h (by simp)

theorem holds_brace (l : Nat) (os : List Item) : Holds l (.brace :: os) := by
  intro o _ p r h; exact absurd h (by simp)

theorem holds_op {l : Nat} {c : Op} (h : ∀ o, lev o ≤ l → exprPrec o c = false) (os : List Item) :
    Holds l (.op c :: os) := by
  intro o ho p r he
  simp only [List.cons.injEq, Item.op.injEq] at he
  obtain ⟨rfl, _⟩ := he
  exact h o ho

end Verif.Expr

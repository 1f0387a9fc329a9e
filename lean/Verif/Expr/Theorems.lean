import Verif.Expr.Lemmas
/-
C114: an expression has the value of the expression that is written.
-/
namespace Verif.Expr

variable {V : Type} {A : Arith V}

/-- Blanks after a unary sign: any number but one. -/
def NotOne (b : Text) : Prop := b.length ≠ 1

theorem blank_head {b r : Text} (hb : Blanks b) {P : Char → Prop} (h1 : P ' ') (h2 : P '\t')
    (hr : ∀ c, r.head? = some c → P c) : ∀ c, (b ++ r).head? = some c → P c := by
  cases b with
  | nil => exact hr
  | cons x xs =>
    intro c hc
    simp only [List.cons_append, List.head?_cons, Option.some.injEq] at hc
    subst hc
    rcases hb x List.mem_cons_self with rfl | rfl <;> assumption

/-- A written expression starts with a character that is not blank. -/
theorem writes_head {g : Text → Prop} {l : Nat} {s : Text} {t : Ast} (h : Writes g l s t) :
    ∃ c cs, s = c :: cs ∧ Start c ∧ isBlank c = false := by
  have name : ∀ w : Text, Name w → ∀ r, ∃ c cs, w ++ r = c :: cs ∧ Start c ∧ isBlank c = false := by
    intro w hw r
    obtain ⟨c, cs, rfl⟩ := List.exists_cons_of_ne_nil hw.ne
    obtain ⟨h1, _, h3, _⟩ := hw.first c rfl
    exact ⟨c, cs ++ r, rfl, Or.inl (by simp [isVar, h1]), by simp [isBlank, h3]⟩
  have dig : ∀ ds : Text, ds ≠ [] → Digits ds → ∀ r, ∃ c cs, ds ++ r = c :: cs ∧ Start c ∧ isBlank c = false := by
    intro ds h0 hd r
    obtain ⟨c, cs, rfl⟩ := List.exists_cons_of_ne_nil h0
    have hm := hd c List.mem_cons_self
    refine ⟨c, cs ++ r, rfl, Or.inl (digit_isVar (digit_isDigit hm)), ?_⟩
    fin_cases hm <;> decide
  have app : ∀ (s : Text), (∃ c cs, s = c :: cs ∧ Start c ∧ isBlank c = false) → ∀ r,
      ∃ c cs, s ++ r = c :: cs ∧ Start c ∧ isBlank c = false := by
    rintro s ⟨c, cs, rfl, h1, h2⟩ r
    exact ⟨c, cs ++ r, rfl, h1, h2⟩
  induction h with
  | int ds h0 hd => simpa using dig ds h0 hd []
  | dec ds fs h0 hd _ => exact dig ds h0 hd _
  | const n c hn => simpa using name n (constNames_name hn).1 []
  | paren b1 s b2 t => exact ⟨_, _, rfl, by simp [Start], by decide⟩
  | app1 n f b0 b1 s b2 t hn => exact name n (names1_name hn).1 _
  | app2 n f b0 b1 s b2 b3 r b4 t u hn => exact name n (names2_name hn).1 _
  | un o c b s t ho =>
    refine ⟨c, _, rfl, ?_⟩
    simp only [unarySigns, List.mem_cons, Prod.mk.injEq, List.not_mem_nil, or_false] at ho
    rcases ho with ⟨rfl, rfl⟩ | ⟨rfl, rfl⟩ | ⟨rfl, rfl⟩ <;> exact ⟨by simp [Start], by decide⟩
  | power b1 b2 s r t u _ _ _ _ ih _ => exact app s ih _
  | left o w l b1 b2 s r t u _ _ _ _ _ _ ih _ => exact app s ih _
  | loosen l s t _ ih => exact ih

theorem noBlank_of_head {s r : Text} (h : ∃ c cs, s = c :: cs ∧ Start c ∧ isBlank c = false) : NoBlank (s ++ r) := by
  obtain ⟨c, cs, rfl, _, h2⟩ := h
  intro d hd
  simp only [List.cons_append, List.head?_cons, Option.some.injEq] at hd
  subst hd; exact h2

theorem start_of_blanks {b s r : Text} (hb : Blanks b) (h : ∃ c cs, s = c :: cs ∧ Start c ∧ isBlank c = false) :
    ∃ c cs, b ++ (s ++ r) = c :: cs ∧ Start c := by
  obtain ⟨c, cs, rfl, h1, _⟩ := h
  cases b with
  | nil => exact ⟨c, cs ++ r, rfl, h1⟩
  | cons x xs =>
    refine ⟨x, xs ++ (c :: cs ++ r), rfl, ?_⟩
    rcases hb x List.mem_cons_self with rfl | rfl <;> exact Or.inr (Or.inl (by decide))

/-- Reading an expression: the operators of the expression that are not bound yet are on top of the stack, bind at most as
loosely as the level, and binding them gives the tree. -/
theorem reads {l : Nat} {s : Text} {t : Ast} (h : Writes NotOne l s t) :
    l ≤ 10 → ∀ (st : St V) (es : List (Tree V)) (os : List Item) (as : List (Frame V)) (rest : Text),
      Ready st es os as → Holds l os → Delim rest → (∀ a, as.head? = some a → a.oslen ≤ os.length) →
      ∃ st' es' pd, Reach A st (s ++ rest) st' rest ∧ Done st' es' (pd.map .op ++ os) as ∧
        bindAll pd es' = some (t.tree A :: es) ∧ ∀ o ∈ pd, lev o ≤ l := by
  induction h with
  | int ds h0 hd =>
    intro _ st es os as rest hs _ hdl _
    have hp := parse_int (A := A) h0 hd
    obtain ⟨c, cs, rfl⟩ := List.exists_cons_of_ne_nil h0
    obtain ⟨st', h1, h2⟩ := reach_num (A := A) hs (digit_isDigit (hd c List.mem_cons_self))
      (fun x hx => by simp [isNum, digit_isDigit (hd x (List.mem_cons_of_mem _ hx))]) hdl hp
    exact ⟨st', _, [], h1, h2, rfl, by simp⟩
  | dec ds fs h0 hd hf =>
    intro _ st es os as rest hs _ hdl _
    have hp := parse_dec (A := A) h0 hd hf
    obtain ⟨c, cs, rfl⟩ := List.exists_cons_of_ne_nil h0
    obtain ⟨st', h1, h2⟩ := reach_num (A := A) (ds := cs ++ '.' :: fs) hs (digit_isDigit (hd c List.mem_cons_self))
      (fun x hx => by
        rcases List.mem_append.mp hx with h | h
        · simp [isNum, digit_isDigit (hd x (List.mem_cons_of_mem _ h))]
        · rcases List.mem_cons.mp h with rfl | h
          · rfl
          · simp [isNum, digit_isDigit (hf x h)]) hdl hp
    exact ⟨st', _, [], h1, h2, rfl, by simp⟩
  | const n c hn =>
    intro _ st es os as rest hs _ hdl _
    obtain ⟨hw, hv⟩ := constNames_name hn
    have h1 := reach_word (A := A) hs hw (r := rest) fun c hc => (hdl c hc).1
    exact ⟨_, .var c :: es, [], h1, ⟨rfl, rfl, rfl, rfl, hs.hos, hs.has, Or.inr ⟨c, hw.ne, hv, by simp [hs.hes]⟩⟩, rfl,
      by simp⟩
  | paren b1 s b2 t hb1 hb2 hw ih =>
    intro _ st es os as rest hs _ hdl hfr
    obtain ⟨st1, r1, q1, u1⟩ := reach_open (A := A) hs (b1 ++ (s ++ (b2 ++ ([')'] ++ rest))))
    have r2 := reach_blanks (A := A) st1 hb1 (noBlank_of_head (r := b2 ++ ([')'] ++ rest)) (writes_head hw))
      (by simp [u1])
    have hd2 : Delim (b2 ++ ([')'] ++ rest)) :=
      blank_head hb2 (by decide) (by decide) (by intro c hc; injection hc with hc; subst hc; decide)
    obtain ⟨st2, es2, pd, r3, d3, e3, l3⟩ := ih (by omega) st1 es (.lpar :: os) as (b2 ++ ([')'] ++ rest)) q1
      (holds_lpar _ _) hd2 (fun a ha => by have := hfr a ha; simp; omega)
    have r4 := reach_blanks (A := A) st2 (r := [')'] ++ rest) hb2
      (by intro c hc; injection hc with hc; subst hc; decide) (by simp [d3.unary])
    obtain ⟨st3, r5, d5⟩ := reach_close (A := A) d3 e3 hfr rest
    refine ⟨st3, _, [], ?_, d5, rfl, by simp⟩
    simpa using r1.trans (r2.trans (r3.trans (r4.trans r5)))
  | app1 n f b0 b1 s b2 t hn hb0 hb1 hb2 hw ih =>
    intro _ st es os as rest hs _ hdl hfr
    obtain ⟨hw1, hf, _, hd⟩ := names1_name hn
    have r0 := reach_word (A := A) hs hw1 (r := b0 ++ ('(' :: (b1 ++ (s ++ (b2 ++ ([')'] ++ rest))))))
      (blank_head hb0 (by decide) (by decide) (by intro c hc; injection hc with hc; subst hc; decide))
    have r0' := reach_blanks (A := A) { st with flags := tWord, id := n } hb0
      (r := '(' :: (b1 ++ (s ++ (b2 ++ ([')'] ++ rest))))) (by intro c hc; injection hc with hc; subst hc; decide)
      (by simp [tWord])
    obtain ⟨st1, r1, q1, u1⟩ := reach_call (A := A) hs hw1 hf hd (b1 ++ (s ++ (b2 ++ ([')'] ++ rest))))
    have r2 := reach_blanks (A := A) st1 hb1 (noBlank_of_head (r := b2 ++ ([')'] ++ rest)) (writes_head hw))
      (by simp [u1])
    have hd2 : Delim (b2 ++ ([')'] ++ rest)) :=
      blank_head hb2 (by decide) (by decide) (by intro c hc; injection hc with hc; subst hc; decide)
    obtain ⟨st2, es2, pd, r3, d3, e3, l3⟩ := ih (by omega) st1 es _ _ (b2 ++ ([')'] ++ rest)) q1
      (holds_brace _ _) hd2 (fun a ha => by simp at ha; subst ha; simp)
    have r4 := reach_blanks (A := A) st2 (r := [')'] ++ rest) hb2
      (by intro c hc; injection hc with hc; subst hc; decide) (by simp [d3.unary])
    obtain ⟨st3, r5, d5⟩ := reach_end (A := A) d3 e3 rest
    refine ⟨st3, _, [], ?_, d5, rfl, by simp⟩
    simpa using r0.trans (r0'.trans (r1.trans (r2.trans (r3.trans (r4.trans r5)))))
  | app2 n f b0 b1 s b2 b3 r b4 t u hn hb0 hb1 hb2 hb3 hb4 hw hw' ih ih' =>
    intro _ st es os as rest hs _ hdl hfr
    obtain ⟨hw1, hf, _, hd⟩ := names2_name hn
    have r0 := reach_word (A := A) hs hw1
      (r := b0 ++ ('(' :: (b1 ++ (s ++ (b2 ++ (',' :: (b3 ++ (r ++ (b4 ++ ([')'] ++ rest))))))))))
      (blank_head hb0 (by decide) (by decide) (by intro c hc; injection hc with hc; subst hc; decide))
    have r0' := reach_blanks (A := A) { st with flags := tWord, id := n } hb0
      (r := '(' :: (b1 ++ (s ++ (b2 ++ (',' :: (b3 ++ (r ++ (b4 ++ ([')'] ++ rest)))))))))
      (by intro c hc; injection hc with hc; subst hc; decide) (by simp [tWord])
    obtain ⟨st1, r1, q1, u1⟩ := reach_call (A := A) hs hw1 hf hd
      (b1 ++ (s ++ (b2 ++ (',' :: (b3 ++ (r ++ (b4 ++ ([')'] ++ rest))))))))
    have r2 := reach_blanks (A := A) st1 hb1
      (noBlank_of_head (r := b2 ++ (',' :: (b3 ++ (r ++ (b4 ++ ([')'] ++ rest)))))) (writes_head hw)) (by simp [u1])
    have hd2 : Delim (b2 ++ (',' :: (b3 ++ (r ++ (b4 ++ ([')'] ++ rest)))))) :=
      blank_head hb2 (by decide) (by decide) (by intro c hc; injection hc with hc; subst hc; decide)
    obtain ⟨st2, es2, pd, r3, d3, e3, l3⟩ := ih (by omega) st1 es _ _ _ q1
      (holds_brace _ _) hd2 (fun a ha => by simp at ha; subst ha; simp)
    have r4 := reach_blanks (A := A) st2 (r := ',' :: (b3 ++ (r ++ (b4 ++ ([')'] ++ rest))))) hb2
      (by intro c hc; injection hc with hc; subst hc; decide) (by simp [d3.unary])
    obtain ⟨st3, r5, q5, u5⟩ := reach_comma (A := A) d3 e3 l3 (start_of_blanks (r := b4 ++ ([')'] ++ rest)) hb3
      (writes_head hw'))
    have r6 := reach_blanks (A := A) st3 hb3 (noBlank_of_head (r := b4 ++ ([')'] ++ rest)) (writes_head hw'))
      (by simp [u5])
    have hd7 : Delim (b4 ++ ([')'] ++ rest)) :=
      blank_head hb4 (by decide) (by decide) (by intro c hc; injection hc with hc; subst hc; decide)
    obtain ⟨st4, es4, pd4, r7, d7, e7, l7⟩ := ih' (by omega) st3 es _ _ _ q5
      (holds_brace _ _) hd7 (fun a ha => by simp at ha; subst ha; simp)
    have r8 := reach_blanks (A := A) st4 (r := [')'] ++ rest) hb4
      (by intro c hc; injection hc with hc; subst hc; decide) (by simp [d7.unary])
    obtain ⟨st5, r9, d9⟩ := reach_end (A := A) d7 e7 rest
    refine ⟨st5, _, [], ?_, d9, rfl, by simp⟩
    simpa using r0.trans (r0'.trans (r1.trans (r2.trans (r3.trans (r4.trans (r5.trans (r6.trans (r7.trans
      (r8.trans r9)))))))))
  | un o c b s t ho hb hg hw ih =>
    intro _ st es os as rest hs hh hdl hfr
    have ho0 : lev o = 0 ∧ isUnary o = true := by
      simp only [unarySigns, List.mem_cons, Prod.mk.injEq, List.not_mem_nil, or_false] at ho
      rcases ho with ⟨rfl, _⟩ | ⟨rfl, _⟩ | ⟨rfl, _⟩ <;> exact ⟨rfl, rfl⟩
    obtain ⟨st1, r1, q1⟩ := reach_unary (A := A) hs ho (hh o (by omega)) (b ++ (s ++ rest))
    have r2 := reach_blanks (A := A) st1 hb (noBlank_of_head (r := rest) (writes_head hw)) (fun _ => hg)
    obtain ⟨st2, es2, pd, r3, d3, e3, l3⟩ := ih (by omega) st1 es (.op o :: os) as rest q1
      (holds_op (fun p hp => stops_unary (by omega)) os) hdl (fun a ha => by have := hfr a ha; simp; omega)
    refine ⟨st2, es2, pd ++ [o], by simpa using r1.trans (r2.trans r3), by simpa using d3, ?_, ?_⟩
    · rw [bindAll_append, e3]
      simp [bindAll, bindOp, ho0.2, Ast.tree]
    · intro p hp
      rcases List.mem_append.mp hp with h | h
      · exact l3 p h
      · rw [List.mem_singleton.mp h]; omega
  | power b1 b2 s r t u hb1 hb2 hw hw' ih ih' =>
    intro _ st es os as rest hs hh hdl hfr
    have hsg : (Op.pow, ['*', '*'], 1) ∈ binarySigns := by simp [binarySigns]
    have hd1 : Delim (b1 ++ (['*', '*'] ++ (b2 ++ (r ++ rest)))) :=
      blank_head hb1 (by decide) (by decide) (by intro c hc; injection hc with hc; subst hc; decide)
    obtain ⟨st1, es1, pd1, r1, d1, e1, l1⟩ := ih (by omega) st es os as _ hs (holds_mono hh (by omega)) hd1 hfr
    have r2 := reach_blanks (A := A) st1 (r := ['*', '*'] ++ (b2 ++ (r ++ rest))) hb1
      (by intro c hc; injection hc with hc; subst hc; decide) (by simp [d1.unary])
    obtain ⟨st2, r3, q3, u3⟩ := reach_binary (A := A) d1 e1 hsg
      (fun p hp => pops_power (by have := l1 p hp; omega)) (hh .pow (by decide))
      (start_of_blanks (r := rest) hb2 (writes_head hw'))
    have r4 := reach_blanks (A := A) st2 hb2 (noBlank_of_head (r := rest) (writes_head hw')) (by simp [u3])
    obtain ⟨st3, es3, pd3, r5, d5, e5, l5⟩ := ih' (by omega) st2 _ (.op .pow :: os) as rest q3
      (holds_op (fun p hp => stops_power hp) os) hdl (fun a ha => by have := hfr a ha; simp; omega)
    refine ⟨st3, es3, pd3 ++ [.pow], by simpa using r1.trans (r2.trans (r3.trans (r4.trans r5))), by simpa using d5,
      ?_, ?_⟩
    · rw [bindAll_append, e5]
      simp [bindAll, bindOp, isUnary, Ast.tree]
    · intro p hp
      rcases List.mem_append.mp hp with h | h
      · exact l5 p h
      · rw [List.mem_singleton.mp h]; decide
  | left o w l b1 b2 s r t u ho hl hb1 hb2 hw hw' ih ih' =>
    intro hl10 st es os as rest hs hh hdl hfr
    obtain ⟨_, _, _, f4, f5, _, f7, _, _, _, f11, _, f13⟩ := sign_facts ho
    have hwh : ∀ c, (w ++ (b2 ++ (r ++ rest))).head? = some c → w.head? = some c := by
      obtain ⟨d, ds, rfl⟩ := List.exists_cons_of_ne_nil f11
      exact fun c hc => hc
    have hd1 : Delim (b1 ++ (w ++ (b2 ++ (r ++ rest)))) :=
      blank_head hb1 (by decide) (by decide) fun c hc => ⟨(f13 c (hwh c hc)).1, (f13 c (hwh c hc)).2.1⟩
    obtain ⟨st1, es1, pd1, r1, d1, e1, l1⟩ := ih hl10 st es os as _ hs hh hd1 hfr
    have r2 := reach_blanks (A := A) st1 (r := w ++ (b2 ++ (r ++ rest))) hb1
      (fun c hc => (f13 c (hwh c hc)).2.2.1) (by simp [d1.unary])
    obtain ⟨st2, r3, q3, u3⟩ := reach_binary (A := A) d1 e1 ho
      (fun p hp => pops_left (by omega) (by omega) (by have := l1 p hp; omega)) (hh o (by omega))
      (start_of_blanks (r := rest) hb2 (writes_head hw'))
    have r4 := reach_blanks (A := A) st2 hb2 (noBlank_of_head (r := rest) (writes_head hw')) (by simp [u3])
    obtain ⟨st3, es3, pd3, r5, d5, e5, l5⟩ := ih' (by omega) st2 _ (.op o :: os) as rest q3
      (holds_op (fun p hp => stops_left (by omega)) os) hdl (fun a ha => by have := hfr a ha; simp; omega)
    refine ⟨st3, es3, pd3 ++ [o], by simpa using r1.trans (r2.trans (r3.trans (r4.trans r5))), by simpa using d5,
      ?_, ?_⟩
    · rw [bindAll_append, e5]
      simp [bindAll, bindOp, f5, f7, Ast.tree]
    · intro p hp
      rcases List.mem_append.mp hp with h | h
      · have := l5 p h; omega
      · rw [List.mem_singleton.mp h]; omega
  | loosen l s t hw ih =>
    intro hl st es os as rest hs hh hdl hfr
    obtain ⟨st', es', pd, h1, h2, h3, h4⟩ := ih (by omega) st es os as rest hs (holds_mono hh (by omega)) hdl hfr
    exact ⟨st', es', pd, h1, h2, h3, fun p hp => by have := h4 p hp; omega⟩

/-- The value of the tree. -/
theorem eval_tree {g : Text → Prop} {l : Nat} {s : Text} {t : Ast} (h : Writes g l s t) :
    eval A (t.tree A) = some (t.value A) := by
  have bin : ∀ (o : Op) (x y : V), o ≠ .comma → o ≠ .assign → evalBin A o x y = some (binValue A o x y) := by
    intro o x y h1 h2
    cases o <;> simp [evalBin, binValue] at *
  induction h with
  | int => rfl
  | dec => rfl
  | const => rfl
  | paren _ _ _ _ _ _ _ ih => exact ih
  | app1 n f b0 b1 s b2 t hn _ _ _ _ ih =>
    simp [Ast.tree, Ast.value, eval, evalAll, ih, callFn, (names1_name hn).2.2.1]
  | app2 n f b0 b1 s b2 b3 r b4 t u hn _ _ _ _ _ _ _ ih ih' =>
    simp [Ast.tree, Ast.value, eval, evalAll, ih, ih', callFn, (names2_name hn).2.2.1]
  | un o c b s t _ _ _ _ ih => simp [Ast.tree, Ast.value, eval, ih]
  | power b1 b2 s r t u _ _ _ _ ih ih' =>
    simp only [Ast.tree, Ast.value, eval, ih, ih']; exact bin _ _ _ (by decide) (by decide)
  | left o w l b1 b2 s r t u ho _ _ _ _ _ ih ih' =>
    obtain ⟨_, _, _, _, _, f6, f7, _⟩ := sign_facts ho
    simp only [Ast.tree, Ast.value, eval, ih, ih']; exact bin _ _ _ f6 f7
  | loosen _ _ _ _ ih => exact ih

theorem finish_done {st : St V} {es' es : List (Tree V)} {pd : List Op} {x : Tree V}
    (hs : Done st es' (pd.map .op ++ []) []) (hb : bindAll pd es' = some (x :: es)) : finish A st = .tree x := by
  obtain ⟨_, _, _, _, ho, _, hes⟩ := hs
  rw [List.append_nil] at ho
  unfold finish
  rcases hes with ⟨h1, h2, _⟩ | ⟨c, h1, h2, h3⟩
  · rw [if_pos h1, ho, h2, flushOut, flush_pop, hb]
  · rw [if_neg h1]
    simp only [h2]
    rw [← h3, ho, flushOut, flush_pop, hb]

/-- C114: whatever way an expression is written, with any parentheses and blanks but a single blank after a sign, the
result is the value of the expression (nothing if that is not a number). -/
theorem expression_value_partial (A : Arith V) {s b1 b2 : Text} {t : Ast} (h : Writes NotOne 10 s t) (hb1 : Blanks b1)
    (hb2 : Blanks b2) :
    evalExpr A (b1 ++ (s ++ b2)) =
      if A.isNaN (t.value A) = true then .undefined else .number (t.value A) := by
  have hr : Ready (init : St V) [] [] [] := ⟨rfl, rfl, rfl, rfl, rfl, rfl, rfl, rfl, rfl, rfl⟩
  have r1 := reach_blanks (A := A) (init : St V) hb1 (noBlank_of_head (r := b2) (writes_head h)) (by simp [init, tDefault])
  have hd : Delim b2 := by
    have := blank_head (r := []) (P := fun c => isVar c = false ∧ c ≠ '.') hb2 (by decide) (by decide) (by simp)
    rw [List.append_nil] at this
    exact this
  obtain ⟨st, es, pd, r2, d2, e2, _⟩ := reads (A := A) h (by omega) init [] [] [] b2 hr
    (by intro o _ p r he; exact absurd he (by simp)) hd (by simp)
  have r3 := reach_blanks (A := A) st (r := []) hb2 (by intro c hc; exact absurd hc (by simp)) (by simp [d2.unary])
  rw [List.append_nil] at r3
  obtain ⟨m, _, hm⟩ := (r1.trans (r2.trans r3)) ((b1 ++ (s ++ b2)).length + 1) (by omega)
  have hc : create A (b1 ++ (s ++ b2)) = .tree (t.tree A) := by
    unfold create
    rw [hm, run_nil, finish_done d2 e2]
  simp only [evalExpr, hc, eval_tree h]

/-- Arithmetic of fractions for the examples (power with natural exponents, no functions). -/
def fractions : Arith Rat where
  zero := 0
  push v d := v * 10 + d
  div10 v := v / 10
  isNaN _ := false
  nonzero v := v != 0
  const
    | .pi => 355 / 113
    | .e => 193 / 71
  un
    | .umin, x => -x
    | .unot, x => if x = 0 then 1 else 0
    | _, _ => 0
  bin o x y :=
    match o with
    | .plus => x + y
    | .minus => x - y
    | .mul => x * y
    | .div => x / y
    | .lt => if x < y then 1 else 0
    | .eq => if x = y then 1 else 0
    | .pow => x ^ y.num.toNat
    | _ => 0
  fn1 _ x := x
  fn2 f x y :=
    match f with
    | .max => if x < y then y else x
    | .min => if y < x then y else x
    | _ => x ^ y.num.toNat

/-- `7 - 2*3 ** 2 -max( -1,(1+1))` is written by the grammar. -/
theorem sample_writes : Writes NotOne 10 "7 - 2*3 ** 2 -max( -1,(1+1))".toList
    (.bin .minus (.bin .minus (.lit ['7'] []) (.bin .mul (.lit ['2'] []) (.bin .pow (.lit ['3'] []) (.lit ['2'] []))))
      (.app2 .max (.un .umin (.lit ['1'] [])) (.bin .plus (.lit ['1'] []) (.lit ['1'] [])))) := by
  have num : ∀ c, c ∈ ['0', '1', '2', '3', '4', '5', '6', '7', '8', '9'] → Writes NotOne 0 [c] (.lit [c] []) := by
    intro c hc
    refine Writes.int [c] (by simp) ?_
    intro d hd
    rw [List.mem_singleton.mp hd]; exact hc
  have up : ∀ {k l : Nat} {s t}, k ≤ l → Writes NotOne k s t → Writes NotOne l s t := by
    intro k l s t hk h
    induction hk with
    | refl => exact h
    | step _ ih => exact Writes.loosen _ _ _ ih
  have sp : Blanks [' '] := by intro c hc; left; simpa using hc
  have no : Blanks [] := by intro c hc; simp at hc
  have hpow : Writes NotOne 1 "3 ** 2".toList _ :=
    Writes.power [' '] [' '] ['3'] ['2'] _ _ sp sp (num '3' (by simp)) (up (by omega) (num '2' (by simp)))
  have hmul : Writes NotOne 2 "2*3 ** 2".toList _ :=
    Writes.left .mul ['*'] 1 [] [] ['2'] _ _ _ (by simp [binarySigns]) (by omega) no no
      (up (by omega) (num '2' (by simp))) hpow
  have hsub : Writes NotOne 3 "7 - 2*3 ** 2".toList _ :=
    Writes.left .minus ['-'] 2 [' '] [' '] ['7'] _ _ _ (by simp [binarySigns]) (by omega) sp sp
      (up (by omega) (num '7' (by simp))) hmul
  have hneg : Writes NotOne 0 "-1".toList _ :=
    Writes.un .umin '-' [] ['1'] _ (by simp [unarySigns]) no (by simp [NotOne]) (num '1' (by simp))
  have hadd : Writes NotOne 3 "1+1".toList _ :=
    Writes.left .plus ['+'] 2 [] [] ['1'] ['1'] _ _ (by simp [binarySigns]) (by omega) no no
      (up (by omega) (num '1' (by simp))) (up (by omega) (num '1' (by simp)))
  have hpar : Writes NotOne 0 "(1+1)".toList _ := Writes.paren [] _ [] _ no no (up (by omega) hadd)
  have hmax : Writes NotOne 0 "max( -1,(1+1))".toList _ :=
    Writes.app2 "max".toList .max [] [' '] _ [] [] _ [] _ _ (by simp [names2]) no sp no no no
      (up (by omega) hneg) (up (by omega) hpar)
  exact up (by omega) (Writes.left .minus ['-'] 2 [' '] [] _ _ _ _ (by simp [binarySigns]) (by omega) sp no hsub
    (up (by omega) hmax))

/-- `7 - 2*3 ** 2 -max( -1,(1+1))` is -13. -/
example : evalExpr fractions "7 - 2*3 ** 2 -max( -1,(1+1))".toList = .number (-13) := by
  have h := expression_value_partial fractions (b1 := []) (b2 := []) sample_writes (by intro c hc; simp at hc)
    (by intro c hc; simp at hc)
  rw [List.nil_append, List.append_nil] at h
  rw [h]
  decide +kernel

/-- C114 does not hold for every text: one blank after a sign makes the expression fail, two do not. -/
theorem expression_value_fails :
    Writes (fun _ => True) 10 "- 3".toList (.un .umin (.lit ['3'] [])) ∧
    (∀ {V : Type} (A : Arith V), evalExpr A "- 3".toList = .undefined) ∧
    evalExpr fractions "-  3".toList = .number (-3) := by
  refine ⟨?_, fun A => rfl, by decide +kernel⟩
  have h : Writes (fun _ => True) 0 "- 3".toList (.un .umin (.lit ['3'] [])) :=
    Writes.un .umin '-' [' '] ['3'] _ (by simp [unarySigns]) (by intro c hc; left; simpa using hc) trivial
      (Writes.int ['3'] (by simp) (by intro c hc; rw [List.mem_singleton.mp hc]; simp))
  exact (((((((((h.loosen).loosen).loosen).loosen).loosen).loosen).loosen).loosen).loosen).loosen

end Verif.Expr

import Verif.Expr.WordTheorems
/-
C119: texts that are not expressions.
-/
namespace Verif.Expr

variable {V : Type} {A : Arith V}

/-- The parentheses of the text match, `d` being open before. -/
def balancedFrom : Nat → Text → Bool
  | d, [] => d == 0
  | d, '(' :: cs => balancedFrom (d + 1) cs
  | 0, ')' :: _ => false
  | d + 1, ')' :: cs => balancedFrom d cs
  | d, _ :: cs => balancedFrom d cs

/-- Number of open parentheses on the stack. -/
def opens : List Item → Nat
  | [] => 0
  | .lpar :: os => opens os + 1
  | .brace :: os => opens os + 1
  | _ :: os => opens os

/-- Heights of the opened calls. -/
def braces : List Item → List Nat
  | [] => []
  | .brace :: os => (os.length + 1) :: braces os
  | _ :: os => braces os

/-- The frames belong to the opened calls. -/
def Inv (os : List Item) (as : List (Frame V)) : Prop := as.map (·.oslen) = braces os

theorem braces_le (os : List Item) : ∀ n ∈ braces os, n ≤ os.length := by
  induction os with
  | nil => simp [braces]
  | cons i os ih =>
    intro n hn
    cases i <;> simp only [braces, List.mem_cons] at hn
    · have := ih n hn; simp; omega
    · have := ih n hn; simp; omega
    · rcases hn with rfl | hn
      · simp
      · have := ih n hn; simp; omega
    · have := ih n hn; simp; omega

theorem minLen_le {os : List Item} {as : List (Frame V)} (h : as.map (·.oslen) = braces os) : minLen as ≤ os.length := by
  cases as with
  | nil => simp [minLen]
  | cons a as =>
    refine braces_le os _ ?_
    rw [← h]; simp [minLen]

/-- `)` goes down to the last open parenthesis. -/
theorem closeLoop_stops {as : List (Frame V)} (os : List Item) (es : List (Tree V)) {os' : List Item}
    {es' : List (Tree V)} (hi : Inv os as) (h : closeLoop (minLen as) os es = some (os', es')) :
    opens os' = opens os ∧ braces os' = braces os ∧
      (os' = [] ∨ (∃ r, os' = .lpar :: r) ∨ ∃ r, os' = .brace :: r) := by
  induction os generalizing es with
  | nil =>
    simp only [closeLoop, Option.some.injEq, Prod.mk.injEq] at h
    obtain ⟨rfl, _⟩ := h
    simp
  | cons i os ih =>
    by_cases hp : i = .lpar ∨ i = .brace
    · have hc : ¬ (minLen as < os.length + 1 ∧ i ≠ .lpar ∧ i ≠ .brace) := by tauto
      simp only [closeLoop, if_neg hc, Option.some.injEq, Prod.mk.injEq] at h
      obtain ⟨rfl, _⟩ := h
      rcases hp with rfl | rfl <;> simp
    · have hb : braces (i :: os) = braces os ∧ opens (i :: os) = opens os := by
        cases i <;> simp_all [braces, opens]
      have hm := minLen_le (V := V) (os := os) (as := as) (by rw [← hb.1]; exact hi)
      have hc : minLen as < os.length + 1 ∧ i ≠ .lpar ∧ i ≠ .brace := ⟨by omega, by tauto, by tauto⟩
      simp only [closeLoop, if_pos hc] at h
      cases hbi : bindItem i es with
      | none => rw [hbi] at h; exact absurd h (by simp)
      | some e1 =>
        rw [hbi] at h
        have := ih e1 (by rw [Inv, ← hb.1]; exact hi) h
        rw [hb.1, hb.2]; exact this

theorem opLoop_inv {op : Op} (os : List Item) (es : List (Tree V)) (as : List (Frame V)) {os' : List Item}
    {es' : List (Tree V)} {as' : List (Frame V)} (h : opLoop op os es as = .ok (os', es', as')) :
    opens os' = opens os ∧ braces os' = braces os ∧ as'.map (·.oslen) = as.map (·.oslen) := by
  induction os generalizing es with
  | nil =>
    simp only [opLoop, Res.ok.injEq, Prod.mk.injEq] at h
    obtain ⟨rfl, _, rfl⟩ := h
    simp [opens, braces]
  | cons i os ih =>
    cases i with
    | lpar =>
      simp only [opLoop, Res.ok.injEq, Prod.mk.injEq] at h
      obtain ⟨rfl, _, rfl⟩ := h
      simp [opens, braces]
    | func f =>
      simp only [opLoop, Res.ok.injEq, Prod.mk.injEq] at h
      obtain ⟨rfl, _, rfl⟩ := h
      simp [opens, braces]
    | brace =>
      simp only [opLoop] at h
      by_cases hc : op = .comma
      · rw [if_pos hc] at h
        cases es with
        | nil => exact absurd h (by simp)
        | cons e es =>
          cases as with
          | nil => exact absurd h (by simp)
          | cons a as =>
            simp only [Res.ok.injEq, Prod.mk.injEq] at h
            obtain ⟨rfl, _, rfl⟩ := h
            simp [opens, braces]
      · rw [if_neg hc] at h
        simp only [Res.ok.injEq, Prod.mk.injEq] at h
        obtain ⟨rfl, _, rfl⟩ := h
        simp [opens, braces]
    | op o2 =>
      simp only [opLoop] at h
      by_cases hc : exprPrec op o2 = true
      · rw [if_pos hc] at h
        cases hb : bindOp o2 es with
        | none => rw [hb] at h; exact absurd h (by simp)
        | some e1 =>
          rw [hb] at h
          have := ih e1 h
          simpa [opens, braces] using this
      · rw [if_neg hc] at h
        simp only [Res.ok.injEq, Prod.mk.injEq] at h
        obtain ⟨rfl, _, rfl⟩ := h
        simp [opens, braces]

/-- Change of the number of open parentheses by a token. -/
def Moves (tok : Text) (d d' : Nat) : Prop :=
  if tok = ['('] then d' = d + 1 else if tok = [')'] then d = d' + 1 else d' = d

theorem settle_inv {st st' : St V} {tok : Text} (h : settle st tok = .ok st') (hi : Inv st.os st.as) :
    opens st'.os = opens st.os ∧ Inv st'.os st'.as := by
  unfold settle at h
  split at h
  · simp only [Res.ok.injEq] at h; subst h; exact ⟨rfl, hi⟩
  · split at h
    · split at h
      · exact absurd h (by simp)
      · split at h
        · simp only [Res.ok.injEq] at h; subst h
          exact ⟨by simp [opens], by simpa [Inv, braces] using hi⟩
        · exact absurd h (by simp)
    · split at h
      · simp only [Res.ok.injEq] at h; subst h; exact ⟨rfl, hi⟩
      · exact absurd h (by simp)

theorem doToken_inv {st st' : St V} {tok : Text} (h : doToken A st tok = .ok st') (hi : Inv st.os st.as) :
    Moves tok (opens st.os) (opens st'.os) ∧ Inv st'.os st'.as := by
  unfold doToken at h
  unfold Moves
  by_cases h1 : tok = ['(']
  · rw [if_pos h1] at h ⊢
    unfold doOpen at h
    split at h
    · simp only [Res.ok.injEq] at h; subst h
      exact ⟨by simp [opens], by simpa [Inv, braces] using hi⟩
    · simp only [Res.ok.injEq] at h; subst h
      exact ⟨by simp [opens], by simpa [Inv, braces] using hi⟩
    · exact absurd h (by simp)
  · rw [if_neg h1] at h ⊢
    by_cases h2 : st.paren = .expected
    · rw [if_pos h2] at h; exact absurd h (by simp)
    · rw [if_neg h2] at h
      by_cases h3 : tok = [')']
      · rw [if_pos h3] at h ⊢
        unfold doClose at h
        cases hc : closeLoop (minLen st.as) st.os st.es with
        | none => rw [hc] at h; exact absurd h (by simp)
        | some r =>
          obtain ⟨os', es'⟩ := r
          rw [hc] at h
          obtain ⟨e1, e2, e3⟩ := closeLoop_stops st.os st.es hi hc
          rcases e3 with rfl | ⟨r, rfl⟩ | ⟨r, rfl⟩
          · exact absurd h (by simp)
          · simp only [Res.ok.injEq] at h; subst h
            simp only [opens] at e1
            simp only [braces] at e2
            exact ⟨by simp only; omega, by simpa [Inv, e2] using hi⟩
          · simp only [opens] at e1
            simp only [braces] at e2
            simp only [closeCall] at h
            unfold Inv at hi
            rw [← e2] at hi
            cases r with
            | nil => exact absurd h (by simp)
            | cons i r =>
              cases i with
              | func f =>
                cases has : st.as with
                | nil => rw [has] at hi; exact absurd hi (by simp)
                | cons a as =>
                  rw [has] at h hi
                  simp only [List.map_cons, List.cons.injEq, braces] at hi
                  simp only [opens] at e1
                  cases es' with
                  | nil =>
                    simp only [Res.ok.injEq] at h; subst h
                    exact ⟨by simp; omega, hi.2⟩
                  | cons e es' =>
                    simp only at h
                    split at h <;>
                    · simp only [Res.ok.injEq] at h; subst h
                      exact ⟨by simp; omega, hi.2⟩
              | op o => exact absurd h (by simp)
              | lpar => exact absurd h (by simp)
              | brace => exact absurd h (by simp)
      · rw [if_neg h3] at h ⊢
        unfold doOther at h
        split at h
        · simp only [Res.ok.injEq] at h; subst h; exact ⟨rfl, hi⟩
        · split at h
          · split at h
            · rename_i hop
              simp only [Res.ok.injEq] at h; subst h
              obtain ⟨e1, e2, e3⟩ := opLoop_inv _ _ _ hop
              exact ⟨e1, by simp only [Inv, e2, e3]; exact hi⟩
            · exact absurd h (by simp)
            · exact absurd h (by simp)
            · exact absurd h (by simp)
            · exact absurd h (by simp)
          · split at h
            · exact absurd h (by simp)
            · simp only [Res.ok.injEq] at h; subst h; exact ⟨rfl, hi⟩

theorem feed_inv {st st' : St V} {tok : Text} (h : feed A st tok = .ok st') (hi : Inv st.os st.as) :
    Moves tok (opens st.os) (opens st'.os) ∧ Inv st'.os st'.as := by
  unfold feed at h
  cases hs : settle st tok with
  | ok s1 =>
    rw [hs] at h
    obtain ⟨e1, e2⟩ := settle_inv hs hi
    obtain ⟨e3, e4⟩ := doToken_inv h e2
    rw [e1] at e3
    exact ⟨e3, e4⟩
  | string => rw [hs] at h; exact absurd h (by simp)
  | undef => rw [hs] at h; exact absurd h (by simp)
  | «macro» => rw [hs] at h; exact absurd h (by simp)
  | ub => rw [hs] at h; exact absurd h (by simp)

/-- A text without parentheses. -/
def NoParen (t : Text) : Prop := '(' ∉ t ∧ ')' ∉ t

theorem moves_noParen {t : Text} (h : NoParen t) (d d' : Nat) : Moves t d d' ↔ d' = d := by
  have h1 : t ≠ ['('] := by rintro rfl; exact h.1 (by simp)
  have h2 : t ≠ [')'] := by rintro rfl; exact h.2 (by simp)
  unfold Moves
  rw [if_neg h1, if_neg h2]

/-- A token is a parenthesis or has none. -/
def TokOk (t : Text) : Prop := t = ['('] ∨ t = [')'] ∨ NoParen t

theorem turn_inv {st st' : St V} {tok : Text} {f : Flags} (hc : tok.head? ≠ some '#') (ht : TokOk tok)
    (h : turn A st tok f = .ok st') (hi : Inv st.os st.as) :
    Moves tok (opens st.os) (opens st'.os) ∧ Inv st'.os st'.as := by
  unfold turn at h
  rw [if_neg hc] at h
  cases hu : unaryName f tok with
  | none => rw [hu] at h; exact absurd h (by simp)
  | some t2 =>
    rw [hu] at h
    have ht2 : t2 = tok ∨ (NoParen tok ∧ NoParen t2 ∧ t2.head? ≠ some '\n' ∧ (t2.head?.map isSpace) ≠ some true) := by
      unfold unaryName at hu
      split at hu
      · split at hu
        · rename_i h1; injection hu with hu; subst hu; subst h1; right; unfold NoParen; decide
        · split at hu
          · rename_i h1; injection hu with hu; subst hu; subst h1; right; unfold NoParen; decide
          · split at hu
            · rename_i h1; injection hu with hu; subst hu; subst h1; right; unfold NoParen; decide
            · exact absurd hu (by simp)
      · left; injection hu with hu; exact hu.symm
    simp only at h
    split at h
    · rename_i hn
      obtain ⟨e1, e2⟩ := feed_inv h hi
      have hnp : NoParen tok := by
        rcases ht2 with rfl | h2
        · rcases ht with rfl | rfl | h3
          · exact absurd hn.1 (by simp)
          · exact absurd hn.1 (by simp)
          · exact h3
        · exact h2.1
      rw [moves_noParen (by unfold NoParen; decide)] at e1
      exact ⟨(moves_noParen hnp _ _).mpr e1, e2⟩
    · split at h
      · rename_i hsp
        simp only [Res.ok.injEq] at h; subst h
        have hnp : NoParen tok := by
          rcases ht2 with rfl | h2
          · rcases ht with rfl | rfl | h3
            · exact absurd hsp (by decide)
            · exact absurd hsp (by decide)
            · exact h3
          · exact h2.1
        exact ⟨(moves_noParen hnp _ _).mpr rfl, hi⟩
      · obtain ⟨e1, e2⟩ := feed_inv h hi
        rcases ht2 with rfl | h2
        · exact ⟨e1, e2⟩
        · rw [moves_noParen h2.2.1] at e1
          exact ⟨(moves_noParen h2.1 _ _).mpr e1, e2⟩

theorem munch_split {pre s t rest : Text} {found : Bool} (h : munch pre found s = some (t, rest)) (hp : NoParen pre) :
    pre ++ s = t ++ rest ∧ NoParen t := by
  induction s generalizing pre found with
  | nil =>
    simp only [munch] at h
    split at h
    · simp only [Option.some.injEq, Prod.mk.injEq] at h
      obtain ⟨rfl, rfl⟩ := h
      exact ⟨rfl, hp⟩
    · exact absurd h (by simp)
  | cons c cs ih =>
    have stop : found = true → some (pre, c :: cs) = some (t, rest) → pre ++ c :: cs = t ++ rest ∧ NoParen t := by
      intro _ h
      simp only [Option.some.injEq, Prod.mk.injEq] at h
      obtain ⟨rfl, rfl⟩ := h
      exact ⟨rfl, hp⟩
    have go : c ≠ '(' → c ≠ ')' → NoParen (pre ++ [c]) := by
      intro h1 h2
      refine ⟨?_, ?_⟩
      · intro hm
        rcases List.mem_append.mp hm with h | h
        · exact hp.1 h
        · exact h1 (List.mem_singleton.mp h).symm
      · intro hm
        rcases List.mem_append.mp hm with h | h
        · exact hp.2 h
        · exact h2 (List.mem_singleton.mp h).symm
    simp only [munch] at h
    split at h
    · split at h
      · exact stop ‹_› h
      · exact absurd h (by simp)
    · rename_i hc
      simp only [Bool.not_eq_true, Bool.or_eq_false_iff, beq_eq_false_iff_ne] at hc
      split at h
      · have := ih h (go hc.1.2 hc.2)
        simpa using this
      · split at h
        · exact stop ‹_› h
        · have := ih h (go hc.1.2 hc.2)
          simpa using this

theorem takeWhile_noParen {p : Char → Bool} (h1 : p '(' = false) (h2 : p ')' = false) (s : Text) :
    NoParen (s.takeWhile p) := by
  constructor
  · intro h; have := List.all_eq_true.mp (List.all_takeWhile (p := p) (l := s)) _ h; rw [h1] at this; exact absurd this (by simp)
  · intro h; have := List.all_eq_true.mp (List.all_takeWhile (p := p) (l := s)) _ h; rw [h2] at this; exact absurd this (by simp)

theorem nextToken_split {f f' : Flags} {s t rest : Text} (h : nextToken f s = .tok t rest f') (hs : '#' ∉ s) :
    s = t ++ rest ∧ TokOk t ∧ t.head? ≠ some '#' := by
  have hh : s = t ++ rest → t.head? ≠ some '#' := by
    intro e hc
    cases t with
    | nil => exact absurd hc (by simp)
    | cons d ds =>
      simp only [List.head?_cons, Option.some.injEq] at hc
      subst hc
      exact hs (by rw [e]; simp)
  suffices h2 : s = t ++ rest ∧ TokOk t from ⟨h2.1, h2.2, hh h2.1⟩
  cases s with
  | nil => exact absurd h (by simp [nextToken])
  | cons c cs =>
    have hc : (c == '#') = false := by
      cases hb : (c == '#') with
      | false => rfl
      | true => rw [beq_iff_eq] at hb; subst hb; exact absurd (by simp) hs
    simp only [nextToken, hc, Bool.false_eq_true, if_false] at h
    have tw : ∀ (p : Char → Bool) (g : Flags), p '(' = false → p ')' = false →
        Lex.tok ((c :: cs).takeWhile p) ((c :: cs).dropWhile p) g = .tok t rest f' → c :: cs = t ++ rest ∧ TokOk t := by
      intro p g h1 h2 he
      simp only [Lex.tok.injEq] at he
      obtain ⟨rfl, rfl, _⟩ := he
      exact ⟨(List.takeWhile_append_dropWhile).symm, Or.inr (Or.inr (takeWhile_noParen h1 h2 _))⟩
    split at h
    · exact tw _ _ (by decide) (by decide) h
    · split at h
      · exact tw _ _ (by decide) (by decide) h
      · split at h
        · split at h
          · exact tw _ _ (by decide) (by decide) h
          · exact absurd h (by simp)
        · split at h
          · split at h
            · exact tw _ _ (by decide) (by decide) h
            · exact absurd h (by simp)
          · split at h
            · rename_i hp
              rw [beq_iff_eq] at hp; subst hp
              split at h
              · simp only [Lex.tok.injEq] at h
                obtain ⟨rfl, rfl, _⟩ := h
                exact ⟨rfl, Or.inl rfl⟩
              · exact absurd h (by simp)
            · rename_i hp1
              split at h
              · rename_i hp
                rw [beq_iff_eq] at hp; subst hp
                split at h
                · simp only [Lex.tok.injEq] at h
                  obtain ⟨rfl, rfl, _⟩ := h
                  exact ⟨rfl, Or.inr (Or.inl rfl)⟩
                · exact absurd h (by simp)
              · rename_i hp2
                split at h
                · cases hm : munch [] false (c :: cs) with
                  | none => rw [hm] at h; exact absurd h (by simp)
                  | some r =>
                    obtain ⟨t', rest'⟩ := r
                    rw [hm] at h
                    simp only [Lex.tok.injEq] at h
                    obtain ⟨rfl, rfl, _⟩ := h
                    have := munch_split hm ⟨by simp, by simp⟩
                    exact ⟨this.1, Or.inr (Or.inr this.2)⟩
                · split at h
                  · simp only [Lex.tok.injEq] at h
                    obtain ⟨rfl, rfl, _⟩ := h
                    rw [beq_iff_eq] at hp1 hp2
                    refine ⟨rfl, Or.inr (Or.inr ⟨?_, ?_⟩)⟩
                    · intro h; exact hp1 (List.mem_singleton.mp h).symm
                    · intro h; exact hp2 (List.mem_singleton.mp h).symm
                  · exact absurd h (by simp)

theorem balanced_noParen {t : Text} (h : NoParen t) (d : Nat) (r : Text) :
    balancedFrom d (t ++ r) = balancedFrom d r := by
  induction t with
  | nil => rfl
  | cons c cs ih =>
    have h1 : c ≠ '(' := by rintro rfl; exact h.1 (by simp)
    have h2 : c ≠ ')' := by rintro rfl; exact h.2 (by simp)
    have ih := ih ⟨fun hm => h.1 (List.mem_cons_of_mem _ hm), fun hm => h.2 (List.mem_cons_of_mem _ hm)⟩
    rw [List.cons_append, ← ih]
    cases d <;> simp [balancedFrom, h2]

theorem flush_opens {os : List Item} {es es' : List (Tree V)} (h : flush os es = some es') : opens os = 0 := by
  induction os generalizing es with
  | nil => rfl
  | cons i os ih =>
    simp only [flush] at h
    cases i with
    | op o =>
      cases hb : bindItem (.op o) es with
      | none => rw [hb] at h; exact absurd h (by simp)
      | some e1 => rw [hb] at h; simpa [opens] using ih h
    | lpar => exact absurd h (by simp [bindItem])
    | brace => exact absurd h (by simp [bindItem])
    | func f => exact absurd h (by simp [bindItem])

theorem finish_opens {st : St V} {t : Tree V} (h : finish A st = .tree t) : opens st.os = 0 := by
  have key : ∀ es, flushOut A st.os es = .tree t → opens st.os = 0 := by
    intro es he
    unfold flushOut at he
    cases hf : flush st.os es with
    | none => rw [hf] at he; exact absurd he (by simp)
    | some r => exact flush_opens hf
  unfold finish at h
  split at h
  · exact key _ h
  · split at h
    · exact key _ h
    · exact absurd h (by simp)

theorem run_balanced (n : Nat) (st : St V) (s : Text) {t : Tree V} (hi : Inv st.os st.as) (hs : '#' ∉ s)
    (hn : s.length ≤ n) (h : run A n st s = .tree t) : balancedFrom (opens st.os) s = true := by
  induction n generalizing st s with
  | zero =>
    have : s = [] := List.length_eq_zero_iff.mp (by omega)
    subst this
    rw [run_nil] at h
    simp [balancedFrom, finish_opens h]
  | succ n ih =>
    rw [run] at h
    cases hl : nextToken st.flags s with
    | stop =>
      rw [hl] at h
      have : s = [] := by
        cases s with
        | nil => rfl
        | cons c cs =>
          exfalso
          simp only [nextToken] at hl
          repeat' split at hl
          all_goals exact absurd hl (by simp)
      subst this
      simp [balancedFrom, finish_opens h]
    | error => rw [hl] at h; exact absurd h (by simp)
    | string => rw [hl] at h; exact absurd h (by simp)
    | tok tk rest f =>
      rw [hl] at h
      obtain ⟨e1, e2, e3⟩ := nextToken_split hl hs
      simp only at h
      cases ht : turn A st tk f with
      | ok st' =>
        rw [ht] at h
        obtain ⟨e4, e5⟩ := turn_inv e3 e2 ht hi
        have hne : tk ≠ [] := by
          rintro rfl
          cases s with
          | nil => exact absurd hl (by simp [nextToken])
          | cons c cs =>
            have hh : turn A st [] f = feed A { st with flags := f } [] := by
              unfold turn unaryName
              simp
            simp only [nextToken] at hl
            have tw : ∀ (p : Char → Bool) (g : Flags), p c = true →
                Lex.tok ((c :: cs).takeWhile p) ((c :: cs).dropWhile p) g ≠ .tok [] rest f := by
              intro p g hp he
              simp [hp] at he
            have hc : (c == '#') = false := by
              cases hb : (c == '#') with
              | false => rfl
              | true => rw [beq_iff_eq] at hb; subst hb; exact absurd (by simp) hs
            rw [hc] at hl
            simp only [Bool.false_eq_true, if_false] at hl
            split at hl
            · rename_i hp; rw [beq_iff_eq] at hp; subst hp; exact tw _ _ (by decide) hl
            · rename_i hnl
              split at hl
              · rename_i hp; refine tw isBlank _ ?_ hl
                simp only [isBlank, hp, Bool.true_and, bne_iff_ne, ne_eq]
                simpa using hnl
              · split at hl
                · rename_i hp
                  split at hl
                  · exact tw _ _ (by simp [isNum, hp]) hl
                  · exact absurd hl (by simp)
                · split at hl
                  · rename_i hp
                    split at hl
                    · exact tw _ _ (by simp [isVar, hp]) hl
                    · exact absurd hl (by simp)
                  · split at hl
                    · split at hl
                      · exact absurd hl (by simp)
                      · exact absurd hl (by simp)
                    · split at hl
                      · split at hl
                        · exact absurd hl (by simp)
                        · exact absurd hl (by simp)
                      · split at hl
                        · cases hm : munch [] false (c :: cs) with
                          | none => rw [hm] at hl; exact absurd hl (by simp)
                          | some r =>
                            obtain ⟨t', rest'⟩ := r
                            rw [hm] at hl
                            simp only [Lex.tok.injEq] at hl
                            obtain ⟨rfl, rfl, _⟩ := hl
                            have hmn : ∀ (s pre : Text) (b : Bool) (t r : Text), munch pre b s = some (t, r) →
                                (b = true → pre ≠ []) → t ≠ [] := by
                              intro s
                              induction s with
                              | nil =>
                                intro pre b t r he hb
                                simp only [munch] at he
                                split at he
                                · simp only [Option.some.injEq, Prod.mk.injEq] at he
                                  rw [← he.1]; exact hb ‹_›
                                · exact absurd he (by simp)
                              | cons x xs ihx =>
                                intro pre b t r he hb
                                simp only [munch] at he
                                split at he
                                · split at he
                                  · simp only [Option.some.injEq, Prod.mk.injEq] at he
                                    rw [← he.1]; exact hb ‹_›
                                  · exact absurd he (by simp)
                                · split at he
                                  · exact ihx _ _ _ _ he (by simp)
                                  · split at he
                                    · simp only [Option.some.injEq, Prod.mk.injEq] at he
                                      rw [← he.1]; exact hb ‹_›
                                    · exact ihx _ _ _ _ he (by simp)
                            exact hmn _ _ _ _ _ hm (by simp) rfl
                        · split at hl
                          · exact absurd hl (by simp)
                          · exact absurd hl (by simp)
        have hlen : rest.length ≤ n := by
          have := List.length_pos_iff.mpr hne
          rw [e1, List.length_append] at hn; omega
        have hr : '#' ∉ rest := fun hm => hs (by rw [e1]; exact List.mem_append_right _ hm)
        have hb := ih st' rest e5 hr hlen h
        rw [e1]
        rcases e2 with rfl | rfl | h3
        · simp only [Moves, if_true] at e4
          rw [e4] at hb
          simpa [balancedFrom] using hb
        · simp only [Moves, if_true] at e4
          rw [if_neg (by decide)] at e4
          rw [e4]
          simpa [balancedFrom] using hb
        · rw [moves_noParen h3] at e4
          rw [balanced_noParen h3, ← e4]; exact hb
      | string => rw [ht] at h; exact absurd h (by simp)
      | undef => rw [ht] at h; exact absurd h (by simp)
      | «macro» => rw [ht] at h; exact absurd h (by simp)
      | ub => rw [ht] at h; exact absurd h (by simp)

/-- C119: a text (without comments) that has a numerical value has matching parentheses: any other is refused or taken for
a string. -/
theorem unbalanced_no_value_partial (A : Arith V) {s : Text} (hs : '#' ∉ s) {v : V} (h : evalExpr A s = .number v) :
    balancedFrom 0 s = true := by
  unfold evalExpr at h
  cases hc : create A s with
  | tree t => exact run_balanced (A := A) (s.length + 1) init s (by simp [Inv, init, braces]) hs (by omega) hc
  | string => rw [hc] at h; exact absurd h (by simp)
  | undef => rw [hc] at h; exact absurd h (by simp)
  | «macro» => rw [hc] at h; exact absurd h (by simp)
  | ub => rw [hc] at h; exact absurd h (by simp)

/-- `(1 + 2` and `1 + 2)` have no value; `2*(1 + 2)` has. -/
example : evalExpr fractions "(1 + 2".toList = .undefined ∧ evalExpr fractions "1 + 2)".toList = .undefined ∧
    evalExpr fractions "2*(1 + 2)".toList = .number 6 := by decide +kernel

/-- C119 does not hold in general: an empty pair of parentheses and the empty text have the value 0, a missing argument is
read from outside the arguments, and an empty pair of parentheses as an argument takes an operand from an empty vector. -/
theorem malformed_fails (A : Arith V) (h : A.isNaN A.zero = false) :
    evalExpr A "()".toList = .number A.zero ∧ evalExpr A [] = .number A.zero ∧
    evalExpr A "sqrt()".toList = .other ∧ evalExpr A "max(1)".toList = .other ∧
    evalExpr A "2+sqrt()".toList = .other ∧ evalExpr A "max((),2)".toList = .other ∧
    create A "max((),2)".toList = .ub := by
  refine ⟨?_, ?_, rfl, rfl, rfl, rfl, rfl⟩
  · have : create A "()".toList = .tree (.num A.zero) := rfl
    unfold evalExpr; rw [this]; simp [eval, h]
  · have : create A [] = .tree (.num A.zero) := rfl
    simp [evalExpr, this, eval, h]

end Verif.Expr

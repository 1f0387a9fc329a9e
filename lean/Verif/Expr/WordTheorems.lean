import Verif.Expr.StringTheorems
/-
C117: the operator names of OpenSCENARIO. C118: truth values from expressions.
-/
namespace Verif.Expr

variable {V : Type} {A : Arith V}

/-- The names that may be written in expressions. -/
inductive Kw where
  | notW | notP | andW | orW | trueW | falseW
deriving DecidableEq

/-- How they are written, with the character after the name. -/
def Kw.text : Kw → Text
  | .notW => "not ".toList
  | .notP => "not(".toList
  | .andW => "and ".toList
  | .orW => "or ".toList
  | .trueW => "true ".toList
  | .falseW => "false ".toList

/-- The sign with the same meaning. -/
def Kw.sign : Kw → Text
  | .notW => "!".toList
  | .notP => "!(".toList
  | .andW => "&& ".toList
  | .orW => "|| ".toList
  | .trueW => "1 ".toList
  | .falseW => "0 ".toList

/-- A text in which `k` does not occur and that does not end with a beginning of `k`. -/
def Quiet (k s : Text) : Prop := ∀ d, d ≠ [] → d <:+ s → ¬ k <+: d ∧ ¬ d <+: k

theorem replace_quiet {k rep t : Text} (hq : Quiet k t) (r : Text) :
    replaceFrom k rep 0 (t ++ r) = t ++ replaceFrom k rep 0 r := by
  induction t with
  | nil => rfl
  | cons c cs ih =>
    have h := hq (c :: cs) (by simp) List.suffix_rfl
    have hp : k.isPrefixOf (c :: cs ++ r) = false := by
      cases hb : k.isPrefixOf (c :: cs ++ r) with
      | false => rfl
      | true =>
        rw [List.isPrefixOf_iff_prefix] at hb
        rcases List.prefix_or_prefix_of_prefix hb (List.prefix_append (c :: cs) r) with h1 | h1
        · exact absurd h1 h.1
        · exact absurd h1 h.2
    rw [List.cons_append] at hp ⊢
    rw [replaceFrom, hp, if_neg (by simp), ih (fun d h0 hd => hq d h0 (hd.trans (List.suffix_cons _ _)))]
    rfl

theorem replace_skip (k rep : Text) (a r : Text) : replaceFrom k rep a.length (a ++ r) = replaceFrom k rep 0 r := by
  induction a with
  | nil => rfl
  | cons c cs ih => rw [List.cons_append, List.length_cons, replaceFrom, ih]

theorem replace_hit {k rep : Text} (h0 : k ≠ []) (r : Text) :
    replaceFrom k rep 0 (k ++ r) = rep ++ replaceFrom k rep 0 r := by
  obtain ⟨c, cs, rfl⟩ := List.exists_cons_of_ne_nil h0
  have hp : (c :: cs).isPrefixOf (c :: cs ++ r) = true := by
    rw [List.isPrefixOf_iff_prefix]; exact List.prefix_append _ _
  rw [List.cons_append] at hp ⊢
  rw [replaceFrom, hp, if_pos rfl]
  have : (c :: cs).length - 1 = cs.length := by simp
  rw [this, replace_skip]

/-- Replacing in a text made of pieces. -/
theorem replace_pieces {α : Type} (k rep : Text) (h0 : k ≠ []) (f g : α → Text) (ts : List α)
    (h : ∀ t ∈ ts, (f t = k ∧ g t = rep) ∨ (g t = f t ∧ Quiet k (f t))) :
    replaceAll k rep (ts.flatMap f) = ts.flatMap g := by
  unfold replaceAll
  induction ts with
  | nil => rfl
  | cons t ts ih =>
    have ih := ih fun x hx => h x (List.mem_cons_of_mem _ hx)
    rw [List.flatMap_cons, List.flatMap_cons]
    rcases h t List.mem_cons_self with ⟨h1, h2⟩ | ⟨h1, h2⟩
    · rw [h1, replace_hit h0, ih, h2]
    · rw [replace_quiet h2, ih, h1]

/-- A piece of an expression: a name, or text in which no name occurs. -/
inductive Piece where
  | kw (k : Kw)
  | plain (s : Text)

/-- Text as written. -/
def Piece.text : Piece → Text
  | .kw k => k.text
  | .plain s => s

/-- Text with signs for names. -/
def Piece.sign : Piece → Text
  | .kw k => k.sign
  | .plain s => s

/-- Pieces after some of the names have been replaced. -/
def Piece.after (done : List Kw) : Piece → Text
  | .kw k => if k ∈ done then k.sign else k.text
  | .plain s => s

/-- `Quiet` as a computation. -/
def quietB : Text → Text → Bool
  | _, [] => true
  | k, c :: cs => !k.isPrefixOf (c :: cs) && !(c :: cs).isPrefixOf k && quietB k cs

theorem quiet_iff (k s : Text) : quietB k s = true ↔ Quiet k s := by
  induction s with
  | nil =>
    refine ⟨fun _ d h0 hd => ?_, fun _ => rfl⟩
    exact absurd (List.suffix_nil.mp hd) h0
  | cons c cs ih =>
    simp only [quietB, Bool.and_eq_true, Bool.not_eq_true', ih]
    constructor
    · rintro ⟨⟨h1, h2⟩, h3⟩ d h0 hd
      rcases List.suffix_cons_iff.mp hd with rfl | hd
      · rw [← Bool.not_eq_true, List.isPrefixOf_iff_prefix] at h1 h2
        exact ⟨h1, h2⟩
      · exact h3 d h0 hd
    · intro h
      refine ⟨?_, fun d h0 hd => h d h0 (hd.trans (List.suffix_cons _ _))⟩
      obtain ⟨h1, h2⟩ := h (c :: cs) (by simp) List.suffix_rfl
      rw [← Bool.not_eq_true, ← Bool.not_eq_true, List.isPrefixOf_iff_prefix, List.isPrefixOf_iff_prefix]
      exact ⟨h1, h2⟩

/-- C117: `not`, `and`, `or`, `true` and `false` written as words and followed by a blank (or `not` by a parenthesis) stand
for the signs, where the other text contains none of them by accident: the attribute has the value of the expression. -/
theorem names_value_partial (A : Arith V) (fmt : V → Text) (ps : List Piece)
    (hq : ∀ s, Piece.plain s ∈ ps → ∀ k : Kw, Quiet k.text s) {b1 s b2 : Text} {t : Ast}
    (hs : ps.flatMap Piece.sign = b1 ++ (s ++ b2)) (hw : Writes NotOne 10 s t) (hb1 : Blanks b1) (hb2 : Blanks b2)
    (hn : A.isNaN (t.value A) = false) :
    attrValue A fmt (ps.flatMap Piece.text) = some (fmt (t.value A)) := by
  have step : ∀ (k : Kw) (rep : Text) (done : List Kw), rep = k.sign → k ∉ done →
      (∀ j : Kw, j ≠ k → quietB k.text (if j ∈ done then j.sign else j.text) = true) →
      replaceAll k.text rep (ps.flatMap (Piece.after done)) = ps.flatMap (Piece.after (k :: done)) := by
    intro k rep done hrep hk hj
    refine replace_pieces _ _ (by cases k <;> decide) _ _ _ ?_
    intro p hp
    cases p with
    | plain x => exact Or.inr ⟨rfl, hq x hp k⟩
    | kw j =>
      by_cases h : j = k
      · subst h
        left
        simp [Piece.after, hk, hrep]
      · right
        refine ⟨by simp [Piece.after, h], (quiet_iff _ _).mp (hj j h)⟩
  have h0 : ps.flatMap Piece.text = ps.flatMap (Piece.after []) := by
    congr 1
  have hall : ∀ k : Kw, k ∈ [Kw.falseW, .trueW, .orW, .andW, .notP, .notW] := by intro k; cases k <;> decide
  have h6 : ps.flatMap (Piece.after [.falseW, .trueW, .orW, .andW, .notP, .notW]) = ps.flatMap Piece.sign := by
    congr 1; funext p
    cases p with
    | plain x => rfl
    | kw k => simp only [Piece.after, if_pos (hall k), Piece.sign]
  have htr : translate (ps.flatMap Piece.text) = ps.flatMap Piece.sign := by
    unfold translate
    rw [h0, show "not ".toList = Kw.notW.text from rfl, step .notW "!".toList [] rfl (by simp)
        (by intro j hj; cases j <;> first | exact absurd rfl hj | decide),
      show "not(".toList = Kw.notP.text from rfl, step .notP "!(".toList _ rfl (by simp)
        (by intro j hj; cases j <;> first | exact absurd rfl hj | decide),
      show "and ".toList = Kw.andW.text from rfl, step .andW "&& ".toList _ rfl (by simp)
        (by intro j hj; cases j <;> first | exact absurd rfl hj | decide),
      show "or ".toList = Kw.orW.text from rfl, step .orW "|| ".toList _ rfl (by simp)
        (by intro j hj; cases j <;> first | exact absurd rfl hj | decide),
      show "true ".toList = Kw.trueW.text from rfl, step .trueW "1 ".toList _ rfl (by simp)
        (by intro j hj; cases j <;> first | exact absurd rfl hj | decide),
      show "false ".toList = Kw.falseW.text from rfl, step .falseW "0 ".toList _ rfl (by simp)
        (by intro j hj; cases j <;> first | exact absurd rfl hj | decide), h6]
  unfold attrValue
  rw [htr, hs, expression_value_partial A hw hb1 hb2, hn]
  simp

/-- `true and not(floor(2) == 3)` becomes `1 && !(floor(2) == 3)`; the pieces meet the conditions. -/
example : attrValue fractions (fun v => if v = 1 then "1.000000".toList else "0.000000".toList)
    "true and not(floor(2) == 3)".toList = some "1.000000".toList := by
  have up : ∀ {k l : Nat} {s t}, k ≤ l → Writes NotOne k s t → Writes NotOne l s t := by
    intro k l s t hk h
    induction hk with
    | refl => exact h
    | step _ ih => exact Writes.loosen _ _ _ ih
  have sp : Blanks [' '] := by intro c hc; left; simpa using hc
  have no : Blanks [] := by intro c hc; simp at hc
  have n1 : Writes NotOne 0 ['1'] (.lit ['1'] []) := Writes.int ['1'] (by simp) (by unfold Digits; decide)
  have n2 : Writes NotOne 0 ['2'] (.lit ['2'] []) := Writes.int ['2'] (by simp) (by unfold Digits; decide)
  have n3 : Writes NotOne 0 ['3'] (.lit ['3'] []) := Writes.int ['3'] (by simp) (by unfold Digits; decide)
  have hf : Writes NotOne 0 "floor(2)".toList _ :=
    Writes.app1 "floor".toList .floor [] [] ['2'] [] _ (by simp [names1]) no no no (up (by omega) n2)
  have heq : Writes NotOne 5 "floor(2) == 3".toList _ :=
    Writes.left .eq ['=', '='] 4 [' '] [' '] _ ['3'] _ _ (by simp [binarySigns]) (by omega) sp sp (up (by omega) hf)
      (up (by omega) n3)
  have hpar : Writes NotOne 0 "(floor(2) == 3)".toList _ := Writes.paren [] _ [] _ no no (up (by omega) heq)
  have hnot : Writes NotOne 0 "!(floor(2) == 3)".toList _ :=
    Writes.un .unot '!' [] _ _ (by simp [unarySigns]) no (by simp [NotOne]) hpar
  have hand : Writes NotOne 9 "1 && !(floor(2) == 3)".toList _ :=
    Writes.left .land ['&', '&'] 8 [' '] [' '] ['1'] _ _ _ (by simp [binarySigns]) (by omega) sp sp (up (by omega) n1)
      (up (by omega) hnot)
  have h := names_value_partial fractions (fun v => if v = 1 then "1.000000".toList else "0.000000".toList)
    [.kw .trueW, .kw .andW, .kw .notP, .plain "floor(2) == 3)".toList]
    (by
      intro s hs k
      simp only [List.mem_cons, reduceCtorEq, Piece.plain.injEq, List.not_mem_nil, or_false, false_or] at hs
      subst hs
      rw [← quiet_iff]
      cases k <;> decide)
    (b1 := []) (b2 := []) (s := "1 && !(floor(2) == 3)".toList) (by rfl) (up (by omega) hand) no no rfl
  refine Eq.trans ?_ (h.trans ?_)
  · rfl
  · decide +kernel

/-- C117 does not hold in general: a blank after the name of a function ending in "or" is taken for `or`, and `true` at the
end of the expression (or before a parenthesis) is not replaced. The result is a text, not a number. -/
theorem names_value_fails (A : Arith V) (fmt : V → Text) :
    attrValue A fmt "floor (2)".toList = some "flo|| (2)".toList ∧
    attrValue A fmt "1 == 1 and true".toList = some "1 == 1 && true".toList ∧
    attrValue A fmt "not false".toList = some "!false".toList :=
  ⟨rfl, rfl, rfl⟩

/-- C118 does not hold: no expression that has a numerical value makes a boolean attribute or parameter true, given that
the printed number has a decimal point. -/
theorem boolean_fails (A : Arith V) (fmt : V → Text) (hfmt : ∀ v, '.' ∈ fmt v) {s x : Text} {v : V}
    (h : evalExpr A (translate s) = .number v) (hx : attrValue A fmt s = some x) : readBool x = false := by
  unfold attrValue at hx
  rw [h] at hx
  simp only [Option.some.injEq] at hx
  subst hx
  have hd := hfmt v
  unfold readBool
  simp only [Bool.or_eq_false_iff, beq_eq_false_iff_ne]
  constructor
  · intro h2; rw [h2] at hd; exact absurd hd (by decide)
  · intro h2; rw [h2] at hd; exact absurd hd (by decide)

/-- `1 == 1` gives the number 1 but a boolean parameter with this value is false. -/
example : evalExpr fractions (translate "1 == 1".toList) = .number 1 ∧
    (attrValue fractions (fun v => if v = 1 then "1.000000".toList else "0.000000".toList) "1 == 1".toList).map readBool =
      some false := by
  decide +kernel

end Verif.Expr

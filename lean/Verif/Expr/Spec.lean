import Mathlib.Logic.Function.Iterate
import Verif.Expr.Model
/-
What a text of an expression means: a grammar with the usual levels of binding, and the value of an expression.
Nothing here refers to the lexer or the parser of the model.
-/
namespace Verif.Expr

/-- Expressions. A number is written as its digits before and after the point. -/
inductive Ast where
  | lit (whole frac : Text)
  | const (c : Const)
  | un (o : Op) (a : Ast)
  | bin (o : Op) (a b : Ast)
  | app1 (f : Fn) (a : Ast)
  | app2 (f : Fn) (a b : Ast)

/-- The signs written before one operand. -/
def unarySigns : List (Op × Char) := [(.umin, '-'), (.unot, '!'), (.ubnot, '^')]

/-- The signs written between two operands and how tight they bind, tightest first: power, then product, sum, shift,
comparison, the three bit operators, and, or. -/
def binarySigns : List (Op × Text × Nat) :=
  [(.pow, ['*', '*'], 1), (.mul, ['*'], 2), (.div, ['/'], 2), (.rem, ['%'], 2), (.plus, ['+'], 3), (.minus, ['-'], 3),
   (.shl, ['<', '<'], 4), (.shr, ['>', '>'], 4), (.lt, ['<'], 5), (.le, ['<', '='], 5), (.gt, ['>'], 5),
   (.ge, ['>', '='], 5), (.eq, ['=', '='], 5), (.ne, ['!', '='], 5), (.band, ['&'], 6), (.bor, ['|'], 7),
   (.bxor, ['^'], 8), (.land, ['&', '&'], 9), (.lor, ['|', '|'], 10)]

/-- Names of functions of one argument. -/
def names1 : List (Text × Fn) :=
  [("round".toList, .round), ("floor".toList, .floor), ("ceil".toList, .ceil), ("sqrt".toList, .sqrt),
   ("sin".toList, .sin), ("cos".toList, .cos), ("tan".toList, .tan), ("asin".toList, .asin), ("acos".toList, .acos),
   ("atan".toList, .atan), ("sign".toList, .sign), ("abs".toList, .abs)]

/-- Names of functions of two arguments. -/
def names2 : List (Text × Fn) := [("pow".toList, .pow), ("max".toList, .max), ("min".toList, .min)]

/-- Names of constants. -/
def constNames : List (Text × Const) := [("pi".toList, .pi), ("e".toList, .e)]

/-- Only spaces and tabulators. -/
def Blanks (b : Text) : Prop := ∀ c ∈ b, c = ' ' ∨ c = '\t'

/-- Only digits. -/
def Digits (s : Text) : Prop := ∀ c ∈ s, c ∈ ['0', '1', '2', '3', '4', '5', '6', '7', '8', '9']

/-- `Writes g l s t`: the text `s` is a way to write the expression `t`, to be used where operators up to level `l` may
occur without parentheses (0: none but the unary ones). `g b` tells which blanks `b` may follow a unary sign. -/
inductive Writes (g : Text → Prop) : Nat → Text → Ast → Prop where
  | int (ds : Text) : ds ≠ [] → Digits ds → Writes g 0 ds (.lit ds [])
  | dec (ds fs : Text) : ds ≠ [] → Digits ds → Digits fs → Writes g 0 (ds ++ '.' :: fs) (.lit ds fs)
  | const (n : Text) (c : Const) : (n, c) ∈ constNames → Writes g 0 n (.const c)
  | paren (b1 s b2 : Text) (t : Ast) : Blanks b1 → Blanks b2 → Writes g 10 s t →
      Writes g 0 ('(' :: (b1 ++ (s ++ (b2 ++ [')'])))) t
  | app1 (n : Text) (f : Fn) (b0 b1 s b2 : Text) (t : Ast) : (n, f) ∈ names1 → Blanks b0 → Blanks b1 → Blanks b2 →
      Writes g 10 s t → Writes g 0 (n ++ (b0 ++ '(' :: (b1 ++ (s ++ (b2 ++ [')']))))) (.app1 f t)
  | app2 (n : Text) (f : Fn) (b0 b1 s b2 b3 r b4 : Text) (t u : Ast) : (n, f) ∈ names2 → Blanks b0 → Blanks b1 →
      Blanks b2 → Blanks b3 → Blanks b4 → Writes g 10 s t → Writes g 10 r u →
      Writes g 0 (n ++ (b0 ++ '(' :: (b1 ++ (s ++ (b2 ++ ',' :: (b3 ++ (r ++ (b4 ++ [')']))))))))
        (.app2 f t u)
  | un (o : Op) (c : Char) (b s : Text) (t : Ast) : (o, c) ∈ unarySigns → Blanks b → g b → Writes g 0 s t →
      Writes g 0 (c :: (b ++ s)) (.un o t)
  | power (b1 b2 s r : Text) (t u : Ast) : Blanks b1 → Blanks b2 → Writes g 0 s t → Writes g 1 r u →
      Writes g 1 (s ++ (b1 ++ ('*' :: '*' :: (b2 ++ r)))) (.bin .pow t u)
  | left (o : Op) (w : Text) (l : Nat) (b1 b2 s r : Text) (t u : Ast) : (o, w, l + 1) ∈ binarySigns → 1 ≤ l →
      Blanks b1 → Blanks b2 → Writes g (l + 1) s t → Writes g l r u →
      Writes g (l + 1) (s ++ (b1 ++ (w ++ (b2 ++ r)))) (.bin o t u)
  | loosen (l : Nat) (s : Text) (t : Ast) : Writes g l s t → Writes g (l + 1) s t

/-- A digit. -/
def digit (c : Char) : Nat := c.toNat - 48

/-- A decimal number: the digits one after the other, then divided by ten for each digit after the point. -/
def decimal {V : Type} (A : Arith V) (whole frac : Text) : V :=
  (A.div10)^[frac.length] ((whole ++ frac).foldl (fun v c => A.push v (digit c)) A.zero)

/-- Value of an operator on two values. `and` gives the second value if both are true (not zero), `or` the first that is
true, otherwise 0. -/
def binValue {V : Type} (A : Arith V) (o : Op) (x y : V) : V :=
  match o with
  | .land => if A.nonzero x = true ∧ A.nonzero y = true then y else A.zero
  | .lor => if A.nonzero x = true ∧ A.isNaN x = false then x else if A.nonzero y = true then y else A.zero
  | _ => A.bin o x y

/-- Value of an expression. -/
def Ast.value {V : Type} (A : Arith V) : Ast → V
  | .lit ds fs => decimal A ds fs
  | .const c => A.const c
  | .un o a => A.un o (a.value A)
  | .bin o a b => binValue A o (a.value A) (b.value A)
  | .app1 f a => A.fn1 f (a.value A)
  | .app2 f a b => A.fn2 f (a.value A) (b.value A)

end Verif.Expr

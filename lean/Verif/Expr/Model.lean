/-
Expressions in scenario files (`${...}`): the lexer, the parser and the evaluation.

Code: externals/expr/expr.h and EnvironmentSimulator/Modules/ScenarioEngine/SourceFiles/simple_expr.c, and the use of the
result in Parameters::ReadAttribute (Parameters.cpp:427-473).

Simplifications: texts are lists of characters without NUL; characters from code point 128 on count as letters
(`(unsigned char)c >= '@'`). Arithmetic is an arbitrary structure `Arith` (so every statement about grouping holds for
IEEE doubles as well). Macros (`$(...)`) end in `Out.macro`, the value of an assignment is not modelled (`eval` gives
`none`). Memory allocation never fails. The vectors are lists whose head is the top.
-/
namespace Verif.Expr

abbrev Text := List Char

/-- `enum expr_type`, the operators (expr.h:79-117). -/
inductive Op where
  | umin | unot | ubnot | pow | div | mul | rem | plus | minus | shl | shr | lt | le | gt | ge | eq | ne
  | band | bor | bxor | land | lor | assign | comma
deriving DecidableEq, Repr

/-- `prec[]` (expr.h:119-120). -/
def prec : Op → Nat
  | .umin | .unot | .ubnot => 1
  | .pow | .div | .mul | .rem => 2
  | .plus | .minus => 3
  | .shl | .shr => 4
  | .lt | .le | .gt | .ge | .eq | .ne => 5
  | .band => 6
  | .bor => 7
  | .bxor => 8
  | .land => 9
  | .lor => 10
  | .assign => 11
  | .comma => 12

/-- `expr_is_unary` (expr.h:166-169). -/
def isUnary : Op → Bool
  | .umin | .unot | .ubnot => true
  | _ => false

/-- `left` in `expr_prec` (expr.h:177-178): binary and none of assignment, power and comma. -/
def leftAssoc (a : Op) : Bool := !isUnary a && a != .assign && a != .pow && a != .comma

/-- `expr_prec` (expr.h:176-180): with `a` coming next, the operator `b` on the stack is bound first. -/
def exprPrec (a b : Op) : Bool := (leftAssoc a && decide (prec b ≤ prec a)) || decide (prec b < prec a)

/-- `OPS` (expr.h:188-222). -/
def ops : List (Text × Op) :=
  [(['-', 'u'], .umin), (['!', 'u'], .unot), (['^', 'u'], .ubnot), (['*', '*'], .pow), (['*'], .mul), (['/'], .div),
   (['%'], .rem), (['+'], .plus), (['-'], .minus), (['<', '<'], .shl), (['>', '>'], .shr), (['<'], .lt),
   (['<', '='], .le), (['>'], .gt), (['>', '='], .ge), (['=', '='], .eq), (['!', '='], .ne), (['&'], .band),
   (['|'], .bor), (['^'], .bxor), (['&', '&'], .land), (['|', '|'], .lor), (['='], .assign), ([','], .comma),
   (['-'], .umin), (['!'], .unot), (['^'], .ubnot)]

/-- `expr_op(s, len, unary)` (expr.h:242-250); `none` for `unary` is -1. -/
def exprOp (s : Text) (unary : Option Bool) : Option Op :=
  (ops.find? fun p => p.1 == s && (unary == none || unary == some (isUnary p.2))).map (·.2)

/-- `isspace` of the C locale. -/
def isSpace (c : Char) : Bool :=
  c == ' ' || c == '\t' || c == '\n' || c == Char.ofNat 11 || c == Char.ofNat 12 || c == '\r'

/-- `isdigit`. -/
def isDigit (c : Char) : Bool := decide (48 ≤ c.toNat) && decide (c.toNat ≤ 57)

/-- `isfirstvarchr` (expr.h:182-183). -/
def isFirstVar (c : Char) : Bool := (decide (64 ≤ c.toNat) && c != '^' && c != '|') || c == '$'

/-- `isvarchr` (expr.h:184-186). -/
def isVar (c : Char) : Bool := isFirstVar c || c == '#' || isDigit c

/-- Bits of `flags` (expr.h:461-469). -/
structure Flags where
  top : Bool
  opn : Bool
  close : Bool
  num : Bool
  word : Bool
  unary : Bool
  comma : Bool
deriving DecidableEq, Repr

/-- `EXPR_TDEFAULT` (expr.h:466). -/
def tDefault : Flags := ⟨false, true, false, true, true, false, false⟩

/-- After a number or `)`: `EXPR_TOP | EXPR_TCLOSE` (expr.h:501, 525). -/
def tOperand : Flags := ⟨true, false, true, false, false, false, false⟩

/-- After a word: `EXPR_TOP | EXPR_TOPEN | EXPR_TCLOSE` (expr.h:515). -/
def tWord : Flags := ⟨true, true, true, false, false, false, false⟩

/-- After `(`: `EXPR_TNUMBER | EXPR_TWORD | EXPR_TOPEN | EXPR_TCLOSE` (expr.h:523). -/
def tOpen : Flags := ⟨false, true, true, true, true, false, false⟩

/-- After a unary operator (expr.h:535). -/
def tUnary : Flags := ⟨false, true, false, true, true, true, false⟩

/-- After a binary operator (expr.h:551). -/
def tBinary : Flags := ⟨false, true, false, true, true, false, false⟩

/-- After a line break that separates expressions (expr.h:488). -/
def tComma : Flags := ⟨false, true, false, true, true, false, true⟩

/-- Result of `expr_next_token`: 0, a negative value other than -6, -6, or a token with the remaining text and the new
flags. -/
inductive Lex where
  | stop
  | error
  | string
  | tok (t : Text) (rest : Text) (flags : Flags)
deriving DecidableEq, Repr

/-- The loop that reads a binary operator (expr.h:538-550): `pre` has been read, `found` as in the code. -/
def munch (pre : Text) (found : Bool) : Text → Option (Text × Text)
  | [] => if found then some (pre, []) else none
  | c :: cs =>
    if isVar c || isSpace c || c == '(' || c == ')' then (if found then some (pre, c :: cs) else none)
    else if (exprOp (pre ++ [c]) (some false)).isSome then munch (pre ++ [c]) true cs
    else if found then some (pre, c :: cs)
    else munch (pre ++ [c]) false cs

/-- Spaces at the beginning of a text, line breaks excluded (expr.h:493). -/
def isBlank (c : Char) : Bool := isSpace c && c != '\n'

/-- Characters of a number token (expr.h:502). -/
def isNum (c : Char) : Bool := c == '.' || isDigit c

/-- Flags after a run of space that starts with a line break (expr.h:484-490). -/
def lineFlags (f : Flags) (rest : Text) : Flags :=
  if f.top then (if rest = [] ∨ rest.head? = some ')' then { f with comma := false } else tComma) else f

/-- `expr_next_token` (expr.h:471-555). -/
def nextToken (f : Flags) : Text → Lex
  | [] => .stop
  | c :: cs =>
    if c == '#' then
      .tok ((c :: cs).takeWhile (· != '\n')) ((c :: cs).dropWhile (· != '\n')) f
    else if c == '\n' then
      .tok ((c :: cs).takeWhile isSpace) ((c :: cs).dropWhile isSpace) (lineFlags f ((c :: cs).dropWhile isSpace))
    else if isSpace c then .tok ((c :: cs).takeWhile isBlank) ((c :: cs).dropWhile isBlank) f
    else if isDigit c then
      if f.num then .tok ((c :: cs).takeWhile isNum) ((c :: cs).dropWhile isNum) tOperand else .error
    else if isFirstVar c then
      if f.word then .tok ((c :: cs).takeWhile isVar) ((c :: cs).dropWhile isVar) tWord else .string
    else if c == '(' then if f.opn then .tok [c] cs tOpen else .error
    else if c == ')' then if f.close then .tok [c] cs tOperand else .error
    else if f.top then
      match munch [] false (c :: cs) with
      | none => .error
      | some (t, rest) => .tok t rest tBinary
    else if (exprOp [c] (some true)).isSome then .tok [c] cs tUnary
    else .error

/-- The functions of `user_funcs` (simple_expr.c:147-167). -/
inductive Fn where
  | round | floor | ceil | sqrt | pow | sin | cos | tan | asin | acos | atan | sign | abs | max | min
deriving DecidableEq, Repr

/-- `user_funcs` and `expr_func` (expr.h:288-296): the function with this name. -/
def funcs : List (Text × Fn) :=
  [("round".toList, .round), ("floor".toList, .floor), ("ceil".toList, .ceil), ("sqrt".toList, .sqrt),
   ("pow".toList, .pow), ("sin".toList, .sin), ("cos".toList, .cos), ("tan".toList, .tan), ("asin".toList, .asin),
   ("acos".toList, .acos), ("atan".toList, .atan), ("sign".toList, .sign), ("abs".toList, .abs), ("max".toList, .max),
   ("min".toList, .min)]

/-- `expr_func` (expr.h:288-296). -/
def exprFunc (s : Text) : Option Fn := (funcs.find? fun p => p.1 == s).map (·.2)

/-- The constants of `eval_expr` (simple_expr.c:173-178). -/
inductive Const where
  | pi | e
deriving DecidableEq, Repr

/-- `expr_var` on the variables of `eval_expr` (expr.h:335-348, simple_expr.c:173-178). -/
def exprVar (s : Text) : Option Const :=
  if s = ['p', 'i'] then some .pi else if s = ['e'] then some .e else none

/-- Whether a function reads a second argument (simple_expr.c: `pow_`, `max_`, `min_`). -/
def Fn.binary : Fn → Bool
  | .pow | .max | .min => true
  | _ => false

/-- The arithmetic of the machine: `zero`, decimal digits (`num * 10 + d`, `num / 10`), NaN, "is not zero", the operators
(those that always evaluate both operands) and the functions. -/
structure Arith (V : Type) where
  zero : V
  push : V → Nat → V
  div10 : V → V
  isNaN : V → Bool
  nonzero : V → Bool
  const : Const → V
  un : Op → V → V
  bin : Op → V → V → V
  fn1 : Fn → V → V
  fn2 : Fn → V → V → V

/-- `expr_parse_number`, the loop (expr.h:256-270): number so far, `frac`, `digits`. -/
def numLoop {V : Type} (A : Arith V) : Text → V → Nat → Nat → Option (V × Nat × Nat)
  | [], v, frac, digits => some (v, frac, digits)
  | c :: cs, v, frac, digits =>
    if c == '.' && frac == 0 then numLoop A cs v 1 digits
    else if isDigit c then
      numLoop A cs (A.push v (c.toNat - 48)) (if 0 < frac then frac + 1 else frac) (digits + 1)
    else none

/-- `while (frac > 1) num = num / 10` (expr.h:271-274). -/
def shiftDown {V : Type} (A : Arith V) : Nat → V → V
  | n + 2, v => shiftDown A (n + 1) (A.div10 v)
  | _, v => v

/-- `expr_parse_number` (expr.h:252-276); `none` is NaN. -/
def parseNumber {V : Type} (A : Arith V) (s : Text) : Option V :=
  match numLoop A s A.zero 0 0 with
  | none => none
  | some (v, frac, digits) => if 0 < digits then some (shiftDown A frac v) else none

/-- `struct expr` (expr.h:126-148). -/
inductive Tree (V : Type) where
  | num (v : V)
  | var (c : Const)
  | un (o : Op) (a : Tree V)
  | bin (o : Op) (a b : Tree V)
  | call (f : Fn) (args : List (Tree V))

/-- Entries of the operator stack `os`. -/
inductive Item where
  | op (o : Op)
  | lpar
  | brace
  | func (f : Fn)
deriving DecidableEq, Repr

/-- `struct expr_arg` (expr.h:157-161). -/
structure Frame (V : Type) where
  oslen : Nat
  eslen : Nat
  args : List (Tree V)

/-- `EXPR_PAREN_*` (expr.h:557-559). -/
inductive Paren where
  | allowed | expected | forbidden
deriving DecidableEq, Repr

/-- Variables of `expr_create` (expr.h:649-670). -/
structure St (V : Type) where
  flags : Flags
  paren : Paren
  id : Text
  es : List (Tree V)
  os : List Item
  as : List (Frame V)

/-- Result of one turn of the loop: go on, `break` with `string_found`, `goto cleanup`, a macro, or an access outside a
vector. -/
inductive Res (α : Type) where
  | ok (a : α)
  | string
  | undef
  | macro
  | ub

/-- `expr_bind` for the name of an operator (expr.h:561-592); `none` is -1. -/
def bindOp {V : Type} (o : Op) (es : List (Tree V)) : Option (List (Tree V)) :=
  if isUnary o then
    match es with
    | a :: r => some (.un o a :: r)
    | [] => none
  else
    match es with
    | b :: a :: r =>
      if o == .assign && (match a with | .var _ => false | _ => true) then none else some (.bin o a b :: r)
    | _ => none

/-- `expr_bind` (expr.h:561-592). -/
def bindItem {V : Type} (i : Item) (es : List (Tree V)) : Option (List (Tree V)) :=
  match i with
  | .op o => bindOp o es
  | _ => none

/-- The pending word at the next token (expr.h:716-748). -/
def settle {V : Type} (st : St V) (tok : Text) : Res (St V) :=
  if st.id = [] then .ok st
  else if tok = ['('] then
    if st.id = ['$'] then .macro
    else
      match exprFunc st.id with
      | some f => .ok { st with os := .func f :: st.os, paren := .expected, id := [] }
      | none => .undef
  else
    match exprVar st.id with
    | some c => .ok { st with es := .var c :: st.es, paren := .forbidden, id := [] }
    | none => .string

/-- The loop of `)` (expr.h:765-772): bind operators down to the parenthesis; `none` is `goto cleanup`. -/
def closeLoop {V : Type} (minlen : Nat) : List Item → List (Tree V) → Option (List Item × List (Tree V))
  | [], es => some ([], es)
  | i :: os, es =>
    if minlen < os.length + 1 ∧ i ≠ .lpar ∧ i ≠ .brace then
      match bindItem i es with
      | none => none
      | some es' => closeLoop minlen os es'
    else some (i :: os, es)

/-- The end of a call (expr.h:777-782, 839-852). -/
def closeCall {V : Type} (st : St V) (os : List Item) (es : List (Tree V)) : Res (St V) :=
  match os, st.as with
  | .func f :: os', a :: as' =>
    match es with
    | e :: es' =>
      if a.eslen < es.length then
        .ok { st with es := .call f (a.args ++ [e]) :: es', os := os', as := as', paren := .forbidden }
      else .ok { st with es := .call f a.args :: es, os := os', as := as', paren := .forbidden }
    | [] => .ok { st with es := .call f a.args :: es, os := os', as := as', paren := .forbidden }
  | _, _ => .ub

/-- `minlen` (expr.h:765). -/
def minLen {V : Type} : List (Frame V) → Nat
  | a :: _ => a.oslen
  | [] => 0

/-- Token `)` (expr.h:764-855). -/
def doClose {V : Type} (st : St V) : Res (St V) :=
  match closeLoop (minLen st.as) st.os st.es with
  | none => .undef
  | some ([], _) => .undef
  | some (.brace :: os, es) => closeCall st os es
  | some (_ :: os, es) => .ok { st with es := es, os := os, paren := .forbidden }

/-- The loop for an operator (expr.h:859-891), on the operator stack. -/
def opLoop {V : Type} (op : Op) : List Item → List (Tree V) → List (Frame V) →
    Res (List Item × List (Tree V) × List (Frame V))
  | [], es, as => .ok ([.op op], es, as)
  | .brace :: os, es, as =>
    if op = .comma then
      match es, as with
      | e :: es', a :: as' => .ok (.brace :: os, es', { a with args := a.args ++ [e] } :: as')
      | _, _ => .ub
    else .ok (.op op :: .brace :: os, es, as)
  | .op o2 :: os, es, as =>
    if exprPrec op o2 then
      match bindOp o2 es with
      | none => .undef
      | some es' => opLoop op os es' as
    else .ok (.op op :: .op o2 :: os, es, as)
  | i :: os, es, as => .ok (.op op :: i :: os, es, as)

/-- Token `(` (expr.h:750-761). -/
def doOpen {V : Type} (st : St V) : Res (St V) :=
  match st.paren with
  | .expected =>
    .ok { st with os := .brace :: st.os, as := ⟨st.os.length + 1, st.es.length, []⟩ :: st.as, paren := .allowed }
  | .allowed => .ok { st with os := .lpar :: st.os, paren := .allowed }
  | .forbidden => .undef

/-- Any other token (expr.h:856-900). -/
def doOther {V : Type} (A : Arith V) (st : St V) (tok : Text) : Res (St V) :=
  match parseNumber A tok with
  | some v => .ok { st with es := .num v :: st.es, paren := .forbidden }
  | none =>
    match exprOp tok none with
    | some op =>
      match opLoop op st.os st.es st.as with
      | .ok (os, es, as) => .ok { st with os := os, es := es, as := as, paren := .allowed }
      | .undef => .undef
      | .string => .string
      | .macro => .macro
      | .ub => .ub
    | none => if (tok.head?.map isDigit) == some true then .undef else .ok { st with id := tok, paren := .allowed }

/-- A token that is not a comment or space (expr.h:750-901). -/
def doToken {V : Type} (A : Arith V) (st : St V) (tok : Text) : Res (St V) :=
  if tok = ['('] then doOpen st
  else if st.paren = .expected then .undef
  else if tok = [')'] then doClose st
  else doOther A st tok

/-- The name of a unary operator (expr.h:687-704); `none` is `goto cleanup`. -/
def unaryName (f : Flags) (tok : Text) : Option Text :=
  if f.unary && tok.length == 1 then
    if tok = ['-'] then some ['-', 'u']
    else if tok = ['^'] then some ['^', 'u']
    else if tok = ['!'] then some ['!', 'u']
    else none
  else some tok

/-- The pending word, then the token (expr.h:714-901). -/
def feed {V : Type} (A : Arith V) (st : St V) (tok : Text) : Res (St V) :=
  match settle st tok with
  | .ok st' => doToken A st' tok
  | .string => .string
  | .undef => .undef
  | .macro => .macro
  | .ub => .ub

/-- One turn of the loop after the lexer (expr.h:681-901). -/
def turn {V : Type} (A : Arith V) (st : St V) (tok : Text) (f : Flags) : Res (St V) :=
  if tok.head? = some '#' then .ok { st with flags := f }
  else
    match unaryName f tok with
    | none => .undef
    | some tok =>
      if tok.head? = some '\n' ∧ f.comma = true then feed A { st with flags := { f with comma := false } } [',']
      else if (tok.head?.map isSpace) = some true then .ok { st with flags := f }
      else feed A { st with flags := f } tok

/-- Result of `expr_create`: a tree, a string, NULL, a macro or undefined behaviour. -/
inductive Out (V : Type) where
  | tree (t : Tree V)
  | string
  | undef
  | macro
  | ub

/-- The remaining operators at the end (expr.h:942-950); `none` is `goto cleanup`. -/
def flush {V : Type} : List Item → List (Tree V) → Option (List (Tree V))
  | [], es => some es
  | i :: os, es =>
    match bindItem i es with
    | none => none
    | some es' => flush os es'

/-- The end of `expr_create` without a string (expr.h:942-972). -/
def flushOut {V : Type} (A : Arith V) (os : List Item) (es : List (Tree V)) : Out V :=
  match flush os es with
  | none => .undef
  | some [] => .tree (.num A.zero)
  | some (t :: _) => .tree t

/-- The end of `expr_create` (expr.h:903-972). -/
def finish {V : Type} (A : Arith V) (st : St V) : Out V :=
  if st.id = [] then flushOut A st.os st.es
  else
    match exprVar st.id with
    | some c => flushOut A st.os (.var c :: st.es)
    | none => .string

/-- The loop of `expr_create` (expr.h:671-902). Every token has at least one character, so the length of the text is
enough fuel (shown in `run_balanced`). -/
def run {V : Type} (A : Arith V) : Nat → St V → Text → Out V
  | 0, st, _ => finish A st
  | n + 1, st, s =>
    match nextToken st.flags s with
    | .stop => finish A st
    | .error => .undef
    | .string => .string
    | .tok t rest f =>
      match turn A st t f with
      | .ok st' => run A n st' rest
      | .string => .string
      | .undef => .undef
      | .macro => .macro
      | .ub => .ub

/-- State at the beginning (expr.h:653-670). -/
def init {V : Type} : St V := ⟨tDefault, .allowed, [], [], [], []⟩

/-- `expr_create` (expr.h:646-997). -/
def create {V : Type} (A : Arith V) (s : Text) : Out V := run A (s.length + 1) init s

/-- Functions on their arguments (simple_expr.c:18-145): missing arguments are read outside the vector (`none`), further
ones are ignored. -/
def callFn {V : Type} (A : Arith V) (f : Fn) (args : List V) : Option V :=
  match args with
  | [] => none
  | [a] => if f.binary then none else some (A.fn1 f a)
  | a :: b :: _ => some (if f.binary then A.fn2 f a b else A.fn1 f a)

/-- `expr_eval` for an operator on the values (expr.h:362-457), `&&` and `||` as in the code (no side effects). -/
def evalBin {V : Type} (A : Arith V) (o : Op) (x y : V) : Option V :=
  match o with
  | .land => some (if A.nonzero x && A.nonzero y then y else A.zero)
  | .lor => some (if A.nonzero x && !A.isNaN x then x else if A.nonzero y then y else A.zero)
  | .comma => some y
  | .assign => none
  | o => some (A.bin o x y)

mutual
/-- `expr_eval` (expr.h:360-459); `none`: undefined behaviour or an assignment. -/
def eval {V : Type} (A : Arith V) : Tree V → Option V
  | .num v => some v
  | .var c => some (A.const c)
  | .un o a => (eval A a).map (A.un o)
  | .bin o a b =>
    match eval A a, eval A b with
    | some x, some y => evalBin A o x y
    | _, _ => none
  | .call f args =>
    match evalAll A args with
    | some vs => callFn A f vs
    | none => none
/-- Arguments of a call; functions evaluate the arguments they use, without side effects. -/
def evalAll {V : Type} (A : Arith V) : List (Tree V) → Option (List V)
  | [] => some []
  | t :: ts =>
    match eval A t, evalAll A ts with
    | some v, some vs => some (v :: vs)
    | _, _ => none
end

/-- Blanks and plus signs (expr.h:921). -/
def isJoint (c : Char) : Bool := isSpace c || c == '+'

/-- Concatenation of strings (expr.h:910-938): at a space, if the run of spaces and plus signs that starts here has a plus
sign, the run is dropped and the next character is copied. -/
def concatText : Nat → Text → Text
  | 0, _ => []
  | _ + 1, [] => []
  | n + 1, c :: cs =>
    if isSpace c && ((c :: cs).takeWhile isJoint).contains '+' then
      match (c :: cs).dropWhile isJoint with
      | [] => []
      | d :: ds => d :: concatText n ds
    else c :: concatText n cs

/-- `ExprReturnStruct` (simple_expr.h:21-39), with undefined behaviour and the parts outside the model apart. -/
inductive Ret (V : Type) where
  | undefined
  | number (v : V)
  | text (s : Text)
  | other
deriving DecidableEq

/-- `eval_expr` (simple_expr.c:169-210). -/
def evalExpr {V : Type} (A : Arith V) (s : Text) : Ret V :=
  match create A s with
  | .undef => .undefined
  | .string => .text (concatText s.length s)
  | .macro => .other
  | .ub => .other
  | .tree t =>
    match eval A t with
    | none => .other
    | some v => if A.isNaN v then .undefined else .number v

/-- `ReplaceStringInPlace` (Parameters.cpp:400-408), `search` not empty: `skip` characters are part of a replaced
occurrence. -/
def replaceFrom (search rep : Text) : Nat → Text → Text
  | _, [] => []
  | skip + 1, _ :: cs => replaceFrom search rep skip cs
  | 0, c :: cs =>
    if search.isPrefixOf (c :: cs) then rep ++ replaceFrom search rep (search.length - 1) cs
    else c :: replaceFrom search rep 0 cs

/-- `ReplaceStringInPlace` (Parameters.cpp:400-408). -/
def replaceAll (search rep : Text) (s : Text) : Text := replaceFrom search rep 0 s

/-- The names of OpenSCENARIO operators are replaced (Parameters.cpp:441-447). -/
def translate (s : Text) : Text :=
  replaceAll "false ".toList "0 ".toList (replaceAll "true ".toList "1 ".toList
    (replaceAll "or ".toList "|| ".toList (replaceAll "and ".toList "&& ".toList
      (replaceAll "not(".toList "!(".toList (replaceAll "not ".toList "!".toList s)))))

/-- The value of an attribute that is an expression (Parameters.cpp:434-466), after the references to parameters have been
replaced: `fmt` is `std::to_string`. `none`: the application quits or the outcome is not defined. -/
def attrValue {V : Type} (A : Arith V) (fmt : V → Text) (s : Text) : Option Text :=
  match evalExpr A (translate s) with
  | .undefined => none
  | .number v => some (fmt v)
  | .text t => some t
  | .other => none

/-- A truth value is read from an attribute by comparison with "true" (Parameters.cpp:305, 553, ScenarioReader.cpp:1309,
3704, and further), in some places also with "1" (ScenarioReader.cpp:2913, 3121, 4621). -/
def readBool (s : Text) : Bool := s == "true".toList || s == ['1']

end Verif.Expr

/-
Model of the expression parser, /repo/fossil/parser.py:113-202: the pyparsing grammar as the ordered-choice (PEG) parser that
`infixNotation` and `nestedExpr` denote, and the conversion of its nested lists into an expression.
The input is a list of tokens; Text.lean models the same grammar on characters and Lemmas/TextParse.lean relates the two.
-/
import Verif.Py
import Mathlib.Analysis.SpecialFunctions.Pow.Real

namespace Fossil

/-- Function names accepted by the parsers (parser.py:255-263, 292-300, 329-342, 397-411). `And`, `Or`, `Not`, `If`, `sum`
(which do not build arithmetic expressions from one argument) are not modelled. -/
inductive FName where
  | sin | cos | exp | log | sqrt | tanh
deriving DecidableEq, Repr

/-- Tokens (parser.py:115-126, 204-209). `num` is a decimal or integer literal, `x i`/`u i` the variable named `xi`/`ui`. -/
inductive Tok where
  | num (q : ℚ) | x (i : ℕ) | u (i : ℕ) | fn (f : FName) | lpar | rpar | plus | minus | star | slash | dstar
deriving DecidableEq, Repr

/-- Arithmetic expressions, as built by the Python operators on symbolic variables. -/
inductive AExpr where
  | num (q : ℚ) | x (i : ℕ) | u (i : ℕ)
  | add (a b : AExpr) | sub (a b : AExpr) | mul (a b : AExpr) | div (a b : AExpr) | pow (a b : AExpr)
  | neg (a : AExpr) | app (f : FName) (a : AExpr)
deriving DecidableEq, Repr

/-- Ordinary meaning of the functions. -/
noncomputable def FName.eval : FName → ℝ → ℝ
  | .sin, r => Real.sin r
  | .cos, r => Real.cos r
  | .exp, r => Real.exp r
  | .log, r => Real.log r
  | .sqrt, r => Real.sqrt r
  | .tanh, r => Real.tanh r

/-- Ordinary value of an expression when variable `xi` is `ρ i` and `ui` is `μ i`. -/
noncomputable def AExpr.eval (ρ μ : ℕ → ℝ) : AExpr → ℝ
  | .num q => (q : ℝ)
  | .x i => ρ i
  | .u i => μ i
  | .add a b => a.eval ρ μ + b.eval ρ μ
  | .sub a b => a.eval ρ μ - b.eval ρ μ
  | .mul a b => a.eval ρ μ * b.eval ρ μ
  | .div a b => a.eval ρ μ / b.eval ρ μ
  | .pow a b => a.eval ρ μ ^ b.eval ρ μ
  | .neg a => - a.eval ρ μ
  | .app f a => f.eval (a.eval ρ μ)

/-- Operator strings in parse results: `"u-"` and the binary ones (parser.py:121, 135-141). -/
inductive POp where
  | umin | pow | div | mul | sub | add
deriving DecidableEq, Repr

/-- `ParseResults.asList()`: nested lists of numbers, variables, operator strings and function names. -/
inductive PTree where
  | num (q : ℚ) | x (i : ℕ) | u (i : ℕ) | op (o : POp) | fn (f : FName) | list (l : List PTree)

/-- A parser: what it returns and the remaining input, or no match. -/
abbrev P := List Tok → Option (PTree × List Tok)

/-- The symbols of the grammar that refer to each other: `nested_paren_expr` (parser.py:129) and the levels of `infixNotation`
(parser.py:134-145): 0 operand, 1 unary minus, 2 `**`, 3 `/`, 4 `*`, 5 `-`, 6 `+` (the whole expression). -/
inductive Sym where
  | nested | lvl (k : ℕ)
deriving DecidableEq

/-- `(op + operand)[1, ...]`, possibly empty: greedy, stops before an operator that no operand follows. The number bounds the
repetitions (each consumes input). -/
def pmany (p : P) (o : Tok) (po : POp) : ℕ → List Tok → List PTree × List Tok
  | 0, ts => ([], ts)
  | k + 1, ts =>
    match ts with
    | [] => ([], [])
    | t :: r =>
      if t = o then
        match p r with
        | none => ([], ts)
        | some (e, r') => let m := pmany p o po k r'; (.op po :: e :: m.1, m.2)
      else ([], ts)

/-- A binary level of `infixNotation`: `FollowedBy(last + op + last) + Group(last + (op + last)[1, ...]) | last`. For a
right-associative operator the operand after the operator is parsed by the level itself. -/
def pbin (first operand : P) (o : Tok) (po : POp) (n : ℕ) : P := fun ts =>
  match first ts with
  | none => none
  | some (e, r) =>
    match pmany operand o po n r with
    | ([], _) => some (e, r)
    | (l, r') => some (.list (e :: l), r')

/-- `ZeroOrMore(nested | expr)` inside `nestedExpr`. -/
def pitems (nested expr : P) : ℕ → List Tok → List PTree × List Tok
  | 0, ts => ([], ts)
  | k + 1, ts =>
    match nested ts with
    | some (e, r) => let m := pitems nested expr k r; (e :: m.1, m.2)
    | none =>
      match expr ts with
      | some (e, r) => let m := pitems nested expr k r; (e :: m.1, m.2)
      | none => ([], ts)

/-- `nestedExpr("(", ")", content=expr)` (parser.py:129): a group of items between brackets. Quoted strings are not modelled. -/
def pnested (nested expr : P) (n : ℕ) : P := fun ts =>
  match ts with
  | .lpar :: r =>
    match pitems nested expr n r with
    | (l, .rpar :: r') => some (.list l, r')
    | _ => none
  | _ => none

/-- The operand of `infixNotation` (parser.py:132, 135): `number | variable | func_call | nested_paren_expr`, and
`infixNotation`'s own bracketed expression as last alternative. `funcs`: the function names of the backend. -/
def patom (funcs : FName → Bool) (nested expr : P) (n : ℕ) : P := fun ts =>
  match ts with
  | .num q :: r => some (.num q, r)
  | .x i :: r => some (.x i, r)
  | .u i :: r => some (.u i, r)
  | .fn f :: r =>
    if funcs f then
      match nested r with
      | some (e, r') => some (.list [.fn f, e], r')
      | none => none
    else none
  | .lpar :: r =>
    match pnested nested expr n ts with
    | some m => some m
    | none =>
      match expr r with
      | some (e, .rpar :: r') => some (e, r')
      | _ => none
  | _ => none

/-- Unary minus level (parser.py:137). -/
def punary (self atom : P) : P := fun ts =>
  match ts with
  | .minus :: r =>
    match self r with
    | some (e, r') => some (.list [.op .umin, e], r')
    | none => none
  | _ => atom ts

/-- All symbols of the grammar (parser.py:113-146). The first argument bounds the nesting of recursive calls, each of which
happens after a token has been consumed, so the length of the input suffices. -/
def pegParse (funcs : FName → Bool) : ℕ → Sym → P
  | 0, _ => fun _ => none
  | n + 1, s =>
    let R := pegParse funcs n
    let l0 : P := patom funcs (R .nested) (R (.lvl 6)) n
    let l1 : P := punary (R (.lvl 1)) l0
    let l2 : P := pbin l1 (R (.lvl 2)) .dstar .pow n
    let l3 : P := pbin l2 (R (.lvl 2)) .slash .div n
    let l4 : P := pbin l3 (R (.lvl 3)) .star .mul n
    let l5 : P := pbin l4 (R (.lvl 4)) .minus .sub n
    let l6 : P := pbin l5 (R (.lvl 5)) .plus .add n
    match s with
    | .nested => pnested (R .nested) (R (.lvl 6)) n
    | .lvl 0 => l0
    | .lvl 1 => l1
    | .lvl 2 => l2
    | .lvl 3 => l3
    | .lvl 4 => l4
    | .lvl 5 => l5
    | .lvl _ => l6

/-- `parseString(s, parseAll=True).asList()` (parser.py:73, 552): the whole input must be matched. `ParseException` is a value
error here. -/
def parseAll (funcs : FName → Bool) (ts : List Tok) : Except Err PTree :=
  match pegParse funcs (ts.length + 1) (.lvl 6) ts with
  | some (t, []) => .ok (.list [t])
  | _ => .error .valueError

/-- The binary operator functions (parser.py:158-164); `"u-"` is not among them. -/
def POp.apply? : POp → Option (AExpr → AExpr → AExpr)
  | .add => some .add
  | .sub => some .sub
  | .mul => some .mul
  | .div => some .div
  | .pow => some .pow
  | .umin => none

/-- `parsed[::2]`. -/
def everyOther : List PTree → List PTree
  | [] => []
  | [a] => [a]
  | a :: _ :: l => a :: everyOther l

/-- One level of flattening (parser.py:192-199). -/
def flattenOnce : List PTree → List PTree
  | [] => []
  | .list l :: r => l ++ flattenOnce r
  | t :: r => t :: flattenOnce r

/-- Result of folding an operator over converted operands (parser.py:178-182). -/
def foldOp (f : AExpr → AExpr → AExpr) : List AExpr → Except Err AExpr
  | [] => .error .indexError
  | a :: l => .ok (l.foldl f a)

/-- `convert_parse_to_ast` (parser.py:148-202). The number bounds the recursion depth: running out of it is Python's
RecursionError (which the flattening branch can cause). Constants are exact; a bare operator string is a type error. A function
is called with exactly one argument or raises. Looking up a list in a dict raises TypeError. -/
def convertTree : ℕ → PTree → Except Err AExpr
  | 0, _ => .error .runtimeError
  | k + 1, t =>
    match t with
    | .num q => .ok (.num q)
    | .x i => .ok (.x i)
    | .u i => .ok (.u i)
    | .op _ => .error .typeError
    | .fn _ => .error .typeError
    | .list [] => .error .indexError
    | .list [a] => convertTree k a
    | .list (a :: b :: l) =>
      if (a :: b :: l).length % 2 = 1 then
        match b with
        | .op o =>
          match o.apply? with
          | some f =>
            match (everyOther (a :: b :: l)).mapM (convertTree k) with
            | .ok args => foldOp f args
            | .error e => .error e
          | none => .error .keyError
        | .list _ => .error .typeError
        | _ => .error .keyError
      else
        match a with
        | .list _ => .error .typeError
        | .op .umin =>
          match convertTree k b with
          | .ok e => .ok (.neg e)
          | .error e => .error e
        | .fn f =>
          match b with
          | .list args =>
            match args.mapM (convertTree k) with
            | .ok [e] => .ok (.app f e)
            | .ok _ => .error .typeError
            | .error e => .error e
          | _ => .error .typeError
        | _ => convertTree k (.list (flattenOnce (a :: b :: l)))

/-- Depth allowed for the conversion: larger than the nesting of any parse result of that many tokens. Python's own limit
(about 1000 frames) is not modelled. -/
def convertDepth (ts : List Tok) : ℕ := 8 * ts.length + 8

/-- Does the expression consist of literals and operators only? Then the operators of `convert_parse_to_ast` (parser.py:158-167) act on Python numbers
and the result is an `int` or `float`, not a symbolic expression. -/
def AExpr.number : AExpr → Bool
  | .num _ => true
  | .x _ | .u _ | .app _ _ => false
  | .add a b | .sub a b | .mul a b | .div a b | .pow a b => a.number && b.number
  | .neg a => a.number

/-- The value of such a number, exactly (floats are idealised); `none` for symbolic expressions and for powers with a broken exponent, whose value is not
tracked. -/
def AExpr.val? : AExpr → Option ℚ
  | .num q => some q
  | .x _ | .u _ | .app _ _ => none
  | .add a b => match a.val?, b.val? with | some p, some q => some (p + q) | _, _ => none
  | .sub a b => match a.val?, b.val? with | some p, some q => some (p - q) | _, _ => none
  | .mul a b => match a.val?, b.val? with | some p, some q => some (p * q) | _, _ => none
  | .div a b => match a.val?, b.val? with | some p, some q => some (p / q) | _, _ => none
  | .pow a b => match a.val?, b.val? with | some p, some q => if q.den = 1 then some (p ^ q.num) else none | _, _ => none
  | .neg a => match a.val? with | some p => some (-p) | none => none

/-- Does building the expression divide a Python number by zero, or raise zero to a negative power (parser.py:162-163)? Both raise ZeroDivisionError. What
the libraries do when a symbolic expression is divided by zero is not modelled. -/
def AExpr.zeroDiv : AExpr → Bool
  | .num _ | .x _ | .u _ => false
  | .add a b | .sub a b | .mul a b => a.zeroDiv || b.zeroDiv
  | .div a b => a.zeroDiv || b.zeroDiv || (a.number && b.val? == some 0)
  | .pow a b => a.zeroDiv || b.zeroDiv || (a.val? == some 0 && b.val?.any (fun q => decide (q < 0)))
  | .neg a | .app _ a => a.zeroDiv

/-- The expression, unless building it raised. (In the code this happens while the tree is built; only which exception comes first can
differ.) -/
def built (r : Except Err AExpr) : Except Err AExpr :=
  match r with
  | .ok e => if e.zeroDiv then .error .zeroDivision else .ok e
  | .error e => .error e

/-- The tree built for a token list. -/
def astExpr (funcs : FName → Bool) (ts : List Tok) : Except Err AExpr :=
  match parseAll funcs ts with
  | .ok t => convertTree (convertDepth ts) t
  | .error e => .error e

/-- `parse_expression` / one entry of `parse_dynamical_system` (parser.py:72-75, 533-556). -/
def parseExpr (funcs : FName → Bool) (ts : List Tok) : Except Err AExpr := built (astExpr funcs ts)

/-- Function tables: Z3 and CVC5 have no arithmetic functions (parser.py:255-263, 292-300). -/
def z3Funcs : FName → Bool := fun _ => false
/-- dReal and sympy (parser.py:329-342, 397-411). -/
def drealFuncs : FName → Bool := fun _ => true

end Fossil

/-
Model of the text level of /repo/fossil/parser.py: the pyparsing elements as functions on characters (scannerless, ordered choice), the
expression grammar of 113-146 and 204-209 on characters, and the domain grammar of `DomainParser` (429-486) with `parse_domain` (559-574).
Every pyparsing element skips blanks, tabs and line ends before matching, except inside `Combine`. Not modelled: quoted strings inside
brackets (`nestedExpr`'s default `ignoreExpr`), float rounding of the literals, and the check that `Keyword` is not preceded by a letter or digit.
-/
import Verif.Parser
import Verif.Domains

namespace Fossil

/-- pyparsing's default whitespace. -/
def isWs (c : Char) : Bool := c == ' ' || c == '\t' || c == '\n' || c == '\r'

/-- Skipping of whitespace before an element. -/
def skipWs (cs : List Char) : List Char := cs.dropWhile isWs

/-- `pp.nums`. -/
def isNum (c : Char) : Bool := '0' ≤ c && c ≤ '9'

/-- Characters that may not follow a `pp.Keyword`: letters, digits, `_`, `$` (ASCII letters). -/
def isIdent (c : Char) : Bool :=
  isNum c || ('a' ≤ c && c ≤ 'z') || ('A' ≤ c && c ≤ 'Z') || c == '_' || c == '$'

/-- `int(...)` of a digit string. -/
def natVal (d : List Char) : ℕ := d.foldl (fun n c => 10 * n + (c.toNat - 48)) 0

/-- `pp.Word(pp.nums)` without skipping. -/
def wordNums (cs : List Char) : Option (List Char × List Char) :=
  match cs.takeWhile isNum with
  | [] => none
  | d => some (d, cs.dropWhile isNum)

/-- `decimal = Combine(Word(nums) + "." + Word(nums))` after skipping; the value is `float(...)` (parser.py:115-117, 439-441). -/
def decimalC (cs : List Char) : Option (ℚ × List Char) :=
  match wordNums cs with
  | some (a, '.' :: r) =>
    match wordNums r with
    | some (b, r') => some ((natVal a : ℚ) + (natVal b : ℚ) / 10 ^ b.length, r')
    | none => none
  | _ => none

/-- `integer = Word(nums)` (parser.py:118, 442-444). -/
def integerC (cs : List Char) : Option (ℚ × List Char) :=
  match wordNums cs with
  | some (a, r) => some ((natVal a : ℚ), r)
  | none => none

/-- `number = decimal | integer` (parser.py:119). -/
def numberC (cs : List Char) : Option (ℚ × List Char) :=
  match decimalC (skipWs cs) with
  | some m => some m
  | none => integerC (skipWs cs)

/-- `Literal(s)` and plain strings in the grammar. -/
def litC (s : List Char) (cs : List Char) : Option (List Char) := s.isPrefixOf? (skipWs cs)

/-- `Word("x", nums)` or `Word("u", nums)` (parser.py:206-207). Names without number or with leading zeros (other variables than any `xi`) are
not modelled: no match. -/
def varC (v : Char) (cs : List Char) : Option (ℕ × List Char) :=
  match skipWs cs with
  | c :: r =>
    if c = v then
      match r.takeWhile isNum with
      | [] => none
      | '0' :: _ :: _ => none
      | d => some (natVal d, r.dropWhile isNum)
    else none
  | [] => none

/-- `Keyword(name)`. -/
def keywordC (name : List Char) (cs : List Char) : Option (List Char) :=
  match litC name cs with
  | some [] => some []
  | some (c :: r) => if isIdent c then none else some (c :: r)
  | none => none

/-- Text of the function names (parser.py:329-342, 397-411). -/
def FName.name : FName → List Char
  | .sin => ['s', 'i', 'n']
  | .cos => ['c', 'o', 's']
  | .exp => ['e', 'x', 'p']
  | .log => ['l', 'o', 'g']
  | .sqrt => ['s', 'q', 'r', 't']
  | .tanh => ['t', 'a', 'n', 'h']

/-- `MatchFirst(Keyword(fn) for fn in funcs)` (parser.py:43-44, 125). -/
def fnC (funcs : FName → Bool) (cs : List Char) : Option (FName × List Char) :=
  [FName.sin, .cos, .exp, .log, .sqrt, .tanh].findSome? (fun f =>
    if funcs f then (keywordC f.name cs).map (fun r => (f, r)) else none)

/-- A parser on characters. -/
abbrev PC := List Char → Option (PTree × List Char)

/-- `pmany` of Parser.lean on characters. -/
def pmanyC (p : PC) (o : List Char) (po : POp) : ℕ → List Char → List PTree × List Char
  | 0, cs => ([], cs)
  | k + 1, cs =>
    match litC o cs with
    | none => ([], cs)
    | some r =>
      match p r with
      | none => ([], cs)
      | some (e, r') => let m := pmanyC p o po k r'; (.op po :: e :: m.1, m.2)

/-- `pbin` of Parser.lean on characters. -/
def pbinC (first operand : PC) (o : List Char) (po : POp) (n : ℕ) : PC := fun cs =>
  match first cs with
  | none => none
  | some (e, r) =>
    match pmanyC operand o po n r with
    | ([], _) => some (e, r)
    | (l, r') => some (.list (e :: l), r')

/-- `ZeroOrMore(nested | expr)` (parser.py:129). -/
def pitemsC (nested expr : PC) : ℕ → List Char → List PTree × List Char
  | 0, cs => ([], cs)
  | k + 1, cs =>
    match nested cs with
    | some (e, r) => let m := pitemsC nested expr k r; (e :: m.1, m.2)
    | none =>
      match expr cs with
      | some (e, r) => let m := pitemsC nested expr k r; (e :: m.1, m.2)
      | none => ([], cs)

/-- `nestedExpr("(", ")", content=expr)` (parser.py:129). -/
def pnestedC (nested expr : PC) (n : ℕ) : PC := fun cs =>
  match litC ['('] cs with
  | none => none
  | some r =>
    let m := pitemsC nested expr n r
    match litC [')'] m.2 with
    | some r' => some (.list m.1, r')
    | none => none

/-- `number | variable | func_call | nested_paren_expr`, then infixNotation's own brackets (parser.py:132-135). -/
def patomC (funcs : FName → Bool) (nested expr : PC) (n : ℕ) : PC := fun cs =>
  match numberC cs with
  | some (q, r) => some (.num q, r)
  | none =>
    match varC 'x' cs with
    | some (i, r) => some (.x i, r)
    | none =>
      match varC 'u' cs with
      | some (i, r) => some (.u i, r)
      | none =>
        match (match fnC funcs cs with
          | some (f, r) =>
            match nested r with
            | some (e, r') => some (PTree.list [.fn f, e], r')
            | none => none
          | none => none) with
        | some m => some m
        | none =>
          match pnestedC nested expr n cs with
          | some m => some m
          | none =>
            match litC ['('] cs with
            | some r =>
              match expr r with
              | some (e, r') => (litC [')'] r').map (fun r'' => (e, r''))
              | none => none
            | none => none

/-- Unary minus level (parser.py:121, 137). -/
def punaryC (self atom : PC) : PC := fun cs =>
  match (match litC ['-'] cs with
    | some r =>
      match self r with
      | some (e, r') => some (PTree.list [.op .umin, e], r')
      | none => none
    | none => none) with
  | some m => some m
  | none => atom cs

/-- The grammar on characters (parser.py:113-146). -/
def pegC (funcs : FName → Bool) : ℕ → Sym → PC
  | 0, _ => fun _ => none
  | n + 1, s =>
    let R := pegC funcs n
    let l0 : PC := patomC funcs (R .nested) (R (.lvl 6)) n
    let l1 : PC := punaryC (R (.lvl 1)) l0
    let l2 : PC := pbinC l1 (R (.lvl 2)) ['*', '*'] .pow n
    let l3 : PC := pbinC l2 (R (.lvl 2)) ['/'] .div n
    let l4 : PC := pbinC l3 (R (.lvl 3)) ['*'] .mul n
    let l5 : PC := pbinC l4 (R (.lvl 4)) ['-'] .sub n
    let l6 : PC := pbinC l5 (R (.lvl 5)) ['+'] .add n
    match s with
    | .nested => pnestedC (R .nested) (R (.lvl 6)) n
    | .lvl 0 => l0
    | .lvl 1 => l1
    | .lvl 2 => l2
    | .lvl 3 => l3
    | .lvl 4 => l4
    | .lvl 5 => l5
    | .lvl _ => l6

/-- The tree built for a text (parser.py:551-554): `parseString(s, parseAll=True)` allows trailing whitespace. The bounds exceed the nesting any
text of that length can have. -/
def astText (funcs : FName → Bool) (s : String) : Except Err AExpr :=
  match pegC funcs (s.toList.length + 1) (.lvl 6) s.toList with
  | some (t, r) => if skipWs r = [] then convertTree (8 * s.toList.length + 8) (.list [t]) else .error .valueError
  | none => .error .valueError

/-- `parse_expression(s)` (parser.py:533-556) on the text. -/
def parseText (funcs : FName → Bool) (s : String) : Except Err AExpr := built (astText funcs s)

/-- Nested results of the domain grammar. -/
inductive DTree where
  | num (q : ℚ) | list (l : List DTree)

/-- Signed numbers (parser.py:439-445): `decimal | integer`, each with an optional sign directly before the digits. -/
def signedC (cs : List Char) : Option (ℚ × List Char) :=
  let m : Option (ℚ × List Char) → Option (ℚ × List Char) := fun o => o.map (fun e => (-e.1, e.2))
  match skipWs cs with
  | '-' :: r => match m (decimalC r) with
    | some e => some e
    | none => m (integerC r)
  | '+' :: r => match decimalC r with
    | some e => some e
    | none => integerC r
  | r => match decimalC r with
    | some e => some e
    | none => integerC r

/-- `ZeroOrMore("," + number)` of `delimitedList`. -/
def delimTail : ℕ → List Char → List DTree × List Char
  | 0, cs => ([], cs)
  | k + 1, cs =>
    match litC [','] cs with
    | none => ([], cs)
    | some r =>
      match signedC r with
      | none => ([], cs)
      | some (q, r') => let m := delimTail k r'; (.num q :: m.1, m.2)

/-- `delimitedList(number)` (parser.py:446). -/
def delimC (n : ℕ) (cs : List Char) : Option (List DTree × List Char) :=
  match signedC cs with
  | none => none
  | some (q, r) => let m := delimTail n r; some (.num q :: m.1, m.2)

/-- `ZeroOrMore(nested | content)`. -/
def ditems (nested : List Char → Option (DTree × List Char)) (content : List Char → Option (List DTree × List Char)) :
    ℕ → List Char → List DTree × List Char
  | 0, cs => ([], cs)
  | k + 1, cs =>
    match nested cs with
    | some (e, r) => let m := ditems nested content k r; (e :: m.1, m.2)
    | none =>
      match content cs with
      | some (l, r) => let m := ditems nested content k r; (l ++ m.1, m.2)
      | none => ([], cs)

/-- `nestedExpr(o, c, content=...)`; the number bounds depth and repetitions. -/
def dnested (o c : Char) (content : List Char → Option (List DTree × List Char)) : ℕ → List Char → Option (DTree × List Char)
  | 0, _ => none
  | n + 1, cs =>
    match litC [o] cs with
    | none => none
    | some r =>
      let m := ditems (dnested o c content n) content n r
      match litC [c] m.2 with
      | some r' => some (.list m.1, r')
      | none => none

/-- `number_list` (parser.py:446). -/
def numList (n : ℕ) : List Char → Option (DTree × List Char) := dnested '[' ']' (delimC n) n

/-- `Group(number_list + "," + number)` (parser.py:447). -/
def sphereInput (n : ℕ) (cs : List Char) : Option (List DTree × List Char) := do
  let (l, r) ← numList n cs
  let r ← litC [','] r
  let (q, r) ← signedC r
  return ([.list [l, .num q]], r)

/-- `Group(number_list + "," + number_list)` (parser.py:449). -/
def rectangleInput (n : ℕ) (cs : List Char) : Option (List DTree × List Char) := do
  let (l, r) ← numList n cs
  let r ← litC [','] r
  let (l', r) ← numList n r
  return ([.list [l, l']], r)

/-- `Group(number_list + "," + number + "," + number)` (parser.py:453-455). -/
def torusInput (n : ℕ) (cs : List Char) : Option (List DTree × List Char) := do
  let (l, r) ← numList n cs
  let r ← litC [','] r
  let (q, r) ← signedC r
  let r ← litC [','] r
  let (q', r) ← signedC r
  return ([.list [l, .num q, .num q']], r)

/-- A centre or bound: a list of numbers. With nested brackets the object is built but cannot be used as a set; modelled as a TypeError. -/
def DTree.vec : DTree → Except Err (List ℚ)
  | .list l => l.mapM (fun e => match e with
    | .num q => .ok q
    | .list _ => .error .typeError)
  | .num _ => .error .typeError

/-- A radius. -/
def DTree.scalar : DTree → Except Err ℚ
  | .num q => .ok q
  | .list _ => .error .typeError

/-- `t.asList()[1][0]` as a list: the first item between the brackets. `none` is pyparsing turning the IndexError of a parse action into "no match". -/
def firstItem : DTree → Option (List DTree)
  | .list (.list l :: _) => some l
  | _ => none

/-- A domain alternative: keyword, bracketed input, parse action. -/
def domainAlt (name : List Char) (input : ℕ → List Char → Option (List DTree × List Char))
    (make : List DTree → Option (Except Err PySet)) (n : ℕ) (cs : List Char) : Option (Except Err PySet × List Char) := do
  let r ← keywordC name cs
  let (t, r) ← dnested '(' ')' (input n) n r
  let l ← firstItem t
  let d ← make l
  return (d, r)

/-- `make_sphere` (parser.py:467-472). -/
def makeSphere : List DTree → Option (Except Err PySet)
  | c :: r :: _ => some (do return .sphere (← c.vec) (← r.scalar) none)
  | _ => none

/-- `make_rectangle` (parser.py:474-479). -/
def makeRectangle : List DTree → Option (Except Err PySet)
  | lb :: ub :: _ => some (do return .rectangle (← lb.vec) (← ub.vec) none)
  | _ => none

/-- `make_torus` (parser.py:481-486), with the assertion of the constructor (domains.py:958). -/
def makeTorus : List DTree → Option (Except Err PySet)
  | c :: o :: i :: _ => some (do
      let c ← c.vec
      let o ← o.scalar
      let i ← i.scalar
      if i < o then return .torus c o i none else .error .assertionError)
  | _ => none

/-- `parse_domain(s)` (parser.py:457-464, 559-574): first matching alternative, whole text; the DomainParsingError is a ValueError here. -/
def parseDomain (s : String) : Except Err PySet :=
  let n := s.toList.length + 1
  match domainAlt "Sphere".toList sphereInput makeSphere n s.toList <|>
      (domainAlt "Rectangle".toList rectangleInput makeRectangle n s.toList <|>
        domainAlt "Torus".toList torusInput makeTorus n s.toList) with
  | some (.error e, _) => .error e
  | some (.ok d, r) => if skipWs r = [] then .ok d else .error .valueError
  | none => .error .valueError

end Fossil

/-
Independent description of expression texts: how the tokens of ordinary notation are written.
-/
import Verif.Spec.Arith
import Verif.Spec.Text

namespace Fossil.Spec

/-- The written name of a function. -/
def fnText : FName → String
  | .sin => "sin"
  | .cos => "cos"
  | .exp => "exp"
  | .log => "log"
  | .sqrt => "sqrt"
  | .tanh => "tanh"

/-- An index is written without leading zeros. -/
def Index (d : List Char) : Prop := Digits d ∧ (d.length = 1 ∨ d.head? ≠ some '0')

/-- How a token is written. -/
inductive TokText : Tok → List Char → Prop
  | num {q cs} (h : Numeral cs q) : TokText (.num q) cs
  | x {d} (h : Index d) : TokText (.x (digitsValue d)) ('x' :: d)
  | u {d} (h : Index d) : TokText (.u (digitsValue d)) ('u' :: d)
  | fn (f) : TokText (.fn f) (fnText f).toList
  | lpar : TokText .lpar ['(']
  | rpar : TokText .rpar [')']
  | plus : TokText .plus ['+']
  | minus : TokText .minus ['-']
  | star : TokText .star ['*']
  | slash : TokText .slash ['/']
  | dstar : TokText .dstar ['*', '*']

/-- `s` is a way of writing the tokens `ts`, with blanks wherever one likes between tokens. -/
def Spells (ts : List Tok) (s : String) : Prop := ∃ txts, List.Forall₂ TokText ts txts ∧ Layout txts s.toList

/-- Nowhere in the text is there a pair of brackets with nothing but blanks between them. -/
def NoEmptyBrackets (s : String) : Prop := ∀ p w r, Blank w → s.toList ≠ p ++ '(' :: w ++ ')' :: r

end Fossil.Spec

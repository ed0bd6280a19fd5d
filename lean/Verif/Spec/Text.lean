/-
Independent description of texts: decimal numerals, and tokens laid out with blanks between them. Nothing here refers to the parser.
-/
import Mathlib.Data.Nat.Digits.Defs
import Mathlib.Algebra.Order.Ring.Rat

namespace Fossil.Spec

/-- Only blanks, tabs and line ends. -/
def Blank (w : List Char) : Prop := ∀ c ∈ w, c = ' ' ∨ c = '\t' ∨ c = '\n' ∨ c = '\r'

/-- A non-empty string of decimal digits. -/
def Digits (d : List Char) : Prop := d ≠ [] ∧ ∀ c ∈ d, '0' ≤ c ∧ c ≤ '9'

/-- Positional value of a digit string. -/
def digitsValue (d : List Char) : ℕ := Nat.ofDigits 10 (d.reverse.map (fun c => c.toNat - '0'.toNat))

/-- `cs` is an unsigned decimal numeral, with or without fraction, of value `q`. -/
inductive Numeral : List Char → ℚ → Prop
  | int {d} (h : Digits d) : Numeral d (digitsValue d)
  | dec {a b} (ha : Digits a) (hb : Digits b) : Numeral (a ++ '.' :: b) (digitsValue a + digitsValue b / 10 ^ b.length)

/-- A numeral with an optional sign. -/
inductive SignedNumeral : List Char → ℚ → Prop
  | none {cs q} (h : Numeral cs q) : SignedNumeral cs q
  | plus {cs q} (h : Numeral cs q) : SignedNumeral ('+' :: cs) q
  | minus {cs q} (h : Numeral cs q) : SignedNumeral ('-' :: cs) (-q)

/-- The text `s` consists of the tokens, in order, with any amount of blank text before, between and after them. -/
def Layout : List (List Char) → List Char → Prop
  | [], s => Blank s
  | t :: ts, s => ∃ w s', Blank w ∧ s = w ++ t ++ s' ∧ Layout ts s'

/-- Items separated by commas. -/
def commaSep : List (List Char) → List (List Char)
  | [] => []
  | n :: ns => n :: ns.flatMap (fun m => [[','], m])

/-- `[n1, ..., nk]`. -/
def listText (ns : List (List Char)) : List (List Char) := [['[']] ++ commaSep ns ++ [[']']]

/-- `Sphere([c...], r)` as tokens. -/
def sphereText (c : List (List Char)) (r : List Char) : List (List Char) :=
  ["Sphere".toList, ['(']] ++ listText c ++ [[','], r, [')']]

/-- `Rectangle([lb...], [ub...])` as tokens. -/
def rectangleText (lb ub : List (List Char)) : List (List Char) :=
  ["Rectangle".toList, ['(']] ++ listText lb ++ [[',']] ++ listText ub ++ [[')']]

/-- `Torus([c...], outer, inner)` as tokens. -/
def torusText (c : List (List Char)) (outer inner : List Char) : List (List Char) :=
  ["Torus".toList, ['(']] ++ listText c ++ [[','], outer, [','], inner, [')']]

end Fossil.Spec

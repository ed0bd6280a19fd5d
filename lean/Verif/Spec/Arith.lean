/-
Independent specification of ordinary arithmetic notation: which token strings are expressions, and which expression they are.
`+`, `-` bind weakest and associate to the left, then `*`, `/` (left), then unary minus, then `**` (to the right, binding tighter
than a minus sign on its left), as in Python and in mathematics.
-/
import Verif.Parser

namespace Fossil.Spec

/-- Syntactic categories. -/
inductive Cat where
  | sum | term | factor | signed | operand
deriving DecidableEq

/-- What follows the bracket group that is open at depth `d`. -/
def afterGroup : ℕ → List Tok → List Tok
  | _, [] => []
  | d, .lpar :: r => afterGroup (d + 1) r
  | 0, .rpar :: r => r
  | d + 1, .rpar :: r => afterGroup d r
  | d, _ :: r => afterGroup d r

/-- The text between two brackets does not start with a bracket group followed by a minus sign. -/
def noLeadingGroupMinus : List Tok → Prop
  | .lpar :: r => (afterGroup 0 r).head? ≠ some .minus
  | _ => True

/-- `Denotes full c ts e`: `ts` is, in ordinary notation, an expression of category `c` and means the expression `e`.
With `full = true` this is the whole language. `full = false` leaves out three things: a minus sign in front of a power, bracketed
text that starts with a bracket group followed by a minus sign, and function arguments that start with a bracket. -/
inductive Denotes (full : Bool) (funcs : FName → Bool) : Cat → List Tok → AExpr → Prop
  | num (q) : Denotes full funcs .operand [.num q] (.num q)
  | x (i) : Denotes full funcs .operand [.x i] (.x i)
  | u (i) : Denotes full funcs .operand [.u i] (.u i)
  | brackets {a e} (h : Denotes full funcs .sum a e) (hb : full = true ∨ noLeadingGroupMinus a) :
      Denotes full funcs .operand (.lpar :: a ++ [.rpar]) e
  | call {f a e} (h : Denotes full funcs .sum a e) (hf : funcs f = true) (hb : full = true ∨ a.head? ≠ some .lpar) :
      Denotes full funcs .operand (.fn f :: .lpar :: a ++ [.rpar]) (.app f e)
  | signed {a e} (h : Denotes full funcs .operand a e) : Denotes full funcs .signed a e
  | neg {a e} (h : Denotes full funcs .signed a e) : Denotes full funcs .signed (.minus :: a) (.neg e)
  | factor {a e} (h : Denotes full funcs .signed a e) : Denotes full funcs .factor a e
  | power {a b e f} (h : Denotes full funcs .operand a e) (h' : Denotes full funcs .factor b f) :
      Denotes full funcs .factor (a ++ .dstar :: b) (.pow e f)
  | negPower {a e} (hf : full = true) (h : Denotes full funcs .factor a e) :
      Denotes full funcs .factor (.minus :: a) (.neg e)
  | term {a e} (h : Denotes full funcs .factor a e) : Denotes full funcs .term a e
  | mul {a b e f} (h : Denotes full funcs .term a e) (h' : Denotes full funcs .factor b f) :
      Denotes full funcs .term (a ++ .star :: b) (.mul e f)
  | div {a b e f} (h : Denotes full funcs .term a e) (h' : Denotes full funcs .factor b f) :
      Denotes full funcs .term (a ++ .slash :: b) (.div e f)
  | sum {a e} (h : Denotes full funcs .term a e) : Denotes full funcs .sum a e
  | add {a b e f} (h : Denotes full funcs .sum a e) (h' : Denotes full funcs .term b f) :
      Denotes full funcs .sum (a ++ .plus :: b) (.add e f)
  | sub {a b e f} (h : Denotes full funcs .sum a e) (h' : Denotes full funcs .term b f) :
      Denotes full funcs .sum (a ++ .minus :: b) (.sub e f)

/-- The same notation, except that a minus sign binds tighter than `**`: `-a**b` is `(-a)**b`. -/
inductive Tight (funcs : FName → Bool) : Cat → List Tok → AExpr → Prop
  | num (q) : Tight funcs .operand [.num q] (.num q)
  | x (i) : Tight funcs .operand [.x i] (.x i)
  | u (i) : Tight funcs .operand [.u i] (.u i)
  | brackets {a e} (h : Tight funcs .sum a e) : Tight funcs .operand (.lpar :: a ++ [.rpar]) e
  | call {f a e} (h : Tight funcs .sum a e) (hf : funcs f = true) : Tight funcs .operand (.fn f :: .lpar :: a ++ [.rpar]) (.app f e)
  | signed {a e} (h : Tight funcs .operand a e) : Tight funcs .signed a e
  | neg {a e} (h : Tight funcs .signed a e) : Tight funcs .signed (.minus :: a) (.neg e)
  | factor {a e} (h : Tight funcs .signed a e) : Tight funcs .factor a e
  | power {a b e f} (h : Tight funcs .signed a e) (h' : Tight funcs .factor b f) : Tight funcs .factor (a ++ .dstar :: b) (.pow e f)
  | term {a e} (h : Tight funcs .factor a e) : Tight funcs .term a e
  | mul {a b e f} (h : Tight funcs .term a e) (h' : Tight funcs .factor b f) : Tight funcs .term (a ++ .star :: b) (.mul e f)
  | div {a b e f} (h : Tight funcs .term a e) (h' : Tight funcs .factor b f) : Tight funcs .term (a ++ .slash :: b) (.div e f)
  | sum {a e} (h : Tight funcs .term a e) : Tight funcs .sum a e
  | add {a b e f} (h : Tight funcs .sum a e) (h' : Tight funcs .term b f) : Tight funcs .sum (a ++ .plus :: b) (.add e f)
  | sub {a b e f} (h : Tight funcs .sum a e) (h' : Tight funcs .term b f) : Tight funcs .sum (a ++ .minus :: b) (.sub e f)

/-- No variable occurs in the expression. -/
def Constant : AExpr → Prop
  | .num _ => True
  | .x _ | .u _ => False
  | .add a b | .sub a b | .mul a b | .div a b | .pow a b => Constant a ∧ Constant b
  | .neg a | .app _ a => Constant a

/-- Somewhere the expression divides by a constant expression that is zero, or raises one to a negative constant power. -/
def DivByZero : AExpr → Prop
  | .num _ | .x _ | .u _ => False
  | .add a b | .sub a b | .mul a b => DivByZero a ∨ DivByZero b
  | .div a b => DivByZero a ∨ DivByZero b ∨ (Constant b ∧ b.eval 0 0 = 0)
  | .pow a b => DivByZero a ∨ DivByZero b ∨ (Constant a ∧ Constant b ∧ a.eval 0 0 = 0 ∧ b.eval 0 0 < 0)
  | .neg a | .app _ a => DivByZero a

/-- Every operation in the expression is applied where it is differentiable: no division by zero, no negative power of zero, no fractional power,
logarithm or square root at a number that is not positive. -/
def SmoothAt (ρ μ : ℕ → ℝ) : AExpr → Prop
  | .num _ | .x _ | .u _ => True
  | .add a b | .sub a b | .mul a b => SmoothAt ρ μ a ∧ SmoothAt ρ μ b
  | .div a b => SmoothAt ρ μ a ∧ SmoothAt ρ μ b ∧ b.eval ρ μ ≠ 0
  | .pow a b => SmoothAt ρ μ a ∧ SmoothAt ρ μ b ∧
      ((∃ k : ℕ, b.eval ρ μ = k) ∨ (∃ k : ℤ, b.eval ρ μ = k ∧ a.eval ρ μ ≠ 0) ∨ 0 < a.eval ρ μ)
  | .neg a => SmoothAt ρ μ a
  | .app f a => SmoothAt ρ μ a ∧ (f = .log ∨ f = .sqrt → 0 < a.eval ρ μ)

/-- What a sign can follow: an opening bracket or another operator. -/
def opens : Tok → Prop
  | .lpar | .plus | .minus | .star | .slash | .dstar => True
  | _ => False

/-- Somewhere a minus sign, used as a sign and not as a subtraction, stands directly before an operand that is raised to a power. -/
def MinusPower (funcs : FName → Bool) (ts : List Tok) : Prop :=
  ∃ p a e r, ts = p ++ .minus :: a ++ .dstar :: r ∧ (∀ t, p.getLast? = some t → opens t) ∧ Tight funcs .operand a e

end Fossil.Spec

/-
Model of /repo/fossil/sympy_converter.py:20-75, the recursive conversion of a sympy expression into solver expressions.
-/
import Verif.Parser

namespace Fossil

/-- sympy function heads the converter knows (sympy_converter.py:61), and any other. -/
inductive SpFn where
  | tanh | sin | cos | exp | other
deriving DecidableEq, Repr

mutual
/-- sympy expressions by head: `Symbol`, `Number`, `Add`, `Mul` (with a first argument and further ones), `Pow`, `Function`, and anything
else (such as `pi`). -/
inductive SpExpr where
  | sym (name : String)
  | num (q : ℚ)
  | add (a : SpExpr) (as : SpArgs)
  | mul (a : SpExpr) (as : SpArgs)
  | pow (a e : SpExpr)
  | fn (f : SpFn) (a : SpExpr)
  | other
/-- `exp.args[1:]`. -/
inductive SpArgs where
  | nil
  | cons (a : SpExpr) (as : SpArgs)
end

/-- The `syms` argument: solver expressions for the symbols, and which functions are present (`"pow"` and `x**e` mean the same). -/
structure Syms where
  var : String → Option AExpr
  fn : SpFn → Option FName

/-- How numbers are produced: the `to_number` argument, and whether its results have a method `sexpr` (z3 numbers do; Python floats, the
default, do not) (sympy_converter.py:21, 28, 49). `to_number` itself is taken as a function of the value (float rounding is one). -/
structure ToNumber where
  val : ℚ → ℚ
  hasSexpr : Bool

/-- `float(e.sexpr())` followed by `assert i.is_integer()`: z3 prints a non-negative integer constant as a decimal numeral, every other
expression in brackets or as a name, on which `float` raises (sympy_converter.py:49-50). -/
def literalExponent (tn : ToNumber) (e : AExpr) : Option ℕ :=
  if tn.hasSexpr then
    match e with
    | .num q => if q.den = 1 ∧ 0 ≤ q.num then some q.num.toNat else none
    | _ => none
  else none

/-- `rv = x; for _ in range(i - 1): rv *= x` (sympy_converter.py:51-54); the range is empty for `i ≤ 1`. -/
def repeatMul (x : AExpr) (i : ℕ) : AExpr := (List.range (i - 1)).foldl (fun rv _ => .mul rv x) x

/-- The functions found by `syms.get(f.__name__)` for a known head; calling the missing entry (`None`) is a TypeError; an unknown head
leaves `rv = None`, a ValueError (sympy_converter.py:60-73). -/
def applyFn (s : Syms) (f : SpFn) (a : AExpr) : Except Err AExpr :=
  match f with
  | .other => .error .valueError
  | f =>
    match s.fn f with
    | some g => .ok (.app g a)
    | none => .error .typeError

mutual
/-- `sympy_converter(syms, exp, to_number, expand_pow)` (sympy_converter.py:20-75). -/
def spConvert (s : Syms) (tn : ToNumber) (expandPow : Bool) : SpExpr → Except Err AExpr
  | .sym n =>
    match s.var n with
    | some t => .ok t
    | none => .error .valueError
  | .num q => .ok (.num (tn.val q))
  | .add a as => do spConvertAdd s tn expandPow (← spConvert s tn expandPow a) as
  | .mul a as => do spConvertMul s tn expandPow (← spConvert s tn expandPow a) as
  | .pow a e => do
    let x ← spConvert s tn expandPow a
    let k ← spConvert s tn expandPow e
    if expandPow then
      match literalExponent tn k with
      | some i => return repeatMul x i
      | none =>
        -- fallback: the whole power again with `expand_pow=False`
        let x' ← spConvert s tn false a
        let k' ← spConvert s tn false e
        return .pow x' k'
    else return .pow x k
  | .fn f a =>
    match f with
    | .other => .error .valueError
    | f => do applyFn s f (← spConvert s tn expandPow a)
  | .other => .error .valueError
/-- `for e in exp.args[1:]: rv += ...` (sympy_converter.py:38-39). -/
def spConvertAdd (s : Syms) (tn : ToNumber) (expandPow : Bool) (rv : AExpr) : SpArgs → Except Err AExpr
  | .nil => .ok rv
  | .cons e as => do spConvertAdd s tn expandPow (.add rv (← spConvert s tn expandPow e)) as
/-- `for e in exp.args[1:]: rv *= ...` (sympy_converter.py:42-43). -/
def spConvertMul (s : Syms) (tn : ToNumber) (expandPow : Bool) (rv : AExpr) : SpArgs → Except Err AExpr
  | .nil => .ok rv
  | .cons e as => do spConvertMul s tn expandPow (.mul rv (← spConvert s tn expandPow e)) as
end

end Fossil

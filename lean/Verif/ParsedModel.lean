/-
Model of how parsed expressions become dynamical models: /repo/fossil/parser.py:59-88, 211-234, 270-286 (symbolic side),
576-607 (numeric side) and the parsed model classes of /repo/fossil/control.py:189-249.
-/
import Verif.Parser
import Mathlib.Data.Nat.Digits.Lemmas
import Mathlib.Data.List.Dedup

namespace Fossil

/-- State variables of an expression, in reading order with repetitions. -/
def AExpr.xs : AExpr → List ℕ
  | .num _ => []
  | .x i => [i]
  | .u _ => []
  | .add a b | .sub a b | .mul a b | .div a b | .pow a b => a.xs ++ b.xs
  | .neg a | .app _ a => a.xs

/-- Input variables of an expression, in reading order with repetitions. -/
def AExpr.us : AExpr → List ℕ
  | .num _ => []
  | .x _ => []
  | .u i => [i]
  | .add a b | .sub a b | .mul a b | .div a b | .pow a b => a.us ++ b.us
  | .neg a | .app _ a => a.us

/-- Decimal digits, most significant first: the characters of `str(i)`. -/
def decDigits (i : ℕ) : List ℕ := if i = 0 then [0] else (Nat.digits 10 i).reverse

/-- Python's comparison of strings of digits. -/
def lexLe : List ℕ → List ℕ → Bool
  | [], _ => true
  | _ :: _, [] => false
  | a :: as, b :: bs => if a < b then true else if b < a then false else lexLe as bs

/-- Indices in the order of the names `x0, x1, ...` sorted as strings (parser.py:282, 601-602: `sort(key=lambda s: s.name)`,
`sorted(self.us.items(), key=lambda x: x[0])`). All names have the same first letter. -/
def sortByName (l : List ℕ) : List ℕ := l.mergeSort (fun i j => lexLe (decDigits i) (decDigits j))

/-- The state symbols of a system in the order in which the numeric function takes them (parser.py:593-602). Automatic
simplification by sympy, which can make a symbol disappear, is not modelled. -/
def stateArgs (sys : List AExpr) : List ℕ := sortByName (sys.flatMap AExpr.xs).dedup

/-- The input symbols of a system in the order in which the numeric function takes them (parser.py:593-602), and in which the
symbolic substitution takes them (parser.py:282-284). -/
def inputArgs (sys : List AExpr) : List ℕ := sortByName (sys.flatMap AExpr.us).dedup

/-- Arguments by position: the symbol at position `j` of `args` is bound to entry `j`. -/
def bindArgs (args : List ℕ) (vals : List ℝ) : ℕ → ℝ := fun i => vals.getD (args.idxOf i) 0

/-- A right-hand side without variables makes the numeric model unusable: a plain number has no `free_symbols` (AttributeError while the model is
built, parser.py:595-596); a constant expression such as `sin(1)` is built, but its function does not return a tensor (TypeError in
`torch.stack`, control.py:65-67, or already in `torch.sin`). -/
def numericOk (sys : List AExpr) : Except Err Unit :=
  if sys.any AExpr.number then .error .attributeError
  else if sys.any (fun e => e.xs.isEmpty && e.us.isEmpty) then .error .typeError
  else .ok ()

/-- `_ParsedDynamicalModel.f_torch` on one state (control.py:206-207, parser.py:489-507, 604-607): the generated function unpacks its
argument into as many variables as there are symbols, a ValueError otherwise. -/
noncomputable def parsedTorch (sys : List AExpr) (p : List ℝ) : Except Err (List ℝ) := do
  numericOk sys
  if (stateArgs sys).length = p.length then
    .ok (sys.map (AExpr.eval (bindArgs (stateArgs sys) p) (fun _ => 0)))
  else .error .valueError

/-- `_ParsedControllableDynamicalModel.f_torch` on one state and input (control.py:245-246, parser.py:510-530). -/
noncomputable def parsedTorchU (sys : List AExpr) (p u : List ℝ) : Except Err (List ℝ) := do
  numericOk sys
  if (stateArgs sys).length = p.length ∧ (inputArgs sys).length = u.length then
    .ok (sys.map (AExpr.eval (bindArgs (stateArgs sys) p) (bindArgs (inputArgs sys) u)))
  else .error .valueError

/-- `_ParsedDynamicalModel.f_smt(v)` with `v` the solver variables `x0 ... x(n-1)` (control.py:209-210, parser.py:270-275):
substitution by name, a KeyError if the system does not mention some variable. -/
def parsedSmt (sys : List AExpr) (n : ℕ) : Except Err (List AExpr) :=
  if (List.range n).all (fun i => (sys.flatMap AExpr.xs).contains i) then .ok sys else .error .keyError

/-- Replace every occurrence of an input (`z3.substitute`, parser.py:282-286). -/
def AExpr.substU (σ : ℕ → AExpr) : AExpr → AExpr
  | .num q => .num q
  | .x i => .x i
  | .u i => σ i
  | .add a b => .add (a.substU σ) (b.substU σ)
  | .sub a b => .sub (a.substU σ) (b.substU σ)
  | .mul a b => .mul (a.substU σ) (b.substU σ)
  | .div a b => .div (a.substU σ) (b.substU σ)
  | .pow a b => .pow (a.substU σ) (b.substU σ)
  | .neg a => .neg (a.substU σ)
  | .app f a => .app f (a.substU σ)

/-- `f_smt(v, u)` for Z3 and CVC5 (parser.py:277-286, 314-323, control.py:248-249): input `i` in name order is replaced by
controller output `i` (an IndexError if there are fewer outputs). -/
def parsedSmtU (sys : List AExpr) (n : ℕ) (ux : List AExpr) : Except Err (List AExpr) :=
  if (List.range n).all (fun i => (sys.flatMap AExpr.xs).contains i) then
    if (inputArgs sys).length ≤ ux.length then
      .ok (sys.map (AExpr.substU (fun i => ux.getD ((inputArgs sys).idxOf i) (.u i))))
    else .error .indexError
  else .error .keyError

/-- Replace, reading from the right, the first (that is: last) occurrence of each input; `seen` are the inputs already
replaced. Returns the new expression and the inputs seen. -/
def AExpr.substLast (σ : ℕ → AExpr) : List ℕ → AExpr → AExpr × List ℕ
  | seen, .num q => (.num q, seen)
  | seen, .x i => (.x i, seen)
  | seen, .u i => if i ∈ seen then (.u i, seen) else (σ i, i :: seen)
  | seen, .add a b => let b' := substLast σ seen b; let a' := substLast σ b'.2 a; (.add a'.1 b'.1, a'.2)
  | seen, .sub a b => let b' := substLast σ seen b; let a' := substLast σ b'.2 a; (.sub a'.1 b'.1, a'.2)
  | seen, .mul a b => let b' := substLast σ seen b; let a' := substLast σ b'.2 a; (.mul a'.1 b'.1, a'.2)
  | seen, .div a b => let b' := substLast σ seen b; let a' := substLast σ b'.2 a; (.div a'.1 b'.1, a'.2)
  | seen, .pow a b => let b' := substLast σ seen b; let a' := substLast σ b'.2 a; (.pow a'.1 b'.1, a'.2)
  | seen, .neg a => let a' := substLast σ seen a; (.neg a'.1, a'.2)
  | seen, .app f a => let a' := substLast σ seen a; (.app f a'.1, a'.2)

/-- The same for a whole system, reading from the last expression. -/
def substLastSys (σ : ℕ → AExpr) : List AExpr → List AExpr × List ℕ
  | [] => ([], [])
  | e :: sys => let r := substLastSys σ sys; let e' := e.substLast σ r.2; (e'.1 :: r.1, e'.2)

/-- `f_smt(v, u)` for dReal (parser.py:344-391): `make_var` looks names up only among the state variables, so every occurrence
of an input creates a new `dreal.Variable` (dReal variables are distinct even if they have the same name) and the dictionary
remembers the last one: only that occurrence is replaced, the others stay as free variables (written `u i` here). -/
def parsedSmtUDreal (sys : List AExpr) (n : ℕ) (ux : List AExpr) : Except Err (List AExpr) :=
  if (List.range n).all (fun i => (sys.flatMap AExpr.xs).contains i) then
    if (inputArgs sys).length ≤ ux.length then
      .ok (substLastSys (fun i => ux.getD ((inputArgs sys).idxOf i) (.u i)) sys).1
    else .error .indexError
  else .error .keyError

end Fossil

/-
Deep embedding of the symbolic terms and formulas that Fossil builds with the Python operators of
z3 / dReal / cvc5 / sympy, and their standard meaning over the reals.
-/
import Mathlib.Analysis.SpecialFunctions.Trigonometric.Deriv
import Mathlib.Analysis.SpecialFunctions.Log.Deriv

namespace Fossil

/-- Unary functions occurring in solver expressions (consts.py:281-333 function tables;
activations.py). `step` is `If(x > 0, 1, 0)` (activations.py:91), `relu` is `If(x > 0, x, 0)` /
`Max(x, 0)` (consts.py:286, 300, 321). -/
inductive Fn where
  | sin | cos | exp | log | tanh | sinh | cosh | relu | step
deriving DecidableEq, Repr

/-- Symbolic arithmetic terms. Constants are rationals: every finite float is one.
Variable `i` is the `i`-th entry of the list of solver variables (verifier.py:302, 382, 431). -/
inductive Term where
  | var (i : ℕ)
  | const (c : ℚ)
  | add (a b : Term)
  | sub (a b : Term)
  | mul (a b : Term)
  | div (a b : Term)
  | neg (a : Term)
  | pow (a : Term) (k : ℤ)
  | app (f : Fn) (a : Term)
deriving DecidableEq, Repr

/-- Quantifier-free formulas. -/
inductive Formula where
  | tt
  | ff
  | le (a b : Term)
  | lt (a b : Term)
  | eq (a b : Term)
  | not (φ : Formula)
  | and (φ ψ : Formula)
  | or (φ ψ : Formula)
deriving DecidableEq, Repr

/-- Assignment of real values to the solver variables. -/
abbrev Env := ℕ → ℝ

/-- Meaning of the unary functions. -/
noncomputable def Fn.eval : Fn → ℝ → ℝ
  | .sin, x => Real.sin x
  | .cos, x => Real.cos x
  | .exp, x => Real.exp x
  | .log, x => Real.log x
  | .tanh, x => Real.tanh x
  | .sinh, x => Real.sinh x
  | .cosh, x => Real.cosh x
  | .relu, x => max x 0
  | .step, x => if 0 < x then 1 else 0

/-- Value of a term under an assignment. -/
noncomputable def Term.eval (ρ : Env) : Term → ℝ
  | .var i => ρ i
  | .const c => (c : ℝ)
  | .add a b => a.eval ρ + b.eval ρ
  | .sub a b => a.eval ρ - b.eval ρ
  | .mul a b => a.eval ρ * b.eval ρ
  | .div a b => a.eval ρ / b.eval ρ
  | .neg a => - a.eval ρ
  | .pow a k => a.eval ρ ^ k
  | .app f a => f.eval (a.eval ρ)

/-- Truth of a formula under an assignment. -/
def Formula.holds (ρ : Env) : Formula → Prop
  | .tt => True
  | .ff => False
  | .le a b => a.eval ρ ≤ b.eval ρ
  | .lt a b => a.eval ρ < b.eval ρ
  | .eq a b => a.eval ρ = b.eval ρ
  | .not φ => ¬ φ.holds ρ
  | .and φ ψ => φ.holds ρ ∧ ψ.holds ρ
  | .or φ ψ => φ.holds ρ ∨ ψ.holds ρ

/-- `And(*list)`; `And()` is true. -/
def Formula.conj : List Formula → Formula
  | [] => .tt
  | [φ] => φ
  | φ :: φs => .and φ (conj φs)

/-- `Or(*list)`; `Or()` is false. -/
def Formula.disj : List Formula → Formula
  | [] => .ff
  | [φ] => φ
  | φ :: φs => .or φ (disj φs)

/-- Python's `sum(list)` over symbolic terms: left fold from `0`. -/
def Term.sum (ts : List Term) : Term := ts.foldl Term.add (.const 0)

/-! ### evaluation lemmas -/

@[simp] theorem Formula.holds_conj (ρ : Env) (l : List Formula) :
    (Formula.conj l).holds ρ ↔ ∀ φ ∈ l, φ.holds ρ := by
  induction l with
  | nil => simp [conj, holds]
  | cons φ l ih =>
    cases l with
    | nil => simp [conj]
    | cons ψ l => simp only [conj, holds, ih, List.forall_mem_cons]

@[simp] theorem Formula.holds_disj (ρ : Env) (l : List Formula) :
    (Formula.disj l).holds ρ ↔ ∃ φ ∈ l, φ.holds ρ := by
  induction l with
  | nil => simp [disj, holds]
  | cons φ l ih =>
    cases l with
    | nil => simp [disj]
    | cons ψ l => simp only [disj, holds, ih, List.exists_mem_cons_iff]

theorem Term.eval_foldl_add (ρ : Env) (ts : List Term) (t : Term) :
    (ts.foldl Term.add t).eval ρ = t.eval ρ + (ts.map (Term.eval ρ)).sum := by
  induction ts generalizing t with
  | nil => simp
  | cons a ts ih => simp [ih, eval, add_assoc]

@[simp] theorem Term.eval_sum (ρ : Env) (ts : List Term) :
    (Term.sum ts).eval ρ = (ts.map (Term.eval ρ)).sum := by
  simp [Term.sum, eval_foldl_add, eval]

/-- The solver variables `x0 … x(n-1)` (verifier.py:302 etc.). -/
def vars (n : ℕ) : List Term := (List.range n).map Term.var

@[simp] theorem length_vars (n : ℕ) : (vars n).length = n := by simp [vars]

/-- A state of an `n`-dimensional system. -/
abbrev Pt (n : ℕ) := Fin n → ℝ

/-- Assignment giving the solver variables the coordinates of a state. -/
def Pt.env {n : ℕ} (p : Pt n) : Env := fun i => if h : i < n then p ⟨i, h⟩ else 0

@[simp] theorem Pt.env_fin {n : ℕ} (p : Pt n) (i : Fin n) : p.env i = p i := by simp [Pt.env]

theorem Pt.env_lt {n : ℕ} (p : Pt n) {i : ℕ} (h : i < n) : p.env i = p ⟨i, h⟩ := by
  simp [Pt.env, h]

end Fossil

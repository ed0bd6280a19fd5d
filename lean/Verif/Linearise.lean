/-
Model of /repo/fossil/control.py:428-527: `Lineariser`, `EigenCalculator`, `LQR`.
-/
import Verif.Candidate
import Mathlib.LinearAlgebra.Matrix.Charpoly.Basic
import Mathlib.LinearAlgebra.Matrix.NonsingularInverse
import Mathlib.Data.Complex.Basic
import Mathlib.Algebra.Polynomial.Roots

namespace Fossil

/-- Assignment with all states `0` and the inputs `μ`: the symbol `x_i` is variable `i`, the symbol `u_j` is variable `n + j`
(control.py:441-442). -/
def originEnv (n : ℕ) (μ : ℕ → ℝ) : Env := fun i => if i < n then 0 else μ (i - n)

open Classical in
/-- `_check_zero` (control.py:454-461): a ValueError if some right-hand side is not zero with all states and inputs zero. sympy decides this
on the expression after substitution; it is modelled by the value. `f` is what `get_model` (447-452) returns: `model(x)` or, if
that raises a TypeError, `model(x, u)`. -/
noncomputable def checkZero (f : List Term) : Except Err Unit :=
  if ∃ t ∈ f, t.eval (fun _ => 0) ≠ 0 then .error .valueError else .ok ()

/-- `sp.Matrix(self.get_model()).jacobian(self.x)` (control.py:463-466): row `i`, column `j` is the derivative of right-hand side `i` by `x_j`.
The sympy function table (consts.py: SP_FNCS) has smooth functions only; the rules are those of `Term.diff`. -/
def jacobian (n : ℕ) (f : List Term) : Except Err (List (List Term)) :=
  f.mapM (fun t => (List.range n).mapM (fun j => t.diff j))

open Classical in
/-- One entry of `np.array(J_0).astype(np.float64)` where `J_0 = J.subs([(x, 0) for x in self.x])` (control.py:471-472): only the states are
replaced, an entry in which an input symbol is left cannot be converted (TypeError). Whether an input symbol is left after sympy's simplification is
modelled as: whether the value depends on the inputs. -/
noncomputable def entryFloat (n : ℕ) (D : Term) : Except Err ℝ :=
  if ∀ μ μ' : ℕ → ℝ, D.eval (originEnv n μ) = D.eval (originEnv n μ') then .ok (D.eval (originEnv n 0)) else .error .typeError

/-- `Lineariser(model).linearise()` (control.py:432-445, 468-472). -/
noncomputable def linearise (n : ℕ) (f : List Term) : Except Err (List (List ℝ)) := do
  checkZero f
  let J ← jacobian n f
  J.mapM (fun r => r.mapM (entryFloat n))

/-- A list of rows as a matrix. -/
def matOf (n : ℕ) (A : List (List ℝ)) : Matrix (Fin n) (Fin n) ℝ := fun i j => (A.getD i []).getD j 0

/-- `np.linalg.eigvals(A)` (control.py:483-485): the complex roots of the characteristic polynomial with multiplicity. -/
noncomputable def eigs {n : ℕ} (A : Matrix (Fin n) (Fin n) ℝ) : List ℂ := (A.map Complex.ofReal).charpoly.roots.toList

/-- `is_stable` (control.py:491-493). -/
noncomputable def isStable {n : ℕ} (A : Matrix (Fin n) (Fin n) ℝ) : Bool := (eigs A).all (fun e => decide (e.re < 0))

/-- `is_sufficiently_stable` (control.py:495-497). -/
noncomputable def isSufficientlyStable {n : ℕ} (A : Matrix (Fin n) (Fin n) ℝ) : Bool := (eigs A).all (fun e => decide (e.re < -1))

/-- `get_worst_pole` (control.py:499-501): `max` of an empty list is a ValueError. -/
noncomputable def worstPole {n : ℕ} (A : Matrix (Fin n) (Fin n) ℝ) : Except Err ℝ :=
  match (eigs A).map Complex.re with
  | [] => .error .valueError
  | r :: rs => .ok (rs.foldl max r)

/-- `LQR(A, B, Q, R).solve()` (control.py:507-527): missing `B` fails at `B.shape` (AttributeError), missing `Q`, `R` are identities;
`care` is `scipy.linalg.solve_continuous_are`, the inverse is `np.linalg.inv`, which raises on singular matrices (LinAlgError, a
ValueError). -/
noncomputable def lqrSolve {n m : ℕ}
    (care : Matrix (Fin n) (Fin n) ℝ → Matrix (Fin n) (Fin m) ℝ → Matrix (Fin n) (Fin n) ℝ → Matrix (Fin m) (Fin m) ℝ →
      Except Err (Matrix (Fin n) (Fin n) ℝ))
    (A : Matrix (Fin n) (Fin n) ℝ) (B : Option (Matrix (Fin n) (Fin m) ℝ)) (Q : Option (Matrix (Fin n) (Fin n) ℝ))
    (R : Option (Matrix (Fin m) (Fin m) ℝ)) : Except Err (Matrix (Fin m) (Fin n) ℝ) :=
  match B with
  | none => .error .attributeError
  | some B => do
    let Q := Q.getD 1
    let R := R.getD 1
    let P ← care A B Q R
    if R.det = 0 then .error .valueError else .ok (R⁻¹ * B.transpose * P)

end Fossil

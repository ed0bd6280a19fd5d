/-
Model of /repo/fossil/consolidator.py: the search for a trajectory of further counterexamples.
-/
import Verif.Cegis
import Mathlib.Data.Real.Basic
import Mathlib.Algebra.Order.Module.Defs
import Mathlib.Algebra.Module.Pi

namespace Fossil

variable {n : ℕ}

/-- The break conditions (consolidator.py:53-58), for the previous value of the Lie derivative, the current one and the
current gradient. -/
def breakNow (old v : ℝ) (g : Fin n → ℝ) : Prop :=
  v < old ∨ |old - v| < 1/100000 ∨ 1000000 < v ∨ ∃ i, 100 < |g i|

open Classical in
/-- The loop `for gradient_loop in range(max_iters)` (consolidator.py:49-65): `grad p` is the pair (gradient, value) of the
Lie derivative at `p` (`compute_Vdot_grad`, consolidator.py:70-81). Returns the points appended to the trajectory. The
NaN assertion (line 67) concerns floating point and is not modelled. -/
noncomputable def trajLoop (grad : (Fin n → ℝ) → (Fin n → ℝ) × ℝ) : ℕ → (Fin n → ℝ) → ℝ → List (Fin n → ℝ)
  | 0, _, _ => []
  | k + 1, p, old =>
    if breakNow old (grad p).2 (grad p).1 then []
    else (p + (1/20 : ℝ) • (grad p).1) :: trajLoop grad k (p + (1/20 : ℝ) • (grad p).1) (grad p).2

/-- `compute_trajectory` (consolidator.py:34-68): step size 0.05, at most 20 steps, previous value initially -1. -/
noncomputable def computeTrajectory (grad : (Fin n → ℝ) → (Fin n → ℝ) × ℝ) (p : Fin n → ℝ) : List (Fin n → ℝ) :=
  p :: trajLoop grad 20 p (-1)

/-- `Consolidator.get` (consolidator.py:22-28): the first label containing "lie" with counterexamples; `cex[-1]` is its
last row. -/
noncomputable def consolidate (grad : (Fin n → ℝ) → (Fin n → ℝ) × ℝ) :
    Dict String (List (Fin n → ℝ)) → List (Fin n → ℝ)
  | [] => []
  | (l, rows) :: rest =>
    if hasLie l then
      match rows.getLast? with
      | some p => computeTrajectory grad p
      | none => consolidate grad rest
    else consolidate grad rest

end Fossil

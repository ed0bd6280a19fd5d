/-
Model of /repo/fossil/verifier.py: the verification loop and the answers of the SMT back-ends.
-/
import Verif.Py
import Verif.Smt

namespace Fossil

/-- How a back-end classifies the results of its solver calls (`is_sat` / `is_unsat`,
verifier.py:92-98), and how it reads the value of each solver variable from a satisfying result
(`compute_model`, verifier.py:219-233). -/
structure Backend (R : Type) where
  isSat : R → Bool
  isUnsat : R → Bool
  /-- `_model_result(solver, model, x, i)` for variable `i`; raises when the model has no value. -/
  value : R → ℕ → Except Err ℚ

/-- A value in a z3/cvc5 model: rational, or an irrational algebraic number with its 10-digit rational
approximation (`.approx(10)`, verifier.py:414, 418, 488, 492). -/
inductive MVal where
  | rat (q : ℚ)
  | alg (exact : ℝ) (approx : ℚ)

/-- Answer of z3 / cvc5 `solver.check()`: `sat` with a model (variables may be missing), `unsat`
or `unknown` (e.g. after the 30 s timeout, verifier.py:71, 209). -/
inductive Answer where
  | sat (model : ℕ → Option MVal)
  | unsat
  | unknown

/-- `is_sat` of VerifierZ3 / VerifierCVC5 (verifier.py:401-402, 474-475). -/
def Answer.isSat : Answer → Bool
  | .sat _ => true
  | _ => false

/-- `is_unsat` of VerifierZ3 / VerifierCVC5 (verifier.py:404-405, 477-478). -/
def Answer.isUnsat : Answer → Bool
  | .unsat => true
  | _ => false

/-- `_model_result` of VerifierZ3 / VerifierCVC5 (verifier.py:414-423, 488-497). A variable missing from
the model is `None`, on which both `.as_fraction()` and `.approx(10)` raise AttributeError. -/
def Answer.value : Answer → ℕ → Except Err ℚ
  | .sat m, i => match m i with
    | some (.rat q) => .ok q
    | some (.alg _ q) => .ok q
    | none => .error .attributeError
  | _, _ => .error .runtimeError

/-- VerifierZ3 and VerifierCVC5 behave alike. -/
def smtBackend : Backend Answer := ⟨Answer.isSat, Answer.isUnsat, Answer.value⟩

/-- A dReal box, as the midpoints of the intervals of the variables occurring in the query:
`(index, mid)` pairs in the order of the box (verifier.py:333-337, 358). -/
abbrev Box := List (ℕ × ℚ)

/-- `in_bounds(var, n)`: `-1e300 < n < 1e300` (verifier.py:282-284 with VARS_BOUNDS, 57). -/
def inBounds (n : ℚ) : Bool := decide (-(10 : ℚ) ^ 300 < n) && decide (n < 10 ^ 300)

/-- `within_bounds(res)` (verifier.py:333-337). -/
def withinBounds : Option Box → Bool
  | none => false
  | some bx => bx.all (fun p => inBounds p.2)

/-- `is_sat` of VerifierDReal: the result is a Box (verifier.py:321-322). -/
def drealIsSat (r : Option Box) : Bool := r.isSome

/-- `is_unsat` of VerifierDReal: `res is None or not within_bounds(res)` (verifier.py:328-331). -/
def drealIsUnsat (r : Option Box) : Bool := r.isNone || !withinBounds r

/-- `_model_result` of VerifierDReal: `float(model[idx].mid())` (verifier.py:357-358). `Box.__getitem__` with an integer is positional: entry `idx` of the
box, whichever variable that is. Beyond the end of the box the behaviour of the C++ library is undefined; modelled as an IndexError. -/
def drealValue (r : Option Box) (i : ℕ) : Except Err ℚ :=
  match r with
  | none => .error .assertionError
  | some bx => match bx[i]? with
    | some p => .ok p.2
    | none => .error .indexError

def drealBackend : Backend (Option Box) := ⟨drealIsSat, drealIsUnsat, drealValue⟩

/-- The second-chance query: `And(fml, *(And(x < 1e3, x > -1e3) for x in xs))`
(verifier.py:346-350, DREAL_SECOND_CHANCE_BOUND 58). -/
def secondChance (n : ℕ) (φ : Formula) : Formula :=
  .conj (φ :: (vars n).map (fun x => .and (.lt x (.const 1000)) (.lt (.const (-1000)) x)))

/-- `VerifierDReal._solver_solve` (verifier.py:339-351). `check` is `dr.CheckSatisfiability`, an oracle
that may answer differently at each of the two calls. -/
def drealSolve (n : ℕ) (check : ℕ → Formula → Option Box) (φ : Formula) : Option Box :=
  let res := check 0 φ
  if drealIsSat res && !withinBounds res then check 1 (secondChance n φ) else res

/-- What `verify` returns (verifier.py:166): only `found` and `cex`. -/
structure VerifyOut where
  found : Bool
  cex : Dict String (List (List ℚ))

/-- Solver oracle: answer at the k-th call of the run on a formula. Different calls may be answered
differently even for the same formula. -/
abbrev Oracle (R : Type) := ℕ → Formula → R

section
variable {R : Type}

/-- Inner loop `for label, condition in group.items()` (verifier.py:134-141). Returns the number of
solver calls so far and the result dictionary. -/
def solveGroup (o : Oracle R) : ℕ → Dict String R → Dict String Formula → ℕ × Dict String R
  | k, results, [] => (k, results)
  | k, results, (label, φ) :: g => solveGroup o (k + 1) (results.set label (o k φ)) g

/-- Outer loop `for group in fmls` with `break` once some result is sat (verifier.py:133-143). -/
def solveGroups (B : Backend R) (o : Oracle R) :
    ℕ → Dict String R → List (Dict String Formula) → ℕ × Dict String R
  | k, results, [] => (k, results)
  | k, results, g :: gs =>
    let (k, results) := solveGroup o k results g
    if results.values.any B.isSat then (k, results) else solveGroups B o k results gs

/-- `compute_model` (verifier.py:219-233): the value of each of the `n` solver variables. -/
def computeModel (B : Backend R) (n : ℕ) (r : R) : Except Err (List ℚ) := do
  let rec go : List ℕ → Except Err (List ℚ)
    | [] => .ok []
    | i :: is => do
      let v ← B.value r i
      let vs ← go is
      return v :: vs
  go (List.range n)

/-- `randomise_counterex` (verifier.py:237-251): 20 perturbed copies, then the point itself. The noise
(`5e-4 * torch.randn`) is a parameter. -/
def randomise (noise : ℕ → ℕ → ℚ) (pt : List ℚ) : List (List ℚ) :=
  (List.range 20).map (fun j => pt.mapIdx (fun i v => v + noise j i)) ++ [pt]

/-- The counterexample part `for index, o in enumerate(results.items())` (verifier.py:150-164). -/
def fillCex (B : Backend R) (n : ℕ) (noise : String → ℕ → ℕ → ℚ) :
    Dict String R → Dict String (List (List ℚ)) → Except Err (Dict String (List (List ℚ)))
  | [], ces => .ok ces
  | (label, r) :: rest, ces =>
    if B.isSat r then do
      let pt ← computeModel B n r
      fillCex B n noise rest (ces.set label (randomise (noise label) pt))
    else fillCex B n noise rest ces

/-- `Verifier.verify` (verifier.py:118-166). `groups` is what the certificate's `get_constraints`
generator yields. The solver is the oracle `o`. Logging (`replace_point` at 158-162) is not
modelled. -/
def verify (B : Backend R) (n : ℕ) (noise : String → ℕ → ℕ → ℚ) (o : Oracle R)
    (groups : List (Dict String Formula)) : Except Err VerifyOut :=
  let results := (solveGroups B o 0 [] groups).2
  let ces : Dict String (List (List ℚ)) := results.map (fun p => (p.1, []))
  if results.values.all B.isUnsat then .ok ⟨true, ces⟩
  else do
    let ces ← fillCex B n noise results ces
    return ⟨false, ces⟩

end

/-- `VerifierNone.verify` (verifier.py:603-604). -/
def verifyNone : VerifyOut := ⟨true, []⟩

end Fossil

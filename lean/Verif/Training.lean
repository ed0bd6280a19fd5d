/-
Model of what training evaluates: /repo/fossil/learner.py:20-26 (`QuadraticFactor`), 150-215 (`compute_net_gradnet`,
`compute_V_gradV`, `compute_factors`), 217-251 (`compute_minimum`, `compute_maximum`), 329-368 (`LearnerCT.get_all`, `compute_dV`),
374-403 (`LearnerDT.get_all`). Reals instead of floats; samples are rows. Reverse-mode differentiation (`torch.autograd.grad`) is
modelled by the backward formulas torch documents for the operations in `forward`.
-/
import Verif.Net

namespace Fossil

/-- Local derivatives used in the backward pass of the activations (the `forward`s of activations.py:60-345 are built from torch's
relu, pow, tanh, sigmoid, softplus, cosh and cat): for relu 0 at 0, for `pow(x, 0)` zero. -/
noncomputable def Act.localGrad (a : Act) (x : List ℝ) : List ℝ :=
  match a with
  | .identity => x.map (fun _ => 1)
  | .relu => x.map (fun t => if 0 < t then 1 else 0)
  | .square => x.map (fun t => 2 * t)
  | .poly2 => (x.take (x.length / 2)).map (fun _ => 1) ++ (x.drop (x.length / 2)).map (fun t => 2 * t)
  | .tanh => x.map (fun t => 1 - Real.tanh t ^ 2)
  | .tanhSquared => x.map (fun t => 2 * Real.tanh t * (1 - Real.tanh t ^ 2))
  | .sigmoid => x.map (fun t => 1 / (1 + Real.exp (-t)) * (1 - 1 / (1 + Real.exp (-t))))
  | .softplus | .shiftedSoftplus => x.map (fun t => Real.exp t / (1 + Real.exp t))
  | .shiftedSoftplusSquare =>
    x.map (fun t => 2 * (Real.log (1 + Real.exp t) - Real.log 2) * (Real.exp t / (1 + Real.exp t)))
  | .cosh => x.map Real.sinh
  | .polyN n => polyCat (fun i t => (i + 1) * t ^ i) (polyParts n x)
  | .evenPolyN n => polyCat (fun i t => if i = 0 then 0 else 2 * i * t ^ (2 * i - 1)) (polyParts n x)

/-- Backward pass of a linear map: `g @ W`, one entry for each of the `m` inputs. -/
noncomputable def vecMat (m : ℕ) (g : List ℝ) (w : List (List ℚ)) : List ℝ :=
  (List.range m).map (fun i => (List.zipWith (fun (a : ℝ) (r : List ℚ) => a * ((r.getD i 0 : ℚ) : ℝ)) g w).sum)

/-- Backward pass of the whole network at the hidden value `y`: the gradient of column 0 of the output with respect to `y`; `r` is
row 0 of the output layer. -/
noncomputable def backHidden (r : List ℚ) : List Layer → List Act → List ℝ → Except Err (List ℝ)
  | [], _, _ => .ok (r.map (fun c : ℚ => (c : ℝ)))
  | _ :: _, [], _ => .error .indexError
  | l :: ls, a :: as, y =>
    match backHidden r ls as (a.forward (l.apply y)) with
    | .error e => .error e
    | .ok g => .ok (vecMat y.length (List.zipWith (· * ·) g (a.localGrad (l.apply y))) l.weight)

/-- `compute_net_gradnet` on one row (learner.py:150-169). -/
noncomputable def netGradnet (net : Net) (x : List ℝ) : Except Err (ℝ × List ℝ) := do
  let y ← net.forward x
  match net.layers.getLast? with
  | none => .error .indexError
  | some last =>
    let r ← at? last.weight 0
    let g ← backHidden r net.layers.dropLast net.acts x
    return (y, g)

/-- `QuadraticFactor.forward` on one row (learner.py:21-22); also `circle` (learner.py:352, 394). -/
noncomputable def circleOf (x : List ℝ) : ℝ := (x.map (· ^ 2)).sum

/-- `compute_V_gradV` on one row (learner.py:171-200). -/
noncomputable def computeVgradV (quad : Bool) (nn : ℝ) (g x : List ℝ) : ℝ × List ℝ :=
  if quad then (nn * circleOf x, List.zipWith (fun gj xj => nn * (2 * xj) + gj * circleOf x) g x)
  else (nn * 1, g)

/-- `compute_dV` on one row (learner.py:358-368): a RuntimeError if the widths differ (broadcasting from width one is not modelled). -/
noncomputable def computeDV (g d : List ℝ) : Except Err ℝ :=
  if g.length = d.length then .ok (List.zipWith (· * ·) g d).sum else .error .runtimeError

/-- One row of `LearnerCT.get_all`. -/
noncomputable def getRowCT (net : Net) (quad : Bool) (x d : List ℝ) : Except Err (ℝ × ℝ × ℝ) := do
  let (nn, g) ← netGradnet net x
  let r := computeVgradV quad nn g x
  let dv ← computeDV r.2 d
  return (r.1, dv, circleOf x)

/-- All rows. -/
noncomputable def getRowsCT (net : Net) (quad : Bool) : List (List ℝ) → List (List ℝ) → Except Err (List (ℝ × ℝ × ℝ))
  | x :: S, d :: Sdot => do
    let r ← getRowCT net quad x d
    let rs ← getRowsCT net quad S Sdot
    return r :: rs
  | _, _ => .ok []

/-- `LearnerCT.get_all(S, Sdot)` (learner.py:329-356): the triple of columns, as a list of triples. -/
noncomputable def getAllCT (net : Net) (quad : Bool) (S Sdot : List (List ℝ)) : Except Err (List (ℝ × ℝ × ℝ)) :=
  if S.length = Sdot.length then getRowsCT net quad S Sdot else .error .assertionError

/-- One row of `LearnerDT.get_all` (learner.py:390-403): the factor is computed (line 396) and not used. -/
noncomputable def getRowDT (net : Net) (x d : List ℝ) : Except Err (ℝ × ℝ × ℝ) := do
  let nn ← net.forward x
  let nn' ← net.forward d
  return (nn, nn' - nn, circleOf x)

/-- `LearnerDT.get_all(S, Sdot)` (learner.py:374-403), for batches of equal length (the subtraction raises RuntimeError otherwise;
broadcasting from one row is not modelled). -/
noncomputable def getAllDT (net : Net) (S Sdot : List (List ℝ)) : Except Err (List (ℝ × ℝ × ℝ)) :=
  if S.length = Sdot.length then (S.zip Sdot).mapM (fun e => getRowDT net e.1 e.2) else .error .runtimeError

/-- `torch.max(C, 0)`: value and index of the first maximal entry (an IndexError for no samples). -/
noncomputable def maxIdx : List ℝ → Except Err (ℝ × ℕ)
  | [] => .error .indexError
  | [c] => .ok (c, 0)
  | c :: cs =>
    match maxIdx cs with
    | .error e => .error e
    | .ok (v, k) => if c < v then .ok (v, k + 1) else .ok (c, 0)

/-- `compute_maximum(S)` (learner.py:235-251): of the network output, without the factor. LearnLoop.lean has the same function for an arbitrary output. -/
noncomputable def Net.computeMaximum (net : Net) (S : List (List ℝ)) : Except Err (ℝ × List ℝ) := do
  let C ← S.mapM net.forward
  let (v, k) ← maxIdx C
  let x ← at? S k
  return (v, x)

end Fossil

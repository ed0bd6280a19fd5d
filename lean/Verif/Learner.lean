/-
Model of the parts of /repo/fossil/learner.py that concern the shape of the network: the last-layer-ones (LLO)
option, positive-definiteness test and the absolute-value projection.
-/
import Verif.Net

namespace Fossil

/-- `act.TYPE in pd_acts` (learner.py:281-293), on activation objects (their TYPE attributes,
activations.py:63-313). -/
def Act.isPD : Act → Bool
  | .relu | .softplus | .square | .cosh | .sigmoid | .evenPolyN _ | .tanhSquared | .shiftedSoftplusSquare => true
  | _ => false

/-- `is_positive_definite` (learner.py:269-294). Indexing `[-1]` of an empty tuple raises IndexError. -/
def Net.isPositiveDefinite (net : Net) : Except Err Bool :=
  match net.acts.getLast?, net.layers.getLast? with
  | some a, some l => .ok (a.isPD && l.bias.isNone)
  | _, _ => .error .indexError

/-- `"POLY" in name or "SQUARE" in name` for the name of the activation's TYPE (learner.py:296-301). -/
def Act.isPolynomialName : Act → Bool
  | .square | .poly2 | .tanhSquared | .shiftedSoftplusSquare | .polyN _ | .evenPolyN _ => true
  | _ => false

/-- `_take_abs = config.LLO and not is_final_polynomial()` (learner.py:61): Python short-circuits, so with
LLO off the (possibly empty) activation tuple is not inspected. -/
def takeAbs (llo : Bool) (acts : List Act) : Except Err Bool :=
  if llo then
    match acts.getLast? with
    | some a => .ok (!a.isPolynomialName)
    | none => .error .indexError
  else .ok false

/-- The output layer `nn.Linear(n_prev, 1, bias)` created by the constructor from torch's random
initialisation `w` (`b` for the bias), with the weights replaced by ones under LLO without `_take_abs`
(learner.py:75-84). -/
def initLastLayer (llo takeAbs bias : Bool) (w : List ℚ) (b : ℚ) : Layer :=
  ⟨[if llo && !takeAbs then w.map (fun _ => 1) else w], if bias then some [b] else none⟩

/-- `make_final_layer_positive` (learner.py:112-115) on a list of layers. -/
def makeFinalPositive : List Layer → List Layer
  | [] => []
  | [l] => [⟨l.weight.map (fun r => r.map (fun c => |c|)), l.bias⟩]
  | l :: ls => l :: makeFinalPositive ls

/-- `if LLO and not is_positive_definite(): warn(...)` (learner.py:85-86): construction continues either way.
Returns whether a warning is issued. -/
def lloWarning (llo : Bool) (net : Net) : Except Err Bool :=
  if llo then do
    let b ← net.isPositiveDefinite
    return !b
  else .ok false

end Fossil

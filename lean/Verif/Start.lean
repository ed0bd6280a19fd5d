/-
Model of what a run starts with: `_initialise_data` (/repo/fossil/cegis.py:122-124), the data, and `_initialise_learner` (cegis.py:56-69, 390-423;
learner.py:40-88), the network.
-/
import Verif.Cli
import Verif.Learner
import Verif.Controller
import Verif.Cegis

namespace Fossil

/-- `{key: S() for key, S in self.config.DATA.items()}` (cegis.py:122-124): every data source is called, in order. `g k` are the random draws of call `k`; `fl`
is the rounding to floats. -/
noncomputable def initData (fl : ℝ → ℚ) : (ℕ → Rng) → Dict String Src → Except Err (Dict String (List (List ℚ)))
  | _, [] => .ok []
  | g, (l, src) :: rest => do
    let rows ← src.sample (g 0)
    let S ← initData fl (fun k => g (k + 1)) rest
    return (l, rows.map (List.map fl)) :: S

/-- `tuple(activation_fcn(act) for act in activation)` (learner.py:53). For an unknown member `activation_fcn` returns `None`, whose first use raises
AttributeError; simplification: raised here. -/
def actsOf : List ActivationType → Except Err (List Act)
  | [] => .ok []
  | a :: as => match activationFcn a with
    | none => .error .attributeError
    | some x => (actsOf as).map (x :: ·)

/-- The hidden layers `nn.Linear(n_prev, n_hid, bias)` (learner.py:65-73); `w k i j` and `b k i` are torch's random initial values of layer `k`. -/
def hiddenLayers (bias : Bool) (w : ℕ → ℕ → ℕ → ℚ) (b : ℕ → ℕ → ℚ) : ℕ → ℕ → List ℕ → List Layer
  | _, _, [] => []
  | k, prev, m :: ms => ⟨initMat w k m prev, if bias then some ((List.range m).map (b k)) else none⟩ :: hiddenLayers bias w b (k + 1) m ms

/-- `n_prev` after the loop over the hidden layers (learner.py:65-73). -/
def lastWidth : ℕ → List ℕ → ℕ
  | prev, [] => prev
  | _, m :: ms => lastWidth m ms

/-- `LearnerNN(N_VARS, …, *N_HIDDEN_NEURONS, activation=ACTIVATION, bias=…, config)` (learner.py:40-88, called in cegis.py:62-69, 395-414). -/
def newNet (n : ℕ) (hidden : List ℕ) (acts : List ActivationType) (llo bias : Bool) (w : ℕ → ℕ → ℕ → ℚ) (b : ℕ → ℕ → ℚ) : Except Err Net := do
  let as ← actsOf acts
  let ta ← takeAbs llo as
  let net : Net := ⟨n, hiddenLayers bias w b 0 n hidden ++
    [initLastLayer llo ta bias ((List.range (lastWidth n hidden)).map (w hidden.length 0)) (b hidden.length 0)], as⟩
  let _ ← lloWarning llo net
  return net

/-- `certificate.bias` of the certificates with one network (certificate.py:77, 162, 332, 511, 719, 913, 1128). -/
def certBias : CertType → Bool
  | .LYAPUNOV | .ROA => false
  | _ => true

/-- `certificate.bias` of the certificates with two networks (certificate.py:1341, 1463). -/
def certBias2 : CertType → Bool × Bool
  | .STABLESAFE => (certBias .ROA, certBias .BARRIER)
  | _ => (certBias .RWS, certBias .BARRIER)

end Fossil

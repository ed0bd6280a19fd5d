/-
Model of the control network and of the closed loop: /repo/fossil/control.py:134-187, 213-249, 252-370 and
/repo/fossil/cegis.py:82-99.
-/
import Verif.Net
import Verif.ParsedModel

namespace Fossil

/-- A weight matrix, rows = outputs (`torch.nn.Linear(..., bias=False).weight`, control.py:271, 277). -/
abbrev Mat := List (List ℚ)

/-- `GeneralController` (control.py:252-280): bias-free layers, the output layer last; an activation that `activation_fcn` does not
know is `None`. -/
structure Controller where
  layers : List Mat
  acts : List (Option Act)
deriving DecidableEq, Repr

/-- Random initial weights of a `torch.nn.Linear(cols, rows, bias=False)`. -/
def initMat (w : ℕ → ℕ → ℕ → ℚ) (k rows cols : ℕ) : Mat :=
  (List.range rows).map (fun i => (List.range cols).map (w k i))

/-- The layers created by the loop of the constructor, starting with number `k` and input width `prev`, and the last width
(control.py:269-276). -/
def hiddenMats (w : ℕ → ℕ → ℕ → ℚ) : ℕ → ℕ → List ℕ → List Mat × ℕ
  | _, prev, [] => ([], prev)
  | k, prev, m :: ms => let r := hiddenMats w (k + 1) m ms; (initMat w k m prev :: r.1, r.2)

/-- `GeneralController.__init__` (control.py:260-280): `k + 1` is read after the loop, so a controller without hidden layers raises
(UnboundLocalError, a NameError). -/
def newController (w : ℕ → ℕ → ℕ → ℚ) (inputs output : ℕ) (layers : List ℕ) (acts : List ActivationType) :
    Except Err Controller :=
  match layers with
  | [] => .error .nameError
  | _ :: _ => .ok ⟨(hiddenMats w 0 inputs layers).1 ++ [initMat w layers.length output (hiddenMats w 0 inputs layers).2],
      acts.map activationFcn⟩

/-- The controller part of `_initialise_system` (cegis.py:82-95): `CTRLAYER[-1]` outputs, `CTRLAYER[:-1]` hidden widths; no
controller if `CTRLAYER` is empty. -/
def controllerOf (w : ℕ → ℕ → ℕ → ℚ) (nVars : ℕ) (ctrlayer : List ℕ) (acts : List ActivationType) :
    Except Err (Option Controller) :=
  match ctrlayer.getLast? with
  | none => .ok none
  | some out =>
    match newController w nVars out ctrlayer.dropLast acts with
    | .error e => .error e
    | .ok c => .ok (some c)

/-- `layer(y)` on one row (control.py:285, 287): a RuntimeError if the widths do not match. -/
noncomputable def linear (w : Mat) (y : List ℝ) : Except Err (List ℝ) :=
  if w.all (fun r => r.length == y.length) then .ok (w.map (dotR · y)) else .error .runtimeError

/-- `act(z)`; calling `None` is a TypeError (control.py:286). -/
noncomputable def callAct (a : Option Act) (z : List ℝ) : Except Err (List ℝ) :=
  match a with
  | some a => .ok (a.forward z)
  | none => .error .typeError

/-- The loop `for act, layer in zip(self.acts, self.layers)` of `forward` (control.py:284-286). -/
noncomputable def zipForward : List (Option Act) → List Mat → List ℝ → Except Err (List ℝ)
  | a :: as, w :: ws, y =>
    match linear w y with
    | .error e => .error e
    | .ok z =>
      match callAct a z with
      | .error e => .error e
      | .ok y' => zipForward as ws y'
  | _, _, y => .ok y

/-- `GeneralController.forward` on one row (control.py:282-288); `self.layers[-1]` (never empty after `__init__`). -/
noncomputable def Controller.forward (c : Controller) (x : List ℝ) : Except Err (List ℝ) :=
  match zipForward c.acts c.layers x with
  | .error e => .error e
  | .ok y =>
    match c.layers.getLast? with
    | none => .error .indexError
    | some w => linear w y

/-- `layer.weight.detach().numpy().round(5)` (control.py:302, 306). -/
def round5 (w : Mat) : Mat := w.map (fun r => r.map (npRound 5))

/-- `act.forward_symbolic(z)`; an attribute of `None` is an AttributeError (control.py:305). -/
def symAct (lib : Lib) (a : Option Act) (z : List Term) : Except Err (List Term) :=
  match a with
  | some a => a.forwardSym lib z
  | none => .error .attributeError

/-- The loop of `to_symbolic` (control.py:301-305). -/
def zipSym (lib : Lib) : List (Option Act) → List Mat → List Term → Except Err (List Term)
  | a :: as, w :: ws, y =>
    match matVec (round5 w) y with
    | .error e => .error e
    | .ok z =>
      match symAct lib a z with
      | .error e => .error e
      | .ok y' => zipSym lib as ws y'
  | _, _, y => .ok y

/-- `GeneralController.to_symbolic` (control.py:297-312). -/
def Controller.toSymbolic (lib : Lib) (c : Controller) (x : List Term) : Except Err (List Term) :=
  match zipSym lib c.acts c.layers x with
  | .error e => .error e
  | .ok y =>
    match c.layers.getLast? with
    | none => .error .indexError
    | some w => matVec (round5 w) y

/-- A controllable model (control.py:134-187): its symbolic and its numeric dynamics as functions of state and input. -/
structure OpenLoop where
  smt : List Term → List Term → Except Err (List Term)
  num : List ℝ → List ℝ → Except Err (List ℝ)

/-- `GeneralClosedLoopModel.f_torch` on one state (control.py:335-337). -/
noncomputable def closedTorch (o : OpenLoop) (c : Controller) (v : List ℝ) : Except Err (List ℝ) :=
  match c.forward v with
  | .error e => .error e
  | .ok u => o.num v u

/-- `GeneralClosedLoopModel.f_smt` (control.py:342-345). -/
def closedSmt (lib : Lib) (o : OpenLoop) (c : Controller) (v : List Term) : Except Err (List Term) :=
  match c.toSymbolic lib v with
  | .error e => .error e
  | .ok u => o.smt v u

/-- Functions of parsed expressions as solver functions; `sqrt` has no counterpart among the modelled solver terms. -/
def FName.toFn? : FName → Option Fn
  | .sin => some .sin
  | .cos => some .cos
  | .exp => some .exp
  | .log => some .log
  | .tanh => some .tanh
  | .sqrt => none

/-- A parsed expression as a solver term, its inputs replaced by the terms `u` (parser.py:270-286). Powers are translated for
integer literals as exponents only; `none` for the expressions outside this fragment. -/
def AExpr.toTerm? (u : ℕ → Option Term) : AExpr → Option Term
  | .num q => some (.const q)
  | .x i => some (.var i)
  | .u i => u i
  | .add a b => do return .add (← a.toTerm? u) (← b.toTerm? u)
  | .sub a b => do return .sub (← a.toTerm? u) (← b.toTerm? u)
  | .mul a b => do return .mul (← a.toTerm? u) (← b.toTerm? u)
  | .div a b => do return .div (← a.toTerm? u) (← b.toTerm? u)
  | .pow a (.num q) => if q.den = 1 then do return .pow (← a.toTerm? u) q.num else none
  | .pow _ _ => none
  | .neg a => do return .neg (← a.toTerm? u)
  | .app f a => do return .app (← f.toFn?) (← a.toTerm? u)

/-- The parsed controllable model (control.py:213-249) for Z3 and CVC5: symbolic side by name (`v` are the solver variables
`x0 ... x(n-1)`), numeric side by position. Expressions outside the fragment of `AExpr.toTerm?` are reported as
NotImplementedError (a limit of the model, not of the code). -/
noncomputable def parsedOpen (sys : List AExpr) (n : ℕ) : OpenLoop where
  smt _ u :=
    if (List.range n).all (fun i => (sys.flatMap AExpr.xs).contains i) then
      if (inputArgs sys).length ≤ u.length then
        match sys.mapM (AExpr.toTerm? (fun i => u[(inputArgs sys).idxOf i]?)) with
        | some fs => .ok fs
        | none => .error .notImplemented
      else .error .indexError
    else .error .keyError
  num v u := parsedTorchU sys v u

end Fossil

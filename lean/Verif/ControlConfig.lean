/-
Model of a run started from a configuration file with a controller to be synthesised (`CTRLAYER` present): /repo/fossil/cli.py:81-96, 204-247,
/repo/fossil/control.py:213-249, 313-370, /repo/fossil/parser.py:59-88, 270-286, 344-391 and /repo/fossil/cegis.py:81-99.
-/
import Verif.Config

namespace Fossil

/-- What the configuration file says if it asks for a controller. -/
structure ControlConfig where
  base : ConfigText
  /-- `CTRLAYER` -/
  ctrlayer : List ℕ
  /-- `CTRLACTIVATION` -/
  ctrlacts : List ActivationType

/-- `_ParsedControllableDynamicalModel(texts, verifier)` (control.py:213-243): the sympy parser and that of the verifier read every text; no parser for
other verifiers (ValueError); there must be an input, and as many state variables as texts (AssertionError). The errors of `numericOk` are raised as for
systems without inputs (see there). -/
def readControlled (lib : Lib) (texts : List String) : Except Err (List AExpr) := do
  let num ← texts.mapM (parseText drealFuncs)
  numericOk num
  if lib = .sympy then .error .valueError
  else do
    let sys ← texts.mapM (parseText lib.funcs)
    if (inputArgs sys).length = 0 then .error .assertionError
    else if texts.length ≠ (stateArgs sys).length then .error .assertionError
    else .ok sys

/-- The expression with its input occurrences numbered from `k` on in reading order: what the dReal parser builds, a new variable per occurrence
(parser.py:344-371). -/
def AExpr.numberUs : ℕ → AExpr → AExpr
  | _, .num q => .num q
  | _, .x i => .x i
  | k, .u _ => .u k
  | k, .add a b => .add (a.numberUs k) (b.numberUs (k + a.us.length))
  | k, .sub a b => .sub (a.numberUs k) (b.numberUs (k + a.us.length))
  | k, .mul a b => .mul (a.numberUs k) (b.numberUs (k + a.us.length))
  | k, .div a b => .div (a.numberUs k) (b.numberUs (k + a.us.length))
  | k, .pow a b => .pow (a.numberUs k) (b.numberUs (k + a.us.length))
  | k, .neg a => .neg (a.numberUs k)
  | k, .app f a => .app f (a.numberUs k)

/-- The same for the texts of a system, which one parser object reads one after the other (parser.py:78-80). -/
def numberSys : ℕ → List AExpr → List AExpr
  | _, [] => []
  | k, e :: sys => e.numberUs k :: numberSys (k + e.us.length) sys

/-- What dReal's `Substitute` puts for occurrence number `k` of an input (parser.py:383-391): the output of the controller for that input if it is the last
occurrence, the one the dictionary `us` remembers; the others stay variables of their own, here the variables `n, n + 1, ...` behind the state. -/
def drealInput (sys : List AExpr) (n : ℕ) (u : List Term) (k : ℕ) : Option Term :=
  let occ := sys.flatMap AExpr.us
  match occ[k]? with
  | none => none
  | some i => if i ∈ occ.drop (k + 1) then some (.var (n + k)) else u[(inputArgs sys).idxOf i]?

/-- The parsed controllable model for dReal (control.py:213-249, parser.py:344-391). -/
noncomputable def parsedOpenDreal (sys : List AExpr) (n : ℕ) : OpenLoop where
  smt _ u :=
    if (List.range n).all (fun i => (sys.flatMap AExpr.xs).contains i) then
      if (inputArgs sys).length ≤ u.length then
        match (numberSys 0 sys).mapM (AExpr.toTerm? (drealInput sys n u)) with
        | some fs => .ok fs
        | none => .error .notImplemented
      else .error .indexError
    else .error .keyError
  num v u := parsedTorchU sys v u

/-- `GeneralClosedLoopModel.f_smt(x)` of a parsed system (control.py:342-345): the dynamics given to the solver. -/
noncomputable def closedLoop (lib : Lib) (sys : List AExpr) (n : ℕ) (k : Controller) : Except Err (List Term) :=
  closedSmt lib (if lib = .dreal then parsedOpenDreal sys n else parsedOpen sys n) k (vars n)

/-- What the loop is started with. -/
structure ReadyControl where
  cfg : SynthCfg
  sys : List AExpr
  ctrl : Controller
  data : Dict String Src

/-- `parse_yaml_to_cegis_config` and the start of `Cegis` (cli.py:204-247, cegis.py:30-58, 81-120, 348-358) for a file with `CTRLAYER`; `w` are the random
initial weights. An empty `CTRLAYER` gives a controllable model (`is not None`, cli.py:87-96) that is then called without controller (`if CTRLAYER`,
cegis.py:86-95): a TypeError. -/
noncomputable def readControl (w : ℕ → ℕ → ℕ → ℚ) (c : ControlConfig) : Except Err ReadyControl := do
  let sys ← readControlled c.base.lib c.base.system
  let k? ← controllerOf w c.base.nVars c.ctrlayer c.ctrlacts
  match k? with
  | none => .error .typeError
  | some k => do
    let _ ← closedLoop c.base.lib sys c.base.nVars k
    let (cfg, data) ← readSets c.base
    return ⟨cfg, sys, k, data⟩

end Fossil

/-
Model of a run started from a configuration file (/repo/fossil/cli.py:204-247, /repo/fossil/control.py:189-210, /repo/fossil/cegis.py:81-120): the texts of
the dynamics and of the sets are parsed, the labels are checked, and what the CEGIS loop is started with is assembled. Only systems without controller
(`CTRLAYER` absent). YAML loading, the reading of the other options and the numeric side of the model (used for training data only) are not
part of this file.
-/
import Verif.Text
import Verif.Cli
import Verif.Assembly
import Verif.Controller

namespace Fossil

/-- What the configuration file says. -/
structure ConfigText where
  /-- `VERIFIER` -/
  lib : Lib
  /-- `N_VARS` -/
  nVars : ℕ
  /-- `CERTIFICATE` -/
  cert : CertType
  /-- `SYSTEM` -/
  system : List String
  /-- `DOMAINS` -/
  domains : List (String × String)
  /-- `N_DATA` -/
  nData : Option NData
  /-- `LEARNING_RATE`, `CEGIS_MAX_TIME_S`, `TIME_DOMAIN` -/
  check : CheckCfg
  /-- `LLO` -/
  llo : Bool
  /-- `ROUNDING` -/
  rounding : ℤ
  /-- `FACTORS` -/
  quad : Bool
  /-- `CEGIS_MAX_ITERS` -/
  maxIters : ℤ

/-- `get_parser_from_verifier` (parser.py:610-624): which functions the grammar knows. -/
def Lib.funcs : Lib → FName → Bool
  | .z3 | .cvc5 => z3Funcs
  | .dreal | .sympy => drealFuncs

/-- `_ParsedDynamicalModel(texts, verifier)` and `f_smt(x)` (control.py:192-210, parser.py:59-88, 270-275, 307-312, 377-381, cegis.py:92-94): both the
sympy parser and that of the verifier read every text; a text with an input makes the substitution expect the controller's outputs
(TypeError); a variable of the verifier that no text mentions is a KeyError; so is a right-hand side without variables an error
(`numericOk`; the second of its errors occurs when the first data are evaluated, cegis.py:157). Expressions outside the fragment of
`AExpr.toTerm?` are reported as NotImplementedError (a limit of the model). -/
def readSystem (lib : Lib) (n : ℕ) (texts : List String) : Except Err (List Term) := do
  let num ← texts.mapM (parseText drealFuncs)
  numericOk num
  let sys ← texts.mapM (parseText lib.funcs)
  if (sys.flatMap AExpr.us) ≠ [] then .error .typeError
  else do
    let sys ← parsedSmt sys n
    match sys.mapM (AExpr.toTerm? (fun _ => none)) with
    | some f => .ok f
    | none => .error .notImplemented

/-- The values of `DOMAINS` (cli.py:98-105). The label of an entry is looked up before its text is parsed; only which exception is raised first differs. -/
def readDomainTexts : List (String × String) → Except Err (List (String × PySet))
  | [] => .ok []
  | (k, s) :: rest => do
    let S ← parseDomain s
    let r ← readDomainTexts rest
    return (k, S) :: r

/-- What the loop is started with: configuration, symbolic dynamics, data sources. -/
structure Ready where
  cfg : SynthCfg
  f : List Term
  data : Dict String Src

/-- The sets, the data sources and the options: `parse_yaml_to_cegis_config` after the model was read (cli.py:237-247) and the start of `Cegis`
(cegis.py:30-58, 101-120, 348-358). -/
def readSets (c : ConfigText) : Except Err (SynthCfg × Dict String Src) := do
  let doms ← readDomainTexts c.domains
  let (data, doms) ← parseConfig c.cert doms c.nData
  let d ← initialiseDomains c.lib c.nVars c.cert doms
  cegisAssertState c.check c.cert d.keys data.keys
  return (⟨c.lib, c.nVars, c.cert, doms, c.llo, c.rounding, c.quad, c.maxIters⟩, data)

/-- `parse_yaml_to_cegis_config` and the start of `Cegis` (cli.py:204-247, cegis.py:30-58, 81-120, 348-358) for a file without `CTRLAYER`. The texts are
read first and the numeric and symbolic sides are used later; only which exception comes first can differ. -/
def readConfig (c : ConfigText) : Except Err Ready := do
  let f ← readSystem c.lib c.nVars c.system
  let (cfg, data) ← readSets c
  return ⟨cfg, f, data⟩

end Fossil

/-
Model of the texts `Recorder.record` puts into a row: /repo/fossil/analysis.py:78-82 (`_get_model_name`), 163-187, 328-433 (`benchmark_to_latex`,
`domains_to_string`), with the renderings they call: /repo/fossil/control.py:121-123, 182-186 (`to_latex` of models), domains.py:321-325, 360-364 (`to_latex` of sets).
-/
import Verif.Csv
import Verif.Repr
import Verif.Cert

namespace Fossil

/-- The option SYSTEM: a model class without inputs, which is called without arguments, or `GeneralClosedLoopModel.prepare_from_open(open_loop)`
(control.py:367-370), a partial application that needs a controller. `smt` is `f_smt` on sympy symbols; it is taken to unpack or index its
arguments, as all models of the repository do. -/
inductive SystemArg where
  | plain (name : String) (nVars : ℕ) (smt : List Term → Except Err (List Term))
  | closed (name : String) (nVars nU : ℕ) (smt : List Term → List Term → Except Err (List Term))

/-- `_get_model_name` (analysis.py:78-82): a partial application has no `__name__`. -/
def SystemArg.name : SystemArg → String
  | .plain n _ _ => n
  | .closed n _ _ _ => n

/-- `DynamicalModel.to_latex` (control.py:121-123): `sp.symbols("x0,...")` gives a tuple of symbols, but for one name a single symbol, which `f_smt` cannot
unpack or index (TypeError), and for none a ValueError. -/
def plainLatex (latexT : List Term → String) (n : ℕ) (smt : List Term → Except Err (List Term)) : Except Err String :=
  match n with
  | 0 => .error .valueError
  | 1 => .error .typeError
  | n + 2 => (smt (vars (n + 2))).map latexT

/-- `try: model().to_latex() except TypeError: model(None).open_loop.to_latex()` (analysis.py:339-342, 404-407). Calling the partial application without a
controller is a TypeError; calling a class without inputs with an argument is a TypeError too. `ControllableDynamicalModel.to_latex` (control.py:182-186)
passes lists of symbols, whatever their number. Simplification: for a model without variables `f` fails on the empty list with an error written here as ValueError. -/
def systemLatex (latexT : List Term → String) : SystemArg → Except Err String
  | .plain _ n smt =>
    match plainLatex latexT n smt with
    | .error .typeError => .error .typeError
    | r => r
  | .closed _ n m smt => if n = 0 then .error .valueError else (smt (vars n) ((List.range m).map fun i => .var (n + i))).map latexT

/-- `Set.to_latex` (domains.py:360-364) of a set that has been constructed: reads `dimension`, and renders `generate_domain` on that many symbols. -/
def PySet.toLatex (latexF : Formula → String) (S : PySet) : Except Err String := do
  let d ← S.construct
  match d with
  | none => .error .attributeError
  | some d =>
    let f ← S.generateDomain .sympy (vars d)
    return latexF f

/-- The sets `benchmark_to_latex` renders, in order (analysis.py:345-374). -/
def latexLabels : CertType → List String
  | .LYAPUNOV => [XD]
  | .ROA => [XI]
  | .BARRIER | .BARRIERALT => [XD, XI, XU]
  | .RWS | .RSWS => [XD, XS, XI, XG]
  | .STABLESAFE => [XD, XD, XI, XU]
  | .RAR => [XD, XS, XI, XG, XF]
  | .RWA | .RSWA | .CUSTOM => []

/-- `domains[label].to_latex()` -/
def labelLatex (latexF : Formula → String) (d : Dict String PySet) (l : String) : Except Err (String × String) := do
  let S ← Dict.get d l
  let t ← S.toLatex latexF
  return (l, t)

/-- The end of both texts (analysis.py:376-391, 421-432): names of activations, of the second network and of the controller. -/
def actsPart (cert : CertType) (acts altActs : List ActivationType) (ctrl : Option (List ActivationType)) : Except Err (List (List String)) := do
  let a ← activationNames acts
  let b ← (if cert = .STABLESAFE ∨ cert = .RAR then activationNames altActs else .ok [])
  let c ← (match ctrl with | some l => activationNames l | none => .ok [])
  return [a, b, c]

/-- How the pieces are put together into the two texts; the layout (and the replacement of label names, analysis.py:413-418) is a parameter. -/
structure Layout2 where
  latex : String → List (String × String) → List (List String) → String
  domains : String → List (String × String) → List (List String) → String

/-- What the texts are made from. -/
structure RecordCfg where
  system : SystemArg
  domains : Dict String PySet
  ctrlActs : List ActivationType

/-- `benchmark_to_latex` (analysis.py:328-391). -/
def benchmarkLatex (ly : Layout2) (latexT : List Term → String) (latexF : Formula → String) (c : RecordCfg) (i : RunInfo) : Except Err String := do
  let s ← systemLatex latexT c.system
  let sets ← mapE (labelLatex latexF c.domains) (latexLabels i.cert)
  let a ← actsPart i.cert i.acts i.altActs (i.ctrLayer.map fun _ => c.ctrlActs)
  return ly.latex s sets a

/-- `dom.__repr__()` of the sets with a label not in BORDERS (certificate.py:37, analysis.py:410-412). -/
def reprEntry (num : ℚ → String) (e : String × PySet) : Except Err (String × String) := do
  let t ← e.2.text num
  return (e.1, t)

/-- `domains_to_string` (analysis.py:394-433). -/
def domainsText (ly : Layout2) (latexT : List Term → String) (num : ℚ → String) (c : RecordCfg) (i : RunInfo) : Except Err String := do
  let s ← systemLatex latexT c.system
  let sets ← mapE (reprEntry num) (c.domains.filter fun e => e.1 ∉ [XGB, XSB])
  let a ← actsPart i.cert i.acts i.altActs (i.ctrLayer.map fun _ => c.ctrlActs)
  return ly.domains s sets a

/-- `Recorder.record` up to the row (analysis.py:150-218): the checks of the columns before the texts, the texts, the row. The file is opened only afterwards.
The fields `latex`, `domains` and `model` of the argument are overwritten. -/
def fullRow (ly : Layout2) (latexT : List Term → String) (latexF : Formula → String) (num : ℚ → String) (c : RecordCfg) (i : RunInfo) :
    Except Err (List Cell) := do
  let _ ← ctrlCells i
  let _ ← altCells i
  let l ← benchmarkLatex ly latexT latexF c i
  let d ← domainsText ly latexT num c i
  recordRow { i with latex := l, domains := d, model := c.system.name }

/-- `Recorder.record` (analysis.py:157-221): when something raises, the file has not been touched. -/
def recordFile (ly : Layout2) (latexT : List Term → String) (latexF : Formula → String) (num : ℚ → String) (f : CsvFile (List Cell)) (c : RecordCfg)
    (i : RunInfo) : CsvFile (List Cell) × Option Err :=
  match fullRow ly latexT latexF num c i with
  | .ok row => (csvRecord f row, none)
  | .error e => (f, some e)

/-- The recording done by `run_benchmark` with `record=True` over its repetitions (main.py:71-98): an exception in `record` ends the series. -/
def recordSeries (ly : Layout2) (latexT : List Term → String) (latexF : Formula → String) (num : ℚ → String) (c : RecordCfg) :
    CsvFile (List Cell) → List RunInfo → CsvFile (List Cell) × Option Err
  | f, [] => (f, none)
  | f, i :: is =>
    match recordFile ly latexT latexF num f c i with
    | (f', none) => recordSeries ly latexT latexF num c f' is
    | (f', some e) => (f', some e)

end Fossil

/-
Model of the experiment record: /repo/fossil/analysis.py:38-66 (columns), 95-131 (`CSVWriter`), 148-222 (`Recorder.record`),
/repo/fossil/consts.py:250-287 (names). The quoting of cells is left to Python's csv module and not modelled.
-/
import Verif.Cert
import Verif.Net

namespace Fossil

/-- A line of the file. -/
inductive CsvLine (R : Type) where
  | header
  | row (r : R)
deriving DecidableEq, Repr

/-- The results file: absent, or its lines. -/
abbrev CsvFile (R : Type) := Option (List (CsvLine R))

/-- Appending a line in mode `a+`, which creates the file if needed (analysis.py:116, 131). -/
def CsvFile.append {R : Type} (f : CsvFile R) (l : CsvLine R) : CsvFile R := some (f.getD [] ++ [l])

/-- `CSVWriter.__init__` (analysis.py:98-112). -/
def csvInit {R : Type} (f : CsvFile R) : CsvFile R := if f.isSome then f else f.append .header

/-- `write_row_to_csv` (analysis.py:122-133); a wrong number of cells only gives a warning. -/
def csvWrite {R : Type} (f : CsvFile R) (r : R) : CsvFile R := f.append (.row r)

/-- The end of `Recorder.record` (analysis.py:220-221). -/
def csvRecord {R : Type} (f : CsvFile R) (r : R) : CsvFile R := csvWrite (csvInit f) r

/-! ### several processes recording into the same file -/

/-- Where a recording process is: before the `isfile` test, after finding no file, ready to write its row, finished. -/
inductive CsvPc where
  | start | missing | ready | done
deriving DecidableEq, Repr

/-- A step of process `i` with row `r` at `pc` (analysis.py:111-112 test and header; 131-133 row). -/
def csvProcStep {R : Type} (f : CsvFile R) (r : R) : CsvPc → CsvFile R × CsvPc
  | .start => (f, if f.isSome then .ready else .missing)
  | .missing => (f.append .header, .ready)
  | .ready => (f.append (.row r), .done)
  | .done => (f, .done)

/-- State: the file and the processes. -/
structure CsvSys (R : Type) where
  file : CsvFile R
  procs : List (R × CsvPc)

/-- The scheduler lets process `i` make a step. -/
def CsvSys.step {R : Type} (s : CsvSys R) (i : ℕ) : CsvSys R :=
  match s.procs[i]? with
  | none => s
  | some (r, pc) => ⟨(csvProcStep s.file r pc).1, s.procs.set i (r, (csvProcStep s.file r pc).2)⟩

/-- A schedule. -/
def CsvSys.run {R : Type} (s : CsvSys R) : List ℕ → CsvSys R
  | [] => s
  | i :: is => (s.step i).run is

/-! ### the row -/

/-- Cells, by the type of the value written. -/
inductive Cell where
  | none | int (n : ℤ) | num (q : ℚ) | bool (b : Bool) | text (s : String) | nats (l : List ℕ) | texts (l : List String)
deriving DecidableEq, Repr

/-- `HEADER` (analysis.py:38-66). -/
def csvHeader : List String := ["Certificate", "N_s", "N_u", "Result", "Benchmark_file", "seed", "latex", "domains", "N_Data", "Neurons",
  "Activations", "Ctrl_Neurons", "Ctrl_Activations", "Alt_Neurons", "Alt_Activations", "Factors", "LLO", "Symmetric_Belt", "Time_Domain",
  "Verifier", "Loops", "Total_Time", "Learner_Time", "Translator_Time", "Verifier_Time", "Consolidator_Time"]

/-- `PROPERTIES[...]` (consts.py:276-287): no entry for CUSTOM. -/
def propertyName : CertType → Except Err String
  | .LYAPUNOV => .ok "Stability"
  | .ROA => .ok "ROA"
  | .BARRIER => .ok "Safety"
  | .BARRIERALT => .ok "Safety"
  | .RAR => .ok "RAR"
  | .RWA => .ok "RWA"
  | .RSWA => .ok "RSWA"
  | .RWS => .ok "RWA"
  | .RSWS => .ok "RSWA"
  | .STABLESAFE => .ok "SWA"
  | .CUSTOM => .error .keyError

/-- `ACTIVATION_NAMES[...]` (consts.py:250-274): no entry for the shifted softplus activations. The names themselves are abbreviated. -/
def activationName : ActivationType → Except Err String
  | .SHIFTED_SOFTPLUS => .error .keyError
  | .SHIFTED_SOFTPLUS_SQUARE => .error .keyError
  | .IDENTITY => .ok "identity"
  | .RELU => .ok "ReLU"
  | .LINEAR => .ok "phi1"
  | .SQUARE => .ok "phi2"
  | .POLY_2 => .ok "phi2"
  | .RELU_SQUARE => .ok "ReLUphi2"
  | .REQU => .ok "ReLUphi2"
  | .POLY_3 => .ok "phi3"
  | .POLY_4 => .ok "phi4"
  | .POLY_5 => .ok "phi5"
  | .POLY_6 => .ok "phi6"
  | .POLY_7 => .ok "phi7"
  | .POLY_8 => .ok "phi8"
  | .EVEN_POLY_4 => .ok "phi4"
  | .EVEN_POLY_6 => .ok "phi6"
  | .EVEN_POLY_8 => .ok "phi8"
  | .EVEN_POLY_10 => .ok "phi10"
  | .RATIONAL => .ok "phirat"
  | .TANH => .ok "sigmat"
  | .TANH_SQUARE => .ok "sigmat2"
  | .SIGMOID => .ok "sigmasig"
  | .SOFTPLUS => .ok "sigmasoft"
  | .COSH => .ok "cosh"

/-- `get_activations` (analysis.py:85-86). -/
def activationNames (l : List ActivationType) : Except Err (List String) := l.mapM activationName

/-- What `record` reads from the configuration, the result and the clock (analysis.py:150-218). The LaTeX rendering of the benchmark
(`benchmark_to_latex`, `domains_to_string`) is a given string. -/
structure RunInfo where
  cert : CertType
  nVars : ℕ
  ctrLayer : Option (List ℕ)
  ctrlActs : List String
  res : Bool
  model : String
  seed : ℤ
  latex : String
  domains : String
  nData : ℕ
  neurons : List ℕ
  acts : List ActivationType
  altNeurons : List ℕ
  altActs : List ActivationType
  factors : String
  llo : Bool
  belt : Bool
  timeDomain : String
  verifier : String
  loops : ℕ
  total : ℚ
  times : List ℚ

/-- `N_u`, `Ctrl_Neurons`, `Ctrl_Activations` (analysis.py:165-172): `CTRLAYER[-1]` of an empty list is an IndexError. -/
def ctrlCells (i : RunInfo) : Except Err (Cell × Cell × Cell) :=
  match i.ctrLayer with
  | none => .ok (.int 0, .none, .none)
  | some l =>
    match l.getLast? with
    | some m => .ok (.int m, .nats l.dropLast, .texts i.ctrlActs)
    | none => .error .indexError

/-- `Alt_Neurons`, `Alt_Activations` (analysis.py:174-182). -/
def altCells (i : RunInfo) : Except Err (Cell × Cell) :=
  if i.cert = .STABLESAFE ∨ i.cert = .RAR then
    match activationNames i.altActs with
    | .ok a => .ok (.nats i.altNeurons, .texts a)
    | .error e => .error e
  else .ok (.none, .none)

/-- The row written by `Recorder.record` (analysis.py:160-218); a missing timer is an IndexError. -/
def recordRow (i : RunInfo) : Except Err (List Cell) := do
  let ctrl ← ctrlCells i
  let alt ← altCells i
  let prop ← propertyName i.cert
  let acts ← activationNames i.acts
  let t0 ← at? i.times 0
  let t1 ← at? i.times 1
  let t2 ← at? i.times 2
  let t3 ← at? i.times 3
  return [.text prop, .int i.nVars, ctrl.1, .bool i.res, .text i.model, .int i.seed, .text i.latex, .text i.domains, .int i.nData,
    .nats i.neurons, .texts acts, ctrl.2.1, ctrl.2.2, alt.1, alt.2, .text i.factors, .bool i.llo, .bool i.belt, .text i.timeDomain,
    .text i.verifier, .int i.loops, .num i.total, .num t0, .num t1, .num t2, .num t3]

end Fossil

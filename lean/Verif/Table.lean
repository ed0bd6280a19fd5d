/-
Model of the results table: /repo/fossil/analysis.py:73-75 (`ratio`), 224-325 (`Analyser`).
-/
import Verif.Csv

namespace Fossil

/-- The index columns of the pivot table (analysis.py:261-270). The texts `Neurons + ", " + Alt_Neurons` and `Activations + ", " + Alt_Activations`
(analysis.py:251-252) are kept as pairs; the escaping of underscores (analysis.py:247-249) is omitted. -/
structure TableKey where
  latex : Cell
  domains : Cell
  model : Cell
  ns : Cell
  nu : Cell
  cert : Cell
  neurons : Cell × Cell
  acts : Cell × Cell
deriving DecidableEq, Repr

/-- A row of the results file as the table uses it. -/
structure RunData where
  key : TableKey
  res : Bool
  total : ℚ
  learner : ℚ
deriving DecidableEq, Repr

/-- The cell of a row in a column of the file (`df[name]`); KeyError for a short row is not distinguished from an empty cell. -/
def cellOf (row : List Cell) (name : String) : Cell := (row[csvHeader.idxOf name]?).getD .none

/-- Cells that `pd.read_csv` reads as missing. -/
def Cell.missing : Cell → Bool
  | .none => true
  | .text s => s == ""
  | _ => false

/-- `str.replace("RWS", "RWA")` and then `str.replace("RSWS", "RSWA")` on the Certificate column (analysis.py:253-254), for names that contain these as
a whole. -/
def renameCert : Cell → Cell
  | .text s => .text (if s = "RWS" then "RWA" else if s = "RSWS" then "RSWA" else s)
  | c => c

/-- The entries of a row in the index columns. -/
def keyOf (row : List Cell) : TableKey where
  latex := cellOf row "latex"
  domains := cellOf row "domains"
  model := cellOf row "Benchmark_file"
  ns := cellOf row "N_s"
  nu := cellOf row "N_u"
  cert := renameCert (cellOf row "Certificate")
  neurons := (cellOf row "Neurons", cellOf row "Alt_Neurons")
  acts := (cellOf row "Activations", cellOf row "Alt_Activations")

/-- Rows with a missing entry in an index column are left out by `pd.pivot_table` (its `groupby` drops missing keys). Missing entries of the two Alt
columns are filled in (`fillna("")`, analysis.py:251-252). -/
def TableKey.missing (k : TableKey) : Bool :=
  k.latex.missing || k.domains.missing || k.model.missing || k.ns.missing || k.nu.missing || k.cert.missing || k.neurons.1.missing || k.acts.1.missing

/-- The value columns (analysis.py:257-261): a boolean and two numbers. -/
def readRun (row : List Cell) : Except Err RunData :=
  match cellOf row "Result", cellOf row "Total_Time", cellOf row "Learner_Time" with
  | .bool b, .num t, .num l => .ok ⟨keyOf row, b, t, l⟩
  | _, _, _ => .error .typeError

/-- `groupby(index, sort=False)` (analysis.py:271-281): groups in the order of first appearance, each with its rows in order. -/
def addRun (d : Dict TableKey (List RunData)) (r : RunData) : Dict TableKey (List RunData) :=
  Dict.set d r.key ((Dict.get? d r.key).getD [] ++ [r])

/-- All groups. -/
def groupRuns (rows : List RunData) : Dict TableKey (List RunData) := rows.foldl addRun []

/-- `ratio` (analysis.py:73-75): `int(100 * x.sum() / x.count())`; the floating-point division is exact in the model. -/
def ratio (l : List Bool) : ℤ := ⌊(100 * (l.filter id).length : ℚ) / l.length⌋

/-- `"min"`, `"mean"`, `"max"` (analysis.py:275-279). -/
structure Agg where
  min : ℚ
  mean : ℚ
  max : ℚ
deriving DecidableEq, Repr

def aggregate : List ℚ → Agg
  | [] => ⟨0, 0, 0⟩
  | a :: l => ⟨l.foldl min a, (a :: l).sum / (a :: l).length, l.foldl max a⟩

/-- `.round(2)` (analysis.py:304-309). -/
def Agg.round (a : Agg) : Agg := ⟨npRound 2 a.min, npRound 2 a.mean, npRound 2 a.max⟩

/-- A line of the table (analysis.py:300-309): the columns latex, Model, domains are dropped. -/
structure TableLine where
  ns : Cell
  nu : Cell
  cert : Cell
  neurons : Cell × Cell
  acts : Cell × Cell
  total : Agg
  learner : Agg
  success : ℤ
deriving DecidableEq, Repr

def lineOf (g : TableKey × List RunData) : TableLine where
  ns := g.1.ns
  nu := g.1.nu
  cert := g.1.cert
  neurons := g.1.neurons
  acts := g.1.acts
  total := (aggregate (g.2.map (·.total))).round
  learner := (aggregate (g.2.map (·.learner))).round
  success := ratio (g.2.map (·.res))

/-- `table_main` (analysis.py:237-325) from the rows of the file; the renaming of columns and the output formats are omitted. -/
def tableMain (rows : List (List Cell)) : Except Err (List TableLine) :=
  match rows.mapM readRun with
  | .error e => .error e
  | .ok runs => .ok ((groupRuns (runs.filter fun r => !r.key.missing)).map lineOf)

end Fossil

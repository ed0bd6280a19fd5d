/-
Model of Fossil's log output: /repo/fossil/logger.py:12-52 on top of Python's `logging` (a logger per dotted name with a level and a list of handlers; a record goes to
the handlers of the logger and of the loggers above it), and the two callers that change the level, /repo/fossil/cegis.py:54-55 and /repo/fossil/cli.py:337-352.
Simplified: the prefix with time, name and level is the pair (name, level); handlers attached by the user's own program, and levels it changes, are not modelled.
-/
import Mathlib.Data.List.Basic
import Mathlib.Data.List.Nodup
import Mathlib.Data.Int.Order.Basic
import Mathlib.Tactic

namespace Fossil

/-- The dotted name of a logger (`__name__`), cut at the dots (logger.py:30-32). -/
abbrev LoggerName := List String

/-- A line on the console: logger, level (10 debug, 20 info, 30 warning, 40 error) and text (logger.py:40-46). -/
structure LogRecord where
  name : LoggerName
  level : ℕ
  text : String
deriving DecidableEq

/-- What happens to the log in a process. -/
inductive LogEvent where
  /-- `Logger.setup_logger(name)`, run when a module is imported (cegis.py:22, certificate.py:40, parser.py:22, verifier.py:37, translator.py:25, control.py:27) -/
  | setup (n : LoggerName)
  /-- `Logger.set_logger_level(v)`, run by the command line with the argument of `-v` (cli.py:352) -/
  | setLevel (v : ℤ)
  /-- the last lines of `SingleCegis.__init__` with `VERBOSE = v` (cegis.py:54-55); `DoubleCegis` inherits them (cegis.py:374-375) -/
  | construct (v : ℤ)
  /-- `log.debug(text)`, `log.info(text)`, `log.warning(text)`, … (cegis.py:119, 200, 216, …) -/
  | message (n : LoggerName) (level : ℕ) (text : String)
deriving DecidableEq

/-- `Logger._loggers`, `Logger.log_level` (logger.py:13-14) and the registry of Python's `logging`: level (0 is NOTSET) and number of handlers of each name. -/
structure LogState where
  logLevel : ℕ
  registered : List LoggerName
  level : LoggerName → ℕ
  handlers : LoggerName → ℕ

/-- A fresh process (logger.py:13-14): `log_level = logging.WARNING`, no loggers. -/
def LogState.init : LogState := ⟨30, [], fun _ => 0, fun _ => 0⟩

/-- `set_logger_level` (logger.py:16-27): any other verbosity leaves `log_level`; the loop runs in every case. -/
def setLoggerLevel (v : ℤ) (s : LogState) : LogState :=
  let l := if v = 0 then 30 else if v = 1 then 20 else if v = 2 then 10 else s.logLevel
  { s with logLevel := l, level := fun n => if n ∈ s.registered then l else s.level n }

/-- `setup_logger` (logger.py:29-52): the level is that of the class, a new handler is added to those the logger has, and the logger is stored under its name. -/
def setupLogger (n : LoggerName) (s : LogState) : LogState :=
  { s with
    level := Function.update s.level n s.logLevel
    handlers := Function.update s.handlers n (s.handlers n + 1)
    registered := if n ∈ s.registered then s.registered else n :: s.registered }

/-- Handlers that receive a record of the logger `n`: its own and those of the loggers above it (`Logger.callHandlers` of Python, `propagate` is left on). -/
def handlerCount (s : LogState) (n : LoggerName) : ℕ := (n.inits.map s.handlers).sum

/-- One event and the lines it writes. A message of a name that was never set up is not Fossil's and writes nothing here; otherwise Python's `isEnabledFor` compares
the level of the message with that of the logger. -/
def logStep (s : LogState) : LogEvent → LogState × List LogRecord
  | .setup n => (setupLogger n s, [])
  | .setLevel v => (setLoggerLevel v s, [])
  | .construct v => (if v ≠ 0 then setLoggerLevel v s else s, [])
  | .message n l t => (s, if n ∈ s.registered ∧ s.level n ≤ l then List.replicate (handlerCount s n) ⟨n, l, t⟩ else [])

/-- State and console after a history of logging events (logger.py:12-52). -/
def logRun (h : List LogEvent) : LogState × List LogRecord :=
  h.foldl (fun a e => ((logStep a.1 e).1, a.2 ++ (logStep a.1 e).2)) (LogState.init, [])

/-- What the console shows of a history (logger.py:36-46). -/
def transcript (h : List LogEvent) : List LogRecord := (logRun h).2

/-- The loggers of the package (cegis.py:22, certificate.py:40, parser.py:22, verifier.py:37, translator.py:25, control.py:27). -/
def fossilLoggers : List LoggerName :=
  [["fossil", "cegis"], ["fossil", "certificate"], ["fossil", "parser"], ["fossil", "verifier"], ["fossil", "translator"], ["fossil", "control"]]

/-- The logging of a run from the command line: the modules are imported, the arguments read (`-v v`), then the constructor writes its messages and takes over `VERBOSE`
(main.py:151-173, cli.py:318-357, cegis.py:40-55); what follows is given by `rest`. -/
def cliLog (imports : List LoggerName) (v : ℤ) (initMsgs : List LogEvent) (verbose : ℤ) : List LogEvent :=
  imports.map .setup ++ [.setLevel v] ++ initMsgs ++ [.construct verbose]

theorem logRun_snoc (h : List LogEvent) (e : LogEvent) :
    logRun (h ++ [e]) = ((logStep (logRun h).1 e).1, (logRun h).2 ++ (logStep (logRun h).1 e).2) := by
  simp [logRun, List.foldl_append]

end Fossil

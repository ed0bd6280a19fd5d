/-
Model of what a run writes to the console at the default verbosity, and of the command line: the `print` and `warning` calls of /repo/fossil/cegis.py:197-213,
291-327, 508-524 and /repo/fossil/main.py:151-173, /repo/fossil/cli.py:271-357. `info` and `debug` messages are not shown at the default level (logger.py:13-27) and are
left out.
-/
import Verif.Cegis
import Verif.Options

namespace Fossil

/-- The lines written at the default verbosity. -/
inductive Line where
  /-- `print(f"Found a valid {name} certificate" + ctrl)` (cegis.py:312, 325) -/
  | success (cert : CertType) (ctrl : Bool)
  /-- `print("Found a valid RWS certificate, but could not prove the final stay condition. Keep searching...")` (cegis.py:314-316) -/
  | keepSearching
  /-- `cegis_log.warning("Verification timed out")` (cegis.py:200, 509) -/
  | timedOut
  /-- `cegis_log.warning("Out of iterations")` (cegis.py:206, 515) -/
  | outOfIterations
deriving DecidableEq

/-- The text of a line (cegis.py:200, 206, 312-316, 320-325); the logger's prefix with time and name is left out. -/
def Line.text : Line → String
  | .success ct ctrl => "Found a valid " ++ ct.name ++ " certificate" ++ (if ctrl then " and controller" else "")
  | .keepSearching => "Found a valid RWS certificate, but could not prove the final stay condition. Keep searching..."
  | .timedOut => "Verification timed out"
  | .outOfIterations => "Out of iterations"

variable {N K P E : Type}

/-- `process_certificate` (cegis.py:291-327) with its lines; `controlled` is `isinstance(self.f, control.GeneralClosedLoopModel)`, tested in the branch of the
other certificates only. -/
def certificateOut (cfg : LoopCfg) (controlled : Bool) (c : Components N K P E) (V Vdot : E) (st : LoopState N K P E) :
    Except Err (List Line × Bool × LoopState N K P E) :=
  match (if cfg.cert = .LYAPUNOV ∨ cfg.cert = .ROA then c.estimateBeta st.net else .ok ()) with
  | .error e => .error e
  | .ok _ =>
    if cfg.cert = .RSWS then
      match c.betaSearch st.iters V Vdot with
      | .error e => .error e
      | .ok true => .ok ([.success cfg.cert false], true, st)
      | .ok false => .ok ([.keepSearching], decide (cfg.maxIters = st.iters), { st with found := false })
    else .ok ([.success cfg.cert controlled], true, st)

/-- The decision at the end of a pass (cegis.py:197-213, 508-524) with its lines. -/
def decideOut (cfg : LoopCfg) (controlled : Bool) (c : Components N K P E) (V Vdot : E) (st : LoopState N K P E) :
    Except Err (List Line × Bool × LoopState N K P E) :=
  if st.found = true then certificateOut cfg controlled c V Vdot st
  else if st.timedOut = true then .ok ([.timedOut], true, st)
  else if cfg.maxIters = st.iters then .ok ([.outOfIterations], true, st)
  else match processCex cfg.double c st with
    | .error e => .error e
    | .ok st' => .ok ([], false, st')

/-- One pass (cegis.py:173-216, 464-525) with its lines. -/
def bodyOut (cfg : LoopCfg) (controlled : Bool) (c : Components N K P E) (st : LoopState N K P E) :
    Except Err (List Line × Bool × LoopState N K P E) := do
  let (net, ctrl) ← c.learn st
  let (V, Vdot) ← c.translate net ctrl
  let (found, cex) ← c.verify st.iters net V Vdot
  let traj ← c.consolidate st.iters net ctrl cex
  let (lines, stop, st2) ← decideOut cfg controlled c V Vdot (st.after net ctrl V Vdot found cex traj)
  return (lines, stop, st2.tick)

/-- `k` passes that did not stop, and the lines they wrote, in order. -/
inductive StepsOut (cfg : LoopCfg) (controlled : Bool) (c : Components N K P E) : LoopState N K P E → ℕ → List Line → LoopState N K P E → Prop where
  | refl (st) : StepsOut cfg controlled c st 0 [] st
  | tail {st k ls st' l st''} : StepsOut cfg controlled c st k ls st' → bodyOut cfg controlled c st' = .ok (l, false, st'') →
      StepsOut cfg controlled c st (k + 1) (ls ++ l) st''

/-- `Cegis(config).solve()` returns with final state `out`, having written `lines`. -/
def SolvesOut (cfg : LoopCfg) (controlled : Bool) (c : Components N K P E) (net : N) (ctrl : K) (S : Dict String (List P)) (lines : List Line)
    (out : LoopState N K P E) : Prop :=
  ∃ k st ls l, StepsOut cfg controlled c (initState c net ctrl S) k ls st ∧ bodyOut cfg controlled c st = .ok (l, true, out) ∧ lines = ls ++ l

/-! ### the command line -/

/-- The arguments after `argparse` (cli.py:318-357), `certificate` before its conversion with `str.upper` and the test of `choices`; a malformed command line (unknown
option, more than one file, `-v` not in 0, 1, 2) is not modelled. -/
structure CmdArgs where
  file : Option String
  certificate : Option String
  plot : Bool

/-- How the process ends: the status given to the operating system. -/
inductive CmdEnd (α : Type) where
  /-- `parser.error` or a rejected argument: status 2 -/
  | usage
  /-- `print_certificate_sets` ended with `sys.exit()` (cli.py:315): status 0 -/
  | listed (domains data : List DName)
  /-- `_cli_entry` returned: status 0 -/
  | ended (result : α)
  /-- an exception left `_cli_entry`: status 1 -/
  | raised (e : Err)

/-- The exit status. -/
def CmdEnd.status {α : Type} : CmdEnd α → ℕ
  | .usage => 2
  | .listed _ _ => 0
  | .ended _ => 0
  | .raised _ => 1

/-- What reading and running a file gives (main.py:156-160): the number of variables and the outcome of `verify` (a dictionary) or `synthesise`
(a `Result`). -/
inductive CmdResult (α β : Type) where
  | verified (nVars : ℕ) (r : α)
  | synthesised (nVars : ℕ) (r : β)

/-- `cert.name for cert in CertificateType` as the choices of `--certificate` (cli.py:332-338), and `string_to_enum_value` (cli.py:39-44, 280-282). -/
def certChoice (s : String) : Option CertType := CertType.all.find? (fun ct => decide (ct.name = s.toUpper))

/-- The plot of a two-dimensional result (main.py:161-170): `result.f` does not exist on the dictionary `verify` returns. `draw` is the drawing of a `Result`. -/
def plotResult {α β : Type} (draw : β → Except Err Unit) : CmdResult α β → Except Err Unit
  | .verified n _ => if n = 2 then .error .attributeError else .ok ()
  | .synthesised n r => if n = 2 then draw r else .ok ()

/-- Whether `argparse` accepts the arguments (cli.py:271-276, 319-338, 354-355); `present` is `os.path.exists`. -/
def argsOk (present : String → Bool) (a : CmdArgs) : Bool :=
  (match a.file with
    | none => true
    | some f => present f && decide (".yaml".toList <:+ f.toList)) &&
  (match a.certificate with
    | none => true
    | some s => (certChoice s).isSome) &&
  (a.file.isSome || a.certificate.isSome)

/-- `_cli_entry` (main.py:151-173). `run` reads and runs a file. -/
def command {α β : Type} (present : String → Bool) (run : String → Except Err (CmdResult α β)) (draw : β → Except Err Unit) (a : CmdArgs) :
    CmdEnd (CmdResult α β) :=
  if argsOk present a = true then
    match a.certificate with
    | some s => match certChoice s with
      | none => .usage
      | some ct => match ct.sets with
        | .error e => .raised e
        | .ok (d, x) => .listed d x
    | none => match a.file with
      | none => .usage
      | some f => match run f with
        | .error e => .raised e
        | .ok r => if a.plot = true then
            match plotResult draw r with
            | .error e => .raised e
            | .ok _ => .ended r
          else .ended r
  else .usage

end Fossil

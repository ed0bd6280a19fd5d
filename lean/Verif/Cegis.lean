/-
Model of the CEGIS loops of /repo/fossil/cegis.py (SingleCegis.solve 156-228, DoubleCegis.solve 445-537,
process_certificate 291-327, process_cex 255-276 / 539-552, add_ces_to_data 333-346, Cegis dispatch 566-580).
The components (learner, translator, verifier, consolidator, beta search) are parameters: arbitrary functions of
everything they can see (and of the number of the pass, since solvers and random draws need not repeat their answers),
which may raise. `N` is the type of trained networks (a pair for the double loop), `K` of
controller parameters, `P` of data points, `E` of symbolic formulas.
-/
import Verif.Cert

namespace Fossil

/-- `"lie" in label` (consolidator.py:25, cegis.py:260): substring test. -/
def hasLie (l : String) : Bool := decide ("lie".toList <:+: l.toList)

/-- The CEGIS state dictionary (cegis.py:235-253), restricted to the entries that change, and the iteration
counter. -/
structure LoopState (N K P E : Type) where
  net : N
  ctrl : K
  S : Dict String (List P)
  Sdot : Dict String (List P)
  V : Option E
  Vdot : Option E
  found : Bool
  timedOut : Bool
  cex : Dict String (List P)
  traj : List P
  iters : ℕ

/-- The components of the loop. -/
structure Components (N K P E : Type) where
  /-- `learner.get(**state)`: trains network and controller in place (learner.py:203-215). -/
  learn : LoopState N K P E → Except Err (N × K)
  /-- `translator.get` applied to the trained network and the dynamics closed with the current controller
  (cegis.py:177-186, 230-233). -/
  translate : N → K → Except Err (E × E)
  /-- `verifier.get`: is given only V and Vdot, returns found and cex (verifier.py:115-166); solver timeouts and
  the random perturbations may make it answer differently in different passes: the first argument is the number of the
  pass. The second stands
  for the certificate object, whose `beta` (ROA) was set by the last `learn` (certificate.py:446-448). -/
  verify : ℕ → N → E → E → Except Err (Bool × Dict String (List P))
  /-- `consolidator.get` (consolidator.py:22-28). -/
  consolidate : ℕ → N → K → Dict String (List P) → Except Err (List P)
  /-- `certificate.beta_search` (certificate.py:1284-1321). -/
  betaSearch : ℕ → E → E → Except Err Bool
  /-- `certificate.estimate_beta` (certificate.py:307-314, 450-452): may raise; its value only sets `learner.beta`. -/
  estimateBeta : N → Except Err Unit
  /-- the dynamics `self.f` with the current controller, on one data point. -/
  dyn : K → P → P

/-- Settings of the loop. -/
structure LoopCfg where
  cert : CertType
  /-- `config.CEGIS_MAX_ITERS` -/
  maxIters : ℤ

variable {N K P E : Type}

/-- The loop over `ces.items()` in `add_ces_to_data` (cegis.py:342-346). -/
def addCes (dyn : P → P) : Dict String (List P) → Dict String (List P) → Dict String (List P) →
    Except Err (Dict String (List P) × Dict String (List P))
  | [], S, Sdot => .ok (S, Sdot)
  | (lab, rows) :: rest, S, Sdot =>
    if rows.isEmpty then addCes dyn rest S Sdot
    else match Dict.get? S lab with
      | none => .error .keyError
      | some old =>
        addCes dyn rest (Dict.set S lab (old ++ rows)) (Dict.set Sdot lab ((old ++ rows).map dyn))

/-- The trajectory part of `SingleCegis.process_cex` (cegis.py:258-266): the trajectory is appended to the
counterexamples of the first data label containing "lie". -/
def mergeTraj (S cex : Dict String (List P)) (traj : List P) : Except Err (Dict String (List P)) :=
  if traj.isEmpty then .ok cex
  else match (Dict.keys S).find? hasLie with
    | none => .error .indexError
    | some l => match Dict.get? cex l with
      | none => .error .keyError
      | some rows => .ok (Dict.set cex l (rows ++ traj))

/-- `process_cex`: with trajectory (SingleCegis, cegis.py:255-276) or without (DoubleCegis, cegis.py:539-552). -/
def processCex (double : Bool) (c : Components N K P E) (st : LoopState N K P E) :
    Except Err (LoopState N K P E) :=
  match (if double then .ok st.cex else mergeTraj st.S st.cex st.traj) with
  | .error e => .error e
  | .ok cex => match addCes (c.dyn st.ctrl) cex st.S st.Sdot with
    | .error e => .error e
    | .ok (S, Sdot) => .ok { st with cex := cex, S := S, Sdot := Sdot }

/-- `process_certificate` (cegis.py:291-327): returns `stop` and the state (with `found` reset when the stay condition
could not be proved). The test is on `CertificateType.RSWS` only. -/
def processCertificate (cfg : LoopCfg) (c : Components N K P E) (V Vdot : E) (st : LoopState N K P E) :
    Except Err (Bool × LoopState N K P E) :=
  match (if cfg.cert = .LYAPUNOV ∨ cfg.cert = .ROA then c.estimateBeta st.net else .ok ()) with
  | .error e => .error e
  | .ok _ =>
    if cfg.cert = .RSWS then
      match c.betaSearch st.iters V Vdot with
      | .error e => .error e
      | .ok true => .ok (true, st)
      | .ok false => .ok (decide (cfg.maxIters = st.iters), { st with found := false })
    else .ok (true, st)

/-- `config.CERTIFICATE in (STABLESAFE, RAR)`: the dispatch of `Cegis.__new__` (cegis.py:566-575). -/
def LoopCfg.double (cfg : LoopCfg) : Bool := cfg.cert == .STABLESAFE || cfg.cert == .RAR

/-- The state after the four components ran (cegis.py:175-195). -/
def LoopState.after (st : LoopState N K P E) (net : N) (ctrl : K) (V Vdot : E) (found : Bool)
    (cex : Dict String (List P)) (traj : List P) : LoopState N K P E :=
  ⟨net, ctrl, st.S, st.Sdot, some V, some Vdot, found, st.timedOut, cex, traj, st.iters⟩

/-- The decision at the end of a pass (cegis.py:197-213, 508-524): `stop` and the state. -/
def loopDecide (cfg : LoopCfg) (c : Components N K P E) (V Vdot : E) (st : LoopState N K P E) :
    Except Err (Bool × LoopState N K P E) :=
  if st.found = true then processCertificate cfg c V Vdot st
  else if st.timedOut = true then .ok (true, st)
  else if cfg.maxIters = st.iters then .ok (true, st)
  else match processCex cfg.double c st with
    | .error e => .error e
    | .ok st' => .ok (false, st')

/-- `iters += 1` (cegis.py:215, 526). -/
def LoopState.tick (st : LoopState N K P E) : LoopState N K P E := { st with iters := st.iters + 1 }

/-- One pass of the `while not stop` loop (cegis.py:173-216, 464-525). Returns `stop` and the next state. In the double
loop the freezing of the first learner (cegis.py:487-504) is part of `learn`, which sees the counterexamples: Freeze.lean. -/
def loopBody (cfg : LoopCfg) (c : Components N K P E) (st : LoopState N K P E) :
    Except Err (Bool × LoopState N K P E) := do
  let (net, ctrl) ← c.learn st
  let (V, Vdot) ← c.translate net ctrl
  let (found, cex) ← c.verify st.iters net V Vdot
  let traj ← c.consolidate st.iters net ctrl cex
  let (stop, st2) ← loopDecide cfg c V Vdot (st.after net ctrl V Vdot found cex traj)
  return (stop, st2.tick)

/-- `solve` as a loop relation: `Steps cfg c st k st'` — `k` passes that did not stop lead from `st` to `st'`. -/
inductive Steps (cfg : LoopCfg) (c : Components N K P E) : LoopState N K P E → ℕ → LoopState N K P E → Prop where
  | refl (st) : Steps cfg c st 0 st
  | tail {st k st' st''} : Steps cfg c st k st' → loopBody cfg c st' = .ok (false, st'') → Steps cfg c st (k + 1) st''

/-- The initial state (cegis.py:157-171, 235-253): `Sdot` is the dynamics of `S`, `found` and the time-out flag are
`False`, `iters = 0`. -/
def initState (c : Components N K P E) (net : N) (ctrl : K) (S : Dict String (List P)) : LoopState N K P E :=
  ⟨net, ctrl, S, Dict.mapVals (List.map (c.dyn ctrl)) S, none, none, false, false, [], [], 0⟩

/-- `Cegis(config).solve()` returns with final state `out`. -/
def Solves (cfg : LoopCfg) (c : Components N K P E) (net : N) (ctrl : K) (S : Dict String (List P))
    (out : LoopState N K P E) : Prop :=
  ∃ k st, Steps cfg c (initState c net ctrl S) k st ∧ loopBody cfg c st = .ok (true, out)

/-- The loop run with bounded fuel: `none` if it has not stopped yet. -/
def runLoop (cfg : LoopCfg) (c : Components N K P E) : ℕ → LoopState N K P E →
    Except Err (Option (LoopState N K P E))
  | 0, _ => .ok none
  | fuel + 1, st => match loopBody cfg c st with
    | .error e => .error e
    | .ok (true, st') => .ok (some st')
    | .ok (false, st') => runLoop cfg c fuel st'

end Fossil

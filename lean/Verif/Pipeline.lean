/-
The verification step of one CEGIS iteration, from the configured sets, the trained network and the dynamics
to the queries handed to the solver (/repo/fossil/cegis.py:38-58 constructors, 177-195 the calls in `solve`).
-/
import Verif.Cert

namespace Fossil

/-- `certificate.get_certificate` (certificate.py:1683-1709) followed by the constructor and the
`get_constraints` of the class it returns, for the single-network certificates. `CUSTOM` (user-supplied class)
and the two-network types are not single CEGIS certificates: `STABLESAFE` raises ValueError
(cegis.py:129-130); `RAR` is dispatched to DoubleCegis (cegis.py:566-580). -/
def singleConstraints (ct : CertType) (n : ℕ) (llo : Bool) (beta : ℚ) (d : Dict String Formula) (V Vdot : Term) :
    Except Err (List (Dict String Formula)) :=
  match ct with
  | .LYAPUNOV => lyapunovConstraints n llo d V Vdot
  | .ROA => roaConstraints n llo beta d V Vdot
  | .BARRIER => barrierConstraints d V Vdot
  | .BARRIERALT => barrierAltConstraints d V Vdot
  | .RWA | .RWS | .RSWA | .RSWS => rwsConstraints d V Vdot
  | .STABLESAFE | .RAR | .CUSTOM => .error .valueError

/-- Settings of one verification step. -/
structure Setup where
  /-- symbolic library of the chosen verifier (consts.py VerifierType) -/
  lib : Lib
  /-- `config.N_VARS` -/
  nVars : ℕ
  /-- `config.CERTIFICATE` -/
  cert : CertType
  /-- `config.DOMAINS` -/
  domains : Dict String PySet
  /-- `config.LLO` -/
  llo : Bool
  /-- `config.ROUNDING` -/
  rounding : ℤ
  /-- `config.FACTORS == QUADRATIC` -/
  quad : Bool
  /-- the trained network -/
  net : Net
  /-- symbolic dynamics `f(x)` -/
  f : List Term
  /-- `certificate.beta` (ROA only; set by `learn`) -/
  beta : ℚ

/-- The queries of a continuous-time single-network verification step: domains (cegis.py:101-120),
translation (cegis.py:183-186, translator.py:102-145), constraints. -/
def queriesCT (s : Setup) : Except Err (List (Dict String Formula)) := do
  let d ← initialiseDomains s.lib s.nVars s.cert s.domains
  let (V, Vdot) ← translateCT s.lib s.rounding none s.quad s.net (vars s.nVars) s.f
  singleConstraints s.cert s.nVars s.llo s.beta d V Vdot

/-- The same for discrete time (`TranslatorDT`). -/
def queriesDT (s : Setup) : Except Err (List (Dict String Formula)) := do
  let d ← initialiseDomains s.lib s.nVars s.cert s.domains
  let (V, Vdot) ← translateDT s.lib s.rounding s.quad s.net (vars s.nVars) s.f
  singleConstraints s.cert s.nVars s.llo s.beta d V Vdot

/-- `double_constraints` for the two-network certificates (certificate.py:1431-1444, 1567-1590). -/
def queriesDouble (s : Setup) (barr : Net) : Except Err (List (Dict String Formula)) := do
  let d ← initialiseDomains s.lib s.nVars s.cert s.domains
  let ((V, Vdot), (B, Bdot)) ← translateCTDouble s.lib s.rounding none s.net barr (vars s.nVars) s.f
  match s.cert with
  | .STABLESAFE => safeRoaConstraints s.nVars s.llo s.beta d V Vdot B Bdot
  | .RAR => rarConstraints d V Vdot B Bdot
  | _ => .error .valueError

/-- One `stay_in_goal_check` (certificate.py:1239-1282) on the symbolic certificate and domains of the current step;
`o β false`/`o β true` are the two solver calls made for the guess `β`. -/
def stayCheckCT {R : Type} (B : Backend R) (o : ℚ → Bool → Formula → R) (s : Setup) (β : ℚ) :
    Except Err Stay := do
  let d ← initialiseDomains s.lib s.nVars s.cert s.domains
  let (V, Vdot) ← translateCT s.lib s.rounding none s.quad s.net (vars s.nVars) s.f
  let (q1, q2) ← stayQueries d V Vdot β
  stayVerdict B (o β false q1) (o β true q2)

end Fossil

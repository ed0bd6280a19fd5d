/-
Model of the verification of a certificate given by the user: /repo/fossil/main.py:133-148 (`verify`),
/repo/fossil/verifier.py:290-298, 360-380, 431-432, 503-504 (symbolic gradients), /repo/fossil/parser.py:90-108 and
/repo/fossil/cli.py:66-71, 233-236 (reading the candidate).
-/
import Verif.Pipeline
import Verif.Controller
import Verif.Text

namespace Fossil

/-- Does the term contain variable `j`? (`Variables.include` of a dReal expression) -/
def Term.mentions (j : ℕ) : Term → Bool
  | .var i => i == j
  | .const _ => false
  | .add a b | .sub a b | .mul a b | .div a b => a.mentions j || b.mentions j
  | .neg a | .pow a _ | .app _ a => a.mentions j

/-- Outer derivative of a smooth function, applied to the argument `a` (dReal `Expression.Differentiate`). -/
def Fn.diff (a : Term) : Fn → Term
  | .sin => .app .cos a
  | .cos => .neg (.app .sin a)
  | .exp => .app .exp a
  | .log => .div (.const 1) a
  | .tanh => .sub (.const 1) (.pow (.app .tanh a) 2)
  | .sinh => .app .cosh a
  | .cosh => .app .sinh a
  | .relu | .step => .const 0

/-- `expr.Differentiate(x_j)` of dReal (called at verifier.py:370): the usual rules; conditional and maximum expressions raise
(RuntimeError) unless the variable does not occur in them. dReal's automatic simplification is not modelled. -/
def Term.diff (j : ℕ) : Term → Except Err Term
  | .var i => .ok (.const (if i = j then 1 else 0))
  | .const _ => .ok (.const 0)
  | .add a b => do return .add (← a.diff j) (← b.diff j)
  | .sub a b => do return .sub (← a.diff j) (← b.diff j)
  | .mul a b => do return .add (.mul (← a.diff j) b) (.mul a (← b.diff j))
  | .div a b => do return .div (.sub (.mul (← a.diff j) b) (.mul a (← b.diff j))) (.pow b 2)
  | .neg a => do return .neg (← a.diff j)
  | .pow a k => do return .mul (.mul (.const k) (.pow a (k - 1))) (← a.diff j)
  | .app f a =>
    if f = .relu ∨ f = .step then (if a.mentions j then .error .runtimeError else .ok (.const 0))
    else do return .mul (f.diff a) (← a.diff j)

/-- `ver.compute_gradient(C)` (verifier.py:290-298, 372-380): dReal differentiates by each of its variables; the other verifiers
raise NotImplementedError (verifier.py:431-432, 503-504), except that without variables nothing is differentiated. -/
def gradient (lib : Lib) (n : ℕ) (C : Term) : Except Err (List Term) :=
  if lib = .dreal then (List.range n).mapM (fun j => C.diff j)
  else if n = 0 then .ok [] else .error .notImplemented

/-- `(gradC @ np.atleast_2d(cegis.xdot).T)[0, 0]` (main.py:146): a ValueError if the dimensions differ. -/
def lieTerm (g f : List Term) : Except Err Term :=
  if g.length = f.length then .ok (Term.sum (List.zipWith .mul g f)) else .error .valueError

/-- `get_constraints(verifier, C, Cdot)` for a given candidate. The certificate object is new: `ROA` has no attribute `beta`
before `learn` was called (certificate.py:330-340, 458); the two-function certificates unpack `C` (certificate.py:1431-1444,
1567-1590), a TypeError. -/
def candidateConstraints (ct : CertType) (n : ℕ) (llo : Bool) (d : Dict String Formula) (C Cdot : Term) :
    Except Err (List (Dict String Formula)) :=
  match ct with
  | .LYAPUNOV => lyapunovConstraints n llo d C Cdot
  | .ROA => .error .attributeError
  | .BARRIER => barrierConstraints d C Cdot
  | .BARRIERALT => barrierAltConstraints d C Cdot
  | .RWA | .RWS | .RSWA | .RSWS => rwsConstraints d C Cdot
  | .STABLESAFE | .RAR => .error .typeError
  | .CUSTOM => .error .valueError

/-- The part of the configuration that `verify` uses (main.py:133-148). `f` are the symbolic dynamics `cegis.xdot`. -/
structure VerifyCfg where
  lib : Lib
  nVars : ℕ
  /-- `config.TIME_DOMAIN` is discrete; not looked at by `verify` -/
  discrete : Bool
  cert : CertType
  domains : Dict String PySet
  llo : Bool
  /-- `config.CANDIDATE(ver.xs)` -/
  cand : Term
  f : List Term

/-- The queries sent to the solver by `verify` (main.py:143-147). Failures of `Cegis(opts)` for reasons other than the domains
(main.py:143) are not modelled. -/
def candidateQueries (c : VerifyCfg) : Except Err (List (Dict String Formula)) := do
  let d ← initialiseDomains c.lib c.nVars c.cert c.domains
  let g ← gradient c.lib c.nVars c.cand
  let Cdot ← lieTerm g c.f
  candidateConstraints c.cert c.nVars c.llo d c.cand Cdot

/-- `main.verify(opts)` (main.py:133-148): the `found` flag and the counterexamples. -/
def verifyCandidate {R : Type} (B : Backend R) (noise : String → ℕ → ℕ → ℚ) (o : Oracle R) (c : VerifyCfg) :
    Except Err VerifyOut :=
  match candidateQueries c with
  | .error e => .error e
  | .ok groups => verify B c.nVars noise o groups

/-- `CFP.read_candidate` (cli.py:66-71, parser.py:90-108) and the call `opts.CANDIDATE(ver.xs)` (main.py:145) for dReal: the value
in the configuration file must be a list with one text (`[certificate] = s`, a ValueError otherwise); every variable of the
verifier must occur in the text (`self.xs[str(variable)]`, parser.py:380, a KeyError otherwise). Inputs `u0, ...` in the text
are left alone (free variables); texts with inputs, square roots or non-integer powers are reported as NotImplementedError
(a limit of the model, not of the code). -/
def readCandidate (texts : List String) (n : ℕ) : Except Err Term :=
  match texts with
  | [s] =>
    match parseText drealFuncs s with
    | .error e => .error e
    | .ok a =>
      if (List.range n).all (fun i => a.xs.contains i) then
        match a.toTerm? (fun _ => none) with
        | some t => .ok t
        | none => .error .notImplemented
      else .error .keyError
  | _ => .error .valueError

end Fossil

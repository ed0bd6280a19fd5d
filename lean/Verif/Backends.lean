/-
Model of the choice of the parts of a run: /repo/fossil/verifier.py:648-673 (`get_verifier_type`, `get_verifier`) with the constructors and `new_vars` of
the five verifiers, /repo/fossil/translator.py:358-381, /repo/fossil/learner.py:489-499, the three places that look at the type of an expression
(/repo/fossil/control.py:34-48, /repo/fossil/domains.py:366-375, /repo/fossil/activations.py:28-38), the order of `SingleCegis.__init__`
(/repo/fossil/cegis.py:38-58, 348-358, 408-448, 566-575), and the loop without a verifier.
-/
import Verif.Assembly
import Verif.Options

namespace Fossil

/-- What an expression is made of, as far as `isinstance` tests in the code see it. -/
inductive ExprKind where
  /-- `dreal.Variable` -/
  | drealVariable
  /-- `dreal.Expression` -/
  | drealExpression
  /-- `z3.ArithRef` (variables and terms) -/
  | z3Arith
  /-- `cvc5.pythonic.ArithRef` (variables and terms) -/
  | cvc5Arith
  /-- `sympy.Expr` (symbols and terms) -/
  | sympyExpr
  /-- Python integers -/
  | int
deriving DecidableEq

/-- `new_vars` of the five classes (verifier.py:303-304, 385-386, 437-438, 515-516, 606-607). -/
def VName.newVars : VName → ExprKind
  | .DREAL => .drealVariable
  | .Z3 => .z3Arith
  | .CVC5 => .cvc5Arith
  | .MARABOU => .int
  | .NONE => .sympyExpr

/-- `DynamicalModel.f` on a list of symbolic values (control.py:34-48): which function table is used; `none` when no test applies and the method returns
`None`. `contains_object` (utils.py:558-562) looks at the first element; numeric arrays are not included. -/
def ExprKind.modelTable : ExprKind → Option Lib
  | .drealVariable => some .dreal
  | .z3Arith => some .z3
  | .cvc5Arith => some .cvc5
  | .sympyExpr => some .sympy
  | .drealExpression | .int => none

/-- `Set.set_functions` (domains.py:366-375) with `check_type` (verifier.py:310-315, 392-397, 449-454). -/
def ExprKind.setTable : ExprKind → Lib
  | .drealVariable => .dreal
  | .z3Arith => .z3
  | .cvc5Arith => .cvc5
  | .drealExpression | .sympyExpr | .int => .sympy

/-- `activations.get_symbolic_functions` (activations.py:28-38). -/
def ExprKind.activationTable : ExprKind → Except Err Lib
  | .drealVariable | .drealExpression => .ok .dreal
  | .z3Arith => .ok .z3
  | .cvc5Arith => .ok .cvc5
  | .sympyExpr => .ok .sympy
  | .int => .error .notImplemented

/-- The translators (translator.py:96, 198, 269, 309). -/
inductive TranslatorKind where
  | CT | DT | CTDouble | marabou
deriving DecidableEq

/-- `get_translator_type` (translator.py:358-370). -/
def translatorType (discrete : Bool) (v : VName) : Except Err TranslatorKind :=
  if v = .MARABOU then (if discrete then .ok .marabou else .error .valueError)
  else if discrete then .ok .DT
  else .ok .CT

/-- The learners (learner.py:322, 373, 408, 449). -/
inductive LearnerKind where
  | CT | DT | ctrlCT | ctrlDT
deriving DecidableEq

/-- `get_learner` (learner.py:489-499). -/
def learnerType (discrete ctrl : Bool) : LearnerKind :=
  if ctrl && !discrete then .ctrlCT
  else if ctrl && discrete then .ctrlDT
  else if !discrete then .CT
  else .DT

/-- The constructor of a verifier (verifier.py:64-78, 507-512, 600-601): `VerifierMarabou` reads `CegisConfig.INNER_RADIUS`, which does not exist. -/
def newVerifier (v : VName) : Except Err VName :=
  if v = .MARABOU then .error .attributeError else .ok v

/-- The parts a run was put together from. -/
structure Parts where
  verifier : VName
  vars : ExprKind
  learner : LearnerKind
  translator : TranslatorKind
deriving DecidableEq

/-- The translator of a run (cegis.py:143-154, 432-441, 566-575): the double loop always takes `TranslatorCTDouble`. -/
def runTranslator (discrete : Bool) (v : VName) (cert : CertType) : Except Err TranslatorKind :=
  if cert = .STABLESAFE ∨ cert = .RAR then .ok .CTDouble else translatorType discrete v

/-- The assertion on discrete time in `_assert_state` (cegis.py:351-355). -/
def assertTime (discrete : Bool) (cert : CertType) : Except Err Unit :=
  if discrete = true ∧ ¬ (cert = .LYAPUNOV ∨ cert = .BARRIERALT) then .error .assertionError else .ok ()

/-- `Cegis(config)` (cegis.py:38-58, 566-575): `early` is what happens before the learner is chosen (sets, system, data, certificate), `late` the remaining
assertions (cegis.py:52, 349-350, 358). -/
def startParts (early late : Except Err Unit) (v : VName) (discrete ctrl : Bool) (cert : CertType) : Except Err Parts := do
  early
  let ver ← newVerifier v
  let t ← runTranslator discrete v cert
  assertTime discrete cert
  late
  return ⟨ver, v.newVars, learnerType discrete ctrl, t⟩

/-- The loop without a verifier: `VerifierNone.verify` (verifier.py:603-604) ignores the formulas, the consolidator finds no counterexample
(consolidator.py:22-28, 105-112), and the beta search of RSWS asks for `VerifierNone.solver_fncts()`, which looks up `sympy.If`: AttributeError
(certificate.py:1257, verifier.py:617). -/
def withoutVerifier {N K E : Type} (C : Components N K (List ℚ) E) : Components N K (List ℚ) E :=
  { C with
    verify := fun _ _ _ _ => .ok (verifyNone.found, verifyNone.cex)
    consolidate := fun _ _ _ _ => .ok []
    betaSearch := fun _ _ _ => .error .attributeError }

/-- The components for a verifier (cegis.py:71-80). -/
def withVerifier {N K E : Type} (v : VName) (C : Components N K (List ℚ) E) : Components N K (List ℚ) E :=
  if v = .NONE then withoutVerifier C else C

end Fossil

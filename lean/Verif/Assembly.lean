/-
The CEGIS loop (`Verif.Cegis`) put together with the modelled translator, domains, certificate conditions and verifier:
what `fossil.synthesise(config)` runs (/repo/fossil/main.py:101-117, cegis.py:30-228, 361-537). The optimiser
(`learn`), the solver (`oracle`, `stayOracle`), the perturbations (`noise`), the trajectory search (`consolidate`) and the
border sampling (`estimateBeta`) remain parameters.
-/
import Verif.Cegis
import Verif.Pipeline

namespace Fossil

/-- The configuration (`CegisConfig`, consts.py:169-214), restricted to what the guarantee depends on. -/
structure SynthCfg where
  lib : Lib
  nVars : ℕ
  cert : CertType
  domains : Dict String PySet
  llo : Bool
  rounding : ℤ
  quad : Bool
  /-- `config.CEGIS_MAX_ITERS` -/
  maxIters : ℤ

/-- The loop settings of a configuration. -/
def SynthCfg.loop (c : SynthCfg) : LoopCfg := ⟨c.cert, c.maxIters⟩

/-- One verification step with the trained network `net`, the level `beta` and the dynamics `f`. -/
def SynthCfg.setup (c : SynthCfg) (net : Net) (beta : ℚ) (f : List Term) : Setup :=
  ⟨c.lib, c.nVars, c.cert, c.domains, c.llo, c.rounding, c.quad, net, f, beta⟩

/-- The environment of a synthesis run: everything that is not determined by the modelled code. `R` is the type of solver
answers, `K` of controllers; `T` says which symbolic closed-loop dynamics a controller gives (control.py:313-370). -/
structure World (R K N : Type) where
  backend : Backend R
  oracle : ℕ → Oracle R
  stayOracle : ℕ → ℚ → Bool → Formula → R
  noise : ℕ → String → ℕ → ℕ → ℚ
  dynamics : K → List Term
  dynNum : K → List ℚ → List ℚ
  consolidate : ℕ → N → K → Dict String (List (List ℚ)) → Except Err (List (List ℚ))
  estimateBeta : N → Except Err Unit

/-- `beta_search` (certificate.py:1284-1321) as a function: the result of the loop if it returns; a diverging or raising
search is an error (no result is ever reported in either case). -/
noncomputable def betaSearchFn (check : ℚ → Except Err Stay) : Except Err Bool :=
  open Classical in
  if _h : ∃ k β, BetaRun check betaInit k (some β) then .ok true
  else if _h : ∃ k, BetaRun check betaInit k none then .ok false
  else .error .runtimeError

/-- The stay check with the domains of the configuration, for given symbolic certificate (certificate.py:1239-1282). -/
def stayCheckFor {R : Type} (B : Backend R) (o : ℚ → Bool → Formula → R) (c : SynthCfg) (V Vdot : Term) (β : ℚ) :
    Except Err Stay := do
  let d ← initialiseDomains c.lib c.nVars c.cert c.domains
  let (q1, q2) ← stayQueries d V Vdot β
  stayVerdict B (o β false q1) (o β true q2)

/-- The components of `SingleCegis` in continuous time (cegis.py:30-58, 122-154). `discrete` selects `TranslatorDT`
(translator.py get_translator_type). A network comes with the `beta` the certificate object holds after training. -/
noncomputable def singleComponents {R K : Type} (w : World R K (Net × ℚ)) (c : SynthCfg) (discrete : Bool)
    (learn : LoopState (Net × ℚ) K (List ℚ) Term → Except Err ((Net × ℚ) × K)) :
    Components (Net × ℚ) K (List ℚ) Term where
  learn := learn
  translate n k :=
    if discrete then translateDT c.lib c.rounding c.quad n.1 (vars c.nVars) (w.dynamics k)
    else translateCT c.lib c.rounding none c.quad n.1 (vars c.nVars) (w.dynamics k)
  verify i n V Vdot := do
    let d ← initialiseDomains c.lib c.nVars c.cert c.domains
    let g ← singleConstraints c.cert c.nVars c.llo n.2 d V Vdot
    let o ← verify w.backend c.nVars (w.noise i) (w.oracle i) g
    return (o.found, o.cex)
  consolidate := w.consolidate
  betaSearch i V Vdot := betaSearchFn (stayCheckFor w.backend (w.stayOracle i) c V Vdot)
  estimateBeta := w.estimateBeta
  dyn := w.dynNum

/-- The components of `DoubleCegis` (cegis.py:361-443): two networks, `TranslatorCTDouble`, the constraints of `SafeROA` or
`ReachAvoidRemain`. -/
noncomputable def doubleComponents {R K : Type} (w : World R K ((Net × ℚ) × Net)) (c : SynthCfg)
    (learn : LoopState ((Net × ℚ) × Net) K (List ℚ) (Term × Term) → Except Err (((Net × ℚ) × Net) × K)) :
    Components ((Net × ℚ) × Net) K (List ℚ) (Term × Term) where
  learn := learn
  translate n k := do
    let ((V, Vdot), (B, Bdot)) ←
      translateCTDouble c.lib c.rounding none n.1.1 n.2 (vars c.nVars) (w.dynamics k)
    return ((V, B), (Vdot, Bdot))
  verify i n V Vdot := do
    let d ← initialiseDomains c.lib c.nVars c.cert c.domains
    let g ← (match c.cert with
      | .STABLESAFE => safeRoaConstraints c.nVars c.llo n.1.2 d V.1 Vdot.1 V.2 Vdot.2
      | .RAR => rarConstraints d V.1 Vdot.1 V.2 Vdot.2
      | _ => .error .valueError)
    let o ← verify w.backend c.nVars (w.noise i) (w.oracle i) g
    return (o.found, o.cex)
  consolidate := w.consolidate
  betaSearch _ _ _ := .error .attributeError
  estimateBeta := w.estimateBeta
  dyn := w.dynNum

end Fossil

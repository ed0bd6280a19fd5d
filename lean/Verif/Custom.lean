/-
Certificates supplied by the user: `CERTIFICATE: CUSTOM` with `CUSTOM_CERTIFICATE` a subclass of `Certificate`
(/repo/fossil/certificate.py:63-152, get_certificate 1683-1709, cegis.py:41-58, 126-136, 348-358) and the example class of the
repository (/repo/custom_cert.py:16-120).
-/
import Verif.Assembly

namespace Fossil

/-- What `get_constraints` of a user's class returns: an iterable of dictionaries, or a single dictionary ("For simplicity, as
single dictionary may be returned", certificate.py:119). The class may raise instead. Simplification: a generator that
raises after having yielded some dictionaries raises at once here; success needs all of them, so it is not affected. -/
inductive Returned where
  | groups (gs : List (Dict String Formula))
  | single (g : Dict String Formula)

/-- `for group in fmls: for label, condition in group.items()` (verifier.py:130-131) on the returned object: iterating over a
dictionary gives its keys, which are strings and have no `items`. -/
def Returned.iterate : Returned → Except Err (List (Dict String Formula))
  | .groups gs => .ok gs
  | .single [] => .ok []
  | .single (_ :: _) => .error .attributeError

/-- A user's subclass of `Certificate`: the methods it defines (`none`: inherited from the base class). `σ` is the state of the
certificate object, which training may change. -/
structure CustomClass (K σ : Type) where
  /-- `__init__(self, domains, config)`; the configuration is fixed. -/
  init : Option (Dict String Formula → Except Err σ)
  /-- `learn`, as the learner calls it (learner.py:203-215): trains network and controller. -/
  learn : Option (LoopState (Net × σ) K (List ℚ) Term → Except Err ((Net × σ) × K))
  /-- `get_constraints(verifier, C, Cdot)` -/
  constraints : Option (σ → Term → Term → Except Err Returned)

/-- `certificate_type(self.domains, self.config)` (cegis.py:136): the inherited `__init__(self, domains)` (certificate.py:79-80) does
not take the configuration. -/
def CustomClass.new {K σ : Type} (cls : CustomClass K σ) (d : Dict String Formula) : Except Err σ :=
  match cls.init with
  | none => .error .typeError
  | some f => f d

/-- `learn`; the base class does `raise NotImplemented(...)` (certificate.py:113), which calls an object that is not callable. -/
def CustomClass.runLearn {K σ : Type} (cls : CustomClass K σ) (st : LoopState (Net × σ) K (List ℚ) Term) :
    Except Err ((Net × σ) × K) :=
  match cls.learn with
  | none => .error .typeError
  | some f => f st

/-- `get_constraints`; the base class raises likewise (certificate.py:142). -/
def CustomClass.runConstraints {K σ : Type} (cls : CustomClass K σ) (s : σ) (V Vdot : Term) : Except Err Returned :=
  match cls.constraints with
  | none => .error .typeError
  | some f => f s V Vdot

/-- `get_certificate(CertificateType.CUSTOM, custom_cert)` (certificate.py:1702-1707). -/
def customClassOf {K σ : Type} (custom : Option (CustomClass K σ)) : Except Err (CustomClass K σ) :=
  match custom with
  | none => .error .valueError
  | some cls => .ok cls

/-- `assert self.config.CERTIFICATE in (LYAPUNOV, BARRIERALT)` in discrete time (cegis.py:351-355). -/
def assertContinuous (discrete : Bool) : Except Err Unit :=
  if discrete then .error .assertionError else .ok ()

/-- `SingleCegis.__init__` (cegis.py:42-56) for a custom certificate: domains, certificate class and object, state assertions.
Not modelled: the user's own `_assert_state`, which can only raise (certificate.py:144-151). -/
def startCustom {K σ : Type} (c : SynthCfg) (custom : Option (CustomClass K σ)) (discrete : Bool) :
    Except Err (CustomClass K σ × σ) := do
  let d ← initialiseDomains c.lib c.nVars c.cert c.domains
  let cls ← customClassOf custom
  let s ← cls.new d
  assertContinuous discrete
  return (cls, s)

/-- The components of `SingleCegis` with a custom certificate (cegis.py:42-58): as in `singleComponents`, with the learn and
get_constraints methods of the user's class. `process_certificate` (cegis.py:291-327) calls neither `estimate_beta` nor
`beta_search` for CUSTOM. -/
def customComponents {R K σ : Type} (w : World R K (Net × σ)) (c : SynthCfg) (cls : CustomClass K σ) :
    Components (Net × σ) K (List ℚ) Term where
  learn := cls.runLearn
  translate n k := translateCT c.lib c.rounding none c.quad n.1 (vars c.nVars) (w.dynamics k)
  verify i n V Vdot := do
    let r ← cls.runConstraints n.2 V Vdot
    let g ← r.iterate
    let o ← verify w.backend c.nVars (w.noise i) (w.oracle i) g
    return (o.found, o.cex)
  consolidate := w.consolidate
  betaSearch _ _ _ := .error .attributeError
  estimateBeta := w.estimateBeta
  dyn := w.dynNum

/-- `fossil.synthesise` (main.py:101-117) with a custom certificate returns with final state `out`. -/
def CustomSolves {R K σ : Type} (w : World R K (Net × σ)) (c : SynthCfg) (custom : Option (CustomClass K σ)) (discrete : Bool)
    (net : Net) (ctrl : K) (S : Dict String (List (List ℚ))) (out : LoopState (Net × σ) K (List ℚ) Term) : Prop :=
  ∃ cls s, startCustom c custom discrete = .ok (cls, s) ∧ Solves c.loop (customComponents w c cls) (net, s) ctrl S out

/-- `CustomLyapunov` (/repo/custom_cert.py:16-120). Its object holds the formula of the domain XD, `learn` (57-101) trains the
network and does not change the object (`train` stands for the training), `get_constraints` is 103-120. -/
def customLyapunov {K : Type} (n : ℕ)
    (train : LoopState (Net × Formula) K (List ℚ) Term → Except Err (Net × K)) : CustomClass K Formula where
  init := some fun d => Dict.getE d XD
  learn := some fun st => do
    let (net, k) ← train st
    return ((net, st.net.2), k)
  constraints := some fun dom V Vdot =>
    let neg := Formula.or (leZero V) (geZero Vdot)
    let notOrigin := Formula.not (Formula.conj ((vars n).map (fun x => .eq x (.const 0))))
    .ok (.groups [[(XD, .and dom (.and neg notOrigin))]])

end Fossil

/-
Model of the verification conditions of /repo/fossil/certificate.py (`get_constraints` of every class,
constructors, stay-in-goal check and beta search) and of `SingleCegis._initialise_domains`
(/repo/fossil/cegis.py:101-120).
-/
import Verif.Verifier
import Verif.Net

namespace Fossil

/-! ### labels: consts.py:88-98, certificate.py:26-38 -/

/-- `DomainNames.XD.value`, the whole-domain / Lie-derivative label. -/
def XD : String := "lie"
/-- `DomainNames.XI.value` -/
def XI : String := "init"
/-- `DomainNames.XU.value` -/
def XU : String := "unsafe"
/-- `DomainNames.XS.value` -/
def XS : String := "safe"
/-- `DomainNames.XG.value` -/
def XG : String := "goal"
/-- `DomainNames.XG_BORDER.value` -/
def XGB : String := "goal_border"
/-- `DomainNames.XS_BORDER.value` -/
def XSB : String := "safe_border"
/-- `DomainNames.XF.value` -/
def XF : String := "final"
/-- `DomainNames.XNF.value` -/
def XNF : String := "not_final"
/-- `DomainNames.XR.value` -/
def XR : String := "region"

/-- `CertificateType` members (consts.py:108-119). -/
inductive CertType where
  | BARRIER | BARRIERALT | LYAPUNOV | ROA | RWA | RSWA | RWS | RSWS | STABLESAFE | RAR | CUSTOM
deriving DecidableEq, Repr

/-- `label in certificate.BORDERS` (certificate.py:37, cegis.py:109). -/
def isBorder (l : String) : Bool := l == XGB || l == XSB

/-- `domains[label]` of `_initialise_domains` for one entry (cegis.py:107-111). -/
def domainFormula (lib : Lib) (n : ℕ) (l : String) (S : PySet) : Except Err Formula :=
  if isBorder l then S.generateBoundary lib (vars n) else S.generateDomain lib (vars n)

/-- The dict comprehension of `_initialise_domains` (cegis.py:106-113). -/
def domainEntries (lib : Lib) (n : ℕ) : Dict String PySet → Except Err (Dict String Formula)
  | [] => .ok []
  | (l, S) :: rest => match domainFormula lib n l S with
    | .error e => .error e
    | .ok φ => match domainEntries lib n rest with
      | .error e => .error e
      | .ok d => .ok ((l, φ) :: d)

/-- `d[k]` raising KeyError. -/
def Dict.getE {α : Type _} (d : Dict String α) (k : String) : Except Err α :=
  match Dict.get? d k with
  | some a => .ok a
  | none => .error .keyError

/-- `SingleCegis._initialise_domains` (cegis.py:101-120). -/
def initialiseDomains (lib : Lib) (n : ℕ) (ct : CertType) (doms : Dict String PySet) :
    Except Err (Dict String Formula) :=
  match domainEntries lib n doms with
  | .error e => .error e
  | .ok d =>
    if ct = .RAR then do
      let S ← Dict.getE doms XF
      let φ ← S.generateComplement lib (vars n)
      return Dict.set d XNF φ
    else .ok d

/-! ### get_constraints -/

/-- `t >= 0` -/
def geZero (t : Term) : Formula := .le (.const 0) t
/-- `t > 0` -/
def gtZero (t : Term) : Formula := .lt (.const 0) t
/-- `t <= 0` -/
def leZero (t : Term) : Formula := .le t (.const 0)

/-- `Lyapunov.__init__` + `get_constraints` (certificate.py:164-169, 284-305): the domain formula must
hold, the point is not the origin, and positivity (unless LLO) or decrease fails. -/
def lyapunovConstraints (n : ℕ) (llo : Bool) (doms : Dict String Formula) (V Vdot : Term) :
    Except Err (List (Dict String Formula)) := do
  let dom ← Dict.getE doms XD
  let neg := if llo then geZero Vdot else .or (leZero V) (geZero Vdot)
  let notOrigin := Formula.not (Formula.conj ((vars n).map (fun x => .eq x (.const 0))))
  return [[(XD, .and dom (.and neg notOrigin))]]

/-- `ROA.__init__` + `get_constraints` (certificate.py:334-338, 454-484); `beta` is `self.beta`, inflated by
1.1; `0.01**2` is taken to be exactly 1/10000. -/
def roaConstraints (n : ℕ) (llo : Bool) (beta : ℚ) (doms : Dict String Formula) (V Vdot : Term) :
    Except Err (List (Dict String Formula)) := do
  let init ← Dict.getE doms XI
  let B := Formula.le V (.const (beta * (11/10)))
  let neg := if llo then geZero Vdot else .or (leZero V) (gtZero Vdot)
  let sphere := Formula.le (Term.sum ((vars n).map (.pow · 2))) (.const (1/10000))
  let Bcond := Formula.and init (.not B)
  let lyap := Formula.and (.and B (.not sphere)) neg
  return [[(XD, .or Bcond lyap)]]

/-- `Barrier.__init__` + `get_constraints` (certificate.py:506-512, 646-676). -/
def barrierConstraints (doms : Dict String Formula) (B Bdot : Term) :
    Except Err (List (Dict String Formula)) := do
  let dom ← Dict.getE doms XD
  let init ← Dict.getE doms XI
  let unsafe_ ← Dict.getE doms XU
  return [[(XI, .and (.and (geZero B) init) dom), (XU, .and (.and (leZero B) unsafe_) dom)],
    [(XD, .and (.and (.eq B (.const 0)) (geZero Bdot)) dom)]]

/-- `BarrierAlt.__init__` + `get_constraints` (certificate.py:715-719, 846-872). -/
def barrierAltConstraints (doms : Dict String Formula) (B Bdot : Term) :
    Except Err (List (Dict String Formula)) := do
  let dom ← Dict.getE doms XD
  let init ← Dict.getE doms XI
  let unsafe_ ← Dict.getE doms XU
  return [[(XI, .and (.and (geZero B) init) dom), (XU, .and (.and (leZero B) unsafe_) dom)],
    [(XD, .and (gtZero Bdot) dom)]]

/-- `self.gamma` (certificate.py:915, 1129). -/
def gamma : ℚ := 1/100

/-- `RWS.__init__` + `get_constraints` (certificate.py:893-915, 1041-1070); `RSWS` inherits it. -/
def rwsConstraints (doms : Dict String Formula) (C Cdot : Term) :
    Except Err (List (Dict String Formula)) := do
  let dom ← Dict.getE doms XD
  let init ← Dict.getE doms XI
  let safe ← Dict.getE doms XS
  let border ← Dict.getE doms XSB
  let goal ← Dict.getE doms XG
  let A := Formula.conj [leZero C, safe, .not goal]
  return [[(XI, .and (.and (gtZero C) init) dom), (XU, .and (.and (leZero C) border) dom)],
    [(XD, .and A (gtZero (.add Cdot (.const gamma))))]]

/-- `SafeROA.get_constraints` (certificate.py:1338-1341, 1431-1444). -/
def safeRoaConstraints (n : ℕ) (llo : Bool) (beta : ℚ) (doms : Dict String Formula)
    (V Vdot B Bdot : Term) : Except Err (List (Dict String Formula)) := do
  let l ← roaConstraints n llo beta doms V Vdot
  let b ← barrierConstraints doms B Bdot
  return l ++ b

/-- `Barrier._for_goal_final` (certificate.py:678-686): the initial set is the goal, the unsafe set the
complement of the final set. -/
def goalFinalDomains (doms : Dict String Formula) : Except Err (Dict String Formula) := do
  let g ← Dict.getE doms XG
  let nf ← Dict.getE doms XNF
  return Dict.set (Dict.set doms XI g) XU nf

/-- `cs[new] = cs.pop(old)` (certificate.py:1581-1584): KeyError when `old` is missing. -/
def relabel (old new : String) (cs : Dict String Formula) : Except Err (Dict String Formula) := do
  let φ ← Dict.getE cs old
  return Dict.set (Dict.erase cs old) new φ

/-- The relabelling loops of `ReachAvoidRemain.get_constraints` (certificate.py:1580-1584). -/
def relabelBarrier : List (Dict String Formula) → Except Err (List (Dict String Formula))
  | [] => .ok []
  | g :: gs => do
    let g1 ← relabel XI XG g
    let g2 ← relabel XU XNF g1
    let gs' ← mapE (relabel XD XF) gs
    return g2 :: gs'

/-- `ReachAvoidRemain.__init__` + `get_constraints` (certificate.py:1458-1463, 1567-1590). -/
def rarConstraints (doms : Dict String Formula) (V Vdot B Bdot : Term) :
    Except Err (List (Dict String Formula)) := do
  let r ← rwsConstraints doms V Vdot
  let d ← goalFinalDomains doms
  let b ← barrierConstraints d B Bdot
  let b' ← relabelBarrier b
  return r ++ b'

/-! ### RSWS: stay-in-goal check and beta search -/

/-- The two queries of `stay_in_goal_check` (certificate.py:1257-1268). -/
def stayQueries (doms : Dict String Formula) (C Cdot : Term) (beta : ℚ) : Except Err (Formula × Formula) := do
  let safe ← Dict.getE doms XS
  let goal ← Dict.getE doms XG
  let border ← Dict.getE doms XGB
  let B := Formula.and safe (.lt C (.const beta))
  return (.and (.le C (.const beta)) border,
    .and (.and goal (.not B)) (gtZero (.add Cdot (.const gamma))))

/-- Result of `stay_in_goal_check`. -/
inductive Stay where
  | ok | decrease | increase | both
deriving DecidableEq, Repr

/-- `stay_in_goal_check` (certificate.py:1239-1282) given the two solver answers. -/
def stayVerdict {R : Type} (B : Backend R) (r1 r2 : R) : Except Err Stay :=
  if B.isUnsat r1 && B.isUnsat r2 then .ok .ok
  else if B.isSat r1 && B.isUnsat r2 then .ok .decrease
  else if B.isUnsat r1 && B.isSat r2 then .ok .increase
  else if B.isSat r1 && B.isSat r2 then .ok .both
  else .error .assertionError

/-- State of the search interval. -/
structure BetaState where
  lower : ℚ
  upper : ℚ
deriving DecidableEq, Repr

/-- `(beta_upper + beta_lower) / 2` (certificate.py:1306, 1315, 1318), exact arithmetic. -/
def BetaState.guess (s : BetaState) : ℚ := (s.upper + s.lower) / 2

/-- Initial interval (certificate.py:1304-1305). -/
def betaInit : BetaState := ⟨-1000000, 1000⟩

/-- One iteration of `beta_search` (certificate.py:1307-1321): `inl` = return value (`some beta` for True with
`learner.beta = beta`, `none` for False), `inr` = next interval. -/
def betaStep (check : ℚ → Except Err Stay) (s : BetaState) : Except Err (Option ℚ ⊕ BetaState) :=
  match check s.guess with
  | .error e => .error e
  | .ok .ok => .ok (.inl (some s.guess))
  | .ok .decrease => .ok (.inr ⟨s.lower, s.guess⟩)
  | .ok .increase => .ok (.inr ⟨s.guess, s.upper⟩)
  | .ok .both => .ok (.inl none)

/-- `beta_search` as a (possibly non-terminating) loop: `BetaRun check s k r` — starting from interval `s`
the loop returns `r` after exactly `k` further iterations beyond the first. -/
inductive BetaRun (check : ℚ → Except Err Stay) : BetaState → ℕ → Option ℚ → Prop where
  | done {s r} : betaStep check s = .ok (.inl r) → BetaRun check s 0 r
  | step {s s' k r} : betaStep check s = .ok (.inr s') → BetaRun check s' k r → BetaRun check s (k + 1) r

end Fossil

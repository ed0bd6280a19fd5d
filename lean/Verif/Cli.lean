/-
Model of the configuration front end: /repo/fossil/cli.py (`CegisConfigParser`, `parse_yaml_to_cegis_config`) as far as sets and data
are concerned, the tables of /repo/fossil/consts.py, and the label checks of /repo/fossil/certificate.py and cegis.py. Set expressions
are taken as already parsed (`parser.parse_domain`, parser.py:429-486, is modelled in Text.lean); YAML values are naturals or dictionaries of
naturals.
-/
import Verif.Sampling
import Verif.Cert

namespace Fossil

/-- `consts.DomainNames` (consts.py:88-98). -/
inductive DName where
  | XD | XU | XI | XG | XG_BORDER | XF | XS | XS_BORDER | XNF | XR
deriving DecidableEq, Repr

/-- `.value` (consts.py:88-98). -/
def DName.value : DName → String
  | .XD => Fossil.XD | .XU => Fossil.XU | .XI => Fossil.XI | .XG => Fossil.XG | .XG_BORDER => XGB
  | .XF => Fossil.XF | .XS => Fossil.XS | .XS_BORDER => XSB | .XNF => Fossil.XNF | .XR => Fossil.XR

/-- `.name`. -/
def DName.name : DName → String
  | .XD => "XD" | .XU => "XU" | .XI => "XI" | .XG => "XG" | .XG_BORDER => "XG_BORDER"
  | .XF => "XF" | .XS => "XS" | .XS_BORDER => "XS_BORDER" | .XNF => "XNF" | .XR => "XR"

/-- All members. -/
def DName.all : List DName := [.XD, .XU, .XI, .XG, .XG_BORDER, .XF, .XS, .XS_BORDER, .XNF, .XR]

/-- `DomainNames[key]`: KeyError for an unknown name. -/
def DName.ofName (s : String) : Except Err DName :=
  match DName.all.find? (fun d => d.name = s) with
  | some d => .ok d
  | none => .error .keyError

/-- `DomainNames.border_sets().values()` (consts.py:99-105). -/
def DName.borderValues : List DName := [.XS_BORDER, .XG_BORDER]

/-- `CertificateType.get_certificate_sets` (consts.py:121-150): documented domains and data; for CUSTOM the local variables are never
assigned (UnboundLocalError, a NameError). -/
def CertType.sets : CertType → Except Err (List DName × List DName)
  | .LYAPUNOV => .ok ([.XD], [.XD])
  | .BARRIER | .BARRIERALT => .ok ([.XD, .XI, .XU], [.XD, .XI, .XU])
  | .ROA => .ok ([.XD, .XI], [.XD, .XI])
  | .RWS | .RWA => .ok ([.XD, .XI, .XS, .XS_BORDER, .XG], [.XD, .XI, .XU])
  | .RSWS | .RSWA => .ok ([.XD, .XI, .XS, .XS_BORDER, .XG, .XG_BORDER], [.XD, .XI, .XU, .XS, .XG, .XG_BORDER])
  | .STABLESAFE => .ok ([.XD, .XI, .XU], [.XD, .XI, .XU])
  | .RAR => .ok ([.XD, .XI, .XS, .XS_BORDER, .XG, .XF], [.XD, .XI, .XU, .XG, .XF, .XNF])
  | .CUSTOM => .error .nameError

/-- `CertificateType.get_required_borders` (consts.py:152-166). -/
def CertType.requiredBorders : CertType → List (DName × DName)
  | .RWS | .RWA => [(.XS, .XS_BORDER)]
  | .RSWS | .RSWA => [(.XS, .XS_BORDER), (.XG, .XG_BORDER)]
  | .RAR => [(.XS, .XS_BORDER)]
  | _ => []

/-- A data source: `S._generate_data(N)` or `S._sample_border(N)` (domains.py:339-359), evaluated later by
`_initialise_data` (cegis.py:122-124). -/
inductive Src where
  | interior (S : PySet) (N : ℕ)
  | border (S : PySet) (N : ℕ)
deriving DecidableEq, Repr

/-- Calling the data source. -/
noncomputable def Src.sample (g : Rng) : Src → Except Err Rows
  | .interior S N => S.generateData g N
  | .border S N => S.sampleBorder g N

/-- `read_domains` (cli.py:98-105): a dict comprehension. -/
def readDomains : List (String × PySet) → Dict String PySet → Except Err (Dict String PySet)
  | [], acc => .ok acc
  | (key, S) :: rest, acc => do
    let d ← DName.ofName key
    readDomains rest (Dict.set acc d.value S)

/-- `add_borders` (cli.py:108-114). -/
def addBorders : List (DName × DName) → Dict String PySet → Except Err (Dict String PySet)
  | [], doms => .ok doms
  | (dom, border) :: rest, doms => do
    let S ← Dict.get doms dom.value
    addBorders rest (Dict.set doms border.value S)

/-- The `N_DATA` field. -/
inductive NData where
  | int (N : ℕ)
  | dict (d : List (String × ℕ))
deriving DecidableEq, Repr

/-- `read_data`, integer case (cli.py:121-127): the key is a string and `borders` holds enum members, so the border branch is never
taken. -/
def readDataInt (N : ℕ) : Dict String PySet → Dict String Src
  | [] => []
  | (key, S) :: rest => (key, .interior S N) :: readDataInt N rest

/-- `read_data`, dictionary case (cli.py:128-137). -/
def readDataDict (doms : Dict String PySet) : List (String × ℕ) → Dict String Src → Except Err (Dict String Src)
  | [], acc => .ok acc
  | (key, N) :: rest, acc => do
    let d ← DName.ofName key
    if d ∈ DName.borderValues then do
      let S ← Dict.get doms d.value
      readDataDict doms rest (Dict.set acc d.value (.border S N))
    else match Dict.get? doms d.value with
      | some S => readDataDict doms rest (Dict.set acc d.value (.interior S N))
      | none => readDataDict doms rest acc

/-- `data_config[name] if isinstance(data_config, dict) else data_config` (cli.py:152, 163, 177-183). -/
def NData.count (nd : NData) (d : DName) : Except Err ℕ :=
  match nd with
  | .int N => .ok N
  | .dict l => Dict.get l d.name

/-- `data[label] = SetMinus(domains[XD], domains[inner])._generate_data(N)`. -/
def addMinus (data : Dict String Src) (doms : Dict String PySet) (nd : NData) (label inner : DName) : Except Err (Dict String Src) := do
  let D ← Dict.get doms XD
  let I ← Dict.get doms inner.value
  let N ← nd.count label
  return Dict.set data label.value (.interior (.setMinus D I) N)

/-- `adjust_data_and_domains_for_certificate` (cli.py:139-201). In `adjust_rar` both set differences are built before the counts are
read; only the order in which possible KeyErrors occur differs. -/
def adjustData (ct : CertType) (data : Dict String Src) (doms : Dict String PySet) (nd : NData) :
    Except Err (Dict String Src × Dict String PySet) :=
  match ct with
  | .ROA => do
    let _ ← Dict.get doms XD
    return (data, Dict.erase doms XD)
  | .RWS | .RWA | .RSWS | .RSWA => do
    let data ← addMinus data doms nd .XU .XS
    return (data, doms)
  | .RAR => do
    let data ← addMinus data doms nd .XU .XS
    let data ← addMinus data doms nd .XNF .XF
    return (data, doms)
  | _ => .ok (data, doms)

/-- The set and data part of `parse_yaml_to_cegis_config` (cli.py:204-247). `N_DATA` is not among the required fields, but it is read
from the YAML data, not from the defaults: KeyError when missing. -/
def parseConfig (ct : CertType) (domains : List (String × PySet)) (nd : Option NData) :
    Except Err (Dict String Src × Dict String PySet) := do
  let doms ← readDomains domains []
  let doms ← addBorders ct.requiredBorders doms
  match nd with
  | none => .error .keyError
  | some nd => do
    let data ← match nd with
      | .int N => .ok (readDataInt N doms)
      | .dict d => readDataDict doms d []
    adjustData ct data doms nd

/-- `_set_assertion(set(required), set(actual), name)` (certificate.py:54-60). -/
def setAssertion (required actual : List String) : Except Err Unit :=
  if required.all (actual.contains ·) && actual.all (required.contains ·) then .ok () else .error .valueError

/-- `certificate._assert_state(domains, data)` (certificate.py:145-151, 317-321, 487-491, 696-700, 875-879, 1073-1079, 1324-1332,
1447-1454, 1593-1599; classes by get_certificate, 1683-1709). For CUSTOM the class of the user; the base class accepts. -/
def assertState (ct : CertType) (doms data : List String) : Except Err Unit :=
  match ct with
  | .LYAPUNOV => do setAssertion [XD] doms; setAssertion [XD] data
  | .ROA => do setAssertion [XI] doms; setAssertion [XD, XI] data
  | .BARRIER | .BARRIERALT => do setAssertion [XD, XI, XU] doms; setAssertion [XD, XI, XU] data
  | .RWS | .RWA => do setAssertion [XD, XI, XS, XSB, XG] doms; setAssertion [XD, XI, XU] data
  | .RSWS | .RSWA => do setAssertion [XD, XI, XS, XSB, XG, XGB] doms; setAssertion [XD, XI, XU, XS, XG, XGB] data
  | .STABLESAFE => do
    setAssertion [XD, XI, XU] doms
    if data.contains XR then setAssertion [XD, XR, XI, XU] data else setAssertion [XD, XI, XU] data
  | .RAR => do setAssertion [XD, XI, XS, XSB, XG, XF, XNF] doms; setAssertion [XD, XI, XU, XG, XF, XNF] data
  | .CUSTOM => .ok ()

/-- `CegisConfig` fields checked by `SingleCegis._assert_state` (cegis.py:348-358). -/
structure CheckCfg where
  learningRate : ℚ
  maxTimePositive : Bool
  discrete : Bool

/-- `SingleCegis._assert_state` (cegis.py:348-358). -/
def cegisAssertState (c : CheckCfg) (ct : CertType) (doms data : List String) : Except Err Unit := do
  if c.learningRate ≤ 0 then .error .assertionError
  else if !c.maxTimePositive then .error .assertionError
  else if c.discrete && !(ct == .LYAPUNOV || ct == .BARRIERALT) then .error .assertionError
  else assertState ct doms data

/-- Running the CLI on a configuration up to the label checks: parse, build the symbolic domains (cegis.py:101-120), check. Returns
the data sources and the domain formulas. -/
def cliStart (lib : Lib) (n : ℕ) (c : CheckCfg) (ct : CertType) (domains : List (String × PySet)) (nd : Option NData) :
    Except Err (Dict String Src × Dict String Formula) := do
  let (data, doms) ← parseConfig ct domains nd
  let d ← initialiseDomains lib n ct doms
  cegisAssertState c ct d.keys data.keys
  return (data, d)

end Fossil

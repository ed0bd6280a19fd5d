/-
Model of reading the options of a configuration file: /repo/fossil/cli.py:25-46, 204-268 (`parse_yaml_to_cegis_config`, the enumeration tables) and the
defaults of /repo/fossil/consts.py:170-214 (`CegisConfig`). The file is given as the dictionary `yaml.safe_load` returns; values are those shapes of YAML
data that options can have, everything else is `other`.
-/
import Verif.ControlConfig
import Verif.VerifyConfig

namespace Fossil

/-- YAML data (cli.py:205-206). -/
inductive Yaml where
  | null
  | bool (b : Bool)
  | int (z : ℤ)
  | num (q : ℚ)
  | text (s : String)
  | texts (l : List String)
  | ints (l : List ℤ)
  | textMap (d : Dict String String)
  | countMap (d : Dict String ℕ)
  | other
deriving DecidableEq

/-- `consts.VerifierType` (consts.py:52-57). -/
inductive VName where
  | Z3 | DREAL | CVC5 | MARABOU | NONE
deriving DecidableEq, Repr

/-- Member names (consts.py:52-57). -/
def VName.name : VName → String
  | .Z3 => "Z3" | .DREAL => "DREAL" | .CVC5 => "CVC5" | .MARABOU => "MARABOU" | .NONE => "NONE"

@[inherit_doc VName.name] def VName.all : List VName := [.Z3, .DREAL, .CVC5, .MARABOU, .NONE]

/-- Member names of `CertificateType` (consts.py:108-119). -/
def CertType.name : CertType → String
  | .BARRIER => "BARRIER" | .BARRIERALT => "BARRIERALT" | .LYAPUNOV => "LYAPUNOV" | .ROA => "ROA" | .RWA => "RWA" | .RSWA => "RSWA" | .RWS => "RWS"
  | .RSWS => "RSWS" | .STABLESAFE => "STABLESAFE" | .RAR => "RAR" | .CUSTOM => "CUSTOM"

@[inherit_doc CertType.name] def CertType.all : List CertType :=
  [.BARRIER, .BARRIERALT, .LYAPUNOV, .ROA, .RWA, .RSWA, .RWS, .RSWS, .STABLESAFE, .RAR, .CUSTOM]

/-- Member names of `ActivationType` (consts.py:20-46). -/
def ActivationType.name : ActivationType → String
  | .IDENTITY => "IDENTITY" | .RELU => "RELU" | .LINEAR => "LINEAR" | .SQUARE => "SQUARE" | .POLY_2 => "POLY_2" | .RELU_SQUARE => "RELU_SQUARE"
  | .REQU => "REQU" | .TANH => "TANH" | .TANH_SQUARE => "TANH_SQUARE" | .SIGMOID => "SIGMOID" | .SOFTPLUS => "SOFTPLUS"
  | .SHIFTED_SOFTPLUS => "SHIFTED_SOFTPLUS" | .SHIFTED_SOFTPLUS_SQUARE => "SHIFTED_SOFTPLUS_SQUARE" | .COSH => "COSH"
  | .POLY_3 => "POLY_3" | .POLY_4 => "POLY_4" | .POLY_5 => "POLY_5" | .POLY_6 => "POLY_6" | .POLY_7 => "POLY_7" | .POLY_8 => "POLY_8"
  | .EVEN_POLY_4 => "EVEN_POLY_4" | .EVEN_POLY_6 => "EVEN_POLY_6" | .EVEN_POLY_8 => "EVEN_POLY_8" | .EVEN_POLY_10 => "EVEN_POLY_10"
  | .RATIONAL => "RATIONAL"

@[inherit_doc ActivationType.name] def ActivationType.all : List ActivationType :=
  [.IDENTITY, .RELU, .LINEAR, .SQUARE, .POLY_2, .RELU_SQUARE, .REQU, .POLY_3, .POLY_4, .POLY_5, .POLY_6, .POLY_7, .POLY_8, .EVEN_POLY_4, .EVEN_POLY_6,
    .EVEN_POLY_8, .EVEN_POLY_10, .RATIONAL, .TANH, .TANH_SQUARE, .SIGMOID, .SOFTPLUS, .SHIFTED_SOFTPLUS, .SHIFTED_SOFTPLUS_SQUARE, .COSH]

/-- `TimeDomain` (consts.py:78-80): discrete or not. -/
def timeName (discrete : Bool) : String := if discrete then "DISCRETE" else "CONTINUOUS"

/-- `LearningFactors` (consts.py:73-75): quadratic or none. -/
def factorsName (quad : Bool) : String := if quad then "QUADRATIC" else "NONE"

/-- `string_to_enum_value` (cli.py:27-40): upper-cased and looked up by name; ValueError for an unknown name; a value without `upper` is an
AttributeError. Upper-casing is ASCII. -/
def enumOf {α : Type} (name : α → String) (all : List α) : Yaml → Except Err α
  | .text s => match all.find? (fun a => name a = s.toUpper) with
    | some a => .ok a
    | none => .error .valueError
  | _ => .error .attributeError

/-- `for x in value`: the elements of a list, the keys of a dictionary, the characters of a text. -/
def Yaml.items : Yaml → Except Err (List Yaml)
  | .texts l => .ok (l.map .text)
  | .ints l => .ok (l.map .int)
  | .text s => .ok (s.toList.map (fun c => .text (String.singleton c)))
  | .textMap d => .ok (d.keys.map .text)
  | .countMap d => .ok (d.keys.map .text)
  | .null | .bool _ | .int _ | .num _ => .error .typeError
  | .other => .error .notImplemented

/-- `read_activations` (cli.py:42-47). -/
def readActivations (v : Yaml) : Except Err (List ActivationType) := do
  let l ← v.items
  l.mapM (enumOf ActivationType.name ActivationType.all)

/-- Attribute values of `CegisConfig`: an enumeration member, a list of activations, `math.inf`, or what the file says. -/
inductive Attr where
  | raw (v : Yaml)
  | cert (c : CertType)
  | time (discrete : Bool)
  | verifier (v : VName)
  | factors (quad : Bool)
  | acts (l : List ActivationType)
  | inf
deriving DecidableEq

/-- The attributes of `CegisConfig` with their defaults (consts.py:170-214). `None` and tuples are written as YAML data; LOSS_MARGIN and ACCURACY_MARGIN (pairs
of numbers) as lists. -/
def defaultConfig : Dict String Attr := [
  ("SYSTEM", .raw .null), ("N_VARS", .raw (.int 0)), ("CERTIFICATE", .cert .LYAPUNOV), ("DOMAINS", .raw .null), ("DATA", .raw .null),
  ("TIME_DOMAIN", .time false), ("VERIFIER", .verifier .Z3), ("N_DATA", .raw (.int 500)), ("CEGIS_MAX_ITERS", .raw (.int 10)),
  ("CEGIS_MAX_TIME_S", .inf), ("SEED", .raw .null), ("CUSTOM_CERTIFICATE", .raw .null), ("N_HIDDEN_NEURONS", .raw (.ints [10])),
  ("ACTIVATION", .acts [.SQUARE]), ("CTRLAYER", .raw .null), ("CTRLACTIVATION", .raw .null), ("N_HIDDEN_NEURONS_ALT", .raw (.ints [10])),
  ("ACTIVATION_ALT", .acts [.SQUARE]), ("PRECISION", .raw (.num (1 / 100000))), ("DREAL_JOBS", .raw (.int 1)), ("ROUNDING", .raw (.int 3)),
  ("LOSS_MARGIN", .raw (.ints [0, 0])), ("ACCURACY_MARGIN", .raw (.ints [0, 0])), ("SYMMETRIC_BELT", .raw (.bool false)),
  ("LEARNING_RATE", .raw (.num (1 / 10))), ("FACTORS", .factors false), ("LLO", .raw (.bool false)), ("VERBOSE", .raw (.int 0)), ("ENET", .raw .null),
  ("CANDIDATE", .raw .null)]

/-- Conversion of the value of a field: `ENUM_ATTR_MAP[field](value, enum_type)`, or the value itself (cli.py:221-231, 250-268). -/
def convertField (k : String) (v : Yaml) : Except Err Attr :=
  if k = "CERTIFICATE" then Attr.cert <$> enumOf CertType.name CertType.all v
  else if k = "TIME_DOMAIN" then Attr.time <$> enumOf timeName [false, true] v
  else if k = "VERIFIER" then Attr.verifier <$> enumOf VName.name VName.all v
  else if k = "FACTORS" then Attr.factors <$> enumOf factorsName [true, false] v
  else if k = "ACTIVATION" ∨ k = "CTRLACTIVATION" ∨ k = "ACTIVATION_ALT" then Attr.acts <$> readActivations v
  else .ok (.raw v)

/-- Names that `hasattr` finds although they are no options (`__class__`, `__getitem__`, ...): files using them are outside the model. -/
def reserved (k : String) : Bool := k.startsWith "__"

/-- The loop over the fields (cli.py:219-233): known fields are converted and set, for others there is only a warning. -/
def setFields : Dict String Yaml → Dict String Attr → Except Err (Dict String Attr)
  | [], cfg => .ok cfg
  | (k, v) :: rest, cfg =>
    if reserved k then .error .notImplemented
    else if k ∈ defaultConfig.keys then do
      let a ← convertField k v
      setFields rest (cfg.set k a)
    else setFields rest cfg

/-- The required fields (cli.py:209-213). -/
def requiredFields : List String := ["SYSTEM", "CERTIFICATE", "DOMAINS", "TIME_DOMAIN"]

/-- The populated `CegisConfig` (cli.py:204-233). -/
def readOptions (file : Dict String Yaml) : Except Err (Dict String Attr) :=
  if requiredFields.all (file.keys.contains ·) then setFields file defaultConfig else .error .valueError

/-! ### use of the attributes -/

/-- The parser and the verifier's variables for a verifier name: `get_parser_from_verifier` (parser.py:610-624) has one for each but MARABOU
(ValueError); without a verifier, expressions are sympy's (verifier.py:606-607). -/
def VName.lib : VName → Except Err Lib
  | .Z3 => .ok .z3
  | .DREAL => .ok .dreal
  | .CVC5 => .ok .cvc5
  | .NONE => .ok .sympy
  | .MARABOU => .error .valueError

/-- An attribute used as a natural number; values of another type lead to some later exception, not modelled. -/
def Attr.nat : Attr → Except Err ℕ
  | .raw (.int z) => if 0 ≤ z then .ok z.toNat else .error .notImplemented
  | _ => .error .notImplemented

/-- An attribute used as an integer (the same remark). -/
def Attr.int : Attr → Except Err ℤ
  | .raw (.int z) => .ok z
  | _ => .error .notImplemented

/-- An attribute used as a truth value (the same remark). -/
def Attr.bool : Attr → Except Err Bool
  | .raw (.bool b) => .ok b
  | _ => .error .notImplemented

/-- An attribute used as a number (the same remark). -/
def Attr.rat : Attr → Except Err ℚ
  | .raw (.int z) => .ok z
  | .raw (.num q) => .ok q
  | _ => .error .notImplemented

/-- `CEGIS_MAX_TIME_S > 0` (cegis.py:350; the same remark). -/
def Attr.positive : Attr → Except Err Bool
  | .inf => .ok true
  | .raw (.int z) => .ok (decide (0 < z))
  | .raw (.num q) => .ok (decide (0 < q))
  | _ => .error .notImplemented

/-- An attribute used as a list of neuron counts (the same remark). -/
def Attr.sizes : Attr → Except Err (List ℕ)
  | .raw (.ints l) => if l.all (fun z => decide (0 ≤ z)) then .ok (l.map Int.toNat) else .error .notImplemented
  | _ => .error .notImplemented

/-- `config.CERTIFICATE` etc. after `readOptions` (always of that kind). -/
def Attr.getCert : Attr → Except Err CertType
  | .cert c => .ok c
  | _ => .error .typeError

@[inherit_doc Attr.getCert] def Attr.getTime : Attr → Except Err Bool
  | .time d => .ok d
  | _ => .error .typeError

@[inherit_doc Attr.getCert] def Attr.getVerifier : Attr → Except Err VName
  | .verifier v => .ok v
  | _ => .error .typeError

@[inherit_doc Attr.getCert] def Attr.getFactors : Attr → Except Err Bool
  | .factors q => .ok q
  | _ => .error .typeError

@[inherit_doc Attr.getCert] def Attr.getActs : Attr → Except Err (List ActivationType)
  | .acts l => .ok l
  | _ => .error .typeError

/-- `config_data["N_DATA"]` (cli.py:240-243): from the file, not from the defaults. -/
def nDataOf (file : Dict String Yaml) : Except Err (Option NData) :=
  match file.get? "N_DATA" with
  | none => .ok none
  | some (.int z) => if 0 ≤ z then .ok (some (.int z.toNat)) else .error .notImplemented
  | some (.countMap d) => .ok (some (.dict d))
  | some _ => .error .notImplemented

/-- `config_data["SYSTEM"]` (cli.py:235). -/
def systemOf (file : Dict String Yaml) : Except Err (List String) := do
  match (← file.get "SYSTEM") with
  | .texts l => .ok l
  | _ => .error .notImplemented

/-- `config_data["DOMAINS"].items()` (cli.py:238, 101-105). -/
def domainsOf (file : Dict String Yaml) : Except Err (Dict String String) := do
  match (← file.get "DOMAINS") with
  | .textMap d => .ok d
  | .countMap _ => .error .notImplemented
  | .other => .error .notImplemented
  | _ => .error .attributeError

/-- The parts of the configuration that `ConfigText` collects. -/
def configText (file : Dict String Yaml) (cfg : Dict String Attr) : Except Err ConfigText := do
  let lib ← (← (← cfg.get "VERIFIER").getVerifier).lib
  let n ← (← cfg.get "N_VARS").nat
  let ct ← (← cfg.get "CERTIFICATE").getCert
  let sys ← systemOf file
  let doms ← domainsOf file
  let nd ← nDataOf file
  let lr ← (← cfg.get "LEARNING_RATE").rat
  let mt ← (← cfg.get "CEGIS_MAX_TIME_S").positive
  let td ← (← cfg.get "TIME_DOMAIN").getTime
  let llo ← (← cfg.get "LLO").bool
  let rnd ← (← cfg.get "ROUNDING").int
  let quad ← (← cfg.get "FACTORS").getFactors
  let it ← (← cfg.get "CEGIS_MAX_ITERS").int
  return ⟨lib, n, ct, sys, doms, nd, ⟨lr, mt, td⟩, llo, rnd, quad, it⟩

/-- The sizes and activations of the certificate networks. -/
structure NetOpts where
  hidden : List ℕ
  acts : List ActivationType
  hiddenAlt : List ℕ
  actsAlt : List ActivationType
deriving DecidableEq

/-- N_HIDDEN_NEURONS, ACTIVATION and their ALT variants (cegis.py:131-143, 428-448). -/
def netOpts (cfg : Dict String Attr) : Except Err NetOpts := do
  let h ← (← cfg.get "N_HIDDEN_NEURONS").sizes
  let a ← (← cfg.get "ACTIVATION").getActs
  let h' ← (← cfg.get "N_HIDDEN_NEURONS_ALT").sizes
  let a' ← (← cfg.get "ACTIVATION_ALT").getActs
  return ⟨h, a, h', a'⟩

/-- What the entry point goes on with (main.py:155-160, cli.py:81-96, 234-236). -/
inductive Start where
  | synth (c : ConfigText) (o : NetOpts)
  | control (c : ControlConfig) (o : NetOpts)
  | verify (c : ConfigText) (cand : List String)

/-- From the loaded file to the start of a run. A file with both CANDIDATE and CTRLAYER is outside the model. -/
def readFile (file : Dict String Yaml) : Except Err Start := do
  let cfg ← readOptions file
  let c ← configText file cfg
  match ← cfg.get "CTRLAYER", ← cfg.get "CANDIDATE" with
  | .raw .null, .raw .null => do
    let o ← netOpts cfg
    return .synth c o
  | .raw .null, .raw (.texts cand) => return .verify c cand
  | l, .raw .null => do
    let o ← netOpts cfg
    let l ← l.sizes
    let a ← (← cfg.get "CTRLACTIVATION").getActs
    return .control ⟨c, l, a⟩ o
  | _, _ => .error .notImplemented

end Fossil

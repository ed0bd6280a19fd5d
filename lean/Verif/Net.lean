/-
Model of /repo/fossil/activations.py, of the network part of /repo/fossil/learner.py and of
/repo/fossil/translator.py.
-/
import Verif.Domains
import Mathlib.Analysis.SpecialFunctions.Pow.Deriv

namespace Fossil

/-! ### activations.py -/

/-- The activation objects created by `activation_fcn` (activations.py:339-391). -/
inductive Act where
  | identity | relu | square | poly2 | tanh | tanhSquared | sigmoid | softplus
  | shiftedSoftplus | shiftedSoftplusSquare | cosh
  | polyN (n : ℕ) | evenPolyN (n : ℕ)
deriving DecidableEq, Repr

/-- consts.py ActivationType members. -/
inductive ActivationType where
  | IDENTITY | RELU | LINEAR | SQUARE | POLY_2 | RELU_SQUARE | REQU | TANH | TANH_SQUARE | SIGMOID
  | SOFTPLUS | SHIFTED_SOFTPLUS | SHIFTED_SOFTPLUS_SQUARE | COSH
  | POLY_3 | POLY_4 | POLY_5 | POLY_6 | POLY_7 | POLY_8
  | EVEN_POLY_4 | EVEN_POLY_6 | EVEN_POLY_8 | EVEN_POLY_10 | RATIONAL
deriving DecidableEq, Repr

/-- `activation_fcn` (activations.py:339-391); `none` = falls off the end (returns Python `None`). -/
def activationFcn : ActivationType → Option Act
  | .IDENTITY => some .identity
  | .RELU => some .relu
  | .LINEAR => some .identity
  | .SQUARE => some .square
  | .POLY_2 => some .poly2
  | .RELU_SQUARE => some .relu
  | .REQU => some .relu
  | .TANH => some .tanh
  | .TANH_SQUARE => some .tanhSquared
  | .SIGMOID => some .sigmoid
  | .SOFTPLUS => some .softplus
  | .SHIFTED_SOFTPLUS => some .shiftedSoftplus
  | .SHIFTED_SOFTPLUS_SQUARE => some .shiftedSoftplusSquare
  | .COSH => some .cosh
  | .POLY_3 => some (.polyN 3)
  | .POLY_4 => some (.polyN 4)
  | .POLY_5 => some (.polyN 5)
  | .POLY_6 => some (.polyN 6)
  | .POLY_7 => some (.polyN 7)
  | .POLY_8 => some (.polyN 8)
  | .EVEN_POLY_4 => some (.evenPolyN 4)
  | .EVEN_POLY_6 => some (.evenPolyN 6)
  | .EVEN_POLY_8 => some (.evenPolyN 8)
  | .EVEN_POLY_10 => some (.evenPolyN 10)
  | .RATIONAL => none

/-- The list of slices built by PolyN / EvenPolyN (activations.py:290-293, 297-300, 304-307, 318-321,
325-328, 332-335): `n-1` slices of width `h = int(len/n)` and the rest. -/
def polyParts {α : Type _} (n : ℕ) (x : List α) : List (List α) :=
  let h := x.length / n
  (List.range (n - 1)).map (fun i => (x.drop (i * h)).take h) ++ [x.drop ((n - 1) * h)]

/-- `vstack([g(i, x_parts[i]) for i in range(n)])` with `g i` applied to every entry of part `i`
(activations.py:294, 301, 308, 322, 329, 336). -/
def polyCat {α β : Type _} (g : ℕ → α → β) (parts : List (List α)) : List β :=
  (parts.mapIdx (fun i p => p.map (g i))).flatten

/-- torch `forward` of the activations on one row (activations.py:65, 78, 104, 117-120, 136, 159, 182,
205, 224, 243, 267, 289-294, 317-322). torch's softplus switches to the identity above 20; that
numerical shortcut is not modelled. -/
noncomputable def Act.forward (a : Act) (x : List ℝ) : List ℝ :=
  match a with
  | .identity => x
  | .relu => x.map (fun t => max t 0)
  | .square => x.map (· ^ 2)
  | .poly2 => x.take (x.length / 2) ++ (x.drop (x.length / 2)).map (· ^ 2)
  | .tanh => x.map Real.tanh
  | .tanhSquared => x.map (fun t => Real.tanh t ^ 2)
  | .sigmoid => x.map (fun t => 1 / (1 + Real.exp (-t)))
  | .softplus => x.map (fun t => Real.log (1 + Real.exp t))
  | .shiftedSoftplus => x.map (fun t => Real.log (1 + Real.exp t) - Real.log 2)
  | .shiftedSoftplusSquare => x.map (fun t => (Real.log (1 + Real.exp t) - Real.log 2) ^ 2)
  | .cosh => x.map (fun t => Real.cosh t - 1)
  | .polyN n => polyCat (fun i t => t ^ (i + 1)) (polyParts n x)
  | .evenPolyN n => polyCat (fun i t => t ^ (2 * i)) (polyParts n x)

/-- `fncs["tanh"](t)`: a primitive for dReal, a quotient of exponentials for cvc5
(consts.py:302, 322-323). -/
def tanhTerm : Lib → Term → Term
  | .cvc5, t => .div (.sub (.app .exp t) (.app .exp (.neg t))) (.add (.app .exp t) (.app .exp (.neg t)))
  | _, t => .app .tanh t

/-- `dr.exp`, `dr.log`, `dr.cosh`, `dr.sinh` accept dReal expressions only: TypeError for other
symbolic libraries (activations.py:211, 230, 249, 273, 279). -/
def needDreal : Lib → Except Err Unit
  | .dreal => .ok ()
  | _ => .error .typeError

/-- `1 + t` etc. -/
def one : Term := .const 1

/-- `forward_symbolic` (activations.py:68, 81-89, 107, 122-125, 139-145, 162-168, 185-191, 208-212,
227-231, 246-250, 270-274, 296-301, 324-329). The solver's `simplify` (value-preserving) is omitted. -/
def Act.forwardSym (lib : Lib) (a : Act) (x : List Term) : Except Err (List Term) :=
  match a with
  | .identity => .ok x
  | .relu => do
    lib.need .ReLU
    lib.need .simplify
    return x.map (.app .relu)
  | .square => .ok (x.map (.pow · 2))
  | .poly2 => .ok (x.take (x.length / 2) ++ (x.drop (x.length / 2)).map (.pow · 2))
  | .tanh => do
    lib.need .tanh
    return x.map (tanhTerm lib)
  | .tanhSquared => do
    lib.need .tanh
    return x.map (fun t => .pow (tanhTerm lib t) 2)
  | .sigmoid => do
    lib.need .exp
    return x.map (fun t => .div one (.add one (.app .exp (.neg t))))
  | .softplus => do
    needDreal lib
    return x.map (fun t => .app .log (.add one (.app .exp t)))
  | .shiftedSoftplus => do
    needDreal lib
    return x.map (fun t => .sub (.app .log (.add one (.app .exp t))) (.app .log (.const 2)))
  | .shiftedSoftplusSquare => do
    needDreal lib
    return x.map (fun t =>
      .pow (.sub (.app .log (.add one (.app .exp t))) (.app .log (.const 2))) 2)
  | .cosh => do
    needDreal lib
    return x.map (fun t => .sub (.app .cosh t) one)
  | .polyN n => .ok (polyCat (fun i t => .pow t (i + 1)) (polyParts n x))
  | .evenPolyN n => .ok (polyCat (fun i t => .pow t (2 * i)) (polyParts n x))

/-- `derivative_symbolic` (activations.py:71, 91-98, 110, 127-130, 147-153, 170-176, 193-199, 214-218,
233-237, 252-261, 276-280, 303-308, 331-336). -/
def Act.derivativeSym (lib : Lib) (a : Act) (x : List Term) : Except Err (List Term) :=
  match a with
  | .identity => .ok (x.map (fun _ => one))
  | .relu => do
    lib.need .If
    lib.need .simplify
    return x.map (.app .step)
  | .square => .ok (x.map (fun t => .mul (.const 2) t))
  | .poly2 => .ok ((x.take (x.length / 2)).map (fun _ => one)
      ++ (x.drop (x.length / 2)).map (fun t => .mul (.const 2) t))
  | .tanh => do
    lib.need .tanh
    return x.map (fun t => .sub one (.pow (tanhTerm lib t) 2))
  | .tanhSquared => do
    lib.need .tanh
    return x.map (fun t =>
      .mul (.mul (.const 2) (tanhTerm lib t)) (.sub one (.pow (tanhTerm lib t) 2)))
  | .sigmoid => do
    lib.need .exp
    return x.map (fun t =>
      .div (.app .exp (.neg t)) (.pow (.add one (.app .exp (.neg t))) 2))
  | .softplus | .shiftedSoftplus => do
    needDreal lib
    return x.map (fun t => .div one (.add one (.app .exp (.neg t))))
  | .shiftedSoftplusSquare => do
    needDreal lib
    return x.map (fun t =>
      .div (.mul (.mul (.const 2) (.app .exp t))
        (.app .log (.mul (.const (1/2)) (.add one (.app .exp t)))))
        (.add one (.app .exp t)))
  | .cosh => do
    needDreal lib
    return x.map (.app .sinh)
  | .polyN n => .ok (polyCat (fun i t => .mul (.const (i + 1)) (.pow t i)) (polyParts n x))
  | .evenPolyN n =>
    .ok (polyCat (fun i t => .mul (.const (2 * i)) (.pow t (2 * (i : ℤ) - 1))) (polyParts n x))

/-! ### learner.py: networks -/

/-- `torch.nn.Linear`: weight matrix (rows = outputs) and optional bias (learner.py:65-84). -/
structure Layer where
  weight : List (List ℚ)
  bias : Option (List ℚ)
deriving DecidableEq, Repr

/-- The trained network: `layers` (the last one is the output layer), `acts`, `input_size`
(learner.py:50-88). -/
structure Net where
  inputSize : ℕ
  layers : List Layer
  acts : List Act
deriving DecidableEq, Repr

/-- Inner product of a weight row with a real vector. -/
noncomputable def dotR (r : List ℚ) (x : List ℝ) : ℝ := (List.zipWith (fun (c : ℚ) (t : ℝ) => (c : ℝ) * t) r x).sum

/-- `layer(y)` (torch linear map on one row): `W y + b`. -/
noncomputable def Layer.apply (l : Layer) (x : List ℝ) : List ℝ :=
  match l.bias with
  | none => l.weight.map (dotR · x)
  | some b => List.zipWith (fun (r : List ℚ) (c : ℚ) => dotR r x + (c : ℝ)) l.weight b

/-- The hidden part of `LearnerNN.forward` (learner.py:131-135), on one row; `acts[idx]` raises
IndexError when there are fewer activations than hidden layers. -/
noncomputable def hiddenForward : List Layer → List Act → List ℝ → Except Err (List ℝ)
  | [], _, y => .ok y
  | _ :: _, [], _ => .error .indexError
  | l :: ls, a :: as, y => hiddenForward ls as (a.forward (l.apply y))

/-- `LearnerNN.forward` on one row (learner.py:123-138): hidden layers, last layer, column 0. -/
noncomputable def Net.forward (net : Net) (x : List ℝ) : Except Err ℝ :=
  match net.layers.getLast? with
  | none => .error .indexError
  | some last => do
    let y ← hiddenForward net.layers.dropLast net.acts x
    at? (last.apply y) 0

/-! ### translator.py -/

/-- Round half to even. -/
def roundHalfEven (x : ℚ) : ℤ :=
  let f := ⌊x⌋
  if x - f < 1 / 2 then f else if 1 / 2 < x - f then f + 1 else if f % 2 = 0 then f else f + 1

/-- `np.round(x, k)` for `k ≥ 0` (exact arithmetic; numpy's float scaling error is not modelled). -/
def npRound (k : ℕ) (x : ℚ) : ℚ := (roundHalfEven (x * 10 ^ k) : ℚ) / 10 ^ k

/-- Weight preparation `w if round < 0 else np.round(w, round)` (translator.py:112-115, 174-183,
215-218). -/
def roundBy (rnd : ℤ) (x : ℚ) : ℚ := if rnd < 0 then x else npRound rnd.toNat x

/-- `w @ z` for a weight matrix and a symbolic column (translator.py:117, 187, 220, 263): ValueError
when the inner dimensions differ. -/
def matVec (w : List (List ℚ)) (z : List Term) : Except Err (List Term) :=
  if w.all (fun r => r.length == z.length) then
    .ok (w.map (fun r => Term.sum (List.zipWith (fun c t => .mul (.const c) t) r z)))
  else .error .valueError

/-- `z + b` with a column of constants; shapes must agree (numpy broadcasting of mismatched shapes cannot
occur for `nn.Linear` layers and is modelled as ValueError). -/
def addBias (z : List Term) (b : List ℚ) : Except Err (List Term) :=
  if z.length = b.length then .ok (List.zipWith (fun t c => .add t (.const c)) z b)
  else .error .valueError

/-- `w @ jacobian`, a matrix with `n` columns (translator.py:120, 191). -/
def matJac (n : ℕ) (w : List (List ℚ)) (J : List (List Term)) : Except Err (List (List Term)) :=
  if w.all (fun r => r.length == J.length) then
    .ok (w.map (fun r => (List.range n).map (fun j =>
      Term.sum (List.zipWith (fun c row => .mul (.const c) (row.getD j (.const 0))) r J))))
  else .error .valueError

/-- `np.diagflat(d) @ jacobian` (translator.py:192); the zero off-diagonal products are dropped. -/
def diagJac (d : List Term) (J : List (List Term)) : List (List Term) :=
  List.zipWith (fun t row => row.map (.mul t)) d J

/-- `np.eye(n, n)` (translator.py:170). -/
def eyeJac (n : ℕ) : List (List Term) :=
  (List.range n).map (fun i => (List.range n).map (fun j => if i = j then .const 1 else .const 0))

/-- The bias used for a hidden layer: rounded, or zeros when absent (translator.py:176-185, 252-261). -/
def hiddenBias (rnd : ℤ) (l : Layer) : List ℚ :=
  match l.bias with
  | some b => b.map (roundBy rnd)
  | none => l.weight.map (fun _ => 0)

/-- `TranslatorCT.network_until_last_layer` loop (translator.py:164-195). -/
def untilLastCT (lib : Lib) (rnd : ℤ) (n : ℕ) :
    List Layer → List Act → List Term → List (List Term) → Except Err (List Term × List (List Term))
  | [], _, z, J => .ok (z, J)
  | _ :: _, [], _, _ => .error .indexError
  | l :: ls, a :: as, z, J => do
    let w := l.weight.map (fun r => r.map (roundBy rnd))
    let zw ← matVec w z
    let zhat ← addBias zw (hiddenBias rnd l)
    let z' ← a.forwardSym lib zhat
    let J' ← matJac n w J
    let d ← a.derivativeSym lib zhat
    untilLastCT lib rnd n ls as z' (diagJac d J')

/-- `compute_factors` (translator.py:80-89): `(Σ x_i², 2x)` for quadratic factors, `(1, 0)` otherwise. -/
def factors (quad : Bool) (x : List Term) : Term × List Term :=
  if quad then (Term.sum (x.map (.pow · 2)), x.map (fun t => .mul (.const 2) t))
  else (.const 1, x.map (fun _ => .const 0))

/-- How the translator post-processes `gradV[0,0]` and `z[0,0]` for cvc5 (translator.py:131-133):
`none` for the other back-ends, `some r` with `r = round_arith(., dp=round)` for CVC5. -/
abbrev ArithPost := Option (Term → Term)

/-- Replace the first entry of a list. -/
def mapHead {α : Type _} (f : α → α) : List α → List α
  | [] => []
  | a :: l => f a :: l

/-- `last_layer @ z` plus the bias of the last layer, which is used *unrounded* (translator.py:112-119,
215-224). -/
def lastAffine (rnd : ℤ) (last : Layer) (z : List Term) : Except Err (List Term) :=
  match matVec (last.weight.map (fun r => r.map (roundBy rnd))) z with
  | .error e => .error e
  | .ok zw => match last.bias with
    | some b => addBias zw b
    | none => .ok zw

/-- `gradV = der(NN) * E + dE/dx * NN` (translator.py:126-129). -/
def gradTerms (quad : Bool) (x : List Term) (z0 : Term) (g : List Term) : List Term :=
  List.zipWith (fun gj dej => Term.add (.mul gj (factors quad x).1) (.mul dej z0)) g (factors quad x).2

/-- cvc5 post-processing of `gradV[0, 0]` (translator.py:132). -/
def postGrad (post : ArithPost) (g : List Term) : List Term :=
  match post with
  | none => g
  | some r => mapHead r g

/-- cvc5 post-processing of `z[0, 0]` (translator.py:133). -/
def postVal (post : ArithPost) (z0 : Term) : Term :=
  match post with
  | none => z0
  | some r => r z0

/-- Final assembly of `V` and `Vdot` (translator.py:122-145): `assert z.shape == (1, 1)`,
`Vdot = gradV @ xdot` (ValueError on mismatching dimensions), `V = z * E`. -/
def assembleCT (post : ArithPost) (quad : Bool) (x xdot : List Term) (z : List Term) (J : List (List Term)) :
    Except Err (Term × Term) :=
  match z, J with
  | [z0], [g] =>
    if (postGrad post (gradTerms quad x z0 g)).length = xdot.length then
      .ok (.mul (postVal post z0) (factors quad x).1,
        Term.sum (List.zipWith .mul (postGrad post (gradTerms quad x z0 g)) xdot))
    else .error .valueError
  | _, _ => .error .assertionError

/-- `TranslatorCT.get_symbolic_formula` (translator.py:102-145). Returns `(V, Vdot)`.
`sp.expand` (sympy only, value-preserving) is omitted. -/
def translateCT (lib : Lib) (rnd : ℤ) (post : ArithPost) (quad : Bool) (net : Net)
    (x xdot : List Term) : Except Err (Term × Term) :=
  match net.layers.getLast? with
  | none => .error .indexError
  | some last =>
    match untilLastCT lib rnd net.inputSize net.layers.dropLast net.acts x (eyeJac net.inputSize) with
    | .error e => .error e
    | .ok (z, J) => match lastAffine rnd last z with
      | .error e => .error e
      | .ok zo => match matJac net.inputSize (last.weight.map (fun r => r.map (roundBy rnd))) J with
        | .error e => .error e
        | .ok Jo => assembleCT post quad x xdot zo Jo

/-- `TranslatorDT.network_until_last_layer` loop (translator.py:241-266). For `round == 0` neither branch
assigns `w` on the first pass (lines 250, 256), so `w @ z` raises. -/
def untilLastDT (lib : Lib) (rnd : ℤ) :
    List Layer → List Act → List Term → Except Err (List Term)
  | [], _, z => .ok z
  | _ :: _, [], _ => .error .indexError
  | l :: ls, a :: as, z => do
    if rnd = 0 then .error .nameError else pure ()
    let zw ← matVec (l.weight.map (fun r => r.map (roundBy rnd))) z
    let zhat ← addBias zw (hiddenBias rnd l)
    let z' ← a.forwardSym lib zhat
    untilLastDT lib rnd ls as z'

/-- `TranslatorDT.get_symbolic_formula` (translator.py:203-239). For sympy the next-step value is
multiplied by the factor at the *current* state (line 234; in dimension 1 the factor is a `sp.Pow`, not a
`sp.Add`, so line 237 applies), for other libraries by no factor (237). -/
def translateDT (lib : Lib) (rnd : ℤ) (quad : Bool) (net : Net) (x xdot : List Term) :
    Except Err (Term × Term) :=
  match net.layers.getLast? with
  | none => .error .indexError
  | some last => do
    let z ← untilLastDT lib rnd net.layers.dropLast net.acts x
    let zn ← untilLastDT lib rnd net.layers.dropLast net.acts xdot
    let z ← lastAffine rnd last z
    let zn ← lastAffine rnd last zn
    match z, zn with
    | [z0], [zn0] =>
      let E := (factors quad x).1
      let V := Term.mul z0 E
      if quad ∧ lib = .sympy ∧ 2 ≤ x.length then return (V, .sub (.mul zn0 E) V)
      else return (V, .sub zn0 V)
    | _, _ => .error .assertionError

/-- `Fraction.__round__(ndigits)` (used by translator.py:32): for negative `ndigits` rounds to a multiple
of `10^(-ndigits)`. -/
def pyRound (dp : ℤ) (x : ℚ) : ℚ :=
  if 0 ≤ dp then npRound dp.toNat x else (roundHalfEven (x / 10 ^ (-dp).toNat) : ℚ) * 10 ^ (-dp).toNat

/-- `round_ast` below the top level (translator.py:28-36): every constant leaf is replaced by its rounding. -/
def roundLeaves (dp : ℤ) : Term → Term
  | .var i => .var i
  | .const c => .const (pyRound dp c)
  | .add a b => .add (roundLeaves dp a) (roundLeaves dp b)
  | .sub a b => .sub (roundLeaves dp a) (roundLeaves dp b)
  | .mul a b => .mul (roundLeaves dp a) (roundLeaves dp b)
  | .div a b => .div (roundLeaves dp a) (roundLeaves dp b)
  | .neg a => .neg (roundLeaves dp a)
  | .pow a k => .pow (roundLeaves dp a) k
  | .app f a => .app f (roundLeaves dp a)

/-- `round_ast` (translator.py:28-36): the loop runs over the children, so a bare constant is returned
unchanged. -/
def roundAst (dp : ℤ) : Term → Term
  | .const c => .const c
  | t => roundLeaves dp t

/-- `round_arith` (translator.py:39-40), with cvc5's `simplify` as a parameter. -/
def roundArith (simp : Term → Term) (dp : ℤ) (t : Term) : Term := roundAst dp (simp t)

/-- `TranslatorCTDouble.get` (translator.py:277-288): both networks are translated with
`lf = kw.get("factors")`, which is not part of the CEGIS state, hence `None` (no factors). -/
def translateCTDouble (lib : Lib) (rnd : ℤ) (post : ArithPost) (lyap barr : Net) (x xdot : List Term) :
    Except Err ((Term × Term) × (Term × Term)) := do
  let V ← translateCT lib rnd post false lyap x xdot
  let B ← translateCT lib rnd post false barr x xdot
  return (V, B)

end Fossil

/-
Model of the training loops of /repo/fossil/certificate.py (`compute_loss` accuracies and `learn` of every certificate class).
The optimiser is a parameter: `step t θ` is the result of `loss.backward(); optimizer.step()` in pass `t` on parameters `θ`,
an arbitrary function. Real arithmetic replaces float32. Losses only influence the optimiser and are not modelled, except where
computing them raises.
-/
import Verif.Cert
import Verif.Learner

namespace Fossil

/-- What the training loop sees of a network: value of the certificate function at a point, and its Lie derivative (or
one-step difference) at a point with given dynamics value (`learner.get_all`, learner.py:329-405; for RWS and RSWS
`compute_V_gradV` followed by the product with `f`, certificate.py:1004-1007, 948). -/
structure Values (Θ P : Type) where
  val : Θ → P → ℝ
  lie : Θ → P → P → ℝ

open Classical in
/-- `(x <op> c).count_nonzero().item()`. -/
noncomputable def countNonzero (p : ℝ → Prop) (l : List ℝ) : ℕ := l.countP (fun v => decide (p v))

/-- `a * 100 / b`: ZeroDivisionError for `b = 0`. -/
def percent (a : ℚ) (b : ℕ) : Except Err ℚ := if b = 0 then .error .zeroDivision else .ok (a * 100 / b)

/-- The accuracy of `ROA.compute_loss` (certificate.py:376-395; `margin = 0`). -/
noncomputable def roaAcc (llo : Bool) (V Vdot : List ℝ) : Except Err ℚ :=
  if llo then percent (countNonzero (· ≤ 0) Vdot) Vdot.length
  else percent (1/2 * ((countNonzero (· ≤ 0) Vdot : ℚ) + countNonzero (0 ≤ ·) V)) Vdot.length

open Classical in
/-- The accuracy of `Lyapunov.compute_loss` (certificate.py:209-228; `margin = 0`): as for ROA, but the slope of the leaky ReLU
(lines 210-211) is the maximum of an empty tensor (RuntimeError) without samples, and a Python float without `.item`
(AttributeError) if all derivatives are exactly 0 (learner.py:308-312). -/
noncomputable def lyapAcc (llo : Bool) (V Vdot : List ℝ) : Except Err ℚ :=
  if Vdot = [] then .error .runtimeError
  else if ∀ v ∈ Vdot, v = 0 then .error .attributeError
  else roaAcc llo V Vdot

/-- `learn_accuracy * 100 / (B_u.shape[0] + B_i.shape[0])` with margin `m` (certificate.py:537-542, 743-746, 930-933). -/
noncomputable def initUnsafeAcc (m : ℝ) (Bi Bu : List ℝ) : Except Err ℚ :=
  percent ((countNonzero (· ≤ -m) Bi : ℚ) + countNonzero (m ≤ ·) Bu) (Bu.length + Bi.length)

open Classical in
/-- The derivatives at the belt samples (certificate.py:552-559): `|B| <= 0.5`, or `B >= 0` without SYMMETRIC_BELT. -/
noncomputable def beltVals (symmetric : Bool) (Bd Bdotd : List ℝ) : List ℝ :=
  ((Bd.zip Bdotd).filter (fun q => if symmetric then decide (|q.1| ≤ 1/2) else decide (0 ≤ q.1))).map Prod.snd

/-- The accuracies `("acc init unsafe", "acc belt")` of `Barrier.compute_loss` (certificate.py:532-576). -/
noncomputable def barrierAcc (symmetric : Bool) (Bi Bu Bd Bdotd : List ℝ) : Except Err (ℚ × ℚ) := do
  let iu ← initUnsafeAcc 0 Bi Bu
  let belt := beltVals symmetric Bd Bdotd
  if belt = [] then return (iu, 0)
  else return (iu, 100 * (countNonzero (· ≤ 0) belt : ℚ) / belt.length)

/-- The accuracies `("acc init unsafe", "acc lie")` of `BarrierAlt.compute_loss` (certificate.py:741-768; margin 0.05). -/
noncomputable def barrierAltAcc (Bi Bu _Bd Bdotd : List ℝ) : Except Err (ℚ × ℚ) := do
  let iu ← initUnsafeAcc (1/20) Bi Bu
  let lie ← percent (countNonzero (· ≤ -(1/20)) Bdotd) Bdotd.length
  return (iu, lie)

open Classical in
/-- The derivatives at the samples with `V < 0` (certificate.py:937-949). -/
noncomputable def lieVals (Vd Vdotd : List ℝ) : List ℝ := ((Vd.zip Vdotd).filter (fun q => decide (q.1 < 0))).map Prod.snd

/-- The accuracies `("acc init unsafe", "acc lie")` of `RWS.compute_loss` (certificate.py:927-966; gamma 0.01). -/
noncomputable def rwsAcc (Vi Vu Vd Vdotd : List ℝ) : Except Err (ℚ × ℚ) := do
  let iu ← initUnsafeAcc 0 Vi Vu
  let A := lieVals Vd Vdotd
  if A = [] then return (iu, 0)
  else return (iu, (countNonzero (· ≤ -(1/100)) A : ℚ) * 100 / A.length)

/-- `for t in range(learn_loops)`: a pass evaluates the accuracies (with what it remembers of the previous pass) and either
breaks or makes an optimiser step. Returns the parameters and the number of optimiser steps made. -/
def trainLoop {Θ σ : Type} (check : ℕ → σ → Θ → Except Err (Bool × σ)) (step : ℕ → Θ → Θ) :
    ℕ → ℕ → σ → Θ → ℕ → Except Err (Θ × ℕ)
  | 0, _, _, θ, n => .ok (θ, n)
  | k + 1, t, s, θ, n =>
    match check t s θ with
    | .error e => .error e
    | .ok (true, _) => .ok (θ, n)
    | .ok (false, s') => trainLoop check step k (t + 1) s' (step t θ) (n + 1)

/-- `learn_loops = 1000` (certificate.py:249, 415, 599, 793, 987, 1148, 1368, 1484). -/
def learnLoops : ℕ := 1000

/-- `torch.cat([S[label] for label in label_order])`. -/
def catLabels {P : Type} (S : Dict String (List P)) : List String → Except Err (List P)
  | [] => .ok []
  | l :: ls => do
    let a ← Dict.get S l
    let b ← catLabels S ls
    return a ++ b

/-- `torch.cat([s for s in S.values()])`. -/
def catValues {P : Type} (S : Dict String (List P)) : List P := S.values.flatten

/-- `x[i:j]`. -/
def slice {α : Type} (i j : ℕ) (l : List α) : List α := (l.take j).drop i

variable {Θ P : Type}

/-- `samples_dot`: recomputed from the current controller if there is one (`f_torch`), else the stored derivatives. -/
def samplesDot (f : Option (Θ → P → P)) (θ : Θ) (samples : List P) (stored : Except Err (List P)) : Except Err (List P) :=
  match f with
  | some f => .ok (samples.map (f θ))
  | none => stored

/-- `get_all` on a batch: values and derivatives, with the length assertion (learner.py:348). -/
def getAll (v : Values Θ P) (θ : Θ) (samples sdot : List P) : Except Err (List ℝ × List ℝ) :=
  if samples.length = sdot.length then .ok (samples.map (v.val θ), List.zipWith (v.lie θ) samples sdot)
  else .error .assertionError

/-- The accuracy computed in a pass of `Lyapunov.learn` / `ROA.learn` (certificate.py:248-267, 415-434). -/
def lyapPass (acc : List ℝ → List ℝ → Except Err ℚ) (v : Values Θ P) (f : Option (Θ → P → P))
    (S Sdot : Dict String (List P)) (θ : Θ) : Except Err ℚ := do
  let samples ← Dict.get S XD
  let sdot ← samplesDot f θ samples (Dict.get Sdot XD)
  let (V, Vdot) ← getAll v θ samples sdot
  acc V Vdot

/-- The training loop of `Lyapunov.learn` (certificate.py:230-282) and `ROA.learn` (397-444): break when the accuracy is 100 and at
least one step has been made. `step` includes `make_final_layer_positive` where the code calls it. -/
def lyapLearn (acc : List ℝ → List ℝ → Except Err ℚ) (v : Values Θ P) (f : Option (Θ → P → P)) (step : ℕ → Θ → Θ)
    (S Sdot : Dict String (List P)) (θ : Θ) : Except Err (Θ × ℕ) :=
  trainLoop (fun t (_ : Unit) θ => do
    let a ← lyapPass acc v f S Sdot θ
    return (decide (a = 100) && decide (1 ≤ t), ())) step learnLoops 0 () θ 0

/-- `compute_maximum(S)[0]` (learner.py:235-251): the largest network output (without factor) on the samples; no samples:
IndexError. -/
noncomputable def computeMaximum (out : P → ℝ) : List P → Except Err ℝ
  | [] => .error .indexError
  | p :: ps => .ok (ps.foldl (fun m q => max m (out q)) (out p))

/-- `ROA.learn` (certificate.py:397-448): the loop, then `beta = compute_maximum(S[XI])[0]`. -/
noncomputable def roaLearn (llo : Bool) (v : Values Θ P) (out : Θ → P → ℝ) (f : Option (Θ → P → P)) (step : ℕ → Θ → Θ)
    (S Sdot : Dict String (List P)) (θ : Θ) : Except Err (Θ × ℕ × ℝ) := do
  let (θ', n) ← lyapLearn (roaAcc llo) v f step S Sdot θ
  let si ← Dict.get S XI
  let beta ← computeMaximum (out θ') si
  return (θ', n, beta)

/-- The accuracies computed in a pass of `Barrier.learn`, `BarrierAlt.learn`, `RWS.learn` (certificate.py:600-628, 794-828,
988-1021): samples are concatenated in the order XD, XI, XU and sliced by the sizes of S[XD] and S[XI]. For RWS only the
XD part of the derivatives has to have the right length; here a mismatch of the total is an error for all three. -/
def barrierPass (acc : List ℝ → List ℝ → List ℝ → List ℝ → Except Err (ℚ × ℚ)) (v : Values Θ P) (f : Option (Θ → P → P))
    (S Sdot : Dict String (List P)) (θ : Θ) : Except Err (ℚ × ℚ) := do
  let i1 := (← Dict.get S XD).length
  let i2 := (← Dict.get S XI).length
  let samples ← catLabels S [XD, XI, XU]
  let sdot ← samplesDot f θ samples (catLabels Sdot [XD, XI, XU])
  let (B, Bdot) ← getAll v θ samples sdot
  acc (slice i1 (i1 + i2) B) (B.drop (i1 + i2)) (B.take i1) (Bdot.take i1)

/-- `acc init unsafe == 100 and acc belt/lie >= 99.9` (certificate.py:633, 843, 1029, 1202). -/
def barrierOk (a : ℚ × ℚ) : Bool := decide (a.1 = 100) && decide (999/10 ≤ a.2)

/-- A loop that breaks when the condition holds in two consecutive passes (certificate.py:630-642, 840-852, 1026-1038, 1199-1211,
1542-1556). -/
def twiceLoop {α : Type} (pass : Θ → Except Err α) (ok : α → Bool) (step : ℕ → Θ → Θ) (θ : Θ) : Except Err (Θ × ℕ) :=
  trainLoop (fun _ (old : Bool) θ => do
    let a ← pass θ
    return (ok a && old, ok a)) step learnLoops 0 false θ 0

/-- `Barrier.learn` (certificate.py:578-644), `BarrierAlt.learn` (770-852), `RWS.learn` (968-1040). `assert len(S) == len(Sdot)`. -/
def barrierLearn (acc : List ℝ → List ℝ → List ℝ → List ℝ → Except Err (ℚ × ℚ)) (v : Values Θ P) (f : Option (Θ → P → P))
    (step : ℕ → Θ → Θ) (S Sdot : Dict String (List P)) (θ : Θ) : Except Err (Θ × ℕ) :=
  if S.length = Sdot.length then twiceLoop (barrierPass acc v f S Sdot) barrierOk step θ else .error .assertionError

/-- The accuracies computed in a pass of `RSWS.learn` (certificate.py:1147-1197): five labels, slices by cumulative sizes; the
minimum over the goal border (line 1191) needs at least one sample there. -/
noncomputable def rswsPass (v : Values Θ P) (f : Option (Θ → P → P)) (S Sdot : Dict String (List P)) (θ : Θ) :
    Except Err (ℚ × ℚ) := do
  let n1 := (← Dict.get S XD).length
  let n2 := n1 + (← Dict.get S XI).length
  let n3 := n2 + (← Dict.get S XU).length
  let n4 := n3 + (← Dict.get S XGB).length
  let _ ← Dict.get S XG
  let samples ← catLabels S [XD, XI, XU, XGB, XG]
  let sdot ← samplesDot f θ samples (catLabels Sdot [XD, XI, XU, XGB, XG])
  let (V, Vdot) ← getAll v θ samples sdot
  let a ← rwsAcc (slice n1 n2 V) (slice n2 n3 V) (V.take n1) (Vdot.take n1)
  let _ ← computeMaximum (fun p => - v.val θ p) (slice n3 n4 samples)
  return a

/-- `RSWS.learn` (certificate.py:1127-1213). -/
noncomputable def rswsLearn (v : Values Θ P) (f : Option (Θ → P → P))
    (step : ℕ → Θ → Θ) (S Sdot : Dict String (List P)) (θ : Θ) : Except Err (Θ × ℕ) :=
  if S.length = Sdot.length then twiceLoop (rswsPass v f S Sdot) barrierOk step θ else .error .assertionError

/-- The accuracies computed in a pass of `SafeROA.learn` (certificate.py:1363-1405): the slices are those of the order XD, (XR,) XI,
XU, but the samples are concatenated in the order of the data dictionary (line 1375 overwrites line 1374). -/
noncomputable def safeRoaPass (llo symmetric : Bool) (v b : Values Θ P) (f : Option (Θ → P → P))
    (S Sdot : Dict String (List P)) (θ : Θ) : Except Err (ℚ × ℚ × ℚ) := do
  let n1 := (← Dict.get S XD).length
  let (r0, r1) := match Dict.get? S XR with
    | some r => (n1, n1 + r.length)
    | none => (0, n1)
  let n2 := r1 + (← Dict.get S XI).length
  let n3 := n2 + (← Dict.get S XU).length
  let samples := catValues S
  let sdot ← samplesDot f θ samples (.ok (catValues Sdot))
  let (V, Vdot) ← getAll v θ (slice r0 r1 samples) (slice r0 r1 sdot)
  let (B, Bdot) ← getAll b θ samples sdot
  let la ← roaAcc llo V Vdot
  let (iu, belt) ← barrierAcc symmetric (slice r1 n2 B) (slice n2 n3 B) (slice 0 n1 B) (slice 0 n1 Bdot)
  return (la, iu, belt)

/-- `SafeROA.learn` (certificate.py:1344-1424): break when `t > 1` and all accuracies are good; beta from S[XI]. No call of
`make_final_layer_positive`. -/
noncomputable def safeRoaLearn (llo symmetric : Bool) (v b : Values Θ P) (out : Θ → P → ℝ) (f : Option (Θ → P → P))
    (step : ℕ → Θ → Θ) (S Sdot : Dict String (List P)) (θ : Θ) : Except Err (Θ × ℕ × ℝ) :=
  if S.length = Sdot.length then do
    let (θ', n) ← trainLoop (fun t (_ : Unit) θ => do
      let a ← safeRoaPass llo symmetric v b f S Sdot θ
      return (decide (1 < t) && decide (a.1 = 100) && decide (a.2.1 = 100) && decide (999/10 ≤ a.2.2), ()))
      step learnLoops 0 () θ 0
    let si ← Dict.get S XI
    let beta ← computeMaximum (out θ') si
    return (θ', n, beta)
  else .error .assertionError

/-- The accuracies computed in a pass of `ReachAvoidRemain.learn` (certificate.py:1484-1540): samples in the order XD, XI, XU, XG, XF,
XNF, but stored derivatives in the order of the dictionary (line 1507). -/
noncomputable def rarPass (symmetric : Bool) (v b : Values Θ P) (f : Option (Θ → P → P))
    (S Sdot : Dict String (List P)) (θ : Θ) : Except Err ((ℚ × ℚ) × (ℚ × ℚ)) := do
  let n1 := (← Dict.get S XD).length
  let n2 := n1 + (← Dict.get S XI).length
  let n3 := n2 + (← Dict.get S XU).length
  let n4 := n3 + (← Dict.get S XG).length
  let n5 := n4 + (← Dict.get S XF).length
  let n6 := n5 + (← Dict.get S XNF).length
  let samples ← catLabels S [XD, XI, XU, XG, XF, XNF]
  let sdot ← samplesDot f θ samples (.ok (catValues Sdot))
  let (V, Vdot) ← getAll v θ samples sdot
  let a ← rwsAcc (slice n1 n2 V) (slice n2 n3 V) (slice 0 n1 V) (slice 0 n1 Vdot)
  let (B, Bdot) ← getAll b θ samples sdot
  let c ← barrierAcc symmetric (slice n3 n4 B) (slice n5 n6 B) (slice n3 n6 B) (slice n3 n6 Bdot)
  return (a, c)

/-- The break condition of `ReachAvoidRemain.learn` (certificate.py:1542-1549). -/
def rarOk (a : (ℚ × ℚ) × (ℚ × ℚ)) : Bool :=
  decide (a.1.1 = 100) && decide (100 ≤ a.1.2) && decide (100 ≤ a.2.1) && decide (999/10 ≤ a.2.2)

/-- `ReachAvoidRemain.learn` (certificate.py:1462-1558). -/
noncomputable def rarLearn (symmetric : Bool) (v b : Values Θ P) (f : Option (Θ → P → P))
    (step : ℕ → Θ → Θ) (S Sdot : Dict String (List P)) (θ : Θ) : Except Err (Θ × ℕ) :=
  if S.length = Sdot.length then twiceLoop (rarPass symmetric v b f S Sdot) rarOk step θ else .error .assertionError

/-! ### network steps -/

/-- New values for a layer: the weights and (if the layer has one) the bias change. -/
def Layer.update (l new : Layer) : Layer := ⟨new.weight, if l.bias.isSome then some (new.bias.getD []) else none⟩

/-- `optimizer.step()` on a network (cegis.py:145-152): the optimiser holds `learner.parameters()`, i.e. the registered parameters; with
LLO and a polynomial last activation the output layer is not registered (learner.py:77-79). `upd` proposes new layers. -/
def optimStep (lastRegistered : Bool) (upd : List Layer → List Layer) (net : Net) : Net :=
  { net with layers :=
      if lastRegistered then List.zipWith Layer.update net.layers (upd net.layers)
      else List.zipWith Layer.update net.layers.dropLast (upd net.layers) ++ net.layers.getLast?.toList }

/-- One optimiser step of `Lyapunov.learn` / `ROA.learn` followed by `make_final_layer_positive` if `_take_abs`
(certificate.py:276-280, 441-444). -/
def lyapNetStep (llo takeAbs : Bool) (upd : ℕ → List Layer → List Layer) (t : ℕ) (net : Net) : Net :=
  let net' := optimStep (!(llo && !takeAbs)) (upd t) net
  if takeAbs then { net' with layers := makeFinalPositive net'.layers } else net'

end Fossil

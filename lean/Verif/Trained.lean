/-
`SingleCegis` with the modelled training: the learner of `Assembly` instantiated with the `learn` of the certificate class
(/repo/fossil/learner.py:203-215 `get`, cegis.py:122-154, 174-176; certificate.py get_certificate 1683-1709). The optimiser remains a parameter.
-/
import Verif.LearnLoop
import Verif.Training
import Verif.Assembly

namespace Fossil

/-- What training depends on besides the data: `step i t` is optimiser step `t` of the training call of pass `i` (including
`make_final_layer_positive` where the code calls it), on network and controller; `controlled` says whether `xdot_func` is passed (`f_torch`,
cegis.py:247, learner.py:407-486); `symmetric` is `config.SYMMETRIC_BELT`; `float` is the float stored as `beta` (certificate.py:446). -/
structure Trainer (K : Type) where
  step : ℕ → ℕ → Net × K → Net × K
  controlled : Bool
  symmetric : Bool
  float : ℝ → ℚ

/-- A row of samples as real numbers. -/
def realRow (x : List ℚ) : List ℝ := x.map (fun q : ℚ => (q : ℝ))

/-- The certificate's value and derivative on samples: `learner.get_all` (learner.py:329-403), for the reach certificates always the gradient times the
derivatives (certificate.py:1004-1007). Where the network does not evaluate the value is 0 (excluded by the width test of `trainedLearn`). -/
noncomputable def trainValues (K : Type) (quad discrete : Bool) : Values (Net × K) (List ℚ) where
  val θ x := match θ.1.forward (realRow x) with
    | .ok y => if quad && !discrete then y * circleOf (realRow x) else y
    | .error _ => 0
  lie θ x d :=
    if discrete then match getRowDT θ.1 (realRow x) (realRow d) with
      | .ok r => r.2.1
      | .error _ => 0
    else match getRowCT θ.1 quad (realRow x) (realRow d) with
      | .ok r => r.2.1
      | .error _ => 0

/-- The network output without factor, as `compute_maximum` uses it (learner.py:235-251). -/
noncomputable def trainOut {K : Type} (θ : Net × K) (x : List ℚ) : ℝ :=
  match θ.1.forward (realRow x) with
  | .ok y => y
  | .error _ => 0

/-- The labels whose data `learn` concatenates (certificate.py:232, 398-446, 600-607, 794-801, 988-995, 1147-1160, 1371-1375, 1487-1503). -/
def trainLabels : CertType → List String
  | .LYAPUNOV => [XD]
  | .ROA => [XD, XI]
  | .RSWS | .RSWA => [XD, XI, XU, XGB, XG]
  | .RAR => [XD, XI, XU, XG, XF, XNF]
  | _ => [XD, XI, XU]

/-- Every row of the given labels has the given width. -/
def widthOk (n : ℕ) (S : Dict String (List (List ℚ))) (labels : List String) : Bool :=
  labels.all fun l => match Dict.get? S l with
    | some rows => rows.all fun r => decide (r.length = n)
    | none => true

/-- `learner.get(**state)` (learner.py:203-215): `certificate.learn` of the class for the certificate type. `nn.Linear` raises RuntimeError on rows of a
wrong width; simplification: this is tested before the loop, for the data and the stored derivatives (the derivatives recomputed with a controller have the
width of the samples). The level of a ROA certificate is set by training, for the others it is not used. -/
noncomputable def trainedLearn {K : Type} (T : Trainer K) (c : SynthCfg) (discrete : Bool) (dynNum : K → List ℚ → List ℚ)
    (st : LoopState (Net × ℚ) K (List ℚ) Term) : Except Err ((Net × ℚ) × K) :=
  let f : Option (Net × K → List ℚ → List ℚ) := if T.controlled then some (fun θ => dynNum θ.2) else none
  let θ := (st.net.1, st.ctrl)
  let keep := fun r : Except Err ((Net × K) × ℕ) => r.map (fun r => ((r.1.1, st.net.2), r.1.2))
  if widthOk st.net.1.inputSize st.S (trainLabels c.cert) && widthOk st.net.1.inputSize st.Sdot (trainLabels c.cert) then
    match c.cert with
    | .LYAPUNOV => keep (lyapLearn (lyapAcc c.llo) (trainValues K c.quad discrete) f (T.step st.iters) st.S st.Sdot θ)
    | .ROA => (roaLearn c.llo (trainValues K c.quad discrete) trainOut f (T.step st.iters) st.S st.Sdot θ).map
        (fun r => ((r.1.1, T.float r.2.2), r.1.2))
    | .BARRIER => keep (barrierLearn (barrierAcc T.symmetric) (trainValues K c.quad discrete) f (T.step st.iters) st.S st.Sdot θ)
    | .BARRIERALT => keep (barrierLearn barrierAltAcc (trainValues K c.quad discrete) f (T.step st.iters) st.S st.Sdot θ)
    | .RWA | .RWS => keep (barrierLearn rwsAcc (trainValues K c.quad false) f (T.step st.iters) st.S st.Sdot θ)
    | .RSWA | .RSWS => keep (rswsLearn (trainValues K c.quad false) f (T.step st.iters) st.S st.Sdot θ)
    | _ => .error .valueError
  else .error .runtimeError

/-! ### two networks -/

/-- `Trainer` for the double loop: an optimiser step acts on both networks and the controller (`chain(...)`, cegis.py:415-423). That a frozen first network
(cegis.py:484-504) is not changed is a restriction of `step`; nothing below depends on it. -/
structure Trainer2 (K : Type) where
  step : ℕ → ℕ → (Net × Net) × K → (Net × Net) × K
  controlled : Bool
  symmetric : Bool
  float : ℝ → ℚ

/-- The values of the first network (`learner[0]`) as training sees them. -/
noncomputable def trainValuesV (K : Type) (quad : Bool) : Values ((Net × Net) × K) (List ℚ) where
  val θ x := (trainValues K quad false).val (θ.1.1, θ.2) x
  lie θ x d := (trainValues K quad false).lie (θ.1.1, θ.2) x d

/-- The values of the second network (`learner[1]`). -/
noncomputable def trainValuesB (K : Type) (quad : Bool) : Values ((Net × Net) × K) (List ℚ) where
  val θ x := (trainValues K quad false).val (θ.1.2, θ.2) x
  lie θ x d := (trainValues K quad false).lie (θ.1.2, θ.2) x d

/-- `learner.get(**state)` in the double loop (cegis.py:468-470; certificate.py 1344-1424 `SafeROA.learn`, 1462-1558 `ReachAvoidRemain.learn`), continuous time
only (cegis.py:351-355 refuses discrete time for these certificates). As in `trainedLearn` the widths are tested before the loop, here for all data. -/
noncomputable def trainedLearn2 {K : Type} (T : Trainer2 K) (c : SynthCfg) (dynNum : K → List ℚ → List ℚ)
    (st : LoopState ((Net × ℚ) × Net) K (List ℚ) (Term × Term)) : Except Err (((Net × ℚ) × Net) × K) :=
  let f : Option ((Net × Net) × K → List ℚ → List ℚ) := if T.controlled then some (fun θ => dynNum θ.2) else none
  let θ := ((st.net.1.1, st.net.2), st.ctrl)
  if widthOk st.net.1.1.inputSize st.S (Dict.keys st.S) && widthOk st.net.1.1.inputSize st.Sdot (Dict.keys st.S) &&
      decide (st.net.2.inputSize = st.net.1.1.inputSize) then
    match c.cert with
    | .STABLESAFE => (safeRoaLearn c.llo T.symmetric (trainValuesV K c.quad) (trainValuesB K c.quad) (fun θ x => trainOut (θ.1.1, θ.2) x) f (T.step st.iters)
        st.S st.Sdot θ).map (fun r => (((r.1.1.1, T.float r.2.2), r.1.1.2), r.1.2))
    | .RAR => (rarLearn T.symmetric (trainValuesV K c.quad) (trainValuesB K c.quad) f (T.step st.iters) st.S st.Sdot θ).map
        (fun r => (((r.1.1.1, st.net.1.2), r.1.1.2), r.1.2))
    | _ => .error .valueError
  else .error .runtimeError

end Fossil

/-
Model of the losses of /repo/fossil/certificate.py (`compute_loss` of Lyapunov 209-228, ROA 377-395, Barrier 534-576, BarrierAlt 741-768,
RWS 927-966, `compute_beta_loss` of RSWS 1131-1150) on the values at the samples. Real arithmetic; torch's softplus shortcut above 20 is not
modelled. The mean of an empty tensor is NaN, here `none`; sums with NaN are NaN.
-/
import Verif.LearnLoop
import Mathlib.Analysis.SpecialFunctions.Log.Base

namespace Fossil

/-- `x.mean()`. -/
noncomputable def meanOf (l : List ℝ) : Option ℝ := if l = [] then none else some (l.sum / l.length)

/-- Addition with NaN. -/
noncomputable def nanAdd : Option ℝ → Option ℝ → Option ℝ
  | some a, some b => some (a + b)
  | _, _ => none

/-- `torch.nn.Softplus(beta)`. -/
noncomputable def splus (β x : ℝ) : ℝ := Real.log (1 + Real.exp (β * x)) / β

/-- `torch.nn.LeakyReLU(s)`. -/
noncomputable def leaky (s x : ℝ) : ℝ := max 0 x + s * min 0 x

/-- `Vdot.abs().max()` of a non-empty list. -/
noncomputable def absMax (l : List ℝ) : ℝ := l.foldl (fun m v => max m |v|) 0

/-- `10 ** order_of_magnitude(x)` for `x > 0` (learner.py:308-310, certificate.py:211). -/
noncomputable def magnitude (x : ℝ) : ℝ := (10 : ℝ) ^ (⌈Real.logb 10 x⌉)

/-- Loss of `Lyapunov.compute_loss` (certificate.py:210-226), `margin = 0`. The two errors are those of `lyapAcc`. -/
noncomputable def lyapLoss (llo : Bool) (V Vdot : List ℝ) : Except Err (Option ℝ) :=
  if Vdot = [] then .error .runtimeError
  else if absMax Vdot = 0 then .error .attributeError
  else
    let relu := leaky (1 / magnitude (absMax Vdot))
    if llo then .ok (meanOf (Vdot.map relu))
    else .ok (nanAdd (meanOf (Vdot.map relu)) (meanOf (V.map (fun v => relu (-v)))))

/-- Loss of `ROA.compute_loss` (certificate.py:377-391), `margin = 0`. -/
noncomputable def roaLoss (llo : Bool) (V Vdot : List ℝ) : Option ℝ :=
  if llo then meanOf (Vdot.map (splus 1))
  else nanAdd (meanOf (Vdot.map (splus 1))) (meanOf (V.map (fun v => splus 1 (-v))))

/-- Loss of `Barrier.compute_loss` (certificate.py:545-568), `margin = 0`; `relu` is `torch.relu`, or softplus for the certificates that set
`cert.relu` (685, 692). -/
noncomputable def barrierLoss (relu : ℝ → ℝ) (symmetric : Bool) (Bi Bu Bd Bdotd : List ℝ) : Option ℝ :=
  let loss := nanAdd (meanOf (Bi.map relu)) (meanOf (Bu.map (fun b => relu (-b))))
  let belt := beltVals symmetric Bd Bdotd
  if belt = [] then loss else nanAdd loss (meanOf (belt.map relu))

/-- Loss of `BarrierAlt.compute_loss` (certificate.py:741-761): margin 0.05, softplus with beta 0.5. -/
noncomputable def barrierAltLoss (Bi Bu Bdotd : List ℝ) : Option ℝ :=
  nanAdd (nanAdd (meanOf (Bi.map (fun b => splus (1/2) (b + 1/20)))) (meanOf (Bu.map (fun b => splus (1/2) (-b + 1/20)))))
    (meanOf (Bdotd.map (fun b => splus (1/2) (b + 1/20))))

/-- Loss of `RWS.compute_loss` (certificate.py:927-959): gamma 0.01. -/
noncomputable def rwsLoss (Vi Vu Vd Vdotd : List ℝ) : Option ℝ :=
  let A := lieVals Vd Vdotd
  if A = [] then meanOf (Vi.map (splus 1))
  else nanAdd (nanAdd (meanOf (Vi.map (splus 1))) (meanOf (Vu.map (fun v => splus 1 (-v)))))
    (meanOf (A.map (fun a => splus 1 (a + 1/100))))

open Classical in
/-- `compute_beta_loss` (certificate.py:1131-1150): the derivatives at the goal samples with `V <= beta`. -/
noncomputable def betaLoss (β : ℝ) (Vg Vdotg : List ℝ) : Option ℝ :=
  let l := ((Vg.zip Vdotg).filter (fun q => decide (q.1 ≤ β))).map Prod.snd
  if l = [] then some 0 else meanOf (l.map (fun a => splus 1 (a + 1/100)))

/-- Loss of `RSWS` (certificate.py:1212-1220), without controller regularisation. -/
noncomputable def rswsLoss (Vi Vu Vd Vdotd : List ℝ) (β : ℝ) (Vg Vdotg : List ℝ) : Option ℝ :=
  nanAdd (rwsLoss Vi Vu Vd Vdotd) (betaLoss β Vg Vdotg)

end Fossil

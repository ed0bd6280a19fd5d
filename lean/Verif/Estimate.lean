/-
Model of `estimate_beta` (/repo/fossil/certificate.py:307-315 Lyapunov, 450-452 ROA), called once the verifier has accepted a Lyapunov or ROA certificate
(cegis.py:291-299), and of `compute_minimum` (learner.py:217-233).
-/
import Verif.Sampling
import Verif.Training
import Verif.Assembly

namespace Fossil

/-- `self(S)` on a batch (learner.py:123-138): `nn.Linear` raises RuntimeError for rows that do not have `input_size` entries. Simplification: the code
raises for a batch of no rows of a wrong width too, here such a batch has no width. -/
noncomputable def Net.forwardBatch (net : Net) (S : Rows) : Except Err (List ℝ) :=
  if ∀ r ∈ S, r.length = net.inputSize then S.mapM net.forward else .error .runtimeError

/-- `torch.min(C, 0)`: value and index of the first minimal entry (learner.py:229); an IndexError for no samples. -/
noncomputable def minIdx : List ℝ → Except Err (ℝ × ℕ)
  | [] => .error .indexError
  | [c] => .ok (c, 0)
  | c :: cs =>
    match minIdx cs with
    | .error e => .error e
    | .ok (v, k) => if v < c then .ok (v, k + 1) else .ok (c, 0)

/-- `compute_minimum(S)` (learner.py:217-233): of the network output, without the factor. -/
noncomputable def Net.computeMinimum (net : Net) (S : Rows) : Except Err (ℝ × List ℝ) := do
  let C ← net.forwardBatch S
  let (v, k) ← minIdx C
  let x ← at? S k
  return (v, x)

/-- What `estimate_beta` returns: a number, or (line 314) the tensor of samples itself. -/
inductive BetaValue where
  | level (v : ℝ)
  | samples (rows : Rows)

/-- `Lyapunov.estimate_beta(net)` (certificate.py:307-315): the minimum over 300 border samples of the domain; where the set (or a part of it) has no
`sample_border`, 300 samples of the domain. Only NotImplementedError is caught. `g` are the draws of the first call, `g'` of the second. -/
noncomputable def lyapEstimateBeta (g g' : Rng) (doms : Dict String PySet) (net : Net) : Except Err BetaValue := do
  let S ← doms.getE XD
  match (S.sampleBorder g 300 >>= fun rows => net.computeMinimum rows) with
  | .ok r => .ok (.level r.1)
  | .error .notImplemented => do
    let rows ← S.generateData g' 300
    return .samples rows
  | .error e => .error e

/-- `ROA.estimate_beta(net)` (certificate.py:450-452): the level set by the last `learn`. -/
noncomputable def roaEstimateBeta (beta : ℚ) : Except Err BetaValue := .ok (.level beta)

/-- `self.learner.beta = self.certificate.estimate_beta(self.learner)` (cegis.py:295-299), for the certificates that have it; the value is stored in the
returned learner only. -/
noncomputable def estimateBetaOf (g g' : Rng) (ct : CertType) (doms : Dict String PySet) (n : Net × ℚ) : Except Err BetaValue :=
  match ct with
  | .LYAPUNOV => lyapEstimateBeta g g' doms n.1
  | .ROA => roaEstimateBeta n.2
  | _ => .error .attributeError

/-- A synthesis environment whose border sampling is the modelled one. -/
noncomputable def World.withEstimate {R K : Type} (w : World R K (Net × ℚ)) (g g' : Rng) (c : SynthCfg) : World R K (Net × ℚ) :=
  { w with estimateBeta := fun n => (estimateBetaOf g g' c.cert c.domains n).map fun _ => () }

end Fossil

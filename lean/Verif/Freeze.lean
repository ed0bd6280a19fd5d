/-
Model of the freezing of the first learner in /repo/fossil/cegis.py (DoubleCegis.solve 484-504) and learner.py (`freeze` 140-146), on top of
the double loop of `Verif.Assembly`.
-/
import Verif.Assembly

namespace Fossil

/-- The label whose presence among the counterexample keys triggers freezing: XI for SafeROA, XG for ReachAvoidRemain (cegis.py:484-502). -/
def freezeLabel : CertType → Option String
  | .STABLESAFE => some XI
  | .RAR => some XG
  | _ => none

/-- Whether the first learner is frozen after a pass, given whether it was before, whether there is a controller (`config.CTRLAYER`) and the
counterexamples of the pass (cegis.py:484-504). The test is `label in state["cex"].keys()`: an entry with no rows counts. -/
def freezeAfter {P : Type} (cert : CertType) (controlled frozen : Bool) (cex : Dict String (List P)) : Bool :=
  frozen || (!controlled && match freezeLabel cert with
    | some l => decide (l ∈ Dict.keys cex)
    | none => false)

/-- A training call of the double loop. `opt` is what the optimiser would make of all parameters; those of a frozen learner have
`requires_grad = False` (learner.py:140-146), get no gradient and are skipped by `optimizer.step()` (with the default `zero_grad(set_to_none=True)`
of torch 2), so the first network stays as it was. `beta` is recomputed in any case (certificate.py:1420-1422). The flag is part of the network
state; the counterexamples of the last pass are still in the state. -/
def freezeLearn {K E : Type} (cert : CertType) (controlled : Bool)
    (opt : LoopState (((Net × ℚ) × Net) × Bool) K (List ℚ) E → Except Err (((Net × ℚ) × Net) × K))
    (st : LoopState (((Net × ℚ) × Net) × Bool) K (List ℚ) E) : Except Err ((((Net × ℚ) × Net) × Bool) × K) := do
  let (n, k) ← opt st
  let fr := freezeAfter cert controlled st.net.2 st.cex
  return (((((if fr then st.net.1.1.1 else n.1.1), n.1.2), n.2), fr), k)

/-- The double loop (cegis.py:361-537) with freezing. -/
noncomputable def freezeComponents {R K : Type} (w : World R K ((Net × ℚ) × Net)) (c : SynthCfg) (controlled : Bool)
    (opt : LoopState (((Net × ℚ) × Net) × Bool) K (List ℚ) (Term × Term) → Except Err (((Net × ℚ) × Net) × K)) :
    Components (((Net × ℚ) × Net) × Bool) K (List ℚ) (Term × Term) :=
  let base := doubleComponents w c (fun _ => .error .runtimeError)
  { learn := freezeLearn c.cert controlled opt
    translate := fun n k => base.translate n.1 k
    verify := fun i n V Vdot => base.verify i n.1 V Vdot
    consolidate := fun i n k cex => base.consolidate i n.1 k cex
    betaSearch := base.betaSearch
    estimateBeta := fun n => base.estimateBeta n.1
    dyn := base.dyn }

end Fossil

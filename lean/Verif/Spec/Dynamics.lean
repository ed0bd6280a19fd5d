/-
Specification vocabulary for the guarantees a certificate is supposed to give: trajectories of continuous
systems, runs of discrete ones, the configured sets, the value of the certificate function, and what it means
for the solver to have accepted all queries.
-/
import Verif.Pipeline
import Verif.Spec.Net
import Verif.Spec.Sets
import Verif.Spec.Solver
import Verif.Props.C01_Verifier
import Mathlib.Analysis.Calculus.Deriv.Basic
import Mathlib.Analysis.Normed.Group.Constructions

namespace Fossil.Spec
open Set

/-- `ξ` is a trajectory of the vector field `F` on the time interval `[0, T]`. -/
def Trajectory {n : ℕ} (F : Pt n → Pt n) (T : ℝ) (ξ : ℝ → Pt n) : Prop :=
  ∀ t ∈ Icc 0 T, HasDerivWithinAt ξ (F (ξ t)) (Icc 0 T) t

/-- `s` is a run of the discrete-time system with next-state map `F`. -/
def IsRun {n : ℕ} (F : Pt n → Pt n) (s : ℕ → Pt n) : Prop := ∀ k, s (k + 1) = F (s k)

/-- The set configured under a label (`config.DOMAINS[label]`), as a subset of `ℝⁿ`. -/
def region (n : ℕ) (doms : Dict String PySet) (l : String) : Set (Pt n) :=
  match Dict.get? doms l with
  | some S => docSet n S
  | none => ∅

/-- All configured sets are well-formed. -/
def WFDomains (n : ℕ) (doms : Dict String PySet) : Prop := ∀ e ∈ doms, WF n e.2

/-- The certificate function: output of the (rounded) network, times `|x|²` with quadratic factors. -/
noncomputable def certValue {n : ℕ} (rnd : ℤ) (quad : Bool) (net : Net) (p : Pt n) : ℝ :=
  (match (roundedNet rnd net).forward (coordList p) with
    | .ok y => y
    | .error _ => 0) * (if quad then normSq p else 1)

/-- The verifier reported success on the queries, and the solver can be trusted on them: either z3 with a
refutation-sound solver, or dReal with a sound solver, every query in the state variables
only and confining them to `(-1000, 1000)`, and no out-of-range box. -/
inductive Accepted (n : ℕ) (groups : List (Dict String Formula)) : Prop where
  | z3 (noise : String → ℕ → ℕ → ℚ) (o : Oracle Answer) (cex) (sound : RefutationSound o)
      (success : verify smtBackend n noise o groups = .ok ⟨true, cex⟩)
  | dreal (noise : String → ℕ → ℕ → ℚ) (check : ℕ → ℕ → Formula → Option Box) (cex)
      (sound : ∀ k, DRealSound (check k))
      (below : ∀ g ∈ groups, ∀ q ∈ g, formulaBelow n q.2)
      (bounded : ∀ g ∈ groups, ∀ q ∈ g, ∀ ρ : Env, q.2.holds ρ → ∀ i < n, -1000 < ρ i ∧ ρ i < 1000)
      (boxes : ∀ k, BoxesInRange n (check k))
      (success : verify drealBackend n noise (drealOracle n check) groups = .ok ⟨true, cex⟩)

/-- A continuous-time setup a user can run: an SMT library in use, well-formed sets, a network for the right
number of variables without ReLU units. -/
structure SmoothSetup (s : Setup) : Prop where
  lib : s.lib = .z3 ∨ s.lib = .dreal
  sets : WFDomains s.nVars s.domains
  size : s.net.inputSize = s.nVars
  smooth : smoothActs s.net

end Fossil.Spec

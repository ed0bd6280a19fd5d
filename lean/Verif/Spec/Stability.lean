/-
Specification vocabulary: stability of the origin, for continuous-time vector fields and discrete-time maps.
-/
import Verif.Spec.Dynamics

namespace Fossil.Spec
open Set Filter Topology

/-- The origin is (Lyapunov) stable: trajectories that start close enough to it stay as close as desired, forever. -/
def Stable {n : ℕ} (F : Pt n → Pt n) : Prop :=
  ∀ U ∈ 𝓝 (0 : Pt n), ∃ W ∈ 𝓝 (0 : Pt n), ∀ (T : ℝ) (ξ : ℝ → Pt n), Trajectory F T ξ → ξ 0 ∈ W →
    ∀ t ∈ Icc 0 T, ξ t ∈ U

/-- The origin attracts a set `W` uniformly: for every neighbourhood of the origin there is a time after which all
trajectories that started in `W` are in it. -/
def Attracts {n : ℕ} (F : Pt n → Pt n) (W : Set (Pt n)) : Prop :=
  ∀ U ∈ 𝓝 (0 : Pt n), ∃ τ : ℝ, ∀ (T : ℝ) (ξ : ℝ → Pt n), Trajectory F T ξ → ξ 0 ∈ W → ∀ t ∈ Icc 0 T, τ ≤ t → ξ t ∈ U

/-- Asymptotic stability: stable, and some neighbourhood of the origin is attracted. -/
def AsympStable {n : ℕ} (F : Pt n → Pt n) : Prop := Stable F ∧ ∃ W ∈ 𝓝 (0 : Pt n), Attracts F W

/-- Discrete time: stability of the origin. -/
def StableDT {n : ℕ} (F : Pt n → Pt n) : Prop :=
  ∀ U ∈ 𝓝 (0 : Pt n), ∃ W ∈ 𝓝 (0 : Pt n), ∀ x : ℕ → Pt n, IsRun F x → x 0 ∈ W → ∀ k, x k ∈ U

/-- Discrete time: uniform attraction of a set. -/
def AttractsDT {n : ℕ} (F : Pt n → Pt n) (W : Set (Pt n)) : Prop :=
  ∀ U ∈ 𝓝 (0 : Pt n), ∃ N : ℕ, ∀ x : ℕ → Pt n, IsRun F x → x 0 ∈ W → ∀ k, N ≤ k → x k ∈ U

/-- Discrete time: asymptotic stability. -/
def AsympStableDT {n : ℕ} (F : Pt n → Pt n) : Prop := StableDT F ∧ ∃ W ∈ 𝓝 (0 : Pt n), AttractsDT F W

end Fossil.Spec

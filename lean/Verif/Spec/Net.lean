/-
Specification vocabulary for networks and their derivatives: the rounded network that is verified, the
"no kink" side condition for ReLU, and what it means for an expression to be the Lie derivative /
one-step difference of another.
-/
import Verif.Net

namespace Fossil.Spec

/-- The layer with weights and bias rounded. -/
def roundedHidden (rnd : ℤ) (l : Layer) : Layer :=
  ⟨l.weight.map (fun r => r.map (roundBy rnd)), l.bias.map (fun b => b.map (roundBy rnd))⟩

/-- The output layer: weights rounded, bias as trained. -/
def roundedLast (rnd : ℤ) (l : Layer) : Layer :=
  ⟨l.weight.map (fun r => r.map (roundBy rnd)), l.bias⟩

/-- The network whose properties are verified: the trained one with all weights and all biases but the last
rounded to `rnd` decimals (`rnd < 0`: not rounded). -/
def roundedNet (rnd : ℤ) (net : Net) : Net :=
  ⟨net.inputSize,
   match net.layers.getLast? with
   | none => []
   | some last => net.layers.dropLast.map (roundedHidden rnd) ++ [roundedLast rnd last],
   net.acts⟩

/-- No ReLU unit has pre-activation exactly 0 at input `y`. -/
def noKink : List Layer → List Act → List ℝ → Prop
  | [], _, _ => True
  | _ :: _, [], _ => True
  | l :: ls, a :: as, y =>
    (a = .relu → ∀ u ∈ l.apply y, u ≠ 0) ∧ noKink ls as (a.forward (l.apply y))

/-- None of the hidden activations is a ReLU. -/
def smoothActs (net : Net) : Prop := ∀ a ∈ net.acts, a ≠ .relu

/-- Coordinates of a point as a list. -/
def coordList {n : ℕ} (p : Pt n) : List ℝ := List.ofFn p

/-- The vector field (or next-state map) given by a list of symbolic right-hand sides. -/
noncomputable def field (n : ℕ) (f : List Term) (p : Pt n) : Pt n :=
  fun i => (f.getD i (.const 0)).eval p.env

/-- `Vdot` is the Lie derivative of `V` along the field `f` at `p`: along every curve passing through `p`
with velocity `f p` (at any time `t`, one- or two-sided), `V` changes at rate `Vdot p`. -/
def IsLieDerivAt {n : ℕ} (f : Pt n → Pt n) (V Vdot : Pt n → ℝ) (p : Pt n) : Prop :=
  ∀ (γ : ℝ → Pt n) (s : Set ℝ) (t : ℝ), γ t = p → HasDerivWithinAt γ (f p) s t →
    HasDerivWithinAt (fun τ => V (γ τ)) (Vdot p) s t

/-- Squared Euclidean norm. -/
noncomputable def normSq {n : ℕ} (p : Pt n) : ℝ := ∑ i, p i ^ 2

end Fossil.Spec

/-
Independent description of what the texts in a configuration file mean: subsets of `ℝⁿ` and vector fields.
-/
import Verif.Spec.ExprText
import Verif.Spec.Dynamics
import Verif.ParsedModel

namespace Fossil.Spec

/-- Entry `i` of a list of rational parameters, as a real number. -/
noncomputable def entry (l : List ℚ) (i : ℕ) : ℝ := ((l.getD i 0 : ℚ) : ℝ)

/-- The squared distance from a centre. -/
noncomputable def distSq {n : ℕ} (c : List ℚ) (p : Pt n) : ℝ := ∑ i : Fin n, (p i - entry c i) ^ 2

/-- The text `s` describes the subset `S` of `ℝⁿ`. -/
inductive SetText (n : ℕ) : String → Set (Pt n) → Prop
  | rectangle {lb ub l u s} (hl : List.Forall₂ SignedNumeral lb l) (hu : List.Forall₂ SignedNumeral ub u) (e1 : l.length = n) (e2 : u.length = n)
      (hs : Layout (rectangleText lb ub) s.toList) : SetText n s {p | ∀ i : Fin n, entry l i ≤ p i ∧ p i ≤ entry u i}
  | sphere {cs rs c r s} (hc : List.Forall₂ SignedNumeral cs c) (hr : SignedNumeral rs r) (e1 : c.length = n) (h0 : 0 ≤ r)
      (hs : Layout (sphereText cs rs) s.toList) : SetText n s {p | distSq c p ≤ (r : ℝ) ^ 2}
  | torus {cs os is c ro ri s} (hc : List.Forall₂ SignedNumeral cs c) (ho : SignedNumeral os ro) (hi : SignedNumeral is ri) (e1 : c.length = n)
      (h0 : 0 ≤ ri) (hlt : ri < ro) (hs : Layout (torusText cs os is) s.toList) :
      SetText n s {p | (ri : ℝ) ^ 2 ≤ distSq c p ∧ distSq c p ≤ (ro : ℝ) ^ 2}

/-- The texts describe the vector field `F` on `ℝⁿ`: text number `i` is, in ordinary notation (with no sign directly before a power), an
expression in the state variables `x0 ... x(n-1)` whose value at `p` is the `i`-th component of `F p`. -/
def SystemText (funcs : FName → Bool) (n : ℕ) (texts : List String) (F : Pt n → Pt n) : Prop :=
  texts.length = n ∧ ∀ i (hi : i < n), ∃ ts e, Denotes true funcs .sum ts e ∧ ¬ MinusPower funcs ts ∧ Spells ts (texts.getD i "") ∧ e.us = [] ∧
    (∀ j ∈ e.xs, j < n) ∧ ∀ p : Pt n, F p ⟨i, hi⟩ = e.eval p.env (fun _ => 0)

/-- The texts describe the controlled vector field `F` on `ℝⁿ` with `m` inputs: text number `i` is an expression in the state variables
`x0 ... x(n-1)` and the inputs `u0 ... u(m-1)` whose value is the `i`-th component of `F p u`, and each input occurs in some text. With `once`, no input is
written more than once. -/
def ControlText (once : Bool) (funcs : FName → Bool) (n m : ℕ) (texts : List String) (F : Pt n → Pt m → Pt n) : Prop :=
  texts.length = n ∧ ∃ es : ℕ → AExpr, (∀ i (hi : i < n), ∃ ts, Denotes true funcs .sum ts (es i) ∧ ¬ MinusPower funcs ts ∧ Spells ts (texts.getD i "") ∧
    (∀ j ∈ (es i).xs, j < n) ∧ (∀ j ∈ (es i).us, j < m) ∧ ∀ (p : Pt n) (u : Pt m), F p u ⟨i, hi⟩ = (es i).eval p.env u.env) ∧
    (∀ j < m, ∃ i < n, j ∈ (es i).us) ∧ (once = true → ((List.range n).flatMap fun i => (es i).us).Nodup)

/-- The configuration describes, under the name `k`, the set `S`. -/
def Configures (n : ℕ) (domains : List (String × String)) (k : String) (S : Set (Pt n)) : Prop := ∃ s, (k, s) ∈ domains ∧ SetText n s S

end Fossil.Spec

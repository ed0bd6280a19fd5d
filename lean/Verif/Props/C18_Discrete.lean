/-
C18: the discrete-time formula is the one-step difference of the certificate (without factors), and is wrong
with the quadratic factor.
-/
import Verif.Props.C17_Translator

namespace Fossil
open Spec

theorem translateDT_inv {lib rnd quad} {net : Net} {x xdot : List Term} {V D : Term}
    (h : translateDT lib rnd quad net x xdot = .ok (V, D)) :
    ∃ last z zn z0 zn0, net.layers.getLast? = some last ∧
      untilLastDT lib rnd net.layers.dropLast net.acts x = .ok z ∧
      untilLastDT lib rnd net.layers.dropLast net.acts xdot = .ok zn ∧
      lastAffine rnd last z = .ok [z0] ∧ lastAffine rnd last zn = .ok [zn0] ∧
      V = .mul z0 (factors quad x).1 ∧
      D = if quad ∧ lib = .sympy ∧ 2 ≤ x.length then .sub (.mul zn0 (factors quad x).1) V else .sub zn0 V := by
  unfold translateDT at h
  split at h
  · cases h
  rename_i last hlast
  simp only [bind, Except.bind] at h
  split at h
  · cases h
  rename_i z h1
  split at h
  · cases h
  rename_i zn h2
  split at h
  · cases h
  rename_i zo h3
  split at h
  · cases h
  rename_i zno h4
  split at h
  · rename_i z0 zn0
    refine ⟨last, z, zn, z0, zn0, hlast, h1, h2, h3, h4, ?_⟩
    split at h
    · rename_i hc
      cases h
      exact ⟨rfl, (if_pos hc).symm⟩
    · rename_i hc
      cases h
      exact ⟨rfl, (if_neg hc).symm⟩
  · cases h

theorem field_coordList {n : ℕ} {xdot : List Term} (hl : xdot.length = n) (p : Pt n) :
    xdot.map (Term.eval p.env) = coordList (field n xdot p) := by
  apply List.ext_getElem
  · simp [coordList, hl]
  · intro i h1 h2
    simp only [List.length_map] at h1
    simp [coordList, field, List.getD_eq_getElem?_getD, h1]

theorem forward_of_parts {rnd : ℤ} {net : Net} {last : Layer} {z : List Term} {z0 : Term} {ρ : Env}
    {u : List ℝ} (h0 : net.layers.getLast? = some last)
    (h1 : hiddenForward (net.layers.dropLast.map (roundedHidden rnd)) net.acts u
      = .ok (z.map (Term.eval ρ)))
    (h2 : lastAffine rnd last z = .ok [z0]) :
    (roundedNet rnd net).forward u = .ok (z0.eval ρ) := by
  have e2 := lastAffine_eval h2 ρ
  simp only [Net.forward, roundedNet, h0, List.getLast?_concat, List.dropLast_concat, h1, bind, Except.bind]
  rw [← e2]
  simp [at?]

/-- C18. Without factors, for every network and every next-state map `f`, the symbolic certificate is the
rounded network and the symbolic difference evaluates at `p` to `V (f p) - V p`. -/
theorem C18_one_step_difference_partial (lib : Lib) (rnd : ℤ) (net : Net) (n : ℕ) (xdot : List Term)
    (V D : Term) (hl : xdot.length = n)
    (h : translateDT lib rnd false net (vars n) xdot = .ok (V, D)) (p : Pt n) :
    (∃ y, (roundedNet rnd net).forward (coordList p) = .ok y ∧ V.eval p.env = y) ∧
    D.eval p.env = V.eval (field n xdot p).env - V.eval p.env := by
  obtain ⟨last, z, zn, z0, zn0, h0, h1, h2, h3, h4, rfl, e⟩ := translateDT_inv h
  simp only [Bool.false_eq_true, false_and, if_false] at e
  subst e
  have a1 := untilLastDT_value h1 p.env
  have a2 := untilLastDT_value h2 p.env
  have a3 := untilLastDT_value h1 (field n xdot p).env
  rw [vars_map_eval] at a1 a3
  rw [field_coordList hl] at a2
  have f1 := forward_of_parts h0 a1 h3
  have f2 := forward_of_parts h0 a2 h4
  have f3 := forward_of_parts h0 a3 h3
  have e1 : zn0.eval p.env = z0.eval (field n xdot p).env := by
    rw [f2] at f3; exact Except.ok.inj f3
  refine ⟨⟨_, f1, by simp [Term.eval, factors]⟩, ?_⟩
  simp [Term.eval, factors, e1]

example : ∃ V D, translateDT .dreal 3 false exampleNet (vars 2) [.neg (.var 1), .app .sin (.var 0)] = .ok (V, D) :=
  ⟨_, _, rfl⟩

/-- C18 is false with the quadratic factor: what is computed instead. For z3, dReal and cvc5 the formula is
`N(f x) - |x|² N(x)`: the factor at the next state is missing (`N` = rounded network output). -/
theorem C18_quadratic_factor_dropped (lib : Lib) (hlib : lib ≠ .sympy) (rnd : ℤ) (net : Net) (n : ℕ)
    (xdot : List Term) (V D : Term) (hl : xdot.length = n)
    (h : translateDT lib rnd true net (vars n) xdot = .ok (V, D)) (p : Pt n) :
    ∃ y yn, (roundedNet rnd net).forward (coordList p) = .ok y ∧
      (roundedNet rnd net).forward (coordList (field n xdot p)) = .ok yn ∧
      V.eval p.env = y * normSq p ∧ D.eval p.env = yn - y * normSq p ∧
      V.eval (field n xdot p).env - V.eval p.env = yn * normSq (field n xdot p) - y * normSq p := by
  obtain ⟨last, z, zn, z0, zn0, h0, h1, h2, h3, h4, rfl, e⟩ := translateDT_inv h
  simp only [hlib, false_and, and_false, if_false] at e
  subst e
  have a1 := untilLastDT_value h1 p.env
  have a2 := untilLastDT_value h2 p.env
  have a3 := untilLastDT_value h1 (field n xdot p).env
  rw [vars_map_eval] at a1 a3
  rw [field_coordList hl] at a2
  have f1 := forward_of_parts h0 a1 h3
  have f2 := forward_of_parts h0 a2 h4
  have f3 := forward_of_parts h0 a3 h3
  have e1 : zn0.eval p.env = z0.eval (field n xdot p).env := by
    rw [f2] at f3; exact Except.ok.inj f3
  refine ⟨_, _, f1, f2, ?_, ?_, ?_⟩
  · simp only [Term.eval, factors, if_true, sumSq_eval]
  · simp only [Term.eval, factors, if_true, sumSq_eval]
  · simp only [Term.eval, factors, if_true, sumSq_eval, e1]

/-- Consequence: `V = |x|²` for the unstable map `x ↦ 2x`. The formula handed to the solver is negative at
every state with `|x| > 1`, although `V` strictly grows at each such step. -/
theorem C18_quadratic_factor_unsound :
    ∃ V D, translateDT .z3 3 true ⟨1, [⟨[[0]], some [1]⟩], []⟩ (vars 1) [.mul (.const 2) (.var 0)] = .ok (V, D) ∧
      ∀ p : Pt 1, 1 < |p 0| → D.eval p.env < 0 ∧
        V.eval p.env < V.eval (field 1 [.mul (.const 2) (.var 0)] p).env := by
  refine ⟨_, _, rfl, ?_⟩
  intro p hp
  have h1 : 1 < p 0 ^ 2 := by
    rw [← sq_abs]; nlinarith
  have h0 : roundBy 3 0 = 0 := by decide +kernel
  constructor
  · simp [Term.sum, Term.eval, factors, vars, h0, Pt.env]
    nlinarith
  · simp [Term.sum, Term.eval, factors, vars, h0, Pt.env, field]
    nlinarith

/-- With ROUNDING = 0 the discrete-time translator raises for every network with a hidden layer
(neither weight branch is taken). -/
theorem C18_rounding_zero_raises (lib : Lib) (quad : Bool) (net : Net) (x xdot : List Term)
    (hh : net.layers.dropLast ≠ []) (ha : net.acts ≠ []) :
    translateDT lib 0 quad net x xdot = .error .nameError := by
  unfold translateDT
  have : net.layers ≠ [] := by rintro h; simp [h] at hh
  rw [List.getLast?_eq_some_getLast this]
  obtain ⟨l, ls, e1⟩ := List.exists_cons_of_ne_nil hh
  obtain ⟨a, as, e2⟩ := List.exists_cons_of_ne_nil ha
  simp [e1, e2, untilLastDT, bind, Except.bind]

example : exampleNet.layers.dropLast ≠ [] ∧ exampleNet.acts ≠ [] := by simp [exampleNet]

end Fossil

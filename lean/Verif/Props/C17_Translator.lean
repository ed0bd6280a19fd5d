/-
C17 (formula = network and its Lie derivative), C18 (discrete-time difference), C19 (factors),
C20 (cvc5 post-processing), C37 (activation derivatives).
-/
import Verif.Lemmas.Net

namespace Fossil
open Spec

/-! ### C37 -/

/-- C37. Every supported activation acts position by position, through scalar functions `g i` that depend
only on the activation and the layer width; the symbolic forward pass evaluates to exactly these functions
and the symbolic derivative evaluates to their derivative, at every point (for ReLU: except exactly at the
kink 0). -/
theorem C37_activation_derivative (lib : Lib) (a : Act) (x y d : List Term)
    (hf : a.forwardSym lib x = .ok y) (hd : a.derivativeSym lib x = .ok d) :
    ∃ g : ℕ → ℝ → ℝ,
      (∀ u : List ℝ, u.length = x.length → a.forward u = u.mapIdx g) ∧
      y.length = x.length ∧ d.length = x.length ∧
      ∀ (ρ : Env) (i : ℕ) (hx : i < x.length) (hy : i < y.length) (hdi : i < d.length),
        y[i].eval ρ = g i (x[i].eval ρ) ∧
        ((a ≠ .relu ∨ x[i].eval ρ ≠ 0) → HasDerivAt (g i) (d[i].eval ρ) (x[i].eval ρ)) := by
  obtain ⟨F, rfl, hF⟩ := Act.forwardSym_spec hf
  obtain ⟨D, rfl, hD⟩ := Act.derivativeSym_spec hd
  refine ⟨a.scal x.length, fun u hu => by rw [Act.forward_eq, hu], by simp, by simp, ?_⟩
  intro ρ i hx hy hdi
  refine ⟨by simp [hF], fun h => ?_⟩
  simp only [List.getElem_mapIdx]
  apply hD
  rintro rfl
  rcases h with h | h
  · exact absurd rfl h
  · exact h

example : ∃ y d, (Act.polyN 3).forwardSym .z3 (vars 7) = .ok y ∧ (Act.polyN 3).derivativeSym .z3 (vars 7) = .ok d :=
  ⟨_, _, rfl, rfl⟩

/-- At the ReLU kink the symbolic derivative is 0 although ReLU has no derivative there. -/
theorem C37_relu_kink (ρ : Env) : (Term.app .step (.const 0)).eval ρ = 0 ∧
    ¬ DifferentiableAt ℝ (fun t : ℝ => max t 0) 0 := by
  refine ⟨by simp [Term.eval, Fn.eval], fun h => ?_⟩
  have h1 : HasDerivWithinAt (fun t : ℝ => max t 0) 1 (Set.Ici 0) 0 := by
    refine (hasDerivWithinAt_id (0:ℝ) _).congr_of_eventuallyEq ?_ (by simp)
    filter_upwards [self_mem_nhdsWithin] with y hy
    exact max_eq_left hy
  have h2 : HasDerivWithinAt (fun t : ℝ => max t 0) 0 (Set.Iic 0) 0 := by
    refine (hasDerivWithinAt_const (0:ℝ) _ (0:ℝ)).congr_of_eventuallyEq ?_ (by simp)
    filter_upwards [self_mem_nhdsWithin] with y hy
    exact max_eq_right hy
  have e1 := (uniqueDiffWithinAt_Ici (0:ℝ)).eq_deriv _ h1 h.hasDerivAt.hasDerivWithinAt
  have e2 := (uniqueDiffWithinAt_Iic (0:ℝ)).eq_deriv _ h2 h.hasDerivAt.hasDerivWithinAt
  rw [← e2] at e1
  norm_num at e1

/-! ### C17 / C19, continuous time -/

theorem vars_map_eval {n : ℕ} (p : Pt n) : (vars n).map (Term.eval p.env) = coordList p := by
  apply List.ext_getElem
  · simp [coordList]
  · intro i h1 h2
    simp only [List.length_map, length_vars] at h1
    simp [vars, coordList, Term.eval, Pt.env, h1]

theorem sumSq_eval {n : ℕ} (p : Pt n) :
    (Term.sum ((vars n).map (.pow · 2))).eval p.env = normSq p := by
  rw [Term.eval_sum, List.map_map]
  have : (Term.eval p.env ∘ fun x => Term.pow x 2) = (fun r : ℝ => r ^ 2) ∘ Term.eval p.env := by
    funext t; simp only [Function.comp, Term.eval]; norm_cast
  rw [this, ← List.map_map, vars_map_eval, coordList, normSq, List.map_ofFn, List.sum_ofFn]
  rfl

/-- Everything that a successful translation went through. -/
theorem translateCT_inv {lib rnd quad} {net : Net} {x xdot : List Term} {V Vdot : Term} {post}
    (h : translateCT lib rnd post quad net x xdot = .ok (V, Vdot)) :
    ∃ last z J z0 g, net.layers.getLast? = some last ∧
      untilLastCT lib rnd net.inputSize net.layers.dropLast net.acts x (eyeJac net.inputSize) = .ok (z, J) ∧
      lastAffine rnd last z = .ok [z0] ∧
      matJac net.inputSize (last.weight.map (fun r => r.map (roundBy rnd))) J = .ok [g] ∧
      (postGrad post (gradTerms quad x z0 g)).length = xdot.length ∧
      V = .mul (postVal post z0) (factors quad x).1 ∧
      Vdot = Term.sum (List.zipWith .mul (postGrad post (gradTerms quad x z0 g)) xdot) := by
  unfold translateCT at h
  split at h
  · cases h
  rename_i last hlast
  split at h
  · cases h
  rename_i z J h1
  split at h
  · cases h
  rename_i zo h2
  split at h
  · cases h
  rename_i Jo h3
  unfold assembleCT at h
  split at h
  · rename_i z0 g
    split at h
    · rename_i hlen
      cases h
      exact ⟨last, z, J, z0, g, hlast, h1, h2, h3, hlen, rfl, rfl⟩
    · cases h
  · cases h

/-- C17 (value). Whatever the depth, widths, activations and weights, and with or without the quadratic
factor: the symbolic certificate produced for the solver variables evaluates, at every real point, to the
output of the rounded network there (times `Σ x_i²` when the factor is used). -/
theorem C17_formula_is_network (lib : Lib) (rnd : ℤ) (quad : Bool) (net : Net) (n : ℕ) (xdot : List Term)
    (V Vdot : Term) (h : translateCT lib rnd none quad net (vars n) xdot = .ok (V, Vdot)) (p : Pt n) :
    ∃ y, (roundedNet rnd net).forward (coordList p) = .ok y ∧
      V.eval p.env = y * (if quad then normSq p else 1) := by
  obtain ⟨last, z, J, z0, g, h0, h1, h2, h4, h5, rfl, rfl⟩ := translateCT_inv h
  refine ⟨z0.eval p.env, ?_, ?_⟩
  · have e1 := untilLastCT_value h1 p.env
    have e2 := lastAffine_eval h2 p.env
    rw [vars_map_eval] at e1
    simp only [Net.forward, roundedNet, h0, List.getLast?_concat, List.dropLast_concat, e1, bind,
      Except.bind]
    rw [← e2]
    simp [at?]
  · simp only [Term.eval, postVal]
    congr 1
    cases quad
    · simp [factors, Term.eval]
    · simp only [factors, if_true]
      exact sumSq_eval p

/-- The last affine layer, the optional factor and the product with the dynamics, given the derivative of the hidden
part of the network along the curve. -/
theorem lie_core (lib : Lib) (rnd : ℤ) (quad : Bool) (net : Net) (n : ℕ) (xdot : List Term)
    (V Vdot : Term) (h : translateCT lib rnd none quad net (vars n) xdot = .ok (V, Vdot))
    (hn : net.inputSize = n) (p : Pt n) (γ : ℝ → Pt n) (s : Set ℝ) (t : ℝ) (hp : γ t = p)
    (hγ : HasDerivWithinAt γ (field n xdot p) s t)
    (hz : ∀ z J, untilLastCT lib rnd n net.layers.dropLast net.acts (vars n) (eyeJac n) = .ok (z, J) →
      List.Forall₂ (Track n (fun j => (xdot.getD j (.const 0)).eval p.env) (fun τ => (γ τ).env) s t) z J) :
    HasDerivWithinAt (fun τ => V.eval (γ τ).env) (Vdot.eval p.env) s t := by
  obtain ⟨last, z, J, z0, g, h0, h1, h2, h4, h5, rfl, rfl⟩ := translateCT_inv h
  rw [hn] at h1 h4
  have hcoord : ∀ i : Fin n, HasDerivWithinAt (fun τ => γ τ i) (field n xdot p i) s t :=
    fun i => (hasDerivWithinAt_pi.mp hγ) i
  set v : ℕ → ℝ := fun j => (xdot.getD j (.const 0)).eval p.env with hv
  set e : ℝ → Env := fun τ => (γ τ).env with he
  have het : e t = p.env := by rw [he]; simp only [hp]
  have hx : ∀ i (h : i < (vars n).length),
      HasDerivWithinAt (fun τ => ((vars n)[i]).eval (e τ)) (v i) s t := by
    intro i hi
    rw [length_vars] at hi
    have := hcoord ⟨i, hi⟩
    simpa [vars, Term.eval, he, Pt.env, hi, field, hv] using this
  replace hz := hz z J h1
  have hzo : List.Forall₂ (Track n v e s t) [z0] [g] := track_lastAffine hz h2 h4
  have hT0 : Track n v e s t z0 g := by simpa using hzo
  have hglen : g.length = n := by
    obtain ⟨_, hJ⟩ := matJac_ok h4
    have : g ∈ [g] := by simp
    rw [hJ] at this
    obtain ⟨r, _, hr⟩ := List.mem_map.mp this
    rw [← hr]; simp
  have hdE : (factors quad (vars n)).2.length = n := by cases quad <;> simp [factors]
  have hxl : xdot.length = n := by
    rw [← h5]; simp [postGrad, gradTerms, hglen, hdE]
  -- value of Vdot at p
  have hVdot : (Term.sum (List.zipWith Term.mul (postGrad none (gradTerms quad (vars n) z0 g)) xdot)).eval p.env
      = ∑ j ∈ Finset.range n, ((g.getD j (.const 0)).eval p.env * (factors quad (vars n)).1.eval p.env
          + ((factors quad (vars n)).2.getD j (.const 0)).eval p.env * z0.eval p.env) * v j := by
    rw [Term.eval_sum, List.map_zipWith]
    rw [← Fin.sum_univ_eq_sum_range (fun j => ((g.getD j (.const 0)).eval p.env * (factors quad (vars n)).1.eval p.env
          + ((factors quad (vars n)).2.getD j (.const 0)).eval p.env * z0.eval p.env) * v j) n]
    rw [← List.sum_ofFn]
    congr 1
    apply List.ext_getElem
    · simp [postGrad, gradTerms, hglen, hdE, hxl]
    · intro i hi1 hi2
      simp only [List.length_ofFn] at hi2
      have a1 : i < g.length := by omega
      have a2 : i < (factors quad (vars n)).2.length := by omega
      have a3 : i < xdot.length := by omega
      simp [postGrad, gradTerms, Term.eval, List.getD_eq_getElem?_getD, a1, a2, a3, hv]
  rw [hVdot]
  have hmul : HasDerivWithinAt (fun τ => z0.eval (e τ)) (rowD n v (e t) g) s t := hT0
  cases quad with
  | false =>
    have e1 : (fun τ => (Term.mul (postVal none z0) (factors false (vars n)).1).eval (γ τ).env)
        = fun τ => z0.eval (e τ) := by
      funext τ; simp [factors, Term.eval, he, postVal]
    rw [e1]
    refine HasDerivWithinAt.congr_deriv hmul ?_
    unfold rowD
    rw [het]
    apply Finset.sum_congr rfl
    intro j hj
    rw [Finset.mem_range] at hj
    simp [factors, Term.eval, List.getD_eq_getElem?_getD, hj]
  | true =>
    have hE := hasDeriv_factor hx
    have := hmul.mul hE
    have e1 : (fun τ => (Term.mul (postVal none z0) (factors true (vars n)).1).eval (γ τ).env)
        = (fun τ => z0.eval (e τ)) * (fun τ => (Term.sum ((vars n).map (.pow · 2))).eval (e τ)) := by
      funext τ; simp [factors, Term.eval, he, postVal]
    rw [e1]
    refine HasDerivWithinAt.congr_deriv this ?_
    unfold rowD
    rw [het, Finset.sum_mul, Finset.mul_sum, length_vars, ← Finset.sum_add_distrib]
    apply Finset.sum_congr rfl
    intro j hj
    rw [Finset.mem_range] at hj
    simp [factors, Term.eval, List.getD_eq_getElem?_getD, hj]
    ring

/-- The coordinates along a curve, with the identity matrix as derivative. -/
theorem track_vars {n : ℕ} {xdot : List Term} {p : Pt n} {γ : ℝ → Pt n} {s : Set ℝ} {t : ℝ}
    (hγ : HasDerivWithinAt γ (field n xdot p) s t) :
    List.Forall₂ (Track n (fun j => (xdot.getD j (.const 0)).eval p.env) (fun τ => (γ τ).env) s t) (vars n)
      (eyeJac n) := by
  have hcoord : ∀ i : Fin n, HasDerivWithinAt (fun τ => γ τ i) (field n xdot p i) s t :=
    fun i => (hasDerivWithinAt_pi.mp hγ) i
  refine track_eye (n := n) (by simp) fun i hi => ?_
  rw [length_vars] at hi
  have := hcoord ⟨i, hi⟩
  simpa [vars, Term.eval, Pt.env, hi, field] using this

/-- C17 / C19 (derivative). The symbolic Lie derivative is the time derivative of the symbolic certificate
along every curve that passes through the point with the velocity prescribed by the dynamics; for networks
with ReLU units this requires that no ReLU pre-activation is exactly 0 at the point. -/
theorem C17_lie_derivative (lib : Lib) (rnd : ℤ) (quad : Bool) (net : Net) (n : ℕ) (xdot : List Term)
    (V Vdot : Term) (h : translateCT lib rnd none quad net (vars n) xdot = .ok (V, Vdot))
    (hn : net.inputSize = n) (p : Pt n)
    (hk : noKink (roundedNet rnd net).layers.dropLast net.acts (coordList p)) :
    IsLieDerivAt (field n xdot) (fun q => V.eval q.env) (fun q => Vdot.eval q.env) p := by
  intro γ s t hp hγ
  refine lie_core lib rnd quad net n xdot V Vdot h hn p γ s t hp hγ fun z J h1 => ?_
  obtain ⟨last, _, _, _, _, h0, _⟩ := translateCT_inv h
  refine track_untilLast h1 (track_vars hγ) ?_
  simp only [hp]
  rw [vars_map_eval]
  simpa [roundedNet, h0] using hk

theorem noKink_of_smooth (net : Net) (h : smoothActs net) (ls : List Layer) (y : List ℝ) :
    noKink ls net.acts y := by
  have : ∀ (ls : List Layer) (as : List Act) (y : List ℝ), (∀ a ∈ as, a ≠ .relu) → noKink ls as y := by
    intro ls
    induction ls with
    | nil => intros; trivial
    | cons l ls ih =>
      intro as y has
      cases as with
      | nil => trivial
      | cons a as =>
        exact ⟨fun ha => absurd ha (has a (by simp)), ih as _ (fun b hb => has b (by simp [hb]))⟩
  exact this ls net.acts y h

/-- C17 for networks without ReLU: the Lie derivative is right at every point. -/
theorem C17_lie_derivative_smooth (lib : Lib) (rnd : ℤ) (quad : Bool) (net : Net) (n : ℕ)
    (xdot : List Term) (V Vdot : Term)
    (h : translateCT lib rnd none quad net (vars n) xdot = .ok (V, Vdot))
    (hn : net.inputSize = n) (hs : smoothActs net) (p : Pt n) :
    IsLieDerivAt (field n xdot) (fun q => V.eval q.env) (fun q => Vdot.eval q.env) p :=
  C17_lie_derivative lib rnd quad net n xdot V Vdot h hn p (noKink_of_smooth net hs _ _)

/-- A 2-3-2-1 network with biases, tanh and a poly layer. -/
def exampleNet : Net :=
  ⟨2, [⟨[[1, 1/3], [2, -1], [0, 7/2]], some [1, 0, 1/7]⟩, ⟨[[1, 2, 3], [0, 1, 0]], some [0, 1]⟩,
    ⟨[[1, -2/3]], some [1/9]⟩], [.tanh, .poly2]⟩

example : ∃ V Vdot, translateCT .dreal 3 none true exampleNet (vars 2)
    [.neg (.var 1), .app .sin (.var 0)] = .ok (V, Vdot) := ⟨_, _, rfl⟩
example : smoothActs exampleNet := by intro a ha; simp [exampleNet] at ha; rcases ha with rfl | rfl <;> simp

/-! ### C19 -/

/-- C19. With the quadratic factor the certificate vanishes at the origin, whatever the network. -/
theorem C19_factored_vanishes_at_origin (lib : Lib) (rnd : ℤ) (net : Net) (n : ℕ) (xdot : List Term)
    (V Vdot : Term) (h : translateCT lib rnd none true net (vars n) xdot = .ok (V, Vdot)) :
    V.eval (Pt.env (0 : Pt n)) = 0 := by
  obtain ⟨y, _, hy⟩ := C17_formula_is_network lib rnd true net n xdot V Vdot h 0
  rw [hy]; simp [normSq]

/-- C19, the defect: the two-certificate translator silently ignores the FACTORS setting; its Lyapunov part
is the bare network output, which need not vanish at the origin. -/
theorem C19_double_translator_ignores_factors (lib : Lib) (rnd : ℤ) (lyap barr : Net) (n : ℕ)
    (xdot : List Term) (V Vdot B Bdot : Term)
    (h : translateCTDouble lib rnd none lyap barr (vars n) xdot = .ok ((V, Vdot), (B, Bdot))) (p : Pt n) :
    ∃ y, (roundedNet rnd lyap).forward (coordList p) = .ok y ∧ V.eval p.env = y := by
  unfold translateCTDouble at h
  simp only [bind, Except.bind] at h
  split at h
  · cases h
  rename_i a h1
  split at h
  · cases h
  rename_i b h2
  cases h
  obtain ⟨y, hy, e⟩ := C17_formula_is_network lib rnd false lyap n xdot V Vdot h1 p
  exact ⟨y, hy, by simpa using e⟩

example : ∃ r, translateCTDouble .dreal 3 none exampleNet exampleNet (vars 2)
    [.neg (.var 1), .app .sin (.var 0)] = .ok r := ⟨_, rfl⟩

/-! ### C20 -/

/-- C20, the part that holds: if the extra cvc5 rounding step does not change the value of any expression,
the cvc5 formulas are the network and its Lie derivative. -/
theorem C20_cvc5_consistent_partial (rnd : ℤ) (r : Term → Term) (quad : Bool) (net : Net) (n : ℕ)
    (xdot : List Term) (V Vdot : Term)
    (hr : ∀ t ρ, (r t).eval ρ = t.eval ρ)
    (h : translateCT .cvc5 rnd (some r) quad net (vars n) xdot = .ok (V, Vdot))
    (hn : net.inputSize = n) (hs : smoothActs net) (p : Pt n) :
    IsLieDerivAt (field n xdot) (fun q => V.eval q.env) (fun q => Vdot.eval q.env) p := by
  obtain ⟨last, z, J, z0, g, h0, h1, h2, h4, h5, e3, e4⟩ := translateCT_inv h
  have hlen : (postGrad none (gradTerms quad (vars n) z0 g)).length = xdot.length := by
    rw [← h5]
    simp only [postGrad]
    cases gradTerms quad (vars n) z0 g <;> simp [mapHead]
  have hplain : translateCT .cvc5 rnd none quad net (vars n) xdot = .ok (.mul (postVal none z0) (factors quad (vars n)).1,
      Term.sum (List.zipWith .mul (postGrad none (gradTerms quad (vars n) z0 g)) xdot)) := by
    unfold translateCT
    simp only [h0, h1, h2, h4, assembleCT, hlen, if_true]
  have key := C17_lie_derivative_smooth _ _ _ _ _ _ _ _ hplain hn hs p
  have v1 : ∀ q : Pt n, V.eval q.env = (Term.mul (postVal none z0) (factors quad (vars n)).1).eval q.env := by
    intro q; rw [e3]; simp [Term.eval, hr, postVal]
  have v2 : ∀ q : Pt n, Vdot.eval q.env =
      (Term.sum (List.zipWith .mul (postGrad none (gradTerms quad (vars n) z0 g)) xdot)).eval q.env := by
    intro q; rw [e4]
    simp only [Term.eval_sum]
    congr 1
    simp only [List.map_zipWith, postGrad]
    cases gradTerms quad (vars n) z0 g with
    | nil => rfl
    | cons a l =>
      cases xdot with
      | nil => rfl
      | cons b xdot => simp [mapHead, Term.eval, hr]
  simp only [v1, v2]
  exact key

/-- The constants of an expression. -/
def Spec.constants : Term → List ℚ
  | .var _ => []
  | .const c => [c]
  | .add a b | .sub a b | .mul a b | .div a b => constants a ++ constants b
  | .neg a | .pow a _ | .app _ a => constants a

theorem roundHalfEven_int (m : ℤ) : roundHalfEven (m : ℚ) = m := by
  unfold roundHalfEven
  simp only [Int.floor_intCast]
  rw [if_pos (by norm_num)]

theorem roundLeaves_fixed (dp : ℤ) (t : Term) (h : ∀ c ∈ Spec.constants t, pyRound dp c = c) : roundLeaves dp t = t := by
  induction t with
  | var i => rfl
  | const c => simp only [roundLeaves]; rw [h c (by simp [Spec.constants])]
  | add a b iha ihb | sub a b iha ihb | mul a b iha ihb | div a b iha ihb =>
    simp only [roundLeaves]
    rw [iha fun c hc => h c (List.mem_append.2 (Or.inl hc)), ihb fun c hc => h c (List.mem_append.2 (Or.inr hc))]
  | neg a ih | pow a k ih | app f a ih => simp only [roundLeaves]; rw [ih h]

/-- **C20 (when the rounding is harmless).** The extra cvc5 step keeps an expression's value if cvc5's simplifier does and every constant of the
simplified expression is a multiple of `10^-ROUNDING`; expressions that are not simplified and have such constants are not changed at all. -/
theorem C20_rounding_exact_partial (simp : Term → Term) (dp : ℤ) (t : Term) (hs : ∀ ρ, (simp t).eval ρ = t.eval ρ)
    (h : ∀ c ∈ Spec.constants (simp t), ∃ m : ℤ, c = m / 10 ^ dp.toNat) (hdp : 0 ≤ dp) :
    (∀ ρ, (roundArith simp dp t).eval ρ = t.eval ρ) ∧ (simp t = t → roundArith simp dp t = t) := by
  have key : roundArith simp dp t = simp t := by
    unfold roundArith
    have h1 : roundLeaves dp (simp t) = simp t := by
      refine roundLeaves_fixed dp _ fun c hc => ?_
      obtain ⟨m, rfl⟩ := h c hc
      have hne : (10 : ℚ) ^ dp.toNat ≠ 0 := by positivity
      unfold pyRound
      rw [if_pos hdp]
      unfold npRound
      rw [div_mul_cancel₀ _ hne]
      rw [roundHalfEven_int]
    cases hst : simp t with
    | const c => rfl
    | _ => rw [hst] at h1; exact h1
  exact ⟨fun ρ => by rw [key, hs], fun e => by rw [key, e]⟩

/-- Non-vacuity: `-(x/4) - 3` with two decimals. -/
example : roundArith id 2 (.sub (.neg (.mul (.const (1/4)) (.var 0))) (.const 3)) = .sub (.neg (.mul (.const (1/4)) (.var 0))) (.const 3) :=
  (C20_rounding_exact_partial id 2 _ (fun _ => rfl) (by
    intro c hc
    simp [Spec.constants] at hc
    rcases hc with rfl | rfl
    · exact ⟨25, by norm_num [show Int.toNat 2 = 2 from rfl]⟩
    · exact ⟨300, by norm_num [show Int.toNat 2 = 2 from rfl]⟩) (by decide)).2 rfl

/-- A function that is identically 0 has no nonzero Lie derivative. -/
theorem not_lie_of_zero {n : ℕ} (f : Pt n → Pt n) (V Vdot : Pt n → ℝ) (p : Pt n)
    (h0 : ∀ q, V q = 0) (h1 : Vdot p < 0) : ¬ IsLieDerivAt f V Vdot p := by
  intro h
  have hγ : HasDerivWithinAt (fun τ : ℝ => p + τ • f p) (f p) Set.univ 0 := by
    have := (((hasDerivAt_id (0:ℝ)).smul_const (f p)).const_add p).hasDerivWithinAt (s := Set.univ)
    simpa using this
  have h2 := h (fun τ => p + τ • f p) Set.univ 0 (by simp) hγ
  simp only [h0] at h2
  have h3 := hasDerivWithinAt_univ.mp h2
  have := h3.unique (hasDerivAt_const 0 0)
  linarith

/-- C20 is false: only the first entry of the gradient and the value are rounded. For the network
`V = x0/4 + x1/4` with rounding -1 (documented as "no rounding"), dynamics `x' = (-1,-1)`, the formula handed
to cvc5 for `V` is identically 0 while the one for its Lie derivative is negative everywhere. -/
theorem C20_cvc5_inconsistent :
    ∃ V Vdot, translateCT .cvc5 (-1) (some (roundArith id (-1))) false ⟨2, [⟨[[1/4, 1/4]], none⟩], []⟩ (vars 2)
        [.const (-1), .const (-1)] = .ok (V, Vdot) ∧
      (∀ ρ, V.eval ρ = 0) ∧ (∀ ρ, Vdot.eval ρ < 0) ∧
      ∀ p : Pt 2, ¬ IsLieDerivAt (field 2 [.const (-1), .const (-1)]) (fun q => V.eval q.env)
        (fun q => Vdot.eval q.env) p := by
  have h4 : pyRound (-1) (1/4) = 0 := by decide +kernel
  have h0 : pyRound (-1) 0 = 0 := by decide +kernel
  have h1 : pyRound (-1) 1 = 0 := by decide +kernel
  have key : ∃ V Vdot, translateCT .cvc5 (-1) (some (roundArith id (-1))) false
        ⟨2, [⟨[[1/4, 1/4]], none⟩], []⟩ (vars 2) [.const (-1), .const (-1)] = .ok (V, Vdot) ∧
      (∀ ρ, V.eval ρ = 0) ∧ (∀ ρ, Vdot.eval ρ < 0) := by
    refine ⟨_, _, rfl, ?_, ?_⟩
    · intro ρ
      simp only [postVal, roundArith, id, Term.sum, vars, List.range, List.range.loop, List.map, List.zipWith,
        List.foldl, roundAst, roundLeaves, Term.eval, roundBy, h0, h4]
      norm_num [h4]
    · intro ρ
      simp only [postGrad, gradTerms, mapHead, roundArith, id, Term.sum, vars, List.range, List.range.loop,
        List.map, List.zipWith, factors, eyeJac, List.foldl, roundAst, roundLeaves, Term.eval, roundBy]
      norm_num [h4, h0, h1, roundLeaves, Term.eval]
  obtain ⟨V, Vdot, e, hV, hd⟩ := key
  exact ⟨V, Vdot, e, hV, hd, fun p => not_lie_of_zero _ _ _ p (fun q => hV _) (hd _)⟩

/-- C20 is false with the default rounding of 3 decimals as well: two layers of weights 0.001 multiply to
1e-6, which cvc5's (value-preserving) simplifier exposes as a constant that is then rounded to 0 in `V` and in
the first gradient entry, but not in the second one. -/
theorem C20_cvc5_inconsistent_default_rounding :
    ∃ simp : Term → Term, (∀ t ρ, (simp t).eval ρ = t.eval ρ) ∧
    ∃ V Vdot, translateCT .cvc5 3 (some (roundArith simp 3)) false
        ⟨2, [⟨[[1/1000, 1/1000]], none⟩, ⟨[[1/1000]], none⟩], [.identity]⟩ (vars 2)
        [.const 0, .const (-1)] = .ok (V, Vdot) ∧
      (∀ ρ, V.eval ρ = 0) ∧ (∀ ρ, Vdot.eval ρ < 0) ∧
      ∀ p : Pt 2, ¬ IsLieDerivAt (field 2 [.const 0, .const (-1)]) (fun q => V.eval q.env)
        (fun q => Vdot.eval q.env) p := by
  let z0 : Term := Term.sum [.mul (.const (1/1000)) (.add (Term.sum
    [.mul (.const (1/1000)) (.var 0), .mul (.const (1/1000)) (.var 1)]) (.const 0))]
  let z1 : Term := .add (.mul (.const (1/1000000)) (.var 0)) (.mul (.const (1/1000000)) (.var 1))
  have hr3 : npRound 3 (1/1000) = 1/1000 := by decide +kernel
  have hr6 : npRound 3 (1/1000000) = 0 := by decide +kernel
  refine ⟨fun t => if t = z0 then z1 else t, ?_, ?_⟩
  · intro t ρ
    dsimp only
    split
    · rename_i h; subst h
      simp [z0, z1, Term.eval]; ring
    · rfl
  · have key : ∃ V Vdot, translateCT .cvc5 3 (some (roundArith (fun t => if t = z0 then z1 else t) 3)) false
        ⟨2, [⟨[[1/1000, 1/1000]], none⟩, ⟨[[1/1000]], none⟩], [.identity]⟩ (vars 2)
        [.const 0, .const (-1)] = .ok (V, Vdot) ∧
        (∀ ρ, V.eval ρ = 0) ∧ (∀ ρ, Vdot.eval ρ < 0) := by
      refine ⟨_, _, rfl, ?_, ?_⟩
      · intro ρ
        have hb3 : roundBy 3 (1/1000) = 1/1000 := by simpa [roundBy] using hr3
        simp only [postVal, vars, List.range, List.range.loop, List.map, List.zipWith, hiddenBias, hb3]
        have hp6 : pyRound 3 (1/1000000) = 0 := by simpa [pyRound] using hr6
        have : roundArith (fun t => if t = z0 then z1 else t) 3 z0
            = .add (.mul (.const 0) (.var 0)) (.mul (.const 0) (.var 1)) := by
          simp only [roundArith, if_true, z1, roundAst, roundLeaves, hp6]
        simp only [z0] at this ⊢
        simp only [Term.eval, this, factors]
        simp
      · intro ρ
        have hb3 : roundBy 3 (1/1000) = 1/1000 := by simpa [roundBy] using hr3
        simp only [postGrad, gradTerms, mapHead, vars, List.range, List.range.loop, List.map, List.zipWith,
          hiddenBias, hb3, factors, eyeJac, diagJac, Term.eval_sum, Term.eval]
        generalize (roundArith _ _ _).eval ρ = c
        norm_num [Term.eval, one]
    obtain ⟨V, Vdot, e, hV, hd⟩ := key
    exact ⟨V, Vdot, e, hV, hd, fun p => not_lie_of_zero _ _ _ p (fun q => hV _) (hd _)⟩

end Fossil

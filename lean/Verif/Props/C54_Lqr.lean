/-
C54: the gain returned by `LQR.solve` stabilises the linear system and is optimal.
-/
import Verif.Props.C53_Eigenvalues
import Mathlib.MeasureTheory.Integral.IntervalIntegral.FundThmCalculus
import Mathlib.LinearAlgebra.Matrix.DotProduct

namespace Fossil
open Spec Set Topology Filter Matrix

/-- Quadratic form. -/
def Spec.quad {k : ℕ} (M : Matrix (Fin k) (Fin k) ℝ) (x : Fin k → ℝ) : ℝ := x ⬝ᵥ M.mulVec x

/-- Symmetric positive definite weight. -/
def Spec.PosDefWeight {k : ℕ} (M : Matrix (Fin k) (Fin k) ℝ) : Prop := M.transpose = M ∧ ∀ x : Fin k → ℝ, x ≠ 0 → 0 < quad M x

/-- What `scipy.linalg.solve_continuous_are` is documented to return: a symmetric positive semidefinite solution of the Riccati equation
`Aᵀ P + P A - P B R⁻¹ Bᵀ P + Q = 0`. -/
structure Spec.Riccati {n m : ℕ} (A : Matrix (Fin n) (Fin n) ℝ) (B : Matrix (Fin n) (Fin m) ℝ) (Q : Matrix (Fin n) (Fin n) ℝ)
    (R : Matrix (Fin m) (Fin m) ℝ) (P : Matrix (Fin n) (Fin n) ℝ) : Prop where
  symm : P.transpose = P
  nonneg : ∀ x, 0 ≤ quad P x
  eqn : A.transpose * P + P * A - P * B * R⁻¹ * B.transpose * P + Q = 0

/-- `x` is driven by the input `u` through `x' = A x + B u` on `[0, T]`. -/
def Spec.Driven {n m : ℕ} (A : Matrix (Fin n) (Fin n) ℝ) (B : Matrix (Fin n) (Fin m) ℝ) (T : ℝ) (x : ℝ → Pt n) (u : ℝ → Fin m → ℝ) : Prop :=
  ∀ t ∈ Icc 0 T, HasDerivWithinAt x (A.mulVec (x t) + B.mulVec (u t)) (Icc 0 T) t

/-- Quadratic cost over `[0, T]`. -/
noncomputable def Spec.cost {n m : ℕ} (Q : Matrix (Fin n) (Fin n) ℝ) (R : Matrix (Fin m) (Fin m) ℝ) (T : ℝ) (x : ℝ → Pt n)
    (u : ℝ → Fin m → ℝ) : ℝ := ∫ t in (0:ℝ)..T, (quad Q (x t) + quad R (u t))

theorem dot_self_nonneg {k : ℕ} (x : Fin k → ℝ) : 0 ≤ x ⬝ᵥ x := Finset.sum_nonneg fun i _ => mul_self_nonneg (x i)

theorem dot_symm {k : ℕ} {M : Matrix (Fin k) (Fin k) ℝ} (h : M.transpose = M) (x y : Fin k → ℝ) :
    x ⬝ᵥ M.mulVec y = y ⬝ᵥ M.mulVec x := by
  rw [dotProduct_mulVec, ← mulVec_transpose, h, dotProduct_comm]

theorem quad_deriv {k : ℕ} (M : Matrix (Fin k) (Fin k) ℝ) {ξ : ℝ → Fin k → ℝ} {v : Fin k → ℝ} {s : Set ℝ} {t : ℝ}
    (h : HasDerivWithinAt ξ v s t) :
    HasDerivWithinAt (fun τ => quad M (ξ τ)) (v ⬝ᵥ M.mulVec (ξ t) + ξ t ⬝ᵥ M.mulVec v) s t := by
  have hi := hasDerivWithinAt_pi.1 h
  have h2 : HasDerivWithinAt (fun τ => ∑ i, ξ τ i * ∑ j, M i j * ξ τ j)
      (∑ i, (v i * (∑ j, M i j * ξ t j) + ξ t i * ∑ j, M i j * v j)) s t := by
    refine HasDerivWithinAt.fun_sum fun i _ => (hi i).mul ?_
    exact HasDerivWithinAt.fun_sum fun j _ => (hi j).const_mul _
  refine h2.congr_deriv ?_
  rw [Finset.sum_add_distrib]
  rfl

theorem continuous_quad {k : ℕ} (M : Matrix (Fin k) (Fin k) ℝ) : Continuous (quad M) := by
  unfold quad dotProduct mulVec dotProduct
  fun_prop

section
variable {n m : ℕ} {A : Matrix (Fin n) (Fin n) ℝ} {B : Matrix (Fin n) (Fin m) ℝ} {Q : Matrix (Fin n) (Fin n) ℝ}
  {R : Matrix (Fin m) (Fin m) ℝ} {P : Matrix (Fin n) (Fin n) ℝ}

/-- Completion of squares. -/
theorem riccati_identity (hP : Riccati A B Q R P) (hR : R.transpose = R) (hdet : R.det ≠ 0) (x : Pt n) (u : Fin m → ℝ) :
    (A.mulVec x + B.mulVec u) ⬝ᵥ P.mulVec x + x ⬝ᵥ P.mulVec (A.mulVec x + B.mulVec u) =
      quad R (u + (R⁻¹ * B.transpose * P).mulVec x) - (quad Q x + quad R u) := by
  set g := B.transpose.mulVec (P.mulVec x) with hg
  set w := (R⁻¹ * B.transpose * P).mulVec x with hw
  have hw' : w = R⁻¹.mulVec g := by rw [hw, hg, mulVec_mulVec, mulVec_mulVec, Matrix.mul_assoc]
  have hRw : R.mulVec w = g := by
    rw [hw', mulVec_mulVec, mul_nonsing_inv _ (isUnit_iff_ne_zero.2 hdet), one_mulVec]
  -- the equation on x
  have h0 : x ⬝ᵥ (A.transpose * P + P * A - P * B * R⁻¹ * B.transpose * P + Q).mulVec x = 0 := by
    rw [hP.eqn]; simp
  rw [add_mulVec, sub_mulVec, add_mulVec, dotProduct_add, dotProduct_sub, dotProduct_add] at h0
  have e1 : x ⬝ᵥ (A.transpose * P).mulVec x = A.mulVec x ⬝ᵥ P.mulVec x := by
    rw [← mulVec_mulVec, dotProduct_mulVec, vecMul_transpose]
  have e2 : x ⬝ᵥ (P * A).mulVec x = A.mulVec x ⬝ᵥ P.mulVec x := by
    rw [← mulVec_mulVec, dot_symm hP.symm]
  have e3 : x ⬝ᵥ (P * B * R⁻¹ * B.transpose * P).mulVec x = g ⬝ᵥ w := by
    have : (P * B * R⁻¹ * B.transpose * P).mulVec x = P.mulVec (B.mulVec w) := by
      rw [hw, mulVec_mulVec, mulVec_mulVec]; congr 1; simp only [Matrix.mul_assoc]
    rw [this, dot_symm hP.symm, hg, mulVec_transpose, ← dotProduct_mulVec, dotProduct_comm]
  rw [e1, e2, e3] at h0
  have e4 : B.mulVec u ⬝ᵥ P.mulVec x = g ⬝ᵥ u := by
    rw [hg, mulVec_transpose, ← dotProduct_mulVec, dotProduct_comm]
  have e5 : x ⬝ᵥ P.mulVec (A.mulVec x + B.mulVec u) = (A.mulVec x + B.mulVec u) ⬝ᵥ P.mulVec x := dot_symm hP.symm _ _
  rw [e5, add_dotProduct, e4]
  unfold quad
  rw [mulVec_add, dotProduct_add, add_dotProduct, add_dotProduct, hRw, dot_symm hR w u, hRw, dotProduct_comm u g, dotProduct_comm w g]
  linarith

theorem lqr_inv {care} {K : Matrix (Fin m) (Fin n) ℝ} {Q' : Option (Matrix (Fin n) (Fin n) ℝ)}
    {R' : Option (Matrix (Fin m) (Fin m) ℝ)} (h : lqrSolve care A (some B) Q' R' = .ok K) :
    ∃ P, care A B (Q'.getD 1) (R'.getD 1) = .ok P ∧ (R'.getD 1).det ≠ 0 ∧ K = (R'.getD 1)⁻¹ * B.transpose * P := by
  unfold lqrSolve at h
  obtain ⟨P, hP, h⟩ := except_bind_ok h
  split_ifs at h with hd
  cases h
  exact ⟨P, hP, hd, rfl⟩

theorem posDef_det {k : ℕ} {M : Matrix (Fin k) (Fin k) ℝ} (h : PosDefWeight M) : M.det ≠ 0 := by
  intro h0
  obtain ⟨v, hv, hv'⟩ := exists_mulVec_eq_zero_iff.2 h0
  have := h.2 v hv
  rw [quad, hv'] at this
  simp at this

/-- The default weights are identities. -/
theorem posDef_one (k : ℕ) : PosDefWeight (1 : Matrix (Fin k) (Fin k) ℝ) := by
  refine ⟨transpose_one, fun x hx => ?_⟩
  rw [quad, one_mulVec]
  exact lt_of_le_of_ne (dot_self_nonneg x) (fun h => hx (dotProduct_self_eq_zero.1 h.symm))

theorem riccati_pos (hP : Riccati A B Q R P) (hQ : PosDefWeight Q) (x : Pt n) (hx : x ≠ 0) : 0 < quad P x := by
  refine lt_of_le_of_ne (hP.nonneg x) fun h => ?_
  -- a zero of a semidefinite form is in the kernel
  have hker : P.mulVec x = 0 := by
    by_contra hne
    set y := P.mulVec x with hy
    have hyy : 0 < y ⬝ᵥ y := lt_of_le_of_ne (dot_self_nonneg y) (fun h => hne (dotProduct_self_eq_zero.1 h.symm))
    have key : ∀ s : ℝ, 0 ≤ s ^ 2 * quad P y - 2 * s * (y ⬝ᵥ y) := by
      intro s
      have h1 := hP.nonneg (x - s • y)
      have h2 : quad P (x - s • y) = quad P x - 2 * s * (y ⬝ᵥ y) + s ^ 2 * quad P y := by
        unfold quad
        rw [mulVec_sub, mulVec_smul, dotProduct_sub, sub_dotProduct, sub_dotProduct, smul_dotProduct, smul_dotProduct, dotProduct_smul,
          dotProduct_smul, dot_symm hP.symm x y, ← hy]
        simp only [smul_eq_mul]; ring
      rw [h2, ← h] at h1
      linarith
    by_cases hq : quad P y ≤ 0
    · have := key 1; linarith
    · push Not at hq
      have := key ((y ⬝ᵥ y) / quad P y)
      have e : ((y ⬝ᵥ y) / quad P y) ^ 2 * quad P y - 2 * ((y ⬝ᵥ y) / quad P y) * (y ⬝ᵥ y) = -((y ⬝ᵥ y) ^ 2 / quad P y) := by
        field_simp; ring
      rw [e] at this
      have h3 : 0 < (y ⬝ᵥ y) ^ 2 / quad P y := by positivity
      linarith
  have h0 : x ⬝ᵥ (A.transpose * P + P * A - P * B * R⁻¹ * B.transpose * P + Q).mulVec x = 0 := by
    rw [hP.eqn]; simp
  rw [add_mulVec, sub_mulVec, add_mulVec, dotProduct_add, dotProduct_sub, dotProduct_add] at h0
  simp only [← mulVec_mulVec, hker, mulVec_zero, dotProduct_zero] at h0
  rw [dot_symm hP.symm x, hker] at h0
  have := hQ.2 x hx
  unfold quad at this
  simp at h0
  linarith

/-- C54, stability: with positive definite weights (in particular the default ones) the returned gain makes the closed loop
`x' = (A - B K) x` asymptotically stable, and the class's own eigenvalue test accepts it. -/
theorem C54_closed_loop_stable {care} {K : Matrix (Fin m) (Fin n) ℝ} (Q' : Option (Matrix (Fin n) (Fin n) ℝ))
    (R' : Option (Matrix (Fin m) (Fin m) ℝ)) (hcare : ∀ P, care A B (Q'.getD 1) (R'.getD 1) = .ok P → Riccati A B (Q'.getD 1) (R'.getD 1) P)
    (hQ : ∀ M, Q' = some M → PosDefWeight M) (hR : ∀ M, R' = some M → PosDefWeight M)
    (h : lqrSolve care A (some B) Q' R' = .ok K) :
    AsympStable (fun p => (A - B * K).mulVec p) ∧ isStable (A - B * K) = true := by
  obtain ⟨P, hP, hdet, rfl⟩ := lqr_inv h
  have hP := hcare P hP
  have hQ' : PosDefWeight (Q'.getD 1) := by cases Q' with
    | none => exact posDef_one n
    | some M => exact hQ M rfl
  have hR' : PosDefWeight (R'.getD 1) := by cases R' with
    | none => exact posDef_one m
    | some M => exact hR M rfl
  set K := (R'.getD 1)⁻¹ * B.transpose * P with hK
  set F : Pt n → Pt n := fun p => (A - B * K).mulVec p with hF
  have hFe : ∀ p, F p = A.mulVec p + B.mulVec (-(K.mulVec p)) := by
    intro p
    rw [hF]
    simp only
    rw [sub_mulVec, mulVec_neg, mulVec_mulVec, sub_eq_add_neg]
  have hL : ∀ p, IsLieDerivAt F (quad P) (fun p => -(quad (Q'.getD 1) p + quad (R'.getD 1) (-(K.mulVec p)))) p := by
    intro p γ s t hγ hd
    have h1 := quad_deriv P hd
    refine h1.congr_deriv ?_
    rw [hγ, hFe, riccati_identity hP hR'.1 hdet, ← hK, neg_add_cancel]
    simp [quad]
  have hst : AsympStable F := by
    refine asympStable_of (continuous_quad P) hL ?_ (D := univ) univ_mem (fun p _ hp => ?_) (fun p _ hp => ?_)
    · refine ((continuous_quad _).add ((continuous_quad _).comp ?_)).neg
      refine Continuous.neg ?_
      unfold mulVec dotProduct
      fun_prop
    · have : quad P 0 = 0 := by simp [quad]
      rw [this]
      exact riccati_pos hP hQ' p hp
    · have h1 := hQ'.2 p hp
      have h2 : 0 ≤ quad (R'.getD 1) (-(K.mulVec p)) := by
        by_cases e : -(K.mulVec p) = 0
        · rw [e]; simp [quad]
        · exact (hR'.2 _ e).le
      linarith
  exact ⟨hst, (C53_linear_iff _).2 hst⟩

/-- Cost of any input as the optimal cost plus the price of deviating from the feedback. -/
theorem cost_identity (hP : Riccati A B Q R P) (hR : R.transpose = R) (hdet : R.det ≠ 0) {T : ℝ} (hT : 0 ≤ T) {x : ℝ → Pt n}
    {u : ℝ → Fin m → ℝ} (hx : Driven A B T x u) (hu : ContinuousOn u (Icc 0 T)) :
    cost Q R T x u + quad P (x T) = quad P (x 0) +
      ∫ t in (0:ℝ)..T, quad R (u t + (R⁻¹ * B.transpose * P).mulVec (x t)) := by
  have hxc : ContinuousOn x (Icc 0 T) := fun t ht => (hx t ht).continuousWithinAt
  set K := R⁻¹ * B.transpose * P with hK
  have hKc : Continuous fun p : Pt n => K.mulVec p := by
    unfold mulVec dotProduct; fun_prop
  have c1 : ContinuousOn (fun t => quad R (u t + K.mulVec (x t))) (Icc 0 T) :=
    (continuous_quad R).comp_continuousOn (hu.add (hKc.comp_continuousOn hxc))
  have c2 : ContinuousOn (fun t => quad Q (x t) + quad R (u t)) (Icc 0 T) :=
    ((continuous_quad Q).comp_continuousOn hxc).add ((continuous_quad R).comp_continuousOn hu)
  have hd : ∀ t ∈ Icc 0 T, HasDerivWithinAt (fun τ => quad P (x τ)) (quad R (u t + K.mulVec (x t)) - (quad Q (x t) + quad R (u t)))
      (Icc 0 T) t := by
    intro t ht
    exact (quad_deriv P (hx t ht)).congr_deriv (riccati_identity hP hR hdet (x t) (u t))
  have hI : ∫ t in (0:ℝ)..T, (quad R (u t + K.mulVec (x t)) - (quad Q (x t) + quad R (u t))) = quad P (x T) - quad P (x 0) := by
    refine intervalIntegral.integral_eq_sub_of_hasDerivAt_of_le hT (fun t ht => (hd t ht).continuousWithinAt) (fun t ht => ?_) ?_
    · exact (hd t (Ioo_subset_Icc_self ht)).hasDerivAt (Icc_mem_nhds ht.1 ht.2)
    · exact (ContinuousOn.intervalIntegrable_of_Icc hT (c1.sub c2))
  rw [intervalIntegral.integral_sub (c1.intervalIntegrable_of_Icc hT) (c2.intervalIntegrable_of_Icc hT)] at hI
  unfold cost
  linarith

/-- C54, optimality over every horizon `T`, with `x(T)ᵀ P x(T)` the cost of the rest: no continuous input does better than
`x(0)ᵀ P x(0)`, and the feedback `u = -K x` achieves it. -/
theorem C54_optimal {care} {K : Matrix (Fin m) (Fin n) ℝ} (Q' : Option (Matrix (Fin n) (Fin n) ℝ))
    (R' : Option (Matrix (Fin m) (Fin m) ℝ)) (hR : ∀ M, R' = some M → PosDefWeight M) (h : lqrSolve care A (some B) Q' R' = .ok K)
    (hcare : ∀ P, care A B (Q'.getD 1) (R'.getD 1) = .ok P → Riccati A B (Q'.getD 1) (R'.getD 1) P) :
    ∃ P, Riccati A B (Q'.getD 1) (R'.getD 1) P ∧ ∀ T ≥ 0, ∀ (x : ℝ → Pt n) (u : ℝ → Fin m → ℝ), Driven A B T x u →
      ContinuousOn u (Icc 0 T) →
      quad P (x 0) ≤ cost (Q'.getD 1) (R'.getD 1) T x u + quad P (x T) ∧
      ((∀ t ∈ Icc 0 T, u t = -(K.mulVec (x t))) → cost (Q'.getD 1) (R'.getD 1) T x u + quad P (x T) = quad P (x 0)) := by
  obtain ⟨P, hP, hdet, rfl⟩ := lqr_inv h
  have hP := hcare P hP
  have hR' : PosDefWeight (R'.getD 1) := by cases R' with
    | none => exact posDef_one m
    | some M => exact hR M rfl
  refine ⟨P, hP, fun T hT x u hx hu => ?_⟩
  have hid := cost_identity hP hR'.1 hdet hT hx hu
  rw [hid]
  constructor
  · have : 0 ≤ ∫ t in (0:ℝ)..T, quad (R'.getD 1) (u t + ((R'.getD 1)⁻¹ * B.transpose * P).mulVec (x t)) := by
      refine intervalIntegral.integral_nonneg hT fun t _ => ?_
      by_cases e : u t + ((R'.getD 1)⁻¹ * B.transpose * P).mulVec (x t) = 0
      · rw [e]; simp [quad]
      · exact (hR'.2 _ e).le
    linarith
  · intro hfb
    have : ∫ t in (0:ℝ)..T, quad (R'.getD 1) (u t + ((R'.getD 1)⁻¹ * B.transpose * P).mulVec (x t)) = 0 := by
      rw [intervalIntegral.integral_congr (g := fun _ => (0:ℝ)), intervalIntegral.integral_zero]
      intro t ht
      rw [uIcc_of_le hT] at ht
      simp only [hfb t ht, neg_add_cancel]
      simp [quad]
    rw [this, add_zero]

/-- C54, infinite horizon: an input that brings the state to the origin costs at least `x(0)ᵀ P x(0)` in the limit; the feedback never costs more. -/
theorem C54_optimal_infinite {care} {K : Matrix (Fin m) (Fin n) ℝ} (Q' : Option (Matrix (Fin n) (Fin n) ℝ))
    (R' : Option (Matrix (Fin m) (Fin m) ℝ)) (hR : ∀ M, R' = some M → PosDefWeight M) (h : lqrSolve care A (some B) Q' R' = .ok K)
    (hcare : ∀ P, care A B (Q'.getD 1) (R'.getD 1) = .ok P → Riccati A B (Q'.getD 1) (R'.getD 1) P) (x₀ : Pt n) :
    ∃ c : ℝ, (∀ (x : ℝ → Pt n) (u : ℝ → Fin m → ℝ), x 0 = x₀ → (∀ T ≥ 0, Driven A B T x u) → Continuous u →
        Tendsto x atTop (𝓝 0) → ∀ ε > 0, ∀ᶠ T in atTop, c - ε < cost (Q'.getD 1) (R'.getD 1) T x u) ∧
      ∀ (x : ℝ → Pt n) (u : ℝ → Fin m → ℝ), x 0 = x₀ → (∀ T ≥ 0, Driven A B T x u) → Continuous u →
        (∀ t ≥ 0, u t = -(K.mulVec (x t))) → ∀ T ≥ 0, cost (Q'.getD 1) (R'.getD 1) T x u ≤ c := by
  obtain ⟨P, hP, hopt⟩ := C54_optimal Q' R' hR h hcare
  refine ⟨quad P x₀, fun x u h0 hx hu hlim ε hε => ?_, fun x u h0 hx hu hfb T hT => ?_⟩
  · have h1 : Tendsto (fun t => quad P (x t)) atTop (𝓝 0) := by
      have e : quad P 0 = 0 := by simp [quad]
      have := ((continuous_quad P).tendsto 0).comp hlim
      rwa [e] at this
    filter_upwards [h1.eventually (gt_mem_nhds hε), eventually_ge_atTop 0] with T h2 h3
    have := (hopt T h3 x u (hx T h3) hu.continuousOn).1
    rw [h0] at this
    linarith
  · have := (hopt T hT x u (hx T hT) hu.continuousOn).2 (fun t ht => hfb t ht.1)
    rw [h0] at this
    linarith [hP.nonneg (x T)]

end

/-- Non-vacuity: the integrator `x' = u` with the default weights has the Riccati solution `1` and the gain `1`. -/
example : lqrSolve (n := 1) (m := 1) (fun _ _ _ _ => .ok 1) 0 (some 1) none none = .ok 1 ∧
    Riccati (n := 1) (m := 1) 0 1 1 1 1 := by
  refine ⟨by simp [lqrSolve]; rfl, by simp, fun x => ?_, by simp⟩
  rw [quad, one_mulVec]
  exact dot_self_nonneg x

/-- The input matrix is documented as having a default (`B=None`), but omitting it always fails. -/
theorem C54_missing_input_matrix_raises {n m : ℕ} (care) (A : Matrix (Fin n) (Fin n) ℝ) (Q R) :
    lqrSolve (m := m) care A none Q R = .error .attributeError := rfl

end Fossil

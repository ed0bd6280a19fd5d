/-
Quadratic Lyapunov functions of linear systems on real states, growth bounds from eigenvalues, Lyapunov's indirect method.
-/
import Verif.Linearise
import Verif.Lemmas.Hurwitz
import Verif.Lemmas.Stability
import Mathlib.Analysis.CStarAlgebra.Matrix
import Mathlib.LinearAlgebra.Matrix.Charpoly.Eigs
import Mathlib.LinearAlgebra.Eigenspace.Matrix

namespace Fossil
open Spec Set Topology

variable {n : ℕ}

/-- Real states as complex vectors with the Euclidean norm. -/
noncomputable def cplx : Pt n →L[ℝ] EuclideanSpace ℂ (Fin n) :=
  LinearMap.toContinuousLinearMap
    { toFun := fun p => WithLp.toLp 2 (fun i => (p i : ℂ))
      map_add' := fun p q => by ext i; simp
      map_smul' := fun r p => by ext i; simp }

theorem cplx_apply (p : Pt n) (i : Fin n) : cplx p i = (p i : ℂ) := rfl

theorem norm_le_cplx (p : Pt n) : ‖p‖ ≤ ‖cplx p‖ := by
  rw [pi_norm_le_iff_of_nonneg (norm_nonneg _)]
  intro i
  have := PiLp.norm_apply_le (cplx p) i
  rwa [cplx_apply, Complex.norm_real] at this

theorem cplx_mulVec (A : Matrix (Fin n) (Fin n) ℝ) (p : Pt n) :
    cplx (A.mulVec p) = Matrix.toEuclideanCLM (n := Fin n) (𝕜 := ℂ) (A.map Complex.ofReal) (cplx p) := by
  ext i
  rw [cplx_apply, Matrix.ofLp_toEuclideanCLM]
  simp only [Matrix.mulVec, dotProduct, Matrix.map_apply]
  push_cast
  rfl

theorem mem_eigs {A : Matrix (Fin n) (Fin n) ℝ} {e : ℂ} :
    e ∈ eigs A ↔ ∃ v : EuclideanSpace ℂ (Fin n), v ≠ 0 ∧
      Matrix.toEuclideanCLM (n := Fin n) (𝕜 := ℂ) (A.map Complex.ofReal) v = e • v := by
  unfold eigs
  rw [Multiset.mem_toList, Polynomial.mem_roots (Matrix.charpoly_monic _).ne_zero, ← Matrix.mem_spectrum_iff_isRoot_charpoly,
    ← Matrix.spectrum_toLin', ← Module.End.hasEigenvalue_iff_mem_spectrum]
  constructor
  · intro h
    obtain ⟨v, hv⟩ := h.exists_hasEigenvector
    refine ⟨WithLp.toLp 2 v, fun h0 => hv.2 ?_, ?_⟩
    · have := congrArg WithLp.ofLp h0
      simpa using this
    · have := hv.apply_eq_smul
      rw [Matrix.toLin'_apply] at this
      rw [Matrix.toEuclideanCLM_toLp, this]
      rfl
  · rintro ⟨v, hv, h⟩
    refine Module.End.hasEigenvalue_of_hasEigenvector (x := WithLp.ofLp v) ⟨?_, fun h0 => hv ?_⟩
    · rw [Module.End.mem_eigenspace_iff, Matrix.toLin'_apply, ← Matrix.ofLp_toEuclideanCLM, h]
      rfl
    · ext i
      exact congrFun h0 i

/-- A quadratic function that certifies the growth rate `σ` of a linear system. `W p v` is its rate of change at `p` in direction `v`. -/
theorem exists_quadratic (A : Matrix (Fin n) (Fin n) ℝ) (σ : ℝ) (hA : ∀ e ∈ eigs A, e.re < σ) :
    ∃ (V : Pt n → ℝ) (W : Pt n → Pt n → ℝ) (c C δ : ℝ), 0 < c ∧ 0 < C ∧ 0 < δ ∧ (∀ p, c * ‖p‖ ^ 2 ≤ V p) ∧ (∀ p, V p ≤ C * ‖p‖ ^ 2) ∧
      (∀ (γ : ℝ → Pt n) (v : Pt n) (s : Set ℝ) (t : ℝ), HasDerivWithinAt γ v s t → HasDerivWithinAt (fun τ => V (γ τ)) (W (γ t) v) s t) ∧
      (∀ p, W p (A.mulVec p) ≤ 2 * σ * V p - δ * ‖p‖ ^ 2) ∧ (∀ p v w, W p (v + w) = W p v + W p w) ∧
      (∀ p v, W p v ≤ C * ‖p‖ * ‖v‖) ∧ Continuous V := by
  set a := Matrix.toEuclideanCLM (n := Fin n) (𝕜 := ℂ) (A.map Complex.ofReal) with ha
  obtain ⟨P, c, hc, hself, hpos, hdec⟩ := exists_lyapunov_operator (a - (σ : ℂ) • 1) (by
    intro e v hv h
    have : a v = (e + σ) • v := by
      have h' : a v - (σ : ℂ) • v = e • v := h
      rw [add_smul, ← h']; abel
    have := hA (e + σ) (mem_eigs.2 ⟨v, hv, this⟩)
    simp at this
    exact this)
  set M := ‖(cplx : Pt n →L[ℝ] _)‖ with hM
  have hM0 : 0 ≤ M := norm_nonneg _
  have hle : ∀ p : Pt n, ‖cplx p‖ ≤ M * ‖p‖ := fun p => ContinuousLinearMap.le_opNorm _ _
  have hin : ∀ x y, (inner ℂ x (P y)).re ≤ ‖P‖ * (‖x‖ * ‖y‖) := by
    intro x y
    calc (inner ℂ x (P y)).re ≤ ‖inner ℂ x (P y)‖ := Complex.re_le_norm _
      _ ≤ ‖x‖ * ‖P y‖ := norm_inner_le_norm _ _
      _ ≤ ‖x‖ * (‖P‖ * ‖y‖) := mul_le_mul_of_nonneg_left (P.le_opNorm y) (norm_nonneg _)
      _ = _ := by ring
  refine ⟨fun p => (inner ℂ (cplx p) (P (cplx p))).re,
    fun p v => (inner ℂ (cplx p) (P (cplx v))).re + (inner ℂ (cplx v) (P (cplx p))).re, c, 2 * ‖P‖ * M ^ 2 + 1, 3/4, hc,
    by positivity, by norm_num, fun p => ?_, fun p => ?_, fun γ v s t hγ => ?_, fun p => ?_, fun p v w => ?_, fun p v => ?_, ?_⟩
  · refine le_trans ?_ (hpos _)
    exact mul_le_mul_of_nonneg_left (pow_le_pow_left₀ (norm_nonneg _) (norm_le_cplx p) 2) hc.le
  · have h1 := hin (cplx p) (cplx p)
    have h2 : ‖cplx p‖ * ‖cplx p‖ ≤ (M * ‖p‖) * (M * ‖p‖) := mul_self_le_mul_self (norm_nonneg _) (hle p)
    have h3 := mul_le_mul_of_nonneg_left h2 (norm_nonneg P)
    nlinarith [norm_nonneg P, sq_nonneg ‖p‖, sq_nonneg (M * ‖p‖), mul_nonneg (norm_nonneg P) (sq_nonneg (M * ‖p‖))]
  · have h1 : HasDerivWithinAt (fun τ => cplx (γ τ)) (cplx v) s t := cplx.hasFDerivAt.comp_hasDerivWithinAt t hγ
    have h2 : HasDerivWithinAt (fun τ => P (cplx (γ τ))) (P (cplx v)) s t :=
      (P.restrictScalars ℝ).hasFDerivAt.comp_hasDerivWithinAt t h1
    have h3 := h1.inner ℂ h2
    have h4 := Complex.reCLM.hasFDerivAt.comp_hasDerivWithinAt t h3
    exact h4.congr_deriv (by simp)
  · have h1 := hdec (cplx p)
    have e : (a - (σ : ℂ) • 1) (cplx p) = cplx (A.mulVec p) - (σ : ℂ) • cplx p := by
      rw [cplx_mulVec]; rfl
    rw [e] at h1
    simp only [inner_sub_left, inner_sub_right, map_sub, map_smul, inner_smul_left, inner_smul_right, Complex.sub_re,
      Complex.conj_ofReal, Complex.re_ofReal_mul] at h1
    have h2 := norm_le_cplx p
    have h3 := pow_le_pow_left₀ (norm_nonneg _) h2 2
    linarith
  · simp only [map_add, inner_add_left, inner_add_right, Complex.add_re]; ring
  · have h1 := hin (cplx p) (cplx v)
    have h2 := hin (cplx v) (cplx p)
    have h3 : ‖cplx p‖ * ‖cplx v‖ ≤ (M * ‖p‖) * (M * ‖v‖) := mul_le_mul (hle p) (hle v) (norm_nonneg _) (by positivity)
    have h4 := mul_le_mul_of_nonneg_left h3 (norm_nonneg P)
    have h5 : 0 ≤ ‖p‖ * ‖v‖ := by positivity
    nlinarith
  · have : Continuous fun p : Pt n => inner ℂ (cplx p) (P (cplx p)) := by fun_prop
    exact Complex.continuous_re.comp this

/-- Comparison: `g' ≤ 2 σ g` implies `g t ≤ e^{2σt} g 0`. -/
theorem growth_of {g g' : ℝ → ℝ} {T σ : ℝ} (hg : ∀ t ∈ Icc 0 T, HasDerivWithinAt g (g' t) (Icc 0 T) t)
    (h : ∀ t ∈ Icc 0 T, g' t ≤ 2 * σ * g t) : ∀ t ∈ Icc 0 T, g t ≤ Real.exp (2 * σ * t) * g 0 := by
  intro t ht
  have h1 : ∀ t ∈ Icc 0 T, HasDerivWithinAt (fun τ => Real.exp (-(2 * σ * τ)) * g τ)
      (Real.exp (-(2 * σ * t)) * (g' t - 2 * σ * g t)) (Icc 0 T) t := by
    intro τ hτ
    have he : HasDerivAt (fun τ : ℝ => Real.exp (-(2 * σ * τ))) (Real.exp (-(2 * σ * τ)) * (-(2 * σ))) τ := by
      have : HasDerivAt (fun τ : ℝ => -(2 * σ * τ)) (-(2 * σ)) τ := by
        simpa [neg_mul] using (hasDerivAt_id τ).const_mul (-(2 * σ))
      exact this.exp
    exact (he.hasDerivWithinAt.mul (hg τ hτ)).congr_deriv (by ring)
  have h2 := antitone_of h1 (fun s hs => by
    have := h s hs
    exact mul_nonpos_of_nonneg_of_nonpos (Real.exp_pos _).le (by linarith))
  have h3 := h2 ⟨le_rfl, ht.1.trans ht.2⟩ ht ht.1
  simp only [mul_zero, neg_zero, Real.exp_zero, one_mul] at h3
  have h4 : Real.exp (2 * σ * t) * Real.exp (-(2 * σ * t)) = 1 := by rw [← Real.exp_add]; simp
  calc g t = Real.exp (2 * σ * t) * (Real.exp (-(2 * σ * t)) * g t) := by rw [← mul_assoc, h4, one_mul]
    _ ≤ _ := mul_le_mul_of_nonneg_left h3 (Real.exp_pos _).le

theorem norm_bound_of {V : Pt n → ℝ} {c C σ t : ℝ} (hc : 0 < c) (hlow : ∀ p, c * ‖p‖ ^ 2 ≤ V p) (hup : ∀ p, V p ≤ C * ‖p‖ ^ 2)
    {p q : Pt n} (h : V q ≤ Real.exp (2 * σ * t) * V p) : ‖q‖ ≤ Real.sqrt (C / c) * Real.exp (σ * t) * ‖p‖ := by
  have h1 : c * ‖q‖ ^ 2 ≤ Real.exp (2 * σ * t) * (C * ‖p‖ ^ 2) :=
    (hlow q).trans (h.trans (mul_le_mul_of_nonneg_left (hup p) (Real.exp_pos _).le))
  have h2 : ‖q‖ ^ 2 ≤ (C / c) * (Real.exp (σ * t) * ‖p‖) ^ 2 := by
    rw [mul_pow, ← Real.exp_nat_mul, div_mul_eq_mul_div, le_div_iff₀ hc]
    have : ((2:ℕ) : ℝ) * (σ * t) = 2 * σ * t := by push_cast; ring
    rw [this]; linarith
  have h3 := Real.sqrt_le_sqrt h2
  rw [Real.sqrt_sq (norm_nonneg _), Real.sqrt_mul' _ (sq_nonneg _), Real.sqrt_sq (by positivity)] at h3
  linarith [h3, mul_assoc (Real.sqrt (C / c)) (Real.exp (σ * t)) ‖p‖]

/-- All solutions of a linear system grow at most with any rate above the real parts of the eigenvalues. -/
theorem linear_growth (A : Matrix (Fin n) (Fin n) ℝ) (σ : ℝ) (hA : ∀ e ∈ eigs A, e.re < σ) :
    ∃ K : ℝ, 0 < K ∧ ∀ (T : ℝ) (ξ : ℝ → Pt n), Trajectory (fun p => A.mulVec p) T ξ → ∀ t ∈ Icc 0 T,
      ‖ξ t‖ ≤ K * Real.exp (σ * t) * ‖ξ 0‖ := by
  obtain ⟨V, W, c, C, δ, hc, hC, hδ, hlow, hup, hd, hA', -, -, -⟩ := exists_quadratic A σ hA
  refine ⟨Real.sqrt (C / c), Real.sqrt_pos.2 (by positivity), fun T ξ hξ t ht => ?_⟩
  refine norm_bound_of hc hlow hup ?_
  exact growth_of (fun s hs => hd ξ _ _ s (hξ s hs)) (fun s hs => by
    have := hA' (ξ s)
    have h2 : 0 ≤ δ * ‖ξ s‖ ^ 2 := by positivity
    linarith) t ht

/-- Lyapunov's indirect method, with rate. -/
theorem indirect_method (F : Pt n → Pt n) (A : Matrix (Fin n) (Fin n) ℝ) (hF0 : F 0 = 0)
    (hF : HasFDerivAt F (LinearMap.toContinuousLinearMap A.toLin') 0) (σ : ℝ) (hσ : σ ≤ 0) (hA : ∀ e ∈ eigs A, e.re < σ) :
    ∃ K : ℝ, 0 < K ∧ ∃ N ∈ 𝓝 (0 : Pt n), ∀ (T : ℝ) (ξ : ℝ → Pt n), Trajectory F T ξ → ξ 0 ∈ N → ∀ t ∈ Icc 0 T,
      ‖ξ t‖ ≤ K * Real.exp (σ * t) * ‖ξ 0‖ := by
  obtain ⟨V, W, c, C, δ, hc, hC, hδ, hlow, hup, hd, hA', hadd, hW, hVc⟩ := exists_quadratic A σ hA
  have hsmall : ∀ᶠ p in 𝓝 (0 : Pt n), ‖F p - A.mulVec p‖ ≤ δ / (2 * C) * ‖p‖ := by
    have := hF.isLittleO.def (show 0 < δ / (2 * C) by positivity)
    filter_upwards [this] with p hp
    simpa [hF0] using hp
  have hdec : ∀ p, ‖F p - A.mulVec p‖ ≤ δ / (2 * C) * ‖p‖ → W p (F p) ≤ 2 * σ * V p - δ / 2 * ‖p‖ ^ 2 := by
    intro p hp
    have e : F p = A.mulVec p + (F p - A.mulVec p) := by abel
    rw [e, hadd]
    have h1 := hA' p
    have h2 := hW p (F p - A.mulVec p)
    have h3 : C * ‖p‖ * ‖F p - A.mulVec p‖ ≤ C * ‖p‖ * (δ / (2 * C) * ‖p‖) :=
      mul_le_mul_of_nonneg_left hp (by positivity)
    have h4 : C * ‖p‖ * (δ / (2 * C) * ‖p‖) = δ / 2 * ‖p‖ ^ 2 := by field_simp
    linarith
  have hV0 : V 0 = 0 := le_antisymm (by simpa using hup 0) (by simpa using hlow 0)
  have hpos : ∀ p : Pt n, p ≠ 0 → 0 < V p := fun p hp => by
    have : 0 < ‖p‖ := norm_pos_iff.2 hp
    exact lt_of_lt_of_le (by positivity) (hlow p)
  have hL : ∀ p, IsLieDerivAt F V (fun p => W p (F p)) p := by
    intro p γ s t hγ hd'
    have := hd γ _ s t hd'
    rwa [hγ] at this
  have hst := stable_of hVc hL hsmall (fun p _ hp => by rw [hV0]; exact hpos p hp) (fun p hp hp0 => by
    have := hdec p hp
    have h1 : 0 < ‖p‖ := norm_pos_iff.2 hp0
    have h2 : 0 < δ / 2 * ‖p‖ ^ 2 := by positivity
    have h3 : σ * V p ≤ 0 := mul_nonpos_of_nonpos_of_nonneg hσ (hpos p hp0).le
    linarith)
  obtain ⟨N, hN, hstay⟩ := hst _ hsmall
  refine ⟨Real.sqrt (C / c), Real.sqrt_pos.2 (by positivity), N, hN, fun T ξ hξ h0 t ht => ?_⟩
  refine norm_bound_of hc hlow hup ?_
  exact growth_of (fun s hs => hd ξ _ _ s (hξ s hs)) (fun s hs => by
    have := hdec (ξ s) (hstay T ξ hξ h0 s hs)
    have h2 : 0 ≤ δ / 2 * ‖ξ s‖ ^ 2 := by positivity
    linarith) t ht

end Fossil

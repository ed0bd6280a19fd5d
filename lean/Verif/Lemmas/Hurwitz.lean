/-
Linear systems whose eigenvalues have negative real parts: exponential decay and a quadratic Lyapunov operator.
-/
import Mathlib.Analysis.Normed.Algebra.GelfandFormula
import Mathlib.Analysis.InnerProductSpace.Adjoint
import Mathlib.Analysis.SpecialFunctions.Exponential
import Mathlib.LinearAlgebra.Eigenspace.Triangularizable
import Mathlib.MeasureTheory.Integral.IntervalIntegral.FundThmCalculus
import Mathlib.Analysis.InnerProductSpace.Calculus
import Mathlib.Analysis.Calculus.Deriv.Star
import Mathlib.Analysis.CStarAlgebra.ContinuousLinearMap

namespace Fossil
open NormedSpace Filter Topology

variable {H : Type} [NormedAddCommGroup H] [InnerProductSpace ℂ H] [FiniteDimensional ℂ H]

/-- `exp (t a) v = exp (t c) v` for an eigenvector. -/
theorem exp_apply_eigen (a : H →L[ℂ] H) (c : ℂ) (v : H) (hv : a v = c • v) : (exp a) v = exp c • v := by
  haveI : CompleteSpace H := FiniteDimensional.complete ℂ H
  have hp : ∀ k : ℕ, (a ^ k) v = c ^ k • v := by
    intro k
    induction k with
    | zero => simp
    | succ k ih => rw [pow_succ, ContinuousLinearMap.mul_apply, hv, map_smul, ih, smul_smul, pow_succ, mul_comm]
  have h1 : HasSum (fun k : ℕ => ((k.factorial : ℂ)⁻¹ • a ^ k) v) ((exp a) v) :=
    (exp_series_hasSum_exp' (𝕂 := ℂ) a).mapL (ContinuousLinearMap.apply ℂ H v)
  have h2 : HasSum (fun k : ℕ => ((k.factorial : ℂ)⁻¹ • c ^ k) • v) (exp c • v) :=
    (exp_series_hasSum_exp' (𝕂 := ℂ) c).smul_const v
  refine h1.unique (h2.congr_fun ?_)
  intro k
  simp [hp, smul_smul]

/-- Eigenvalues of the exponential are exponentials of eigenvalues. -/
theorem exp_eigenvalue (a : H →L[ℂ] H) (z : ℂ) (hz : z ∈ spectrum ℂ (exp a)) :
    ∃ c : ℂ, ∃ v : H, v ≠ 0 ∧ a v = c • v ∧ z = exp c := by
  haveI : CompleteSpace H := FiniteDimensional.complete ℂ H
  set b : Module.End ℂ H := (exp a : H →L[ℂ] H).toLinearMap with hb
  have hzb : z ∈ spectrum ℂ b := by
    have := AlgEquiv.spectrum_eq (Module.End.toContinuousLinearMap (𝕜 := ℂ) H) b
    rw [← this]
    exact hz
  have hev := Module.End.HasEigenvalue.of_mem_spectrum hzb
  have hcomm : Commute b a.toLinearMap := by
    have h0 : Commute (exp a) a := (Commute.refl a).exp_left
    have := congrArg ContinuousLinearMap.toLinearMap h0.eq
    exact this
  have hmaps := Module.End.mapsTo_genEigenspace_of_comm hcomm z 1
  let E := b.eigenspace z
  have hE : Nontrivial E := by
    rw [Submodule.nontrivial_iff_ne_bot]; exact hev
  obtain ⟨c, hc⟩ := Module.End.exists_eigenvalue (a.toLinearMap.restrict (p := E) (q := E) hmaps)
  obtain ⟨v, hv⟩ := hc.exists_hasEigenvector
  have hv1 : a (v : H) = c • (v : H) := congrArg Subtype.val hv.apply_eq_smul
  have hv0 : (v : H) ≠ 0 := fun h => hv.2 (Subtype.ext h)
  refine ⟨c, v, hv0, hv1, ?_⟩
  have h2 : b (v : H) = z • (v : H) := Module.End.mem_eigenspace_iff.1 v.2
  have h3 := exp_apply_eigen a c v hv1
  have h4 : z • (v : H) = exp c • (v : H) := by rw [← h2, ← h3]; rfl
  exact smul_left_injective ℂ hv0 h4

/-- Some power of the flow is a contraction. -/
theorem exists_contraction (a : H →L[ℂ] H) (ha : ∀ (c : ℂ) (v : H), v ≠ 0 → a v = c • v → c.re < 0) :
    ∃ N : ℕ, 0 < N ∧ ‖exp ((N : ℝ) • a)‖ ≤ 1 / 2 := by
  haveI : CompleteSpace H := FiniteDimensional.complete ℂ H
  letI : NormedAlgebra ℚ (H →L[ℂ] H) := .restrictScalars ℚ ℂ _
  rcases subsingleton_or_nontrivial H with hs | hn
  · refine ⟨1, one_pos, ?_⟩
    have : exp (((1:ℕ) : ℝ) • a) = 0 := by ext v; exact Subsingleton.elim _ _
    rw [this]; simp
  have hr : spectralRadius ℂ (exp a) < (1 : NNReal) := by
    refine spectrum.spectralRadius_lt_of_forall_lt _ fun z hz => ?_
    obtain ⟨c, v, hv, hav, rfl⟩ := exp_eigenvalue a z hz
    have h1 := ha c v hv hav
    rw [← NNReal.coe_lt_coe]
    simp only [coe_nnnorm, NNReal.coe_one]
    rw [← Complex.exp_eq_exp_ℂ, Complex.norm_exp]
    exact Real.exp_lt_one_iff.2 h1
  obtain ⟨r, hr0, hr1⟩ := ENNReal.lt_iff_exists_nnreal_btwn.1 hr
  have hr1' : r < 1 := by exact_mod_cast hr1
  have hev := (spectrum.pow_nnnorm_pow_one_div_tendsto_nhds_spectralRadius (exp a)).eventually (gt_mem_nhds hr0)
  have hsmall : ∀ᶠ k : ℕ in atTop, (r : ℝ) ^ k < 1 / 2 :=
    (tendsto_pow_atTop_nhds_zero_of_lt_one r.2 hr1').eventually (gt_mem_nhds (by norm_num))
  obtain ⟨k, ⟨h1, h2⟩, h3⟩ := ((hev.and hsmall).and (eventually_ge_atTop 1)).exists
  refine ⟨k, h3, ?_⟩
  have e : exp ((k : ℝ) • a) = exp a ^ k := by
    rw [← exp_nsmul, Nat.cast_smul_eq_nsmul]
  rw [e]
  have hk : (0:ℝ) < 1 / k := by positivity
  have h4 : (‖exp a ^ k‖₊ : ENNReal) < (r : ENNReal) ^ k := by
    have := ENNReal.rpow_lt_rpow h1 (show (0:ℝ) < k by positivity)
    rw [← ENNReal.rpow_mul, one_div, inv_mul_cancel₀ (by positivity), ENNReal.rpow_one, ENNReal.rpow_natCast] at this
    exact this
  have h5 : ‖exp a ^ k‖₊ < r ^ k := by exact_mod_cast h4
  have h6 : ‖exp a ^ k‖ < (r : ℝ) ^ k := by exact_mod_cast h5
  linarith

/-- Lyapunov operator: for a linear system all of whose eigenvalues have negative real part there is a positive definite
self-adjoint `P` whose quadratic form decreases along the system. -/
theorem exists_lyapunov_operator (a : H →L[ℂ] H) (ha : ∀ (c : ℂ) (v : H), v ≠ 0 → a v = c • v → c.re < 0) :
    ∃ (P : H →L[ℂ] H) (c : ℝ), 0 < c ∧ (∀ x y, inner ℂ (P x) y = inner ℂ x (P y)) ∧
      (∀ x, c * ‖x‖ ^ 2 ≤ (inner ℂ x (P x)).re) ∧
      ∀ x, (inner ℂ (a x) (P x)).re + (inner ℂ x (P (a x))).re ≤ -(3 / 4) * ‖x‖ ^ 2 := by
  haveI : CompleteSpace H := FiniteDimensional.complete ℂ H
  letI : NormedAlgebra ℚ (H →L[ℂ] H) := .restrictScalars ℚ ℂ _
  obtain ⟨N, hN, hcon⟩ := exists_contraction a ha
  set φ : ℝ → (H →L[ℂ] H) := fun t => exp (t • a) with hφ
  have hd : ∀ t, HasDerivAt φ (φ t * a) t := fun t => hasDerivAt_exp_smul_const a t
  have hφc : Continuous φ := continuous_iff_continuousAt.2 fun t => (hd t).continuousAt
  set ψ : ℝ → (H →L[ℂ] H) := fun t => star (φ t) * φ t with hψ
  have hψc : Continuous ψ := (continuous_star.comp hφc).mul hφc
  have hψd : ∀ t, HasDerivAt ψ (star a * ψ t + ψ t * a) t := by
    intro t
    have h1 : HasDerivAt (fun t => star (φ t)) (star (φ t * a)) t := (hd t).star
    refine (h1.mul (hd t)).congr_deriv ?_
    simp only [hψ, star_mul]
    noncomm_ring
  set P : H →L[ℂ] H := ∫ t in (0:ℝ)..N, ψ t with hP
  have hψi : ∀ α β, IntervalIntegrable ψ MeasureTheory.volume α β := fun α β => hψc.intervalIntegrable _ _
  have happ : ∀ x y, inner ℂ x (P y) = ∫ t in (0:ℝ)..N, inner ℂ x (ψ t y) := by
    intro x y
    have h1 : P y = ∫ t in (0:ℝ)..N, ψ t y := by
      rw [hP]
      exact ((ContinuousLinearMap.apply ℂ H y).intervalIntegral_comp_comm (hψi 0 N)).symm
    rw [h1]
    exact ((innerSL ℂ x).intervalIntegral_comp_comm
      (Continuous.intervalIntegrable (by fun_prop) _ _)).symm
  have hinner : ∀ x y t, inner ℂ x (ψ t y) = inner ℂ (φ t x) (φ t y) := by
    intro x y t
    simp only [hψ, ContinuousLinearMap.mul_apply, ContinuousLinearMap.star_eq_adjoint]
    rw [ContinuousLinearMap.adjoint_inner_right]
  have hself : ∀ x y, inner ℂ (P x) y = inner ℂ x (P y) := by
    intro x y
    have h2 := (Complex.conjCLE.toContinuousLinearMap).intervalIntegral_comp_comm (μ := MeasureTheory.volume) (a := (0:ℝ)) (b := N)
      (f := fun t => inner ℂ y (ψ t x)) (Continuous.intervalIntegrable (by fun_prop) _ _)
    rw [← inner_conj_symm, happ, happ]
    refine h2.symm.trans ?_
    refine intervalIntegral.integral_congr fun t _ => ?_
    simp only [hinner]
    exact inner_conj_symm _ _
  have hre : ∀ x, (inner ℂ x (P x)).re = ∫ t in (0:ℝ)..N, ‖φ t x‖ ^ 2 := by
    intro x
    rw [happ]
    have h2 := (Complex.reCLM).intervalIntegral_comp_comm (μ := MeasureTheory.volume) (a := (0:ℝ)) (b := N)
      (f := fun t => inner ℂ x (ψ t x)) (Continuous.intervalIntegrable (by fun_prop) _ _)
    rw [show (∫ t in (0:ℝ)..N, inner ℂ x (ψ t x)).re = Complex.reCLM (∫ t in (0:ℝ)..N, inner ℂ x (ψ t x)) from rfl, ← h2]
    refine intervalIntegral.integral_congr fun t _ => ?_
    simp only [hinner, Complex.reCLM_apply]
    exact inner_self_eq_norm_sq (𝕜 := ℂ) (φ t x)
  have hlyap : star a * P + P * a = ψ N - ψ 0 := by
    have h1 : ∫ t in (0:ℝ)..N, (star a * ψ t + ψ t * a) = ψ N - ψ 0 :=
      intervalIntegral.integral_eq_sub_of_hasDerivAt (fun t _ => hψd t) (Continuous.intervalIntegrable (by fun_prop) _ _)
    rw [← h1, intervalIntegral.integral_add (Continuous.intervalIntegrable (by fun_prop) _ _)
      (Continuous.intervalIntegrable (by fun_prop) _ _)]
    have k1 := (ContinuousLinearMap.mul ℝ (H →L[ℂ] H) (star a)).intervalIntegral_comp_comm (hψi 0 N)
    have k2 := ((ContinuousLinearMap.mul ℝ (H →L[ℂ] H)).flip a).intervalIntegral_comp_comm (hψi 0 N)
    exact congrArg₂ (· + ·) k1.symm k2.symm
  -- lower bound
  obtain ⟨C, hC⟩ : ∃ C, ∀ t ∈ Set.Icc (0:ℝ) N, ‖exp ((-t) • a)‖ ≤ C := by
    have hc : Continuous fun t : ℝ => exp ((-t) • a) := hφc.comp continuous_neg
    obtain ⟨C, hC⟩ := (isCompact_Icc (a := (0:ℝ)) (b := N)).exists_bound_of_continuousOn hc.continuousOn
    exact ⟨C, hC⟩
  have hNr : (0:ℝ) < N := by exact_mod_cast hN
  have hlow : ∀ t ∈ Set.Icc (0:ℝ) N, ∀ x, ‖x‖ ≤ (|C| + 1) * ‖φ t x‖ := by
    intro t ht x
    have e : exp ((-t) • a) * φ t = 1 := by
      rw [hφ, ← exp_add_of_commute (((Commute.refl a).smul_left _).smul_right _), ← add_smul]; simp
    have e2 : exp ((-t) • a) (φ t x) = x := by
      rw [← ContinuousLinearMap.mul_apply, e]; rfl
    calc ‖x‖ = ‖exp ((-t) • a) (φ t x)‖ := by rw [e2]
      _ ≤ ‖exp ((-t) • a)‖ * ‖φ t x‖ := ContinuousLinearMap.le_opNorm _ _
      _ ≤ (|C| + 1) * ‖φ t x‖ := by
        refine mul_le_mul_of_nonneg_right ?_ (norm_nonneg _)
        linarith [hC t ht, le_abs_self C]
  refine ⟨P, N / (|C| + 1) ^ 2, by positivity, hself, fun x => ?_, fun x => ?_⟩
  · rw [hre]
    have h1 : ∫ t in (0:ℝ)..N, (1 / (|C| + 1) ^ 2 * ‖x‖ ^ 2) ≤ ∫ t in (0:ℝ)..N, ‖φ t x‖ ^ 2 := by
      refine intervalIntegral.integral_mono_on hNr.le (by simp) (Continuous.intervalIntegrable (by fun_prop) _ _) fun t ht => ?_
      have := hlow t ht x
      rw [one_div, inv_mul_le_iff₀ (by positivity), ← mul_pow]
      exact pow_le_pow_left₀ (norm_nonneg _) this 2
    rw [intervalIntegral.integral_const] at h1
    refine le_trans (le_of_eq ?_) h1
    simp only [sub_zero, smul_eq_mul]
    ring
  · have h1 : inner ℂ (a x) (P x) + inner ℂ x (P (a x)) = inner ℂ x (ψ N x) - inner ℂ x (ψ 0 x) := by
      have := congrArg (fun L : H →L[ℂ] H => inner ℂ x (L x)) hlyap
      simp only [ContinuousLinearMap.add_apply, ContinuousLinearMap.mul_apply, ContinuousLinearMap.sub_apply, inner_add_right,
        inner_sub_right, ContinuousLinearMap.star_eq_adjoint, ContinuousLinearMap.adjoint_inner_right] at this
      exact this
    rw [← Complex.add_re, h1, hinner, hinner, Complex.sub_re]
    have e0 : φ 0 x = x := by simp [hφ]
    have n1 : (inner ℂ (φ N x) (φ N x)).re = ‖φ N x‖ ^ 2 := inner_self_eq_norm_sq (𝕜 := ℂ) _
    have n2 : (inner ℂ x x).re = ‖x‖ ^ 2 := inner_self_eq_norm_sq (𝕜 := ℂ) _
    rw [e0, n1, n2]
    have n3 : ‖φ N x‖ ≤ 1 / 2 * ‖x‖ := (ContinuousLinearMap.le_opNorm _ _).trans (mul_le_mul_of_nonneg_right hcon (norm_nonneg _))
    have n4 := pow_le_pow_left₀ (norm_nonneg _) n3 2
    nlinarith [n4]

end Fossil

/-
C53: what the eigenvalue tests of `EigenCalculator` say about the system.
-/
import Verif.Lemmas.Indirect
import Verif.Props.C52_Linearise

namespace Fossil
open Spec Set Topology Filter

/-- The origin is locally exponentially stable with rate `σ`: close enough trajectories satisfy `|ξ t| ≤ K e^{-σt} |ξ 0|`. -/
def Spec.ExpStable {n : ℕ} (F : Pt n → Pt n) (σ : ℝ) : Prop :=
  ∃ K : ℝ, 0 < K ∧ ∃ N ∈ 𝓝 (0 : Pt n), ∀ (T : ℝ) (ξ : ℝ → Pt n), Trajectory F T ξ → ξ 0 ∈ N → ∀ t ∈ Icc 0 T,
    ‖ξ t‖ ≤ K * Real.exp (-σ * t) * ‖ξ 0‖

theorem asympStable_of_exp {n : ℕ} {F : Pt n → Pt n} {σ : ℝ} (hσ : 0 < σ) (h : ExpStable F σ) : AsympStable F := by
  obtain ⟨K, hK, N, hN, h⟩ := h
  refine ⟨fun U hU => ?_, N ∩ Metric.ball 0 1, inter_mem hN (Metric.ball_mem_nhds _ one_pos), fun U hU => ?_⟩
  · obtain ⟨ε, hε, hεU⟩ := Metric.mem_nhds_iff.1 hU
    refine ⟨N ∩ Metric.ball 0 (ε / K), inter_mem hN (Metric.ball_mem_nhds _ (by positivity)), fun T ξ hξ h0 t ht => hεU ?_⟩
    have h1 := h T ξ hξ h0.1 t ht
    have h2 : ‖ξ 0‖ < ε / K := by simpa using h0.2
    have h3 : Real.exp (-σ * t) ≤ 1 := Real.exp_le_one_iff.2 (by nlinarith [ht.1])
    rw [mem_ball_zero_iff]
    calc ‖ξ t‖ ≤ K * Real.exp (-σ * t) * ‖ξ 0‖ := h1
      _ ≤ K * 1 * ‖ξ 0‖ := by gcongr
      _ < K * 1 * (ε / K) := by gcongr
      _ = ε := by field_simp
  · obtain ⟨ε, hε, hεU⟩ := Metric.mem_nhds_iff.1 hU
    have hlim : Tendsto (fun t : ℝ => K * Real.exp (-σ * t)) atTop (𝓝 0) := by
      have h1 : Tendsto (fun t : ℝ => -σ * t) atTop atBot :=
        (tendsto_const_mul_atBot_of_neg (by linarith)).2 tendsto_id
      simpa using (Real.tendsto_exp_atBot.comp h1).const_mul K
    obtain ⟨τ, hτ⟩ := eventually_atTop.1 (hlim.eventually (gt_mem_nhds hε))
    refine ⟨τ, fun T ξ hξ h0 t ht hle => hεU ?_⟩
    have h1 := h T ξ hξ h0.1 t ht
    have h2 : ‖ξ 0‖ < 1 := by simpa using h0.2
    rw [mem_ball_zero_iff]
    calc ‖ξ t‖ ≤ K * Real.exp (-σ * t) * ‖ξ 0‖ := h1
      _ ≤ K * Real.exp (-σ * t) * 1 := by gcongr
      _ < ε := by linarith [hτ t hle]

theorem isStable_iff {n : ℕ} {A : Matrix (Fin n) (Fin n) ℝ} : isStable A = true ↔ ∀ e ∈ eigs A, e.re < 0 := by
  simp [isStable]

theorem isSufficientlyStable_iff {n : ℕ} {A : Matrix (Fin n) (Fin n) ℝ} :
    isSufficientlyStable A = true ↔ ∀ e ∈ eigs A, e.re < -1 := by
  simp [isSufficientlyStable]

theorem exists_gap (l : List ℂ) (s : ℝ) (h : ∀ e ∈ l, e.re < s) : ∃ σ < s, ∀ e ∈ l, e.re < σ := by
  induction l with
  | nil => exact ⟨s - 1, by linarith, by simp⟩
  | cons e l ih =>
    obtain ⟨σ, h1, h2⟩ := ih fun x hx => h x (by simp [hx])
    have h3 := h e (by simp)
    refine ⟨max σ ((e.re + s) / 2), max_lt h1 (by linarith), fun x hx => ?_⟩
    rcases List.mem_cons.1 hx with rfl | hx
    · exact lt_of_lt_of_le (by linarith) (le_max_right _ _)
    · exact lt_of_lt_of_le (h2 x hx) (le_max_left _ _)

/-- C53, Lyapunov's indirect method: if the linearised model passes `is_stable`, the origin of the (nonlinear) model is exponentially, hence
asymptotically, stable. -/
theorem C53_stable_linearisation (n : ℕ) (f : List Term) (hf : f.length = n) (hr : ∀ t ∈ f, regular (fun _ => 0) t)
    (A : List (List ℝ)) (h : linearise n f = .ok A) (hs : isStable (matOf n A) = true) :
    (∃ σ > 0, ExpStable (field n f) σ) ∧ AsympStable (field n f) := by
  obtain ⟨-, h0, hd, -⟩ := C52_linearisation n f hf A h
  obtain ⟨σ, h1, h2⟩ := exists_gap _ _ (isStable_iff.1 hs)
  have he : ExpStable (field n f) (-σ) := by
    have := indirect_method (field n f) (matOf n A) h0 (hd hr) σ h1.le h2
    simpa [ExpStable] using this
  exact ⟨⟨-σ, by linarith, he⟩, asympStable_of_exp (by linarith) he⟩

/-- C53: `is_sufficiently_stable` gives convergence at least as fast as `e^{-t}`. -/
theorem C53_sufficiently_stable_linearisation (n : ℕ) (f : List Term) (hf : f.length = n)
    (hr : ∀ t ∈ f, regular (fun _ => 0) t) (A : List (List ℝ)) (h : linearise n f = .ok A)
    (hs : isSufficientlyStable (matOf n A) = true) : ExpStable (field n f) 1 := by
  obtain ⟨-, h0, hd, -⟩ := C52_linearisation n f hf A h
  have := indirect_method (field n f) (matOf n A) h0 (hd hr) (-1) (by norm_num) (isSufficientlyStable_iff.1 hs)
  simpa [ExpStable] using this

/-- A trajectory of the linear system from a complex eigenvector. -/
theorem eigen_trajectory {n : ℕ} (A : Matrix (Fin n) (Fin n) ℝ) (e : ℂ) (v : EuclideanSpace ℂ (Fin n))
    (hv : Matrix.toEuclideanCLM (n := Fin n) (𝕜 := ℂ) (A.map Complex.ofReal) v = e • v) (z : ℂ) (T : ℝ) :
    Trajectory (fun p => A.mulVec p) T (fun t i => (z * Complex.exp (e * t) * v i).re) := by
  intro t _
  refine HasDerivAt.hasDerivWithinAt ?_
  rw [hasDerivAt_pi]
  intro i
  have h1 : HasDerivAt (fun t : ℝ => z * Complex.exp (e * t) * v i) (z * (Complex.exp (e * t) * e) * v i) t := by
    have h2 : HasDerivAt (fun t : ℝ => e * (t : ℂ)) e t := by
      simpa using (Complex.ofRealCLM.hasDerivAt (x := t)).const_mul e
    exact (h2.cexp.const_mul z).mul_const (v i)
  have h3 := Complex.reCLM.hasFDerivAt.comp_hasDerivAt t h1
  refine h3.congr_deriv ?_
  have h4 : (∑ j, (A i j : ℂ) * v j) = e * v i := by
    have := congrArg (fun w : EuclideanSpace ℂ (Fin n) => w i) hv
    rw [show (Matrix.toEuclideanCLM (n := Fin n) (𝕜 := ℂ) (A.map Complex.ofReal) v) i = _ from
      congrFun (Matrix.ofLp_toEuclideanCLM _ v) i] at this
    simpa [Matrix.mulVec, dotProduct] using this
  have h5 : z * (Complex.exp (e * t) * e) * v i = ∑ j, (A i j : ℂ) * (z * Complex.exp (e * t) * v j) := by
    calc z * (Complex.exp (e * t) * e) * v i = z * Complex.exp (e * t) * (e * v i) := by ring
      _ = z * Complex.exp (e * t) * ∑ j, (A i j : ℂ) * v j := by rw [h4]
      _ = _ := by rw [Finset.mul_sum]; exact Finset.sum_congr rfl fun j _ => by ring
  simp only [Complex.reCLM_apply, h5, Complex.re_sum, Complex.re_ofReal_mul]
  rfl

/-- C53, linear systems: `is_stable` holds if and only if the origin of the linear system is asymptotically stable. -/
theorem C53_linear_iff {n : ℕ} (A : Matrix (Fin n) (Fin n) ℝ) :
    isStable A = true ↔ AsympStable (fun p : Pt n => A.mulVec p) := by
  constructor
  · intro h
    obtain ⟨σ, h1, h2⟩ := exists_gap _ _ (isStable_iff.1 h)
    obtain ⟨K, hK, hb⟩ := linear_growth A σ h2
    refine asympStable_of_exp (σ := -σ) (by linarith) ⟨K, hK, univ, univ_mem, fun T ξ hξ _ t ht => ?_⟩
    simpa using hb T ξ hξ t ht
  · rintro ⟨-, W, hW, hatt⟩
    rw [isStable_iff]
    by_contra hc
    push Not at hc
    obtain ⟨e, he, hre⟩ := hc
    obtain ⟨v, hv0, hv⟩ := mem_eigs.1 he
    obtain ⟨ε, hε, hεW⟩ := Metric.mem_nhds_iff.1 hW
    -- a coordinate that is not zero
    obtain ⟨i, hi⟩ : ∃ i, v i ≠ 0 := by
      by_contra hn
      push Not at hn
      exact hv0 (by ext i; exact hn i)
    set s : ℝ := ε / (2 * (‖v‖ + 1)) with hs
    have hspos : 0 < s := by positivity
    -- trajectories that are far from the origin at a chosen time
    obtain ⟨τ, hτ⟩ := hatt (Metric.ball 0 (s * ‖v i‖)) (Metric.ball_mem_nhds _ (by positivity))
    set t₀ := max τ 0 with ht₀
    set u : ℂ := Complex.exp (-(e.im * t₀ : ℝ) * Complex.I) * ((starRingEnd ℂ) (v i) / ‖v i‖) with hu
    have hnu : ‖u‖ = 1 := by
      rw [hu, norm_mul, Complex.norm_exp, norm_div, RCLike.norm_conj]
      have : ‖v i‖ ≠ 0 := norm_ne_zero_iff.2 hi
      simp [this]
    have htraj := eigen_trajectory A e v hv (s * u) t₀
    have hin := hτ t₀ _ htraj (hεW (by
      rw [mem_ball_zero_iff]
      refine lt_of_le_of_lt ((pi_norm_le_iff_of_nonneg (r := s * ‖v‖) (by positivity)).2 fun j => ?_) ?_
      · rw [Real.norm_eq_abs]
        refine (Complex.abs_re_le_norm _).trans ?_
        simp only [Complex.ofReal_zero, mul_zero, Complex.exp_zero, mul_one, norm_mul, hnu, Complex.norm_real, Real.norm_eq_abs,
          abs_of_pos hspos]
        exact mul_le_mul_of_nonneg_left (PiLp.norm_apply_le v j) hspos.le
      · rw [hs, div_mul_eq_mul_div, div_lt_iff₀ (by positivity)]
        nlinarith [norm_nonneg v])) t₀ ⟨le_max_right _ _, le_rfl⟩ (le_max_left _ _)
    rw [mem_ball_zero_iff] at hin
    have h1 := norm_le_pi_norm (fun j => ((s * u : ℂ) * Complex.exp (e * t₀) * v j).re) i
    have h2 : ((s * u : ℂ) * Complex.exp (e * t₀) * v i).re = s * (Real.exp (e.re * t₀) * ‖v i‖) := by
      have hne : (‖v i‖ : ℂ) ≠ 0 := by exact_mod_cast norm_ne_zero_iff.2 hi
      have e1 : Complex.exp (e * t₀) = Complex.exp (e.re * t₀ : ℝ) * Complex.exp ((e.im * t₀ : ℝ) * Complex.I) := by
        rw [← Complex.exp_add]
        congr 1
        conv_lhs => rw [← Complex.re_add_im e]
        push_cast; ring
      have e2 : Complex.exp (-(e.im * t₀ : ℝ) * Complex.I) * Complex.exp ((e.im * t₀ : ℝ) * Complex.I) = 1 := by
        rw [← Complex.exp_add]; simp
      have e3 : (starRingEnd ℂ) (v i) * v i = (‖v i‖ : ℂ) * ‖v i‖ := by
        rw [mul_comm, Complex.mul_conj, Complex.normSq_eq_norm_sq]; push_cast; ring
      have e4 : (s * u : ℂ) * Complex.exp (e * t₀) * v i = ((s * (Real.exp (e.re * t₀) * ‖v i‖) : ℝ) : ℂ) := by
        rw [e1, hu]
        calc (s : ℂ) * (Complex.exp (-(e.im * t₀ : ℝ) * Complex.I) * ((starRingEnd ℂ) (v i) / ‖v i‖)) *
              (Complex.exp (e.re * t₀ : ℝ) * Complex.exp ((e.im * t₀ : ℝ) * Complex.I)) * v i
            = s * Complex.exp (e.re * t₀ : ℝ) * (Complex.exp (-(e.im * t₀ : ℝ) * Complex.I) * Complex.exp ((e.im * t₀ : ℝ) * Complex.I)) *
              (((starRingEnd ℂ) (v i) * v i) / ‖v i‖) := by ring
          _ = s * Complex.exp (e.re * t₀ : ℝ) * ‖v i‖ := by rw [e2, e3, mul_one, mul_div_assoc, div_self hne, mul_one]
          _ = _ := by push_cast; ring
      rw [e4, Complex.ofReal_re]
    simp only [h2, Real.norm_eq_abs] at h1
    have h3 : 1 ≤ Real.exp (e.re * t₀) := Real.one_le_exp (mul_nonneg hre (le_max_right _ _))
    have h4 : s * ‖v i‖ ≤ s * (Real.exp (e.re * t₀) * ‖v i‖) := by
      refine mul_le_mul_of_nonneg_left ?_ hspos.le
      nlinarith [norm_nonneg (v i)]
    have h5 := le_abs_self (s * (Real.exp (e.re * t₀) * ‖v i‖))
    linarith

theorem foldl_max_lt (l : List ℝ) (a b : ℝ) : l.foldl max a < b ↔ a < b ∧ ∀ x ∈ l, x < b := by
  induction l generalizing a with
  | nil => simp
  | cons x l ih =>
    rw [List.foldl_cons, ih, max_lt_iff]
    simp [and_assoc]

/-- C53: for systems with at least one variable `get_worst_pole` returns a number; it is negative iff `is_stable`, below -1 iff
`is_sufficiently_stable`, and every trajectory of the linear system, for all time, is bounded by any exponential with a larger rate. -/
theorem C53_worst_pole {n : ℕ} (hn : 0 < n) (A : Matrix (Fin n) (Fin n) ℝ) :
    ∃ w, worstPole A = .ok w ∧ (isStable A = true ↔ w < 0) ∧ (isSufficientlyStable A = true ↔ w < -1) ∧
      (∃ e ∈ eigs A, e.re = w) ∧
      ∀ σ > w, ∃ K > 0, ∀ (T : ℝ) (ξ : ℝ → Pt n), Trajectory (fun p => A.mulVec p) T ξ → ∀ t ∈ Icc 0 T,
        ‖ξ t‖ ≤ K * Real.exp (σ * t) * ‖ξ 0‖ := by
  have hne : eigs A ≠ [] := by
    intro h
    have : (A.map Complex.ofReal).charpoly.roots = 0 := by
      unfold eigs at h
      rwa [Multiset.toList_eq_nil] at h
    have h2 := (IsAlgClosed.splits (A.map Complex.ofReal).charpoly).natDegree_eq_card_roots
    rw [this, Matrix.charpoly_natDegree_eq_dim] at h2
    simp at h2
    omega
  obtain ⟨e, es, hes⟩ := List.exists_cons_of_ne_nil hne
  have hlt : ∀ b, (es.map Complex.re).foldl max e.re < b ↔ ∀ x ∈ eigs A, x.re < b := by
    intro b
    rw [foldl_max_lt, hes]
    simp
  refine ⟨(es.map Complex.re).foldl max e.re, ?_, ?_, ?_, ?_, fun σ hσ => ?_⟩
  · simp [worstPole, hes]
  · rw [isStable_iff, hlt]
  · rw [isSufficientlyStable_iff, hlt]
  · by_contra hc
    push Not at hc
    have hle : ∀ x ∈ eigs A, x.re < (es.map Complex.re).foldl max e.re := by
      intro x hx
      refine lt_of_le_of_ne ?_ (hc x hx)
      by_contra hn
      push Not at hn
      obtain ⟨m, h1, h2⟩ := exists_between hn
      exact absurd ((hlt _).1 h1 x hx) (by linarith)
    exact lt_irrefl _ ((hlt _).2 hle)
  · obtain ⟨K, hK, h⟩ := linear_growth A σ ((hlt σ).1 hσ)
    exact ⟨K, hK, h⟩

/-- C53, non-vacuity: the damped pendulum (without torque) passes the test; by the theorem its origin is asymptotically stable. -/
theorem pendulum_stable : isStable (matOf 2 [[0, 1], [-1, -1]]) = true := by
  rw [isStable_iff]
  intro e he
  unfold eigs at he
  rw [Multiset.mem_toList, Polynomial.mem_roots (Matrix.charpoly_monic _).ne_zero, Polynomial.IsRoot, Matrix.charpoly_fin_two] at he
  simp [matOf, Matrix.trace_fin_two, Matrix.det_fin_two] at he
  have h1 := congrArg Complex.re he
  have h2 := congrArg Complex.im he
  simp [pow_two] at h1 h2
  by_contra hc
  push Not at hc
  have : e.im = 0 ∨ 2 * e.re + 1 = 0 := by
    have : e.im * (2 * e.re + 1) = 0 := by linarith
    exact mul_eq_zero.1 this
  rcases this with h | h
  · rw [h] at h1; nlinarith
  · linarith

example : AsympStable (field 2 pendulumU) :=
  (C53_stable_linearisation 2 pendulumU rfl (by simp [pendulumU, regular]) _ C52_pendulum pendulum_stable).2

end Fossil

/-
C92: verified certificates tolerate model errors: for some positive bound on the error of the velocity (or of the next state) the guarantee still holds; for BarrierAlt
no such bound need exist.
-/
import Verif.Props.C91_Unsolvable
import Verif.Lemmas.Right
import Mathlib.Topology.MetricSpace.Thickening

namespace Fossil
open Spec Set Filter Topology

variable {R K : Type} {n : ℕ}

namespace Spec

/-- `ξ` follows the vector field `F` up to an error of at most `ε` in each component of the velocity. The error may depend on time and history in any way, and may jump: only the
derivative to the right is asked for. -/
def Disturbed (F : Pt n → Pt n) (ε T : ℝ) (ξ : ℝ → Pt n) : Prop :=
  ContinuousOn ξ (Icc 0 T) ∧ ∀ t ∈ Ico 0 T, ∃ v : Pt n, HasDerivWithinAt ξ v (Ici t) t ∧ ∀ i, |v i - F (ξ t) i| ≤ ε

/-- `x` follows the map `F` up to an error of at most `ε` in each component of each next state. -/
def DisturbedRun (F : Pt n → Pt n) (ε : ℝ) (x : ℕ → Pt n) : Prop := ∀ k i, |x (k + 1) i - F (x k) i| ≤ ε

/-- What a Lyapunov certificate `V` verified on `D` means for trajectories with errors. -/
structure ToleratesOn (F : Pt n → Pt n) (V : Pt n → ℝ) (D : Set (Pt n)) : Prop where
  /-- In a compact part of the domain without the origin the certificate decreases at a positive rate despite small errors. -/
  descends : ∀ C : Set (Pt n), IsCompact C → (∀ p ∈ C, p ∈ D ∧ p ≠ 0) → ∃ ε > 0, ∃ δ > 0, ∀ (T : ℝ) (ξ : ℝ → Pt n), Disturbed F ε T ξ →
    (∀ t ∈ Icc 0 T, ξ t ∈ C) → ∀ s t, 0 ≤ s → s ≤ t → t ≤ T → V (ξ t) ≤ V (ξ s) - δ * (t - s)
  /-- A compact set `A` with a hole `H` around the origin, the certificate at least `l` on the frontier of `A` and below `b` in the hole: despite small errors,
  trajectories that start in `A` at or below `c` (`b ≤ c < l`) stay in `A`, stay at or below `c`, and after a common time stay at or below `b`. -/
  settles : ∀ A H : Set (Pt n), IsCompact A → (∀ p ∈ A, p ∉ H → p ∈ D ∧ p ≠ 0) → ∀ b c l : ℝ, b ≤ c → c < l → (∀ p ∈ A, p ∈ H → V p < b) →
    (∀ p ∈ frontier A, l ≤ V p) → ∃ ε > 0, ∃ τ : ℝ, ∀ (T : ℝ) (ξ : ℝ → Pt n), Disturbed F ε T ξ → ξ 0 ∈ A → V (ξ 0) ≤ c →
      ∀ t ∈ Icc 0 T, ξ t ∈ A ∧ V (ξ t) ≤ c ∧ (τ ≤ t → V (ξ t) ≤ b)

/-- The same for the runs of a map. -/
structure ToleratesOnDT (F : Pt n → Pt n) (V : Pt n → ℝ) (D : Set (Pt n)) : Prop where
  descends : ∀ C : Set (Pt n), IsCompact C → (∀ p ∈ C, p ∈ D ∧ p ≠ 0) → ∃ ε > 0, ∃ δ > 0, ∀ x : ℕ → Pt n, DisturbedRun F ε x →
    ∀ k, x k ∈ C → V (x (k + 1)) ≤ V (x k) - δ
  settles : ∀ (H : Set (Pt n)) (b c : ℝ), b ≤ c → IsCompact {p | V p ≤ c} → (∀ p, V p ≤ c → p ∉ H → p ∈ D ∧ p ≠ 0) → (∀ p ∈ H, V p < b ∧ V (F p) < b) →
    ∃ ε > 0, ∃ N : ℕ, ∀ x : ℕ → Pt n, DisturbedRun F ε x → V (x 0) ≤ c → ∀ k, V (x k) ≤ c ∧ (N ≤ k → V (x k) ≤ b)

end Spec

/-- A curve with a derivative at each time that differs from the field by at most `ε`. -/
theorem disturbed_of {F : Pt n → Pt n} {T ε : ℝ} {ξ : ℝ → Pt n} (h : ∀ t ∈ Icc 0 T, ∃ v : Pt n, HasDerivWithinAt ξ v (Icc 0 T) t ∧ ∀ i, |v i - F (ξ t) i| ≤ ε) :
    Disturbed F ε T ξ :=
  ⟨fun t ht => by obtain ⟨v, hv, -⟩ := h t ht; exact hv.continuousWithinAt, fun t ht => (h t (Ico_subset_Icc_self ht)).imp fun _ hv =>
    ⟨(hv.1.mono (Icc_subset_Icc_left ht.1)).mono_of_mem_nhdsWithin (Icc_mem_nhdsGE ht.2), hv.2⟩⟩

theorem trajectory_disturbed {F : Pt n → Pt n} {T : ℝ} {ξ : ℝ → Pt n} (h : Trajectory F T ξ) {ε : ℝ} (hε : 0 ≤ ε) : Disturbed F ε T ξ :=
  disturbed_of fun t ht => ⟨_, h t ht, fun i => by simpa using hε⟩

theorem disturbed_mono {F : Pt n → Pt n} {T ε ε' : ℝ} {ξ : ℝ → Pt n} (h : Disturbed F ε T ξ) (he : ε ≤ ε') : Disturbed F ε' T ξ :=
  ⟨h.1, fun t ht => (h.2 t ht).imp fun _ hv => ⟨hv.1, fun i => (hv.2 i).trans he⟩⟩

theorem disturbed_restrict {F : Pt n → Pt n} {T T' ε : ℝ} {ξ : ℝ → Pt n} (h : Disturbed F ε T ξ) (hT : T' ≤ T) : Disturbed F ε T' ξ :=
  ⟨h.1.mono (Icc_subset_Icc_right hT), fun t ht => h.2 t ⟨ht.1, ht.2.trans_le hT⟩⟩

theorem disturbed_cont {F : Pt n → Pt n} {T ε : ℝ} {ξ : ℝ → Pt n} (h : Disturbed F ε T ξ) : ContinuousOn ξ (Icc 0 T) := h.1

/-- A Lie derivative of a differentiable function is the derivative applied to the field. -/
theorem lie_fderiv {F : Pt n → Pt n} {V L : Pt n → ℝ} (hV : ContDiff ℝ 1 V) (hL : ∀ p, IsLieDerivAt F V L p) (p : Pt n) : L p = fderiv ℝ V p (F p) := by
  have hγ : HasDerivAt (fun t : ℝ => p + t • F p) (F p) 0 := by
    simpa using ((hasDerivAt_id (0:ℝ)).smul_const (F p)).const_add p
  have h1 := hL p (fun t => p + t • F p) Set.univ 0 (by simp) hγ.hasDerivWithinAt
  rw [hasDerivWithinAt_univ] at h1
  have hd : HasFDerivAt V (fderiv ℝ V p) ((fun t : ℝ => p + t • F p) 0) := by
    simpa using ((hV.differentiable (by norm_num)) p).hasFDerivAt
  exact h1.unique (hd.comp_hasDerivAt (0:ℝ) hγ)

/-- The certificate along a trajectory with errors: its right derivative exceeds the Lie derivative by at most the norm of the gradient times the error. -/
theorem disturbed_deriv {F : Pt n → Pt n} {V L : Pt n → ℝ} (hV : ContDiff ℝ 1 V) (hL : ∀ p, IsLieDerivAt F V L p) {ε T : ℝ} (hε : 0 ≤ ε) {ξ : ℝ → Pt n}
    (hξ : Disturbed F ε T ξ) : ∃ g' : ℝ → ℝ, RightC (fun t => V (ξ t)) g' 0 T ∧
      ∀ t ∈ Ico 0 T, g' t ≤ L (ξ t) + ‖fderiv ℝ V (ξ t)‖ * ε := by
  obtain ⟨hcont, hv⟩ := hξ
  choose! v hv using hv
  refine ⟨fun t => fderiv ℝ V (ξ t) (v t), ⟨hV.continuous.comp_continuousOn hcont, fun t ht => ?_⟩, fun t ht => ?_⟩
  · exact (((hV.differentiable (by norm_num)) (ξ t)).hasFDerivAt).comp_hasDerivWithinAt t (hv t ht).1
  · have e : fderiv ℝ V (ξ t) (v t) = L (ξ t) + fderiv ℝ V (ξ t) (v t - F (ξ t)) := by
      rw [lie_fderiv hV hL, map_sub]; ring
    have h1 : ‖v t - F (ξ t)‖ ≤ ε := (pi_norm_le_iff_of_nonneg hε).2 fun i => by simpa using (hv t ht).2 i
    have h2 := (fderiv ℝ V (ξ t)).le_opNorm (v t - F (ξ t))
    rw [Real.norm_eq_abs] at h2
    show fderiv ℝ V (ξ t) (v t) ≤ _
    rw [e]
    have := mul_le_mul_of_nonneg_left h1 (norm_nonneg (fderiv ℝ V (ξ t)))
    linarith [le_abs_self (fderiv ℝ V (ξ t) (v t - F (ξ t)))]

theorem gradient_bounded {V : Pt n → ℝ} (hV : ContDiff ℝ 1 V) {C : Set (Pt n)} (hC : Bornology.IsBounded C) : ∃ M > 0, ∀ p ∈ C, ‖fderiv ℝ V p‖ ≤ M := by
  obtain ⟨M, hM⟩ := (hC.isCompact_closure.image (hV.continuous_fderiv (by norm_num))).isBounded.exists_norm_le
  refine ⟨max M 1, lt_max_of_lt_right one_pos, fun p hp => (hM _ ⟨p, subset_closure hp, rfl⟩).trans (le_max_left _ _)⟩

/-- On a compact set a negative Lie derivative leaves room for an error. -/
theorem error_margin {F : Pt n → Pt n} {V L : Pt n → ℝ} (hV : ContDiff ℝ 1 V) (hF : Continuous F) (hL : ∀ p, IsLieDerivAt F V L p) {C : Set (Pt n)} (hC : IsCompact C)
    (hneg : ∀ p ∈ C, L p < 0) : ∃ ε > 0, ∃ δ > 0, ∀ p ∈ C, L p + ‖fderiv ℝ V p‖ * ε ≤ -δ := by
  rcases C.eq_empty_or_nonempty with he | he
  · exact ⟨1, one_pos, 1, one_pos, by rw [he]; simp⟩
  obtain ⟨q, hq, hmax⟩ := hC.exists_isMaxOn he (lie_continuous hV hF hL).continuousOn
  obtain ⟨M, hM, hb⟩ := gradient_bounded hV hC.isBounded
  have h0 := hneg q hq
  refine ⟨-(L q) / (2 * M), by apply div_pos <;> linarith, -(L q) / 2, by linarith, fun p hp => ?_⟩
  have h1 : L p ≤ L q := hmax hp
  have h2 : ‖fderiv ℝ V p‖ * (-(L q) / (2 * M)) ≤ M * (-(L q) / (2 * M)) :=
    mul_le_mul_of_nonneg_right (hb p hp) (by apply div_nonneg <;> linarith)
  have h3 : M * (-(L q) / (2 * M)) = -(L q) / 2 := by field_simp
  linarith

/-- A negative derivative on the zero level inside a compact set is negative near the zero level there, with room for an error. -/
theorem band_margin {F : Pt n → Pt n} {V L : Pt n → ℝ} (hV : ContDiff ℝ 1 V) (hF : Continuous F) (hL : ∀ p, IsLieDerivAt F V L p) {D : Set (Pt n)} (hD : IsCompact D)
    (hneg : ∀ p ∈ D, V p = 0 → L p < 0) : ∃ ε > 0, ∃ η > 0, ∀ p ∈ D, |V p| ≤ η → L p + ‖fderiv ℝ V p‖ * ε < 0 := by
  obtain ⟨η, hη, h⟩ : ∃ η > 0, ∀ p ∈ D, |V p| ≤ η → L p < 0 := by
    have hc : IsCompact (D ∩ {p | 0 ≤ L p}) := hD.inter_right (isClosed_le continuous_const (lie_continuous hV hF hL))
    rcases (D ∩ {p | 0 ≤ L p}).eq_empty_or_nonempty with he | he
    · refine ⟨1, one_pos, fun p hp _ => ?_⟩
      by_contra hcon
      have : p ∈ D ∩ {p | 0 ≤ L p} := ⟨hp, not_lt.1 hcon⟩
      rw [he] at this; exact this
    · obtain ⟨q, hq, hmin⟩ := hc.exists_isMinOn he hV.continuous.abs.continuousOn
      have hq0 : 0 < |V q| := abs_pos.2 fun e => absurd hq.2 (not_le.2 (hneg q hq.1 e))
      refine ⟨|V q| / 2, by linarith, fun p hp h1 => ?_⟩
      by_contra hcon
      have : |V q| ≤ |V p| := hmin (show p ∈ D ∩ {p | 0 ≤ L p} from ⟨hp, not_lt.1 hcon⟩)
      linarith
  obtain ⟨ε, hε, δ, hδ, hm⟩ := error_margin hV hF hL (hD.inter_right (isClosed_le hV.continuous.abs (continuous_const (y := η)))) fun p hp => h p hp.1 hp.2
  exact ⟨ε, hε, η, hη, fun p hp h1 => by linarith [hm p ⟨hp, h1⟩]⟩

/-- A negative derivative on the zero level inside a compact set keeps disturbed trajectories in that set below zero. -/
theorem barrier_margin {F : Pt n → Pt n} {V L : Pt n → ℝ} (hV : ContDiff ℝ 1 V) (hF : Continuous F) (hL : ∀ p, IsLieDerivAt F V L p) {D : Set (Pt n)} (hD : IsCompact D)
    (hneg : ∀ p ∈ D, V p = 0 → L p < 0) : ∃ ε > 0, ∀ (T a : ℝ) (ξ : ℝ → Pt n), Disturbed F ε T ξ → a ∈ Icc 0 T → V (ξ a) < 0 → (∀ t ∈ Icc a T, ξ t ∈ D) →
      ∀ t ∈ Icc a T, V (ξ t) < 0 := by
  obtain ⟨ε, hε, η, hη, hm⟩ := band_margin hV hF hL hD hneg
  refine ⟨ε, hε, fun T a ξ hξ ha h0 hin t ht => ?_⟩
  obtain ⟨g', hg, hb⟩ := disturbed_deriv hV hL hε.le hξ
  have hlt : max (V (ξ a)) (-η) < 0 := max_lt h0 (by linarith)
  refine ((hg.restrict ha.1 le_rfl).fence (c := max (V (ξ a)) (-η)) (le_max_left _ _) (fun r hr e => ?_) t ht).trans_lt hlt
  have := hm (ξ r) (hin r (Ico_subset_Icc_self hr)) (by
    rw [show V (ξ r) = max (V (ξ a)) (-η) from e, abs_of_neg hlt]
    linarith [le_max_right (V (ξ a)) (-η)])
  linarith [hb r ⟨ha.1.trans hr.1, hr.2⟩]

/-! ### the certificates, from the query -/

/-- The certificate and its Lie derivative for a smooth setup. -/
theorem smooth_lie (s : Setup) (hs : SmoothSetup s) {V Vdot : Term} (h2 : translateCT s.lib s.rounding none s.quad s.net (vars s.nVars) s.f = .ok (V, Vdot)) :
    ∀ p, IsLieDerivAt (field s.nVars s.f) (certValue s.rounding s.quad s.net) (fun q => Vdot.eval q.env) p := by
  intro p
  have := C17_lie_derivative s.lib s.rounding s.quad s.net s.nVars s.f V Vdot h2 hs.size p (noKink_of_smooth s.net hs.smooth _ _)
  have e : (fun q : Pt s.nVars => V.eval q.env) = certValue s.rounding s.quad s.net := funext fun q => certValue_eq h2 q
  rwa [e] at this

/-- **C92 (Barrier).** An accepted barrier on a compact domain: there is an error bound under which no trajectory from the initial set, inside the domain, reaches the unsafe set. -/
theorem C92_barrier (s : Setup) (hs : SmoothSetup s) (hc : s.cert = .BARRIER) (groups) (hq : queriesCT s = .ok groups) (ha : Accepted s.nVars groups)
    (hF : Continuous (field s.nVars s.f)) (hD : IsCompact (region s.nVars s.domains XD)) :
    ∃ ε > 0, ∀ (T : ℝ) (ξ : ℝ → Pt s.nVars), Disturbed (field s.nVars s.f) ε T ξ → ξ 0 ∈ region s.nVars s.domains XI →
      (∀ t ∈ Icc 0 T, ξ t ∈ region s.nVars s.domains XD) → ∀ t ∈ Icc 0 T, ξ t ∉ region s.nVars s.domains XU := by
  obtain ⟨d, V, Vdot, h1, h2, h3⟩ := queriesCT_inv hq
  rw [hc] at h3
  obtain ⟨dom, init, un, hd, hi, hu, H1, H2, H3⟩ := barrier_inv (n := s.nVars) h3 (accepted_refutes (barrier_distinct h3) ha)
  have h1' := initialise_single h1 (by simp [hc])
  have rD := entry_region hs.lib hs.sets h1' (by decide) hd
  have rI := entry_region hs.lib hs.sets h1' (by decide) hi
  have rU := entry_region hs.lib hs.sets h1' (by decide) hu
  have hV := contDiff_certValue s.nVars s.rounding s.quad s.net hs.smooth
  have hL := smooth_lie s hs h2
  obtain ⟨ε, hε, hm⟩ := barrier_margin hV hF hL hD fun p hp h0 => H3 p ((rD p).2 hp) (by rw [certValue_eq h2]; exact h0)
  refine ⟨ε, hε, fun T ξ hξ h0 hin t ht hU => ?_⟩
  have h00 : (0:ℝ) ∈ Icc 0 T := ⟨le_rfl, ht.1.trans ht.2⟩
  have := hm T 0 ξ hξ h00 (by rw [← certValue_eq h2]; exact H1 _ ((rI _).2 h0) ((rD _).2 (hin 0 h00))) hin t ht
  have h4 := H2 _ ((rU _).2 hU) ((rD _).2 (hin t ht))
  rw [certValue_eq h2] at h4
  linarith

/-- A smooth certificate with a negative Lie derivative tolerates errors. -/
theorem toleratesOn_of {F : Pt n → Pt n} {V L : Pt n → ℝ} {D : Set (Pt n)} (hV : ContDiff ℝ 1 V) (hF : Continuous F) (hL : ∀ p, IsLieDerivAt F V L p)
    (hneg : ∀ p ∈ D, p ≠ 0 → L p < 0) : ToleratesOn F V D where
  descends C hC hCD := by
    obtain ⟨ε, hε, δ, hδ, hm⟩ := error_margin hV hF hL hC fun p hp => hneg p (hCD p hp).1 (hCD p hp).2
    refine ⟨ε, hε, δ, hδ, fun T ξ hξ hin s t hs hst ht => ?_⟩
    obtain ⟨g', hg, hb⟩ := disturbed_deriv hV hL hε.le hξ
    have := (hg.restrict hs ht).rate (k := -δ) (fun r hr => by
      have hr' : r ∈ Ico 0 T := ⟨hs.trans hr.1, hr.2.trans_le ht⟩
      linarith [hb r hr', hm (ξ r) (hin r (Ico_subset_Icc_self hr'))]) t ⟨hst, le_rfl⟩
    linarith
  settles A H hA hAD b c l hbc hcl hH hfr := by
    obtain ⟨ε, hε, δ, hδ, hm⟩ := error_margin hV hF hL (hA.inter_right (isClosed_Ici.preimage hV.continuous (t := Ici b))) fun p hp => by
      have := hAD p hp.1 fun h => absurd hp.2 (not_le.2 (hH p hp.1 h))
      exact hneg p this.1 this.2
    refine ⟨ε, hε, (c - b) / δ, fun T ξ hξ h0 h1 t ht => ?_⟩
    obtain ⟨g', hg, hb⟩ := disturbed_deriv hV hL hε.le hξ
    have hd : ∀ r ∈ Ico 0 T, ξ r ∈ A → b ≤ V (ξ r) → g' r ≤ -δ := fun r hr hrA hrb => by linarith [hb r hr, hm (ξ r) ⟨hrA, hrb⟩]
    have hin := RightC.stay (A := A) (c := c) (disturbed_cont hξ) hg h0 h1 (fun r _ hf => hcl.trans_le (hfr _ hf)) fun r hr hrA e => by linarith [hd r hr hrA (hbc.trans e.ge)]
    refine ⟨(hin t ht).1, (hin t ht).2, fun hτ => ?_⟩
    obtain ⟨r, hr, hrb⟩ : ∃ r ∈ Icc 0 t, V (ξ r) ≤ b := by
      by_contra hno
      push Not at hno
      have h2 := (hg.restrict le_rfl ht.2).rate (k := -δ) (fun r hr => hd r ⟨hr.1, hr.2.trans_le ht.2⟩ (hin r ⟨hr.1, hr.2.le.trans ht.2⟩).1 (hno r ⟨hr.1, hr.2.le⟩).le)
        t ⟨ht.1, le_rfl⟩
      have h3 := hno t ⟨ht.1, le_rfl⟩
      rw [div_le_iff₀ hδ] at hτ
      linarith
    exact (hg.restrict hr.1 le_rfl).fence (c := b) hrb (fun q hq e => by
      have hq' : q ∈ Ico 0 T := ⟨hr.1.trans hq.1, hq.2⟩
      linarith [hd q hq' (hin q (Ico_subset_Icc_self hq')).1 e.ge]) t ⟨hr.2, ht.2⟩

/-- **C92 (Lyapunov).** -/
theorem C92_lyapunov (s : Setup) (hs : SmoothSetup s) (hc : s.cert = .LYAPUNOV) (groups) (hq : queriesCT s = .ok groups) (ha : Accepted s.nVars groups)
    (hF : Continuous (field s.nVars s.f)) : ToleratesOn (field s.nVars s.f) (certValue s.rounding s.quad s.net) (region s.nVars s.domains XD) := by
  obtain ⟨L, h1, h2⟩ := C05_lyapunov_conditions s hs.lib hs.sets hs.size hc groups hq ha
  exact toleratesOn_of (contDiff_certValue _ _ _ _ hs.smooth) hF (fun p => h1 p (noKink_of_smooth s.net hs.smooth _ _)) fun p hp h0 => (h2 p hp h0).2

/-- Discrete time: on a compact set a strict inequality between the value at the image and a continuous bound leaves room for an error. -/
theorem error_margin_dt {F : Pt n → Pt n} {V φ : Pt n → ℝ} (hV : Continuous V) (hF : Continuous F) (hφ : Continuous φ) {C : Set (Pt n)} (hC : IsCompact C)
    (hneg : ∀ p ∈ C, V (F p) < φ p) : ∃ ε > 0, ∃ δ > 0, ∀ p ∈ C, ∀ q : Pt n, (∀ i, |q i - F p i| ≤ ε) → V q ≤ φ p - δ := by
  rcases C.eq_empty_or_nonempty with he | he
  · exact ⟨1, one_pos, 1, one_pos, by rw [he]; simp⟩
  obtain ⟨m, hm, hmin⟩ := hC.exists_isMinOn he (f := fun p => φ p - V (F p)) (hφ.sub (hV.comp hF)).continuousOn
  have hδ : 0 < φ m - V (F m) := by linarith [hneg m hm]
  have hK : IsCompact (Metric.cthickening 1 (F '' C)) := (hC.image hF).cthickening
  obtain ⟨ε, hε, hu⟩ := Metric.uniformContinuousOn_iff.1 (hK.uniformContinuousOn_of_continuous hV.continuousOn) ((φ m - V (F m)) / 2) (by linarith)
  refine ⟨min 1 (ε / 2), by positivity, (φ m - V (F m)) / 2, by linarith, fun p hp q hqp => ?_⟩
  have hd : dist q (F p) ≤ min 1 (ε / 2) := by
    rw [dist_eq_norm]
    exact (pi_norm_le_iff_of_nonneg (by positivity)).2 fun i => by simpa using hqp i
  have h1 : F p ∈ Metric.cthickening 1 (F '' C) := Metric.self_subset_cthickening _ ⟨p, hp, rfl⟩
  have h2 : q ∈ Metric.cthickening 1 (F '' C) := Metric.mem_cthickening_of_dist_le q (F p) 1 _ ⟨p, hp, rfl⟩ (hd.trans (min_le_left _ _))
  have h3 := hu q h2 (F p) h1 (lt_of_le_of_lt (hd.trans (min_le_right _ _)) (by linarith))
  rw [Real.dist_eq] at h3
  have h4 := (abs_lt.1 h3).2
  have h5 := hmin hp
  rw [Set.mem_ofPred_eq] at h5
  linarith

theorem toleratesOnDT_of {F : Pt n → Pt n} {V : Pt n → ℝ} {D : Set (Pt n)} (hF : Continuous F) (hV : Continuous V)
    (hneg : ∀ p ∈ D, p ≠ 0 → V (F p) < V p) : ToleratesOnDT F V D where
  descends C hC hCD := by
    obtain ⟨ε, hε, δ, hδ, hm⟩ := error_margin_dt hV hF hV hC fun p hp => hneg p (hCD p hp).1 (hCD p hp).2
    exact ⟨ε, hε, δ, hδ, fun x hx k hk => hm _ hk _ (hx k)⟩
  settles H b c hbc hK hD hH := by
    have hcl : IsCompact ({p | V p ≤ c} ∩ V ⁻¹' Ici b) := hK.inter_right (isClosed_Ici.preimage hV)
    have hlow : IsCompact {p | V p ≤ b} := hK.of_isClosed_subset (isClosed_le hV continuous_const) fun p hp => le_trans hp hbc
    have hoff : ∀ p, V p ≤ c → b ≤ V p → p ∈ D ∧ p ≠ 0 := fun p h1 h2 => hD p h1 fun h => absurd h2 (not_le.2 (hH p h).1)
    obtain ⟨ε₁, h1, δ, hδ, hm₁⟩ := error_margin_dt hV hF hV hcl fun p hp => hneg p (hoff p hp.1 hp.2).1 (hoff p hp.1 hp.2).2
    obtain ⟨ε₂, h2, δ₂, hδ₂, hm₂⟩ := error_margin_dt hV hF (φ := fun _ => b) continuous_const hlow fun p hp => by
      by_cases h : p ∈ H
      · exact (hH p h).2
      · have := hD p (le_trans hp hbc) h
        exact (hneg p this.1 this.2).trans_le hp
    obtain ⟨N, hN⟩ := exists_nat_gt ((c - b) / δ)
    refine ⟨min ε₁ ε₂, lt_min h1 h2, N, fun x hx h0 => ?_⟩
    have dec : ∀ k, V (x k) ≤ c → b ≤ V (x k) → V (x (k + 1)) ≤ V (x k) - δ := fun k ha hb => hm₁ _ ⟨ha, hb⟩ _ fun i => (hx k i).trans (min_le_left _ _)
    have low : ∀ k, V (x k) ≤ b → V (x (k + 1)) ≤ b := fun k hb => by linarith [hm₂ (x k) hb _ fun i => (hx k i).trans (min_le_right _ _)]
    have hc' : ∀ k, V (x k) ≤ c := fun k => by
      induction k with
      | zero => exact h0
      | succ k ih =>
        rcases le_total b (V (x k)) with h | h
        · linarith [dec k ih h]
        · exact (low k h).trans hbc
    have stay : ∀ j k, j ≤ k → V (x j) ≤ b → V (x k) ≤ b := fun j k hjk hj => by
      induction k, hjk using Nat.le_induction with
      | base => exact hj
      | succ k _ ih => exact low k ih
    refine fun k => ⟨hc' k, fun hk => ?_⟩
    obtain ⟨j, hj, hjb⟩ : ∃ j ≤ N, V (x j) ≤ b := by
      by_contra hno
      push Not at hno
      have key : ∀ k : ℕ, k ≤ N → V (x k) ≤ c - k * δ := by
        intro k
        induction k with
        | zero => intro _; simpa using h0
        | succ k ih =>
          intro hk
          have h1 := dec k (hc' k) (hno k (by omega)).le
          have := ih (by omega)
          push_cast
          linarith
      have h1 := key N le_rfl
      have h2 := hno N le_rfl
      rw [div_lt_iff₀ hδ] at hN
      linarith
    exact stay j k (hj.trans hk) hjb

/-- **C92 (Lyapunov, discrete time, any activations).** -/
theorem C92_lyapunov_dt (s : Setup) (hlib : s.lib = .z3 ∨ s.lib = .dreal) (hw : WFDomains s.nVars s.domains) (hlen : s.f.length = s.nVars) (hquad : s.quad = false)
    (hc : s.cert = .LYAPUNOV) (groups) (hq : queriesDT s = .ok groups) (ha : Accepted s.nVars groups) (hF : Continuous (field s.nVars s.f)) :
    ToleratesOnDT (field s.nVars s.f) (certValue s.rounding false s.net) (region s.nVars s.domains XD) := by
  refine toleratesOnDT_of hF (continuous_certValue s.nVars s.rounding false s.net) fun p hp h0 => ?_
  have := (C06_decreases_along_runs s hlib hw hlen hquad hc groups hq ha (fun k => (field s.nVars s.f)^[k] p) (fun k => by
      show (field s.nVars s.f)^[k + 1] p = _
      rw [Function.iterate_succ_apply']) 0 hp h0).1
  rw [hquad] at this
  simpa using this

/-- **C92 (reach).** An accepted reach certificate with a bounded safe set: there are an error bound and a time within which every trajectory from the initial set reaches the goal,
in the safe set until then. -/
theorem C92_reach (s : Setup) (hs : SmoothSetup s) (hr : ReachSets s.nVars s.domains)
    (hc : s.cert = .RWS ∨ s.cert = .RWA ∨ s.cert = .RSWS ∨ s.cert = .RSWA) (groups) (hq : queriesCT s = .ok groups) (ha : Accepted s.nVars groups)
    (hbd : Bornology.IsBounded (region s.nVars s.domains XS)) :
    ∃ ε > 0, ∃ τ : ℝ, ∀ (T : ℝ) (ξ : ℝ → Pt s.nVars), Disturbed (field s.nVars s.f) ε T ξ → ξ 0 ∈ region s.nVars s.domains XI →
      (τ ≤ T → ∃ t ∈ Icc 0 τ, ξ t ∈ region s.nVars s.domains XG) ∧
      ∀ t ∈ Icc 0 T, ξ t ∈ region s.nVars s.domains XS ∨ ∃ r ∈ Icc 0 t, ξ r ∈ region s.nVars s.domains XG := by
  obtain ⟨d, V, Vdot, h1, h2, h3⟩ := queriesCT_inv hq
  have h3' : rwsConstraints d V Vdot = .ok groups := by
    rcases hc with hc | hc | hc | hc <;> (rw [hc] at h3; exact h3)
  have h1' := initialise_single h1 (by rcases hc with hc | hc | hc | hc <;> simp [hc])
  obtain ⟨H1, H2, H3⟩ := rws_pointwise hs.lib hs.sets hr h1' (fun _ _ => rfl) h3' (accepted_refutes (rws_distinct h3') ha)
  have hV := contDiff_certValue s.nVars s.rounding s.quad s.net hs.smooth
  have hL := smooth_lie s hs h2
  obtain ⟨M, hM, hb⟩ := gradient_bounded hV hbd
  obtain ⟨m, hm⟩ := bddBelow_cert s.nVars s.rounding s.quad s.net hbd
  have key : ∀ (T : ℝ) (ξ : ℝ → Pt s.nVars), Disturbed (field s.nVars s.f) (1 / (200 * M)) T ξ → ξ 0 ∈ region s.nVars s.domains XI →
      ∀ t ∈ Icc 0 T, (∀ r ∈ Icc 0 t, ξ r ∉ region s.nVars s.domains XG) → ξ t ∈ region s.nVars s.domains XS ∧ certValue s.rounding s.quad s.net (ξ t) ≤ - (1/200 * t) := by
    intro T ξ hξ h0 t ht hno
    obtain ⟨g', hg, hb'⟩ := disturbed_deriv hV hL (by positivity) hξ
    have hg0 := H1 _ h0
    rw [certValue_eq h2] at hg0
    obtain ⟨a, b⟩ := RightC.reach_until (γ := 1/200) (by norm_num) (disturbed_cont hξ) hg (hr.initSafe h0) hg0
      (fun r _ hf => by have := H2 _ hf; rwa [certValue_eq h2] at this)
      (fun r hr' hrS hrG hle => by
        have e1 := H3 _ hrS hrG (by rwa [certValue_eq h2])
        have e2 := hb' r hr'
        have e3 : ‖fderiv ℝ (certValue s.rounding s.quad s.net) (ξ r)‖ * (1 / (200 * M)) ≤ M * (1 / (200 * M)) :=
          mul_le_mul_of_nonneg_right (hb _ hrS) (by positivity)
        have e4 : M * (1 / (200 * M)) = 1 / 200 := by field_simp
        linarith) t ht hno
    exact ⟨a, by linarith⟩
  refine ⟨1 / (200 * M), by positivity, max 0 (1 - 200 * m), fun T ξ hξ h0 => ⟨fun hT => ?_, fun t ht => ?_⟩⟩
  · by_contra hno
    push Not at hno
    obtain ⟨a, b⟩ := key _ ξ (disturbed_restrict hξ hT) h0 _ ⟨le_max_left _ _, le_rfl⟩ hno
    have := hm _ a
    have := le_max_right 0 (1 - 200 * m)
    linarith
  · by_cases hg : ∃ r ∈ Icc 0 t, ξ r ∈ region s.nVars s.domains XG
    · exact Or.inr hg
    · push Not at hg
      exact Or.inl (key T ξ hξ h0 t ht hg).1

/-! ### synthesis -/

theorem C92_synthesis_barrier (c : SynthCfg) (w : World R K (Net × ℚ)) (hw : SoundWorld c w) (learn)
    (hr : SmoothRun c learn) (hc : c.cert = .BARRIER) (hD : IsCompact (region c.nVars c.domains XD)) (net ctrl S out)
    (h : Solves c.loop (singleComponents w c false learn) net ctrl S out) (hf : out.found = true) (hF : Continuous (field c.nVars (w.dynamics out.ctrl))) :
    ∃ ε > 0, ∀ (T : ℝ) (ξ : ℝ → Pt c.nVars), Disturbed (field c.nVars (w.dynamics out.ctrl)) ε T ξ → ξ 0 ∈ region c.nVars c.domains XI →
      (∀ t ∈ Icc 0 T, ξ t ∈ region c.nVars c.domains XD) → ∀ t ∈ Icc 0 T, ξ t ∉ region c.nVars c.domains XU := by
  obtain ⟨g, hq, ha⟩ := run_accepted hw hr h hf
  exact C92_barrier _ (smoothSetup_of_run hr h hf) hc g hq ha hF hD

theorem C92_synthesis_reach (c : SynthCfg) (w : World R K (Net × ℚ)) (hw : SoundWorld c w) (learn)
    (hr : SmoothRun c learn) (hc : c.cert = .RWS ∨ c.cert = .RWA ∨ c.cert = .RSWS ∨ c.cert = .RSWA)
    (hsets : ReachSets c.nVars c.domains) (hbd : Bornology.IsBounded (region c.nVars c.domains XS)) (net ctrl S out)
    (h : Solves c.loop (singleComponents w c false learn) net ctrl S out) (hf : out.found = true) :
    ∃ ε > 0, ∃ τ : ℝ, ∀ (T : ℝ) (ξ : ℝ → Pt c.nVars), Disturbed (field c.nVars (w.dynamics out.ctrl)) ε T ξ → ξ 0 ∈ region c.nVars c.domains XI →
      (τ ≤ T → ∃ t ∈ Icc 0 τ, ξ t ∈ region c.nVars c.domains XG) ∧
      ∀ t ∈ Icc 0 T, ξ t ∈ region c.nVars c.domains XS ∨ ∃ r ∈ Icc 0 t, ξ r ∈ region c.nVars c.domains XG := by
  obtain ⟨g, hq, ha⟩ := run_accepted hw hr h hf
  exact C92_reach _ (smoothSetup_of_run hr h hf) hsets hc g hq ha hbd

theorem C92_synthesis_lyapunov (c : SynthCfg) (w : World R K (Net × ℚ)) (hw : SoundWorld c w) (learn)
    (hr : SmoothRun c learn) (hc : c.cert = .LYAPUNOV) (net ctrl S out)
    (h : Solves c.loop (singleComponents w c false learn) net ctrl S out) (hf : out.found = true) (hF : Continuous (field c.nVars (w.dynamics out.ctrl))) :
    ToleratesOn (field c.nVars (w.dynamics out.ctrl)) (certValue c.rounding c.quad out.net.1) (region c.nVars c.domains XD) := by
  obtain ⟨g, hq, ha⟩ := run_accepted hw hr h hf
  exact C92_lyapunov (c.setup out.net.1 out.net.2 (w.dynamics out.ctrl)) (smoothSetup_of_run hr h hf) hc g hq ha hF

theorem C92_synthesis_lyapunov_dt (c : SynthCfg) (w : World R K (Net × ℚ)) (hw : SoundWorld c w) (learn)
    (hlib : c.lib = .z3 ∨ c.lib = .dreal) (hwf : WFDomains c.nVars c.domains) (hc : c.cert = .LYAPUNOV) (hquad : c.quad = false) (net ctrl S out)
    (h : Solves c.loop (singleComponents w c true learn) net ctrl S out) (hf : out.found = true)
    (hlen : (w.dynamics out.ctrl).length = c.nVars) (hF : Continuous (field c.nVars (w.dynamics out.ctrl))) :
    ToleratesOnDT (field c.nVars (w.dynamics out.ctrl)) (certValue c.rounding false out.net.1) (region c.nVars c.domains XD) := by
  obtain ⟨g, hq, ha⟩ := run_accepted_dt_any hw hlib hwf h hf
  exact C92_lyapunov_dt (c.setup out.net.1 out.net.2 (w.dynamics out.ctrl)) hlib hwf hlen hquad hc g hq ha hF

/-! ### complete runs of a file -/

/-- Every set a configuration file can describe is compact. -/
theorem setText_compact {s : String} {S : Set (Pt n)} (h : SetText n s S) : IsCompact S := by
  refine Metric.isCompact_of_isClosed_isBounded ?_ (setText_bounded h)
  have hd : ∀ c : List ℚ, Continuous fun p : Pt n => distSq c p := fun c => by unfold distSq; fun_prop
  cases h with
  | @rectangle lb ub l u s hl hu e1 e2 hs =>
    have : {p : Pt n | ∀ i : Fin n, entry l i ≤ p i ∧ p i ≤ entry u i} = Icc (fun i : Fin n => entry l i) (fun i : Fin n => entry u i) := by
      ext p; exact ⟨fun h => ⟨fun i => (h i).1, fun i => (h i).2⟩, fun h i => ⟨h.1 i, h.2 i⟩⟩
    rw [this]; exact isClosed_Icc
  | sphere hc hr e1 h0 hs => exact isClosed_le (hd _) continuous_const
  | torus hc ho hi e1 h0 hlt hs => exact (isClosed_le continuous_const (hd _)).inter (isClosed_le (hd _) continuous_const)

theorem core_margin_barrier {c : ConfigText} {cfg : SynthCfg} (hs : SetsRun c cfg) (w : World R K (Net × ℚ)) (hw : SoundWorld cfg w) (learn)
    (harch : ∀ st n k, learn st = .ok (n, k) → n.1.inputSize = c.nVars ∧ smoothActs n.1) (hc : c.cert = .BARRIER)
    (I D U : Set (Pt c.nVars)) (hI : Configures c.nVars c.domains "XI" I) (hD : Configures c.nVars c.domains "XD" D)
    (hU : Configures c.nVars c.domains "XU" U) (net ctrl S out) (h : Solves cfg.loop (singleComponents w cfg false learn) net ctrl S out)
    (hf : out.found = true) (hF : Continuous (field c.nVars (w.dynamics out.ctrl))) :
    ∃ ε > 0, ∀ (T : ℝ) (ξ : ℝ → Pt c.nVars), Disturbed (field c.nVars (w.dynamics out.ctrl)) ε T ξ → ξ 0 ∈ I → (∀ t ∈ Icc 0 T, ξ t ∈ D) → ∀ t ∈ Icc 0 T, ξ t ∉ U := by
  have rI := hs.region .XI (by decide) (by decide) (by intro h; cases h) hI
  have rD := hs.region .XD (by decide) (by decide) (by rintro -; simp [hc]) hD
  have rU := hs.region .XU (by decide) (by decide) (by intro h; cases h) hU
  have hcp : IsCompact D := by obtain ⟨s, -, h⟩ := hD; exact setText_compact h
  have hwf := hs.wf
  obtain ⟨doms, rfl⟩ := hs.cfg
  subst rI rD rU
  exact C92_synthesis_barrier _ w hw learn ⟨hs.lib, hwf, harch⟩ hc hcp net ctrl S out h hf hF

theorem core_margin_reach {c : ConfigText} {cfg : SynthCfg} (hs : SetsRun c cfg) (w : World R K (Net × ℚ)) (hw : SoundWorld cfg w) (learn)
    (harch : ∀ st n k, learn st = .ok (n, k) → n.1.inputSize = c.nVars ∧ smoothActs n.1)
    (hc : c.cert = .RWS ∨ c.cert = .RWA ∨ c.cert = .RSWS ∨ c.cert = .RSWA) (I S D G : Set (Pt c.nVars))
    (hI : Configures c.nVars c.domains "XI" I) (hS : Configures c.nVars c.domains "XS" S) (hD : Configures c.nVars c.domains "XD" D)
    (hG : Configures c.nVars c.domains "XG" G) (h1 : I ⊆ S) (h2 : I ⊆ D) (h3 : frontier S ⊆ D) (net ctrl Sd out)
    (h : Solves cfg.loop (singleComponents w cfg false learn) net ctrl Sd out) (hf : out.found = true) :
    ∃ ε > 0, ∃ τ : ℝ, ∀ (T : ℝ) (ξ : ℝ → Pt c.nVars), Disturbed (field c.nVars (w.dynamics out.ctrl)) ε T ξ → ξ 0 ∈ I →
      (τ ≤ T → ∃ t ∈ Icc 0 τ, ξ t ∈ G) ∧ ∀ t ∈ Icc 0 T, ξ t ∈ S ∨ ∃ r ∈ Icc 0 t, ξ r ∈ G := by
  have ht : TakesSafeSet c.cert := by rcases hc with h | h | h | h <;> simp [TakesSafeSet, h]
  have rI := hs.region .XI (by decide) (by decide) (by intro h; cases h) hI
  have rS := hs.region .XS (by decide) (by decide) (by intro h; cases h) hS
  have rG := hs.region .XG (by decide) (by decide) (by intro h; cases h) hG
  obtain ⟨data, hacc⟩ := hs.accepted
  have hsets := config_reachSets c hs.domains cfg data hacc ht I S D hI hS hD h1 h2 h3
  have hbd : Bornology.IsBounded S := by obtain ⟨s, -, h⟩ := hS; exact setText_bounded h
  have hwf := hs.wf
  obtain ⟨doms, rfl⟩ := hs.cfg
  subst rI rS rG
  exact C92_synthesis_reach _ w hw learn ⟨hs.lib, hwf, harch⟩ hc hsets hbd net ctrl Sd out h hf

section
variable {c : ConfigText} {r : Ready} {F : Pt c.nVars → Pt c.nVars} {w : World R Unit (Net × ℚ)} {T : Trainer Unit} {hidden : List ℕ} {acts : List ActivationType}

/-- **C92 (Barrier file).** For every accepted Barrier file the run returns, and if it reports success there is an error bound under which no trajectory from the written
initial set, inside the written domain, reaches the written unsafe set. -/
theorem C92_file_barrier (h : FileRun c r F w T hidden acts) (hc : c.cert = .BARRIER) (fl : ℝ → ℚ)
    (gs : ℕ → Rng) (g g' : Rng) (wt : ℕ → ℕ → ℕ → ℚ) (bs : ℕ → ℕ → ℚ) (hdraw : DrawsSome fl gs r.data) (hF : Continuous F)
    (I D U : Set (Pt c.nVars)) (hI : Configures c.nVars c.domains "XI" I) (hD : Configures c.nVars c.domains "XD" D) (hU : Configures c.nVars c.domains "XU" U) :
    ∃ net S out, newNet c.nVars hidden acts c.llo (certBias c.cert) wt bs = .ok net ∧ initData fl gs r.data = .ok S ∧
      Solves r.cfg.loop (singleComponents (w.withEstimate g g' r.cfg) r.cfg false (trainedLearn T r.cfg false w.dynNum)) (net, 0) () S out ∧
      (out.iters : ℤ) ≤ c.maxIters + 1 ∧
      (out.found = true → ∃ ε > 0, ∀ (T : ℝ) (ξ : ℝ → Pt c.nVars), Disturbed F ε T ξ → ξ 0 ∈ I → (∀ t ∈ Icc 0 T, ξ t ∈ D) → ∀ t ∈ Icc 0 T, ξ t ∉ U) :=
  fileRun_total_with (G := fun _ => ∃ ε > 0, ∀ (T : ℝ) (ξ : ℝ → Pt c.nVars), Disturbed F ε T ξ → ξ 0 ∈ I → (∀ t ∈ Icc 0 T, ξ t ∈ D) → ∀ t ∈ Icc 0 T, ξ t ∉ U)
    h (by rw [hc]; refine ⟨?_, ?_, ?_⟩ <;> intro h <;> cases h) (by rw [hc]; decide) false (fun h => by cases h) fl gs g g' wt bs hdraw
    (fun learn net S out hr hs hf => by
      have := core_margin_barrier hr.sets _ hr.sound learn hr.arch hc I D U hI hD hU _ _ _ out hs hf (by rw [(hr.field _).1]; exact hF)
      rwa [(hr.field _).1] at this)

/-- **C92 (reach file).** The same for reach files: an error bound and a time within which the goal is reached. -/
theorem C92_file_reach (h : FileRun c r F w T hidden acts) (hc : c.cert = .RWS ∨ c.cert = .RWA ∨ c.cert = .RSWS ∨ c.cert = .RSWA) (fl : ℝ → ℚ)
    (gs : ℕ → Rng) (g g' : Rng) (wt : ℕ → ℕ → ℕ → ℚ) (bs : ℕ → ℕ → ℚ) (hdraw : DrawsSome fl gs r.data)
    (I S D G : Set (Pt c.nVars)) (hI : Configures c.nVars c.domains "XI" I) (hS : Configures c.nVars c.domains "XS" S)
    (hD : Configures c.nVars c.domains "XD" D) (hG : Configures c.nVars c.domains "XG" G) (h1 : I ⊆ S) (h2 : I ⊆ D) (h3 : frontier S ⊆ D) :
    ∃ net S0 out, newNet c.nVars hidden acts c.llo (certBias c.cert) wt bs = .ok net ∧ initData fl gs r.data = .ok S0 ∧
      Solves r.cfg.loop (singleComponents (w.withEstimate g g' r.cfg) r.cfg false (trainedLearn T r.cfg false w.dynNum)) (net, 0) () S0 out ∧
      (out.iters : ℤ) ≤ c.maxIters + 1 ∧
      (out.found = true → ∃ ε > 0, ∃ τ : ℝ, ∀ (T : ℝ) (ξ : ℝ → Pt c.nVars), Disturbed F ε T ξ → ξ 0 ∈ I →
        (τ ≤ T → ∃ t ∈ Icc 0 τ, ξ t ∈ G) ∧ ∀ t ∈ Icc 0 T, ξ t ∈ S ∨ ∃ r ∈ Icc 0 t, ξ r ∈ G) :=
  fileRun_total_with (G := fun _ => ∃ ε > 0, ∃ τ : ℝ, ∀ (T : ℝ) (ξ : ℝ → Pt c.nVars), Disturbed F ε T ξ → ξ 0 ∈ I →
        (τ ≤ T → ∃ t ∈ Icc 0 τ, ξ t ∈ G) ∧ ∀ t ∈ Icc 0 T, ξ t ∈ S ∨ ∃ r ∈ Icc 0 t, ξ r ∈ G)
    h (by rcases hc with e | e | e | e <;> rw [e] <;> refine ⟨?_, ?_, ?_⟩ <;> intro h <;> cases h)
    (by rcases hc with e | e | e | e <;> rw [e] <;> decide) false (fun h => by cases h) fl gs g g' wt bs hdraw
    (fun learn net S0 out hr hs hf => by
      have := core_margin_reach hr.sets _ hr.sound learn hr.arch hc I S D G hI hS hD hG h1 h2 h3 _ _ _ out hs hf
      rwa [(hr.field _).1] at this)

/-- **C92 (Lyapunov file).** -/
theorem C92_file_lyapunov (h : FileRun c r F w T hidden acts) (hc : c.cert = .LYAPUNOV) (fl : ℝ → ℚ)
    (gs : ℕ → Rng) (g g' : Rng) (wt : ℕ → ℕ → ℕ → ℚ) (bs : ℕ → ℕ → ℚ) (hdraw : DrawsSome fl gs r.data)
    (D : Set (Pt c.nVars)) (hD : Configures c.nVars c.domains "XD" D) (hF : Continuous F) :
    ∃ net S, newNet c.nVars hidden acts c.llo (certBias c.cert) wt bs = .ok net ∧ initData fl gs r.data = .ok S ∧
      ((∃ out, Solves r.cfg.loop (singleComponents (w.withEstimate g g' r.cfg) r.cfg false (trainedLearn T r.cfg false w.dynNum)) (net, 0) () S out ∧
        (out.iters : ℤ) ≤ c.maxIters + 1 ∧ (out.found = true → ToleratesOn F (certValue c.rounding c.quad out.net.1) D)) ∨
      (∃ k st, Steps r.cfg.loop (singleComponents (w.withEstimate g g' r.cfg) r.cfg false (trainedLearn T r.cfg false w.dynNum))
        (initState (singleComponents (w.withEstimate g g' r.cfg) r.cfg false (trainedLearn T r.cfg false w.dynNum)) (net, 0) () S) k st ∧
        MeetsZeroDerivative T r.cfg false w.dynNum st)) := by
  obtain ⟨net, S, h1, h2, h3⟩ := C76_file_run_total h (by rw [hc]; refine ⟨?_, ?_, ?_⟩ <;> intro h <;> cases h) false (fun h => by cases h) fl gs g g' wt bs hdraw
  refine ⟨net, S, h1, h2, ?_⟩
  rcases h3 with ⟨out, h3, h4⟩ | ⟨-, h3⟩
  swap; · exact Or.inr h3
  obtain ⟨net', h1', h5, -⟩ := newNet_arch (n := c.nVars) h.net (certBias c.cert) wt bs
  rw [h1] at h1'; cases h1'
  obtain ⟨⟨learn, hr, hs⟩, -⟩ := fileRun_configRun h g g' false h5 h3
  refine Or.inl ⟨out, h3, h4, fun hf => ?_⟩
  have hw := hr.sound
  have harch := hr.arch
  have hss := hr.sets
  have hfld := (hr.field out.ctrl).1
  have rD := hss.region .XD (by decide) (by decide) (by rintro -; simp [hc]) hD
  have hwf := hss.wf
  clear hr h h3 h1 h5
  obtain ⟨cfg, f, data⟩ := r
  obtain ⟨doms, e⟩ := hss.cfg
  dsimp only at e rD hwf hw hs
  subst e rD
  have := C92_synthesis_lyapunov _ _ hw learn ⟨hss.lib, hwf, harch⟩ hc _ _ _ out hs hf (by rw [hfld]; exact hF)
  dsimp only at this
  rw [hfld] at this
  exact this

/-- **C92 (Lyapunov file, discrete time, any activations).** -/
theorem C92_file_lyapunov_dt (h : AnyFileRun c r F w T hidden acts) (hc : c.cert = .LYAPUNOV) (hq : c.quad = false) (hrnd : c.rounding ≠ 0) (fl : ℝ → ℚ)
    (gs : ℕ → Rng) (g g' : Rng) (wt : ℕ → ℕ → ℕ → ℚ) (bs : ℕ → ℕ → ℚ) (hdraw : DrawsSome fl gs r.data)
    (D : Set (Pt c.nVars)) (hD : Configures c.nVars c.domains "XD" D) (hF : Continuous F) :
    ∃ net S, newNet c.nVars hidden acts c.llo (certBias c.cert) wt bs = .ok net ∧ initData fl gs r.data = .ok S ∧
      ((∃ out, Solves r.cfg.loop (singleComponents (w.withEstimate g g' r.cfg) r.cfg true (trainedLearn T r.cfg true w.dynNum)) (net, 0) () S out ∧
        (out.iters : ℤ) ≤ c.maxIters + 1 ∧ (out.found = true → ToleratesOnDT F (certValue c.rounding false out.net.1) D)) ∨
      (∃ k st, Steps r.cfg.loop (singleComponents (w.withEstimate g g' r.cfg) r.cfg true (trainedLearn T r.cfg true w.dynNum))
        (initState (singleComponents (w.withEstimate g g' r.cfg) r.cfg true (trainedLearn T r.cfg true w.dynNum)) (net, 0) () S) k st ∧
        MeetsZeroDerivative T r.cfg true w.dynNum st)) := by
  obtain ⟨net, S, h1, h2, h3⟩ := C84_file_run_total h (by rw [hc]; refine ⟨?_, ?_, ?_⟩ <;> intro h <;> cases h) true (fun _ => hrnd) fl gs g g' wt bs hdraw
  refine ⟨net, S, h1, h2, ?_⟩
  rcases h3 with ⟨out, h3, h4⟩ | ⟨-, h3⟩
  swap; · exact Or.inr h3
  obtain ⟨net', h1', h5, -⟩ := newNet_usable (n := c.nVars) h.net (certBias c.cert) wt bs
  rw [h1] at h1'; cases h1'
  obtain ⟨⟨learn, hr, hs⟩, -⟩ := anyFile_config h g g' true h5 h3
  refine Or.inl ⟨out, h3, h4, fun hf => ?_⟩
  have hf' := config_field (readConfig_inv hr.accepted).1 hr.system
  have hw := hr.sound
  have hss := anyRun_sets hr
  have hfld := anyRun_field hr out.ctrl
  have hdyn := hr.dynamics out.ctrl
  have rD := hss.region .XD (by decide) (by decide) (by rintro -; simp [hc]) hD
  have hwf := hss.wf
  clear hr h h3 h1 h5
  obtain ⟨cfg, f, data⟩ := r
  obtain ⟨doms, e⟩ := hss.cfg
  dsimp only at e rD hwf hf' hw hs hdyn
  subst e rD
  have := C92_synthesis_lyapunov_dt _ _ hw learn hss.lib hwf hc hq _ _ _ out hs hf (by rw [hdyn]; exact hf'.2.1) (by rw [hfld]; exact hF)
  dsimp only at this
  rw [hfld] at this
  exact this

end

section
variable {c : ControlConfig} {w0 : ℕ → ℕ → ℕ → ℚ} {r : ReadyControl} {m : ℕ} {F : Pt c.base.nVars → Pt m → Pt c.base.nVars} {w : World R Controller (Net × ℚ)}
  {T : Trainer Controller} {hidden : List ℕ} {acts : List ActivationType}

/-- **C92 (Barrier file with a controller).** The error bound covers errors of the written system and of the controller's output together. -/
theorem C92_control_barrier (h : ControlFileRun c w0 r m F w T hidden acts) (hc : c.base.cert = .BARRIER) (fl : ℝ → ℚ)
    (gs : ℕ → Rng) (g g' : Rng) (wt : ℕ → ℕ → ℕ → ℚ) (bs : ℕ → ℕ → ℚ) (hdraw : DrawsSome fl gs r.data) (hF : Continuous (fun z : Pt c.base.nVars × Pt m => F z.1 z.2))
    (I D U : Set (Pt c.base.nVars)) (hI : Configures c.base.nVars c.base.domains "XI" I) (hD : Configures c.base.nVars c.base.domains "XD" D) (hU : Configures c.base.nVars c.base.domains "XU" U) :
    ∃ net S out, newNet c.base.nVars hidden acts c.base.llo (certBias c.base.cert) wt bs = .ok net ∧ initData fl gs r.data = .ok S ∧
      Solves r.cfg.loop (singleComponents (w.withEstimate g g' r.cfg) r.cfg false (trainedLearn T r.cfg false w.dynNum)) (net, 0) r.ctrl S out ∧
      (out.iters : ℤ) ≤ c.base.maxIters + 1 ∧
      (out.found = true → ∃ ε > 0, ∀ (T : ℝ) (ξ : ℝ → Pt c.base.nVars), Disturbed (driven F (rounded5 out.ctrl)) ε T ξ → ξ 0 ∈ I → (∀ t ∈ Icc 0 T, ξ t ∈ D) →
        ∀ t ∈ Icc 0 T, ξ t ∉ U) :=
  controlFileRun_total_with (G := fun out => ∃ ε > 0, ∀ (T : ℝ) (ξ : ℝ → Pt c.base.nVars), Disturbed (driven F (rounded5 out.ctrl)) ε T ξ → ξ 0 ∈ I →
      (∀ t ∈ Icc 0 T, ξ t ∈ D) → ∀ t ∈ Icc 0 T, ξ t ∉ U)
    h (by rw [hc]; refine ⟨?_, ?_, ?_⟩ <;> intro h <;> cases h) (by rw [hc]; decide) false (fun h => by cases h) fl gs g g' wt bs hdraw
    (fun learn net ctrl S out hr hs hf => by
      have := core_margin_barrier hr.sets _ hr.sound learn hr.arch hc I D U hI hD hU _ _ _ out hs hf (by rw [(hr.field hs hf).1]; exact driven_continuous hF _)
      rwa [(hr.field hs hf).1] at this)

/-- **C92 (reach file with a controller).** -/
theorem C92_control_reach (h : ControlFileRun c w0 r m F w T hidden acts) (hc : c.base.cert = .RWS ∨ c.base.cert = .RWA ∨ c.base.cert = .RSWS ∨ c.base.cert = .RSWA) (fl : ℝ → ℚ)
    (gs : ℕ → Rng) (g g' : Rng) (wt : ℕ → ℕ → ℕ → ℚ) (bs : ℕ → ℕ → ℚ) (hdraw : DrawsSome fl gs r.data)
    (I S D G : Set (Pt c.base.nVars)) (hI : Configures c.base.nVars c.base.domains "XI" I) (hS : Configures c.base.nVars c.base.domains "XS" S)
    (hD : Configures c.base.nVars c.base.domains "XD" D) (hG : Configures c.base.nVars c.base.domains "XG" G) (h1 : I ⊆ S) (h2 : I ⊆ D) (h3 : frontier S ⊆ D) :
    ∃ net S0 out, newNet c.base.nVars hidden acts c.base.llo (certBias c.base.cert) wt bs = .ok net ∧ initData fl gs r.data = .ok S0 ∧
      Solves r.cfg.loop (singleComponents (w.withEstimate g g' r.cfg) r.cfg false (trainedLearn T r.cfg false w.dynNum)) (net, 0) r.ctrl S0 out ∧
      (out.iters : ℤ) ≤ c.base.maxIters + 1 ∧
      (out.found = true → ∃ ε > 0, ∃ τ : ℝ, ∀ (T : ℝ) (ξ : ℝ → Pt c.base.nVars), Disturbed (driven F (rounded5 out.ctrl)) ε T ξ → ξ 0 ∈ I →
        (τ ≤ T → ∃ t ∈ Icc 0 τ, ξ t ∈ G) ∧ ∀ t ∈ Icc 0 T, ξ t ∈ S ∨ ∃ r ∈ Icc 0 t, ξ r ∈ G) :=
  controlFileRun_total_with (G := fun out => ∃ ε > 0, ∃ τ : ℝ, ∀ (T : ℝ) (ξ : ℝ → Pt c.base.nVars), Disturbed (driven F (rounded5 out.ctrl)) ε T ξ → ξ 0 ∈ I →
        (τ ≤ T → ∃ t ∈ Icc 0 τ, ξ t ∈ G) ∧ ∀ t ∈ Icc 0 T, ξ t ∈ S ∨ ∃ r ∈ Icc 0 t, ξ r ∈ G)
    h (by rcases hc with e | e | e | e <;> rw [e] <;> refine ⟨?_, ?_, ?_⟩ <;> intro h <;> cases h)
    (by rcases hc with e | e | e | e <;> rw [e] <;> decide) false (fun h => by cases h) fl gs g g' wt bs hdraw
    (fun learn net ctrl S0 out hr hs hf => by
      have := core_margin_reach hr.sets _ hr.sound learn hr.arch hc I S D G hI hS hD hG h1 h2 h3 _ _ _ out hs hf
      rwa [(hr.field hs hf).1] at this)

end

/-! ### BarrierAlt has no margin -/

/-- `x' = 0`, `B = x`, `XI = [-2, -1]`, `XU = [1, 2]`. -/
def exStill (ct : CertType) : Setup := ⟨.z3, 1, ct,
  [(XD, .rectangle [-4] [4] none), (XI, .rectangle [-2] [-1] none), (XU, .rectangle [1] [2] none)],
  false, 3, false, ⟨1, [⟨[[1]], some [0]⟩, ⟨[[1]], some [0]⟩], [.identity]⟩, [.const 0], 0⟩

theorem exStill_smooth (ct : CertType) : SmoothSetup (exStill ct) :=
  ⟨Or.inl rfl, by
    intro e he; simp [exStill] at he
    rcases he with rfl | rfl | rfl <;> simp [WF, exStill, noSel], rfl,
    by intro a ha; simp [exStill] at ha; simp [ha]⟩

theorem still_field : field 1 [Term.const 0] = fun _ => (fun _ => 0 : Pt 1) := by
  funext p i
  simp [field, Term.eval, Subsingleton.elim i 0]

theorem exStill_accepted : ∃ groups, queriesCT (exStill .BARRIERALT) = .ok groups ∧ Accepted 1 groups := by
  have h1 : roundBy 3 1 = 1 := by decide +kernel
  have h0 : roundBy 3 0 = 0 := by decide +kernel
  refine ⟨_, rfl, accepted_of_refuted (by simp [DistinctLabels, queries, XI, XU, XD]) ?_⟩
  intro g hg q hq ρ h
  simp only [List.mem_cons, List.not_mem_nil, or_false] at hg
  rcases hg with rfl | rfl <;> simp only [List.mem_cons, List.not_mem_nil, or_false] at hq
  · rcases hq with rfl | rfl
    all_goals
      simp [Formula.holds, Formula.conj, Term.eval, Term.sum, leZero, geZero, gtZero, factors, vars, h1, h0,
        exStill, eyeJac, postVal, postGrad, gradTerms, hiddenBias, diagJac] at h
      norm_num at h
      try simp only [Int.cast_negSucc] at h
      try norm_num at h
      first | linarith [h.1.1, h.1.2.1] | linarith [h.1.1, h.1.2.2]
  · subst hq
    simp [Formula.holds, Formula.conj, Term.eval, Term.sum, leZero, geZero, gtZero, factors, vars, h1, h0,
        exStill, eyeJac, postVal, postGrad, gradTerms, hiddenBias, diagJac] at h

/-- **C92 (BarrierAlt).** BarrierAlt certificates need not tolerate any error: an accepted one for which, under every positive error bound, some trajectory goes from the initial
set to the unsafe set inside the domain. -/
theorem C92_barrierAlt_no_margin : ∃ (s : Setup) (groups : _), SmoothSetup s ∧ s.cert = .BARRIERALT ∧ queriesCT s = .ok groups ∧ Accepted s.nVars groups ∧
    Continuous (field s.nVars s.f) ∧ IsCompact (region s.nVars s.domains XD) ∧
    ∀ ε > 0, ∃ (T : ℝ) (ξ : ℝ → Pt s.nVars), 0 ≤ T ∧ Disturbed (field s.nVars s.f) ε T ξ ∧ ξ 0 ∈ region s.nVars s.domains XI ∧
      (∀ t ∈ Icc 0 T, ξ t ∈ region s.nVars s.domains XD) ∧ ξ T ∈ region s.nVars s.domains XU := by
  obtain ⟨g, hq, ha⟩ := exStill_accepted
  refine ⟨exStill .BARRIERALT, g, exStill_smooth _, rfl, hq, ha, ?_, ?_, fun ε hε => ⟨2 / ε, fun t _ => ε * t - 1, by positivity, ?_, ?_, ?_, ?_⟩⟩
  · show Continuous (field 1 [Term.const 0])
    rw [still_field]; exact continuous_const
  · show IsCompact (docSet 1 (.rectangle [-4] [4] none))
    exact Metric.isCompact_of_isClosed_isBounded (seg_closed _ _) (seg_bounded _ _)
  · refine disturbed_of fun t ht => ?_
    refine ⟨fun _ => ε, hasDerivWithinAt_pi.2 fun i => ?_, fun i => ?_⟩
    · have : HasDerivAt (fun t : ℝ => ε * t - 1) (ε * 1) t := ((hasDerivAt_id t).const_mul ε).sub_const 1
      simpa using this.hasDerivWithinAt
    · show |ε - field 1 [Term.const 0] (fun _ => ε * t - 1) i| ≤ ε
      rw [still_field]; simp [abs_of_pos hε]
  · exact (seg_mem (-2) (-1) (fun _ => ε * 0 - 1 : Pt 1)).2 (by norm_num)
  · intro t ht
    have h1 : ε * t ≤ 2 := by
      have := mul_le_mul_of_nonneg_left ht.2 hε.le
      rwa [mul_div_cancel₀ _ hε.ne'] at this
    have h2 : 0 ≤ ε * t := mul_nonneg hε.le ht.1
    exact (seg_mem (-4) 4 (fun _ => ε * t - 1 : Pt 1)).2 (by constructor <;> push_cast <;> linarith)
  · have : ε * (2 / ε) = 2 := mul_div_cancel₀ _ hε.ne'
    exact (seg_mem 1 2 (fun _ => ε * (2 / ε) - 1 : Pt 1)).2 (by rw [this]; norm_num)

/-! ### examples -/

/-- Certificates meeting the hypotheses of `C92_barrier`, `C92_lyapunov`, `C92_lyapunov_dt` and `C92_reach`. -/
example : (∃ g, queriesCT (exBarrier .BARRIER) = .ok g ∧ Accepted 1 g ∧ SmoothSetup (exBarrier .BARRIER) ∧ Continuous (field 1 (exBarrier .BARRIER).f) ∧
      IsCompact (region 1 (exBarrier .BARRIER).domains XD)) ∧
    (∃ g, queriesCT exLyap = .ok g ∧ Accepted 1 g ∧ SmoothSetup exLyap ∧ Continuous (field 1 exLyap.f)) ∧
    (∃ g, queriesDT exLyapDT = .ok g ∧ Accepted 1 g ∧ WFDomains 1 exLyapDT.domains ∧ exLyapDT.f.length = 1 ∧ exLyapDT.quad = false ∧ Continuous (field 1 exLyapDT.f)) ∧
    ∃ g, queriesCT (exReach .RWS) = .ok g ∧ Accepted 1 g ∧ SmoothSetup (exReach .RWS) ∧ ReachSets 1 (exReach .RWS).domains ∧
      Bornology.IsBounded (region 1 (exReach .RWS).domains XS) := by
  have e : field 1 [Term.neg (.var 0)] = fun p i => - p i := by
    funext p i
    simp [field, Term.eval, Subsingleton.elim i 0, Pt.env]
  have e2 : field 1 [Term.mul (.const (1/2)) (.var 0)] = fun p i => ((1/2 : ℚ) : ℝ) * p i := by
    funext p i
    simp [field, Term.eval, Subsingleton.elim i 0, Pt.env]
  refine ⟨?_, ?_, ?_, ?_⟩
  · obtain ⟨g, h, ha⟩ := exBarrier_accepted.1
    refine ⟨g, h, ha, exBarrier_smooth _, ?_, ?_⟩
    · show Continuous (field 1 [Term.neg (.var 0)])
      rw [e]; fun_prop
    · show IsCompact (docSet 1 (.rectangle [-4] [4] none))
      exact Metric.isCompact_of_isClosed_isBounded (seg_closed _ _) (seg_bounded _ _)
  · obtain ⟨g, h, ha⟩ := exLyap_accepted
    refine ⟨g, h, ha, exLyap_smooth, ?_⟩
    show Continuous (field 1 [Term.neg (.var 0)])
    rw [e]; fun_prop
  · obtain ⟨g, h, ha⟩ := exLyapDT_accepted
    refine ⟨g, h, ha, exLyap_smooth.sets, rfl, rfl, ?_⟩
    show Continuous (field 1 [Term.mul (.const (1/2)) (.var 0)])
    rw [e2]; fun_prop
  · obtain ⟨g, h, ha⟩ := exReach_accepted.1
    refine ⟨g, h, ha, exReach_smooth _, (exReach_sets _).toReachSets, ?_⟩
    show Bornology.IsBounded (docSet 1 (.rectangle [-1] [1] none))
    exact seg_bounded _ _

/-- A curve with errors which no model of `x' = -x` follows exactly: a rest point away from the origin. -/
example {ε : ℝ} (hε : 0 < ε) : Disturbed (fun (p : Pt 1) i => - p i) ε 1 (fun _ _ => ε) ∧ ¬ Trajectory (fun (p : Pt 1) i => - p i) 1 (fun _ _ => ε) ∧
    DisturbedRun (fun (p : Pt 1) i => p i / 2) ε (fun _ _ => ε) ∧ ¬ IsRun (fun (p : Pt 1) i => p i / 2) (fun _ _ => ε) := by
  refine ⟨disturbed_of fun t ht => ⟨fun _ => 0, hasDerivWithinAt_const _ _ _, fun i => by simp [abs_of_pos hε]⟩, fun h => ?_, fun k i => ?_, fun h => ?_⟩
  · have h1 := hasDerivWithinAt_pi.1 (h 0 ⟨le_rfl, by norm_num⟩) 0
    have h2 := (h1.derivWithin (uniqueDiffOn_Icc (by norm_num : (0 : ℝ) < 1) 0 ⟨le_rfl, by norm_num⟩)).symm
    simp at h2
    linarith
  · rw [abs_of_pos] <;> linarith
  · have := congrFun (h 0) 0
    simp only at this
    linarith

theorem exStay_described : DomainsDescribed exStayConfig := by
  obtain ⟨s1, s2, s3, s4⟩ := exStay_sets
  refine ⟨by decide, ?_⟩
  intro k s hm
  simp only [exStayConfig, List.mem_cons, Prod.mk.injEq, List.not_mem_nil, or_false] at hm
  rcases hm with ⟨-, rfl⟩ | ⟨-, rfl⟩ | ⟨-, rfl⟩ | ⟨-, rfl⟩
  exacts [⟨_, s1⟩, ⟨_, s2⟩, ⟨_, s3⟩, ⟨_, s4⟩]

/-- Files meeting the hypotheses of `C92_file_barrier`, `C92_file_lyapunov`, `C92_file_lyapunov_dt`, `C92_file_reach`, `C92_control_barrier` and `C92_control_reach`. The run of the
first one succeeds (`exFile_succeeds`), and so does that of the fifth (`exControlFile_succeeds`). -/
example : (∃ r, FileRun (exConfig .BARRIER) r (fun p i => - p i) (idealWorld (Net × ℚ) (exBarrier .BARRIER).f) exTrainer [1] [.SQUARE] ∧ (∀ fl g, DrawsSome fl g r.data) ∧
      ∃ I D U : Set (Pt 1), Configures 1 (exConfig .BARRIER).domains "XI" I ∧ Configures 1 (exConfig .BARRIER).domains "XD" D ∧ Configures 1 (exConfig .BARRIER).domains "XU" U) ∧
    (∃ r, FileRun exLloConfig r (fun p i => - p i) (idealWorld (Net × ℚ) exLyap.f) exTrainer [1] [.SQUARE] ∧ (∀ fl g, DrawsSome fl g r.data) ∧
      ∃ D : Set (Pt 1), Configures 1 exLloConfig.domains "XD" D) ∧
    (∃ r, AnyFileRun (exRingConfig "x0/2") r (fun p i => p i / 2) (idealWorld (Net × ℚ) [.div (.var 0) (.const 2)]) exTrainer [2] [.RELU] ∧ (∀ fl g, DrawsSome fl g r.data) ∧
      (exRingConfig "x0/2").cert = .LYAPUNOV ∧ (exRingConfig "x0/2").quad = false ∧ (exRingConfig "x0/2").rounding ≠ 0) ∧
    (∃ r, FileRun exStayConfig r (fun p i => - p i) (stayWorld (Net × ℚ) [.neg (.var 0)]) exTrainer [1] [.SQUARE] ∧ (∀ fl, DrawsSome fl (fun _ => zeroRng) r.data) ∧
      exStayConfig.cert = .RSWS) ∧
    (∃ r, ControlFileRun (exControl .z3) exWeights r 1 exControlField (idealWorldK (Net × ℚ) exLoops) exTrainerK [1] [.SQUARE] ∧ (∀ fl g, DrawsSome fl g r.data) ∧
      Continuous (fun z : Pt 1 × Pt 1 => exControlField z.1 z.2)) ∧
    ∃ r, ControlFileRun (exDriven .RSWS exStayConfig.domains exStayConfig.nData ⟨1, true, false⟩ false) exWeights r 1 exControlField (exDrivenWorld (Net × ℚ)) exTrainerK [1] [.SQUARE] ∧
      ∀ fl, DrawsSome fl (fun _ => zeroRng) r.data := by
  refine ⟨?_, ?_, ?_, ?_, ?_, ?_⟩
  · obtain ⟨r, h, -, hd⟩ := exFile_run
    obtain ⟨s1, s2, s3⟩ := exConfig_sets
    exact ⟨r, h, hd, _, _, _, ⟨_, by simp [exConfig, exConfigL], s2⟩, ⟨_, by simp [exConfig, exConfigL], s1⟩, ⟨_, by simp [exConfig, exConfigL], s3⟩⟩
  · obtain ⟨r, h, -, -, -, -, -, hd, D, hD, -⟩ := exLlo_run
    exact ⟨r, h, hd, D, hD⟩
  · obtain ⟨data, h⟩ := exRing_sets "x0/2"
    have hr : readConfig (exRingConfig "x0/2") = .ok ⟨_, [.div (.var 0) (.const 2)], data⟩ := readConfig_ok exHalf_system h
    exact ⟨_, ⟨Or.inl rfl, exRing_described _, half_x_system _, hr, by decide, idealWorld_sound _ _ _, fun _ => rfl, idealWorld_fair _ _ _ rfl, (fun h => by cases h),
      fun _ _ _ => sameShape_refl _, relu_usable _⟩, fun fl g => C76_draws_some _ _ (exRing_described _) hr (Or.inl rfl) (exRing_counts _) fl g, rfl, rfl, by decide⟩
  · have hs := fun i V Vdot => stayWorld_search (Net × ℚ) [.neg (.var 0)] ⟨.z3, 1, .RSWS, exStayDoms, false, 3, false, 10⟩ ⟨_, rfl, fun V Vdot β => ⟨_, rfl⟩⟩ i V Vdot
    exact ⟨_, ⟨Or.inl rfl, exStay_described, minus_x_system _, exStay_ready_data, by decide, stayWorld_sound _ _ _, fun _ => rfl, stayWorld_fair _ _ _ rfl, fun _ => hs,
      fun _ _ _ => sameShape_refl _, exFile_good⟩, exStay_draws, rfl⟩
  · obtain ⟨r, h, -, -, hd⟩ := exControlFile_run
    refine ⟨r, h, hd, ?_⟩
    unfold exControlField
    fun_prop
  · have hs := fun i V Vdot => stayWorld_search (Net × ℚ) [.neg (.var 0)] ⟨.z3, 1, .RSWS, exStayDoms, false, 3, false, 10⟩ ⟨_, rfl, fun V Vdot β => ⟨_, rfl⟩⟩ i V Vdot
    exact ⟨_, ⟨Or.inl rfl, ⟨exStay_described.1, exStay_described.2⟩, exControl_text _ _, by decide, exDriven_ready (readConfig_inv exStay_ready_data).2, (by decide : (0 : ℤ) ≤ 10), exDrivenWorld_sound _ _,
      fun k f hf => exLoops_eq k f hf, exDrivenWorld_fair _, fun _ => hs, fun _ _ _ => ⟨sameShape_refl _, sameController_refl _⟩, exFile_good⟩, exStay_draws⟩

end Fossil

/-
C08: region-of-attraction certificates.
-/
import Verif.Props.C07_LLO
import Mathlib.Analysis.Complex.ExponentialBounds

namespace Fossil
open Spec Set

/-- What acceptance of the ROA query gives, pointwise. -/
theorem roa_inv {n : ℕ} {llo : Bool} {beta : ℚ} {d : Dict String Formula} {V Vdot : Term} {groups}
    (h : roaConstraints n llo beta d V Vdot = .ok groups)
    (ha : ∀ g ∈ groups, ∀ q ∈ g, ∀ ρ : Env, ¬ q.2.holds ρ) :
    ∃ init, Dict.getE d XI = .ok init ∧
      (∀ p : Pt n, init.holds p.env → V.eval p.env ≤ (beta : ℝ) * (11/10)) ∧
      ∀ p : Pt n, V.eval p.env ≤ (beta : ℝ) * (11/10) → 1/10000 < normSq p →
        (if llo then Vdot.eval p.env < 0 else 0 < V.eval p.env ∧ Vdot.eval p.env ≤ 0) := by
  unfold roaConstraints at h
  simp only [bind, Except.bind] at h
  split at h
  · cases h
  rename_i init hinit
  cases h
  have H := ha _ (List.mem_singleton_self _) _ (List.mem_singleton_self _)
  refine ⟨init, hinit, fun p hp => ?_, fun p hV hn => ?_⟩
  · have := H p.env
    simp only [Formula.holds, Term.eval, not_or] at this
    by_contra hc
    refine this.1 ⟨hp, fun h => hc ?_⟩
    push_cast at h; exact h
  · have := H p.env
    simp only [Formula.holds, not_or, sumSq_eval] at this
    have h3 := fun h => this.2 ⟨⟨by simp only [Term.eval]; push_cast; exact hV, by
      simp only [Term.eval]; push_cast; linarith⟩, h⟩
    cases llo with
    | true => simpa [geZero, Formula.holds, Term.eval] using not_le.1 h3
    | false =>
      simp only [Bool.false_eq_true, if_false, Formula.holds, leZero, gtZero, Term.eval, not_or, not_le,
        not_lt, Rat.cast_zero] at h3 ⊢
      exact ⟨not_le.1 fun h => h3 (Or.inl h), not_lt.1 fun h => h3 (Or.inr h)⟩

/-- **C08 (pointwise part).** An accepted region-of-attraction certificate: the initial set lies in the sub-level
set of level `1.1 * beta`; in that sub-level set, outside the ball of radius 0.01, the certificate is positive
and non-increasing along the dynamics (without LLO), or strictly decreasing (with LLO). -/
theorem C08_roa_conditions (s : Setup) (hlib : s.lib = .z3 ∨ s.lib = .dreal)
    (hw : WFDomains s.nVars s.domains) (hsz : s.net.inputSize = s.nVars) (hc : s.cert = .ROA) (groups)
    (hq : queriesCT s = .ok groups) (ha : Accepted s.nVars groups) :
    (∀ p ∈ region s.nVars s.domains XI, certValue s.rounding s.quad s.net p ≤ (s.beta : ℝ) * (11/10)) ∧
    ∃ L : Pt s.nVars → ℝ,
      (∀ p, noKink (roundedNet s.rounding s.net).layers.dropLast s.net.acts (coordList p) →
        IsLieDerivAt (field s.nVars s.f) (certValue s.rounding s.quad s.net) L p) ∧
      ∀ p : Pt s.nVars, certValue s.rounding s.quad s.net p ≤ (s.beta : ℝ) * (11/10) →
        (1/100)^2 < normSq p →
        (if s.llo then L p < 0 else 0 < certValue s.rounding s.quad s.net p ∧ L p ≤ 0) := by
  obtain ⟨d, V, Vdot, h1, h2, h3⟩ := queriesCT_inv hq
  rw [hc] at h3
  have hd : DistinctLabels groups := by
    unfold singleConstraints roaConstraints at h3
    simp only [bind, Except.bind] at h3
    split at h3
    · cases h3
    cases h3
    simp [DistinctLabels, queries]
  obtain ⟨init, hi, H1, H2⟩ := roa_inv h3 (accepted_refutes hd ha)
  have h1' := initialise_single h1 (by simp [hc])
  refine ⟨fun p hp => ?_, fun q => Vdot.eval q.env, fun p hk => ?_, fun p hp hn => ?_⟩
  · rw [← certValue_eq h2]
    exact H1 p ((entry_region hlib hw h1' (by decide) hi p).2 hp)
  · have := C17_lie_derivative s.lib s.rounding s.quad s.net s.nVars s.f V Vdot h2 hsz p hk
    have e : (fun q : Pt s.nVars => V.eval q.env) = certValue s.rounding s.quad s.net :=
      funext (certValue_eq h2)
    rwa [e] at this
  · have := H2 p (by rwa [certValue_eq h2]) (by norm_num at hn ⊢; exact hn)
    rwa [certValue_eq h2] at this

/-- **C08 (invariance, partial).** Trajectories from the initial set never leave the verified sub-level set while
they are outside the 0.01-ball — when they start strictly below the level, or LLO is on.
Missing: starting exactly at the level `1.1 * beta` without LLO — false in general, see
`C08_level_start_escapes`. -/
theorem C08_roa_invariant_partial (s : Setup) (hs : SmoothSetup s) (hc : s.cert = .ROA) (groups)
    (hq : queriesCT s = .ok groups) (ha : Accepted s.nVars groups)
    (T : ℝ) (ξ : ℝ → Pt s.nVars) (hξ : Trajectory (field s.nVars s.f) T ξ) (hT : 0 ≤ T)
    (h0 : ξ 0 ∈ region s.nVars s.domains XI)
    (hstart : s.llo = true ∨ certValue s.rounding s.quad s.net (ξ 0) < (s.beta : ℝ) * (11/10))
    (hout : ∀ t ∈ Icc 0 T, (1/100)^2 < normSq (ξ t)) :
    ∀ t ∈ Icc 0 T, certValue s.rounding s.quad s.net (ξ t) ≤ (s.beta : ℝ) * (11/10) := by
  obtain ⟨hI, L, hL, hB⟩ := C08_roa_conditions s hs.lib hs.sets hs.size hc groups hq ha
  have hd : ∀ t ∈ Icc 0 T, HasDerivWithinAt (fun τ => certValue s.rounding s.quad s.net (ξ τ))
      (L (ξ t)) (Icc 0 T) t := fun t ht =>
    hL (ξ t) (noKink_of_smooth s.net hs.smooth _ _) ξ _ t rfl (hξ t ht)
  cases hllo : s.llo with
  | true =>
    refine fence_le hd (hI _ h0) fun t ht e => ?_
    have := hB (ξ t) e.le (hout t (Ico_subset_Icc_self ht))
    rw [hllo] at this; simpa using this
  | false =>
    have hlt := hstart.resolve_left (by simp [hllo])
    intro t ht
    refine (sublevel_antitone hd hlt (fun r hr hle => ?_) t ht).trans hlt.le
    have := hB (ξ r) hle (hout r hr)
    rw [hllo] at this; simpa using this.2

/-- With LLO the certificate strictly decreases along such trajectories. -/
theorem C08_roa_llo_strictly_decreasing (s : Setup) (hs : SmoothSetup s) (hc : s.cert = .ROA) (groups)
    (hq : queriesCT s = .ok groups) (ha : Accepted s.nVars groups) (hllo : s.llo = true)
    (T : ℝ) (ξ : ℝ → Pt s.nVars) (hξ : Trajectory (field s.nVars s.f) T ξ) (hT : 0 ≤ T)
    (h0 : ξ 0 ∈ region s.nVars s.domains XI)
    (hout : ∀ t ∈ Icc 0 T, (1/100)^2 < normSq (ξ t)) :
    StrictAntiOn (fun t => certValue s.rounding s.quad s.net (ξ t)) (Icc 0 T) := by
  have hinv := C08_roa_invariant_partial s hs hc groups hq ha T ξ hξ hT h0 (Or.inl hllo) hout
  obtain ⟨hI, L, hL, hB⟩ := C08_roa_conditions s hs.lib hs.sets hs.size hc groups hq ha
  refine strictAnti_of (g' := fun t => L (ξ t)) (fun t ht =>
    hL (ξ t) (noKink_of_smooth s.net hs.smooth _ _) ξ _ t rfl (hξ t ht)) fun t ht => ?_
  have ht' := Ioo_subset_Icc_self ht
  have := hB (ξ t) (hinv t ht') (hout t ht')
  rw [hllo] at this; simpa using this

/-- Rewriting helper for concrete single-query checks. -/
theorem single_refuted {l : String} {φ : Formula} (h : ∀ ρ : Env, ¬ φ.holds ρ) :
    ∀ g ∈ [[(l, φ)]], ∀ q ∈ g, ∀ ρ : Env, ¬ q.2.holds ρ := by
  intro g hg q hq ρ
  simp only [List.mem_singleton] at hg
  subst hg
  simp only [List.mem_singleton] at hq
  subst hq
  exact h ρ

/-- `x' = 0`, `V = x²`, `XI = [-1/2, 1/2]`, level 1. -/
def exROAStill : Setup := ⟨.z3, 1, .ROA, [(XI, .rectangle [-1/2] [1/2] none)], false, 3, false,
  ⟨1, [⟨[[1]], none⟩, ⟨[[1]], none⟩], [.square]⟩, [.const 0], 10/11⟩

/-- C08, a weakness: without LLO the check uses `Vdot > 0` as violation, so a system that does not move at all
is accepted as attracted to the origin: acceptance gives no attraction. -/
theorem C08_no_attraction :
    SmoothSetup exROAStill ∧
    (∃ groups, queriesCT exROAStill = .ok groups ∧ Accepted exROAStill.nVars groups) ∧
    ∀ T : ℝ, Trajectory (field 1 exROAStill.f) T (fun _ _ => 1/2) ∧
      (fun _ => 1/2 : Pt 1) ∈ region 1 exROAStill.domains XI := by
  have h1 : roundBy 3 1 = 1 := by decide +kernel
  refine ⟨⟨Or.inl rfl, by intro e he; simp [exROAStill] at he; subst he; simp [WF, exROAStill, noSel], rfl,
    by intro a ha; simp [exROAStill] at ha; simp [ha]⟩,
    ⟨_, rfl, accepted_of_refuted (by simp [DistinctLabels, queries]) (single_refuted fun ρ h => ?_)⟩,
    fun T => ⟨fun t _ => ?_, ?_⟩⟩
  · simp [Formula.holds, Formula.conj, Term.eval, Term.sum, leZero, gtZero, factors, vars, h1, exROAStill,
      eyeJac, postVal, postGrad, gradTerms, hiddenBias, diagJac] at h
    norm_num at h
    norm_cast at h
    rcases h with ⟨⟨h2, h3⟩, h4⟩ | ⟨⟨h2, h3⟩, h4⟩
    · exact absurd (abs_le.2 ⟨by linarith, by linarith⟩ : |ρ 0| ≤ 1) (not_le.2 h4)
    · nlinarith
  · refine (hasDerivWithinAt_const t _ _).congr_deriv ?_
    funext i
    simp [field, exROAStill, Term.eval]
  · simp [region, exROAStill, docSet, reals, coords, XI, Dict.get?]
    norm_num

/-- Non-vacuity with LLO: `x' = -x`. -/
theorem exROA_accepted : ∃ groups, queriesCT { exROAStill with llo := true, f := [.neg (.var 0)] } = .ok groups ∧
    Accepted 1 groups := by
  have h1 : roundBy 3 1 = 1 := by decide +kernel
  refine ⟨_, rfl, accepted_of_refuted (by simp [DistinctLabels, queries]) (single_refuted fun ρ h => ?_)⟩
  simp [Formula.holds, Formula.conj, Term.eval, Term.sum, leZero, geZero, factors, vars, h1, exROAStill,
      eyeJac, postVal, postGrad, gradTerms, hiddenBias, diagJac] at h
  norm_num at h
  norm_cast at h
  rcases h with ⟨⟨h2, h3⟩, h4⟩ | ⟨⟨h2, h3⟩, h4⟩
  · exact absurd (abs_le.2 ⟨by linarith, by linarith⟩ : |ρ 0| ≤ 1) (not_le.2 h4)
  · nlinarith

/-- `x' = x (x - 4)`, `V = 0.088 x⁴ - 1.056 x³ + 3.52 x²`, `XI = {5}`, level `1.1 * 10 = 11 = V 5`. -/
def exROALevel : Setup := ⟨.z3, 1, .ROA, [(XI, .rectangle [5] [5] none)], false, 3, false,
  ⟨1, [⟨[[1], [1], [1], [1]], none⟩, ⟨[[0, 88/25, -132/125, 11/125]], none⟩], [.polyN 4]⟩,
  [.mul (.var 0) (.sub (.var 0) (.const 4))], 10⟩

theorem exROALevel_value (p : Pt 1) : certValue exROALevel.rounding exROALevel.quad exROALevel.net p
    = 88/25 * p 0 ^ 2 - 132/125 * p 0 ^ 3 + 11/125 * p 0 ^ 4 := by
  have h1 : roundBy 3 1 = 1 := by decide +kernel
  have h0 : roundBy 3 0 = 0 := by decide +kernel
  have h2 : roundBy 3 (88/25) = 88/25 := by decide +kernel
  have h3 : roundBy 3 (-132/125) = -132/125 := by decide +kernel
  have h4 : roundBy 3 (11/125) = 11/125 := by decide +kernel
  simp [certValue, exROALevel, roundedNet, Net.forward, hiddenForward, roundedHidden, roundedLast, h1, h0, h2, h3,
    h4, Layer.apply, dotR, Act.forward, coordList, at?, bind, Except.bind, polyCat, polyParts, List.range_succ]
  ring

/-- C08 is false for trajectories that start exactly on the verified level without LLO: this setup is accepted,
yet the trajectory from the initial set leaves the sub-level set at once and stays outside the 0.01-ball. -/
theorem C08_level_start_escapes :
    SmoothSetup exROALevel ∧
    (∃ groups, queriesCT exROALevel = .ok groups ∧ Accepted exROALevel.nVars groups) ∧
    ∃ (T : ℝ) (ξ : ℝ → Pt 1), 0 < T ∧ Trajectory (field 1 exROALevel.f) T ξ ∧
      ξ 0 ∈ region 1 exROALevel.domains XI ∧
      (∀ t ∈ Icc 0 T, (1/100)^2 < normSq (ξ t)) ∧
      ∀ t ∈ Ioc 0 T, (exROALevel.beta : ℝ) * (11/10)
        < certValue exROALevel.rounding exROALevel.quad exROALevel.net (ξ t) := by
  have h1 : roundBy 3 1 = 1 := by decide +kernel
  have h0 : roundBy 3 0 = 0 := by decide +kernel
  have h2 : roundBy 3 (88/25) = 88/25 := by decide +kernel
  have h3 : roundBy 3 (-132/125) = -132/125 := by decide +kernel
  have h4 : roundBy 3 (11/125) = 11/125 := by decide +kernel
  have hu : ∀ t ∈ Icc (0:ℝ) (1/4), 1 ≤ Real.exp (4 * t) ∧ Real.exp (4 * t) < 3 := by
    intro t ht
    refine ⟨Real.one_le_exp (by linarith [ht.1]), ?_⟩
    have : Real.exp (4 * t) ≤ Real.exp 1 := Real.exp_le_exp.2 (by linarith [ht.2])
    linarith [Real.exp_one_lt_d9]
  have hx : ∀ t ∈ Icc (0:ℝ) (1/4), 5 ≤ 4 / (1 - Real.exp (4 * t) / 5) := by
    intro t ht
    obtain ⟨a, b⟩ := hu t ht
    rw [le_div_iff₀ (by linarith)]; linarith
  refine ⟨⟨Or.inl rfl, by intro e he; simp [exROALevel] at he; subst he; simp [WF, exROALevel, noSel], rfl,
    by intro a ha; simp [exROALevel] at ha; simp [ha]⟩,
    ⟨_, rfl, accepted_of_refuted (by simp [DistinctLabels, queries]) (single_refuted fun ρ h => ?_)⟩,
    1/4, fun t _ => 4 / (1 - Real.exp (4 * t) / 5), by norm_num, ?_, ?_, ?_, ?_⟩
  · simp [Formula.holds, Formula.conj, Term.eval, Term.sum, leZero, gtZero, factors, vars, h1, h0, h2, h3, h4,
      exROALevel, eyeJac, postVal, postGrad, gradTerms, hiddenBias, diagJac, polyCat, polyParts,
      List.range_succ] at h
    norm_num at h
    norm_cast at h
    set x := ρ 0
    rcases h with ⟨⟨a, b⟩, c⟩ | ⟨⟨a, b⟩, c | c⟩
    · have : x = 5 := le_antisymm b a
      rw [this] at c; norm_num at c
    · have : 0 < x ^ 2 * ((x - 6) ^ 2 + 4) := mul_pos (by linarith) (by positivity)
      nlinarith
    · have hx5 : 5 < x := by
        by_contra hc
        push Not at hc
        have : x ^ 2 * (x - 4) ^ 2 * (x - 5) ≤ 0 :=
          mul_nonpos_of_nonneg_of_nonpos (by positivity) (by linarith)
        nlinarith
      have : 0 < (x - 5) ^ 2 * (x ^ 2 - 2 * x - 5) := mul_pos (by nlinarith) (by nlinarith)
      nlinarith
  · intro t ht
    obtain ⟨a, b⟩ := hu t ht
    rw [hasDerivWithinAt_pi]
    intro i
    have e1 : HasDerivAt (fun t : ℝ => 1 - Real.exp (4 * t) / 5) (-(Real.exp (4 * t) * 4 / 5)) t := by
      have := (((hasDerivAt_id t).const_mul 4).exp.div_const 5).const_sub 1
      refine HasDerivAt.congr_deriv this ?_
      simp
    have e2 := (hasDerivAt_const t (4:ℝ)).div e1 (by linarith)
    refine HasDerivWithinAt.congr_deriv e2.hasDerivWithinAt ?_
    have hne : 1 - Real.exp (4 * t) / 5 ≠ 0 := by linarith
    simp only [field, exROALevel, Fin.isValue, List.getD_cons_zero, Fin.val_eq_zero, Term.eval, Pt.env]
    have hne' : 5 - Real.exp (4 * t) ≠ 0 := by linarith
    simp
    field_simp
    ring
  · simp [region, exROALevel, docSet, reals, coords, XI, Dict.get?]
    norm_num
  · intro t ht
    have := hx t ht
    simp only [normSq, Finset.univ_unique, Finset.sum_const, Finset.card_singleton, one_smul]
    nlinarith
  · intro t ht
    have h5 := hx t (Ioc_subset_Icc_self ht)
    have hgt : 5 < 4 / (1 - Real.exp (4 * t) / 5) := by
      obtain ⟨a, b⟩ := hu t (Ioc_subset_Icc_self ht)
      have : 1 < Real.exp (4 * t) := Real.one_lt_exp_iff.2 (by linarith [ht.1])
      rw [lt_div_iff₀ (by linarith)]; linarith
    rw [exROALevel_value]
    simp only [exROALevel]
    set x := 4 / (1 - Real.exp (4 * t) / 5)
    have : 0 < (x - 5) ^ 2 * (x ^ 2 - 2 * x - 5) := by
      apply mul_pos (by nlinarith) (by nlinarith)
    norm_num
    nlinarith

end Fossil

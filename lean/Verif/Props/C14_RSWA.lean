/-
C14, negation for RSWA, end to end: synthesis reports success although trajectories leave the goal again and again.
-/
import Verif.Props.C46_EndToEnd
import Mathlib.Analysis.SpecialFunctions.Trigonometric.Basic

namespace Fossil
open Spec Set

/-- The rotation `x' = -y, y' = x` with `C = y + 10 (x² + y²) - 5`, safe set the unit disc, goal `x ≥ -1/8`. -/
def rswaCfg : SynthCfg := ⟨.z3, 2, .RSWA,
  [(XD, .rectangle [-2, -2] [2, 2] none), (XI, .rectangle [1/5, -1/10] [2/5, 1/10] none),
    (XS, .sphere [0, 0] 1 none), (XSB, .sphere [0, 0] 1 none),
    (XG, .rectangle [-1/8, -2] [2, 2] none), (XGB, .rectangle [-1/8, -2] [2, 2] none)],
  false, 3, false, 10⟩

def rswaNet : Net := ⟨2, [⟨[[1, 0], [0, 1]], some [0, 1/20]⟩, ⟨[[10, 10]], some [-5 - 1/40]⟩], [.square]⟩

def rswaF : List Term := [.neg (.var 1), .var 0]

theorem rswa_refuted : ∃ groups, queriesCT (rswaCfg.setup rswaNet 0 rswaF) = .ok groups ∧ DistinctLabels groups ∧
    ∀ g ∈ groups, ∀ q ∈ g, ∀ ρ : Env, ¬ q.2.holds ρ := by
  have h1 : roundBy 3 1 = 1 := by decide +kernel
  have h0 : roundBy 3 0 = 0 := by decide +kernel
  have h2 : roundBy 3 10 = 10 := by decide +kernel
  have h3 : roundBy 3 (1/20) = 1/20 := by decide +kernel
  have h3' : roundBy 3 (20⁻¹) = 1/20 := by decide +kernel
  have h4 : List.range 2 = [0, 1] := rfl
  refine ⟨_, rfl, by simp [DistinctLabels, queries, XI, XU, XD], ?_⟩
  intro g hg q hq ρ h
  simp only [List.mem_cons, List.not_mem_nil, or_false] at hg
  rcases hg with rfl | rfl <;> simp only [List.mem_cons, List.not_mem_nil, or_false] at hq
  · rcases hq with rfl | rfl
    all_goals
      simp [Formula.holds, Formula.conj, Term.eval, Term.sum, leZero, geZero, gtZero, factors, vars, h1, h0,
        h2, h3', h4, rswaCfg, rswaNet, rswaF, SynthCfg.setup, eyeJac, postVal, postGrad, gradTerms, hiddenBias, diagJac] at h
      norm_num [h3] at h
      norm_cast at h
    · push_cast at h
      nlinarith [h.1.1]
    · push_cast at h
      nlinarith [h.1.1]
  · subst hq
    simp [Formula.holds, Formula.conj, Term.eval, Term.sum, leZero, geZero, gtZero, factors, vars, h1, h0,
      h2, h3', h4, rswaCfg, rswaNet, rswaF, SynthCfg.setup, eyeJac, postVal, postGrad, gradTerms, hiddenBias, diagJac, gamma] at h
    norm_num [h3] at h
    norm_cast at h
    push_cast at h
    obtain ⟨⟨a, b, e⟩, d⟩ := h
    have hx : -(1/8) ≤ ρ 0 := by nlinarith
    have hy : -2 ≤ ρ 1 ∧ ρ 1 ≤ 2 ∧ ρ 0 ≤ 2 := ⟨by nlinarith, by nlinarith, by nlinarith⟩
    linarith [e hx hy.1 hy.2.2, hy.2.1]

/-- **C14 is false for RSWA.** Synthesis of an RSWA certificate (with a perfect solver) reports success for the rotation,
although the trajectory `(3/10)(cos t, sin t)` starts in XI and keeps leaving the goal for ever: it is outside XG at all
times `π + 2πk`. The same certificate type spelled RSWS would have been subject to the stay check. -/
theorem C14_rswa_success_but_goal_left :
    (∃ out, Solves rswaCfg.loop (singleComponents (idealWorld _ rswaF) rswaCfg false (fun _ => .ok ((rswaNet, 0), ())))
      (rswaNet, 0) () [] out ∧ out.found = true) ∧
    ∃ ξ : ℝ → Pt 2, (∀ T, Trajectory (field 2 rswaF) T ξ) ∧ ξ 0 ∈ region 2 rswaCfg.domains XI ∧
      ∀ k : ℕ, ξ (Real.pi + k * (2 * Real.pi)) ∉ region 2 rswaCfg.domains XG := by
  constructor
  · obtain ⟨g, hq, hd, ha⟩ := rswa_refuted
    obtain ⟨out, h1, h2, -⟩ := C46_synthesis_succeeds rswaCfg rswaNet 0 rswaF g hq hd ha (by intro h; cases h)
    exact ⟨out, h1, h2⟩
  · refine ⟨fun t => ![3/10 * Real.cos t, 3/10 * Real.sin t], fun T t _ => ?_, ?_, fun k => ?_⟩
    · rw [hasDerivWithinAt_pi]
      intro i
      fin_cases i
      · refine HasDerivWithinAt.congr_deriv ((Real.hasDerivAt_cos t).const_mul (3/10)).hasDerivWithinAt ?_
        simp [field, rswaF, Term.eval, Pt.env]
      · refine HasDerivWithinAt.congr_deriv ((Real.hasDerivAt_sin t).const_mul (3/10)).hasDerivWithinAt ?_
        simp [field, rswaF, Term.eval, Pt.env]
    · simp [region, rswaCfg, docSet, reals, coords, XI, XD, Dict.get?]
      norm_num
    · simp [region, rswaCfg, docSet, reals, coords, XI, XD, XS, XSB, XG, Dict.get?]
      norm_num

end Fossil

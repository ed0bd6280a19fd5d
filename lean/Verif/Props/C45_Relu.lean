/-
C45: what an accepted barrier certificate with ReLU units does guarantee.
-/
import Verif.Props.C09_Barrier
import Verif.Lemmas.Continuity

namespace Fossil
open Spec Set Filter Topology

/-- Strict fencing with differentiability only where the level is attained. -/
theorem fence_lt_cont {g : ℝ → ℝ} {a b c : ℝ} (hc : ContinuousOn g (Icc a b)) (h0 : g a < c)
    (hb : ∀ t ∈ Icc a b, g t = c → ∃ d < 0, HasDerivWithinAt g d (Icc a b) t) : ∀ t ∈ Icc a b, g t < c := by
  intro t ht
  by_contra hlt
  rw [not_lt] at hlt
  -- the first time at which the level is attained
  let S : Set ℝ := {s | s ∈ Icc a t ∧ c ≤ g s}
  have hsub : Icc a t ⊆ Icc a b := Icc_subset_Icc_right ht.2
  have hS : IsClosed S := by
    have := (hc.mono hsub).preimage_isClosed_of_isClosed isClosed_Icc (isClosed_Ici (a := c))
    exact this
  have hne : S.Nonempty := ⟨t, ⟨ht.1, le_rfl⟩, hlt⟩
  have hbd : BddBelow S := ⟨a, fun s hs => hs.1.1⟩
  have hm : sInf S ∈ S := hS.csInf_mem hne hbd
  set τ := sInf S with hτ
  have hbefore : ∀ s ∈ Ico a τ, g s < c := by
    intro s hs
    by_contra h
    have : τ ≤ s := csInf_le hbd ⟨⟨hs.1, hs.2.le.trans hm.1.2⟩, not_lt.1 h⟩
    exact absurd hs.2 (not_lt.2 this)
  have haτ : a < τ := by
    refine lt_of_le_of_ne hm.1.1 fun e => ?_
    have := hm.2
    rw [← e] at this
    exact absurd h0 (not_lt.2 this)
  have heq : g τ = c := by
    refine le_antisymm ?_ hm.2
    have hcw : ContinuousWithinAt g (Ico a τ) τ :=
      (hc τ (hsub hm.1)).mono (Ico_subset_Icc_self.trans (Icc_subset_Icc_right (hm.1.2.trans ht.2)))
    haveI : (𝓝[Ico a τ] τ).NeBot := by rw [nhdsWithin_Ico_eq_nhdsLT haτ]; infer_instance
    refine le_of_tendsto hcw ?_
    filter_upwards [self_mem_nhdsWithin] with s hs
    exact (hbefore s hs).le
  obtain ⟨d, hd, hder⟩ := hb τ (hsub hm.1) heq
  have h1 : HasDerivWithinAt g d (Icc a τ) τ := hder.mono (Icc_subset_Icc_right (hm.1.2.trans ht.2))
  have h2 := left_deriv_nonneg haτ h1 (fun s hs => by rw [heq]; exact (hbefore s hs).le)
  exact absurd hd (not_lt.2 h2)

/-- **C45, the part that holds.** For a network with any activations, ReLU included: if no ReLU unit has its kink at a point of the
domain where the certificate is zero, acceptance implies safety. (Missing from the full claim: certificates with a kink on the zero
level, for which it is false by `C45_relu_barrier_unsound`.) -/
theorem C45_relu_barrier_safety_partial (s : Setup) (hlib : s.lib = .z3 ∨ s.lib = .dreal) (hw : WFDomains s.nVars s.domains)
    (hn : s.net.inputSize = s.nVars) (hc : s.cert = .BARRIER) (groups)
    (hq : queriesCT s = .ok groups) (ha : Accepted s.nVars groups)
    (hk : ∀ p ∈ region s.nVars s.domains XD, certValue s.rounding s.quad s.net p = 0 →
      noKink (roundedNet s.rounding s.net).layers.dropLast s.net.acts (coordList p))
    (T : ℝ) (ξ : ℝ → Pt s.nVars) (hξ : Trajectory (field s.nVars s.f) T ξ)
    (h0 : ξ 0 ∈ region s.nVars s.domains XI) (hin : ∀ t ∈ Icc 0 T, ξ t ∈ region s.nVars s.domains XD) :
    ∀ t ∈ Icc 0 T, ξ t ∉ region s.nVars s.domains XU := by
  obtain ⟨d, V, Vdot, h1, h2, h3⟩ := queriesCT_inv hq
  rw [hc] at h3
  obtain ⟨dom, init, un, hd, hi, hu, H1, H2, H3⟩ :=
    barrier_inv (n := s.nVars) h3 (accepted_refutes (barrier_distinct h3) ha)
  have h1' := initialise_single h1 (by simp [hc])
  have rD := entry_region hlib hw h1' (by decide) hd
  have rI := entry_region hlib hw h1' (by decide) hi
  have rU := entry_region hlib hw h1' (by decide) hu
  intro t ht hU
  have h00 : (0:ℝ) ∈ Icc 0 T := ⟨le_rfl, ht.1.trans ht.2⟩
  have := fence_lt_cont (c := 0) (g := fun τ => certValue s.rounding s.quad s.net (ξ τ))
    ((continuous_certValue _ _ _ _).comp_continuousOn (traj_cont hξ))
    (by show _ < _; rw [← certValue_eq h2]; exact H1 _ ((rI _).2 h0) ((rD _).2 (hin 0 h00)))
    (fun r hr e => by
      refine ⟨Vdot.eval (ξ r).env, H3 _ ((rD _).2 (hin r hr)) (by rw [certValue_eq h2]; exact e), ?_⟩
      have := C17_lie_derivative s.lib s.rounding s.quad s.net s.nVars s.f V Vdot h2 hn (ξ r) (hk _ (hin r hr) e) ξ _ r rfl (hξ r hr)
      simpa only [certValue_eq h2] using this) t ht
  have h4 := H2 _ ((rU _).2 hU) ((rD _).2 (hin t ht))
  rw [certValue_eq h2] at h4
  linarith

/-- `x' = -1` with the ReLU network `relu(x) - relu(-x)`, shifted by the output bias: `B(x) = x - 1`, kink at `x = 0`, zero at `x = 1`. -/
def exReluSafe : Setup := ⟨.z3, 1, .BARRIER,
  [(XD, .rectangle [-5] [5] none), (XI, .rectangle [-2] [-1] none), (XU, .rectangle [2] [3] none)],
  false, 3, false,
  ⟨1, [⟨[[1], [-1]], some [0, 0]⟩, ⟨[[1, -1]], some [-1]⟩], [.relu]⟩, [.const (-1)], 0⟩

/-- The hypotheses of `C45_relu_barrier_safety_partial` are met by an accepted ReLU certificate that does have a kink in the domain. -/
example : (∃ groups, queriesCT exReluSafe = .ok groups ∧ Accepted 1 groups) ∧ WFDomains 1 exReluSafe.domains ∧
    (∀ p ∈ region 1 exReluSafe.domains XD, certValue exReluSafe.rounding exReluSafe.quad exReluSafe.net p = 0 →
      noKink (roundedNet exReluSafe.rounding exReluSafe.net).layers.dropLast exReluSafe.net.acts (coordList p)) ∧
    (∃ p ∈ region 1 exReluSafe.domains XD,
      ¬ noKink (roundedNet exReluSafe.rounding exReluSafe.net).layers.dropLast exReluSafe.net.acts (coordList p)) := by
  have h1 : roundBy 3 1 = 1 := by decide +kernel
  have h0 : roundBy 3 0 = 0 := by decide +kernel
  have h4 : roundBy 3 (-1) = -1 := by decide +kernel
  refine ⟨⟨_, rfl, accepted_of_refuted (by simp [DistinctLabels, queries, XI, XU, XD]) ?_⟩, ?_, ?_, ?_⟩
  · intro g hg q hq ρ h
    simp only [List.mem_cons, List.not_mem_nil, or_false] at hg
    rcases hg with rfl | rfl <;> simp only [List.mem_cons, List.not_mem_nil, or_false] at hq
    · rcases hq with rfl | rfl
      all_goals
        simp [Formula.holds, Formula.conj, Term.eval, Term.sum, leZero, geZero, gtZero, factors, vars, h1, h0,
          h4, Fn.eval, exReluSafe, eyeJac, postVal, postGrad, gradTerms, hiddenBias, diagJac] at h
        norm_num at h
      · have := le_max_right (-ρ 0) 0
        rcases h.1.1 with h | h <;> linarith
      · have := h.1.1.1
        rw [max_eq_right (by linarith)] at this
        linarith
    · subst hq
      simp [Formula.holds, Formula.conj, Term.eval, Term.sum, leZero, geZero, gtZero, factors, vars, h1, h0,
          h4, Fn.eval, exReluSafe, eyeJac, postVal, postGrad, gradTerms, hiddenBias, diagJac] at h
      obtain ⟨⟨a, b⟩, c, d⟩ := h
      have hx : 0 < ρ 0 := by
        by_contra hle
        rw [max_eq_right (by linarith), max_eq_left (by linarith)] at a; linarith
      norm_num [hx, not_lt.2 hx.le] at b
  · intro e he; simp [exReluSafe] at he
    rcases he with rfl | rfl | rfl <;> simp [WF, noSel]
  · intro p _ hz
    simp [certValue, exReluSafe, roundedNet, roundedHidden, roundedLast, h1, h0, h4, Net.forward, hiddenForward, Layer.apply, dotR,
      Act.forward, coordList, at?, Bind.bind, Except.bind] at hz
    simp [exReluSafe, roundedNet, roundedHidden, roundedLast, h1, h0, h4, noKink, Layer.apply, dotR, coordList]
    intro e
    rw [e] at hz
    norm_num at hz
  · refine ⟨fun _ => 0, ?_, ?_⟩
    · simp [region, exReluSafe, docSet, reals, coords, XI, XD, Dict.get?]
    · simp [exReluSafe, roundedNet, roundedHidden, roundedLast, h1, h0, h4, noKink, Layer.apply, dotR, coordList]

end Fossil

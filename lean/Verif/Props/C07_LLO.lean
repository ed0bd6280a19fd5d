/-
C07: skipping the positivity query under last-layer-ones.
-/
import Verif.Lemmas.LLO
import Verif.Props.C05_Lyapunov

namespace Fossil
open Spec Set

/-- Training keeps the last layer non-negative: the projection applied after each optimiser step. -/
theorem makeFinalPositive_nonneg (ls : List Layer) :
    ∀ l, (makeFinalPositive ls).getLast? = some l → ∀ r ∈ l.weight, ∀ c ∈ r, 0 ≤ c := by
  intro l hl
  match ls with
  | [] => simp [makeFinalPositive] at hl
  | [a] =>
    simp only [makeFinalPositive, List.getLast?_singleton, Option.some.injEq] at hl
    subst hl
    intro r hr c hc
    simp only [List.mem_map] at hr
    obtain ⟨r', _, rfl⟩ := hr
    obtain ⟨c', _, rfl⟩ := List.mem_map.1 hc
    exact abs_nonneg _
  | a :: b :: ls =>
    have hne : makeFinalPositive (b :: ls) ≠ [] := by cases ls <;> simp [makeFinalPositive]
    refine makeFinalPositive_nonneg (b :: ls) l ?_
    simp only [makeFinalPositive] at hl
    rwa [List.getLast?_cons_of_ne_nil hne] at hl
  termination_by ls.length

/-- **C07 (continuous time).** With LLO and a network that passes the positive-definiteness test (last
activation non-negative, no output bias) and has non-negative output weights, an accepted Lyapunov
certificate is positive at every state of the domain other than the origin, although the solver was never
asked. No smoothness is required. -/
theorem C07_llo_positive_ct (s : Setup) (hlib : s.lib = .z3 ∨ s.lib = .dreal)
    (hw : WFDomains s.nVars s.domains) (hc : s.cert = .LYAPUNOV) (hp : PDNet s.net) (groups)
    (hq : queriesCT s = .ok groups) (ha : Accepted s.nVars groups)
    (p : Pt s.nVars) (hin : p ∈ region s.nVars s.domains XD) (h0 : p ≠ 0) :
    0 < certValue s.rounding s.quad s.net p := by
  obtain ⟨d, V, Vdot, h1, h2, h3⟩ := queriesCT_inv hq
  rw [hc] at h3
  obtain ⟨dom, hd, H⟩ := lyap_inv h3 ha
  have h1' := initialise_single h1 (by simp [hc])
  have hL := (H p ((entry_region hlib hw h1' (by decide) hd p).2 hin) h0).2
  obtain ⟨hn, hz⟩ := pd_ct hp h2 p
  rw [← certValue_eq h2]
  refine lt_of_le_of_ne hn fun e => ?_
  have := hz e.symm h0
  linarith

/-- **C07 (discrete time).** -/
theorem C07_llo_positive_dt (s : Setup) (hlib : s.lib = .z3 ∨ s.lib = .dreal)
    (hw : WFDomains s.nVars s.domains) (hlen : s.f.length = s.nVars) (hquad : s.quad = false)
    (hc : s.cert = .LYAPUNOV) (hp : PDNet s.net) (groups)
    (hq : queriesDT s = .ok groups) (ha : Accepted s.nVars groups)
    (p : Pt s.nVars) (hin : p ∈ region s.nVars s.domains XD) (h0 : p ≠ 0) :
    0 < certValue s.rounding s.quad s.net p := by
  obtain ⟨d, V, D, h1, h2, h3⟩ := queriesDT_inv hq
  rw [hc] at h3
  obtain ⟨dom, hd, H⟩ := lyap_inv h3 ha
  have h1' := initialise_single h1 (by simp [hc])
  have hL := (H p ((entry_region hlib hw h1' (by decide) hd p).2 hin) h0).2
  rw [hquad] at h2
  obtain ⟨e1, e2⟩ := certValue_eqDT (quad := s.quad) hlen h2 p hquad
  have hn := pd_dt hp h2 (field s.nVars s.f p).env
  rw [(certValue_eqDT (quad := s.quad) hlen h2 (field s.nVars s.f p) hquad).1] at hn
  rw [e2] at hL
  linarith

/-- Non-vacuity: the square network is a PD network, and its LLO queries are accepted. -/
example : PDNet exLyap.net :=
  ⟨rfl, rfl, by intro l hl; simp [exLyap] at hl; subst hl; simp⟩

example : ∃ groups, queriesCT { exLyap with llo := true } = .ok groups ∧ Accepted 1 groups := by
  refine ⟨_, rfl, accepted_of_refuted (by simp [DistinctLabels, queries]) ?_⟩
  have h1 : roundBy 3 1 = 1 := by decide +kernel
  intro g hg q hq ρ h
  simp only [List.mem_singleton] at hg
  subst hg
  simp only [List.mem_singleton] at hq
  subst hq
  simp [Formula.holds, Formula.conj, Term.eval, Term.sum, leZero, geZero, factors, vars, h1, exLyap, eyeJac, postVal,
    postGrad, gradTerms, hiddenBias, diagJac] at h
  have h2 := mul_self_pos.2 h.2.2
  have h3 := h.2.1
  norm_num at h3; nlinarith

/-- The setup of the next theorem: LLO with an identity activation, `x' = -1`, `V = x`. -/
def exLLOBad : Setup := ⟨.z3, 1, .LYAPUNOV, [(XD, .rectangle [-1] [1] none)], true, 3, false,
  ⟨1, [⟨[[1]], none⟩, ⟨[[1]], none⟩], [.identity]⟩, [.const (-1)], 0⟩

/-- C07, the defect: with LLO and a last activation that is *not* in the list, the constructor only issues a
warning; the positivity query is skipped all the same, and a function that is negative on half the domain is
accepted as Lyapunov function. -/
theorem C07_warning_only_unsound :
    lloWarning exLLOBad.llo exLLOBad.net = .ok true ∧
    (∃ groups, queriesCT exLLOBad = .ok groups ∧ Accepted exLLOBad.nVars groups) ∧
    ∃ p ∈ region 1 exLLOBad.domains XD, p ≠ 0 ∧ certValue exLLOBad.rounding exLLOBad.quad exLLOBad.net p < 0 := by
  have h1 : roundBy 3 1 = 1 := by decide +kernel
  refine ⟨rfl, ⟨_, rfl, accepted_of_refuted (by simp [DistinctLabels, queries]) ?_⟩, ?_⟩
  · intro g hg q hq ρ h
    simp only [List.mem_singleton] at hg
    subst hg
    simp only [List.mem_singleton] at hq
    subst hq
    simp [Formula.holds, Formula.conj, Term.eval, Term.sum, geZero, factors, vars, h1, exLLOBad, eyeJac,
      postGrad, gradTerms, diagJac, one, hiddenBias] at h
    norm_num at h
  · refine ⟨fun _ => -1/2, ?_, fun h => ?_, ?_⟩
    · simp [region, exLLOBad, docSet, reals, coords, XD, Dict.get?]
      norm_num
    · have := congrFun h 0; norm_num at this
    · simp [certValue, exLLOBad, roundedNet, Net.forward, hiddenForward, roundedHidden, roundedLast, h1,
        Layer.apply, dotR, Act.forward, coordList, at?, bind, Except.bind]
      norm_num

end Fossil

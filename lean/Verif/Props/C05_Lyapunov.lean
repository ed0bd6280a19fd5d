/-
C05-C07: Lyapunov certificates.
-/
import Verif.Lemmas.Pipeline
import Verif.Lemmas.Calc
import Verif.Props.C18_Discrete

namespace Fossil
open Spec Set

/-- A solver that knows the truth: refutes exactly the formulas without real solutions. Used to exhibit
accepted queries. -/
theorem accepted_of_refuted {n : ℕ} {groups : List (Dict String Formula)} (hd : DistinctLabels groups)
    (h : ∀ g ∈ groups, ∀ q ∈ g, ∀ ρ : Env, ¬ q.2.holds ρ) : Accepted n groups := by
  classical
  let o : Oracle Answer := fun _ φ => if ∀ ρ : Env, ¬ φ.holds ρ then .unsat else .unknown
  have hs : RefutationSound o := by
    intro k φ e
    by_contra hc
    simp only [o, if_neg hc] at e
    cases e
  obtain ⟨cex, hv⟩ := (C01_found_iff_every_query_unsat n (fun _ _ _ => 0) o groups hd).2 (by
    intro k hk
    have hmem : (queries groups)[k] ∈ queries groups := List.getElem_mem hk
    obtain ⟨g, hg, hq⟩ := List.mem_flatten.1 hmem
    simp only [o, if_pos (h g hg _ hq)])
  exact .z3 _ o cex hs hv

/-- Hypotheses of the Lyapunov theorems unfolded. -/
theorem lyap_inv {n : ℕ} {llo : Bool} {d : Dict String Formula} {V Vdot : Term} {groups}
    (h : lyapunovConstraints n llo d V Vdot = .ok groups) (ha : Accepted n groups) :
    ∃ dom, Dict.getE d XD = .ok dom ∧ ∀ p : Pt n, dom.holds p.env → p ≠ 0 →
      (llo = false → 0 < V.eval p.env) ∧ Vdot.eval p.env < 0 := by
  unfold lyapunovConstraints at h
  simp only [bind, Except.bind] at h
  split at h
  · cases h
  rename_i dom hdom
  cases h
  refine ⟨dom, hdom, fun p hp h0 => ?_⟩
  have := accepted_refutes (by simp [DistinctLabels, queries]) ha _ (List.mem_singleton_self _) _
    (List.mem_singleton_self _) p.env
  simp only [Formula.holds, origin_holds, not_and, not_not] at this
  have h1 := this hp
  cases llo with
  | true =>
    refine ⟨by simp, ?_⟩
    by_contra hc
    exact h0 (h1 (by simpa [geZero, Formula.holds, Term.eval] using hc))
  | false =>
    constructor
    · intro _
      by_contra hc
      exact h0 (h1 (Or.inl (by simpa [leZero, Formula.holds, Term.eval] using hc)))
    · by_contra hc
      exact h0 (h1 (Or.inr (by simpa [geZero, Formula.holds, Term.eval] using hc)))

/-- **C05.** An accepted Lyapunov certificate satisfies, at every state of the domain except the origin: it is
positive (when positivity is checked, i.e. without LLO), and its derivative along the dynamics is negative.
`L` is the derivative of the certificate along the dynamics wherever no ReLU unit is exactly at its kink. -/
theorem C05_lyapunov_conditions (s : Setup) (hlib : s.lib = .z3 ∨ s.lib = .dreal)
    (hw : WFDomains s.nVars s.domains) (hsz : s.net.inputSize = s.nVars) (hc : s.cert = .LYAPUNOV) (groups)
    (hq : queriesCT s = .ok groups) (ha : Accepted s.nVars groups) :
    ∃ L : Pt s.nVars → ℝ,
      (∀ p, noKink (roundedNet s.rounding s.net).layers.dropLast s.net.acts (coordList p) →
        IsLieDerivAt (field s.nVars s.f) (certValue s.rounding s.quad s.net) L p) ∧
      ∀ p ∈ region s.nVars s.domains XD, p ≠ 0 →
        (s.llo = false → 0 < certValue s.rounding s.quad s.net p) ∧ L p < 0 := by
  obtain ⟨d, V, Vdot, h1, h2, h3⟩ := queriesCT_inv hq
  rw [hc] at h3
  obtain ⟨dom, hd, H⟩ := lyap_inv h3 ha
  have h1' := initialise_single h1 (by simp [hc])
  refine ⟨fun q => Vdot.eval q.env, fun p hk => ?_, fun p hp h0 => ?_⟩
  · have := C17_lie_derivative s.lib s.rounding s.quad s.net s.nVars s.f V Vdot h2 hsz p hk
    have e : (fun q : Pt s.nVars => V.eval q.env) = certValue s.rounding s.quad s.net :=
      funext (certValue_eq h2)
    rwa [e] at this
  · have := H p ((entry_region hlib hw h1' (by decide) hd p).2 hp) h0
    rwa [certValue_eq h2] at this

/-- **C06 (continuous time).** Along every trajectory that stays in the domain and away from the origin, an
accepted Lyapunov certificate strictly decreases. -/
theorem C06_decreases_along_trajectories (s : Setup) (hs : SmoothSetup s) (hc : s.cert = .LYAPUNOV) (groups)
    (hq : queriesCT s = .ok groups) (ha : Accepted s.nVars groups)
    (T : ℝ) (ξ : ℝ → Pt s.nVars) (hξ : Trajectory (field s.nVars s.f) T ξ)
    (hin : ∀ t ∈ Icc 0 T, ξ t ∈ region s.nVars s.domains XD ∧ ξ t ≠ 0) :
    StrictAntiOn (fun t => certValue s.rounding s.quad s.net (ξ t)) (Icc 0 T) := by
  obtain ⟨d, V, Vdot, h1, h2, h3⟩ := queriesCT_inv hq
  rw [hc] at h3
  obtain ⟨dom, hd, H⟩ := lyap_inv h3 ha
  have h1' := initialise_single h1 (by simp [hc])
  refine strictAnti_of (traj_deriv h2 hs.size hs.smooth hξ) fun t ht => ?_
  have ht' := Ioo_subset_Icc_self ht
  exact (H _ ((entry_region hs.lib hs.sets h1' (by decide) hd _).2 (hin t ht').1) (hin t ht').2).2

/-- The value of the discrete translator's certificate formula. -/
theorem certValue_eqDT {lib rnd quad} {net : Net} {n : ℕ} {f : List Term} {V D : Term}
    (hl : f.length = n) (h : translateDT lib rnd false net (vars n) f = .ok (V, D)) (p : Pt n)
    (hq : quad = false) :
    V.eval p.env = certValue rnd quad net p ∧
      D.eval p.env = certValue rnd quad net (field n f p) - certValue rnd quad net p := by
  subst hq
  obtain ⟨⟨y, h1, h2⟩, h3⟩ := C18_one_step_difference_partial lib rnd net n f V D hl h p
  obtain ⟨⟨y', h1', h2'⟩, _⟩ := C18_one_step_difference_partial lib rnd net n f V D hl h (field n f p)
  simp [certValue, h1, h2, h3, h1', h2']

/-- **C06 (discrete time, no factors).** At every step of every run from a state of the domain other than the
origin, an accepted discrete-time Lyapunov certificate strictly decreases; and it is positive there (without
LLO). -/
theorem C06_decreases_along_runs (s : Setup) (hlib : s.lib = .z3 ∨ s.lib = .dreal)
    (hw : WFDomains s.nVars s.domains) (hlen : s.f.length = s.nVars) (hquad : s.quad = false)
    (hc : s.cert = .LYAPUNOV) (groups)
    (hq : queriesDT s = .ok groups) (ha : Accepted s.nVars groups)
    (x : ℕ → Pt s.nVars) (hx : IsRun (field s.nVars s.f) x) (k : ℕ)
    (hin : x k ∈ region s.nVars s.domains XD) (h0 : x k ≠ 0) :
    certValue s.rounding s.quad s.net (x (k + 1)) < certValue s.rounding s.quad s.net (x k) ∧
      (s.llo = false → 0 < certValue s.rounding s.quad s.net (x k)) := by
  obtain ⟨d, V, D, h1, h2, h3⟩ := queriesDT_inv hq
  rw [hc] at h3
  obtain ⟨dom, hd, H⟩ := lyap_inv h3 ha
  have h1' := initialise_single h1 (by simp [hc])
  rw [hquad] at h2
  obtain ⟨e1, e2⟩ := certValue_eqDT (quad := s.quad) hlen h2 (x k) hquad
  have := H _ ((entry_region hlib hw h1' (by decide) hd _).2 hin) h0
  rw [e1, e2] at this
  rw [hx k]
  exact ⟨by linarith [this.2], this.1⟩

/-- A concrete setup: `x' = -x` on `[-1, 1]`, `V = x²` from a one-neuron square network. -/
def exLyap : Setup := ⟨.z3, 1, .LYAPUNOV, [(XD, .rectangle [-1] [1] none)], false, 3, false,
  ⟨1, [⟨[[1]], none⟩, ⟨[[1]], none⟩], [.square]⟩, [.neg (.var 0)], 0⟩

/-- The same network for the discrete system `x⁺ = x / 2`. -/
def exLyapDT : Setup := { exLyap with f := [.mul (.const (1/2)) (.var 0)] }

theorem exLyap_smooth : SmoothSetup exLyap :=
  ⟨Or.inl rfl, by intro e he; simp [exLyap] at he; subst he; simp [WF, exLyap, noSel], rfl,
    by intro a ha; simp [exLyap] at ha; simp [ha]⟩

theorem exLyap_accepted : ∃ groups, queriesCT exLyap = .ok groups ∧ Accepted exLyap.nVars groups := by
  refine ⟨_, rfl, accepted_of_refuted (by simp [DistinctLabels, queries]) ?_⟩
  have h1 : roundBy 3 1 = 1 := by decide +kernel
  have h0 : roundBy 3 0 = 0 := by decide +kernel
  intro g hg q hq ρ h
  simp only [List.mem_singleton] at hg
  subst hg
  simp only [List.mem_singleton] at hq
  subst hq
  simp [Formula.holds, Formula.conj, Term.eval, Term.sum, leZero, geZero, factors, vars, h1, exLyap, eyeJac, postVal,
    postGrad, gradTerms, hiddenBias, diagJac] at h
  have h2 := mul_self_pos.2 h.2.2
  rcases h.2.1 with h3 | h3
  · norm_cast at h3; nlinarith
  · norm_num at h3; nlinarith

theorem exLyapDT_accepted : ∃ groups, queriesDT exLyapDT = .ok groups ∧ Accepted exLyapDT.nVars groups := by
  refine ⟨_, rfl, accepted_of_refuted (by simp [DistinctLabels, queries]) ?_⟩
  have h1 : roundBy 3 1 = 1 := by decide +kernel
  intro g hg q hq ρ h
  simp only [List.mem_singleton] at hg
  subst hg
  simp only [List.mem_singleton] at hq
  subst hq
  simp [Formula.holds, Formula.conj, Term.eval, Term.sum, leZero, geZero, factors, vars, h1, exLyapDT, exLyap,
    hiddenBias] at h
  have h2 := mul_self_pos.2 h.2.2
  rcases h.2.1 with h3 | h3 <;> norm_cast at h3 <;> nlinarith

/-- Non-vacuity of C05/C06: hypotheses met, with a genuine trajectory `e^{-t}` in the domain. -/
example : SmoothSetup exLyap ∧ exLyap.cert = .LYAPUNOV ∧
    (∃ groups, queriesCT exLyap = .ok groups ∧ Accepted exLyap.nVars groups) ∧
    Trajectory (field 1 exLyap.f) 1 (fun t _ => Real.exp (-t)) ∧
    ∀ t ∈ Icc (0:ℝ) 1, (fun _ => Real.exp (-t) : Pt 1) ∈ region 1 exLyap.domains XD ∧
      (fun _ => Real.exp (-t) : Pt 1) ≠ 0 := by
  refine ⟨exLyap_smooth, rfl, exLyap_accepted, ?_, ?_⟩
  · intro t _
    rw [hasDerivWithinAt_pi]
    intro i
    have : HasDerivAt (fun t : ℝ => Real.exp (-t)) (Real.exp (-t) * (-1)) t :=
      (hasDerivAt_neg t).exp
    refine HasDerivWithinAt.congr_deriv this.hasDerivWithinAt ?_
    simp [field, exLyap, Term.eval, Pt.env]
  · intro t ht
    refine ⟨?_, fun h => (Real.exp_pos (-t)).ne' (congrFun h 0)⟩
    have h1 := Real.exp_pos (-t)
    have h2 : Real.exp (-t) ≤ 1 := Real.exp_le_one_iff.2 (by linarith [ht.1])
    simp [region, exLyap, docSet, reals, coords, XD, Dict.get?]
    constructor <;> linarith [ht.1]

end Fossil

/-
C09-C11: barrier certificates imply safety; C45: they do not for ReLU networks.
-/
import Verif.Props.C08_ROA

namespace Fossil
open Spec Set

/-- What acceptance of the barrier queries gives, pointwise. -/
theorem barrier_inv {n : ℕ} {d : Dict String Formula} {B Bdot : Term} {groups}
    (h : barrierConstraints d B Bdot = .ok groups)
    (ha : ∀ g ∈ groups, ∀ q ∈ g, ∀ ρ : Env, ¬ q.2.holds ρ) :
    ∃ dom init unsafe_, Dict.getE d XD = .ok dom ∧ Dict.getE d XI = .ok init ∧ Dict.getE d XU = .ok unsafe_ ∧
      (∀ p : Pt n, init.holds p.env → dom.holds p.env → B.eval p.env < 0) ∧
      (∀ p : Pt n, unsafe_.holds p.env → dom.holds p.env → 0 < B.eval p.env) ∧
      (∀ p : Pt n, dom.holds p.env → B.eval p.env = 0 → Bdot.eval p.env < 0) := by
  unfold barrierConstraints at h
  simp only [bind, Except.bind] at h
  split at h
  · cases h
  rename_i dom hdom
  split at h
  · cases h
  rename_i init hinit
  split at h
  · cases h
  rename_i un hun
  cases h
  have H1 := ha _ (List.mem_cons_self ..) _ (List.mem_cons_self ..)
  have H2 := ha _ (List.mem_cons_self ..) _ (List.mem_cons_of_mem _ (List.mem_cons_self ..))
  have H3 := ha _ (List.mem_cons_of_mem _ (List.mem_cons_self ..)) _ (List.mem_cons_self ..)
  simp only [Formula.holds, geZero, leZero, Term.eval, Rat.cast_zero] at H1 H2 H3
  refine ⟨dom, init, un, hdom, hinit, hun, fun p a b => ?_, fun p a b => ?_, fun p a b => ?_⟩
  · by_contra hc; exact H1 p.env ⟨⟨not_lt.1 hc, a⟩, b⟩
  · by_contra hc; exact H2 p.env ⟨⟨not_lt.1 hc, a⟩, b⟩
  · by_contra hc; exact H3 p.env ⟨⟨b, not_lt.1 hc⟩, a⟩

theorem barrierAlt_inv {n : ℕ} {d : Dict String Formula} {B Bdot : Term} {groups}
    (h : barrierAltConstraints d B Bdot = .ok groups)
    (ha : ∀ g ∈ groups, ∀ q ∈ g, ∀ ρ : Env, ¬ q.2.holds ρ) :
    ∃ dom init unsafe_, Dict.getE d XD = .ok dom ∧ Dict.getE d XI = .ok init ∧ Dict.getE d XU = .ok unsafe_ ∧
      (∀ p : Pt n, init.holds p.env → dom.holds p.env → B.eval p.env < 0) ∧
      (∀ p : Pt n, unsafe_.holds p.env → dom.holds p.env → 0 < B.eval p.env) ∧
      (∀ p : Pt n, dom.holds p.env → Bdot.eval p.env ≤ 0) := by
  unfold barrierAltConstraints at h
  simp only [bind, Except.bind] at h
  split at h
  · cases h
  rename_i dom hdom
  split at h
  · cases h
  rename_i init hinit
  split at h
  · cases h
  rename_i un hun
  cases h
  have H1 := ha _ (List.mem_cons_self ..) _ (List.mem_cons_self ..)
  have H2 := ha _ (List.mem_cons_self ..) _ (List.mem_cons_of_mem _ (List.mem_cons_self ..))
  have H3 := ha _ (List.mem_cons_of_mem _ (List.mem_cons_self ..)) _ (List.mem_cons_self ..)
  simp only [Formula.holds, geZero, leZero, gtZero, Term.eval, Rat.cast_zero] at H1 H2 H3
  refine ⟨dom, init, un, hdom, hinit, hun, fun p a b => ?_, fun p a b => ?_, fun p a => ?_⟩
  · by_contra hc; exact H1 p.env ⟨⟨not_lt.1 hc, a⟩, b⟩
  · by_contra hc; exact H2 p.env ⟨⟨not_lt.1 hc, a⟩, b⟩
  · by_contra hc; exact H3 p.env ⟨not_le.1 hc, a⟩

theorem barrier_distinct {d : Dict String Formula} {B Bdot : Term} {groups}
    (h : barrierConstraints d B Bdot = .ok groups) : DistinctLabels groups := by
  unfold barrierConstraints at h
  simp only [bind, Except.bind] at h
  split at h
  · cases h
  split at h
  · cases h
  split at h
  · cases h
  cases h
  simp [DistinctLabels, queries, XI, XU, XD]

theorem barrierAlt_distinct {d : Dict String Formula} {B Bdot : Term} {groups}
    (h : barrierAltConstraints d B Bdot = .ok groups) : DistinctLabels groups := by
  unfold barrierAltConstraints at h
  simp only [bind, Except.bind] at h
  split at h
  · cases h
  split at h
  · cases h
  split at h
  · cases h
  cases h
  simp [DistinctLabels, queries, XI, XU, XD]

/-- **C09.** An accepted barrier certificate implies safety: no trajectory that starts in the initial set and
stays in the domain reaches the unsafe set, at any time. -/
theorem C09_barrier_safety (s : Setup) (hs : SmoothSetup s) (hc : s.cert = .BARRIER) (groups)
    (hq : queriesCT s = .ok groups) (ha : Accepted s.nVars groups)
    (T : ℝ) (ξ : ℝ → Pt s.nVars) (hξ : Trajectory (field s.nVars s.f) T ξ)
    (h0 : ξ 0 ∈ region s.nVars s.domains XI) (hin : ∀ t ∈ Icc 0 T, ξ t ∈ region s.nVars s.domains XD) :
    ∀ t ∈ Icc 0 T, ξ t ∉ region s.nVars s.domains XU := by
  obtain ⟨d, V, Vdot, h1, h2, h3⟩ := queriesCT_inv hq
  rw [hc] at h3
  obtain ⟨dom, init, un, hd, hi, hu, H1, H2, H3⟩ :=
    barrier_inv (n := s.nVars) h3 (accepted_refutes (barrier_distinct h3) ha)
  have h1' := initialise_single h1 (by simp [hc])
  have rD := entry_region hs.lib hs.sets h1' (by decide) hd
  have rI := entry_region hs.lib hs.sets h1' (by decide) hi
  have rU := entry_region hs.lib hs.sets h1' (by decide) hu
  intro t ht hU
  have h00 : (0:ℝ) ∈ Icc 0 T := ⟨le_rfl, ht.1.trans ht.2⟩
  have := fence_lt (c := 0) (traj_deriv h2 hs.size hs.smooth hξ)
    (by rw [← certValue_eq h2]; exact H1 _ ((rI _).2 h0) ((rD _).2 (hin 0 h00)))
    (fun r hr e => H3 _ ((rD _).2 (hin r hr)) (by rw [certValue_eq h2]; exact e)) t ht
  have h4 := H2 _ ((rU _).2 hU) ((rD _).2 (hin t ht))
  rw [certValue_eq h2] at h4
  linarith

/-- **C10.** An accepted BarrierAlt certificate implies safety for continuous dynamics. -/
theorem C10_barrierAlt_safety_ct (s : Setup) (hs : SmoothSetup s) (hc : s.cert = .BARRIERALT) (groups)
    (hq : queriesCT s = .ok groups) (ha : Accepted s.nVars groups)
    (T : ℝ) (ξ : ℝ → Pt s.nVars) (hξ : Trajectory (field s.nVars s.f) T ξ)
    (h0 : ξ 0 ∈ region s.nVars s.domains XI) (hin : ∀ t ∈ Icc 0 T, ξ t ∈ region s.nVars s.domains XD) :
    ∀ t ∈ Icc 0 T, ξ t ∉ region s.nVars s.domains XU := by
  obtain ⟨d, V, Vdot, h1, h2, h3⟩ := queriesCT_inv hq
  rw [hc] at h3
  obtain ⟨dom, init, un, hd, hi, hu, H1, H2, H3⟩ :=
    barrierAlt_inv (n := s.nVars) h3 (accepted_refutes (barrierAlt_distinct h3) ha)
  have h1' := initialise_single h1 (by simp [hc])
  have rD := entry_region hs.lib hs.sets h1' (by decide) hd
  have rI := entry_region hs.lib hs.sets h1' (by decide) hi
  have rU := entry_region hs.lib hs.sets h1' (by decide) hu
  intro t ht hU
  have h00 : (0:ℝ) ∈ Icc 0 T := ⟨le_rfl, ht.1.trans ht.2⟩
  have h4 := antitone_of (traj_deriv h2 hs.size hs.smooth hξ)
    (fun r hr => H3 _ ((rD _).2 (hin r hr))) h00 ht ht.1
  have h5 := H1 _ ((rI _).2 h0) ((rD _).2 (hin 0 h00))
  have h6 := H2 _ ((rU _).2 hU) ((rD _).2 (hin t ht))
  rw [certValue_eq h2] at h5 h6
  dsimp only at h4
  linarith

/-- **C11.** An accepted discrete-time BarrierAlt certificate (no factors) implies safety: no run that starts in
the initial set and stays in the domain up to step `k` is in the unsafe set at step `k`, for any `k` and any
network (ReLU included). -/
theorem C11_barrierAlt_safety_dt (s : Setup) (hlib : s.lib = .z3 ∨ s.lib = .dreal)
    (hw : WFDomains s.nVars s.domains) (hlen : s.f.length = s.nVars) (hquad : s.quad = false)
    (hc : s.cert = .BARRIERALT) (groups)
    (hq : queriesDT s = .ok groups) (ha : Accepted s.nVars groups)
    (x : ℕ → Pt s.nVars) (hx : IsRun (field s.nVars s.f) x)
    (h0 : x 0 ∈ region s.nVars s.domains XI) (k : ℕ)
    (hin : ∀ j ≤ k, x j ∈ region s.nVars s.domains XD) :
    x k ∉ region s.nVars s.domains XU := by
  obtain ⟨d, V, D, h1, h2, h3⟩ := queriesDT_inv hq
  rw [hc] at h3
  obtain ⟨dom, init, un, hd, hi, hu, H1, H2, H3⟩ :=
    barrierAlt_inv (n := s.nVars) h3 (accepted_refutes (barrierAlt_distinct h3) ha)
  have h1' := initialise_single h1 (by simp [hc])
  have rD := entry_region hlib hw h1' (by decide) hd
  have rI := entry_region hlib hw h1' (by decide) hi
  have rU := entry_region hlib hw h1' (by decide) hu
  rw [hquad] at h2
  have hV := fun p => certValue_eqDT (quad := s.quad) hlen h2 p hquad
  have hneg : ∀ j ≤ k, certValue s.rounding s.quad s.net (x j) < 0 := by
    intro j
    induction j with
    | zero =>
      intro _
      rw [← (hV _).1]; exact H1 _ ((rI _).2 h0) ((rD _).2 (hin 0 (Nat.zero_le _)))
    | succ j ih =>
      intro hj
      have h4 := H3 _ ((rD _).2 (hin j (by omega)))
      rw [(hV _).2, ← hx j] at h4
      linarith [ih (by omega)]
  intro hU
  have h5 := H2 _ ((rU _).2 hU) ((rD _).2 (hin k le_rfl))
  rw [(hV _).1] at h5
  linarith [hneg k le_rfl]

/-! ### non-vacuity -/

/-- `x' = -x`, `B = x² - 1` (square activation, output bias), `XI = [-1/2, 1/2]`, `XU = [2, 3]`. -/
def exBarrier (ct : CertType) : Setup := ⟨.z3, 1, ct,
  [(XD, .rectangle [-4] [4] none), (XI, .rectangle [-1/2] [1/2] none), (XU, .rectangle [2] [3] none)],
  false, 3, false, ⟨1, [⟨[[1]], some [0]⟩, ⟨[[1]], some [-1]⟩], [.square]⟩, [.neg (.var 0)], 0⟩

theorem exBarrier_smooth (ct : CertType) : SmoothSetup (exBarrier ct) :=
  ⟨Or.inl rfl, by
    intro e he; simp [exBarrier] at he
    rcases he with rfl | rfl | rfl <;> simp [WF, exBarrier, noSel], rfl,
    by intro a ha; simp [exBarrier] at ha; simp [ha]⟩

theorem exBarrier_accepted :
    (∃ groups, queriesCT (exBarrier .BARRIER) = .ok groups ∧ Accepted 1 groups) ∧
    (∃ groups, queriesCT (exBarrier .BARRIERALT) = .ok groups ∧ Accepted 1 groups) ∧
    ∃ groups, queriesDT { exBarrier .BARRIERALT with f := [.mul (.const (1/2)) (.var 0)] } = .ok groups ∧
      Accepted 1 groups := by
  have h1 : roundBy 3 1 = 1 := by decide +kernel
  have h0 : roundBy 3 0 = 0 := by decide +kernel
  refine ⟨⟨_, rfl, accepted_of_refuted (by simp [DistinctLabels, queries, XI, XU, XD]) ?_⟩,
    ⟨_, rfl, accepted_of_refuted (by simp [DistinctLabels, queries, XI, XU, XD]) ?_⟩,
    ⟨_, rfl, accepted_of_refuted (by simp [DistinctLabels, queries, XI, XU, XD]) ?_⟩⟩
  all_goals
    intro g hg q hq ρ h
    simp only [List.mem_cons, List.not_mem_nil, or_false] at hg
    rcases hg with rfl | rfl <;> simp only [List.mem_cons, List.not_mem_nil, or_false] at hq
    · rcases hq with rfl | rfl
      all_goals
        simp [Formula.holds, Formula.conj, Term.eval, Term.sum, leZero, geZero, gtZero, factors, vars, h1, h0,
          exBarrier, eyeJac, postVal, postGrad, gradTerms, hiddenBias, diagJac] at h
        norm_num at h
        norm_cast at h
      · have h2 : |ρ 0| ≤ 1/2 := abs_le.2 ⟨by linarith [h.1.2.1], by linarith [h.1.2.2]⟩
        linarith [h.1.1]
      · have h2 := h.1.1
        rw [abs_le] at h2
        linarith [h.1.2.1]
    · subst hq
      simp [Formula.holds, Formula.conj, Term.eval, Term.sum, leZero, geZero, gtZero, factors, vars, h1, h0,
          exBarrier, eyeJac, postVal, postGrad, gradTerms, hiddenBias, diagJac] at h
      norm_num at h
      try simp only [zpow_ofNat] at h
      first | nlinarith | nlinarith [h.1, mul_self_nonneg (ρ 0)]

/-- Non-vacuity of the trajectory hypotheses: `e^{-t}/2` starts in `XI` and stays in `XD`. -/
example : Trajectory (field 1 (exBarrier .BARRIER).f) 1 (fun t _ => Real.exp (-t) / 2) ∧
    ((fun _ => Real.exp (-0) / 2 : Pt 1) ∈ region 1 (exBarrier .BARRIER).domains XI) ∧
    ∀ t ∈ Icc (0:ℝ) 1, (fun _ => Real.exp (-t) / 2 : Pt 1) ∈ region 1 (exBarrier .BARRIER).domains XD := by
  refine ⟨fun t _ => ?_, ?_, fun t ht => ?_⟩
  · rw [hasDerivWithinAt_pi]
    intro i
    have : HasDerivAt (fun t : ℝ => Real.exp (-t) / 2) (Real.exp (-t) * (-1) / 2) t :=
      (hasDerivAt_neg t).exp.div_const 2
    refine HasDerivWithinAt.congr_deriv this.hasDerivWithinAt ?_
    simp [field, exBarrier, Term.eval, Pt.env]
    ring
  · simp [region, exBarrier, docSet, reals, coords, XI, XD, Dict.get?]
    norm_num
  · have h1 := Real.exp_pos (-t)
    have h2 : Real.exp (-t) ≤ 1 := Real.exp_le_one_iff.2 (by linarith [ht.1])
    simp [region, exBarrier, docSet, reals, coords, XD, Dict.get?]
    constructor <;> linarith

/-! ### C45: ReLU networks -/

/-- `x' = 1` with the ReLU network `2 relu(x) - 2 relu(-x) - relu(x + 10) + 10`, which equals `x` on `[-5, 5]`. -/
def exReluBarrier : Setup := ⟨.z3, 1, .BARRIER,
  [(XD, .rectangle [-5] [5] none), (XI, .rectangle [-2] [-1] none), (XU, .rectangle [1] [2] none)],
  false, 3, false,
  ⟨1, [⟨[[1], [-1], [1]], some [0, 0, 10]⟩, ⟨[[2, -2, -1]], some [10]⟩], [.relu]⟩, [.const 1], 0⟩

/-- C45 is false: for networks with ReLU units acceptance does not imply safety. At the kink the symbolic derivative
(0 for each unit exactly at its kink) is not the derivative of the network, so the decrease condition can be
met at `B = 0` only because the zero set of `B` lies on the kink. Everything else about the setup is well-formed,
and the trajectory `t - 1` goes from the initial set to the unsafe set inside the domain. -/
theorem C45_relu_barrier_unsound :
    WFDomains 1 exReluBarrier.domains ∧
    (∃ groups, queriesCT exReluBarrier = .ok groups ∧ Accepted 1 groups) ∧
    ∃ ξ : ℝ → Pt 1, Trajectory (field 1 exReluBarrier.f) 2 ξ ∧ ξ 0 ∈ region 1 exReluBarrier.domains XI ∧
      (∀ t ∈ Icc (0:ℝ) 2, ξ t ∈ region 1 exReluBarrier.domains XD) ∧
      ξ 2 ∈ region 1 exReluBarrier.domains XU := by
  have h1 : roundBy 3 1 = 1 := by decide +kernel
  have h0 : roundBy 3 0 = 0 := by decide +kernel
  have h2 : roundBy 3 2 = 2 := by decide +kernel
  have h3 : roundBy 3 (-2) = -2 := by decide +kernel
  have h4 : roundBy 3 (-1) = -1 := by decide +kernel
  have h5 : roundBy 3 10 = 10 := by decide +kernel
  refine ⟨?_, ⟨_, rfl, accepted_of_refuted (by simp [DistinctLabels, queries, XI, XU, XD]) ?_⟩,
    fun t _ => t - 1, ?_, ?_, ?_, ?_⟩
  · intro e he; simp [exReluBarrier] at he
    rcases he with rfl | rfl | rfl <;> simp [WF, noSel]
  · intro g hg q hq ρ h
    simp only [List.mem_cons, List.not_mem_nil, or_false] at hg
    rcases hg with rfl | rfl <;> simp only [List.mem_cons, List.not_mem_nil, or_false] at hq
    · rcases hq with rfl | rfl
      all_goals
        simp [Formula.holds, Formula.conj, Term.eval, Term.sum, leZero, geZero, gtZero, factors, vars, h1, h0, h2,
          h3, h4, h5, Fn.eval, exReluBarrier, eyeJac, postVal, postGrad, gradTerms, hiddenBias, diagJac] at h
        norm_num at h
      · rw [max_eq_right (by linarith [h.1.2.2]), max_eq_left (by linarith [h.1.2.2]),
          max_eq_left (by linarith [h.1.2.1])] at h
        linarith [h.1.1, h.1.2.2]
      · rw [max_eq_left (by linarith [h.1.2.1]), max_eq_right (by linarith [h.1.2.1]),
          max_eq_left (by linarith [h.1.2.1])] at h
        linarith [h.1.1, h.1.2.1]
    · subst hq
      simp [Formula.holds, Formula.conj, Term.eval, Term.sum, leZero, geZero, gtZero, factors, vars, h1, h0, h2,
          h3, h4, h5, Fn.eval, exReluBarrier, eyeJac, postVal, postGrad, gradTerms, hiddenBias, diagJac] at h
      norm_num at h
      obtain ⟨⟨a, b⟩, c, d⟩ := h
      rw [max_eq_left (by linarith : (0:ℝ) ≤ ρ 0 + 10)] at a
      have hx : ρ 0 = 0 := by
        rcases le_total (ρ 0) 0 with hle | hle
        · rw [max_eq_right hle, max_eq_left (by linarith)] at a; linarith
        · rw [max_eq_left hle, max_eq_right (by linarith)] at a; linarith
      rw [hx] at b
      norm_num at b
  · intro t _
    rw [hasDerivWithinAt_pi]
    intro i
    refine HasDerivWithinAt.congr_deriv ((hasDerivAt_id t).sub_const 1).hasDerivWithinAt ?_
    simp [field, exReluBarrier, Term.eval]
  · simp [region, exReluBarrier, docSet, reals, coords, XI, XD, Dict.get?]
  · intro t ht
    simp [region, exReluBarrier, docSet, reals, coords, XI, XD, Dict.get?]
    constructor <;> linarith [ht.1, ht.2]
  · simp [region, exReluBarrier, docSet, reals, coords, XI, XD, XU, Dict.get?]
    norm_num

end Fossil

/-
C48: verification of a certificate supplied by the user.
-/
import Verif.Lemmas.Diff
import Verif.Lemmas.Stability
import Verif.Lemmas.Below
import Verif.Props.C12_Reach
import Verif.Props.C47_Stability
import Verif.Props.C14_RSWA
import Verif.Props.C32_Sound
import Verif.Props.C38_Controller

namespace Fossil
open Spec Set Filter Topology

/-- The value of the supplied function at a state. -/
noncomputable def Spec.candValue (C : Term) {n : ℕ} (p : Pt n) : ℝ := C.eval p.env

theorem gradient_inv {n : ℕ} {C : Term} {g : List Term} (h : gradient .dreal n C = .ok g) :
    g.length = n ∧ ∀ j (_ : j < n), C.diff j = .ok (g.getD j (.const 0)) := by
  simp only [gradient, if_true] at h
  have key : ∀ (l : List ℕ) (g : List Term), l.mapM (fun j => C.diff j) = .ok g →
      g.length = l.length ∧ ∀ k (hk : k < l.length), C.diff l[k] = .ok (g.getD k (.const 0)) := by
    intro l
    induction l with
    | nil =>
      intro g h
      simp [List.mapM_nil, pure, Except.pure] at h
      subst h; simp
    | cons a l ih =>
      intro g h
      rw [List.mapM_cons] at h
      obtain ⟨d, hd, h⟩ := except_bind_ok h
      obtain ⟨r, hr, h⟩ := except_bind_ok h
      cases h
      obtain ⟨h1, h2⟩ := ih r hr
      refine ⟨by simp [h1], fun k hk => ?_⟩
      cases k with
      | zero => simpa using hd
      | succ k => simpa using h2 k (by simpa using hk)
  obtain ⟨h1, h2⟩ := key _ _ h
  simp only [List.length_range] at h1 h2
  exact ⟨h1, fun j hj => by simpa using h2 j hj⟩

theorem zipWith_mul_sum (ρ : Env) : ∀ (g f : List Term), g.length = f.length →
    ((List.zipWith Term.mul g f).map (Term.eval ρ)).sum
      = ∑ j ∈ Finset.range g.length, (g.getD j (.const 0)).eval ρ * (f.getD j (.const 0)).eval ρ := by
  intro g
  induction g with
  | nil => intro f _; simp
  | cons a g ih =>
    intro f hl
    cases f with
    | nil => simp at hl
    | cons b f =>
      rw [List.length_cons, Finset.sum_range_succ', List.zipWith_cons_cons, List.map_cons, List.sum_cons,
        ih f (by simpa using hl)]
      simp [Term.eval, add_comm]

/-- **C48.** The derivative that `verify` checks is the derivative of the supplied function along the dynamics, at every state at
which the function is evaluated within its domain of definition. -/
theorem C48_cdot_is_lie_derivative (n : ℕ) (C : Term) (f g : List Term) (Cdot : Term)
    (hg : gradient .dreal n C = .ok g) (hl : lieTerm g f = .ok Cdot) (p : Pt n) (hr : regular p.env C) :
    IsLieDerivAt (field n f) (candValue C) (fun q => Cdot.eval q.env) p := by
  obtain ⟨hlen, hdiff⟩ := gradient_inv hg
  have hf : g.length = f.length := by
    by_contra hc
    simp [lieTerm, hc] at hl
  simp only [lieTerm, hf, if_true] at hl
  cases hl
  intro γ s t hγ hd
  subst hγ
  have h1 := eval_curve_deriv (n := n) (ρ := fun r => (γ r).env)
    (δ := fun i => (f.getD i (.const 0)).eval (γ t).env) (s := s) (τ := t)
    (fun i hi => by
      have := (hasDerivWithinAt_pi.1 hd) ⟨i, hi⟩
      simpa [Pt.env, hi, field] using this)
    (fun i hi r => by simp [Pt.env, not_lt.2 hi]) C (fun j hj => ⟨_, hdiff j hj⟩) hr
  refine h1.congr_deriv ?_
  dsimp only
  rw [Term.eval_sum, zipWith_mul_sum _ _ _ hf, hlen]
  exact Finset.sum_congr rfl fun j hj => by rw [diff_eval j C _ (hdiff j (Finset.mem_range.1 hj))]

theorem candidateQueries_inv {c : VerifyCfg} (hlib : c.lib = .dreal) {groups} (h : candidateQueries c = .ok groups) :
    ∃ d g Cdot, initialiseDomains c.lib c.nVars c.cert c.domains = .ok d ∧ gradient .dreal c.nVars c.cand = .ok g ∧
      lieTerm g c.f = .ok Cdot ∧ candidateConstraints c.cert c.nVars c.llo d c.cand Cdot = .ok groups := by
  unfold candidateQueries at h
  obtain ⟨d, h1, h⟩ := except_bind_ok h
  obtain ⟨g, h2, h⟩ := except_bind_ok h
  obtain ⟨Cdot, h3, h⟩ := except_bind_ok h
  exact ⟨d, g, Cdot, h1, by rwa [hlib] at h2, h3, h⟩

/-- The derivative of the candidate along a trajectory that stays where the candidate is regular. -/
theorem cand_traj_deriv {n : ℕ} {C : Term} {f g : List Term} {Cdot : Term} (hg : gradient .dreal n C = .ok g)
    (hl : lieTerm g f = .ok Cdot) {T : ℝ} {ξ : ℝ → Pt n} (hξ : Trajectory (field n f) T ξ)
    (hr : ∀ t ∈ Icc 0 T, regular (ξ t).env C) :
    ∀ t ∈ Icc 0 T, HasDerivWithinAt (fun τ => candValue C (ξ τ)) (Cdot.eval (ξ t).env) (Icc 0 T) t :=
  fun t ht => C48_cdot_is_lie_derivative n C f g Cdot hg hl (ξ t) (hr t ht) ξ _ t rfl (hξ t ht)

/-- **C48 (barrier).** A candidate accepted as a barrier certificate (either kind) and regular on the domain proves safety: no
trajectory that starts in the initial set and stays in the domain reaches the unsafe set. -/
theorem C48_candidate_safety_partial (c : VerifyCfg) (hlib : c.lib = .dreal) (hw : WFDomains c.nVars c.domains)
    (hc : c.cert = .BARRIER ∨ c.cert = .BARRIERALT) (groups) (hq : candidateQueries c = .ok groups)
    (ha : Accepted c.nVars groups) (hreg : ∀ p ∈ region c.nVars c.domains XD, regular p.env c.cand)
    (T : ℝ) (ξ : ℝ → Pt c.nVars) (hξ : Trajectory (field c.nVars c.f) T ξ)
    (h0 : ξ 0 ∈ region c.nVars c.domains XI) (hin : ∀ t ∈ Icc 0 T, ξ t ∈ region c.nVars c.domains XD) :
    ∀ t ∈ Icc 0 T, ξ t ∉ region c.nVars c.domains XU := by
  obtain ⟨d, g, Cdot, h1, h2, h3, h4⟩ := candidateQueries_inv hlib hq
  have h1' := initialise_single h1 (by rcases hc with h | h <;> simp [h])
  have hlib' : c.lib = .z3 ∨ c.lib = .dreal := Or.inr hlib
  have hder := cand_traj_deriv h2 h3 hξ fun t ht => hreg _ (hin t ht)
  intro t ht hU
  have h00 : (0:ℝ) ∈ Icc 0 T := ⟨le_rfl, ht.1.trans ht.2⟩
  rcases hc with hc | hc <;> rw [hc] at h4
  · obtain ⟨dom, init, un, hd, hi, hu, H1, H2, H3⟩ :=
      barrier_inv (n := c.nVars) h4 (accepted_refutes (barrier_distinct h4) ha)
    have rD := entry_region hlib' hw h1' (by decide) hd
    have rI := entry_region hlib' hw h1' (by decide) hi
    have rU := entry_region hlib' hw h1' (by decide) hu
    have := fence_lt (c := 0) hder (H1 _ ((rI _).2 h0) ((rD _).2 (hin 0 h00)))
      (fun r hr e => H3 _ ((rD _).2 (hin r hr)) e) t ht
    have h5 := H2 _ ((rU _).2 hU) ((rD _).2 (hin t ht))
    simp only [candValue] at this
    linarith
  · obtain ⟨dom, init, un, hd, hi, hu, H1, H2, H3⟩ :=
      barrierAlt_inv (n := c.nVars) h4 (accepted_refutes (barrierAlt_distinct h4) ha)
    have rD := entry_region hlib' hw h1' (by decide) hd
    have rI := entry_region hlib' hw h1' (by decide) hi
    have rU := entry_region hlib' hw h1' (by decide) hu
    have h5 := antitone_of hder (fun r hr => H3 _ ((rD _).2 (hin r hr))) h00 ht ht.1
    have h6 := H1 _ ((rI _).2 h0) ((rD _).2 (hin 0 h00))
    have h7 := H2 _ ((rU _).2 hU) ((rD _).2 (hin t ht))
    simp only [candValue] at h5
    linarith

/-- **C48 (Lyapunov conditions).** A candidate accepted as a Lyapunov function decreases along the dynamics at every state of the
domain other than the origin, and is positive there unless the LLO option was set (then positivity is not checked). -/
theorem C48_candidate_lyapunov_conditions_partial (c : VerifyCfg) (hlib : c.lib = .dreal) (hw : WFDomains c.nVars c.domains)
    (hc : c.cert = .LYAPUNOV) (groups) (hq : candidateQueries c = .ok groups) (ha : Accepted c.nVars groups) :
    ∃ L : Pt c.nVars → ℝ, (∀ p, regular p.env c.cand → IsLieDerivAt (field c.nVars c.f) (candValue c.cand) L p) ∧
      (∀ j < c.nVars, ∃ D, c.cand.diff j = .ok D) ∧
      ∀ p ∈ region c.nVars c.domains XD, p ≠ 0 → (c.llo = false → 0 < candValue c.cand p) ∧ L p < 0 := by
  obtain ⟨d, g, Cdot, h1, h2, h3, h4⟩ := candidateQueries_inv hlib hq
  rw [hc] at h4
  have h1' := initialise_single h1 (by simp [hc])
  obtain ⟨dom, hd, H⟩ := lyap_inv (n := c.nVars) h4 ha
  have rD := entry_region (Or.inr hlib) hw h1' (by decide) hd
  exact ⟨fun p => Cdot.eval p.env, fun p hp => C48_cdot_is_lie_derivative _ _ _ _ _ h2 h3 p hp,
    fun j hj => ⟨_, (gradient_inv h2).2 j hj⟩, fun p hp h0 => H p ((rD p).2 hp) h0⟩

/-- **C48 (stability).** A candidate that vanishes at the origin, is regular everywhere and is accepted as a Lyapunov function (without
LLO) on a neighbourhood of the origin proves stability, and asymptotic stability if the vector field is continuous. -/
theorem C48_candidate_stability_partial (c : VerifyCfg) (hlib : c.lib = .dreal) (hw : WFDomains c.nVars c.domains)
    (hc : c.cert = .LYAPUNOV) (groups) (hq : candidateQueries c = .ok groups) (ha : Accepted c.nVars groups)
    (hllo : c.llo = false) (hreg : ∀ p : Pt c.nVars, regular p.env c.cand) (hz : candValue c.cand (0 : Pt c.nVars) = 0)
    (hD : region c.nVars c.domains XD ∈ 𝓝 0) :
    Stable (field c.nVars c.f) ∧ (Continuous (field c.nVars c.f) → AsympStable (field c.nVars c.f)) := by
  obtain ⟨L, hL, hdiff, H⟩ := C48_candidate_lyapunov_conditions_partial c hlib hw hc groups hq ha
  have hV : ContDiff ℝ 1 (candValue c.cand : Pt c.nVars → ℝ) := eval_contDiff c.cand hdiff hreg
  have hL' := fun p => hL p (hreg p)
  have hpos : ∀ p ∈ region c.nVars c.domains XD, p ≠ 0 → candValue c.cand (0 : Pt c.nVars) < candValue c.cand p :=
    fun p hp h0 => by rw [hz]; exact (H p hp h0).1 hllo
  exact ⟨stable_of hV.continuous hL' hD hpos fun p hp h0 => (H p hp h0).2, fun hF =>
    asympStable_of hV.continuous hL' (lie_continuous hV hF hL') hD hpos fun p hp h0 => (H p hp h0).2⟩

/-- **C48 (reach-while-stay).** A candidate accepted as a reach certificate, regular everywhere, on a bounded safe set: the goal is
reached within a common time from every initial state, and the trajectory is in the safe set until then. -/
theorem C48_candidate_reach_partial (c : VerifyCfg) (hlib : c.lib = .dreal) (hw : WFDomains c.nVars c.domains)
    (hr : ReachSets c.nVars c.domains)
    (hc : c.cert = .RWS ∨ c.cert = .RWA ∨ c.cert = .RSWS ∨ c.cert = .RSWA) (groups)
    (hq : candidateQueries c = .ok groups) (ha : Accepted c.nVars groups)
    (hreg : ∀ p : Pt c.nVars, regular p.env c.cand) (hbd : Bornology.IsBounded (region c.nVars c.domains XS)) :
    ∃ τ : ℝ, ∀ (T : ℝ) (ξ : ℝ → Pt c.nVars), Trajectory (field c.nVars c.f) T ξ → τ ≤ T →
      ξ 0 ∈ region c.nVars c.domains XI →
      (∃ t ∈ Icc 0 τ, ξ t ∈ region c.nVars c.domains XG) ∧
      ∀ t ∈ Icc 0 T, ξ t ∈ region c.nVars c.domains XS ∨ ∃ r ∈ Icc 0 t, ξ r ∈ region c.nVars c.domains XG := by
  obtain ⟨d, g, Cdot, h1, h2, h3, h4⟩ := candidateQueries_inv hlib hq
  have h4' : rwsConstraints d c.cand Cdot = .ok groups := by
    rcases hc with hc | hc | hc | hc <;> (rw [hc] at h4; exact h4)
  have h1' := initialise_single h1 (by rcases hc with hc | hc | hc | hc <;> simp [hc])
  obtain ⟨H1, H2, H3⟩ := rws_pointwise (Or.inr hlib) hw hr h1' (fun _ _ => rfl) h4'
    (accepted_refutes (rws_distinct h4') ha)
  have hV : ContDiff ℝ 1 (candValue c.cand : Pt c.nVars → ℝ) :=
    eval_contDiff c.cand (fun j hj => ⟨_, (gradient_inv h2).2 j hj⟩) hreg
  have key : ∀ (T : ℝ) (ξ : ℝ → Pt c.nVars), Trajectory (field c.nVars c.f) T ξ → ξ 0 ∈ region c.nVars c.domains XI →
      ∀ t ∈ Icc 0 T, (∀ r ∈ Icc 0 t, ξ r ∉ region c.nVars c.domains XG) →
      ξ t ∈ region c.nVars c.domains XS ∧ candValue c.cand (ξ t) ≤ - (t / 100) := by
    intro T ξ hξ h0 t ht hno
    have hg0 := H1 _ h0
    obtain ⟨a, b⟩ := reach_until (γ := 1/100) (by norm_num) (traj_cont hξ)
      (cand_traj_deriv h2 h3 hξ fun r _ => hreg _) (hr.initSafe h0) hg0 (fun r _ hf => H2 _ hf)
      (fun r _ ha hg hle => H3 _ ha hg hle) t ht hno
    exact ⟨a, by simp only [candValue] at b ⊢; linarith⟩
  obtain ⟨m, hm⟩ := hbd.isCompact_closure.bddBelow_image hV.continuous.continuousOn
  refine ⟨max 0 (1 - 100 * m), fun T ξ hξ hT h0 => ⟨?_, fun t ht => ?_⟩⟩
  · by_contra hno
    push Not at hno
    obtain ⟨a, b⟩ := key _ ξ (traj_restrict hξ hT) h0 _ ⟨le_max_left _ _, le_rfl⟩ hno
    have := hm ⟨_, subset_closure a, rfl⟩
    have := le_max_right 0 (1 - 100 * m)
    linarith
  · by_cases hg : ∃ r ∈ Icc 0 t, ξ r ∈ region c.nVars c.domains XG
    · exact Or.inr hg
    · push Not at hg
      exact Or.inl (key T ξ hξ h0 t ht hg).1

/-! ### from the result of `verify` -/

theorem diff_below {n j : ℕ} : ∀ {t D : Term}, termBelow n t → t.diff j = .ok D → termBelow n D := by
  intro t
  induction t with
  | var i => intro D _ h; cases h; trivial
  | const c => intro D _ h; cases h; trivial
  | add a b iha ihb | sub a b iha ihb | mul a b iha ihb | div a b iha ihb =>
    intro D hb h
    obtain ⟨da, h1, h⟩ := except_bind_ok h
    obtain ⟨db, h2, h⟩ := except_bind_ok h
    cases h
    have a1 := iha hb.1 h1
    have a2 := ihb hb.2 h2
    have b1 := hb.1
    have b2 := hb.2
    simp [termBelow, a1, a2, b1, b2]
  | neg a iha =>
    intro D hb h
    obtain ⟨da, h1, h⟩ := except_bind_ok h
    cases h
    exact (iha hb h1 : termBelow n da)
  | pow a k iha =>
    intro D hb h
    obtain ⟨da, h1, h⟩ := except_bind_ok h
    cases h
    exact ⟨⟨trivial, hb⟩, iha hb h1⟩
  | app f a iha =>
    intro D hb h
    unfold Term.diff at h
    split at h
    · split at h
      · cases h
      · cases h; trivial
    · obtain ⟨da, h1, h⟩ := except_bind_ok h
      cases h
      have : termBelow n a := hb
      exact ⟨by cases f <;> simp [Fn.diff, termBelow, this], iha hb h1⟩

/-- If `verify` with a sound dReal reports success, the queries were built and accepted: for sets inside the second-chance bound, and a candidate and
dynamics in the state variables only. -/
theorem C48_success_accepted (noise : String → ℕ → ℕ → ℚ) (check : ℕ → ℕ → Formula → Option Box) (c : VerifyCfg) (cex)
    (sound : ∀ k, DRealSound (check k)) (boxes : ∀ k, BoxesInRange c.nVars (check k)) (hlib : c.lib = .dreal) (hw : WFDomains c.nVars c.domains)
    (hsm : SmallSets c.nVars c.domains) (hC : termBelow c.nVars c.cand) (hf : AllBelow c.nVars c.f)
    (h : verifyCandidate drealBackend noise (drealOracle c.nVars check) c = .ok ⟨true, cex⟩) :
    ∃ groups, candidateQueries c = .ok groups ∧ Accepted c.nVars groups := by
  unfold verifyCandidate at h
  cases hq : candidateQueries c with
  | error e => rw [hq] at h; cases h
  | ok groups =>
    rw [hq] at h
    obtain ⟨d, g, Cdot, h1, h2, h3, h4⟩ := candidateQueries_inv hlib hq
    have hg : AllBelow c.nVars g := by
      obtain ⟨l1, l2⟩ := gradient_inv h2
      intro t ht
      obtain ⟨i, hi, rfl⟩ := List.getElem_of_mem ht
      have := l2 i (l1 ▸ hi)
      rw [List.getD_eq_getElem?_getD, List.getElem?_eq_getElem hi] at this
      exact diff_below hC this
    have hD : termBelow c.nVars Cdot := by
      unfold lieTerm at h3
      split at h3
      · cases h3
        exact termBelow_sum (all_zipWith fun a ha b hb => ⟨hg a ha, hf b hb⟩)
      · cases h3
    have h5 : c.cert ≠ .ROA ∧ c.cert ≠ .RAR ∧ singleConstraints c.cert c.nVars c.llo 0 d c.cand Cdot = .ok groups := by
      cases hct : c.cert <;> rw [hct] at h4 <;> first | cases h4; done | exact ⟨by simp, by simp, h4⟩
    exact ⟨groups, rfl, .dreal noise check cex sound (single_below (initialise_below h1) hC hD h5.2.2)
      (single_confined (Or.inr hlib) hw hsm (initialise_single h1 h5.2.1) h5.1 h5.2.2) boxes h⟩

/-! ### what cannot be verified -/

/-- **C48.** Candidates can be verified with dReal only: with any other solver `verify` raises. -/
theorem C48_needs_dreal {R : Type} (B : Backend R) (noise o) (c : VerifyCfg) (hlib : c.lib ≠ .dreal) (hn : 0 < c.nVars) :
    ∃ e, verifyCandidate B noise o c = .error e := by
  have : ∃ e, candidateQueries c = .error e := by
    unfold candidateQueries
    cases initialiseDomains c.lib c.nVars c.cert c.domains with
    | error e => exact ⟨e, rfl⟩
    | ok d => exact ⟨.notImplemented, by simp [gradient, hlib, hn.ne', Bind.bind, Except.bind]⟩
  obtain ⟨e, he⟩ := this
  exact ⟨e, by simp [verifyCandidate, he]⟩

/-- **C48.** Region-of-attraction, stable-while-avoid and reach-avoid-remain candidates cannot be verified: `verify` raises. -/
theorem C48_unsupported_certificates {R : Type} (B : Backend R) (noise o) (c : VerifyCfg)
    (hc : c.cert = .ROA ∨ c.cert = .STABLESAFE ∨ c.cert = .RAR) : ∃ e, verifyCandidate B noise o c = .error e := by
  cases h : candidateQueries c with
  | error e => exact ⟨e, by simp [verifyCandidate, h]⟩
  | ok groups =>
    unfold candidateQueries at h
    obtain ⟨d, h1, h⟩ := except_bind_ok h
    obtain ⟨g, h2, h⟩ := except_bind_ok h
    obtain ⟨Cdot, h3, h⟩ := except_bind_ok h
    rcases hc with hc | hc | hc <;> rw [hc] at h <;> cases h

/-- **C48.** A text in ordinary notation in which no sign stands directly before a power, and that is accepted as a candidate, denotes the function
that is verified. -/
theorem C48_read_candidate (texts : List String) (n : ℕ) (t : Term) (h : readCandidate texts n = .ok t) :
    ∃ s, texts = [s] ∧ ∀ ts e, Spells ts s → Denotes true drealFuncs .sum ts e → ¬ MinusPower drealFuncs ts → ∀ (p : Pt n) (μ : ℕ → ℝ),
      candValue t p = e.eval p.env μ := by
  match texts, h with
  | [s], h =>
    refine ⟨s, rfl, fun ts e hs he hm p μ => ?_⟩
    simp only [readCandidate] at h
    cases hv : parseText drealFuncs s with
    | error => rw [hv] at h; cases h
    | ok v =>
      rw [hv] at h
      simp only at h
      by_cases hx : ((List.range n).all fun i => v.xs.contains i) = true
      · rw [if_pos hx] at h
        cases ht : v.toTerm? (fun _ => none) with
        | none => rw [ht] at h; cases h
        | some t' =>
          rw [ht] at h; cases h
          rw [← C32_text_never_misread ts e v s hs he hm hv, candValue]
          exact AExpr.toTerm?_eval (fun _ _ _ hs => by cases hs) ht
      · rw [if_neg hx] at h; cases h

/-- **C48, the defect.** The candidate `-x0**2 + 1`, a barrier function in ordinary notation, is verified as `x0**2 + 1`. -/
theorem C48_candidate_minus_power_misread :
    readCandidate ["-x0**2 + 1"] 1 = .ok (.add (.pow (.neg (.var 0)) 2) (.const 1)) := by decide +kernel

/-- **C48.** A candidate that does not mention one of the state variables is rejected (KeyError): `x0**2` for a system with two states. -/
theorem C48_candidate_must_mention_all_states : readCandidate ["x0**2"] 2 = .error .keyError := by
  decide +kernel

/-! ### examples -/

/-- `x' = -x` on `[-1, 1]`, candidate `x0**2`. -/
def exCand : VerifyCfg := ⟨.dreal, 1, false, .LYAPUNOV, [(XD, .rectangle [-1] [1] none)], false, .pow (.var 0) 2, [.neg (.var 0)]⟩

example : readCandidate ["x0**2"] 1 = .ok exCand.cand := by decide +kernel

/-- the hypotheses of `C48_read_candidate` hold of this text -/
example : ∃ ts e, Spells ts "x0**2" ∧ Denotes true drealFuncs .sum ts e ∧ ¬ MinusPower drealFuncs ts := by
  refine ⟨[.x 0, .dstar, .num 2], .pow (.x 0) (.num 2), ⟨[['x', '0'], ['*', '*'], ['2']], ?_, ?_⟩, ?_, ?_⟩
  · have hn : Numeral ['2'] 2 := by
      have := Numeral.int (d := ['2']) ⟨by simp, by simp⟩
      simpa [digitsValue] using this
    exact .cons (TokText.x (d := ['0']) ⟨⟨by simp, by simp⟩, Or.inl rfl⟩) (.cons .dstar (.cons (.num hn) .nil))
  · refine ⟨[], ['*', '*', '2'], by simp [Blank], by decide, [], ['2'], by simp [Blank], by decide, [], [], by simp [Blank], by decide, ?_⟩
    simp [Layout, Blank]
  · exact .sum (.term (.power (a := [.x 0]) (.x 0) (.factor (.signed (.num 2)))))
  · rintro ⟨p, a, e, r, h, -⟩
    have : Tok.minus ∈ [Tok.x 0, .dstar, .num 2] := by rw [h]; simp
    simp at this

theorem exCand_accepted : ∃ groups, candidateQueries exCand = .ok groups ∧ Accepted exCand.nVars groups := by
  refine ⟨_, rfl, accepted_of_refuted (by simp [DistinctLabels, queries]) ?_⟩
  intro g hg q hq ρ h
  simp only [List.mem_singleton] at hg
  subst hg
  simp only [List.mem_singleton] at hq
  subst hq
  simp [Formula.holds, Formula.conj, Term.eval, Term.sum, leZero, geZero, vars, exCand] at h
  have h2 := mul_self_pos.2 h.2.2
  rcases h.2.1 with h3 | h3
  · norm_cast at h3; nlinarith
  · norm_num at h3; nlinarith

example : AsympStable (field 1 exCand.f) := by
  obtain ⟨g, h1, h2⟩ := exCand_accepted
  refine (C48_candidate_stability_partial exCand rfl (by intro e he; simp [exCand] at he; subst he; simp [WF, exCand, noSel]) rfl g h1 h2
    rfl (fun p => by simp [regular, exCand]) ?_ interval_nhds).2 exLyap_cont
  show candValue exCand.cand (0 : Pt 1) = 0
  simp [candValue, exCand, Term.eval, Pt.env]

/-- `x' = -x`, initial set `[0, 1/2]`, unsafe set `[2, 3]`, candidate `exp(x0) - 3`. -/
def exCandBarrier (ct : CertType) : VerifyCfg := ⟨.dreal, 1, false, ct,
  [(XD, .rectangle [0] [3] none), (XI, .rectangle [0] [1/2] none), (XU, .rectangle [2] [3] none)], false,
  .sub (.app .exp (.var 0)) (.const 3), [.neg (.var 0)]⟩

theorem exCandBarrier_accepted (ct : CertType) (hct : ct = .BARRIER ∨ ct = .BARRIERALT) :
    ∃ groups, candidateQueries (exCandBarrier ct) = .ok groups ∧ Accepted 1 groups := by
  have hinit : ∀ x : ℝ, x ≤ 1/2 → Real.exp x < 3 := fun x hx => by
    have h1 := Real.exp_one_lt_d9
    have h2 : Real.exp x ≤ Real.exp 1 := Real.exp_le_exp.2 (by linarith)
    linarith
  have hun : ∀ x : ℝ, 2 ≤ x → 3 ≤ Real.exp x := fun x hx => by
    have := Real.add_one_le_exp x; linarith
  rcases hct with rfl | rfl <;>
  refine ⟨_, rfl, accepted_of_refuted (by simp [DistinctLabels, queries, XI, XU, XD]) ?_⟩ <;>
  · intro g hg q hq ρ h
    simp only [List.mem_cons, List.not_mem_nil, or_false] at hg
    rcases hg with rfl | rfl <;> simp only [List.mem_cons, List.not_mem_nil, or_false] at hq
    · rcases hq with rfl | rfl
      · simp [Formula.holds, Formula.conj, Term.eval, Term.sum, leZero, geZero, vars, exCandBarrier, Fn.eval] at h
        have := hinit (ρ 0) (by norm_num; linarith [h.1.2.2])
        linarith [h.1.1]
      · simp [Formula.holds, Formula.conj, Term.eval, Term.sum, leZero, geZero, vars, exCandBarrier, Fn.eval] at h
        have := Real.add_one_lt_exp (x := ρ 0) (by linarith [h.1.2.1])
        linarith [h.1.1, h.1.2.1]
    · subst hq
      simp [Formula.holds, Formula.conj, Term.eval, Term.sum, leZero, geZero, gtZero, vars, exCandBarrier, Fn.eval, Fn.diff] at h
      have hpos := Real.exp_pos (ρ 0)
      have hx : 0 ≤ ρ 0 := h.2.1
      by_cases h0 : ρ 0 = 0
      · rw [h0] at h; norm_num at h
      · have := mul_pos hpos (lt_of_le_of_ne hx (Ne.symm h0))
        first
        | linarith [h.1.2]
        | linarith [h.1]

theorem exCandBarrier_sets (ct : CertType) : WFDomains 1 (exCandBarrier ct).domains := by
  intro e he
  simp [exCandBarrier] at he
  rcases he with rfl | rfl | rfl <;> simp [WF, noSel]

/-- Non-vacuity of the safety theorem, for both kinds of barrier certificate, with a trajectory from the initial set. -/
example (ct : CertType) (hct : ct = .BARRIER ∨ ct = .BARRIERALT) :
    ∀ t ∈ Icc (0:ℝ) 5, (fun _ => Real.exp (-t) / 2 : Pt 1) ∉ region 1 (exCandBarrier ct).domains XU := by
  obtain ⟨g, h1, h2⟩ := exCandBarrier_accepted ct hct
  have hseg : ∀ (l : String) (a b : ℚ), Dict.get? (exCandBarrier ct).domains l = some (.rectangle [a] [b] none) →
      ∀ p : Pt 1, (a : ℝ) ≤ p 0 → p 0 ≤ b → p ∈ region 1 (exCandBarrier ct).domains l := by
    intro l a b hl p h3 h4
    simp only [region, hl]
    exact (seg_mem a b p).2 ⟨h3, h4⟩
  refine C48_candidate_safety_partial (exCandBarrier ct) rfl (exCandBarrier_sets ct) hct g h1 h2
    (fun p _ => by simp [regular, exCandBarrier]) 5 (fun t _ => Real.exp (-t) / 2) ?_ ?_ ?_
  · intro t _
    rw [hasDerivWithinAt_pi]
    intro i
    have : HasDerivAt (fun t : ℝ => Real.exp (-t) / 2) (Real.exp (-t) * (-1) / 2) t :=
      (((Real.hasDerivAt_exp (-t)).comp t (hasDerivAt_neg t))).div_const 2
    refine HasDerivWithinAt.congr_deriv this.hasDerivWithinAt ?_
    have e : field 1 (exCandBarrier ct).f (fun _ => Real.exp (-t) / 2) 0 = -(Real.exp (-t) / 2) := by
      simp [field, exCandBarrier, Term.eval, Pt.env]
    have hi : i = (0 : Fin 1) := Subsingleton.elim (α := Fin 1) i 0
    rw [hi]
    exact (show Real.exp (-t) * (-1) / 2 = -(Real.exp (-t) / 2) by ring).trans e.symm
  · refine hseg XI 0 (1/2) (by simp [exCandBarrier, Dict.get?, XI, XD]) _ ?_ ?_ <;> norm_num
  · intro t ht
    refine hseg XD 0 3 (by simp [exCandBarrier, Dict.get?]) _ ?_ ?_
    · have := Real.exp_pos (-t); norm_num; linarith
    · have : Real.exp (-t) ≤ 1 := Real.exp_le_one_iff.2 (by linarith [ht.1])
      norm_num; linarith

/-- `x' = -x`, candidate `x0**2 - 1/2`, sets as in `exReach`. -/
def exCandReach : VerifyCfg := ⟨.dreal, 1, false, .RWS, (exReach .RWS).domains, false,
  .sub (.pow (.var 0) 2) (.const (1/2)), [.neg (.var 0)]⟩

theorem exCandReach_accepted : ∃ groups, candidateQueries exCandReach = .ok groups ∧ Accepted 1 groups := by
  refine ⟨_, rfl, accepted_of_refuted (by simp [DistinctLabels, queries, XI, XU, XD]) ?_⟩
  intro g hg q hq ρ h
  simp only [List.mem_cons, List.not_mem_nil, or_false] at hg
  rcases hg with rfl | rfl <;> simp only [List.mem_cons, List.not_mem_nil, or_false] at hq
  · rcases hq with rfl | rfl
    all_goals
      simp [Formula.holds, Formula.conj, Term.eval, Term.sum, leZero, geZero, gtZero, vars, exReach, exCandReach] at h
      norm_num at h
      norm_cast at h
    · nlinarith [h.1.1, h.1.2.1, h.1.2.2]
    · obtain ⟨⟨a, b⟩, c⟩ := h
      have e : ρ 0 = -1 ∨ ρ 0 = 1 := by
        have := b.1
        push_cast at this
        simpa using this
      rcases e with e | e <;> (rw [e] at a; norm_num at a)
  · subst hq
    simp [Formula.holds, Formula.conj, Term.eval, Term.sum, leZero, geZero, gtZero, vars, exReach, exCandReach, gamma] at h
    norm_num at h
    norm_cast at h
    obtain ⟨⟨a, b, c⟩, d⟩ := h
    rcases le_or_gt (-(1/2)) (ρ 0) with h' | h'
    · nlinarith [c h']
    · nlinarith

/-- Non-vacuity of the reach theorem. -/
example : ∃ τ : ℝ, ∀ (T : ℝ) (ξ : ℝ → Pt 1), Trajectory (field 1 exCandReach.f) T ξ → τ ≤ T →
    ξ 0 ∈ region 1 exCandReach.domains XI →
    (∃ t ∈ Icc 0 τ, ξ t ∈ region 1 exCandReach.domains XG) ∧
    ∀ t ∈ Icc 0 T, ξ t ∈ region 1 exCandReach.domains XS ∨ ∃ r ∈ Icc 0 t, ξ r ∈ region 1 exCandReach.domains XG := by
  obtain ⟨g, h1, h2⟩ := exCandReach_accepted
  refine C48_candidate_reach_partial exCandReach rfl (exReach_smooth .RWS).sets (exReach_sets .RWS).toReachSets (Or.inl rfl) g h1 h2
    (fun p => by simp [regular, exCandReach]) ?_
  have : region 1 exCandReach.domains XS = docSet 1 (.rectangle [-1] [1] none) := by
    simp [region, exCandReach, exReach, XI, XD, XS, Dict.get?_cons]
  show Bornology.IsBounded (region 1 exCandReach.domains XS)
  rw [this]; exact seg_bounded _ _

/-! ### what acceptance of a candidate does not give -/

/-- `x' = x`, candidate `2 - x0**2`. -/
def exCandEven : VerifyCfg := { exCand with cand := .sub (.const 2) (.pow (.var 0) 2), f := [.var 0] }

/-- **C48, negation.** The value at the origin is not checked: `verify` accepts the candidate `2 - x0**2` as a Lyapunov function on
`[-1, 1]` for the unstable system `x' = x`. -/
theorem C48_unstable_accepted :
    (∃ groups, candidateQueries exCandEven = .ok groups ∧ Accepted exCandEven.nVars groups) ∧
      exCandEven.llo = false ∧ ¬ Stable (field 1 exCandEven.f) := by
  refine ⟨⟨_, rfl, accepted_of_refuted (by simp [DistinctLabels, queries]) ?_⟩, rfl, exEven_unstable⟩
  intro g hg q hq ρ h
  simp only [List.mem_singleton] at hg
  subst hg
  simp only [List.mem_singleton] at hq
  subst hq
  simp [Formula.holds, Formula.conj, Term.eval, Term.sum, leZero, geZero, vars, exCand, exCandEven] at h
  have h2 := mul_self_pos.2 h.2.2
  rcases h.2.1 with h3 | h3
  · norm_cast at h3; nlinarith [h.1.1, h.1.2]
  · norm_num at h3; nlinarith

/-- `x' = x`, candidate `-x0**2`, option LLO set. -/
def exCandLLO : VerifyCfg := { exCand with llo := true, cand := .neg (.pow (.var 0) 2), f := [.var 0] }

/-- **C48, negation.** With the LLO option positivity of the candidate is not checked, although LLO can only make *trained networks*
positive: `verify` accepts `-x0**2` for `x' = x`, a candidate that is negative everywhere but at the origin. -/
theorem C48_llo_accepts_negative_candidate :
    (∃ groups, candidateQueries exCandLLO = .ok groups ∧ Accepted exCandLLO.nVars groups) ∧
      (∀ p : Pt 1, p ≠ 0 → candValue exCandLLO.cand p < 0) ∧ ¬ Stable (field 1 exCandLLO.f) := by
  refine ⟨⟨_, rfl, accepted_of_refuted (by simp [DistinctLabels, queries]) ?_⟩, ?_, exEven_unstable⟩
  · intro g hg q hq ρ h
    simp only [List.mem_singleton] at hg
    subst hg
    simp only [List.mem_singleton] at hq
    subst hq
    simp [Formula.holds, Formula.conj, Term.eval, Term.sum, leZero, geZero, vars, exCand, exCandLLO] at h
    have h2 := mul_self_pos.2 h.2.2
    have h3 := h.2.1
    norm_num at h3
    nlinarith
  · intro p hp
    have h0 : p 0 ≠ 0 := fun h => hp (funext fun i => by rw [Subsingleton.elim i 0, h]; rfl)
    have e : candValue exCandLLO.cand p = - (p 0 ^ 2) := by
      simp [candValue, exCandLLO, Term.eval, Pt.env]
      try norm_cast
    rw [e]
    have := mul_self_pos.2 h0
    nlinarith

/-- `x⁺ = -2 x`, candidate `x0**2`, discrete time. -/
def exCandDT : VerifyCfg := { exCand with discrete := true, f := [.mul (.const (-2)) (.var 0)] }

/-- **C48, negation.** For discrete-time systems `verify` checks the gradient condition of continuous time: it accepts `x0**2` as a
Lyapunov function of `x⁺ = -2 x`, which is not stable; the candidate grows by a factor 4 in every step. -/
theorem C48_discrete_time_unsound :
    (∃ groups, candidateQueries exCandDT = .ok groups ∧ Accepted exCandDT.nVars groups) ∧ exCandDT.discrete = true ∧
      (∀ p : Pt 1, candValue exCandDT.cand (field 1 exCandDT.f p) = 4 * candValue exCandDT.cand p) ∧
      ¬ StableDT (field 1 exCandDT.f) := by
  have hf : ∀ p : Pt 1, field 1 exCandDT.f p 0 = -2 * p 0 := fun p => by
    simp [field, exCandDT, Term.eval, Pt.env]
  have hv : ∀ p : Pt 1, candValue exCandDT.cand p = p 0 ^ 2 := fun p => by
    simp [candValue, exCandDT, exCand, Term.eval, Pt.env]
    try norm_cast
  refine ⟨⟨_, rfl, accepted_of_refuted (by simp [DistinctLabels, queries]) ?_⟩, rfl, fun p => ?_, fun hst => ?_⟩
  · intro g hg q hq ρ h
    simp only [List.mem_singleton] at hg
    subst hg
    simp only [List.mem_singleton] at hq
    subst hq
    simp [Formula.holds, Formula.conj, Term.eval, Term.sum, leZero, geZero, vars, exCand, exCandDT] at h
    have h2 := mul_self_pos.2 h.2.2
    rcases h.2.1 with h3 | h3
    · norm_cast at h3; nlinarith
    · norm_num at h3; nlinarith
  · rw [hv, hv, hf]; ring
  · obtain ⟨W, hW, h⟩ := hst (Metric.ball 0 1) (Metric.ball_mem_nhds _ one_pos)
    obtain ⟨ε, hε, hsub⟩ := Metric.mem_nhds_iff.1 hW
    have hrun : IsRun (field 1 exCandDT.f) (fun k _ => (ε / 2) * (-2) ^ k) := by
      intro k
      funext i
      rw [Subsingleton.elim i 0]
      show _ = field 1 exCandDT.f (fun _ => (ε / 2) * (-2) ^ k) 0
      rw [hf]
      show (ε / 2) * (-2) ^ (k + 1) = -2 * ((ε / 2) * (-2) ^ k)
      ring
    have h1 := h _ hrun (hsub (by
      rw [mem_ball_zero_iff, pi_norm_lt_iff hε]
      intro i
      simpa [abs_of_pos hε] using hε))
    obtain ⟨k, hk⟩ := pow_unbounded_of_one_lt (2 / ε) (one_lt_two)
    have h2 := h1 k
    rw [mem_ball_zero_iff, pi_norm_lt_iff one_pos] at h2
    have h3 := h2 0
    simp only [Real.norm_eq_abs, abs_mul, abs_pow, abs_neg, abs_two, abs_div, abs_of_pos hε] at h3
    rw [div_lt_iff₀ hε] at hk
    nlinarith

/-- The rotation with the candidate `x1 + 10*(x0**2 + x1**2) - 5`, certificate type RSWS. -/
def exCandRSWS : VerifyCfg := ⟨.dreal, 2, false, .RSWS, rswaCfg.domains, false,
  .sub (.add (.var 1) (.mul (.const 10) (.add (.pow (.var 0) 2) (.pow (.var 1) 2)))) (.const 5), rswaF⟩

/-- **C48, negation.** For reach-and-stay-while-stay candidates the stay condition (the search for beta, C13) is not part of
`verify`: it accepts a candidate for the rotation, whose trajectories keep leaving the goal for ever. -/
theorem C48_rsws_stay_not_checked :
    (∃ groups, candidateQueries exCandRSWS = .ok groups ∧ Accepted exCandRSWS.nVars groups) ∧ exCandRSWS.cert = .RSWS ∧
    ∃ ξ : ℝ → Pt 2, (∀ T, Trajectory (field 2 exCandRSWS.f) T ξ) ∧ ξ 0 ∈ region 2 exCandRSWS.domains XI ∧
      ∀ k : ℕ, ξ (Real.pi + k * (2 * Real.pi)) ∉ region 2 exCandRSWS.domains XG := by
  refine ⟨⟨_, rfl, accepted_of_refuted (by simp [DistinctLabels, queries, XI, XU, XD]) ?_⟩, rfl,
    C14_rswa_success_but_goal_left.2⟩
  have h4 : List.range 2 = [0, 1] := rfl
  intro g hg q hq ρ h
  simp only [List.mem_cons, List.not_mem_nil, or_false] at hg
  rcases hg with rfl | rfl <;> simp only [List.mem_cons, List.not_mem_nil, or_false] at hq
  · rcases hq with rfl | rfl
    all_goals
      simp [Formula.holds, Formula.conj, Term.eval, Term.sum, leZero, geZero, gtZero, vars, h4, rswaCfg, rswaF, exCandRSWS] at h
      norm_num at h
      norm_cast at h
      push_cast at h
      nlinarith [h.1.1]
  · subst hq
    simp [Formula.holds, Formula.conj, Term.eval, Term.sum, leZero, geZero, gtZero, vars, h4, rswaCfg, rswaF, exCandRSWS, gamma] at h
    norm_num at h
    norm_cast at h
    push_cast at h
    obtain ⟨⟨a, b, e⟩, d⟩ := h
    have hx : -(1/8) ≤ ρ 0 := by nlinarith
    have hy : -2 ≤ ρ 1 ∧ ρ 1 ≤ 2 ∧ ρ 0 ≤ 2 := ⟨by nlinarith, by nlinarith, by nlinarith⟩
    linarith [e hx hy.1 hy.2.2, hy.2.1]

end Fossil

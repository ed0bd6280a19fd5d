/-
C12, C13: reach-while-stay and reach-and-stay certificates. C43: the beta search.
-/
import Verif.Props.C09_Barrier
import Verif.Lemmas.Reach
import Verif.Lemmas.Continuity

namespace Fossil
open Spec Set

/-- What acceptance of the RWS queries gives, pointwise. -/
theorem rws_inv {n : ℕ} {d : Dict String Formula} {C Cdot : Term} {groups}
    (h : rwsConstraints d C Cdot = .ok groups)
    (ha : ∀ g ∈ groups, ∀ q ∈ g, ∀ ρ : Env, ¬ q.2.holds ρ) :
    ∃ dom init safe border goal, Dict.getE d XD = .ok dom ∧ Dict.getE d XI = .ok init ∧
      Dict.getE d XS = .ok safe ∧ Dict.getE d XSB = .ok border ∧ Dict.getE d XG = .ok goal ∧
      (∀ p : Pt n, init.holds p.env → dom.holds p.env → C.eval p.env ≤ 0) ∧
      (∀ p : Pt n, border.holds p.env → dom.holds p.env → 0 < C.eval p.env) ∧
      (∀ p : Pt n, safe.holds p.env → ¬ goal.holds p.env → C.eval p.env ≤ 0 → Cdot.eval p.env ≤ -(1/100)) := by
  unfold rwsConstraints at h
  simp only [bind, Except.bind] at h
  split at h
  · cases h
  rename_i dom hdom
  split at h
  · cases h
  rename_i init hinit
  split at h
  · cases h
  rename_i safe hsafe
  split at h
  · cases h
  rename_i border hborder
  split at h
  · cases h
  rename_i goal hgoal
  cases h
  have H1 := ha _ (List.mem_cons_self ..) _ (List.mem_cons_self ..)
  have H2 := ha _ (List.mem_cons_self ..) _ (List.mem_cons_of_mem _ (List.mem_cons_self ..))
  have H3 := ha _ (List.mem_cons_of_mem _ (List.mem_cons_self ..)) _ (List.mem_cons_self ..)
  simp only [Formula.holds, Formula.conj, gtZero, leZero, Term.eval, Rat.cast_zero, gamma] at H1 H2 H3
  refine ⟨dom, init, safe, border, goal, hdom, hinit, hsafe, hborder, hgoal, fun p a b => ?_, fun p a b => ?_,
    fun p a b c => ?_⟩
  · by_contra hc; exact H1 p.env ⟨⟨not_le.1 hc, a⟩, b⟩
  · by_contra hc; exact H2 p.env ⟨⟨not_lt.1 hc, a⟩, b⟩
  · by_contra hc
    refine H3 p.env ⟨?_, ?_⟩
    · simp [c, a, b]
    · push Not at hc; push_cast; linarith

theorem rws_distinct {d : Dict String Formula} {C Cdot : Term} {groups}
    (h : rwsConstraints d C Cdot = .ok groups) : DistinctLabels groups := by
  unfold rwsConstraints at h
  simp only [bind, Except.bind] at h
  repeat' split at h
  all_goals first | cases h; done | skip
  cases h
  simp [DistinctLabels, queries, XI, XU, XD]

/-- The relation between the configured sets a reach certificate relies on: the initial set lies in the safe set and
in the domain, the boundary of the safe set lies in the domain, and the border label carries the safe set itself,
built from sets that have a boundary formula. -/
structure ReachSets (n : ℕ) (doms : Dict String PySet) : Prop where
  initSafe : region n doms XI ⊆ region n doms XS
  initDom : region n doms XI ⊆ region n doms XD
  borderDom : frontier (region n doms XS) ⊆ region n doms XD
  border : region n doms XSB = region n doms XS
  borderOK : ∀ S, Dict.get? doms XSB = some S → BoundaryOK S

/-- Pointwise conditions in terms of regions. -/
theorem rws_pointwise {lib : Lib} (hlib : lib = .z3 ∨ lib = .dreal) {n : ℕ} {doms : Dict String PySet}
    (hw : WFDomains n doms) (hr : ReachSets n doms) {d d' : Dict String Formula}
    (hd : domainEntries lib n doms = .ok d) (hsub : ∀ l, l ≠ XNF → Dict.getE d' l = Dict.getE d l)
    {C Cdot : Term} {groups} (h : rwsConstraints d' C Cdot = .ok groups)
    (ha : ∀ g ∈ groups, ∀ q ∈ g, ∀ ρ : Env, ¬ q.2.holds ρ) :
    (∀ p ∈ region n doms XI, C.eval p.env ≤ 0) ∧
    (∀ p ∈ frontier (region n doms XS), 0 < C.eval p.env) ∧
    (∀ p ∈ region n doms XS, p ∉ region n doms XG → C.eval p.env ≤ 0 → Cdot.eval p.env ≤ -(1/100)) := by
  obtain ⟨dom, init, safe, border, goal, h1, h2, h3, h4, h5, H1, H2, H3⟩ := rws_inv (n := n) h ha
  rw [hsub _ (by decide)] at h1 h2 h3 h4 h5
  have rD := entry_region hlib hw hd (by decide) h1
  have rI := entry_region hlib hw hd (by decide) h2
  have rS := entry_region hlib hw hd (by decide) h3
  have rG := entry_region hlib hw hd (by decide) h5
  refine ⟨fun p hp => H1 p ((rI p).2 hp) ((rD p).2 (hr.initDom hp)), fun p hp => ?_, fun p hp hg hc =>
    H3 p ((rS p).2 hp) (fun h => hg ((rG p).1 h)) hc⟩
  refine H2 p (entry_border hlib hw hd (by decide) h4 hr.borderOK p (hr.border ▸ hp)) ((rD p).2 (hr.borderDom hp))

/-- **C12.** An accepted reach-while-stay certificate: along every trajectory from the initial set, as long as the
goal has not been visited, the state is in the safe set and the certificate has decreased at rate 1/100. -/
theorem C12_rws_stays_until_goal (s : Setup) (hs : SmoothSetup s) (hr : ReachSets s.nVars s.domains)
    (hc : s.cert = .RWS ∨ s.cert = .RWA ∨ s.cert = .RSWS ∨ s.cert = .RSWA) (groups)
    (hq : queriesCT s = .ok groups) (ha : Accepted s.nVars groups)
    (T : ℝ) (ξ : ℝ → Pt s.nVars) (hξ : Trajectory (field s.nVars s.f) T ξ)
    (h0 : ξ 0 ∈ region s.nVars s.domains XI) :
    ∀ t ∈ Icc 0 T, (∀ r ∈ Icc 0 t, ξ r ∉ region s.nVars s.domains XG) →
      ξ t ∈ region s.nVars s.domains XS ∧
      certValue s.rounding s.quad s.net (ξ t) ≤ certValue s.rounding s.quad s.net (ξ 0) - t / 100 ∧
      certValue s.rounding s.quad s.net (ξ 0) ≤ 0 := by
  obtain ⟨d, V, Vdot, h1, h2, h3⟩ := queriesCT_inv hq
  have h3' : rwsConstraints d V Vdot = .ok groups := by
    rcases hc with hc | hc | hc | hc <;> (rw [hc] at h3; exact h3)
  have h1' := initialise_single h1 (by rcases hc with hc | hc | hc | hc <;> simp [hc])
  obtain ⟨H1, H2, H3⟩ := rws_pointwise hs.lib hs.sets hr h1' (fun _ _ => rfl) h3'
    (accepted_refutes (rws_distinct h3') ha)
  intro t ht hno
  have hg0 := H1 _ h0
  rw [certValue_eq h2] at hg0
  obtain ⟨a, b⟩ := reach_until (γ := 1/100) (by norm_num) (traj_cont hξ) (traj_deriv h2 hs.size hs.smooth hξ)
    (hr.initSafe h0) hg0
    (fun r _ hf => by have := H2 _ hf; rwa [certValue_eq h2] at this)
    (fun r _ ha hg hle => H3 _ ha hg (by rwa [certValue_eq h2])) t ht hno
  exact ⟨a, by linarith, hg0⟩

/-- A continuous function on a bounded set of states is bounded below. -/
theorem bddBelow_cert (n : ℕ) (rnd : ℤ) (quad : Bool) (net : Net) {A : Set (Pt n)}
    (hA : Bornology.IsBounded A) : ∃ m : ℝ, ∀ p ∈ A, m ≤ certValue rnd quad net p := by
  have hc := hA.isCompact_closure
  obtain ⟨m, hm⟩ := hc.bddBelow_image (continuous_certValue n rnd quad net).continuousOn
  exact ⟨m, fun p hp => hm ⟨p, subset_closure hp, rfl⟩⟩

theorem traj_restrict {n : ℕ} {F : Pt n → Pt n} {T T' : ℝ} {ξ : ℝ → Pt n} (h : Trajectory F T ξ) (hT : T' ≤ T) :
    Trajectory F T' ξ := fun t ht => (h t ⟨ht.1, ht.2.trans hT⟩).mono (Icc_subset_Icc_right hT)

/-- **C12.** If the safe set is bounded, the goal is reached within a time bound `τ` common to all trajectories from
the initial set; up to then the trajectory is in the safe set. -/
theorem C12_rws_reaches_goal (s : Setup) (hs : SmoothSetup s) (hr : ReachSets s.nVars s.domains)
    (hc : s.cert = .RWS ∨ s.cert = .RWA ∨ s.cert = .RSWS ∨ s.cert = .RSWA) (groups)
    (hq : queriesCT s = .ok groups) (ha : Accepted s.nVars groups)
    (hbd : Bornology.IsBounded (region s.nVars s.domains XS)) :
    ∃ τ : ℝ, ∀ (T : ℝ) (ξ : ℝ → Pt s.nVars), Trajectory (field s.nVars s.f) T ξ → τ ≤ T →
      ξ 0 ∈ region s.nVars s.domains XI →
      (∃ t ∈ Icc 0 τ, ξ t ∈ region s.nVars s.domains XG) ∧
      ∀ t ∈ Icc 0 T, ξ t ∈ region s.nVars s.domains XS ∨ ∃ r ∈ Icc 0 t, ξ r ∈ region s.nVars s.domains XG := by
  obtain ⟨m, hm⟩ := bddBelow_cert s.nVars s.rounding s.quad s.net hbd
  refine ⟨max 0 (1 - 100 * m), fun T ξ hξ hT h0 => ⟨?_, fun t ht => ?_⟩⟩
  · have key := C12_rws_stays_until_goal s hs hr hc groups hq ha _ ξ (traj_restrict hξ hT) h0
    by_contra hno
    push Not at hno
    obtain ⟨a, b, c⟩ := key _ ⟨le_max_left _ _, le_rfl⟩ hno
    have := hm _ a
    have := le_max_right 0 (1 - 100 * m)
    linarith
  · by_cases hg : ∃ r ∈ Icc 0 t, ξ r ∈ region s.nVars s.domains XG
    · exact Or.inr hg
    · push Not at hg
      exact Or.inl (C12_rws_stays_until_goal s hs hr hc groups hq ha T ξ hξ h0 t ht hg).1

/-! ### C43: beta search -/

/-- **C43.** The beta search: the level returned passed the stay check; it lies strictly inside the initial search
interval; after `k` unsuccessful guesses the interval has width `2^{-k}` of the initial one. -/
theorem C43_beta_search (check : ℚ → Except Err Stay) (s : BetaState) (hs : s.lower < s.upper) (k : ℕ)
    (r : Option ℚ) (h : BetaRun check s k r) :
    (∀ β, r = some β → check β = .ok .ok ∧ s.lower < β ∧ β < s.upper) ∧
    ∃ s' : BetaState, s.lower ≤ s'.lower ∧ s'.upper ≤ s.upper ∧
      s'.upper - s'.lower = (s.upper - s.lower) / 2 ^ k ∧ betaStep check s' = .ok (.inl r) := by
  induction h with
  | @done s r h =>
    refine ⟨?_, s, le_rfl, le_rfl, by simp, h⟩
    rintro β rfl
    unfold betaStep at h
    split at h <;> simp at h
    rename_i hc
    subst h
    exact ⟨hc, by unfold BetaState.guess; linarith, by unfold BetaState.guess; linarith⟩
  | @step s s' k r h _ ih =>
    unfold betaStep at h
    have g1 : s.lower < s.guess := by unfold BetaState.guess; linarith
    have g2 : s.guess < s.upper := by unfold BetaState.guess; linarith
    split at h <;> simp at h <;> subst h
    · obtain ⟨a, s'', b, c, e, f⟩ := ih g1
      refine ⟨fun β hβ => ?_, s'', b, c.trans g2.le, ?_, f⟩
      · obtain ⟨x, y, z⟩ := a β hβ; exact ⟨x, y, z.trans g2⟩
      · rw [e]; simp only [BetaState.guess, pow_succ]; field_simp; ring
    · obtain ⟨a, s'', b, c, e, f⟩ := ih g2
      refine ⟨fun β hβ => ?_, s'', g1.le.trans b, c, ?_, f⟩
      · obtain ⟨x, y, z⟩ := a β hβ; exact ⟨x, g1.trans y, z⟩
      · rw [e]; simp only [BetaState.guess, pow_succ]; field_simp; ring

/-- C43: an undecided solver answer aborts the search with AssertionError. -/
theorem C43_unknown_raises (r : Answer) (s : BetaState) :
    betaStep (fun _ => stayVerdict smtBackend .unknown r) s = .error .assertionError ∧
    betaStep (fun _ => stayVerdict smtBackend r .unknown) s = .error .assertionError := by
  cases r <;> simp [betaStep, stayVerdict, smtBackend, Answer.isSat, Answer.isUnsat]

/-- C43: the search has no iteration bound: if every guess is answered "too high" it never returns. -/
theorem C43_may_not_terminate (k : ℕ) (s : BetaState) (r : Option ℚ) :
    ¬ BetaRun (fun _ => .ok .decrease) s k r := by
  induction k generalizing s with
  | zero => intro h; cases h with | done h => simp [betaStep] at h
  | succ k ih => intro h; cases h with | step h h' => exact ih _ h'

/-! ### C13 -/

/-- The relation between the configured sets for reach-and-stay. -/
structure StaySets (n : ℕ) (doms : Dict String PySet) : Prop extends ReachSets n doms where
  goalSafe : region n doms XG ⊆ region n doms XS
  goalBorder : region n doms XGB = region n doms XG
  goalBorderOK : ∀ S, Dict.get? doms XGB = some S → BoundaryOK S

/-- What a successful stay check gives, pointwise. -/
theorem stay_pointwise {R : Type} {B : Backend R} {o : ℚ → Bool → Formula → R}
    (sound : ∀ β b φ, B.isUnsat (o β b φ) = true → ∀ ρ : Env, ¬ φ.holds ρ) {s : Setup}
    (hlib : s.lib = .z3 ∨ s.lib = .dreal) (hw : WFDomains s.nVars s.domains)
    (hgb : region s.nVars s.domains XGB = region s.nVars s.domains XG)
    (hok : ∀ S, Dict.get? s.domains XGB = some S → BoundaryOK S)
    (hc : s.cert ≠ .RAR) {β : ℚ} (h : stayCheckCT B o s β = .ok .ok) :
    ∃ V Vdot, translateCT s.lib s.rounding none s.quad s.net (vars s.nVars) s.f = .ok (V, Vdot) ∧
      (∀ p ∈ frontier (region s.nVars s.domains XG), (β : ℝ) < V.eval p.env) ∧
      ∀ p ∈ region s.nVars s.domains XG,
        ¬ (p ∈ region s.nVars s.domains XS ∧ V.eval p.env < β) → Vdot.eval p.env ≤ -(1/100) := by
  unfold stayCheckCT at h
  simp only [bind, Except.bind] at h
  split at h
  · cases h
  rename_i d hd
  split at h
  · cases h
  rename_i v hv
  split at h
  · cases h
  rename_i q hq
  have hd' := initialise_single hd hc
  unfold stayQueries at hq
  simp only [bind, Except.bind] at hq
  split at hq
  · cases hq
  rename_i safe hsafe
  split at hq
  · cases hq
  rename_i goal hgoal
  split at hq
  · cases hq
  rename_i border hborder
  cases hq
  have rS := entry_region hlib hw hd' (by decide) hsafe
  have rG := entry_region hlib hw hd' (by decide) hgoal
  have rB := entry_border hlib hw hd' (by decide) hborder hok
  unfold stayVerdict at h
  split at h
  · rename_i hu
    rw [Bool.and_eq_true] at hu
    have H1 := sound _ _ _ hu.1
    have H2 := sound _ _ _ hu.2
    simp only [Formula.holds, gtZero, Term.eval, gamma] at H1 H2
    refine ⟨v.1, v.2, hv, fun p hp => ?_, fun p hp hn => ?_⟩
    · by_contra hcon
      exact H1 p.env ⟨not_lt.1 hcon, rB p (hgb ▸ hp)⟩
    · by_contra hcon
      refine H2 p.env ⟨⟨(rG p).2 hp, fun hh => hn ⟨(rS p).1 hh.1, hh.2⟩⟩, ?_⟩
      push Not at hcon; push_cast; linarith
  · split at h
    · cases h
    · split at h
      · cases h
      · split at h <;> cases h

/-- **C13.** After a successful beta search with level `β`: every trajectory that is in the goal set with
certificate value at most `β` stays in the goal set (and below the level) at all later times. -/
theorem C13_remains_in_goal {R : Type} (B : Backend R) (o : ℚ → Bool → Formula → R)
    (sound : ∀ β b φ, B.isUnsat (o β b φ) = true → ∀ ρ : Env, ¬ φ.holds ρ)
    (s : Setup) (hs : SmoothSetup s) (hc : s.cert = .RSWS ∨ s.cert = .RSWA)
    (hgb : region s.nVars s.domains XGB = region s.nVars s.domains XG)
    (hok : ∀ S, Dict.get? s.domains XGB = some S → BoundaryOK S)
    (k : ℕ) (β : ℚ) (hβ : BetaRun (stayCheckCT B o s) betaInit k (some β))
    (T t₁ : ℝ) (ξ : ℝ → Pt s.nVars) (hξ : Trajectory (field s.nVars s.f) T ξ) (ht₁ : t₁ ∈ Icc 0 T)
    (h1 : ξ t₁ ∈ region s.nVars s.domains XG)
    (h2 : certValue s.rounding s.quad s.net (ξ t₁) ≤ β) :
    ∀ t ∈ Icc t₁ T, ξ t ∈ region s.nVars s.domains XG ∧ certValue s.rounding s.quad s.net (ξ t) ≤ β := by
  have hchk := ((C43_beta_search _ betaInit (by norm_num [betaInit]) k _ hβ).1 β rfl).1
  obtain ⟨V, Vdot, hv, H1, H2⟩ := stay_pointwise sound hs.lib hs.sets hgb hok
    (by rcases hc with hc | hc <;> simp [hc]) hchk
  refine stay_in_set ((traj_cont hξ).mono (Icc_subset_Icc_left ht₁.1))
    (deriv_restrict (traj_deriv hv hs.size hs.smooth hξ) ht₁.1 le_rfl) h1 h2 (fun t _ hf => ?_)
    (fun t _ hG e => ?_)
  · have := H1 _ hf
    rwa [certValue_eq hv] at this
  · have := H2 _ hG (fun hh => by rw [certValue_eq hv] at hh; linarith [hh.2])
    linarith

/-- **C13.** An accepted reach-and-stay certificate with a successful beta search: if the safe set is bounded there
is a time `τ` such that every trajectory from the initial set stays in the safe set at all times and, from some
time `t₁ ≤ τ` on, stays in the goal set forever. -/
theorem C13_reaches_and_stays {R : Type} (B : Backend R) (o : ℚ → Bool → Formula → R)
    (sound : ∀ β b φ, B.isUnsat (o β b φ) = true → ∀ ρ : Env, ¬ φ.holds ρ)
    (s : Setup) (hs : SmoothSetup s) (hr : StaySets s.nVars s.domains)
    (hc : s.cert = .RSWS ∨ s.cert = .RSWA) (groups)
    (hq : queriesCT s = .ok groups) (ha : Accepted s.nVars groups)
    (k : ℕ) (β : ℚ) (hβ : BetaRun (stayCheckCT B o s) betaInit k (some β))
    (hbd : Bornology.IsBounded (region s.nVars s.domains XS)) :
    ∃ τ : ℝ, ∀ (T : ℝ) (ξ : ℝ → Pt s.nVars), Trajectory (field s.nVars s.f) T ξ → τ ≤ T →
      ξ 0 ∈ region s.nVars s.domains XI →
      (∃ t₁ ∈ Icc 0 τ, ∀ t ∈ Icc t₁ T, ξ t ∈ region s.nVars s.domains XG) ∧
      ∀ t ∈ Icc 0 T, ξ t ∈ region s.nVars s.domains XS := by
  have hchk := ((C43_beta_search _ betaInit (by norm_num [betaInit]) k _ hβ).1 β rfl).1
  have hcR : s.cert ≠ .RAR := by rcases hc with hc | hc <;> simp [hc]
  obtain ⟨V, Vdot, hv, _, H5⟩ := stay_pointwise sound hs.lib hs.sets hr.goalBorder hr.goalBorderOK hcR hchk
  obtain ⟨d, V', Vdot', h1, h2, h3⟩ := queriesCT_inv hq
  rw [hv] at h2
  cases h2
  have h3' : rwsConstraints d V Vdot = .ok groups := by
    rcases hc with hc | hc <;> (rw [hc] at h3; exact h3)
  have h1' := initialise_single h1 hcR
  obtain ⟨H1, H2, H3⟩ := rws_pointwise hs.lib hs.sets hr.toReachSets h1' (fun _ _ => rfl) h3'
    (accepted_refutes (rws_distinct h3') ha)
  obtain ⟨m, hm⟩ := bddBelow_cert s.nVars s.rounding s.quad s.net hbd
  set G : Set (Pt s.nVars) := {p | p ∈ region s.nVars s.domains XG ∧ certValue s.rounding s.quad s.net p ≤ β}
    with hG
  -- before the first visit of `G`
  have key : ∀ (T : ℝ) (ξ : ℝ → Pt s.nVars), Trajectory (field s.nVars s.f) T ξ →
      ξ 0 ∈ region s.nVars s.domains XI → ∀ t ∈ Icc 0 T, (∀ r ∈ Icc 0 t, ξ r ∉ G) →
      ξ t ∈ region s.nVars s.domains XS ∧ certValue s.rounding s.quad s.net (ξ t) ≤ - t / 100 := by
    intro T ξ hξ h0 t ht hno
    have hg0 := H1 _ h0
    rw [certValue_eq hv] at hg0
    obtain ⟨a, b⟩ := reach_until (γ := 1/100) (by norm_num) (traj_cont hξ)
      (traj_deriv hv hs.size hs.smooth hξ) (hr.initSafe h0) hg0
      (fun r _ hf => by have := H2 _ hf; rwa [certValue_eq hv] at this)
      (fun r _ ha hg hle => by
        by_cases hgoal : ξ r ∈ region s.nVars s.domains XG
        · refine H5 _ hgoal fun hh => hg ?_
          rw [certValue_eq hv] at hh
          exact ⟨hgoal, hh.2.le⟩
        · exact H3 _ ha hgoal (by rwa [certValue_eq hv])) t ht hno
    exact ⟨a, by linarith⟩
  have after : ∀ (T : ℝ) (ξ : ℝ → Pt s.nVars), Trajectory (field s.nVars s.f) T ξ → ∀ t₁ ∈ Icc 0 T,
      ξ t₁ ∈ G → ∀ t ∈ Icc t₁ T, ξ t ∈ region s.nVars s.domains XG := fun T ξ hξ t₁ ht₁ hg t ht =>
    (C13_remains_in_goal B o sound s hs hc hr.goalBorder hr.goalBorderOK k β hβ T t₁ ξ hξ ht₁ hg.1 hg.2 t ht).1
  refine ⟨max 0 (1 - 100 * m), fun T ξ hξ hT h0 => ⟨?_, fun t ht => ?_⟩⟩
  · have hvis : ∃ t₁ ∈ Icc 0 (max 0 (1 - 100 * m)), ξ t₁ ∈ G := by
      by_contra hno
      push Not at hno
      obtain ⟨a, b⟩ := key _ ξ (traj_restrict hξ hT) h0 _ ⟨le_max_left _ _, le_rfl⟩ hno
      have := hm _ a
      have := le_max_right 0 (1 - 100 * m)
      linarith
    obtain ⟨t₁, ht₁, hg⟩ := hvis
    exact ⟨t₁, ht₁, after T ξ hξ t₁ ⟨ht₁.1, ht₁.2.trans hT⟩ hg⟩
  · by_cases hg : ∃ r ∈ Icc 0 t, ξ r ∈ G
    · obtain ⟨r, hr', hg⟩ := hg
      exact hr.goalSafe (after T ξ hξ r ⟨hr'.1, hr'.2.trans ht.2⟩ hg t ⟨hr'.2, ht.2⟩)
    · push Not at hg
      exact (key T ξ hξ h0 t ht hg).1

/-! ### non-vacuity -/

/-- `x' = -x`, `C = 10⁶ x² - 5·10⁵`, safe set `[-1, 1]`, goal `[-1/2, 1/2]`, initial set `[3/5, 13/20]`. -/
def exReach (ct : CertType) : Setup := ⟨.z3, 1, ct,
  [(XD, .rectangle [-2] [2] none), (XI, .rectangle [3/5] [13/20] none), (XS, .rectangle [-1] [1] none),
    (XSB, .rectangle [-1] [1] none), (XG, .rectangle [-1/2] [1/2] none), (XGB, .rectangle [-1/2] [1/2] none)],
  false, 3, false, ⟨1, [⟨[[1]], some [0]⟩, ⟨[[1000000]], some [-500000]⟩], [.square]⟩, [.neg (.var 0)], 0⟩

theorem exReach_smooth (ct : CertType) : SmoothSetup (exReach ct) :=
  ⟨Or.inl rfl, by
    intro e he; simp [exReach] at he
    rcases he with rfl | rfl | rfl | rfl | rfl | rfl <;> simp [WF, exReach, noSel], rfl,
    by intro a ha; simp [exReach] at ha; simp [ha]⟩

theorem seg_mem (a b : ℚ) (p : Pt 1) : p ∈ docSet 1 (.rectangle [a] [b] none) ↔ (a : ℝ) ≤ p 0 ∧ p 0 ≤ b := by
  simp [docSet, reals, coords]

theorem seg_closed (a b : ℚ) : IsClosed (docSet 1 (.rectangle [a] [b] none)) := by
  have : docSet 1 (.rectangle [a] [b] none) = (fun p : Pt 1 => p 0) ⁻¹' Icc (a : ℝ) b := by
    ext p; rw [seg_mem]; rfl
  rw [this]
  exact isClosed_Icc.preimage (continuous_apply 0)

theorem seg_bounded (a b : ℚ) : Bornology.IsBounded (docSet 1 (.rectangle [a] [b] none)) := by
  refine (Bornology.IsBounded.pi (fun _ : Fin 1 => Metric.isBounded_Icc (a : ℝ) b)).subset fun p hp => ?_
  rw [seg_mem] at hp
  intro i _
  have : i = 0 := Subsingleton.elim _ _
  subst this
  exact hp

theorem exReach_sets (ct : CertType) : StaySets 1 (exReach ct).domains where
  initSafe := by
    intro p hp
    simp only [region, exReach, XI, XD, XS, Dict.get?_cons] at hp ⊢
    simp [seg_mem] at hp ⊢
    constructor <;> norm_num at hp ⊢ <;> linarith [hp.1, hp.2]
  initDom := by
    intro p hp
    simp only [region, exReach, XI, XD, XS, Dict.get?_cons] at hp ⊢
    simp [seg_mem] at hp ⊢
    constructor <;> norm_num at hp ⊢ <;> linarith [hp.1, hp.2]
  borderDom := by
    have : region 1 (exReach ct).domains XS = docSet 1 (.rectangle [-1] [1] none) := by
      simp [region, exReach, XI, XD, XS, Dict.get?_cons]
    rw [this]
    refine ((seg_closed _ _).frontier_subset).trans fun p hp => ?_
    simp only [region, exReach, XD, Dict.get?_cons] at ⊢
    simp [seg_mem] at hp ⊢
    constructor <;> linarith [hp.1, hp.2]
  border := by simp [region, exReach, XI, XD, XS, XSB, Dict.get?_cons]
  borderOK := by
    intro S hS
    simp [exReach, XI, XD, XS, XSB, Dict.get?_cons] at hS
    subst hS; trivial
  goalSafe := by
    intro p hp
    simp only [region, exReach, XI, XD, XS, XSB, XG, Dict.get?_cons] at hp ⊢
    simp [seg_mem] at hp ⊢
    constructor <;> norm_num at hp ⊢ <;> linarith [hp.1, hp.2]
  goalBorder := by simp [region, exReach, XI, XD, XS, XSB, XG, XGB, Dict.get?_cons]
  goalBorderOK := by
    intro S hS
    simp [exReach, XI, XD, XS, XSB, XG, XGB, Dict.get?_cons] at hS
    subst hS; trivial

theorem exReach_accepted :
    (∃ groups, queriesCT (exReach .RWS) = .ok groups ∧ Accepted 1 groups) ∧
    ∃ groups, queriesCT (exReach .RSWS) = .ok groups ∧ Accepted 1 groups := by
  have h1 : roundBy 3 1 = 1 := by decide +kernel
  have h0 : roundBy 3 0 = 0 := by decide +kernel
  have h2 : roundBy 3 1000000 = 1000000 := by decide +kernel
  have h3 : roundBy 3 (-500000) = -500000 := by decide +kernel
  refine ⟨⟨_, rfl, accepted_of_refuted (by simp [DistinctLabels, queries, XI, XU, XD]) ?_⟩,
    ⟨_, rfl, accepted_of_refuted (by simp [DistinctLabels, queries, XI, XU, XD]) ?_⟩⟩
  all_goals
    intro g hg q hq ρ h
    simp only [List.mem_cons, List.not_mem_nil, or_false] at hg
    rcases hg with rfl | rfl <;> simp only [List.mem_cons, List.not_mem_nil, or_false] at hq
    · rcases hq with rfl | rfl
      all_goals
        simp [Formula.holds, Formula.conj, Term.eval, Term.sum, leZero, geZero, gtZero, factors, vars, h1, h0,
          h2, h3, exReach, eyeJac, postVal, postGrad, gradTerms, hiddenBias, diagJac] at h
        norm_num at h
        norm_cast at h
      · nlinarith [h.1.1, h.1.2.1, h.1.2.2]
      · obtain ⟨⟨a, b⟩, c⟩ := h
        have e : ρ 0 = -1 ∨ ρ 0 = 1 := by
          have := b.1
          push_cast at this
          simpa using this
        rcases e with e | e <;> (rw [e] at a; norm_num at a)
    · subst hq
      simp [Formula.holds, Formula.conj, Term.eval, Term.sum, leZero, geZero, gtZero, factors, vars, h1, h0,
          h2, h3, exReach, eyeJac, postVal, postGrad, gradTerms, hiddenBias, diagJac, gamma] at h
      norm_num at h
      norm_cast at h
      obtain ⟨⟨a, b, c⟩, d⟩ := h
      rcases le_or_gt (-(1/2)) (ρ 0) with h' | h'
      · nlinarith [c h']
      · nlinarith

/-- A sound solver: refutes exactly the unsatisfiable formulas. -/
noncomputable def idealSolver (φ : Formula) : Answer := by
  classical exact if ∀ ρ : Env, ¬ φ.holds ρ then .unsat else .unknown

theorem idealSolver_sound (φ : Formula) (h : smtBackend.isUnsat (idealSolver φ) = true) (ρ : Env) :
    ¬ φ.holds ρ := by
  unfold idealSolver at h
  split at h
  · rename_i h'; exact h' ρ
  · simp [smtBackend, Answer.isUnsat] at h

theorem idealSolver_unsat {φ : Formula} (h : ∀ ρ : Env, ¬ φ.holds ρ) : idealSolver φ = .unsat := by
  unfold idealSolver; simp [h]

/-- Non-vacuity of C13: the beta search succeeds on the example at its first guess. -/
theorem exReach_beta :
    BetaRun (stayCheckCT smtBackend (fun _ _ => idealSolver) (exReach .RSWS)) betaInit 0 (some (-499500)) := by
  have h1 : roundBy 3 1 = 1 := by decide +kernel
  have h0 : roundBy 3 0 = 0 := by decide +kernel
  have h2 : roundBy 3 1000000 = 1000000 := by decide +kernel
  have h3 : roundBy 3 (-500000) = -500000 := by decide +kernel
  have hg : betaInit.guess = -499500 := by norm_num [betaInit, BetaState.guess]
  apply BetaRun.done
  have key : stayCheckCT smtBackend (fun _ _ => idealSolver) (exReach .RSWS) (-499500) = .ok .ok := by
    have : ∃ q1 q2, (∀ ρ : Env, ¬ Formula.holds ρ q1) ∧ (∀ ρ : Env, ¬ Formula.holds ρ q2) ∧
        stayCheckCT smtBackend (fun _ _ => idealSolver) (exReach .RSWS) (-499500)
          = stayVerdict smtBackend (idealSolver q1) (idealSolver q2) := by
      refine ⟨_, _, ?_, ?_, rfl⟩
      · intro ρ h
        simp [Formula.holds, Formula.conj, Term.eval, Term.sum, leZero, geZero, gtZero, factors, vars, h1, h0,
          h2, h3, exReach, eyeJac, postVal, postGrad, gradTerms, hiddenBias, diagJac] at h
        norm_num at h
        norm_cast at h
        obtain ⟨a, b, c⟩ := h
        have e : ρ 0 = -(1/2) ∨ ρ 0 = 1/2 := by
          push_cast at b
          simpa using b
        rcases e with e | e <;> (rw [e] at a; norm_num at a)
      · intro ρ h
        simp [Formula.holds, Formula.conj, Term.eval, Term.sum, leZero, geZero, gtZero, factors, vars, h1, h0,
          h2, h3, exReach, eyeJac, postVal, postGrad, gradTerms, hiddenBias, diagJac, gamma] at h
        norm_num at h
        norm_cast at h
        obtain ⟨⟨⟨a, b⟩, c⟩, d⟩ := h
        have := c (by push_cast; linarith) (by linarith)
        push_cast at this
        nlinarith
    obtain ⟨q1, q2, e1, e2, e⟩ := this
    rw [e, idealSolver_unsat e1, idealSolver_unsat e2]; rfl
  simp only [betaStep, hg, key]

/-- The hypotheses of `C13_reaches_and_stays` are met by the example. -/
example : ∃ τ : ℝ, ∀ (T : ℝ) (ξ : ℝ → Pt 1), Trajectory (field 1 (exReach .RSWS).f) T ξ → τ ≤ T →
      ξ 0 ∈ region 1 (exReach .RSWS).domains XI →
      (∃ t₁ ∈ Icc 0 τ, ∀ t ∈ Icc t₁ T, ξ t ∈ region 1 (exReach .RSWS).domains XG) ∧
      ∀ t ∈ Icc 0 T, ξ t ∈ region 1 (exReach .RSWS).domains XS := by
  obtain ⟨groups, hq, ha⟩ := exReach_accepted.2
  refine C13_reaches_and_stays smtBackend (fun _ _ => idealSolver) (fun _ _ => idealSolver_sound) (exReach .RSWS)
    (exReach_smooth _) (exReach_sets _) (Or.inl rfl) groups hq ha 0 _ exReach_beta ?_
  have : region 1 (exReach .RSWS).domains XS = docSet 1 (.rectangle [-1] [1] none) := by
    simp [region, exReach, XI, XD, XS, Dict.get?_cons]
  show Bornology.IsBounded (region 1 _ XS)
  rw [this]; exact seg_bounded _ _

/-! ### a border formula that is vacuous -/

/-- `x' = 1`, `C = -x - 5`, safe set the *open* box `(-1, 1)`, initial set `[0, 1/2]`, goal `[-9/10, -8/10]`. -/
def exOpenBorder : Setup := ⟨.z3, 1, .RWS,
  [(XD, .rectangle [-2] [2] none), (XI, .rectangle [0] [1/2] none), (XS, .openRectangle [-1] [1] none),
    (XSB, .openRectangle [-1] [1] none), (XG, .rectangle [-9/10] [-8/10] none)],
  false, 3, false, ⟨1, [⟨[[-1]], some [-5]⟩], []⟩, [.const 1], 0⟩

/-- C12 is false when the safe set is an open box: its border formula is unsatisfiable, so the border query is
vacuous; this setup is accepted, yet its trajectories leave the safe set without ever visiting the goal. -/
theorem C12_open_safe_set_unsound :
    SmoothSetup exOpenBorder ∧
    (∃ groups, queriesCT exOpenBorder = .ok groups ∧ Accepted 1 groups) ∧
    ∃ ξ : ℝ → Pt 1, Trajectory (field 1 exOpenBorder.f) 2 ξ ∧ ξ 0 ∈ region 1 exOpenBorder.domains XI ∧
      (∀ t ∈ Icc (0:ℝ) 2, ξ t ∈ region 1 exOpenBorder.domains XD) ∧
      (∀ t ∈ Icc (0:ℝ) 2, ξ t ∉ region 1 exOpenBorder.domains XG) ∧
      ξ 2 ∉ region 1 exOpenBorder.domains XS := by
  have h1 : roundBy 3 (-1) = -1 := by decide +kernel
  have h5 : roundBy 3 (-5) = -5 := by decide +kernel
  refine ⟨⟨Or.inl rfl, by
    intro e he; simp [exOpenBorder] at he
    rcases he with rfl | rfl | rfl | rfl | rfl <;> simp [WF, exOpenBorder, noSel], rfl,
    by intro a ha; simp [exOpenBorder] at ha⟩,
    ⟨_, rfl, accepted_of_refuted (by simp [DistinctLabels, queries, XI, XU, XD]) ?_⟩,
    fun t _ => t, ?_, ?_, ?_, ?_, ?_⟩
  · intro g hg q hq ρ h
    simp only [List.mem_cons, List.not_mem_nil, or_false] at hg
    rcases hg with rfl | rfl <;> simp only [List.mem_cons, List.not_mem_nil, or_false] at hq
    · rcases hq with rfl | rfl
      all_goals
        simp [Formula.holds, Formula.conj, Term.eval, Term.sum, leZero, geZero, gtZero, factors, vars, h1, h5,
          exOpenBorder, eyeJac, postVal, postGrad, gradTerms, hiddenBias, diagJac] at h
        try norm_num at h
        try linarith [h.1.1, h.1.2.1, h.1.2.2]
      rcases h.1.2.1 with e | e <;> linarith [h.1.2.2.1, h.1.2.2.2]
    · subst hq
      simp [Formula.holds, Formula.conj, Term.eval, Term.sum, leZero, geZero, gtZero, factors, vars, h1, h5,
          exOpenBorder, eyeJac, postVal, postGrad, gradTerms, hiddenBias, diagJac, gamma] at h
      norm_num at h
  · intro t _
    rw [hasDerivWithinAt_pi]
    intro i
    refine HasDerivWithinAt.congr_deriv (hasDerivAt_id t).hasDerivWithinAt ?_
    simp [field, exOpenBorder, Term.eval]
  · simp [region, exOpenBorder, XI, XD, Dict.get?_cons, seg_mem]
  · intro t ht
    simp [region, exOpenBorder, XI, XD, Dict.get?_cons, seg_mem]
    constructor <;> linarith [ht.1, ht.2]
  · intro t ht
    simp [region, exOpenBorder, XI, XD, XS, XSB, XG, Dict.get?_cons, seg_mem]
    intro h
    norm_num at h ⊢
    linarith [ht.1]
  · simp [region, exOpenBorder, docSet, reals, coords, XI, XD, XS, Dict.get?]

end Fossil

/-
C82: networks with ReLU units. The formula used as derivative is wrong at kinks, but along every trajectory only at
countably many times; the guarantees of all certificates with inequality conditions survive, with the exception of
starting values exactly at the level.
-/
import Verif.Props.C47_Stability
import Verif.Lemmas.LaSalle

namespace Fossil
open Spec Set Filter Topology

/-- A continuous-time setup a user can run, with any activations: an SMT library in use, well-formed sets, a network for
the right number of variables. -/
structure Spec.AnySetup (s : Setup) : Prop where
  lib : s.lib = .z3 ∨ s.lib = .dreal
  sets : WFDomains s.nVars s.domains
  size : s.net.inputSize = s.nVars

/-- No ReLU unit of the verified network is exactly at its kink at `p`. -/
def Spec.AwayFromKinks (s : Setup) (p : Pt s.nVars) : Prop :=
  noKink (roundedNet s.rounding s.net).layers.dropLast s.net.acts (coordList p)

/-- **C82 (derivative).** For any activations: along every trajectory the certificate is continuous, and the Lie-derivative
formula sent to the solver is its rate of change at all but countably many times. -/
theorem C82_derivative_almost_always (lib : Lib) (rnd : ℤ) (quad : Bool) (net : Net) (n : ℕ) (f : List Term)
    (V Vdot : Term) (h : translateCT lib rnd none quad net (vars n) f = .ok (V, Vdot)) (hn : net.inputSize = n)
    (T : ℝ) (ξ : ℝ → Pt n) (hξ : Trajectory (field n f) T ξ) :
    ContinuousOn (fun t => certValue rnd quad net (ξ t)) (Icc 0 T) ∧
    ∃ E : Set ℝ, E.Countable ∧ ∀ t ∈ Icc 0 T, t ∉ E →
      HasDerivWithinAt (fun τ => certValue rnd quad net (ξ τ)) (Vdot.eval (ξ t).env) (Icc 0 T) t :=
  ⟨(traj_off h hn hξ).cont, (traj_off h hn hξ).der⟩

/-- **C82 (Lyapunov).** Along every trajectory that stays in the domain and away from the origin, an accepted Lyapunov
certificate strictly decreases, whatever the activations. -/
theorem C82_lyapunov_decreases (s : Setup) (hs : AnySetup s) (hc : s.cert = .LYAPUNOV) (groups)
    (hq : queriesCT s = .ok groups) (ha : Accepted s.nVars groups)
    (T : ℝ) (ξ : ℝ → Pt s.nVars) (hξ : Trajectory (field s.nVars s.f) T ξ)
    (hin : ∀ t ∈ Icc 0 T, ξ t ∈ region s.nVars s.domains XD ∧ ξ t ≠ 0) :
    StrictAntiOn (fun t => certValue s.rounding s.quad s.net (ξ t)) (Icc 0 T) := by
  obtain ⟨d, V, Vdot, h1, h2, h3⟩ := queriesCT_inv hq
  rw [hc] at h3
  obtain ⟨dom, hd, H⟩ := lyap_inv h3 ha
  have h1' := initialise_single h1 (by simp [hc])
  exact (traj_off h2 hs.size hξ).strictAnti fun t ht =>
    (H _ ((entry_region hs.lib hs.sets h1' (by decide) hd _).2 (hin t ht).1) (hin t ht).2).2

/-- The facts about an accepted Lyapunov certificate that the stability theorems use. -/
theorem lyap_facts_off (s : Setup) (hs : AnySetup s) (hc : s.cert = .LYAPUNOV) (groups)
    (hq : queriesCT s = .ok groups) (ha : Accepted s.nVars groups) :
    ∃ L : Pt s.nVars → ℝ, OffLie (field s.nVars s.f) (certValue s.rounding s.quad s.net) L ∧
      ∀ p ∈ region s.nVars s.domains XD, p ≠ 0 →
        ((s.llo = false ∨ PDNet s.net) → 0 < certValue s.rounding s.quad s.net p) ∧ L p < 0 := by
  obtain ⟨d, V, Vdot, h1, h2, h3⟩ := queriesCT_inv hq
  rw [hc] at h3
  obtain ⟨dom, hd, H⟩ := lyap_inv h3 ha
  have h1' := initialise_single h1 (by simp [hc])
  refine ⟨fun q => Vdot.eval q.env, fun T ξ hξ => traj_off h2 hs.size hξ, fun p hp h0 => ?_⟩
  have := H p ((entry_region hs.lib hs.sets h1' (by decide) hd p).2 hp) h0
  refine ⟨fun hpd => ?_, this.2⟩
  rcases hpd with h | h
  · rw [← certValue_eq h2]; exact this.1 h
  · exact C07_llo_positive_ct s hs.lib hs.sets hc h groups hq ha p hp h0

/-- **C82 (stability).** If a Lyapunov certificate with any activations is accepted on a neighbourhood of the origin and
vanishes at the origin, the origin is stable, and asymptotically stable when the vector field is continuous. -/
theorem C82_lyapunov_stability (s : Setup) (hs : AnySetup s) (hc : s.cert = .LYAPUNOV) (groups)
    (hq : queriesCT s = .ok groups) (ha : Accepted s.nVars groups) (hpd : s.llo = false ∨ PDNet s.net)
    (hz : s.quad = true ∨ ZeroNet s.net) (hD : region s.nVars s.domains XD ∈ 𝓝 0) :
    Stable (field s.nVars s.f) ∧ (Continuous (field s.nVars s.f) → AsympStable (field s.nVars s.f)) := by
  obtain ⟨L, hL, H⟩ := lyap_facts_off s hs hc groups hq ha
  have hV := continuous_certValue s.nVars s.rounding s.quad s.net
  have h0 := C47_vanishes_at_origin s.nVars s.rounding s.quad s.net hz
  have hpos : ∀ p ∈ region s.nVars s.domains XD, p ≠ 0 →
      certValue s.rounding s.quad s.net 0 < certValue s.rounding s.quad s.net p := fun p hp hp0 => by
    rw [h0]; exact (H p hp hp0).1 hpd
  exact ⟨stable_off hV hL hD hpos fun p hp hp0 => (H p hp hp0).2.le, fun hF =>
    asympStable_off hF hV hL hD hpos fun p hp hp0 => (H p hp hp0).2⟩

/-- **C82 (region of attraction of a Lyapunov function).** Every trajectory that starts in a compact part `A` of the domain,
at or below a level that the certificate exceeds on the whole frontier of `A`, converges to the origin, uniformly. -/
theorem C82_lyapunov_attraction (s : Setup) (hs : AnySetup s) (hc : s.cert = .LYAPUNOV) (groups)
    (hq : queriesCT s = .ok groups) (ha : Accepted s.nVars groups) (hpd : s.llo = false ∨ PDNet s.net)
    (hz : s.quad = true ∨ ZeroNet s.net) (hF : Continuous (field s.nVars s.f))
    (A : Set (Pt s.nVars)) (hA : IsCompact A) (hAD : A ⊆ region s.nVars s.domains XD) (c : ℝ)
    (hfr : ∀ p ∈ frontier A, c < certValue s.rounding s.quad s.net p) :
    Attracts (field s.nVars s.f) {p | p ∈ A ∧ certValue s.rounding s.quad s.net p ≤ c} := by
  obtain ⟨L, hL, H⟩ := lyap_facts_off s hs hc groups hq ha
  refine attracts_off hF (continuous_certValue s.nVars s.rounding s.quad s.net) hL hA (fun p hp hp0 => ?_)
    (fun p hp hp0 => (H p (hAD hp) hp0).2) hfr
  rw [C47_vanishes_at_origin s.nVars s.rounding s.quad s.net hz]
  exact (H p (hAD hp) hp0).1 hpd

/-- **C82 (domains with a hole).** For a domain that excludes a region `H` around the origin, with no condition at the origin:
let `A` be compact, its points outside `H` in the domain, the certificate above `c` on the frontier of `A` and at most
`b` on `H`. Then trajectories that start in `A` at or below a level `c₀ < c` never leave `A`, stay at or below `c₀`, and for each
level `b' > b` they are at or below `b'` after a common time. -/
theorem C82_lyapunov_ultimate_bound (s : Setup) (hs : AnySetup s) (hc : s.cert = .LYAPUNOV) (groups)
    (hq : queriesCT s = .ok groups) (ha : Accepted s.nVars groups) (hF : Continuous (field s.nVars s.f))
    (A H : Set (Pt s.nVars)) (hA : IsCompact A) (hAD : ∀ p ∈ A, p ∉ H → p ∈ region s.nVars s.domains XD ∧ p ≠ 0)
    (b c₀ c : ℝ) (hH : ∀ p ∈ A, p ∈ H → certValue s.rounding s.quad s.net p ≤ b)
    (hfr : ∀ p ∈ frontier A, c ≤ certValue s.rounding s.quad s.net p) (b' : ℝ) (hb : b < b') (hbc : b' ≤ c₀)
    (hcc : c₀ < c) :
    ∃ τ : ℝ, ∀ (T : ℝ) (ξ : ℝ → Pt s.nVars), Trajectory (field s.nVars s.f) T ξ → ξ 0 ∈ A →
      certValue s.rounding s.quad s.net (ξ 0) ≤ c₀ → ∀ t ∈ Icc 0 T,
        ξ t ∈ A ∧ certValue s.rounding s.quad s.net (ξ t) ≤ c₀ ∧
        (τ ≤ t → certValue s.rounding s.quad s.net (ξ t) ≤ b') := by
  obtain ⟨L, hL, h2⟩ := lyap_facts_off s hs hc groups hq ha
  refine ultimate_off hF (continuous_certValue s.nVars s.rounding s.quad s.net) hL hA hbc hcc (fun p hp hle _ => ?_) hfr
  obtain ⟨h3, h4⟩ := hAD p hp fun h => by linarith [hH p hp h]
  exact (h2 p h3 h4).2

/-- **C82 (BarrierAlt).** An accepted BarrierAlt certificate implies safety for continuous dynamics, whatever the
activations. -/
theorem C82_barrierAlt_safety (s : Setup) (hs : AnySetup s) (hc : s.cert = .BARRIERALT) (groups)
    (hq : queriesCT s = .ok groups) (ha : Accepted s.nVars groups)
    (T : ℝ) (ξ : ℝ → Pt s.nVars) (hξ : Trajectory (field s.nVars s.f) T ξ)
    (h0 : ξ 0 ∈ region s.nVars s.domains XI) (hin : ∀ t ∈ Icc 0 T, ξ t ∈ region s.nVars s.domains XD) :
    ∀ t ∈ Icc 0 T, ξ t ∉ region s.nVars s.domains XU := by
  obtain ⟨d, V, Vdot, h1, h2, h3⟩ := queriesCT_inv hq
  rw [hc] at h3
  obtain ⟨dom, init, un, hd, hi, hu, H1, H2, H3⟩ :=
    barrierAlt_inv (n := s.nVars) h3 (accepted_refutes (barrierAlt_distinct h3) ha)
  have h1' := initialise_single h1 (by simp [hc])
  have rD := entry_region hs.lib hs.sets h1' (by decide) hd
  have rI := entry_region hs.lib hs.sets h1' (by decide) hi
  have rU := entry_region hs.lib hs.sets h1' (by decide) hu
  intro t ht hU
  have h00 : (0:ℝ) ∈ Icc 0 T := ⟨le_rfl, ht.1.trans ht.2⟩
  have h4 := (traj_off h2 hs.size hξ).antitone (fun r hr => H3 _ ((rD _).2 (hin r hr))) h00 ht ht.1
  have h5 := H1 _ ((rI _).2 h0) ((rD _).2 (hin 0 h00))
  have h6 := H2 _ ((rU _).2 hU) ((rD _).2 (hin t ht))
  rw [certValue_eq h2] at h5 h6
  dsimp only at h4
  linarith

/-- **C82 (ROA).** An accepted region-of-attraction certificate with any activations: a trajectory that starts in the initial
set, strictly below the verified level, never rises above its initial value while it is outside the 0.01-ball (with LLO it
strictly decreases). -/
theorem C82_roa_invariant (s : Setup) (hs : AnySetup s) (hc : s.cert = .ROA) (groups)
    (hq : queriesCT s = .ok groups) (ha : Accepted s.nVars groups)
    (T : ℝ) (ξ : ℝ → Pt s.nVars) (hξ : Trajectory (field s.nVars s.f) T ξ)
    (hstart : certValue s.rounding s.quad s.net (ξ 0) < (s.beta : ℝ) * (11/10))
    (hout : ∀ t ∈ Icc 0 T, (1/100)^2 < normSq (ξ t)) :
    (∀ t ∈ Icc 0 T, certValue s.rounding s.quad s.net (ξ t) ≤ certValue s.rounding s.quad s.net (ξ 0)) ∧
    (s.llo = true → StrictAntiOn (fun t => certValue s.rounding s.quad s.net (ξ t)) (Icc 0 T)) := by
  obtain ⟨d, V, Vdot, h1, h2, h3⟩ := queriesCT_inv hq
  rw [hc] at h3
  have hd : DistinctLabels groups := by
    unfold singleConstraints roaConstraints at h3
    simp only [Bind.bind, Except.bind] at h3
    split at h3
    · cases h3
    cases h3
    simp [DistinctLabels, queries]
  obtain ⟨init, hi, H1, H2⟩ := roa_inv h3 (accepted_refutes hd ha)
  have hoff := traj_off h2 hs.size hξ
  have hp : ∀ t ∈ Icc 0 T, certValue s.rounding s.quad s.net (ξ t) ≤ (s.beta : ℝ) * (11/10) →
      (if s.llo then Vdot.eval (ξ t).env < 0 else Vdot.eval (ξ t).env ≤ 0) := by
    intro t ht hle
    have := H2 (ξ t) (by rwa [certValue_eq h2]) (by have := hout t ht; norm_num at this ⊢; exact this)
    cases hl : s.llo with
    | true => rw [hl] at this; simpa using this
    | false => rw [hl] at this; simpa using this.2
  have hle : ∀ t ∈ Icc 0 T, certValue s.rounding s.quad s.net (ξ t) ≤ certValue s.rounding s.quad s.net (ξ 0) := by
    intro t ht
    have := hoff.sublevel (k := 0) le_rfl hstart (fun r hr hlt => by
      have := hp r (Ico_subset_Icc_self hr) hlt.le
      split at this
      · exact this.le
      · exact this) t ht
    simpa using this
  refine ⟨hle, fun hl => hoff.strictAnti fun t ht => ?_⟩
  have := hp t ht ((hle t ht).trans hstart.le)
  rwa [if_pos hl] at this

/-- A trajectory whose certificate value is negative at the start, or not positive away from the kinks, goes down at once. -/
theorem start_down {s : Setup} (hs : AnySetup s) {V Vdot : Term}
    (h2 : translateCT s.lib s.rounding none s.quad s.net (vars s.nVars) s.f = .ok (V, Vdot))
    {T : ℝ} {ξ : ℝ → Pt s.nVars} (hξ : Trajectory (field s.nVars s.f) T ξ) (hT : 0 ≤ T)
    (h0 : certValue s.rounding s.quad s.net (ξ 0) ≤ 0) (hd : Vdot.eval (ξ 0).env < 0)
    (hk : certValue s.rounding s.quad s.net (ξ 0) < 0 ∨ AwayFromKinks s (ξ 0)) :
    ∃ s₀ ≥ 0, (∀ t ∈ Icc 0 s₀, t ≤ T → certValue s.rounding s.quad s.net (ξ t) ≤ 0) ∧
      (s₀ ≤ T → certValue s.rounding s.quad s.net (ξ s₀) < 0) := by
  rcases hk with hk | hk
  · exact ⟨0, le_rfl, fun t ht _ => by rw [le_antisymm ht.2 ht.1]; exact h0, fun _ => hk⟩
  rcases eq_or_lt_of_le hT with e | e
  · refine ⟨1, zero_le_one, fun t ht h => ?_, fun h => ?_⟩
    · rw [← e] at h; rw [le_antisymm h ht.1]; exact h0
    · rw [← e] at h; exact absurd h (by norm_num)
  · refine starts_down (g := fun t => certValue s.rounding s.quad s.net (ξ t)) h0 e ?_ hd
    have := C17_lie_derivative s.lib s.rounding s.quad s.net s.nVars s.f V Vdot h2 hs.size (ξ 0) hk ξ _ 0 rfl
      (hξ 0 ⟨le_rfl, hT⟩)
    simpa only [certValue_eq h2] using this

/-- **C82 (reach-while-stay).** An accepted reach-while-stay certificate with any activations: along every trajectory from
the initial set that starts strictly below 0 or away from the kinks, as long as the goal has not been visited, the state is in the
safe set and the certificate has decreased at rate 1/100. -/
theorem C82_rws_stays_until_goal (s : Setup) (hs : AnySetup s) (hr : ReachSets s.nVars s.domains)
    (hc : s.cert = .RWS ∨ s.cert = .RWA ∨ s.cert = .RSWS ∨ s.cert = .RSWA) (groups)
    (hq : queriesCT s = .ok groups) (ha : Accepted s.nVars groups)
    (T : ℝ) (ξ : ℝ → Pt s.nVars) (hξ : Trajectory (field s.nVars s.f) T ξ)
    (h0 : ξ 0 ∈ region s.nVars s.domains XI)
    (hk : certValue s.rounding s.quad s.net (ξ 0) < 0 ∨ AwayFromKinks s (ξ 0)) :
    ∀ t ∈ Icc 0 T, (∀ r ∈ Icc 0 t, ξ r ∉ region s.nVars s.domains XG) →
      ξ t ∈ region s.nVars s.domains XS ∧
      certValue s.rounding s.quad s.net (ξ t) ≤ certValue s.rounding s.quad s.net (ξ 0) - t / 100 ∧
      certValue s.rounding s.quad s.net (ξ 0) ≤ 0 := by
  obtain ⟨d, V, Vdot, h1, h2, h3⟩ := queriesCT_inv hq
  have h3' : rwsConstraints d V Vdot = .ok groups := by
    rcases hc with hc | hc | hc | hc <;> (rw [hc] at h3; exact h3)
  have h1' := initialise_single h1 (by rcases hc with hc | hc | hc | hc <;> simp [hc])
  obtain ⟨H1, H2, H3⟩ := rws_pointwise hs.lib hs.sets hr h1' (fun _ _ => rfl) h3'
    (accepted_refutes (rws_distinct h3') ha)
  intro t ht hno
  have hg0 := H1 _ h0
  have hdown := start_down hs h2 hξ (ht.1.trans ht.2) (by rwa [certValue_eq h2] at hg0)
    (lt_of_le_of_lt (H3 _ (hr.initSafe h0) (hno 0 ⟨le_rfl, ht.1⟩) hg0) (by norm_num)) hk
  rw [certValue_eq h2] at hg0
  obtain ⟨a, b⟩ := (traj_off h2 hs.size hξ).reach (γ := 1/100) (by norm_num) (traj_cont hξ)
    (hr.initSafe h0) hdown
    (fun r _ hf => by have := H2 _ hf; rwa [certValue_eq h2] at this)
    (fun r _ ha hg hle => H3 _ ha hg (by rwa [certValue_eq h2])) t ht hno
  exact ⟨a, by linarith, hg0⟩

/-- **C82.** If the safe set is bounded, the goal is reached within a common time; up to then the trajectory is in the safe
set. -/
theorem C82_rws_reaches_goal (s : Setup) (hs : AnySetup s) (hr : ReachSets s.nVars s.domains)
    (hc : s.cert = .RWS ∨ s.cert = .RWA ∨ s.cert = .RSWS ∨ s.cert = .RSWA) (groups)
    (hq : queriesCT s = .ok groups) (ha : Accepted s.nVars groups)
    (hbd : Bornology.IsBounded (region s.nVars s.domains XS)) :
    ∃ τ : ℝ, ∀ (T : ℝ) (ξ : ℝ → Pt s.nVars), Trajectory (field s.nVars s.f) T ξ → τ ≤ T →
      ξ 0 ∈ region s.nVars s.domains XI →
      (certValue s.rounding s.quad s.net (ξ 0) < 0 ∨ AwayFromKinks s (ξ 0)) →
      (∃ t ∈ Icc 0 τ, ξ t ∈ region s.nVars s.domains XG) ∧
      ∀ t ∈ Icc 0 T, ξ t ∈ region s.nVars s.domains XS ∨ ∃ r ∈ Icc 0 t, ξ r ∈ region s.nVars s.domains XG := by
  obtain ⟨m, hm⟩ := bddBelow_cert s.nVars s.rounding s.quad s.net hbd
  refine ⟨max 0 (1 - 100 * m), fun T ξ hξ hT h0 hk => ⟨?_, fun t ht => ?_⟩⟩
  · have key := C82_rws_stays_until_goal s hs hr hc groups hq ha _ ξ (traj_restrict hξ hT) h0 hk
    by_contra hno
    push Not at hno
    obtain ⟨a, b, c⟩ := key _ ⟨le_max_left _ _, le_rfl⟩ hno
    have := hm _ a
    have := le_max_right 0 (1 - 100 * m)
    linarith
  · by_cases hg : ∃ r ∈ Icc 0 t, ξ r ∈ region s.nVars s.domains XG
    · exact Or.inr hg
    · push Not at hg
      exact Or.inl (C82_rws_stays_until_goal s hs hr hc groups hq ha T ξ hξ h0 hk t ht hg).1

/-- **C82 (remaining in the goal).** After a successful beta search with level `β`, for any activations: every trajectory that
is in the goal set with certificate value at most `β` stays in the goal set, and at or below the level, at all later times. -/
theorem C82_remains_in_goal {R : Type} (B : Backend R) (o : ℚ → Bool → Formula → R)
    (sound : ∀ β b φ, B.isUnsat (o β b φ) = true → ∀ ρ : Env, ¬ φ.holds ρ)
    (s : Setup) (hs : AnySetup s) (hc : s.cert = .RSWS ∨ s.cert = .RSWA)
    (hgb : region s.nVars s.domains XGB = region s.nVars s.domains XG)
    (hok : ∀ S, Dict.get? s.domains XGB = some S → BoundaryOK S)
    (k : ℕ) (β : ℚ) (hβ : BetaRun (stayCheckCT B o s) betaInit k (some β))
    (T t₁ : ℝ) (ξ : ℝ → Pt s.nVars) (hξ : Trajectory (field s.nVars s.f) T ξ) (ht₁ : t₁ ∈ Icc 0 T)
    (h1 : ξ t₁ ∈ region s.nVars s.domains XG)
    (h2 : certValue s.rounding s.quad s.net (ξ t₁) ≤ β) :
    ∀ t ∈ Icc t₁ T, ξ t ∈ region s.nVars s.domains XG ∧ certValue s.rounding s.quad s.net (ξ t) ≤ β := by
  have hchk := ((C43_beta_search _ betaInit (by norm_num [betaInit]) k _ hβ).1 β rfl).1
  obtain ⟨V, Vdot, hv, H1, H2⟩ := stay_pointwise sound hs.lib hs.sets hgb hok
    (by rcases hc with hc | hc <;> simp [hc]) hchk
  refine ((traj_off hv hs.size hξ).restrict ht₁.1 le_rfl).stay_above ((traj_cont hξ).mono (Icc_subset_Icc_left ht₁.1))
    h1 h2 (fun t _ hf => ?_) (fun t _ hG hge => ?_)
  · have := H1 _ hf
    rwa [certValue_eq hv] at this
  · have := H2 _ hG (fun hh => by rw [certValue_eq hv] at hh; linarith [hh.2])
    linarith

/-- **C82 (reach and stay).** An accepted reach-and-stay certificate with a successful beta search, any activations: if the
safe set is bounded there is a time `τ` such that every trajectory from the initial set (starting strictly below 0 or away
from the kinks) stays in the safe set at all times and, from some time `t₁ ≤ τ` on, in the goal set. -/
theorem C82_reaches_and_stays {R : Type} (B : Backend R) (o : ℚ → Bool → Formula → R)
    (sound : ∀ β b φ, B.isUnsat (o β b φ) = true → ∀ ρ : Env, ¬ φ.holds ρ)
    (s : Setup) (hs : AnySetup s) (hr : StaySets s.nVars s.domains)
    (hc : s.cert = .RSWS ∨ s.cert = .RSWA) (groups)
    (hq : queriesCT s = .ok groups) (ha : Accepted s.nVars groups)
    (k : ℕ) (β : ℚ) (hβ : BetaRun (stayCheckCT B o s) betaInit k (some β))
    (hbd : Bornology.IsBounded (region s.nVars s.domains XS)) :
    ∃ τ : ℝ, ∀ (T : ℝ) (ξ : ℝ → Pt s.nVars), Trajectory (field s.nVars s.f) T ξ → τ ≤ T →
      ξ 0 ∈ region s.nVars s.domains XI →
      (certValue s.rounding s.quad s.net (ξ 0) < 0 ∨ AwayFromKinks s (ξ 0)) →
      (∃ t₁ ∈ Icc 0 τ, ∀ t ∈ Icc t₁ T, ξ t ∈ region s.nVars s.domains XG) ∧
      ∀ t ∈ Icc 0 T, ξ t ∈ region s.nVars s.domains XS := by
  have hchk := ((C43_beta_search _ betaInit (by norm_num [betaInit]) k _ hβ).1 β rfl).1
  have hcR : s.cert ≠ .RAR := by rcases hc with hc | hc <;> simp [hc]
  obtain ⟨V, Vdot, hv, _, H5⟩ := stay_pointwise sound hs.lib hs.sets hr.goalBorder hr.goalBorderOK hcR hchk
  obtain ⟨d, V', Vdot', h1, h2, h3⟩ := queriesCT_inv hq
  rw [hv] at h2
  cases h2
  have h3' : rwsConstraints d V Vdot = .ok groups := by
    rcases hc with hc | hc <;> (rw [hc] at h3; exact h3)
  have h1' := initialise_single h1 hcR
  obtain ⟨H1, H2, H3⟩ := rws_pointwise hs.lib hs.sets hr.toReachSets h1' (fun _ _ => rfl) h3'
    (accepted_refutes (rws_distinct h3') ha)
  obtain ⟨m, hm⟩ := bddBelow_cert s.nVars s.rounding s.quad s.net hbd
  set G : Set (Pt s.nVars) := {p | p ∈ region s.nVars s.domains XG ∧ certValue s.rounding s.quad s.net p ≤ β}
    with hG
  have hrate : ∀ p, p ∈ region s.nVars s.domains XS → p ∉ G → certValue s.rounding s.quad s.net p ≤ 0 →
      Vdot.eval p.env ≤ -(1/100) := by
    intro p ha hg hle
    by_cases hgoal : p ∈ region s.nVars s.domains XG
    · refine H5 _ hgoal fun hh => hg ?_
      rw [certValue_eq hv] at hh
      exact ⟨hgoal, hh.2.le⟩
    · exact H3 _ ha hgoal (by rwa [certValue_eq hv])
  have key : ∀ (T : ℝ) (ξ : ℝ → Pt s.nVars), Trajectory (field s.nVars s.f) T ξ →
      ξ 0 ∈ region s.nVars s.domains XI →
      (certValue s.rounding s.quad s.net (ξ 0) < 0 ∨ AwayFromKinks s (ξ 0)) →
      ∀ t ∈ Icc 0 T, (∀ r ∈ Icc 0 t, ξ r ∉ G) →
      ξ t ∈ region s.nVars s.domains XS ∧ certValue s.rounding s.quad s.net (ξ t) ≤ - t / 100 := by
    intro T ξ hξ h0 hk t ht hno
    have hg0 := H1 _ h0
    rw [certValue_eq hv] at hg0
    have hdown := start_down hs hv hξ (ht.1.trans ht.2) hg0
      (lt_of_le_of_lt (hrate _ (hr.initSafe h0) (hno 0 ⟨le_rfl, ht.1⟩) hg0) (by norm_num)) hk
    obtain ⟨a, b⟩ := (traj_off hv hs.size hξ).reach (γ := 1/100) (by norm_num) (traj_cont hξ)
      (hr.initSafe h0) hdown
      (fun r _ hf => by have := H2 _ hf; rwa [certValue_eq hv] at this)
      (fun r _ ha hg hle => hrate _ ha hg hle) t ht hno
    exact ⟨a, by linarith⟩
  have after : ∀ (T : ℝ) (ξ : ℝ → Pt s.nVars), Trajectory (field s.nVars s.f) T ξ → ∀ t₁ ∈ Icc 0 T,
      ξ t₁ ∈ G → ∀ t ∈ Icc t₁ T, ξ t ∈ region s.nVars s.domains XG := fun T ξ hξ t₁ ht₁ hg t ht =>
    (C82_remains_in_goal B o sound s hs hc hr.goalBorder hr.goalBorderOK k β hβ T t₁ ξ hξ ht₁ hg.1 hg.2 t ht).1
  refine ⟨max 0 (1 - 100 * m), fun T ξ hξ hT h0 hk => ⟨?_, fun t ht => ?_⟩⟩
  · have hvis : ∃ t₁ ∈ Icc 0 (max 0 (1 - 100 * m)), ξ t₁ ∈ G := by
      by_contra hno
      push Not at hno
      obtain ⟨a, b⟩ := key _ ξ (traj_restrict hξ hT) h0 hk _ ⟨le_max_left _ _, le_rfl⟩ hno
      have := hm _ a
      have := le_max_right 0 (1 - 100 * m)
      linarith
    obtain ⟨t₁, ht₁, hg⟩ := hvis
    exact ⟨t₁, ht₁, after T ξ hξ t₁ ⟨ht₁.1, ht₁.2.trans hT⟩ hg⟩
  · by_cases hg : ∃ r ∈ Icc 0 t, ξ r ∈ G
    · obtain ⟨r, hr', hg⟩ := hg
      exact hr.goalSafe (after T ξ hξ r ⟨hr'.1, hr'.2.trans ht.2⟩ hg t ⟨hr'.2, ht.2⟩)
    · push Not at hg
      exact (key T ξ hξ h0 hk t ht hg).1

/-- **C82, end to end.** If synthesis reports success for a Lyapunov certificate with any activations (no LLO) whose network
vanishes at the origin by construction, the origin of the closed loop with the returned controller is asymptotically stable. -/
theorem C82_synthesis_stable {R K : Type} (c : SynthCfg) (w : World R K (Net × ℚ)) (hw : SoundWorld c w) (learn)
    (hlib : c.lib = .z3 ∨ c.lib = .dreal) (hsets : WFDomains c.nVars c.domains) (hc : c.cert = .LYAPUNOV) (net ctrl S out)
    (h : Solves c.loop (singleComponents w c false learn) net ctrl S out) (hf : out.found = true)
    (hsz : out.net.1.inputSize = c.nVars)
    (hpd : c.llo = false ∨ PDNet out.net.1) (hz : c.quad = true ∨ ZeroNet out.net.1)
    (hD : region c.nVars c.domains XD ∈ 𝓝 0) (hF : Continuous (field c.nVars (w.dynamics out.ctrl))) :
    AsympStable (field c.nVars (w.dynamics out.ctrl)) := by
  obtain ⟨g, hq, ha⟩ := run_accepted_any hw hlib hsets h hf
  exact (C82_lyapunov_stability _ ⟨hlib, hsets, hsz⟩ hc g hq ha hpd hz hD).2 hF

/-- **C82, end to end.** If synthesis reports success for a BarrierAlt certificate with any activations, no trajectory of the
closed loop that starts in the initial set and stays in the domain reaches the unsafe set. -/
theorem C82_synthesis_safe {R K : Type} (c : SynthCfg) (w : World R K (Net × ℚ)) (hw : SoundWorld c w) (learn)
    (hlib : c.lib = .z3 ∨ c.lib = .dreal) (hsets : WFDomains c.nVars c.domains) (hc : c.cert = .BARRIERALT) (net ctrl S out)
    (h : Solves c.loop (singleComponents w c false learn) net ctrl S out) (hf : out.found = true)
    (hsz : out.net.1.inputSize = c.nVars)
    (T : ℝ) (ξ : ℝ → Pt c.nVars) (hξ : Trajectory (field c.nVars (w.dynamics out.ctrl)) T ξ)
    (h0 : ξ 0 ∈ region c.nVars c.domains XI) (hin : ∀ t ∈ Icc 0 T, ξ t ∈ region c.nVars c.domains XD) :
    ∀ t ∈ Icc 0 T, ξ t ∉ region c.nVars c.domains XU := by
  obtain ⟨g, hq, ha⟩ := run_accepted_any hw hlib hsets h hf
  exact C82_barrierAlt_safety _ ⟨hlib, hsets, hsz⟩ hc g hq ha T ξ hξ h0 hin

/-! ### non-vacuity: accepted ReLU certificates with a kink inside the domain -/

/-- `|x| = relu(x) + relu(-x)` without biases. -/
def absNet : Net := ⟨1, [⟨[[1], [-1]], none⟩, ⟨[[1, 1]], none⟩], [.relu]⟩

/-- `V = |x|` for `x' = -x` on `[-1, 1]`. -/
def exAbs : Setup := ⟨.z3, 1, .LYAPUNOV, [(XD, .rectangle [-1] [1] none)], false, 3, false, absNet, [.neg (.var 0)], 0⟩

/-- The symbolic derivative of `relu(x) + relu(-x)`, times `x`. -/
theorem abs_slope (x : ℝ) : ((if 0 < x then (1:ℝ) else 0) + -if x < 0 then (1:ℝ) else 0) * x = |x| := by
  rcases lt_trichotomy x 0 with h | h | h
  · rw [if_neg (by linarith), if_pos h, abs_of_neg h]; ring
  · subst h; simp
  · rw [if_pos h, if_neg (by linarith), abs_of_pos h]; ring

theorem exAbs_accepted : ∃ groups, queriesCT exAbs = .ok groups ∧ Accepted 1 groups := by
  refine ⟨_, rfl, accepted_of_refuted (by simp [DistinctLabels, queries]) ?_⟩
  have h1 : roundBy 3 1 = 1 := by decide +kernel
  have h4 : roundBy 3 (-1) = -1 := by decide +kernel
  intro g hg q hq ρ h
  simp only [List.mem_singleton] at hg
  subst hg
  simp only [List.mem_singleton] at hq
  subst hq
  simp [Formula.holds, Formula.conj, Term.eval, Term.sum, leZero, geZero, factors, vars, h1, h4, exAbs, absNet, eyeJac, postVal,
    postGrad, gradTerms, hiddenBias, diagJac, Fn.eval] at h
  obtain ⟨-, b, c⟩ := h
  rcases b with b | b
  · exact c b
  rw [abs_slope] at b
  exact c (abs_nonpos_iff.1 b)

theorem exAbs_any : AnySetup exAbs :=
  ⟨Or.inl rfl, by intro e he; simp [exAbs] at he; subst he; simp [WF, exAbs, noSel], rfl⟩

theorem absNet_zero : ZeroNet absNet :=
  ⟨by intro l hl; simp [absNet] at hl; rcases hl with rfl | rfl <;> rfl, by intro a ha; simp [absNet] at ha; subst ha; simp⟩

/-- The kink of `exAbs` is at the origin, inside the domain. -/
theorem exAbs_kink : (0 : Pt 1) ∈ region 1 exAbs.domains XD ∧ ¬ AwayFromKinks exAbs 0 := by
  have h1 : roundBy 3 1 = 1 := by decide +kernel
  have h4 : roundBy 3 (-1) = -1 := by decide +kernel
  constructor
  · simp [region, exAbs, docSet, reals, coords, XD, Dict.get?]
  · intro h
    have e : coordList (0 : Pt exAbs.nVars) = [0] := by
      show List.ofFn (0 : Fin 1 → ℝ) = [0]
      simp
    rw [AwayFromKinks, e] at h
    simp [exAbs, absNet, roundedNet, noKink, coordList, roundedHidden, Layer.apply, dotR, h1, h4] at h

/-- The hypotheses of `C82_lyapunov_stability` are met by `V = |x|`. -/
example : AsympStable (field 1 exAbs.f) := by
  obtain ⟨g, h1, h2⟩ := exAbs_accepted
  exact (C82_lyapunov_stability exAbs exAbs_any rfl g h1 h2 (Or.inl rfl) (Or.inr absNet_zero) interval_nhds).2
    exLyap_cont

/-- `B = |x| - 3/2` for `x' = -x`. -/
def exAbsAlt : Setup := ⟨.z3, 1, .BARRIERALT,
  [(XD, .rectangle [-5] [5] none), (XI, .rectangle [-1] [1] none), (XU, .rectangle [2] [3] none)], false, 3, false,
  ⟨1, [⟨[[1], [-1]], some [0, 0]⟩, ⟨[[1, 1]], some [-3/2]⟩], [.relu]⟩, [.neg (.var 0)], 0⟩

theorem exAbsAlt_accepted : ∃ groups, queriesCT exAbsAlt = .ok groups ∧ Accepted 1 groups := by
  refine ⟨_, rfl, accepted_of_refuted (by simp [DistinctLabels, queries, XI, XU, XD]) ?_⟩
  have h1 : roundBy 3 1 = 1 := by decide +kernel
  have h0 : roundBy 3 0 = 0 := by decide +kernel
  have h4 : roundBy 3 (-1) = -1 := by decide +kernel
  have h5 : roundBy 3 (-3/2) = -3/2 := by decide +kernel
  intro g hg q hq ρ h
  simp only [List.mem_cons, List.not_mem_nil, or_false] at hg
  rcases hg with rfl | rfl <;> simp only [List.mem_cons, List.not_mem_nil, or_false] at hq
  · rcases hq with rfl | rfl
    all_goals
      simp [Formula.holds, Formula.conj, Term.eval, Term.sum, leZero, geZero, gtZero, factors, vars, h1, h0,
        h4, h5, Fn.eval, exAbsAlt, eyeJac, postVal, postGrad, gradTerms, hiddenBias, diagJac] at h
      norm_num at h
    · have := abs_le.2 h.1.2
      linarith [h.1.1]
    · have := le_abs_self (ρ 0)
      linarith [h.1.1, h.1.2.1]
  · subst hq
    simp [Formula.holds, Formula.conj, Term.eval, Term.sum, leZero, geZero, gtZero, factors, vars, h1, h0,
        h4, h5, Fn.eval, exAbsAlt, eyeJac, postVal, postGrad, gradTerms, hiddenBias, diagJac] at h
    rw [abs_slope] at h
    linarith [h.1, abs_nonneg (ρ 0)]

/-- The hypotheses of `C82_barrierAlt_safety` are met by `B = |x| - 3/2`, and there are trajectories to apply it to. -/
example (T : ℝ) : ∀ t ∈ Icc 0 T, (fun _ => Real.exp (-t) : Pt 1) ∉ region 1 exAbsAlt.domains XU := by
  obtain ⟨g, h1, h2⟩ := exAbsAlt_accepted
  refine C82_barrierAlt_safety exAbsAlt ⟨Or.inl rfl, ?_, rfl⟩ rfl g h1 h2 T (fun t _ => Real.exp (-t)) ?_ ?_ ?_
  · intro e he; simp [exAbsAlt] at he
    rcases he with rfl | rfl | rfl <;> simp [WF, exAbsAlt, noSel]
  · intro t _
    rw [hasDerivWithinAt_pi]
    intro i
    refine HasDerivWithinAt.congr_deriv (Real.hasDerivAt_exp (-t) |>.comp t (hasDerivAt_neg t)).hasDerivWithinAt ?_
    have : i = (0 : Fin 1) := Subsingleton.elim (α := Fin 1) _ _
    subst this
    simp [field, exAbsAlt, Term.eval, Pt.env]
  · show (fun _ => Real.exp (-0) : Pt 1) ∈ region 1 exAbsAlt.domains XI
    simp [region, exAbsAlt, docSet, reals, coords, XI, XD, Dict.get?]
  · intro t ht
    have h1 := Real.exp_pos (-t)
    have h2 : Real.exp (-t) ≤ 1 := Real.exp_le_one_iff.2 (by linarith [ht.1])
    simp [region, exAbsAlt, docSet, reals, coords, XD, Dict.get?]
    constructor <;> linarith

/-- A region-of-attraction certificate `|x|` with level 1 for `x' = -x`. -/
def exAbsROA : Setup := ⟨.z3, 1, .ROA, [(XI, .rectangle [-1/2] [1/2] none)], false, 3, false, absNet, [.neg (.var 0)], 1⟩

/-- The hypotheses of `C82_roa_invariant` are met by `exAbsROA` and the trajectory `exp(-t) / 2`. -/
example : ∃ groups, queriesCT exAbsROA = .ok groups ∧ Accepted 1 groups ∧
    certValue exAbsROA.rounding exAbsROA.quad exAbsROA.net (fun _ => 1/2 : Pt 1) < (exAbsROA.beta : ℝ) * (11/10) := by
  have h1 : roundBy 3 1 = 1 := by decide +kernel
  have h4 : roundBy 3 (-1) = -1 := by decide +kernel
  refine ⟨_, rfl, accepted_of_refuted (by simp [DistinctLabels, queries, XI, XU, XD]) ?_, ?_⟩
  · intro g hg q hq ρ h
    simp only [List.mem_singleton] at hg
    subst hg
    simp only [List.mem_singleton] at hq
    subst hq
    simp [Formula.holds, Formula.conj, Term.eval, Term.sum, leZero, geZero, gtZero, factors, vars, h1, h4, exAbsROA, absNet,
      eyeJac, postVal, postGrad, gradTerms, hiddenBias, diagJac, Fn.eval] at h
    rw [abs_slope] at h
    rcases h with h | ⟨⟨a, b⟩, c | c⟩
    · have := abs_le.2 ⟨by linarith [h.1.1], h.1.2⟩
      norm_num at this
      linarith [h.2]
    · rw [c] at b; norm_num at b
    · linarith [abs_nonneg (ρ 0)]
  · simp [certValue, exAbsROA, absNet, roundedNet, roundedHidden, roundedLast, h1, h4, Net.forward, hiddenForward, Layer.apply, dotR,
      Act.forward, coordList, at?, Bind.bind, Except.bind]
    norm_num

/-- `1000000 |x| - 700000` on the sets of `exReach`. -/
def exAbsReach (ct : CertType) : Setup := { exReach ct with
  net := ⟨1, [⟨[[1], [-1]], some [0, 0]⟩, ⟨[[1000000, 1000000]], some [-700000]⟩], [.relu]⟩ }

theorem exAbsReach_any (ct : CertType) : AnySetup (exAbsReach ct) :=
  ⟨Or.inl rfl, (exReach_smooth ct).sets, rfl⟩

theorem exAbsReach_accepted : ∃ groups, queriesCT (exAbsReach .RSWS) = .ok groups ∧ Accepted 1 groups := by
  have h1 : roundBy 3 1 = 1 := by decide +kernel
  have h4 : roundBy 3 (-1) = -1 := by decide +kernel
  have h0 : roundBy 3 0 = 0 := by decide +kernel
  have h2 : roundBy 3 1000000 = 1000000 := by decide +kernel
  have h3 : roundBy 3 (-700000) = -700000 := by decide +kernel
  refine ⟨_, rfl, accepted_of_refuted (by simp [DistinctLabels, queries, XI, XU, XD]) ?_⟩
  intro g hg q hq ρ h
  simp only [List.mem_cons, List.not_mem_nil, or_false] at hg
  rcases hg with rfl | rfl <;> simp only [List.mem_cons, List.not_mem_nil, or_false] at hq
  · rcases hq with rfl | rfl
    all_goals
      simp [Formula.holds, Formula.conj, Term.eval, Term.sum, leZero, geZero, gtZero, factors, vars, h1, h0,
        h2, h3, h4, exAbsReach, exReach, eyeJac, postVal, postGrad, gradTerms, hiddenBias, diagJac, Fn.eval] at h
      norm_num at h
    · rw [max_eq_left (by linarith), max_eq_right (by linarith)] at h
      linarith [h.1.1, h.1.2.2]
    · obtain ⟨⟨a, b⟩, c⟩ := h
      have e : ρ 0 = -1 ∨ ρ 0 = 1 := b.1
      rcases e with e | e <;> (rw [e] at a; norm_num at a)
  · subst hq
    simp [Formula.holds, Formula.conj, Term.eval, Term.sum, leZero, geZero, gtZero, factors, vars, h1, h0,
        h2, h3, h4, exAbsReach, exReach, eyeJac, postVal, postGrad, gradTerms, hiddenBias, diagJac, gamma, Fn.eval] at h
    norm_num at h
    obtain ⟨⟨-, -, c⟩, d⟩ := h
    rcases lt_or_ge (ρ 0) (-(1/2)) with h | h
    · rw [if_neg (by linarith), if_pos (by linarith)] at d; linarith
    · have := c h
      rw [if_pos (by linarith), if_neg (by linarith)] at d; linarith

/-- The beta search succeeds on the example at its first guess. -/
theorem exAbsReach_beta :
    BetaRun (stayCheckCT smtBackend (fun _ _ => idealSolver) (exAbsReach .RSWS)) betaInit 0 (some (-499500)) := by
  have h1 : roundBy 3 1 = 1 := by decide +kernel
  have h4 : roundBy 3 (-1) = -1 := by decide +kernel
  have h0 : roundBy 3 0 = 0 := by decide +kernel
  have h2 : roundBy 3 1000000 = 1000000 := by decide +kernel
  have h3 : roundBy 3 (-700000) = -700000 := by decide +kernel
  have hg : betaInit.guess = -499500 := by norm_num [betaInit, BetaState.guess]
  apply BetaRun.done
  have key : stayCheckCT smtBackend (fun _ _ => idealSolver) (exAbsReach .RSWS) (-499500) = .ok .ok := by
    have : ∃ q1 q2, (∀ ρ : Env, ¬ Formula.holds ρ q1) ∧ (∀ ρ : Env, ¬ Formula.holds ρ q2) ∧
        stayCheckCT smtBackend (fun _ _ => idealSolver) (exAbsReach .RSWS) (-499500)
          = stayVerdict smtBackend (idealSolver q1) (idealSolver q2) := by
      refine ⟨_, _, ?_, ?_, rfl⟩
      · intro ρ h
        simp [Formula.holds, Formula.conj, Term.eval, Term.sum, leZero, geZero, gtZero, factors, vars, h1, h0,
          h2, h3, h4, exAbsReach, exReach, eyeJac, postVal, postGrad, gradTerms, hiddenBias, diagJac, Fn.eval] at h
        norm_num at h
        obtain ⟨a, b, c⟩ := h
        have e : ρ 0 = -(1/2) ∨ ρ 0 = 1/2 := by
          simpa using b
        rcases e with e | e <;> (rw [e] at a; norm_num at a)
      · intro ρ h
        simp [Formula.holds, Formula.conj, Term.eval, Term.sum, leZero, geZero, gtZero, factors, vars, h1, h0,
          h2, h3, h4, exAbsReach, exReach, eyeJac, postVal, postGrad, gradTerms, hiddenBias, diagJac, gamma, Fn.eval] at h
        norm_num at h
        obtain ⟨⟨⟨a, b⟩, c⟩, d⟩ := h
        have c := c (by linarith) (by linarith)
        rcases lt_trichotomy (ρ 0) 0 with h | h | h
        · rw [if_neg (by linarith), if_pos h] at d
          rw [max_eq_right h.le, max_eq_left (by linarith)] at c
          linarith
        · rw [h] at c; norm_num at c
        · rw [if_pos h, if_neg (by linarith)] at d
          rw [max_eq_left h.le, max_eq_right (by linarith)] at c
          linarith
    obtain ⟨q1, q2, e1, e2, e⟩ := this
    rw [e, idealSolver_unsat e1, idealSolver_unsat e2]; rfl
  simp only [betaStep, hg, key]

/-- Every initial state of the example is away from the kinks, so the goal is reached and never left. -/
example : ∃ τ : ℝ, ∀ (T : ℝ) (ξ : ℝ → Pt 1), Trajectory (field 1 (exAbsReach .RSWS).f) T ξ → τ ≤ T →
      ξ 0 ∈ region 1 (exAbsReach .RSWS).domains XI →
      (∃ t₁ ∈ Icc 0 τ, ∀ t ∈ Icc t₁ T, ξ t ∈ region 1 (exAbsReach .RSWS).domains XG) ∧
      ∀ t ∈ Icc 0 T, ξ t ∈ region 1 (exAbsReach .RSWS).domains XS := by
  have h1 : roundBy 3 1 = 1 := by decide +kernel
  have h4 : roundBy 3 (-1) = -1 := by decide +kernel
  have h0 : roundBy 3 0 = 0 := by decide +kernel
  obtain ⟨groups, hq, ha⟩ := exAbsReach_accepted
  obtain ⟨τ, h⟩ := C82_reaches_and_stays smtBackend (fun _ _ => idealSolver) (fun _ _ => idealSolver_sound) (exAbsReach .RSWS)
    (exAbsReach_any _) (exReach_sets .RSWS) (Or.inl rfl) groups hq ha 0 _ exAbsReach_beta (by
      have : region 1 (exReach .RSWS).domains XS = docSet 1 (.rectangle [-1] [1] none) := by
        simp [region, exReach, XI, XD, XS, Dict.get?_cons]
      show Bornology.IsBounded (region 1 (exReach .RSWS).domains XS)
      rw [this]; exact seg_bounded _ _)
  refine ⟨τ, fun T ξ hξ hT hi => h T ξ hξ hT hi (Or.inr ?_)⟩
  have hi' : ξ 0 ∈ region 1 (exReach .RSWS).domains XI := hi
  simp only [region, exReach, XI, XD, Dict.get?_cons] at hi'
  simp [seg_mem] at hi'
  have : ξ 0 0 ≠ 0 := by intro e; rw [e] at hi'; norm_num at hi'
  show noKink _ _ _
  simp [exAbsReach, exReach, roundedNet, noKink, coordList, roundedHidden, Layer.apply, dotR, h1, h4, h0]
  exact this

/-- A synthesis run with a ReLU network that reports success, so that the hypotheses of `C82_synthesis_safe` are met. -/
example : ∃ out, Solves (SynthCfg.loop ⟨.z3, 1, .BARRIERALT, exAbsAlt.domains, false, 3, false, 10⟩)
    (singleComponents (idealWorld _ exAbsAlt.f)
      ⟨.z3, 1, .BARRIERALT, exAbsAlt.domains, false, 3, false, 10⟩ false
      (fun _ => .ok ((exAbsAlt.net, 0), ()))) (exAbsAlt.net, 0) () [] out ∧
    out.found = true ∧ out.net = (exAbsAlt.net, 0) := by
  obtain ⟨g, hq, ha⟩ := exAbsAlt_accepted
  have hd : DistinctLabels g := by
    obtain ⟨d, V, Vdot, -, -, h⟩ := queriesCT_inv hq
    exact barrierAlt_distinct h
  exact C46_synthesis_succeeds _ _ _ _ g hq hd (accepted_refutes hd ha) (by intro h; cases h)

/-! ### what fails: a start exactly at the level, on a kink -/

/-- `x' = 1` with `C = 2 relu(x) - relu(x + 10) + 10`, which is `|x|` near the origin; the initial set is `{0}`. -/
def exKinkStart : Setup := ⟨.z3, 1, .RWS,
  [(XD, .rectangle [-5] [5] none), (XI, .rectangle [0] [0] none), (XS, .rectangle [-1] [1] none),
    (XSB, .rectangle [-1] [1] none), (XG, .rectangle [-1/2] [-1/4] none)],
  false, 3, false, ⟨1, [⟨[[1], [1]], some [0, 10]⟩, ⟨[[2, -1]], some [10]⟩], [.relu]⟩, [.const 1], 0⟩

/-- The exception in the reach-while-stay theorems is real: a setup that is accepted, whose sets meet all conditions, and a trajectory
from the initial set that starts with certificate value exactly 0 at a kink, leaves the safe set and never visits the goal. -/
theorem C82_rws_kink_unsound :
    AnySetup exKinkStart ∧ ReachSets 1 exKinkStart.domains ∧
    (∃ groups, queriesCT exKinkStart = .ok groups ∧ Accepted 1 groups) ∧
    ∃ ξ : ℝ → Pt 1, Trajectory (field 1 exKinkStart.f) 2 ξ ∧ ξ 0 ∈ region 1 exKinkStart.domains XI ∧
      certValue exKinkStart.rounding exKinkStart.quad exKinkStart.net (ξ 0) = 0 ∧
      (∀ t ∈ Icc (0:ℝ) 2, ξ t ∈ region 1 exKinkStart.domains XD) ∧
      (∀ t ∈ Icc (0:ℝ) 2, ξ t ∉ region 1 exKinkStart.domains XG) ∧
      ξ 2 ∉ region 1 exKinkStart.domains XS := by
  have h1 : roundBy 3 1 = 1 := by decide +kernel
  have h0 : roundBy 3 0 = 0 := by decide +kernel
  have h2 : roundBy 3 2 = 2 := by decide +kernel
  have h4 : roundBy 3 (-1) = -1 := by decide +kernel
  have h5 : roundBy 3 10 = 10 := by decide +kernel
  refine ⟨⟨Or.inl rfl, ?_, rfl⟩, ⟨?_, ?_, ?_, ?_, ?_⟩,
    ⟨_, rfl, accepted_of_refuted (by simp [DistinctLabels, queries, XI, XU, XD]) ?_⟩,
    fun t _ => t, ?_, ?_, ?_, ?_, ?_, ?_⟩
  · intro e he; simp [exKinkStart] at he
    rcases he with rfl | rfl | rfl | rfl | rfl <;> simp [WF, exKinkStart, noSel]
  · intro p hp
    simp only [region, exKinkStart, XI, XD, XS, XSB, Dict.get?_cons] at hp ⊢
    simp [seg_mem] at hp ⊢
    constructor <;> linarith [hp.1, hp.2]
  · intro p hp
    simp only [region, exKinkStart, XI, XD, XS, XSB, Dict.get?_cons] at hp ⊢
    simp [seg_mem] at hp ⊢
    constructor <;> linarith [hp.1, hp.2]
  · have e : region 1 exKinkStart.domains XS = docSet 1 (.rectangle [-1] [1] none) := by
      simp [region, exKinkStart, XI, XD, XS, Dict.get?_cons]
    rw [e]
    intro p hp
    have := (seg_closed _ _).frontier_subset hp
    simp only [region, exKinkStart, XI, XD, XS, XSB, Dict.get?_cons]
    simp [seg_mem] at this ⊢
    constructor <;> linarith [this.1, this.2]
  · simp [region, exKinkStart, XI, XD, XS, XSB, Dict.get?_cons]
  · intro S hS
    simp [exKinkStart, XI, XD, XS, XSB, Dict.get?_cons] at hS
    subst hS; trivial
  · intro g hg q hq ρ h
    simp only [List.mem_cons, List.not_mem_nil, or_false] at hg
    rcases hg with rfl | rfl <;> simp only [List.mem_cons, List.not_mem_nil, or_false] at hq
    · rcases hq with rfl | rfl
      all_goals
        simp [Formula.holds, Formula.conj, Term.eval, Term.sum, leZero, geZero, gtZero, factors, vars, h1, h0, h2, h4, h5,
          exKinkStart, eyeJac, postVal, postGrad, gradTerms, hiddenBias, diagJac, Fn.eval] at h
        try norm_num at h
      · have e : ρ 0 = 0 := le_antisymm h.1.2.2 h.1.2.1
        rw [e] at h; norm_num at h
      · rcases h.1.2.1 with e | e <;> (rw [e] at h; norm_num at h)
    · subst hq
      simp [Formula.holds, Formula.conj, Term.eval, Term.sum, leZero, geZero, gtZero, factors, vars, h1, h0, h2, h4, h5,
          exKinkStart, eyeJac, postVal, postGrad, gradTerms, hiddenBias, diagJac, gamma, Fn.eval] at h
      norm_num at h
      obtain ⟨⟨a, b, -⟩, d⟩ := h
      rw [if_pos (by linarith : 0 < ρ 0 + 10)] at d
      rw [max_eq_left (by linarith : (0:ℝ) ≤ ρ 0 + 10)] at a
      rcases lt_or_ge 0 (ρ 0) with h | h
      · rw [max_eq_left h.le] at a; linarith
      · rw [if_neg (not_lt.2 h)] at d; norm_num at d
  · intro t _
    rw [hasDerivWithinAt_pi]
    intro i
    refine HasDerivWithinAt.congr_deriv (hasDerivAt_id t).hasDerivWithinAt ?_
    simp [field, exKinkStart, Term.eval]
  · simp [region, exKinkStart, XI, XD, Dict.get?_cons, seg_mem]
  · simp [certValue, exKinkStart, roundedNet, roundedHidden, roundedLast, h1, h0, h2, h4, h5, Net.forward, hiddenForward, Layer.apply, dotR,
      Act.forward, coordList, at?, Bind.bind, Except.bind]
  · intro t ht
    simp [region, exKinkStart, XI, XD, Dict.get?_cons, seg_mem]
    constructor <;> linarith [ht.1, ht.2]
  · intro t ht
    simp [region, exKinkStart, XI, XD, XS, XSB, XG, Dict.get?_cons, seg_mem]
    intro h
    norm_num at h ⊢
    linarith [ht.1]
  · simp [region, exKinkStart, docSet, reals, coords, XI, XD, XS, Dict.get?]

end Fossil

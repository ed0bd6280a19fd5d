/-
C93: model errors and the remaining certificates: regions of attraction, reach-and-stay, stable-while-safe, reach-avoid-remain.
-/
import Verif.Props.C92_Margin

namespace Fossil
open Spec Set Filter Topology

variable {R K : Type} {n : ℕ}

namespace Spec

/-- What a verified region of attraction means for trajectories with errors: `V` is the certificate, `level` the verified level and `I` the initial set. -/
structure TolerantRegion (F : Pt n → Pt n) (V : Pt n → ℝ) (level : ℝ) (I : Set (Pt n)) : Prop where
  /-- The initial set is in the verified level set. -/
  covers : ∀ p ∈ I, V p ≤ level
  /-- A compact set with the certificate above the level on its frontier, and below `b` in the part of the ball of radius 0.01 inside it: despite small errors, trajectories that
  start in the set at or below the level stay there, and after a common time stay at or below `b`. -/
  settles : ∀ A : Set (Pt n), IsCompact A → ∀ b : ℝ, b ≤ level → (∀ p ∈ A, normSq p ≤ (1/100)^2 → V p < b) → (∀ p ∈ frontier A, level < V p) →
    ∃ ε > 0, ∃ τ : ℝ, ∀ (T : ℝ) (ξ : ℝ → Pt n), Disturbed F ε T ξ → ξ 0 ∈ A → V (ξ 0) ≤ level →
      ∀ t ∈ Icc 0 T, ξ t ∈ A ∧ V (ξ t) ≤ level ∧ (τ ≤ t → V (ξ t) ≤ b)

end Spec

/-! ### margins -/

/-- A negative derivative in the level set outside a hole gives a margin up to the level itself. -/
theorem settles_margin {F : Pt n → Pt n} {V L : Pt n → ℝ} (hV : ContDiff ℝ 1 V) (hF : Continuous F) (hL : ∀ p, IsLieDerivAt F V L p) {level : ℝ}
    (hneg : ∀ p, V p ≤ level → (1/100)^2 < normSq p → L p < 0) {A : Set (Pt n)} (hA : IsCompact A) {b : ℝ} (hb : b ≤ level)
    (hball : ∀ p ∈ A, normSq p ≤ (1/100)^2 → V p < b) (hfr : ∀ p ∈ frontier A, level < V p) :
    ∃ ε > 0, ∃ τ : ℝ, ∀ (T : ℝ) (ξ : ℝ → Pt n), Disturbed F ε T ξ → ξ 0 ∈ A → V (ξ 0) ≤ level →
      ∀ t ∈ Icc 0 T, ξ t ∈ A ∧ V (ξ t) ≤ level ∧ (τ ≤ t → V (ξ t) ≤ b) := by
  have hLc := lie_continuous hV hF hL
  -- a level above `level` below which the derivative is still negative
  obtain ⟨l1, hl1, hl1'⟩ : ∃ l > level, ∀ p ∈ A, level ≤ V p → V p < l → L p < 0 := by
    have hc : IsCompact (A ∩ {p | level ≤ V p ∧ 0 ≤ L p}) :=
      hA.inter_right ((isClosed_le continuous_const hV.continuous).inter (isClosed_le continuous_const hLc))
    rcases (A ∩ {p | level ≤ V p ∧ 0 ≤ L p}).eq_empty_or_nonempty with he | he
    · refine ⟨level + 1, by linarith, fun p hp h1 _ => ?_⟩
      by_contra hcon
      have : p ∈ A ∩ {p | level ≤ V p ∧ 0 ≤ L p} := ⟨hp, h1, not_lt.1 hcon⟩
      rw [he] at this; exact this
    · obtain ⟨q, hq, hmin⟩ := hc.exists_isMinOn he hV.continuous.continuousOn
      refine ⟨V q, lt_of_le_of_ne hq.2.1 fun e => ?_, fun p hp h1 h2 => ?_⟩
      · refine absurd hq.2.2 (not_le.2 (hneg q e.ge ?_))
        by_contra hn
        have := hball q hq.1 (not_lt.1 hn)
        linarith
      · by_contra hcon
        exact absurd (hmin (show p ∈ A ∩ {p | level ≤ V p ∧ 0 ≤ L p} from ⟨hp, h1, not_lt.1 hcon⟩)) (not_le.2 h2)
  -- and below the values on the frontier
  obtain ⟨l2, hl2, hl2'⟩ : ∃ l > level, ∀ p ∈ frontier A, l ≤ V p := by
    have hcf : IsCompact (frontier A) := hA.of_isClosed_subset isClosed_frontier hA.isClosed.frontier_subset
    rcases (frontier A).eq_empty_or_nonempty with he | he
    · exact ⟨level + 1, by linarith, by rw [he]; simp⟩
    · obtain ⟨q, hq, hmin⟩ := hcf.exists_isMinOn he hV.continuous.continuousOn
      exact ⟨V q, hfr q hq, fun p hp => hmin hp⟩
  obtain ⟨l, hl, hll⟩ : ∃ l, level < l ∧ l < min l1 l2 := exists_between (lt_min hl1 hl2)
  have htol : ToleratesOn F V {p | L p < 0} := toleratesOn_of hV hF hL fun p hp _ => hp
  have hz : normSq (0 : Pt n) ≤ (1/100)^2 := by simp [normSq]
  obtain ⟨ε, hε, τ, h⟩ := htol.settles (A ∩ {p | V p ≤ l}) {p | normSq p ≤ (1/100)^2} (hA.inter_right (isClosed_le hV.continuous continuous_const)) (fun p hp hout => by
      have hout' : (1/100)^2 < normSq p := not_le.1 hout
      refine ⟨?_, fun e => ?_⟩
      · rcases le_total (V p) level with h1 | h1
        · exact hneg p h1 hout'
        · exact hl1' p hp.1 h1 (lt_of_le_of_lt hp.2 (hll.trans_le (min_le_left _ _)))
      · rw [e] at hout'; exact absurd hz (not_le.2 hout')) b level l hb hl (fun p hp hin => hball p hp.1 hin) (fun p hp => by
      rcases frontier_inter_subset _ _ hp with ⟨h1, -⟩ | ⟨-, h2⟩
      · exact (hll.le.trans (min_le_right _ _)).trans (hl2' p h1)
      · exact (frontier_le_subset_eq hV.continuous continuous_const h2).ge)
  refine ⟨ε, hε, τ, fun T ξ hξ h0 h1 t ht => ?_⟩
  obtain ⟨a, b⟩ := h T ξ hξ ⟨h0, h1.trans hl.le⟩ h1 t ht
  exact ⟨a.1, b⟩

/-! ### the certificates, from the query -/

/-- **C93 (ROA).** -/
theorem C93_roa (s : Setup) (hs : SmoothSetup s) (hc : s.cert = .ROA) (hllo : s.llo = true) (groups) (hq : queriesCT s = .ok groups) (ha : Accepted s.nVars groups)
    (hF : Continuous (field s.nVars s.f)) :
    TolerantRegion (field s.nVars s.f) (certValue s.rounding s.quad s.net) ((s.beta : ℝ) * (11/10)) (region s.nVars s.domains XI) := by
  obtain ⟨h1, L, h2, h3⟩ := C08_roa_conditions s hs.lib hs.sets hs.size hc groups hq ha
  rw [hllo] at h3
  exact ⟨h1, fun A hA b hb hball hfr => settles_margin (contDiff_certValue _ _ _ _ hs.smooth) hF (fun p => h2 p (noKink_of_smooth s.net hs.smooth _ _))
    (fun p hp hn => by simpa using h3 p hp hn) hA hb hball hfr⟩

/-- **C93 (reach and stay).** An accepted reach-and-stay certificate with a successful search for a level: an error bound and a time after which disturbed trajectories from the
initial set are in the goal for ever, and never leave the safe set. -/
theorem C93_reach_stay (B : Backend R) (o : ℚ → Bool → Formula → R) (sound : ∀ β b φ, B.isUnsat (o β b φ) = true → ∀ ρ : Env, ¬ φ.holds ρ)
    (s : Setup) (hs : SmoothSetup s) (hr : StaySets s.nVars s.domains) (hc : s.cert = .RSWS ∨ s.cert = .RSWA) (groups)
    (hq : queriesCT s = .ok groups) (ha : Accepted s.nVars groups) (k : ℕ) (β : ℚ) (hβ : BetaRun (stayCheckCT B o s) betaInit k (some β))
    (hbd : Bornology.IsBounded (region s.nVars s.domains XS)) :
    ∃ ε > 0, ∃ τ : ℝ, ∀ (T : ℝ) (ξ : ℝ → Pt s.nVars), Disturbed (field s.nVars s.f) ε T ξ → ξ 0 ∈ region s.nVars s.domains XI →
      (τ ≤ T → ∃ t₁ ∈ Icc 0 τ, ∀ t ∈ Icc t₁ T, ξ t ∈ region s.nVars s.domains XG) ∧ ∀ t ∈ Icc 0 T, ξ t ∈ region s.nVars s.domains XS := by
  have hchk := ((C43_beta_search _ betaInit (by norm_num [betaInit]) k _ hβ).1 β rfl).1
  have hcR : s.cert ≠ .RAR := by rcases hc with hc | hc <;> simp [hc]
  obtain ⟨V, Vdot, hv, H4, H5⟩ := stay_pointwise sound hs.lib hs.sets hr.goalBorder hr.goalBorderOK hcR hchk
  obtain ⟨d, V', Vdot', h1, h2, h3⟩ := queriesCT_inv hq
  rw [hv] at h2
  cases h2
  have h3' : rwsConstraints d V Vdot = .ok groups := by
    rcases hc with hc | hc <;> (rw [hc] at h3; exact h3)
  have h1' := initialise_single h1 hcR
  obtain ⟨H1, H2, H3⟩ := rws_pointwise hs.lib hs.sets hr.toReachSets h1' (fun _ _ => rfl) h3' (accepted_refutes (rws_distinct h3') ha)
  have hV := contDiff_certValue s.nVars s.rounding s.quad s.net hs.smooth
  have hL := smooth_lie s hs hv
  obtain ⟨M, hM, hb⟩ := gradient_bounded hV hbd
  obtain ⟨m, hm⟩ := bddBelow_cert s.nVars s.rounding s.quad s.net hbd
  have e4 : M * (1 / (200 * M)) = 1 / 200 := by field_simp
  have e3 : ∀ p ∈ region s.nVars s.domains XS, ‖fderiv ℝ (certValue s.rounding s.quad s.net) p‖ * (1 / (200 * M)) ≤ 1 / 200 := fun p hp =>
    (mul_le_mul_of_nonneg_right (hb p hp) (by positivity)).trans_eq e4
  set G : Set (Pt s.nVars) := {p | p ∈ region s.nVars s.domains XG ∧ certValue s.rounding s.quad s.net p ≤ β} with hG
  have key : ∀ (T : ℝ) (ξ : ℝ → Pt s.nVars), Disturbed (field s.nVars s.f) (1 / (200 * M)) T ξ → ξ 0 ∈ region s.nVars s.domains XI →
      ∀ t ∈ Icc 0 T, (∀ r ∈ Icc 0 t, ξ r ∉ G) → ξ t ∈ region s.nVars s.domains XS ∧ certValue s.rounding s.quad s.net (ξ t) ≤ - (1/200 * t) := by
    intro T ξ hξ h0 t ht hno
    obtain ⟨g', hg, hb'⟩ := disturbed_deriv hV hL (by positivity) hξ
    have hg0 := H1 _ h0
    rw [certValue_eq hv] at hg0
    obtain ⟨a, b⟩ := RightC.reach_until (γ := 1/200) (by norm_num) (disturbed_cont hξ) hg (hr.initSafe h0) hg0
      (fun r _ hf => by have := H2 _ hf; rwa [certValue_eq hv] at this)
      (fun r hr' hrS hrG hle => by
        have e1 : Vdot.eval (ξ r).env ≤ -(1/100) := by
          by_cases hgoal : ξ r ∈ region s.nVars s.domains XG
          · refine H5 _ hgoal fun hh => hrG ?_
            rw [certValue_eq hv] at hh
            exact ⟨hgoal, hh.2.le⟩
          · exact H3 _ hrS hgoal (by rwa [certValue_eq hv])
        have e2 := hb' r hr'
        linarith [e3 _ hrS]) t ht hno
    exact ⟨a, by linarith⟩
  have after : ∀ (T : ℝ) (ξ : ℝ → Pt s.nVars), Disturbed (field s.nVars s.f) (1 / (200 * M)) T ξ → ∀ t₁ ∈ Icc 0 T,
      ξ t₁ ∈ G → ∀ t ∈ Icc t₁ T, ξ t ∈ region s.nVars s.domains XG := fun T ξ hξ t₁ ht₁ hg₁ t ht => by
    obtain ⟨g', hg, hb'⟩ := disturbed_deriv hV hL (by positivity) hξ
    refine (RightC.stay (c := (β : ℝ)) ((disturbed_cont hξ).mono (Icc_subset_Icc_left ht₁.1)) (hg.restrict ht₁.1 le_rfl) hg₁.1 hg₁.2 (fun r _ hf => ?_)
      (fun r hr' hrG e => ?_) t ht).1
    · have := H4 _ hf
      rwa [certValue_eq hv] at this
    · have e1 := H5 _ hrG (fun hh => by rw [certValue_eq hv] at hh; linarith [hh.2])
      have e2 := hb' r ⟨ht₁.1.trans hr'.1, hr'.2⟩
      linarith [e3 _ (hr.goalSafe hrG)]
  refine ⟨1 / (200 * M), by positivity, max 0 (1 - 200 * m), fun T ξ hξ h0 => ⟨fun hT => ?_, fun t ht => ?_⟩⟩
  · have hvis : ∃ t₁ ∈ Icc 0 (max 0 (1 - 200 * m)), ξ t₁ ∈ G := by
      by_contra hno
      push Not at hno
      obtain ⟨a, b⟩ := key _ ξ (disturbed_restrict hξ hT) h0 _ ⟨le_max_left _ _, le_rfl⟩ hno
      have := hm _ a
      have := le_max_right 0 (1 - 200 * m)
      linarith
    obtain ⟨t₁, ht₁, hg⟩ := hvis
    exact ⟨t₁, ht₁, after T ξ hξ t₁ ⟨ht₁.1, ht₁.2.trans hT⟩ hg⟩
  · by_cases hg : ∃ r ∈ Icc 0 t, ξ r ∈ G
    · obtain ⟨r, hr', hg⟩ := hg
      exact hr.goalSafe (after T ξ hξ r ⟨hr'.1, hr'.2.trans ht.2⟩ hg t ⟨hr'.2, ht.2⟩)
    · push Not at hg
      exact (key T ξ hξ h0 t ht hg).1

/-- **C93 (reach-avoid-remain).** -/
theorem C93_rar (s : Setup) (hs : SmoothSetup s) (barr : Net) (hbn : barr.inputSize = s.nVars)
    (hbs : smoothActs barr) (hr : ReachSets s.nVars s.domains) (hc : s.cert = .RAR) (groups)
    (hq : queriesDouble s barr = .ok groups) (ha : Accepted s.nVars groups)
    (hbd : Bornology.IsBounded (region s.nVars s.domains XS)) (hF : Continuous (field s.nVars s.f)) (hcD : IsCompact (region s.nVars s.domains XD)) :
    ∃ ε > 0, ∃ τ : ℝ, ∀ (T : ℝ) (ξ : ℝ → Pt s.nVars), Disturbed (field s.nVars s.f) ε T ξ →
      ξ 0 ∈ region s.nVars s.domains XI → (∀ t ∈ Icc 0 T, ξ t ∈ region s.nVars s.domains XD) →
      (τ ≤ T → ∃ t ∈ Icc 0 τ, ξ t ∈ region s.nVars s.domains XG) ∧
      (∀ t ∈ Icc 0 T, ξ t ∈ region s.nVars s.domains XS ∨ ∃ r ∈ Icc 0 t, ξ r ∈ region s.nVars s.domains XG) ∧
      ∀ r ∈ Icc 0 T, ξ r ∈ region s.nVars s.domains XG → ∀ t ∈ Icc r T, ξ t ∈ region s.nVars s.domains XF := by
  have href := accepted_refutes (rar_distinct hc hq) ha
  obtain ⟨g1, d, nf, S, B, Bdot, dom, goal, b1, b2, b3, hd, hS, hnf, hq1, hB, hdom, hgoal, e, rfl, rfl, rfl⟩ := rar_split hc hq
  have hd1 : DistinctLabels g1 := by
    obtain ⟨d', V, Vdot, -, -, h3⟩ := queriesCT_inv hq1
    exact rws_distinct h3
  have hacc : Accepted s.nVars g1 := accepted_of_refuted hd1 (fun g hg => href g (by rw [e]; simp [hg]))
  obtain ⟨ε1, hε1, τ, hτ⟩ := C92_reach s.rwsHalf ⟨hs.lib, hs.sets, hs.size, hs.smooth⟩ hr (Or.inl rfl) g1 hq1 hacc hbd
  subst e
  have H1 := href _ (List.mem_append_right _ (List.mem_cons_self ..)) _ (List.mem_cons_self ..)
  have H2 := href _ (List.mem_append_right _ (List.mem_cons_self ..)) _ (List.mem_cons_of_mem _ (List.mem_cons_self ..))
  have H3 := href _ (List.mem_append_right _ (List.mem_cons_of_mem _ (List.mem_cons_self ..))) _ (List.mem_cons_self ..)
  simp only [Formula.holds, geZero, leZero, Term.eval, Rat.cast_zero] at H1 H2 H3
  have rD := entry_region hs.lib hs.sets hd (by decide) hdom
  have rG := entry_region hs.lib hs.sets hd (by decide) hgoal
  obtain ⟨nf', hnf', rN⟩ := C21_complement_formula_denotes_complement s.lib s.nVars S (wf_of_get hs.sets hS)
    (by rcases hs.lib with h | h <;> simp [h, supports])
  rw [hnf] at hnf'
  cases hnf'
  obtain ⟨ε2, hε2, hbar⟩ := barrier_margin (contDiff_certValue s.nVars s.rounding false barr hbs) hF
    (smooth_lie (s.barrierHalf barr) ⟨hs.lib, hs.sets, hbn, hbs⟩ hB) hcD (fun p hp h0 => by
      by_contra hcon
      exact H3 p.env ⟨⟨by rw [certValue_eq hB]; exact h0, not_lt.1 hcon⟩, (rD p).2 hp⟩)
  refine ⟨min ε1 ε2, lt_min hε1 hε2, τ, fun T ξ hξ h0 hin => ?_⟩
  obtain ⟨a, b⟩ := hτ T ξ (disturbed_mono hξ (min_le_left _ _)) h0
  refine ⟨a, b, fun r hr' hg t ht => ?_⟩
  by_contra hnot
  have hlt := hbar T r ξ (disturbed_mono hξ (min_le_right _ _)) hr' (by
      rw [← certValue_eq hB]
      by_contra hcon
      exact H1 (ξ r).env ⟨⟨not_lt.1 hcon, (rG _).2 hg⟩, (rD _).2 (hin r hr')⟩) (fun q hq' => hin q ⟨hr'.1.trans hq'.1, hq'.2⟩) t ht
  refine H2 (ξ t).env ⟨⟨by rw [certValue_eq hB]; exact hlt.le, (rN _).2 fun h => hnot ?_⟩, (rD _).2 (hin t ⟨hr'.1.trans ht.1, ht.2⟩)⟩
  simpa [region, hS] using h

/-! ### synthesis -/

theorem C93_synthesis_roa (c : SynthCfg) (w : World R K (Net × ℚ)) (hw : SoundWorld c w) (learn)
    (hr : SmoothRun c learn) (hc : c.cert = .ROA) (hllo : c.llo = true) (net ctrl S out)
    (h : Solves c.loop (singleComponents w c false learn) net ctrl S out) (hf : out.found = true) (hF : Continuous (field c.nVars (w.dynamics out.ctrl))) :
    TolerantRegion (field c.nVars (w.dynamics out.ctrl)) (certValue c.rounding c.quad out.net.1) ((out.net.2 : ℝ) * (11/10)) (region c.nVars c.domains XI) := by
  obtain ⟨g, hq, ha⟩ := run_accepted hw hr h hf
  exact C93_roa (c.setup out.net.1 out.net.2 (w.dynamics out.ctrl)) (smoothSetup_of_run hr h hf) hc hllo g hq ha hF

theorem C93_synthesis_reach_stay (c : SynthCfg) (w : World R K (Net × ℚ)) (hw : SoundWorld c w) (learn)
    (hr : SmoothRun c learn) (hc : c.cert = .RSWS) (hsets : StaySets c.nVars c.domains)
    (hbd : Bornology.IsBounded (region c.nVars c.domains XS)) (net ctrl S out)
    (h : Solves c.loop (singleComponents w c false learn) net ctrl S out) (hf : out.found = true) :
    ∃ ε > 0, ∃ τ : ℝ, ∀ (T : ℝ) (ξ : ℝ → Pt c.nVars), Disturbed (field c.nVars (w.dynamics out.ctrl)) ε T ξ → ξ 0 ∈ region c.nVars c.domains XI →
      (τ ≤ T → ∃ t₁ ∈ Icc 0 τ, ∀ t ∈ Icc t₁ T, ξ t ∈ region c.nVars c.domains XG) ∧ ∀ t ∈ Icc 0 T, ξ t ∈ region c.nVars c.domains XS := by
  obtain ⟨g, hq, ha⟩ := run_accepted hw hr h hf
  obtain ⟨k, st, V, Vdot, cex, -, -, ht, -, -, -, hv, hb⟩ := C27_success_is_verified _ _ _ _ _ _ h hf
  have hb : betaSearchFn (stayCheckFor w.backend (w.stayOracle st.iters) c V Vdot) = .ok true := hb hc
  have ht : translateCT c.lib c.rounding none c.quad out.net.1 (vars c.nVars) (w.dynamics out.ctrl) = .ok (V, Vdot) := ht
  unfold betaSearchFn at hb
  split at hb
  · rename_i hex
    obtain ⟨kb, β, hrun⟩ := hex
    obtain ⟨o, hsound, ho⟩ := stay_sound hw hr.lib hr.sets (by simp [hc]) st.iters
    have heq : stayCheckFor w.backend (w.stayOracle st.iters) c V Vdot = stayCheckCT w.backend o (c.setup out.net.1 out.net.2 (w.dynamics out.ctrl)) := by
      funext b
      rw [ho _ _ _ _ b ht]
      simp only [stayCheckFor, stayCheckCT, SynthCfg.setup, Bind.bind, Except.bind, ht]
    rw [heq] at hrun
    exact C93_reach_stay w.backend o hsound _ (smoothSetup_of_run hr h hf) hsets (Or.inl hc) g hq ha kb β hrun hbd
  · split at hb <;> cases hb

theorem C93_synthesis_stable_safe (c : SynthCfg) (w : World R K ((Net × ℚ) × Net)) (hw : SoundWorld c w) (learn)
    (hr : SmoothRun2 c learn) (hc : c.cert = .STABLESAFE) (hD : IsCompact (region c.nVars c.domains XD)) (net ctrl S out)
    (h : Solves c.loop (doubleComponents w c learn) net ctrl S out) (hf : out.found = true) (hF : Continuous (field c.nVars (w.dynamics out.ctrl))) :
    ∃ ε > 0, ∀ (T : ℝ) (ξ : ℝ → Pt c.nVars), Disturbed (field c.nVars (w.dynamics out.ctrl)) ε T ξ → ξ 0 ∈ region c.nVars c.domains XI →
      (∀ t ∈ Icc 0 T, ξ t ∈ region c.nVars c.domains XD) → ∀ t ∈ Icc 0 T, ξ t ∉ region c.nVars c.domains XU := by
  obtain ⟨g, i, cex, hq, hv⟩ := solve_queries_double w c learn net ctrl S out h hf
  obtain ⟨k, st, V, Vdot, cex', -, hl, -⟩ := C27_success_is_verified _ _ _ _ _ _ h hf
  obtain ⟨-, b1, b2⟩ := hr.arch _ _ _ hl
  obtain ⟨Q, P, hR, -, hP⟩ := hw.reliable
  obtain ⟨gb, hB, hacc⟩ := stable_safe_half (c.setup out.net.1.1 out.net.1.2 (w.dynamics out.ctrl)) out.net.2 hc g hq w.backend (w.noise i) (w.oracle i)
    (fun k q hBq => (hR i k).excl q (by
      rcases hP with hP | ⟨hQ, -, -, hcl, -⟩
      · exact (hP q).1
      obtain ⟨g', hg, q', hq', rfl⟩ := hBq
      exact hQ _ (queriesDouble_below (s := c.setup out.net.1.1 out.net.1.2 (w.dynamics out.ctrl)) (hcl _) hq g' hg q' hq')))
    (fun k q hBq hu => (hR i k).sound q (by
      rcases hP with hP | ⟨-, hP, hsm, hcl, -⟩
      · exact (hP q).2
      obtain ⟨gb, hgb, g, hg, q', hq', rfl⟩ := hBq
      obtain ⟨d, V, Vdot, h1, -, h3⟩ := queriesCT_inv hgb
      exact hP _ (queriesCT_below (s := (c.setup out.net.1.1 out.net.1.2 (w.dynamics out.ctrl)).barrierHalf out.net.2) (hcl _) hgb g hg _ hq')
        (single_confined hr.lib hr.sets hsm (initialise_single h1 (single_cert h3)) (by simp [Setup.barrierHalf]) h3 g hg _ hq')) hu) cex hv
  exact C92_barrier ((c.setup out.net.1.1 out.net.1.2 (w.dynamics out.ctrl)).barrierHalf out.net.2) ⟨hr.lib, hr.sets, b1, b2⟩ rfl _ hB hacc hF hD

theorem C93_synthesis_rar (c : SynthCfg) (w : World R K ((Net × ℚ) × Net)) (hw : SoundWorld c w) (learn)
    (hr : SmoothRun2 c learn) (hc : c.cert = .RAR) (hsets : ReachSets c.nVars c.domains)
    (hbd : Bornology.IsBounded (region c.nVars c.domains XS)) (hD : IsCompact (region c.nVars c.domains XD)) (net ctrl S out)
    (h : Solves c.loop (doubleComponents w c learn) net ctrl S out) (hf : out.found = true) (hF : Continuous (field c.nVars (w.dynamics out.ctrl))) :
    ∃ ε > 0, ∃ τ : ℝ, ∀ (T : ℝ) (ξ : ℝ → Pt c.nVars), Disturbed (field c.nVars (w.dynamics out.ctrl)) ε T ξ →
      ξ 0 ∈ region c.nVars c.domains XI → (∀ t ∈ Icc 0 T, ξ t ∈ region c.nVars c.domains XD) →
      (τ ≤ T → ∃ t ∈ Icc 0 τ, ξ t ∈ region c.nVars c.domains XG) ∧
      (∀ t ∈ Icc 0 T, ξ t ∈ region c.nVars c.domains XS ∨ ∃ r ∈ Icc 0 t, ξ r ∈ region c.nVars c.domains XG) ∧
      ∀ r ∈ Icc 0 T, ξ r ∈ region c.nVars c.domains XG → ∀ t ∈ Icc r T, ξ t ∈ region c.nVars c.domains XF := by
  obtain ⟨g, i, cex, hq, hv⟩ := solve_queries_double w c learn net ctrl S out h hf
  obtain ⟨k, st, V, Vdot, cex', -, hl, -⟩ := C27_success_is_verified _ _ _ _ _ _ h hf
  obtain ⟨⟨a1, a2⟩, b1, b2⟩ := hr.arch _ _ _ hl
  refine C93_rar (c.setup out.net.1.1 out.net.1.2 (w.dynamics out.ctrl)) ⟨hr.lib, hr.sets, a1, a2⟩ out.net.2 b1 b2 hsets hc g hq
    (accepted_of_world hw (fun hcl => queriesDouble_below (s := c.setup out.net.1.1 out.net.1.2 (w.dynamics out.ctrl)) (hcl _) hq) (fun hsm _ => ?_) hv) hbd hF hD
  exact rar_confined (s := c.setup out.net.1.1 out.net.1.2 (w.dynamics out.ctrl)) hr.lib hr.sets hsm hc hq

/-! ### runs on configuration files -/

theorem core_margin_roa {c : ConfigText} {cfg : SynthCfg} (hs : SetsRun c cfg) (w : World R K (Net × ℚ)) (hw : SoundWorld cfg w) (learn)
    (harch : ∀ st n k, learn st = .ok (n, k) → n.1.inputSize = c.nVars ∧ smoothActs n.1)
    (hc : c.cert = .ROA) (hllo : c.llo = true) (I : Set (Pt c.nVars)) (hI : Configures c.nVars c.domains "XI" I) (net ctrl S out)
    (h : Solves cfg.loop (singleComponents w cfg false learn) net ctrl S out) (hf : out.found = true) (hF : Continuous (field c.nVars (w.dynamics out.ctrl))) :
    TolerantRegion (field c.nVars (w.dynamics out.ctrl)) (certValue c.rounding c.quad out.net.1) ((out.net.2 : ℝ) * (11/10)) I := by
  have rI := hs.region .XI (by decide) (by decide) (by intro h; cases h) hI
  have hwf := hs.wf
  obtain ⟨doms, rfl⟩ := hs.cfg
  subst rI
  exact C93_synthesis_roa _ w hw learn ⟨hs.lib, hwf, harch⟩ hc hllo net ctrl S out h hf hF

theorem core_margin_stay {c : ConfigText} {cfg : SynthCfg} (hs : SetsRun c cfg) (w : World R K (Net × ℚ)) (hw : SoundWorld cfg w) (learn)
    (harch : ∀ st n k, learn st = .ok (n, k) → n.1.inputSize = c.nVars ∧ smoothActs n.1)
    (hc : c.cert = .RSWS) (I S D G : Set (Pt c.nVars))
    (hI : Configures c.nVars c.domains "XI" I) (hS : Configures c.nVars c.domains "XS" S) (hD : Configures c.nVars c.domains "XD" D)
    (hG : Configures c.nVars c.domains "XG" G) (h1 : I ⊆ S) (h2 : I ⊆ D) (h3 : frontier S ⊆ D) (h4 : G ⊆ S) (net ctrl Sd out)
    (h : Solves cfg.loop (singleComponents w cfg false learn) net ctrl Sd out) (hf : out.found = true) :
    ∃ ε > 0, ∃ τ : ℝ, ∀ (T : ℝ) (ξ : ℝ → Pt c.nVars), Disturbed (field c.nVars (w.dynamics out.ctrl)) ε T ξ → ξ 0 ∈ I →
      (τ ≤ T → ∃ t₁ ∈ Icc 0 τ, ∀ t ∈ Icc t₁ T, ξ t ∈ G) ∧ ∀ t ∈ Icc 0 T, ξ t ∈ S := by
  have rI := hs.region .XI (by decide) (by decide) (by intro h; cases h) hI
  have rS := hs.region .XS (by decide) (by decide) (by intro h; cases h) hS
  have rG := hs.region .XG (by decide) (by decide) (by intro h; cases h) hG
  have hsets := config_staySets hs hc I S D G hI hS hD hG h1 h2 h3 h4
  have hbd : Bornology.IsBounded S := by obtain ⟨s, -, h⟩ := hS; exact setText_bounded h
  have hwf := hs.wf
  obtain ⟨doms, rfl⟩ := hs.cfg
  subst rI rS rG
  exact C93_synthesis_reach_stay _ w hw learn ⟨hs.lib, hwf, harch⟩ hc hsets hbd net ctrl Sd out h hf

theorem core_margin_stable_safe {c : ConfigText} {cfg : SynthCfg} (hs : SetsRun c cfg) (w : World R K ((Net × ℚ) × Net)) (hw : SoundWorld cfg w) (learn)
    (harch : ∀ st n k, learn st = .ok (n, k) → (n.1.1.inputSize = c.nVars ∧ smoothActs n.1.1) ∧ (n.2.inputSize = c.nVars ∧ smoothActs n.2))
    (hc : c.cert = .STABLESAFE) (I D U : Set (Pt c.nVars)) (hI : Configures c.nVars c.domains "XI" I) (hD : Configures c.nVars c.domains "XD" D)
    (hU : Configures c.nVars c.domains "XU" U) (net ctrl S out) (h : Solves cfg.loop (doubleComponents w cfg learn) net ctrl S out)
    (hf : out.found = true) (hF : Continuous (field c.nVars (w.dynamics out.ctrl))) :
    ∃ ε > 0, ∀ (T : ℝ) (ξ : ℝ → Pt c.nVars), Disturbed (field c.nVars (w.dynamics out.ctrl)) ε T ξ → ξ 0 ∈ I → (∀ t ∈ Icc 0 T, ξ t ∈ D) → ∀ t ∈ Icc 0 T, ξ t ∉ U := by
  have rI := hs.region .XI (by decide) (by decide) (by intro h; cases h) hI
  have rD := hs.region .XD (by decide) (by decide) (by rintro -; simp [hc]) hD
  have rU := hs.region .XU (by decide) (by decide) (by intro h; cases h) hU
  have hcp : IsCompact D := by obtain ⟨s, -, h⟩ := hD; exact setText_compact h
  have hwf := hs.wf
  obtain ⟨doms, rfl⟩ := hs.cfg
  subst rI rD rU
  exact C93_synthesis_stable_safe _ w hw learn ⟨hs.lib, hwf, harch⟩ hc hcp net ctrl S out h hf hF

theorem core_margin_rar {c : ConfigText} {cfg : SynthCfg} (hs : SetsRun c cfg) (w : World R K ((Net × ℚ) × Net)) (hw : SoundWorld cfg w) (learn)
    (harch : ∀ st n k, learn st = .ok (n, k) → (n.1.1.inputSize = c.nVars ∧ smoothActs n.1.1) ∧ (n.2.inputSize = c.nVars ∧ smoothActs n.2))
    (hc : c.cert = .RAR) (I S D G P : Set (Pt c.nVars))
    (hI : Configures c.nVars c.domains "XI" I) (hS : Configures c.nVars c.domains "XS" S) (hD : Configures c.nVars c.domains "XD" D)
    (hG : Configures c.nVars c.domains "XG" G) (hP : Configures c.nVars c.domains "XF" P) (h1 : I ⊆ S) (h2 : I ⊆ D) (h3 : frontier S ⊆ D)
    (net ctrl Sd out) (h : Solves cfg.loop (doubleComponents w cfg learn) net ctrl Sd out) (hf : out.found = true)
    (hF : Continuous (field c.nVars (w.dynamics out.ctrl))) :
    ∃ ε > 0, ∃ τ : ℝ, ∀ (T : ℝ) (ξ : ℝ → Pt c.nVars), Disturbed (field c.nVars (w.dynamics out.ctrl)) ε T ξ → ξ 0 ∈ I →
      (∀ t ∈ Icc 0 T, ξ t ∈ D) → (τ ≤ T → ∃ t ∈ Icc 0 τ, ξ t ∈ G) ∧ (∀ t ∈ Icc 0 T, ξ t ∈ S ∨ ∃ r ∈ Icc 0 t, ξ r ∈ G) ∧
      ∀ r ∈ Icc 0 T, ξ r ∈ G → ∀ t ∈ Icc r T, ξ t ∈ P := by
  have ht : TakesSafeSet c.cert := by simp [TakesSafeSet, hc]
  have rI := hs.region .XI (by decide) (by decide) (by intro h; cases h) hI
  have rS := hs.region .XS (by decide) (by decide) (by intro h; cases h) hS
  have rD := hs.region .XD (by decide) (by decide) (by rintro -; simp [hc]) hD
  have rG := hs.region .XG (by decide) (by decide) (by intro h; cases h) hG
  have rP := hs.region .XF (by decide) (by decide) (by intro h; cases h) hP
  obtain ⟨data, hacc⟩ := hs.accepted
  have hsets := config_reachSets c hs.domains cfg data hacc ht I S D hI hS hD h1 h2 h3
  have hbd : Bornology.IsBounded S := by obtain ⟨s, -, h⟩ := hS; exact setText_bounded h
  have hcp : IsCompact D := by obtain ⟨s, -, h⟩ := hD; exact setText_compact h
  have hwf := hs.wf
  obtain ⟨doms, rfl⟩ := hs.cfg
  subst rI rS rD rG rP
  exact C93_synthesis_rar _ w hw learn ⟨hs.lib, hwf, harch⟩ hc hsets hbd hcp net ctrl Sd out h hf hF

section
variable {c : ConfigText} {r : Ready} {F : Pt c.nVars → Pt c.nVars} {w : World R Unit (Net × ℚ)} {T : Trainer Unit} {hidden : List ℕ} {acts : List ActivationType}

/-- **C93 (ROA file).** -/
theorem C93_file_roa (h : FileRun c r F w T hidden acts) (hc : c.cert = .ROA) (hllo : c.llo = true) (fl : ℝ → ℚ)
    (gs : ℕ → Rng) (g g' : Rng) (wt : ℕ → ℕ → ℕ → ℚ) (bs : ℕ → ℕ → ℚ) (hdraw : DrawsSome fl gs r.data)
    (I : Set (Pt c.nVars)) (hI : Configures c.nVars c.domains "XI" I) (hF : Continuous F) :
    ∃ net S out, newNet c.nVars hidden acts c.llo (certBias c.cert) wt bs = .ok net ∧ initData fl gs r.data = .ok S ∧
      Solves r.cfg.loop (singleComponents (w.withEstimate g g' r.cfg) r.cfg false (trainedLearn T r.cfg false w.dynNum)) (net, 0) () S out ∧
      (out.iters : ℤ) ≤ c.maxIters + 1 ∧
      (out.found = true → TolerantRegion F (certValue c.rounding c.quad out.net.1) ((out.net.2 : ℝ) * (11/10)) I) :=
  fileRun_total_with (G := fun out => TolerantRegion F (certValue c.rounding c.quad out.net.1) ((out.net.2 : ℝ) * (11/10)) I)
    h (by rw [hc]; refine ⟨?_, ?_, ?_⟩ <;> intro h <;> cases h) (by rw [hc]; decide) false (fun h => by cases h) fl gs g g' wt bs hdraw
    (fun learn net S out hr hs hf => by
      have := core_margin_roa hr.sets _ hr.sound learn hr.arch hc hllo I hI _ _ _ out hs hf (by rw [(hr.field _).1]; exact hF)
      rwa [(hr.field _).1] at this)

/-- **C93 (reach-and-stay file).** -/
theorem C93_file_reach_stay (h : FileRun c r F w T hidden acts) (hc : c.cert = .RSWS) (fl : ℝ → ℚ)
    (gs : ℕ → Rng) (g g' : Rng) (wt : ℕ → ℕ → ℕ → ℚ) (bs : ℕ → ℕ → ℚ) (hdraw : DrawsSome fl gs r.data)
    (I S D G : Set (Pt c.nVars)) (hI : Configures c.nVars c.domains "XI" I) (hS : Configures c.nVars c.domains "XS" S)
    (hD : Configures c.nVars c.domains "XD" D) (hG : Configures c.nVars c.domains "XG" G) (h1 : I ⊆ S) (h2 : I ⊆ D) (h3 : frontier S ⊆ D) (h4 : G ⊆ S) :
    ∃ net S0 out, newNet c.nVars hidden acts c.llo (certBias c.cert) wt bs = .ok net ∧ initData fl gs r.data = .ok S0 ∧
      Solves r.cfg.loop (singleComponents (w.withEstimate g g' r.cfg) r.cfg false (trainedLearn T r.cfg false w.dynNum)) (net, 0) () S0 out ∧
      (out.iters : ℤ) ≤ c.maxIters + 1 ∧
      (out.found = true → ∃ ε > 0, ∃ τ : ℝ, ∀ (T : ℝ) (ξ : ℝ → Pt c.nVars), Disturbed F ε T ξ → ξ 0 ∈ I →
        (τ ≤ T → ∃ t₁ ∈ Icc 0 τ, ∀ t ∈ Icc t₁ T, ξ t ∈ G) ∧ ∀ t ∈ Icc 0 T, ξ t ∈ S) :=
  fileRun_total_with (G := fun _ => ∃ ε > 0, ∃ τ : ℝ, ∀ (T : ℝ) (ξ : ℝ → Pt c.nVars), Disturbed F ε T ξ → ξ 0 ∈ I →
        (τ ≤ T → ∃ t₁ ∈ Icc 0 τ, ∀ t ∈ Icc t₁ T, ξ t ∈ G) ∧ ∀ t ∈ Icc 0 T, ξ t ∈ S)
    h (by rw [hc]; refine ⟨?_, ?_, ?_⟩ <;> intro h <;> cases h) (by rw [hc]; decide) false (fun h => by cases h) fl gs g g' wt bs hdraw
    (fun learn net S0 out hr hs hf => by
      have := core_margin_stay hr.sets _ hr.sound learn hr.arch hc I S D G hI hS hD hG h1 h2 h3 h4 _ _ _ out hs hf
      rwa [(hr.field _).1] at this)

end

section
variable {c : ConfigText} {r : Ready} {F : Pt c.nVars → Pt c.nVars} {w : World R Unit ((Net × ℚ) × Net)} {T : Trainer2 Unit} {hidden hidden2 : List ℕ}
  {acts acts2 : List ActivationType}

/-- **C93 (stable-while-safe file).** The safety half, whatever the solver answered to the Lyapunov query. -/
theorem C93_file_stable_safe (h : FileRun2 c r F w T hidden hidden2 acts acts2) (hc : c.cert = .STABLESAFE) (fl : ℝ → ℚ)
    (gs : ℕ → Rng) (wt wt2 : ℕ → ℕ → ℕ → ℚ) (bs bs2 : ℕ → ℕ → ℚ) (hdraw : DrawsSome fl gs r.data)
    (I D U : Set (Pt c.nVars)) (hI : Configures c.nVars c.domains "XI" I) (hD : Configures c.nVars c.domains "XD" D) (hU : Configures c.nVars c.domains "XU" U)
    (hF : Continuous F) :
    ∃ net net2 S out, newNet c.nVars hidden acts c.llo (certBias2 c.cert).1 wt bs = .ok net ∧
      newNet c.nVars hidden2 acts2 false (certBias2 c.cert).2 wt2 bs2 = .ok net2 ∧ initData fl gs r.data = .ok S ∧
      Solves r.cfg.loop (doubleComponents w r.cfg (trainedLearn2 T r.cfg w.dynNum)) ((net, 0), net2) () S out ∧ (out.iters : ℤ) ≤ c.maxIters + 1 ∧
      (out.found = true → ∃ ε > 0, ∀ (T : ℝ) (ξ : ℝ → Pt c.nVars), Disturbed F ε T ξ → ξ 0 ∈ I → (∀ t ∈ Icc 0 T, ξ t ∈ D) → ∀ t ∈ Icc 0 T, ξ t ∉ U) :=
  fileRun2_total_with (G := fun _ => ∃ ε > 0, ∀ (T : ℝ) (ξ : ℝ → Pt c.nVars), Disturbed F ε T ξ → ξ 0 ∈ I → (∀ t ∈ Icc 0 T, ξ t ∈ D) → ∀ t ∈ Icc 0 T, ξ t ∉ U)
    h (Or.inl hc) fl gs wt wt2 bs bs2 hdraw
    (fun learn net S0 out hr hs hf => by
      have := core_margin_stable_safe hr.sets _ hr.sound learn hr.arch hc I D U hI hD hU _ _ _ out hs hf (by rw [hr.field _]; exact hF)
      rwa [hr.field _] at this)

/-- **C93 (reach-avoid-remain file).** -/
theorem C93_file_rar (h : FileRun2 c r F w T hidden hidden2 acts acts2) (hc : c.cert = .RAR) (fl : ℝ → ℚ)
    (gs : ℕ → Rng) (wt wt2 : ℕ → ℕ → ℕ → ℚ) (bs bs2 : ℕ → ℕ → ℚ) (hdraw : DrawsSome fl gs r.data)
    (I S D G P : Set (Pt c.nVars)) (hI : Configures c.nVars c.domains "XI" I)
    (hS : Configures c.nVars c.domains "XS" S) (hD : Configures c.nVars c.domains "XD" D) (hG : Configures c.nVars c.domains "XG" G)
    (hP : Configures c.nVars c.domains "XF" P) (h1 : I ⊆ S) (h2 : I ⊆ D) (h3 : frontier S ⊆ D) (hF : Continuous F) :
    ∃ net net2 S0 out, newNet c.nVars hidden acts c.llo (certBias2 c.cert).1 wt bs = .ok net ∧
      newNet c.nVars hidden2 acts2 false (certBias2 c.cert).2 wt2 bs2 = .ok net2 ∧ initData fl gs r.data = .ok S0 ∧
      Solves r.cfg.loop (doubleComponents w r.cfg (trainedLearn2 T r.cfg w.dynNum)) ((net, 0), net2) () S0 out ∧ (out.iters : ℤ) ≤ c.maxIters + 1 ∧
      (out.found = true → ∃ ε > 0, ∃ τ : ℝ, ∀ (T : ℝ) (ξ : ℝ → Pt c.nVars), Disturbed F ε T ξ → ξ 0 ∈ I → (∀ t ∈ Icc 0 T, ξ t ∈ D) →
        (τ ≤ T → ∃ t ∈ Icc 0 τ, ξ t ∈ G) ∧ (∀ t ∈ Icc 0 T, ξ t ∈ S ∨ ∃ r ∈ Icc 0 t, ξ r ∈ G) ∧ ∀ r ∈ Icc 0 T, ξ r ∈ G → ∀ t ∈ Icc r T, ξ t ∈ P) :=
  fileRun2_total_with (G := fun _ => ∃ ε > 0, ∃ τ : ℝ, ∀ (T : ℝ) (ξ : ℝ → Pt c.nVars), Disturbed F ε T ξ → ξ 0 ∈ I → (∀ t ∈ Icc 0 T, ξ t ∈ D) →
        (τ ≤ T → ∃ t ∈ Icc 0 τ, ξ t ∈ G) ∧ (∀ t ∈ Icc 0 T, ξ t ∈ S ∨ ∃ r ∈ Icc 0 t, ξ r ∈ G) ∧ ∀ r ∈ Icc 0 T, ξ r ∈ G → ∀ t ∈ Icc r T, ξ t ∈ P)
    h (Or.inr hc) fl gs wt wt2 bs bs2 hdraw
    (fun learn net S0 out hr hs hf => by
      have := core_margin_rar hr.sets _ hr.sound learn hr.arch hc I S D G P hI hS hD hG hP h1 h2 h3 _ _ _ out hs hf (by rw [hr.field _]; exact hF)
      rwa [hr.field _] at this)

end

section
variable {c : ControlConfig} {w0 : ℕ → ℕ → ℕ → ℚ} {r : ReadyControl} {m : ℕ} {F : Pt c.base.nVars → Pt m → Pt c.base.nVars} {w : World R Controller (Net × ℚ)}
  {T : Trainer Controller} {hidden : List ℕ} {acts : List ActivationType}

/-- **C93 (reach-and-stay file with a controller).** -/
theorem C93_control_reach_stay (h : ControlFileRun c w0 r m F w T hidden acts) (hc : c.base.cert = .RSWS) (fl : ℝ → ℚ)
    (gs : ℕ → Rng) (g g' : Rng) (wt : ℕ → ℕ → ℕ → ℚ) (bs : ℕ → ℕ → ℚ) (hdraw : DrawsSome fl gs r.data)
    (I S D G : Set (Pt c.base.nVars)) (hI : Configures c.base.nVars c.base.domains "XI" I) (hS : Configures c.base.nVars c.base.domains "XS" S)
    (hD : Configures c.base.nVars c.base.domains "XD" D) (hG : Configures c.base.nVars c.base.domains "XG" G) (h1 : I ⊆ S) (h2 : I ⊆ D) (h3 : frontier S ⊆ D) (h4 : G ⊆ S) :
    ∃ net S0 out, newNet c.base.nVars hidden acts c.base.llo (certBias c.base.cert) wt bs = .ok net ∧ initData fl gs r.data = .ok S0 ∧
      Solves r.cfg.loop (singleComponents (w.withEstimate g g' r.cfg) r.cfg false (trainedLearn T r.cfg false w.dynNum)) (net, 0) r.ctrl S0 out ∧
      (out.iters : ℤ) ≤ c.base.maxIters + 1 ∧
      (out.found = true → ∃ ε > 0, ∃ τ : ℝ, ∀ (T : ℝ) (ξ : ℝ → Pt c.base.nVars), Disturbed (driven F (rounded5 out.ctrl)) ε T ξ → ξ 0 ∈ I →
        (τ ≤ T → ∃ t₁ ∈ Icc 0 τ, ∀ t ∈ Icc t₁ T, ξ t ∈ G) ∧ ∀ t ∈ Icc 0 T, ξ t ∈ S) :=
  controlFileRun_total_with (G := fun out => ∃ ε > 0, ∃ τ : ℝ, ∀ (T : ℝ) (ξ : ℝ → Pt c.base.nVars), Disturbed (driven F (rounded5 out.ctrl)) ε T ξ → ξ 0 ∈ I →
        (τ ≤ T → ∃ t₁ ∈ Icc 0 τ, ∀ t ∈ Icc t₁ T, ξ t ∈ G) ∧ ∀ t ∈ Icc 0 T, ξ t ∈ S)
    h (by rw [hc]; refine ⟨?_, ?_, ?_⟩ <;> intro h <;> cases h) (by rw [hc]; decide) false (fun h => by cases h) fl gs g g' wt bs hdraw
    (fun learn net ctrl S0 out hr hs hf => by
      have := core_margin_stay hr.sets _ hr.sound learn hr.arch hc I S D G hI hS hD hG h1 h2 h3 h4 _ _ _ out hs hf
      rwa [(hr.field hs hf).1] at this)

/-- **C93 (ROA file with a controller).** -/
theorem C93_control_roa (h : ControlFileRun c w0 r m F w T hidden acts) (hc : c.base.cert = .ROA) (hllo : c.base.llo = true) (fl : ℝ → ℚ)
    (gs : ℕ → Rng) (g g' : Rng) (wt : ℕ → ℕ → ℕ → ℚ) (bs : ℕ → ℕ → ℚ) (hdraw : DrawsSome fl gs r.data)
    (I : Set (Pt c.base.nVars)) (hI : Configures c.base.nVars c.base.domains "XI" I) (hF : Continuous (fun z : Pt c.base.nVars × Pt m => F z.1 z.2)) :
    ∃ net S out, newNet c.base.nVars hidden acts c.base.llo (certBias c.base.cert) wt bs = .ok net ∧ initData fl gs r.data = .ok S ∧
      Solves r.cfg.loop (singleComponents (w.withEstimate g g' r.cfg) r.cfg false (trainedLearn T r.cfg false w.dynNum)) (net, 0) r.ctrl S out ∧
      (out.iters : ℤ) ≤ c.base.maxIters + 1 ∧
      (out.found = true → TolerantRegion (driven F (rounded5 out.ctrl)) (certValue c.base.rounding c.base.quad out.net.1) ((out.net.2 : ℝ) * (11/10)) I) :=
  controlFileRun_total_with (G := fun out => TolerantRegion (driven F (rounded5 out.ctrl)) (certValue c.base.rounding c.base.quad out.net.1) ((out.net.2 : ℝ) * (11/10)) I)
    h (by rw [hc]; refine ⟨?_, ?_, ?_⟩ <;> intro h <;> cases h) (by rw [hc]; decide) false (fun h => by cases h) fl gs g g' wt bs hdraw
    (fun learn net ctrl S out hr hs hf => by
      have := core_margin_roa hr.sets _ hr.sound learn hr.arch hc hllo I hI _ _ _ out hs hf (by rw [(hr.field hs hf).1]; exact driven_continuous hF _)
      rwa [(hr.field hs hf).1] at this)

/-- **C92 (Lyapunov file with a controller).** As `C92_file_lyapunov`. -/
theorem C92_control_lyapunov (h : ControlFileRun c w0 r m F w T hidden acts) (hc : c.base.cert = .LYAPUNOV) (fl : ℝ → ℚ)
    (gs : ℕ → Rng) (g g' : Rng) (wt : ℕ → ℕ → ℕ → ℚ) (bs : ℕ → ℕ → ℚ) (hdraw : DrawsSome fl gs r.data)
    (D : Set (Pt c.base.nVars)) (hD : Configures c.base.nVars c.base.domains "XD" D) (hF : Continuous (fun z : Pt c.base.nVars × Pt m => F z.1 z.2)) :
    ∃ net S, newNet c.base.nVars hidden acts c.base.llo (certBias c.base.cert) wt bs = .ok net ∧ initData fl gs r.data = .ok S ∧
      ((∃ out, Solves r.cfg.loop (singleComponents (w.withEstimate g g' r.cfg) r.cfg false (trainedLearn T r.cfg false w.dynNum)) (net, 0) r.ctrl S out ∧
        (out.iters : ℤ) ≤ c.base.maxIters + 1 ∧
        (out.found = true → ToleratesOn (driven F (rounded5 out.ctrl)) (certValue c.base.rounding c.base.quad out.net.1) D)) ∨
      (∃ k st, Steps r.cfg.loop (singleComponents (w.withEstimate g g' r.cfg) r.cfg false (trainedLearn T r.cfg false w.dynNum))
        (initState (singleComponents (w.withEstimate g g' r.cfg) r.cfg false (trainedLearn T r.cfg false w.dynNum)) (net, 0) r.ctrl S) k st ∧
        MeetsZeroDerivative T r.cfg false w.dynNum st)) := by
  obtain ⟨net, S, h1, h2, h3⟩ := C77_control_run_total h (by rw [hc]; refine ⟨?_, ?_, ?_⟩ <;> intro h <;> cases h) false (fun h => by cases h) fl gs g g' wt bs hdraw
  refine ⟨net, S, h1, h2, ?_⟩
  rcases h3 with ⟨out, h3, h4⟩ | ⟨-, h3⟩
  swap; · exact Or.inr h3
  obtain ⟨net', h1', h5, -⟩ := newNet_arch (n := c.base.nVars) h.net (certBias c.base.cert) wt bs
  rw [h1] at h1'; cases h1'
  obtain ⟨⟨learn, hr, hs⟩, -⟩ := controlFileRun_controlRun h g g' false h5 h3
  refine Or.inl ⟨out, h3, h4, fun hf => ?_⟩
  have hw := hr.sound
  have harch := hr.arch
  have hss := hr.sets
  have hfld := (hr.field hs hf).1
  have rD := hss.region .XD (by decide) (by decide) (by rintro -; simp [hc]) hD
  have hwf := hss.wf
  generalize w.withEstimate g g' r.cfg = w' at *
  clear hr h h3 h1 h5
  obtain ⟨cfg, sys, k0, data⟩ := r
  obtain ⟨doms, e⟩ := hss.cfg
  dsimp only at e rD hwf hw hs
  subst e rD
  have := C92_synthesis_lyapunov _ _ hw learn ⟨hss.lib, hwf, harch⟩ hc _ _ _ out hs hf (by rw [hfld]; exact driven_continuous hF _)
  dsimp only at this
  rw [hfld] at this
  exact this

/-- **C92 (Lyapunov file with a controller, discrete time, any activations).** -/
theorem C92_control_lyapunov_dt (h : AnyControlRun c w0 r m F w T hidden acts) (hc : c.base.cert = .LYAPUNOV) (hq : c.base.quad = false) (hrnd : c.base.rounding ≠ 0) (fl : ℝ → ℚ)
    (gs : ℕ → Rng) (g g' : Rng) (wt : ℕ → ℕ → ℕ → ℚ) (bs : ℕ → ℕ → ℚ) (hdraw : DrawsSome fl gs r.data)
    (D : Set (Pt c.base.nVars)) (hD : Configures c.base.nVars c.base.domains "XD" D) (hF : Continuous (fun z : Pt c.base.nVars × Pt m => F z.1 z.2)) :
    ∃ net S, newNet c.base.nVars hidden acts c.base.llo (certBias c.base.cert) wt bs = .ok net ∧ initData fl gs r.data = .ok S ∧
      ((∃ out, Solves r.cfg.loop (singleComponents (w.withEstimate g g' r.cfg) r.cfg true (trainedLearn T r.cfg true w.dynNum)) (net, 0) r.ctrl S out ∧
        (out.iters : ℤ) ≤ c.base.maxIters + 1 ∧
        (out.found = true → ToleratesOnDT (driven F (rounded5 out.ctrl)) (certValue c.base.rounding false out.net.1) D)) ∨
      (∃ k st, Steps r.cfg.loop (singleComponents (w.withEstimate g g' r.cfg) r.cfg true (trainedLearn T r.cfg true w.dynNum))
        (initState (singleComponents (w.withEstimate g g' r.cfg) r.cfg true (trainedLearn T r.cfg true w.dynNum)) (net, 0) r.ctrl S) k st ∧
        MeetsZeroDerivative T r.cfg true w.dynNum st)) := by
  obtain ⟨net, S, h1, h2, h3⟩ := C86_control_run_total h (by rw [hc]; refine ⟨?_, ?_, ?_⟩ <;> intro h <;> cases h) true (fun _ => hrnd) fl gs g g' wt bs hdraw
  refine ⟨net, S, h1, h2, ?_⟩
  rcases h3 with ⟨out, h3, h4⟩ | ⟨-, h3⟩
  swap; · exact Or.inr h3
  obtain ⟨net', h1', h5, -⟩ := newNet_usable (n := c.base.nVars) h.net (certBias c.base.cert) wt bs
  rw [h1] at h1'; cases h1'
  obtain ⟨-, ⟨hfld, hlen⟩, -⟩ := anyControl_out h g g' true h5 h3
  refine Or.inl ⟨out, h3, h4, fun hf => ?_⟩
  have hw := soundWorld_estimateK h.sound g g'
  have hss := anyControl_sets h
  have rD := hss.region .XD (by decide) (by decide) (by rintro -; simp [hc]) hD
  have hwf := hss.wf
  have hdd : (w.withEstimate g g' r.cfg).dynamics out.ctrl = w.dynamics out.ctrl := rfl
  rw [← hdd] at hfld hlen
  have hs : ∃ learn, Solves r.cfg.loop (singleComponents (w.withEstimate g g' r.cfg) r.cfg true learn) (net, 0) r.ctrl S out := ⟨_, h3⟩
  generalize w.withEstimate g g' r.cfg = w' at *
  clear hdd h h3 h1 h5
  obtain ⟨learn, hs⟩ := hs
  obtain ⟨cfg, sys, k0, data⟩ := r
  obtain ⟨doms, e⟩ := hss.cfg
  dsimp only at e rD hwf hw hs
  subst e rD
  have := C92_synthesis_lyapunov_dt _ w' hw learn hss.lib hwf hc hq _ _ _ out hs hf hlen (by rw [hfld]; exact driven_continuous hF _)
  dsimp only at this
  rw [hfld] at this
  exact this

end

section
variable {c : ControlConfig} {w0 : ℕ → ℕ → ℕ → ℚ} {r : ReadyControl} {m : ℕ} {F : Pt c.base.nVars → Pt m → Pt c.base.nVars} {w : World R Controller ((Net × ℚ) × Net)}
  {T : Trainer2 Controller} {hidden hidden2 : List ℕ} {acts acts2 : List ActivationType}

/-- **C93 (stable-while-safe file with a controller).** -/
theorem C93_control_stable_safe (h : ControlFileRun2 c w0 r m F w T hidden hidden2 acts acts2) (hc : c.base.cert = .STABLESAFE) (fl : ℝ → ℚ)
    (gs : ℕ → Rng) (wt wt2 : ℕ → ℕ → ℕ → ℚ) (bs bs2 : ℕ → ℕ → ℚ) (hdraw : DrawsSome fl gs r.data)
    (I D U : Set (Pt c.base.nVars)) (hI : Configures c.base.nVars c.base.domains "XI" I)
    (hD : Configures c.base.nVars c.base.domains "XD" D) (hU : Configures c.base.nVars c.base.domains "XU" U) (hF : Continuous (fun z : Pt c.base.nVars × Pt m => F z.1 z.2)) :
    ∃ net net2 S out, newNet c.base.nVars hidden acts c.base.llo (certBias2 c.base.cert).1 wt bs = .ok net ∧
      newNet c.base.nVars hidden2 acts2 false (certBias2 c.base.cert).2 wt2 bs2 = .ok net2 ∧ initData fl gs r.data = .ok S ∧
      Solves r.cfg.loop (doubleComponents w r.cfg (trainedLearn2 T r.cfg w.dynNum)) ((net, 0), net2) r.ctrl S out ∧ (out.iters : ℤ) ≤ c.base.maxIters + 1 ∧
      (out.found = true → ∃ ε > 0, ∀ (T : ℝ) (ξ : ℝ → Pt c.base.nVars), Disturbed (driven F (rounded5 out.ctrl)) ε T ξ → ξ 0 ∈ I → (∀ t ∈ Icc 0 T, ξ t ∈ D) →
        ∀ t ∈ Icc 0 T, ξ t ∉ U) :=
  controlFileRun2_total_with (G := fun out => ∃ ε > 0, ∀ (T : ℝ) (ξ : ℝ → Pt c.base.nVars), Disturbed (driven F (rounded5 out.ctrl)) ε T ξ → ξ 0 ∈ I →
        (∀ t ∈ Icc 0 T, ξ t ∈ D) → ∀ t ∈ Icc 0 T, ξ t ∉ U)
    h (Or.inl hc) fl gs wt wt2 bs bs2 hdraw
    (fun learn net ctrl S0 out hr hs hf => by
      have := core_margin_stable_safe hr.sets _ hr.sound learn hr.arch hc I D U hI hD hU _ _ _ out hs hf (by rw [hr.field hs hf]; exact driven_continuous hF _)
      rwa [hr.field hs hf] at this)

/-- **C93 (reach-avoid-remain file with a controller).** -/
theorem C93_control_rar (h : ControlFileRun2 c w0 r m F w T hidden hidden2 acts acts2) (hc : c.base.cert = .RAR) (fl : ℝ → ℚ)
    (gs : ℕ → Rng) (wt wt2 : ℕ → ℕ → ℕ → ℚ) (bs bs2 : ℕ → ℕ → ℚ) (hdraw : DrawsSome fl gs r.data)
    (I S D G P : Set (Pt c.base.nVars)) (hI : Configures c.base.nVars c.base.domains "XI" I)
    (hS : Configures c.base.nVars c.base.domains "XS" S) (hD : Configures c.base.nVars c.base.domains "XD" D) (hG : Configures c.base.nVars c.base.domains "XG" G)
    (hP : Configures c.base.nVars c.base.domains "XF" P) (h1 : I ⊆ S) (h2 : I ⊆ D) (h3 : frontier S ⊆ D) (hF : Continuous (fun z : Pt c.base.nVars × Pt m => F z.1 z.2)) :
    ∃ net net2 S0 out, newNet c.base.nVars hidden acts c.base.llo (certBias2 c.base.cert).1 wt bs = .ok net ∧
      newNet c.base.nVars hidden2 acts2 false (certBias2 c.base.cert).2 wt2 bs2 = .ok net2 ∧ initData fl gs r.data = .ok S0 ∧
      Solves r.cfg.loop (doubleComponents w r.cfg (trainedLearn2 T r.cfg w.dynNum)) ((net, 0), net2) r.ctrl S0 out ∧ (out.iters : ℤ) ≤ c.base.maxIters + 1 ∧
      (out.found = true → ∃ ε > 0, ∃ τ : ℝ, ∀ (T : ℝ) (ξ : ℝ → Pt c.base.nVars), Disturbed (driven F (rounded5 out.ctrl)) ε T ξ → ξ 0 ∈ I → (∀ t ∈ Icc 0 T, ξ t ∈ D) →
        (τ ≤ T → ∃ t ∈ Icc 0 τ, ξ t ∈ G) ∧ (∀ t ∈ Icc 0 T, ξ t ∈ S ∨ ∃ r ∈ Icc 0 t, ξ r ∈ G) ∧ ∀ r ∈ Icc 0 T, ξ r ∈ G → ∀ t ∈ Icc r T, ξ t ∈ P) :=
  controlFileRun2_total_with (G := fun out => ∃ ε > 0, ∃ τ : ℝ, ∀ (T : ℝ) (ξ : ℝ → Pt c.base.nVars), Disturbed (driven F (rounded5 out.ctrl)) ε T ξ → ξ 0 ∈ I →
        (∀ t ∈ Icc 0 T, ξ t ∈ D) → (τ ≤ T → ∃ t ∈ Icc 0 τ, ξ t ∈ G) ∧ (∀ t ∈ Icc 0 T, ξ t ∈ S ∨ ∃ r ∈ Icc 0 t, ξ r ∈ G) ∧ ∀ r ∈ Icc 0 T, ξ r ∈ G → ∀ t ∈ Icc r T, ξ t ∈ P)
    h (Or.inr hc) fl gs wt wt2 bs bs2 hdraw
    (fun learn net ctrl S0 out hr hs hf => by
      have := core_margin_rar hr.sets _ hr.sound learn hr.arch hc I S D G P hI hS hD hG hP h1 h2 h3 _ _ _ out hs hf (by rw [hr.field hs hf]; exact driven_continuous hF _)
      rwa [hr.field hs hf] at this)

end

/-! ### the hypotheses can be met -/

/-- Certificates for `C93_roa`, `C93_reach_stay` and `C93_rar`. -/
example : (∃ g, queriesCT { exROAStill with llo := true, f := [.neg (.var 0)] } = .ok g ∧ Accepted 1 g ∧ SmoothSetup { exROAStill with llo := true, f := [.neg (.var 0)] } ∧
      Continuous (field 1 [Term.neg (.var 0)])) ∧
    (∃ g, queriesCT (exReach .RSWS) = .ok g ∧ Accepted 1 g ∧ SmoothSetup (exReach .RSWS) ∧ StaySets 1 (exReach .RSWS).domains ∧
      Bornology.IsBounded (region 1 (exReach .RSWS).domains XS) ∧
      BetaRun (stayCheckCT smtBackend (fun _ _ => idealSolver) (exReach .RSWS)) betaInit 0 (some (-499500))) ∧
    ∃ g, queriesDouble exRAR exRARNet = .ok g ∧ Accepted 1 g ∧ SmoothSetup exRAR ∧ smoothActs exRARNet ∧ ReachSets 1 exRAR.domains ∧
      Bornology.IsBounded (region 1 exRAR.domains XS) ∧ IsCompact (region 1 exRAR.domains XD) ∧ Continuous (field 1 exRAR.f) := by
  have e : field 1 [Term.neg (.var 0)] = fun p i => - p i := by
    funext p i
    simp [field, Term.eval, Subsingleton.elim i 0, Pt.env]
  have cf : Continuous (field 1 [Term.neg (.var 0)]) := by rw [e]; fun_prop
  refine ⟨?_, ?_, ?_⟩
  · obtain ⟨g, h, ha⟩ := exROA_accepted
    have hs := C08_no_attraction.1
    exact ⟨g, h, ha, ⟨hs.lib, hs.sets, rfl, hs.smooth⟩, cf⟩
  · obtain ⟨g, h, ha⟩ := exReach_accepted.2
    refine ⟨g, h, ha, exReach_smooth _, exReach_sets _, ?_, exReach_beta⟩
    show Bornology.IsBounded (docSet 1 (.rectangle [-1] [1] none))
    exact seg_bounded _ _
  · obtain ⟨g, h, ha⟩ := exRAR_accepted
    refine ⟨g, h, ha, exRAR_smooth.1, exRAR_smooth.2, exRAR_sets, ?_, ?_, cf⟩
    · show Bornology.IsBounded (docSet 1 (.rectangle [-1] [1] none))
      exact seg_bounded _ _
    · show IsCompact (docSet 1 (.rectangle [-2] [2] none))
      exact Metric.isCompact_of_isClosed_isBounded (seg_closed _ _) (seg_bounded _ _)

/-- The interval `[-2, 2]` and `b = 1/2` meet the hypotheses of `TolerantRegion.settles` for the region-of-attraction certificate above. -/
example : ∃ A : Set (Pt 1), IsCompact A ∧ ((1/2 : ℝ) ≤ ((exROAStill.beta : ℚ) : ℝ) * (11/10)) ∧
    (∀ p ∈ A, normSq p ≤ (1/100)^2 → certValue exROAStill.rounding exROAStill.quad exROAStill.net p < 1/2) ∧
    ∀ p ∈ frontier A, ((exROAStill.beta : ℚ) : ℝ) * (11/10) < certValue exROAStill.rounding exROAStill.quad exROAStill.net p := by
  have hv : ∀ p : Pt 1, certValue exROAStill.rounding exROAStill.quad exROAStill.net p = p 0 ^ 2 := by
    intro p
    have h1 : roundBy 3 1 = 1 := by decide +kernel
    simp [certValue, exROAStill, roundedNet, Net.forward, hiddenForward, roundedHidden, roundedLast, h1,
      Layer.apply, dotR, Act.forward, coordList, at?, Bind.bind, Except.bind, List.range_succ]
  have e : docSet 1 (.rectangle [-2] [2] none) = (fun p : Pt 1 => p 0) ⁻¹' Icc (-2) 2 := by
    ext p; rw [seg_mem]; simp
  refine ⟨docSet 1 (.rectangle [-2] [2] none), Metric.isCompact_of_isClosed_isBounded (seg_closed _ _) (seg_bounded _ _), ?_, fun p _ hp => ?_, fun p hp => ?_⟩
  · simp only [exROAStill]; norm_num
  · rw [hv]
    have : p 0 ^ 2 ≤ (1/100)^2 := by simpa [normSq] using hp
    linarith [show ((1 : ℝ)/100)^2 < 1/2 by norm_num]
  · rw [hv]
    rw [e] at hp
    have h : p 0 ∈ frontier (Icc (-2 : ℝ) 2) := Continuous.frontier_preimage_subset (f := fun p : Pt 1 => p 0) (by fun_prop) _ hp
    rw [frontier_Icc (by norm_num)] at h
    simp only [exROAStill]
    rcases h with h | h <;> rw [h] <;> norm_num

/-- Files for `C93_file_roa`, `C93_file_reach_stay`, `C93_file_stable_safe` and `C93_file_rar`. -/
example : (∃ r, FileRun exROAConfig r (fun p i => - p i) (idealWorld (Net × ℚ) [.neg (.var 0)]) exTrainer [1] [.SQUARE] ∧ (∀ fl g, DrawsSome fl g r.data) ∧
      exROAConfig.llo = true ∧ ∃ I : Set (Pt 1), Configures 1 exROAConfig.domains "XI" I) ∧
    (∃ r, FileRun exStayConfig r (fun p i => - p i) (stayWorld (Net × ℚ) [.neg (.var 0)]) exTrainer [1] [.SQUARE] ∧ (∀ fl, DrawsSome fl (fun _ => zeroRng) r.data) ∧
      exStayConfig.cert = .RSWS) ∧
    (∃ r, FileRun2 exSSConfig r (fun p i => - p i) (idealWorld ((Net × ℚ) × Net) [.neg (.var 0)]) exTrainer2 [1] [1] [.SQUARE] [.SQUARE] ∧ (∀ fl g, DrawsSome fl g r.data) ∧
      exSSConfig.cert = .STABLESAFE) ∧
    ∃ r, FileRun2 exRARConfig r (fun p i => - p i) (idealWorld ((Net × ℚ) × Net) [.neg (.var 0)]) exTrainer2 [1] [1] [.SQUARE] [.SQUARE] ∧
      (∀ fl, DrawsSome fl (fun _ => zeroRng) r.data) ∧ exRARConfig.cert = .RAR := by
  have good : ∀ llo, GoodNet .z3 llo [1] [.SQUARE] := fun llo => ⟨by simp, by simp, fun a ha => by
    rw [List.mem_singleton.1 ha]; exact ⟨.square, rfl, rfl, by intro h; cases h⟩⟩
  refine ⟨?_, ?_, ?_, ?_⟩
  · obtain ⟨s1, s2, -⟩ := exConfig_sets
    obtain ⟨data, hr⟩ := exROAConfig_ready
    have hd : DomainsDescribed exROAConfig := by
      refine ⟨by decide, ?_⟩
      intro k s hm
      simp only [exROAConfig, List.mem_cons, Prod.mk.injEq, List.not_mem_nil, or_false] at hm
      rcases hm with ⟨-, rfl⟩ | ⟨-, rfl⟩
      exacts [⟨_, s1⟩, ⟨_, s2⟩]
    refine ⟨_, ⟨Or.inl rfl, hd, minus_x_system _, hr, by decide, idealWorld_sound _ _ _, fun _ => rfl, idealWorld_fair _ _ _ rfl, (fun h => by cases h), fun _ _ _ => sameShape_refl _,
      good _⟩, fun fl g => C76_draws_some _ _ hd hr (by simp [exROAConfig]) ?_ fl g, rfl, _, ⟨_, by simp [exROAConfig], s2⟩⟩
    show ∀ e ∈ [("XD", 10), ("XI", 10)], 0 < e.2
    decide
  · have hs := fun i V Vdot => stayWorld_search (Net × ℚ) [.neg (.var 0)] ⟨.z3, 1, .RSWS, exStayDoms, false, 3, false, 10⟩ ⟨_, rfl, fun V Vdot β => ⟨_, rfl⟩⟩ i V Vdot
    exact ⟨_, ⟨Or.inl rfl, exStay_described, minus_x_system _, exStay_ready_data, by decide, stayWorld_sound _ _ _, fun _ => rfl, stayWorld_fair _ _ _ rfl, fun _ => hs,
      fun _ _ _ => sameShape_refl _, exFile_good⟩, exStay_draws, rfl⟩
  · obtain ⟨r, w, learn, h, -⟩ := exSSConfig_run
    have hd : DomainsDescribed exSSConfig := h.domains
    have hr : readConfig exSSConfig = .ok ⟨r.cfg, [.neg (.var 0)], r.data⟩ := readConfig_ok rfl (readConfig_inv h.accepted).2
    refine ⟨_, ⟨Or.inl rfl, hd, minus_x_system _, hr, by decide, idealWorld_sound _ _ _, fun _ => rfl, idealWorld_fair _ _ _ rfl, fun _ _ _ => ⟨sameShape_refl _, sameShape_refl _⟩,
      good _, good _⟩, fun fl g => C76_draws_some _ _ hd hr (by simp [exSSConfig, exConfig, exConfigL]) ?_ fl g, rfl⟩
    show ∀ e ∈ [("XD", 10), ("XI", 10), ("XU", 10)], 0 < e.2
    decide
  · obtain ⟨r, w, learn, h, -⟩ := exRARConfig_run
    exact ⟨_, ⟨Or.inl rfl, h.domains, minus_x_system _, readConfig_ok rfl exRAR_sets_data.1, by decide, idealWorld_sound _ _ _, fun _ => rfl, idealWorld_fair _ _ _ rfl,
      fun _ _ _ => ⟨sameShape_refl _, sameShape_refl _⟩, good _, good _⟩, exRAR_draws, rfl⟩

/-- Files with a controller for `C93_control_reach_stay` and `C93_control_rar`. (Those of `C77` and `C86` meet the hypotheses of the other theorems: see the next example.) -/
example : (∃ r, ControlFileRun (exDriven .RSWS exStayConfig.domains exStayConfig.nData ⟨1, true, false⟩ false) exWeights r 1 exControlField (exDrivenWorld (Net × ℚ)) exTrainerK [1] [.SQUARE] ∧
      ∀ fl, DrawsSome fl (fun _ => zeroRng) r.data) ∧
    (∃ r, ControlFileRun2 (exDriven .RAR exRARConfig.domains exRARConfig.nData ⟨1, true, false⟩ false) exWeights r 1 exControlField (exDrivenWorld ((Net × ℚ) × Net)) exTrainerK2
        [1] [1] [.SQUARE] [.SQUARE] ∧ ∀ fl, DrawsSome fl (fun _ => zeroRng) r.data) ∧
    Continuous (fun z : Pt 1 × Pt 1 => exControlField z.1 z.2) := by
  have good : ∀ llo, GoodNet .z3 llo [1] [.SQUARE] := fun llo => ⟨by simp, by simp, fun a ha => by
    rw [List.mem_singleton.1 ha]; exact ⟨.square, rfl, rfl, by intro h; cases h⟩⟩
  refine ⟨?_, ?_, ?_⟩
  · have hs := fun i V Vdot => stayWorld_search (Net × ℚ) [.neg (.var 0)] ⟨.z3, 1, .RSWS, exStayDoms, false, 3, false, 10⟩ ⟨_, rfl, fun V Vdot β => ⟨_, rfl⟩⟩ i V Vdot
    exact ⟨_, ⟨Or.inl rfl, ⟨exStay_described.1, exStay_described.2⟩, exControl_text _ _, by decide, exDriven_ready (readConfig_inv exStay_ready_data).2, (by decide : (0 : ℤ) ≤ 10), exDrivenWorld_sound _ _,
      fun k f hf => exLoops_eq k f hf, exDrivenWorld_fair _, fun _ => hs, fun _ _ _ => ⟨sameShape_refl _, sameController_refl _⟩, exFile_good⟩, exStay_draws⟩
  · obtain ⟨r, w, learn, h, -⟩ := exRARConfig_run
    exact ⟨_, ⟨Or.inl rfl, ⟨h.domains.1, h.domains.2⟩, exControl_text _ _, by decide, exDriven_ready exRAR_sets_data.1, (by decide : (0 : ℤ) ≤ 10), exDrivenWorld_sound _ _,
      fun k f hf => exLoops_eq k f hf, exDrivenWorld_fair _, fun _ _ _ => ⟨sameShape_refl _, sameShape_refl _, sameController_refl _⟩, good _, good _⟩, exRAR_draws⟩
  · unfold exControlField
    fun_prop

/-- Files with a controller for `C93_control_roa`, `C92_control_lyapunov`, `C92_control_lyapunov_dt` and `C93_control_stable_safe`. -/
example : (∃ r, ControlFileRun (exDriven .ROA [("XD", "Rectangle([-4],[4])"), ("XI", "Rectangle([-0.5],[0.5])")] (some (.dict [("XD", 10), ("XI", 10)])) ⟨1, true, false⟩ true)
      exWeights r 1 exControlField (exDrivenWorld (Net × ℚ)) exTrainerK [1] [.SQUARE] ∧ ∀ fl g, DrawsSome fl g r.data) ∧
    (∃ r, ControlFileRun (exDriven .LYAPUNOV [("XD", "Rectangle([-1],[1])")] (some (.dict [("XD", 10)])) ⟨1, true, false⟩ true) exWeights r 1 exControlField
        (exDrivenWorld (Net × ℚ)) exTrainerK [1] [.SQUARE] ∧ ∀ fl g, DrawsSome fl g r.data) ∧
    (∃ r, AnyControlRun (exDriven .LYAPUNOV [("XD", "Rectangle([-1],[1])")] (some (.dict [("XD", 10)])) ⟨1, true, false⟩ false) exWeights r 1 exControlField
        (exDrivenWorld (Net × ℚ)) exTrainerK [2] [.RELU] ∧ ∀ fl g, DrawsSome fl g r.data) ∧
    ∃ r, ControlFileRun2 (exDriven .STABLESAFE exSSConfig.domains exSSConfig.nData ⟨1, true, false⟩ true) exWeights r 1 exControlField (exDrivenWorld ((Net × ℚ) × Net)) exTrainerK2
      [1] [1] [.SQUARE] [.SQUARE] ∧ ∀ fl g, DrawsSome fl g r.data := by
  have good : ∀ llo, GoodNet .z3 llo [1] [.SQUARE] := fun llo => ⟨by simp, by simp, fun a ha => by
    rw [List.mem_singleton.1 ha]; exact ⟨.square, rfl, rfl, by intro h; cases h⟩⟩
  obtain ⟨-, -, s3, -⟩ := exStay_sets
  have hd : ∀ llo, DomainsDescribed (exDriven .LYAPUNOV [("XD", "Rectangle([-1],[1])")] (some (.dict [("XD", 10)])) ⟨1, true, false⟩ llo).base := by
    intro llo
    refine ⟨by simp [exDriven], ?_⟩
    intro k s hm
    simp only [exDriven, List.mem_cons, Prod.mk.injEq, List.not_mem_nil, or_false] at hm
    rw [hm.2]
    exact ⟨_, s3⟩
  refine ⟨?_, ?_, ?_, ?_⟩
  · obtain ⟨s1, s2, -⟩ := exConfig_sets
    obtain ⟨data, h⟩ := exROAConfig_ready
    have h' := (readConfig_inv h).2
    have hd : DomainsDescribed (exDriven .ROA [("XD", "Rectangle([-4],[4])"), ("XI", "Rectangle([-0.5],[0.5])")] (some (.dict [("XD", 10), ("XI", 10)])) ⟨1, true, false⟩ true).base := by
      refine ⟨by decide, ?_⟩
      intro k s hm
      simp only [exDriven, List.mem_cons, Prod.mk.injEq, List.not_mem_nil, or_false] at hm
      rcases hm with ⟨-, rfl⟩ | ⟨-, rfl⟩
      exacts [⟨_, s1⟩, ⟨_, s2⟩]
    refine ⟨_, ⟨Or.inl rfl, hd, exControl_text _ _, by decide, exDriven_ready h', (by decide : (0 : ℤ) ≤ 10), exDrivenWorld_sound _ _, fun k f hf => exLoops_eq k f hf, exDrivenWorld_fair _,
      (fun h => by cases h), fun _ _ _ => ⟨sameShape_refl _, sameController_refl _⟩, good _⟩, fun fl g => C77_draws_some _ exWeights _ hd (exDriven_ready h') (by simp [exDriven]) ?_ fl g⟩
    show ∀ e ∈ [("XD", 10), ("XI", 10)], 0 < e.2
    decide
  · obtain ⟨data, hr⟩ := exHalf_ready true
    have h' := (readConfig_inv hr).2
    refine ⟨_, ⟨Or.inl rfl, hd _, exControl_text _ _, by decide, exDriven_ready h', (by decide : (0 : ℤ) ≤ 10), exDrivenWorld_sound _ _, fun k f hf => exLoops_eq k f hf, exDrivenWorld_fair _,
      (fun h => by cases h), fun _ _ _ => ⟨sameShape_refl _, sameController_refl _⟩, good _⟩, fun fl g => C77_draws_some _ exWeights _ (hd _) (exDriven_ready h') (Or.inl rfl) ?_ fl g⟩
    show ∀ e ∈ [("XD", 10)], 0 < e.2
    decide
  · obtain ⟨data, hr⟩ := exHalf_ready false
    have h' := (readConfig_inv hr).2
    refine ⟨_, exDriven_run (hd _) h' (fun h => by cases h) (relu_usable _), fun fl g => C77_draws_some _ exWeights _ (hd _) (exDriven_ready h') (Or.inl rfl) ?_ fl g⟩
    show ∀ e ∈ [("XD", 10)], 0 < e.2
    decide
  · obtain ⟨r, w, learn, hr, -⟩ := exSSConfig_run
    have h' := (readConfig_inv hr.accepted).2
    have hd : DomainsDescribed (exDriven .STABLESAFE exSSConfig.domains exSSConfig.nData ⟨1, true, false⟩ true).base := ⟨hr.domains.1, hr.domains.2⟩
    refine ⟨_, ⟨Or.inl rfl, hd, exControl_text _ _, by decide, exDriven_ready h', (by decide : (0 : ℤ) ≤ 10), exDrivenWorld_sound _ _, fun k f hf => exLoops_eq k f hf, exDrivenWorld_fair _,
      fun _ _ _ => ⟨sameShape_refl _, sameShape_refl _, sameController_refl _⟩, good _, good _⟩, fun fl g => C77_draws_some _ exWeights _ hd (exDriven_ready h') (by simp [exDriven]) ?_ fl g⟩
    show ∀ e ∈ [("XD", 10), ("XI", 10), ("XU", 10)], 0 < e.2
    decide

end Fossil

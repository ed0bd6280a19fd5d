/-
C85: discrete-time Lyapunov certificates: what a successful run means, from the loop and from a configuration file, any activations.
-/
import Verif.Props.C84_KinkFiles
import Verif.Props.C76_LLO

namespace Fossil
open Spec Set Filter Topology

variable {R K : Type}

/-! ### sub-level sets -/

/-- If `V` decreases along the map on a compact sub-level set (away from the origin, its minimum), the runs from it stay in it and converge to the origin uniformly. -/
theorem attractsDT_sublevel {n : ℕ} {V : Pt n → ℝ} {F : Pt n → Pt n} (hV : Continuous V) (hF : Continuous F) (c : ℝ) (hK : IsCompact {p | V p ≤ c})
    (hpos : ∀ p, V p ≤ c → p ≠ 0 → V 0 < V p) (hneg : ∀ p, V p ≤ c → p ≠ 0 → V (F p) < V p) (hst : StableDT F) (hF0 : F 0 = 0) :
    (∀ x : ℕ → Pt n, IsRun F x → V (x 0) ≤ c → ∀ k, V (x k) ≤ c) ∧ AttractsDT F {p | V p ≤ c} := by
  have hin : ∀ x : ℕ → Pt n, IsRun F x → V (x 0) ≤ c → ∀ k, V (x k) ≤ c := by
    intro x hx h0 k
    induction k with
    | zero => exact h0
    | succ k ih =>
      rw [hx k]
      by_cases e : x k = 0
      · rw [e, hF0]; rw [e] at ih; exact ih
      · exact (hneg _ ih e).le.trans ih
  refine ⟨hin, fun U hU => ?_⟩
  obtain ⟨W, hW, hstab⟩ := hst U hU
  obtain ⟨W', hW'W, hWo, hW0⟩ := mem_nhds_iff.1 hW
  have hKc : IsCompact ({p | V p ≤ c} \ W') := hK.diff hWo
  obtain ⟨γ, hγ, hdec⟩ : ∃ γ > 0, ∀ p ∈ {p | V p ≤ c} \ W', V (F p) ≤ V p - γ := by
    rcases ({p | V p ≤ c} \ W').eq_empty_or_nonempty with he | he
    · exact ⟨1, one_pos, by rw [he]; simp⟩
    · obtain ⟨q, hq, hmax⟩ := hKc.exists_isMaxOn he ((hV.comp hF).sub hV).continuousOn
      have hq0 : q ≠ 0 := by rintro rfl; exact hq.2 hW0
      refine ⟨V q - V (F q), by linarith [hneg q hq.1 hq0], fun p hp => ?_⟩
      have := hmax hp
      rw [Set.mem_ofPred_eq] at this
      simp only [Function.comp, Pi.sub_apply] at this
      linarith
  obtain ⟨N, hN⟩ := exists_nat_gt ((c - V 0) / γ)
  refine ⟨N, fun x hx h0 k hk => ?_⟩
  obtain ⟨j, hj, hjW⟩ : ∃ j ≤ N, x j ∈ W' := by
    by_contra hno
    push Not at hno
    have hrate : ∀ j ≤ N, V (x j) ≤ V (x 0) - γ * j := by
      intro j
      induction j with
      | zero => simp
      | succ j ih =>
        intro hj
        have h1 := ih (by omega)
        have h2 := hdec (x j) ⟨hin x hx h0 j, hno j (by omega)⟩
        rw [hx j]; push_cast; linarith
    have h1 := hrate N le_rfl
    have hVt : V 0 ≤ V (x N) := by
      by_cases e : x N = 0
      · rw [e]
      · exact (hpos _ (hin x hx h0 N) e).le
    have h3 : V (x 0) ≤ c := h0
    rw [div_lt_iff₀ hγ] at hN
    nlinarith
  have := hstab (fun i => x (j + i)) (fun i => hx (j + i)) (hW'W hjW) (k - j)
  rwa [show j + (k - j) = k by omega] at this

/-! ### an accepted certificate -/

section
variable {s : Setup}

/-- The two conditions an accepted discrete-time Lyapunov certificate gives, with or without LLO. -/
theorem lyap_facts_dt (hlib : s.lib = .z3 ∨ s.lib = .dreal) (hw : WFDomains s.nVars s.domains) (hlen : s.f.length = s.nVars) (hquad : s.quad = false)
    (hc : s.cert = .LYAPUNOV) {groups} (hq : queriesDT s = .ok groups) (ha : Accepted s.nVars groups) (hpd : s.llo = false ∨ PDNet s.net) :
    ∀ p ∈ region s.nVars s.domains XD, p ≠ 0 → 0 < certValue s.rounding s.quad s.net p ∧
      certValue s.rounding s.quad s.net (field s.nVars s.f p) < certValue s.rounding s.quad s.net p := by
  intro p hp hp0
  obtain ⟨h1, h2⟩ := C06_decreases_along_runs s hlib hw hlen hquad hc groups hq ha
    (fun k => (field s.nVars s.f)^[k] p) (fun k => by
      show (field s.nVars s.f)^[k + 1] p = _
      rw [Function.iterate_succ_apply']) 0 hp hp0
  refine ⟨?_, by simpa using h1⟩
  rcases hpd with h | h
  · simpa using h2 h
  · exact C07_llo_positive_dt s hlib hw hlen hquad hc h groups hq ha p hp hp0

/-- **C85 (the origin is a fixed point).** Nothing in the query says so, but an accepted discrete-time Lyapunov certificate that vanishes at the origin forces a map that
is continuous at the origin to fix the origin, provided it keeps the origin inside the domain (a neighbourhood of the origin). -/
theorem C85_fixes_origin (hlib : s.lib = .z3 ∨ s.lib = .dreal) (hw : WFDomains s.nVars s.domains) (hlen : s.f.length = s.nVars) (hquad : s.quad = false)
    (hc : s.cert = .LYAPUNOV) (groups) (hq : queriesDT s = .ok groups) (ha : Accepted s.nVars groups) (hpd : s.llo = false ∨ PDNet s.net)
    (hz : ZeroNet s.net) (hD : region s.nVars s.domains XD ∈ 𝓝 0) (hF : ContinuousAt (field s.nVars s.f) 0)
    (hin : field s.nVars s.f 0 ∈ region s.nVars s.domains XD) : field s.nVars s.f 0 = 0 := by
  have H := lyap_facts_dt hlib hw hlen hquad hc hq ha hpd
  by_contra hne
  have hV := continuous_certValue s.nVars s.rounding s.quad s.net
  have h0 : certValue s.rounding s.quad s.net 0 = 0 := C47_vanishes_at_origin s.nVars s.rounding s.quad s.net (Or.inr hz)
  have hp := (H _ hin hne).1
  set v := certValue s.rounding s.quad s.net (field s.nVars s.f 0) with hv
  have e1 : ∀ᶠ p in 𝓝 (0 : Pt s.nVars), v / 2 < certValue s.rounding s.quad s.net (field s.nVars s.f p) :=
    (hV.continuousAt.comp hF).eventually (lt_mem_nhds (by show v / 2 < v; linarith))
  have e2 : ∀ᶠ p in 𝓝 (0 : Pt s.nVars), certValue s.rounding s.quad s.net p < v / 2 :=
    hV.continuousAt.eventually (gt_mem_nhds (by rw [h0]; linarith))
  have hn : Nontrivial (Pt s.nVars) := ⟨_, _, hne⟩
  have hne' : (𝓝[≠] (0 : Pt s.nVars)).NeBot := by infer_instance
  have e3 : ∀ᶠ p in 𝓝[≠] (0 : Pt s.nVars), p ≠ 0 := self_mem_nhdsWithin
  have e4 : ∀ᶠ p in 𝓝[≠] (0 : Pt s.nVars), (v / 2 < certValue s.rounding s.quad s.net (field s.nVars s.f p) ∧ certValue s.rounding s.quad s.net p < v / 2) ∧
      p ∈ region s.nVars s.domains XD := ((e1.and e2).and hD).filter_mono nhdsWithin_le_nhds
  obtain ⟨p, ⟨⟨h1, h2⟩, h3⟩, h4⟩ := (e4.and e3).exists
  have := (H p h3 h4).2
  linarith

/-- **C85 (stability).** An accepted discrete-time Lyapunov certificate that vanishes at the origin, on a neighbourhood of the origin, for a continuous map that keeps the origin in
the domain: the origin is a fixed point and asymptotically stable. -/
theorem C85_stability_dt (hlib : s.lib = .z3 ∨ s.lib = .dreal) (hw : WFDomains s.nVars s.domains) (hlen : s.f.length = s.nVars) (hquad : s.quad = false)
    (hc : s.cert = .LYAPUNOV) (groups) (hq : queriesDT s = .ok groups) (ha : Accepted s.nVars groups) (hpd : s.llo = false ∨ PDNet s.net)
    (hz : ZeroNet s.net) (hD : region s.nVars s.domains XD ∈ 𝓝 0) (hF : Continuous (field s.nVars s.f))
    (hin : field s.nVars s.f 0 ∈ region s.nVars s.domains XD) : field s.nVars s.f 0 = 0 ∧ AsympStableDT (field s.nVars s.f) := by
  have h0 := C85_fixes_origin hlib hw hlen hquad hc groups hq ha hpd hz hD hF.continuousAt hin
  exact ⟨h0, C47_lyapunov_stability_dt_partial s hlib hw hlen hquad hc groups hq ha hpd hz hD hF h0⟩

/-- **C85 (regions of attraction).** A bounded sub-level set of the certificate inside the domain is invariant, and all runs from it converge to the origin (uniformly). -/
theorem C85_sublevel_attracts (hlib : s.lib = .z3 ∨ s.lib = .dreal) (hw : WFDomains s.nVars s.domains) (hlen : s.f.length = s.nVars) (hquad : s.quad = false)
    (hc : s.cert = .LYAPUNOV) (groups) (hq : queriesDT s = .ok groups) (ha : Accepted s.nVars groups) (hpd : s.llo = false ∨ PDNet s.net)
    (hz : ZeroNet s.net) (hD : region s.nVars s.domains XD ∈ 𝓝 0) (hF : Continuous (field s.nVars s.f))
    (hin : field s.nVars s.f 0 ∈ region s.nVars s.domains XD) (c : ℝ)
    (hsub : {p : Pt s.nVars | certValue s.rounding s.quad s.net p ≤ c} ⊆ region s.nVars s.domains XD)
    (hbd : Bornology.IsBounded {p : Pt s.nVars | certValue s.rounding s.quad s.net p ≤ c}) :
    (∀ x : ℕ → Pt s.nVars, IsRun (field s.nVars s.f) x → certValue s.rounding s.quad s.net (x 0) ≤ c → ∀ k, certValue s.rounding s.quad s.net (x k) ≤ c) ∧
      AttractsDT (field s.nVars s.f) {p : Pt s.nVars | certValue s.rounding s.quad s.net p ≤ c} := by
  have hV := continuous_certValue s.nVars s.rounding s.quad s.net
  have H := lyap_facts_dt hlib hw hlen hquad hc hq ha hpd
  obtain ⟨h0, hst⟩ := C85_stability_dt hlib hw hlen hquad hc groups hq ha hpd hz hD hF hin
  refine attractsDT_sublevel hV hF c (Metric.isCompact_of_isClosed_isBounded (isClosed_le hV continuous_const) hbd) (fun p hp hp0 => ?_)
    (fun p hp hp0 => (H p (hsub hp) hp0).2) hst.1 h0
  rw [C47_vanishes_at_origin s.nVars s.rounding s.quad s.net (Or.inr hz)]
  exact (H p (hsub hp) hp0).1

end

/-! ### the loop -/

theorem run_accepted_dt_any {w : World R K (Net × ℚ)} {c : SynthCfg} (hw : SoundWorld c w) (hlib : c.lib = .z3 ∨ c.lib = .dreal) (hsets : WFDomains c.nVars c.domains)
    {learn net ctrl S out} (h : Solves c.loop (singleComponents w c true learn) net ctrl S out) (hf : out.found = true) :
    ∃ groups, queriesDT (c.setup out.net.1 out.net.2 (w.dynamics out.ctrl)) = .ok groups ∧ Accepted c.nVars groups := by
  obtain ⟨g, i, cex, hq, hv⟩ := solve_queries_dt w c learn net ctrl S out h hf
  refine ⟨g, hq, accepted_of_world hw (fun hcl => queriesDT_below (s := c.setup out.net.1 out.net.2 (w.dynamics out.ctrl)) (hcl _) hq) (fun hsm hc => ?_) hv⟩
  obtain ⟨d, V, Vdot, h1, -, h3⟩ := queriesDT_inv hq
  exact single_confined hlib hsets hsm (initialise_single h1 (single_cert h3)) hc h3

/-- **C85, end to end.** Whatever training does (any activations, any controller): if a discrete-time Lyapunov run reports success with a network that vanishes at the origin
by construction, then the origin is a fixed point of the closed-loop map with the returned controller and asymptotically stable, if that map is continuous and keeps
the origin in the domain. -/
theorem C85_synthesis_stability_dt (c : SynthCfg) (w : World R K (Net × ℚ)) (hw : SoundWorld c w) (learn) (hlib : c.lib = .z3 ∨ c.lib = .dreal)
    (hsets : WFDomains c.nVars c.domains) (hc : c.cert = .LYAPUNOV) (hquad : c.quad = false) (net ctrl S out)
    (h : Solves c.loop (singleComponents w c true learn) net ctrl S out) (hf : out.found = true)
    (hlen : (w.dynamics out.ctrl).length = c.nVars) (hpd : c.llo = false ∨ PDNet out.net.1) (hz : ZeroNet out.net.1)
    (hD : region c.nVars c.domains XD ∈ 𝓝 0) (hF : Continuous (field c.nVars (w.dynamics out.ctrl)))
    (hin : field c.nVars (w.dynamics out.ctrl) 0 ∈ region c.nVars c.domains XD) :
    field c.nVars (w.dynamics out.ctrl) 0 = 0 ∧ AsympStableDT (field c.nVars (w.dynamics out.ctrl)) := by
  obtain ⟨g, hq, ha⟩ := run_accepted_dt_any hw hlib hsets h hf
  exact C85_stability_dt (s := c.setup out.net.1 out.net.2 (w.dynamics out.ctrl)) hlib hsets hlen hquad hc g hq ha hpd hz hD hF hin

/-! ### from a file -/

section
variable {c : ConfigText} {r : Ready} {F : Pt c.nVars → Pt c.nVars} {w : World R Unit (Net × ℚ)} {T : Trainer Unit} {hidden : List ℕ} {acts : List ActivationType}

/-- **C85, from a file.** For every accepted Lyapunov file run in discrete time (no factors, non-zero rounding) whose activations vanish at 0 (ReLU included), with or without LLO (with LLO: the
last activation is one of the non-negative ones and training makes the steps of `Lyapunov.learn`): the run returns after at most CEGIS_MAX_ITERS + 1 passes or raises because a
training sample has difference exactly 0, and if it reports success the origin is a fixed point of the written map and asymptotically stable, provided the map is continuous,
and the written domain is a neighbourhood of the origin that contains its image. -/
theorem C85_file_stability_dt (h : AnyFileRun c r F w T hidden acts) (hc : c.cert = .LYAPUNOV) (hq : c.quad = false) (hrnd : c.rounding ≠ 0)
    (hllo : c.llo = false ∨ (LloActs hidden acts ∧ LloSteps T acts)) (hz : Vanishing acts) (fl : ℝ → ℚ)
    (gs : ℕ → Rng) (g g' : Rng) (wt : ℕ → ℕ → ℕ → ℚ) (bs : ℕ → ℕ → ℚ) (hdraw : DrawsSome fl gs r.data)
    (D : Set (Pt c.nVars)) (hD : Configures c.nVars c.domains "XD" D) (hn : D ∈ nhds 0) (hF : Continuous F) (hF0 : F 0 ∈ D) :
    ∃ net S, newNet c.nVars hidden acts c.llo (certBias c.cert) wt bs = .ok net ∧ initData fl gs r.data = .ok S ∧
      ((∃ out, Solves r.cfg.loop (singleComponents (w.withEstimate g g' r.cfg) r.cfg true (trainedLearn T r.cfg true w.dynNum)) (net, 0) () S out ∧
        (out.iters : ℤ) ≤ c.maxIters + 1 ∧ (out.found = true → F 0 = 0 ∧ AsympStableDT F)) ∨
      (∃ k st, Steps r.cfg.loop (singleComponents (w.withEstimate g g' r.cfg) r.cfg true (trainedLearn T r.cfg true w.dynNum))
        (initState (singleComponents (w.withEstimate g g' r.cfg) r.cfg true (trainedLearn T r.cfg true w.dynNum)) (net, 0) () S) k st ∧
        MeetsZeroDerivative T r.cfg true w.dynNum st)) := by
  obtain ⟨net, S, h1, h2, h3⟩ := C84_file_run_total h (by rw [hc]; refine ⟨?_, ?_, ?_⟩ <;> intro h <;> cases h) true (fun _ => hrnd) fl gs g g' wt bs hdraw
  refine ⟨net, S, h1, h2, ?_⟩
  rcases h3 with ⟨out, h3, h4⟩ | ⟨-, h3⟩
  swap; · exact Or.inr h3
  obtain ⟨net', h1', h5, h6⟩ := newNet_usable (n := c.nVars) h.net (certBias c.cert) wt bs
  rw [h1] at h1'; cases h1'
  obtain ⟨⟨learn, hr, hs⟩, hz'⟩ := anyFile_config h g g' true h5 h3
  refine Or.inl ⟨out, h3, h4, fun hf => ?_⟩
  have hzo := hz' (h6 (by rw [hc]; rfl) hz)
  have hpd : c.llo = false ∨ PDNet out.net.1 := by
    cases hl : c.llo with
    | false => exact Or.inl rfl
    | true =>
      rcases hllo with e | ⟨ha, hst⟩
      · rw [e] at hl; cases hl
      · right
        have hcfg := ready_cfg h.accepted
        exact llo_run_pd (by rw [hcfg]; exact hc) h.shape ha hst (by rw [hl, hc] at h1; exact h1) h3
  have hf' := config_field (readConfig_inv hr.accepted).1 hr.system
  have hss := anyRun_sets hr
  have hw := hr.sound
  have hdyn := hr.dynamics out.ctrl
  have rD := hss.region .XD (by decide) (by decide) (by rintro -; simp [hc]) hD
  have hwf := hss.wf
  clear hr h h3 h1 hz' h6 h5
  obtain ⟨cfg, f, data⟩ := r
  obtain ⟨doms, e⟩ := hss.cfg
  dsimp only at e rD hwf hf' hw hs hdyn
  subst e rD
  have hfd : field c.nVars ((w.withEstimate g g' ⟨c.lib, c.nVars, c.cert, doms, c.llo, c.rounding, c.quad, c.maxIters⟩).dynamics out.ctrl) = F := by
    rw [hdyn]; exact hf'.1
  have := C85_synthesis_stability_dt ⟨c.lib, c.nVars, c.cert, doms, c.llo, c.rounding, c.quad, c.maxIters⟩ _ hw learn hss.lib hwf hc hq _ _ _ out hs hf
    (by rw [hdyn]; exact hf'.2.1) hpd hzo hn (by rw [hfd]; exact hF) (by rw [hfd]; exact hF0)
  rwa [hfd] at this

end

/-! ### the proviso on the image of the origin is needed -/

/-- The certificate `x² - x³` on [-1/2, 1/2] for the map that sends every state to 1. -/
def exJump : Setup where
  lib := .z3
  nVars := 1
  cert := .LYAPUNOV
  domains := [(XD, .rectangle [-1/2] [1/2] none)]
  llo := false
  rounding := 3
  quad := false
  net := ⟨1, [⟨[[1], [1], [1]], none⟩, ⟨[[0, 1, -1]], none⟩], [.polyN 3]⟩
  f := [.const 1]
  beta := 0

theorem exJump_accepted : ∃ groups, queriesDT exJump = .ok groups ∧ Accepted exJump.nVars groups := by
  refine ⟨_, rfl, accepted_of_refuted (by simp [DistinctLabels, queries]) ?_⟩
  have h1 : roundBy 3 1 = 1 := by decide +kernel
  have h0 : roundBy 3 0 = 0 := by decide +kernel
  have h2 : roundBy 3 (-1) = -1 := by decide +kernel
  intro g hg q hq ρ h
  simp only [List.mem_singleton] at hg
  subst hg
  simp only [List.mem_singleton] at hq
  subst hq
  simp [Formula.holds, Formula.conj, Term.eval, Term.sum, leZero, geZero, factors, vars, h1, h0, h2, exJump, hiddenBias, polyCat, polyParts, List.range_succ] at h
  obtain ⟨⟨-, ha⟩, hb, hc⟩ := h
  have h3 := mul_self_pos.2 hc
  norm_num at ha
  nlinarith [show ρ 0 ^ 3 = ρ 0 * ρ 0 * ρ 0 by ring]

/-- **C85, the missing case.** The certificate is accepted on a neighbourhood of the origin, vanishes at the origin, and the map is continuous - but the map sends the origin out of
the domain, to a point where the certificate is not positive: the origin is neither a fixed point nor stable. -/
theorem C85_origin_may_move : (∃ groups, queriesDT exJump = .ok groups ∧ Accepted exJump.nVars groups) ∧ exJump.cert = .LYAPUNOV ∧ exJump.llo = false ∧ exJump.quad = false ∧
    ZeroNet exJump.net ∧ region 1 exJump.domains XD ∈ 𝓝 0 ∧ Continuous (field 1 exJump.f) ∧ field 1 exJump.f 0 ≠ 0 ∧ ¬ StableDT (field 1 exJump.f) := by
  have hf : ∀ p : Pt 1, field 1 exJump.f p = fun _ => 1 := by
    intro p; funext i; rw [Subsingleton.elim i 0]; simp [field, exJump, Term.eval]
  refine ⟨exJump_accepted, rfl, rfl, rfl, ⟨?_, ?_⟩, ?_, ?_, ?_, ?_⟩
  · intro l hl; simp [exJump] at hl; rcases hl with rfl | rfl <;> rfl
  · intro a ha; simp [exJump] at ha; subst ha; simp
  · have e : region 1 exJump.domains XD = docSet 1 (.rectangle [-1/2] [1/2] none) := by simp [region, Dict.get?, exJump]
    have : region 1 exJump.domains XD = (fun p : Pt 1 => p 0) ⁻¹' Icc (-(1/2)) (1/2) := by
      ext p
      rw [e, seg_mem]; norm_num
    rw [this]
    exact (continuous_apply (0 : Fin 1)).continuousAt.preimage_mem_nhds (Icc_mem_nhds (by norm_num) (by norm_num))
  · rw [show field 1 exJump.f = fun _ _ => 1 from funext hf]; exact continuous_const
  · rw [hf]; intro h; have := congrFun h 0; simp at this
  · intro h
    obtain ⟨W, hW, H⟩ := h (Metric.ball 0 1) (Metric.ball_mem_nhds _ one_pos)
    have := H (fun k => if k = 0 then 0 else fun _ => 1) (fun k => by rw [hf]; simp) (by simpa using mem_of_mem_nhds hW) 1
    simp only [one_ne_zero, if_false, mem_ball_zero_iff] at this
    have h1 := norm_le_pi_norm (fun _ : Fin 1 => (1 : ℝ)) 0
    simp only [norm_one] at h1
    linarith

/-! ### non-vacuity -/

example : field 1 exLyapDT.f 0 = 0 ∧ AsympStableDT (field 1 exLyapDT.f) := by
  obtain ⟨g, h1, h2⟩ := exLyapDT_accepted
  have hf : ∀ p : Pt 1, field 1 exLyapDT.f p = fun _ => 1/2 * p 0 := by
    intro p; funext i; rw [Subsingleton.elim i 0]; simp [field, exLyapDT, exLyap, Term.eval, Pt.env]
  refine C85_stability_dt (s := exLyapDT) (Or.inl rfl) exLyap_smooth.sets rfl rfl rfl g h1 h2 (Or.inl rfl) exLyap_zero interval_nhds ?_ ?_
  · show Continuous (field 1 exLyapDT.f)
    rw [show field 1 exLyapDT.f = fun p _ => 1/2 * p 0 from funext hf]; fun_prop
  · show field 1 exLyapDT.f 0 ∈ region 1 exLyapDT.domains XD
    rw [hf]
    have : (fun _ => 1/2 * (0 : Pt 1) 0 : Pt 1) = 0 := by funext i; simp
    rw [this]
    exact mem_of_mem_nhds interval_nhds

/-- A file for the map `x/2`. -/
def exHalfConfig (llo : Bool) : ConfigText := ⟨.z3, 1, .LYAPUNOV, ["x0/2"], [("XD", "Rectangle([-1],[1])")], some (.dict [("XD", 10)]), ⟨1, true, false⟩, llo, 3, false, 10⟩

theorem exHalf_system : readSystem .z3 1 ["x0/2"] = .ok [.div (.var 0) (.const 2)] := rfl

theorem exHalf_ready (llo : Bool) : ∃ data, readConfig (exHalfConfig llo) = .ok ⟨⟨.z3, 1, .LYAPUNOV, exLyap.domains, llo, 3, false, 10⟩, [.div (.var 0) (.const 2)], data⟩ := by
  have es : readSystem (exHalfConfig llo).lib (exHalfConfig llo).nVars (exHalfConfig llo).system = .ok [.div (.var 0) (.const 2)] := exHalf_system
  have ed : readDomainTexts (exHalfConfig llo).domains = .ok [("XD", .rectangle [-1] [1] none)] := rfl
  have hp : ∃ data : Dict String Src, parseConfig .LYAPUNOV [("XD", .rectangle [-1] [1] none)] (exHalfConfig llo).nData = .ok (data, exLyap.domains) ∧
      ∃ d, initialiseDomains .z3 1 .LYAPUNOV exLyap.domains = .ok d ∧ assertState .LYAPUNOV d.keys data.keys = .ok () := ⟨_, rfl, _, rfl, rfl⟩
  obtain ⟨data, hp, d, hd, ha⟩ := hp
  refine ⟨data, ?_⟩
  have hlr : ¬ ((1 : ℚ) ≤ 0) := by norm_num
  exact readConfig_ok es (readSets_ok ed hp hd hlr rfl (Or.inl rfl) ha)

theorem half_x_system (funcs : FName → Bool) : SystemText funcs 1 ["x0/2"] (fun p i => p i / 2) := by
  refine ⟨rfl, fun i hi => ⟨[.x 0, .slash, .num 2], .div (.x 0) (.num 2),
    .sum (.div (a := [.x 0]) (b := [.num 2]) (.term (.factor (.signed (.x 0)))) (.factor (.signed (.num 2)))), ?_, ⟨[['x', '0'], ['/'], ['2']], ?_, ?_⟩, rfl, ?_, ?_⟩⟩
  · rintro ⟨p, a, e, r, h, -⟩
    have : Tok.dstar ∈ [Tok.x 0, .slash, .num 2] := by rw [h]; simp
    simp at this
  · exact .cons (TokText.x (d := ['0']) ⟨digits_of (by decide), Or.inl rfl⟩) (.cons .slash (.cons (.num (numeral_int (by decide) (by decide +kernel))) .nil))
  · obtain rfl : i = 0 := by omega
    exact layout_flatten _
  · intro j hj
    simp [AExpr.xs] at hj
    subst hj; simp
  · intro p
    obtain rfl : i = 0 := by omega
    simp [AExpr.eval, Pt.env]

/-- The file, with ReLU units (no LLO) and with squares under LLO, meets the hypotheses of `C85_file_stability_dt`. -/
example : (∃ r, AnyFileRun (exHalfConfig false) r (fun p i => p i / 2) (idealWorld (Net × ℚ) [.div (.var 0) (.const 2)]) exTrainer [2] [.RELU] ∧ Vanishing [.RELU] ∧
      ∀ fl g, DrawsSome fl g r.data) ∧
    (∃ r, AnyFileRun (exHalfConfig true) r (fun p i => p i / 2) (idealWorld (Net × ℚ) [.div (.var 0) (.const 2)]) exTrainer [1] [.SQUARE] ∧ Vanishing [.SQUARE] ∧
      LloActs [1] [.SQUARE] ∧ LloSteps exTrainer [.SQUARE] ∧ ∀ fl g, DrawsSome fl g r.data) ∧
    ∃ D : Set (Pt 1), Configures 1 (exHalfConfig false).domains "XD" D ∧ D ∈ nhds 0 ∧ (fun i => (0 : Pt 1) i / 2 : Pt 1) ∈ D := by
  obtain ⟨s1, s2, s3, s4⟩ := exStay_sets
  have hd : ∀ llo, DomainsDescribed (exHalfConfig llo) := by
    intro llo
    refine ⟨by simp [exHalfConfig], ?_⟩
    intro k s hm
    simp only [exHalfConfig, List.mem_cons, Prod.mk.injEq, List.not_mem_nil, or_false] at hm
    rw [hm.2]
    exact ⟨_, s3⟩
  refine ⟨?_, ?_, ?_⟩
  · obtain ⟨data, hr⟩ := exHalf_ready false
    refine ⟨_, ⟨Or.inl rfl, hd _, half_x_system _, hr, by decide, idealWorld_sound _ _ _, fun _ => rfl, idealWorld_fair _ _ _ rfl, (fun h => by cases h),
      fun _ _ _ => sameShape_refl _, relu_usable _⟩, by simp [Vanishing], fun fl g => C76_draws_some _ _ (hd _) hr (Or.inl rfl) ?_ fl g⟩
    show ∀ e ∈ [("XD", 10)], 0 < e.2
    decide
  · obtain ⟨data, hr⟩ := exHalf_ready true
    obtain ⟨_, -, -, -, hv, ha, hst, -⟩ := exLlo_run
    refine ⟨_, ⟨Or.inl rfl, hd _, half_x_system _, hr, by decide, idealWorld_sound _ _ _, fun _ => rfl, idealWorld_fair _ _ _ rfl, (fun h => by cases h),
      fun _ _ _ => sameShape_refl _, ⟨by simp, by simp, fun a ha => by rw [List.mem_singleton.1 ha]; exact ⟨.square, rfl, rfl⟩⟩⟩, hv, ha, hst,
      fun fl g => C76_draws_some _ _ (hd _) hr (Or.inl rfl) ?_ fl g⟩
    show ∀ e ∈ [("XD", 10)], 0 < e.2
    decide
  · have : {p : Pt 1 | ∀ i : Fin 1, entry [-1] i ≤ p i ∧ p i ≤ entry [1] i} = (fun p : Pt 1 => p 0) ⁻¹' Icc (-1) 1 := by
      ext p; simp [entry, Fin.forall_fin_one]
    have hn : {p : Pt 1 | ∀ i : Fin 1, entry [-1] i ≤ p i ∧ p i ≤ entry [1] i} ∈ nhds 0 := by
      rw [this]
      exact (continuous_apply (0 : Fin 1)).continuousAt.preimage_mem_nhds (Icc_mem_nhds (by simp) (by simp))
    refine ⟨_, ⟨_, by simp [exHalfConfig], s3⟩, hn, ?_⟩
    have e : (fun i => (0 : Pt 1) i / 2 : Pt 1) = 0 := by funext i; simp
    rw [e]
    exact mem_of_mem_nhds hn

/-- A successful discrete-time run: the hypotheses of `C85_synthesis_stability_dt`. -/
example : ∃ (learn : _) (out : _), Solves (SynthCfg.loop ⟨.z3, 1, .LYAPUNOV, exLyap.domains, false, 3, false, 10⟩)
    (singleComponents (idealWorld (Net × ℚ) exLyapDT.f) ⟨.z3, 1, .LYAPUNOV, exLyap.domains, false, 3, false, 10⟩ true learn) (exLyap.net, 0) () [] out ∧ out.found = true ∧
    out.net.1 = exLyap.net := by
  obtain ⟨gr, hq, ha⟩ := exLyapDT_accepted
  have hd : DistinctLabels gr := by
    obtain ⟨d, V, Vdot, -, -, h⟩ := queriesDT_inv hq
    obtain ⟨dom, -, h⟩ := except_bind_ok h
    cases h
    simp [DistinctLabels, queries]
  obtain ⟨cex, hv⟩ := ideal_verifies 1 gr hd (accepted_refutes hd ha)
  unfold queriesDT at hq
  obtain ⟨d, hdd, hq⟩ := except_bind_ok hq
  obtain ⟨⟨V, Vdot⟩, ht, hq⟩ := except_bind_ok hq
  set cfg : SynthCfg := ⟨.z3, 1, .LYAPUNOV, exLyap.domains, false, 3, false, 10⟩ with hcfg
  set w := idealWorld (Net × ℚ) exLyapDT.f with hwd
  obtain ⟨out, o1, o2, o3, -⟩ := first_pass_when cfg.loop (singleComponents w cfg true (fun _ => .ok ((exLyap.net, 0), ()))) (exLyap.net, 0) () [] (exLyap.net, 0) () V Vdot cex [] rfl ht (by
    have hdd' : initialiseDomains cfg.lib cfg.nVars cfg.cert cfg.domains = .ok d := hdd
    have hq' : singleConstraints cfg.cert cfg.nVars cfg.llo 0 d V Vdot = .ok gr := hq
    have hv' : verify w.backend cfg.nVars (w.noise 0) (w.oracle 0) gr = .ok ⟨true, cex⟩ := hv
    simp only [singleComponents, Bind.bind, Except.bind, hdd', hq', hv', pure, Except.pure]) rfl (fun _ => rfl) (fun h => by cases h)
  exact ⟨_, out, o1, o2, by rw [o3]⟩

end Fossil

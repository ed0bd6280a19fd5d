/-
C83: runs of synthesis with networks that may have ReLU units: all certificate types, also started from a configuration file.
-/
import Verif.Props.C82_Kinks
import Verif.Props.C45_Relu
import Verif.Props.C56_Config

namespace Fossil
open Spec Set Filter Topology

variable {R K : Type}

/-- **C83, reach while staying.** If synthesis reports success for RWS, RWA, RSWS or RSWA with any activations, there is a time bound
within which every trajectory of the closed loop from XI that starts strictly below 0 or away from the kinks reaches XG, staying in
XS until then. -/
theorem C83_synthesis_reach (c : SynthCfg) (w : World R K (Net × ℚ)) (hw : SoundWorld c w) (learn)
    (hlib : c.lib = .z3 ∨ c.lib = .dreal) (hwf : WFDomains c.nVars c.domains)
    (hc : c.cert = .RWS ∨ c.cert = .RWA ∨ c.cert = .RSWS ∨ c.cert = .RSWA)
    (hsets : ReachSets c.nVars c.domains) (hbd : Bornology.IsBounded (region c.nVars c.domains XS)) (net ctrl S out)
    (h : Solves c.loop (singleComponents w c false learn) net ctrl S out) (hf : out.found = true)
    (hsz : out.net.1.inputSize = c.nVars) :
    ∃ τ : ℝ, ∀ (T : ℝ) (ξ : ℝ → Pt c.nVars), Trajectory (field c.nVars (w.dynamics out.ctrl)) T ξ → τ ≤ T →
      ξ 0 ∈ region c.nVars c.domains XI →
      (certValue c.rounding c.quad out.net.1 (ξ 0) < 0 ∨
        AwayFromKinks (c.setup out.net.1 out.net.2 (w.dynamics out.ctrl)) (ξ 0)) →
      (∃ t ∈ Icc 0 τ, ξ t ∈ region c.nVars c.domains XG) ∧
      ∀ t ∈ Icc 0 T, ξ t ∈ region c.nVars c.domains XS ∨ ∃ r ∈ Icc 0 t, ξ r ∈ region c.nVars c.domains XG := by
  obtain ⟨g, hq, ha⟩ := run_accepted_any hw hlib hwf h hf
  exact C82_rws_reaches_goal _ ⟨hlib, hwf, hsz⟩ hsets hc g hq ha hbd

/-- **C83, reach and stay.** The same for RSWS: from some time within the bound on, the trajectory is in XG for ever, and it is always
in XS. -/
theorem C83_synthesis_reach_stay (c : SynthCfg) (w : World R K (Net × ℚ)) (hw : SoundWorld c w) (learn)
    (hlib : c.lib = .z3 ∨ c.lib = .dreal) (hwf : WFDomains c.nVars c.domains)
    (hc : c.cert = .RSWS) (hsets : StaySets c.nVars c.domains)
    (hbd : Bornology.IsBounded (region c.nVars c.domains XS)) (net ctrl S out)
    (h : Solves c.loop (singleComponents w c false learn) net ctrl S out) (hf : out.found = true)
    (hsz : out.net.1.inputSize = c.nVars) :
    ∃ τ : ℝ, ∀ (T : ℝ) (ξ : ℝ → Pt c.nVars), Trajectory (field c.nVars (w.dynamics out.ctrl)) T ξ → τ ≤ T →
      ξ 0 ∈ region c.nVars c.domains XI →
      (certValue c.rounding c.quad out.net.1 (ξ 0) < 0 ∨
        AwayFromKinks (c.setup out.net.1 out.net.2 (w.dynamics out.ctrl)) (ξ 0)) →
      (∃ t₁ ∈ Icc 0 τ, ∀ t ∈ Icc t₁ T, ξ t ∈ region c.nVars c.domains XG) ∧
      ∀ t ∈ Icc 0 T, ξ t ∈ region c.nVars c.domains XS := by
  obtain ⟨g, hq, ha⟩ := run_accepted_any hw hlib hwf h hf
  obtain ⟨k, st, V, Vdot, cex, -, -, ht, -, -, -, hv, hb⟩ := C27_success_is_verified _ _ _ _ _ _ h hf
  have hb : betaSearchFn (stayCheckFor w.backend (w.stayOracle st.iters) c V Vdot) = .ok true := hb hc
  have ht : translateCT c.lib c.rounding none c.quad out.net.1 (vars c.nVars) (w.dynamics out.ctrl)
      = .ok (V, Vdot) := ht
  unfold betaSearchFn at hb
  split at hb
  · rename_i hex
    obtain ⟨kb, β, hrun⟩ := hex
    obtain ⟨o, hsound, ho⟩ := stay_sound hw hlib hwf (by simp [hc]) st.iters
    have heq : stayCheckFor w.backend (w.stayOracle st.iters) c V Vdot =
        stayCheckCT w.backend o (c.setup out.net.1 out.net.2 (w.dynamics out.ctrl)) := by
      funext b
      rw [ho _ _ _ _ b ht]
      simp only [stayCheckFor, stayCheckCT, SynthCfg.setup, Bind.bind, Except.bind, ht]
    rw [heq] at hrun
    exact C82_reaches_and_stays w.backend o hsound _ ⟨hlib, hwf, hsz⟩ hsets (Or.inl hc) g hq ha kb β hrun hbd
  · split at hb <;> cases hb

/-- **C83, region of attraction.** If synthesis reports success for ROA with any activations, XI is inside the verified level set,
and along every trajectory of the closed loop that starts strictly inside and stays outside the 0.01-ball the certificate never exceeds its
initial value (with LLO: strictly decreases). -/
theorem C83_synthesis_roa (c : SynthCfg) (w : World R K (Net × ℚ)) (hw : SoundWorld c w) (learn)
    (hlib : c.lib = .z3 ∨ c.lib = .dreal) (hwf : WFDomains c.nVars c.domains) (hc : c.cert = .ROA) (net ctrl S out)
    (h : Solves c.loop (singleComponents w c false learn) net ctrl S out) (hf : out.found = true)
    (hsz : out.net.1.inputSize = c.nVars) :
    (∀ p ∈ region c.nVars c.domains XI, certValue c.rounding c.quad out.net.1 p ≤ (out.net.2 : ℝ) * (11/10)) ∧
    ∀ (T : ℝ) (ξ : ℝ → Pt c.nVars), Trajectory (field c.nVars (w.dynamics out.ctrl)) T ξ →
      certValue c.rounding c.quad out.net.1 (ξ 0) < (out.net.2 : ℝ) * (11/10) → (∀ t ∈ Icc 0 T, (1/100)^2 < normSq (ξ t)) →
      (∀ t ∈ Icc 0 T, certValue c.rounding c.quad out.net.1 (ξ t) ≤ certValue c.rounding c.quad out.net.1 (ξ 0)) ∧
      (c.llo = true → StrictAntiOn (fun t => certValue c.rounding c.quad out.net.1 (ξ t)) (Icc 0 T)) := by
  obtain ⟨g, hq, ha⟩ := run_accepted_any hw hlib hwf h hf
  exact ⟨(C08_roa_conditions _ hlib hwf hsz hc g hq ha).1, fun T ξ hξ hlt hout =>
    C82_roa_invariant _ ⟨hlib, hwf, hsz⟩ hc g hq ha T ξ hξ hlt hout⟩

/-! ### two networks -/

/-- No ReLU unit of the verified barrier network has its kink at a point of the domain where the network is zero. -/
def Spec.LevelAwayFromKinks (n : ℕ) (doms : Dict String PySet) (rnd : ℤ) (barr : Net) : Prop :=
  ∀ p ∈ region n doms XD, certValue rnd false barr p = 0 → noKink (roundedNet rnd barr).layers.dropLast barr.acts (coordList p)

/-- **C83, stable while safe.** If synthesis reports success for STABLESAFE, with any activations in both networks, and no kink of the
barrier network lies on its zero level in XD, no trajectory of the closed loop that starts in XI and stays in XD reaches XU. -/
theorem C83_synthesis_stable_safe (c : SynthCfg) (w : World R K ((Net × ℚ) × Net)) (hw : SoundWorld c w) (learn)
    (hlib : c.lib = .z3 ∨ c.lib = .dreal) (hwf : WFDomains c.nVars c.domains) (hc : c.cert = .STABLESAFE) (net ctrl S out)
    (h : Solves c.loop (doubleComponents w c learn) net ctrl S out) (hf : out.found = true)
    (hsz : out.net.2.inputSize = c.nVars) (hk : LevelAwayFromKinks c.nVars c.domains c.rounding out.net.2)
    (T : ℝ) (ξ : ℝ → Pt c.nVars) (hξ : Trajectory (field c.nVars (w.dynamics out.ctrl)) T ξ)
    (h0 : ξ 0 ∈ region c.nVars c.domains XI) (hin : ∀ t ∈ Icc 0 T, ξ t ∈ region c.nVars c.domains XD) :
    ∀ t ∈ Icc 0 T, ξ t ∉ region c.nVars c.domains XU := by
  obtain ⟨g, i, cex, hq, hv⟩ := solve_queries_double w c learn net ctrl S out h hf
  obtain ⟨Q, P, hR, -, hP⟩ := hw.reliable
  obtain ⟨gb, hB, hacc⟩ := stable_safe_half (c.setup out.net.1.1 out.net.1.2 (w.dynamics out.ctrl)) out.net.2 hc g hq
    w.backend (w.noise i) (w.oracle i) (fun k q hBq => (hR i k).excl q (by
      rcases hP with hP | ⟨hQ, -, -, hcl, -⟩
      · exact (hP q).1
      obtain ⟨g', hg, q', hq', rfl⟩ := hBq
      exact hQ _ (queriesDouble_below (s := c.setup out.net.1.1 out.net.1.2 (w.dynamics out.ctrl)) (hcl _) hq g' hg q' hq')))
    (fun k q hBq hu => (hR i k).sound q (by
      rcases hP with hP | ⟨-, hP, hsm, hcl, -⟩
      · exact (hP q).2
      obtain ⟨gb, hgb, g, hg, q', hq', rfl⟩ := hBq
      obtain ⟨d, V, Vdot, h1, -, h3⟩ := queriesCT_inv hgb
      exact hP _ (queriesCT_below (s := (c.setup out.net.1.1 out.net.1.2 (w.dynamics out.ctrl)).barrierHalf out.net.2) (hcl _) hgb g hg _ hq') (single_confined hlib hwf hsm (initialise_single h1 (single_cert h3)) (by simp [Setup.barrierHalf]) h3 g hg q' hq')) hu) cex hv
  exact C45_relu_barrier_safety_partial ((c.setup out.net.1.1 out.net.1.2 (w.dynamics out.ctrl)).barrierHalf out.net.2)
    hlib hwf hsz rfl gb hB hacc hk T ξ hξ h0 hin

/-- **C83, remain.** If the reach-avoid-remain pair is verified and no kink of the second network lies on its zero level in XD, a
trajectory that is in the goal at some time and stays in the domain from then on, is in the final set at all later times. -/
theorem C83_remains_in_final (s : Setup) (hs : AnySetup s) (barr : Net) (hbn : barr.inputSize = s.nVars)
    (hk : LevelAwayFromKinks s.nVars s.domains s.rounding barr) (hc : s.cert = .RAR) (groups) (hq : queriesDouble s barr = .ok groups)
    (ha : Accepted s.nVars groups)
    (T t₁ : ℝ) (ξ : ℝ → Pt s.nVars) (hξ : Trajectory (field s.nVars s.f) T ξ) (ht₁ : t₁ ∈ Icc 0 T)
    (h0 : ξ t₁ ∈ region s.nVars s.domains XG) (hin : ∀ t ∈ Icc t₁ T, ξ t ∈ region s.nVars s.domains XD) :
    ∀ t ∈ Icc t₁ T, ξ t ∈ region s.nVars s.domains XF := by
  have href := accepted_refutes (rar_distinct hc hq) ha
  obtain ⟨g1, d, nf, S, B, Bdot, dom, goal, b1, b2, b3, hd, hS, hnf, -, hB, hdom, hgoal, rfl, rfl, rfl, rfl⟩ :=
    rar_split hc hq
  have H1 := href _ (List.mem_append_right _ (List.mem_cons_self ..)) _ (List.mem_cons_self ..)
  have H2 := href _ (List.mem_append_right _ (List.mem_cons_self ..)) _
    (List.mem_cons_of_mem _ (List.mem_cons_self ..))
  have H3 := href _ (List.mem_append_right _ (List.mem_cons_of_mem _ (List.mem_cons_self ..))) _
    (List.mem_cons_self ..)
  simp only [Formula.holds, geZero, leZero, Term.eval, Rat.cast_zero] at H1 H2 H3
  have rD := entry_region hs.lib hs.sets hd (by decide) hdom
  have rG := entry_region hs.lib hs.sets hd (by decide) hgoal
  obtain ⟨nf', hnf', rN⟩ := C21_complement_formula_denotes_complement s.lib s.nVars S (wf_of_get hs.sets hS)
    (by rcases hs.lib with h | h <;> simp [h, supports])
  rw [hnf] at hnf'
  cases hnf'
  intro t ht
  by_contra hnot
  have hsub : Icc t₁ T ⊆ Icc 0 T := Icc_subset_Icc_left ht₁.1
  have hlt := fence_lt_cont (c := 0) (g := fun τ => certValue s.rounding false barr (ξ τ)) (a := t₁) (b := T)
    ((continuous_certValue _ _ _ _).comp_continuousOn ((traj_cont hξ).mono hsub))
    (by
      show certValue _ _ _ _ < 0
      rw [← certValue_eq hB]
      by_contra hcon
      exact H1 (ξ t₁).env ⟨⟨not_lt.1 hcon, (rG _).2 h0⟩, (rD _).2 (hin t₁ ⟨le_rfl, ht₁.2⟩)⟩)
    (fun r hr e => by
      refine ⟨Bdot.eval (ξ r).env, ?_, ?_⟩
      · by_contra hcon
        exact H3 (ξ r).env ⟨⟨by rw [certValue_eq hB]; exact e, not_lt.1 hcon⟩, (rD _).2 (hin r hr)⟩
      · have := C17_lie_derivative s.lib s.rounding false barr s.nVars s.f B Bdot hB hbn (ξ r) (hk _ (hin r hr) e) ξ _ r rfl
          ((hξ r (hsub hr)).mono hsub)
        simpa only [certValue_eq hB] using this) t ht
  refine H2 (ξ t).env ⟨⟨by rw [certValue_eq hB]; exact hlt.le, (rN _).2 fun h => hnot ?_⟩, (rD _).2 (hin t ht)⟩
  simpa [region, hS] using h

/-- **C83, reach, avoid and remain.** A verified reach-avoid-remain pair with any activations, no kink of the second network on its
zero level in XD: for a bounded safe set there is a time `τ` such that every trajectory from XI (starting strictly below 0 or away from
the kinks of the first network) that stays in XD reaches XG within `τ`, is in XS until then, and in XF ever after any visit of XG. -/
theorem C83_reach_avoid_remain (s : Setup) (hs : AnySetup s) (barr : Net) (hbn : barr.inputSize = s.nVars)
    (hk : LevelAwayFromKinks s.nVars s.domains s.rounding barr) (hr : ReachSets s.nVars s.domains) (hc : s.cert = .RAR) (groups)
    (hq : queriesDouble s barr = .ok groups) (ha : Accepted s.nVars groups)
    (hbd : Bornology.IsBounded (region s.nVars s.domains XS)) :
    ∃ τ : ℝ, ∀ (T : ℝ) (ξ : ℝ → Pt s.nVars), Trajectory (field s.nVars s.f) T ξ → τ ≤ T →
      ξ 0 ∈ region s.nVars s.domains XI → (certValue s.rounding false s.net (ξ 0) < 0 ∨ AwayFromKinks s (ξ 0)) →
      (∀ t ∈ Icc 0 T, ξ t ∈ region s.nVars s.domains XD) →
      (∃ t ∈ Icc 0 τ, ξ t ∈ region s.nVars s.domains XG) ∧
      (∀ t ∈ Icc 0 T, ξ t ∈ region s.nVars s.domains XS ∨
        ∃ r ∈ Icc 0 t, ξ r ∈ region s.nVars s.domains XG) ∧
      ∀ r ∈ Icc 0 T, ξ r ∈ region s.nVars s.domains XG →
        ∀ t ∈ Icc r T, ξ t ∈ region s.nVars s.domains XF := by
  have href := accepted_refutes (rar_distinct hc hq) ha
  obtain ⟨g1, d, nf, S, B, Bdot, dom, goal, b1, b2, b3, hd, hS, hnf, hq1, hB, hdom, hgoal, e, -⟩ := rar_split hc hq
  have hd1 : DistinctLabels g1 := by
    obtain ⟨d', V, Vdot, -, -, h3⟩ := queriesCT_inv hq1
    exact rws_distinct h3
  have hacc : Accepted s.nVars g1 := accepted_of_refuted hd1 (fun g hg => href g (by rw [e]; simp [hg]))
  obtain ⟨τ, hτ⟩ := C82_rws_reaches_goal s.rwsHalf ⟨hs.lib, hs.sets, hs.size⟩ hr (Or.inl rfl) g1 hq1 hacc hbd
  refine ⟨τ, fun T ξ hξ hT h0 hst hin => ?_⟩
  obtain ⟨a, b⟩ := hτ T ξ hξ hT h0 hst
  exact ⟨a, b, fun r hr' hg => C83_remains_in_final s hs barr hbn hk hc groups hq ha T r ξ hξ hr' hg
    fun t ht => hin t ⟨hr'.1.trans ht.1, ht.2⟩⟩

/-- **C83, RAR end to end.** The same for every success of a synthesis run. -/
theorem C83_synthesis_rar (c : SynthCfg) (w : World R K ((Net × ℚ) × Net)) (hw : SoundWorld c w) (learn)
    (hlib : c.lib = .z3 ∨ c.lib = .dreal) (hwf : WFDomains c.nVars c.domains) (hc : c.cert = .RAR) (hsets : ReachSets c.nVars c.domains)
    (hbd : Bornology.IsBounded (region c.nVars c.domains XS)) (net ctrl S out)
    (h : Solves c.loop (doubleComponents w c learn) net ctrl S out) (hf : out.found = true)
    (hsz : out.net.1.1.inputSize = c.nVars) (hsz2 : out.net.2.inputSize = c.nVars)
    (hk : LevelAwayFromKinks c.nVars c.domains c.rounding out.net.2) :
    ∃ τ : ℝ, ∀ (T : ℝ) (ξ : ℝ → Pt c.nVars), Trajectory (field c.nVars (w.dynamics out.ctrl)) T ξ → τ ≤ T →
      ξ 0 ∈ region c.nVars c.domains XI →
      (certValue c.rounding false out.net.1.1 (ξ 0) < 0 ∨
        AwayFromKinks (c.setup out.net.1.1 out.net.1.2 (w.dynamics out.ctrl)) (ξ 0)) →
      (∀ t ∈ Icc 0 T, ξ t ∈ region c.nVars c.domains XD) →
      (∃ t ∈ Icc 0 τ, ξ t ∈ region c.nVars c.domains XG) ∧
      (∀ t ∈ Icc 0 T, ξ t ∈ region c.nVars c.domains XS ∨
        ∃ r ∈ Icc 0 t, ξ r ∈ region c.nVars c.domains XG) ∧
      ∀ r ∈ Icc 0 T, ξ r ∈ region c.nVars c.domains XG →
        ∀ t ∈ Icc r T, ξ t ∈ region c.nVars c.domains XF := by
  obtain ⟨g, i, cex, hq, hv⟩ := solve_queries_double w c learn net ctrl S out h hf
  refine C83_reach_avoid_remain (c.setup out.net.1.1 out.net.1.2 (w.dynamics out.ctrl)) ⟨hlib, hwf, hsz⟩ out.net.2 hsz2 hk hsets hc g hq
    (accepted_of_world hw (fun hcl => queriesDouble_below (s := c.setup out.net.1.1 out.net.1.2 (w.dynamics out.ctrl)) (hcl _) hq) (fun hsm _ => ?_) hv) hbd
  exact rar_confined (s := c.setup out.net.1.1 out.net.1.2 (w.dynamics out.ctrl)) hlib hwf hsm hc hq

/-! ### runs started from a configuration file -/

/-- A run from a configuration file whose network may have any activations: the texts describe the vector field `F` and sets, the
configuration is accepted, the loop runs with the dynamics and sets read from the file, a sound solver, and training that keeps the
number of inputs. -/
structure Spec.AnyConfigRun (c : ConfigText) (r : Ready) (F : Pt c.nVars → Pt c.nVars) (w : World R Unit (Net × ℚ))
    (learn : LoopState (Net × ℚ) Unit (List ℚ) Term → Except Err ((Net × ℚ) × Unit)) : Prop where
  lib : c.lib = .z3 ∨ c.lib = .dreal
  domains : DomainsDescribed c
  system : SystemText c.lib.funcs c.nVars c.system F
  accepted : readConfig c = .ok r
  sound : SoundWorld r.cfg w
  dynamics : ∀ k, w.dynamics k = r.f
  size : ∀ st n k, learn st = .ok (n, k) → n.1.inputSize = c.nVars

section
variable {c : ConfigText} {r : Ready} {F : Pt c.nVars → Pt c.nVars} {w : World R Unit (Net × ℚ)}
  {learn : LoopState (Net × ℚ) Unit (List ℚ) Term → Except Err ((Net × ℚ) × Unit)}

theorem anyRun_sets (h : AnyConfigRun c r F w learn) : SetsRun c r.cfg := ⟨h.lib, h.domains, _, (readConfig_inv h.accepted).2⟩

theorem anyRun_field (h : AnyConfigRun c r F w learn) (k) : field c.nVars (w.dynamics k) = F := by
  rw [h.dynamics]; exact (config_field (readConfig_inv h.accepted).1 h.system).1

theorem anyRun_size (hr : AnyConfigRun c r F w learn) {net ctrl S out}
    (h : Solves r.cfg.loop (singleComponents w r.cfg false learn) net ctrl S out) (hf : out.found = true) :
    out.net.1.inputSize = c.nVars := by
  obtain ⟨k, st, V, Vdot, cex, -, hl, -⟩ := C27_success_is_verified _ _ _ _ _ _ h hf
  exact hr.size _ _ _ hl

/-- **C83, stability of the written system.** If a run started from a configuration file reports success for a Lyapunov certificate
with any activations, whose network vanishes at the origin by construction, and the written domain is a neighbourhood of the
origin, then the origin is asymptotically stable for the written (continuous) vector field. -/
theorem C83_config_stability (hr : AnyConfigRun c r F w learn)
    (hc : c.cert = .LYAPUNOV) (D : Set (Pt c.nVars)) (hD : Configures c.nVars c.domains "XD" D) (hn : D ∈ 𝓝 0) (hF : Continuous F) (net ctrl S out)
    (h : Solves r.cfg.loop (singleComponents w r.cfg false learn) net ctrl S out) (hf : out.found = true)
    (hpd : c.llo = false ∨ PDNet out.net.1) (hz : c.quad = true ∨ ZeroNet out.net.1) : AsympStable F := by
  have hsz := anyRun_size hr h hf
  have hw := hr.sound
  have hs := anyRun_sets hr
  have hfld := anyRun_field hr out.ctrl
  have rD := hs.region .XD (by decide) (by decide) (by rintro -; simp [hc]) hD
  have hwf := hs.wf
  obtain ⟨cfg, f, data⟩ := r
  obtain ⟨doms, e⟩ := hs.cfg
  dsimp only at e rD hwf hw h
  subst e rD
  have := C82_synthesis_stable _ w hw learn hs.lib hwf hc net ctrl S out h hf hsz hpd hz hn (by rw [hfld]; exact hF)
  rwa [hfld] at this

/-- **C83, safety of the written system.** If a run started from a configuration file reports success for a BarrierAlt certificate with
any activations, no trajectory of the written vector field from the written initial set, inside the written domain, reaches the
written unsafe set. -/
theorem C83_config_safety (hr : AnyConfigRun c r F w learn) (hc : c.cert = .BARRIERALT)
    (I D U : Set (Pt c.nVars)) (hI : Configures c.nVars c.domains "XI" I)
    (hD : Configures c.nVars c.domains "XD" D) (hU : Configures c.nVars c.domains "XU" U) (net ctrl S out)
    (h : Solves r.cfg.loop (singleComponents w r.cfg false learn) net ctrl S out) (hf : out.found = true)
    (T : ℝ) (ξ : ℝ → Pt c.nVars) (hξ : Trajectory F T ξ) (h0 : ξ 0 ∈ I) (hin : ∀ t ∈ Icc 0 T, ξ t ∈ D) : ∀ t ∈ Icc 0 T, ξ t ∉ U := by
  have hsz := anyRun_size hr h hf
  have hw := hr.sound
  have hs := anyRun_sets hr
  have hfld := anyRun_field hr out.ctrl
  have rI := hs.region .XI (by decide) (by decide) (by intro h; cases h) hI
  have rD := hs.region .XD (by decide) (by decide) (by rintro -; simp [hc]) hD
  have rU := hs.region .XU (by decide) (by decide) (by intro h; cases h) hU
  have hwf := hs.wf
  obtain ⟨cfg, f, data⟩ := r
  obtain ⟨doms, e⟩ := hs.cfg
  dsimp only at e rI rD rU hwf hw h
  subst e rI rD rU
  exact C82_synthesis_safe _ w hw learn hs.lib hwf hc net ctrl S out h hf hsz T ξ (by rw [hfld]; exact hξ) h0 hin

/-- **C83, reach while staying, for the written system.** -/
theorem C83_config_reach (hr : AnyConfigRun c r F w learn)
    (hc : c.cert = .RWS ∨ c.cert = .RWA ∨ c.cert = .RSWS ∨ c.cert = .RSWA) (I S D G : Set (Pt c.nVars)) (hI : Configures c.nVars c.domains "XI" I)
    (hS : Configures c.nVars c.domains "XS" S) (hD : Configures c.nVars c.domains "XD" D) (hG : Configures c.nVars c.domains "XG" G)
    (h1 : I ⊆ S) (h2 : I ⊆ D) (h3 : frontier S ⊆ D) (net ctrl Sd out)
    (h : Solves r.cfg.loop (singleComponents w r.cfg false learn) net ctrl Sd out) (hf : out.found = true) :
    ∃ τ : ℝ, ∀ (T : ℝ) (ξ : ℝ → Pt c.nVars), Trajectory F T ξ → τ ≤ T → ξ 0 ∈ I →
      (certValue c.rounding c.quad out.net.1 (ξ 0) < 0 ∨
        noKink (roundedNet c.rounding out.net.1).layers.dropLast out.net.1.acts (coordList (ξ 0))) →
      (∃ t ∈ Icc 0 τ, ξ t ∈ G) ∧ ∀ t ∈ Icc 0 T, ξ t ∈ S ∨ ∃ r ∈ Icc 0 t, ξ r ∈ G := by
  have hsz := anyRun_size hr h hf
  have hw := hr.sound
  have hs := anyRun_sets hr
  have hfld := anyRun_field hr out.ctrl
  have ht : TakesSafeSet c.cert := by rcases hc with h | h | h | h <;> simp [TakesSafeSet, h]
  have rI := hs.region .XI (by decide) (by decide) (by intro h; cases h) hI
  have rS := hs.region .XS (by decide) (by decide) (by intro h; cases h) hS
  have rG := hs.region .XG (by decide) (by decide) (by intro h; cases h) hG
  obtain ⟨dat, hacc⟩ := hs.accepted
  have hsets := config_reachSets c hs.domains _ dat hacc ht I S D hI hS hD h1 h2 h3
  have hbd : Bornology.IsBounded S := by obtain ⟨s, -, h⟩ := hS; exact setText_bounded h
  have hwf := hs.wf
  obtain ⟨cfg, f, data⟩ := r
  obtain ⟨doms, e⟩ := hs.cfg
  dsimp only at e rI rS rG hwf hw h hsets
  subst e rI rS rG
  have := C83_synthesis_reach _ w hw learn hs.lib hwf hc hsets hbd net ctrl Sd out h hf hsz
  dsimp only at this
  rw [hfld] at this
  exact this

/-- **C83, reach and stay, for the written system.** -/
theorem C83_config_reach_stay (hr : AnyConfigRun c r F w learn)
    (hc : c.cert = .RSWS) (I S D G : Set (Pt c.nVars)) (hI : Configures c.nVars c.domains "XI" I)
    (hS : Configures c.nVars c.domains "XS" S) (hD : Configures c.nVars c.domains "XD" D) (hG : Configures c.nVars c.domains "XG" G)
    (h1 : I ⊆ S) (h2 : I ⊆ D) (h3 : frontier S ⊆ D) (h4 : G ⊆ S) (net ctrl Sd out)
    (h : Solves r.cfg.loop (singleComponents w r.cfg false learn) net ctrl Sd out) (hf : out.found = true) :
    ∃ τ : ℝ, ∀ (T : ℝ) (ξ : ℝ → Pt c.nVars), Trajectory F T ξ → τ ≤ T → ξ 0 ∈ I →
      (certValue c.rounding c.quad out.net.1 (ξ 0) < 0 ∨
        noKink (roundedNet c.rounding out.net.1).layers.dropLast out.net.1.acts (coordList (ξ 0))) →
      (∃ t₁ ∈ Icc 0 τ, ∀ t ∈ Icc t₁ T, ξ t ∈ G) ∧ ∀ t ∈ Icc 0 T, ξ t ∈ S := by
  have hsz := anyRun_size hr h hf
  have hw := hr.sound
  have hs := anyRun_sets hr
  have hfld := anyRun_field hr out.ctrl
  have rI := hs.region .XI (by decide) (by decide) (by intro h; cases h) hI
  have rS := hs.region .XS (by decide) (by decide) (by intro h; cases h) hS
  have rG := hs.region .XG (by decide) (by decide) (by intro h; cases h) hG
  have hsets := config_staySets hs hc I S D G hI hS hD hG h1 h2 h3 h4
  have hbd : Bornology.IsBounded S := by obtain ⟨s, -, h⟩ := hS; exact setText_bounded h
  have hwf := hs.wf
  obtain ⟨cfg, f, data⟩ := r
  obtain ⟨doms, e⟩ := hs.cfg
  dsimp only at e rI rS rG hwf hw h hsets
  subst e rI rS rG
  have := C83_synthesis_reach_stay _ w hw learn hs.lib hwf hc hsets hbd net ctrl Sd out h hf hsz
  dsimp only at this
  rw [hfld] at this
  exact this

/-- **C83, region of attraction, for the written system.** -/
theorem C83_config_roa (hr : AnyConfigRun c r F w learn)
    (hc : c.cert = .ROA) (I : Set (Pt c.nVars)) (hI : Configures c.nVars c.domains "XI" I) (net ctrl S out)
    (h : Solves r.cfg.loop (singleComponents w r.cfg false learn) net ctrl S out) (hf : out.found = true) :
    (∀ p ∈ I, certValue c.rounding c.quad out.net.1 p ≤ (out.net.2 : ℝ) * (11/10)) ∧
    ∀ (T : ℝ) (ξ : ℝ → Pt c.nVars), Trajectory F T ξ →
      certValue c.rounding c.quad out.net.1 (ξ 0) < (out.net.2 : ℝ) * (11/10) → (∀ t ∈ Icc 0 T, (1/100)^2 < normSq (ξ t)) →
      (∀ t ∈ Icc 0 T, certValue c.rounding c.quad out.net.1 (ξ t) ≤ certValue c.rounding c.quad out.net.1 (ξ 0)) ∧
      (c.llo = true → StrictAntiOn (fun t => certValue c.rounding c.quad out.net.1 (ξ t)) (Icc 0 T)) := by
  have hsz := anyRun_size hr h hf
  have hw := hr.sound
  have hs := anyRun_sets hr
  have hfld := anyRun_field hr out.ctrl
  have rI := hs.region .XI (by decide) (by decide) (by intro h; cases h) hI
  have hwf := hs.wf
  obtain ⟨cfg, f, data⟩ := r
  obtain ⟨doms, e⟩ := hs.cfg
  dsimp only at e rI hwf hw h
  subst e rI
  have := C83_synthesis_roa _ w hw learn hs.lib hwf hc net ctrl S out h hf hsz
  dsimp only at this
  rw [hfld] at this
  exact this
end

/-! ### non-vacuity -/

/-- A complete reach-and-stay run from a file with a ReLU network: the hypotheses of `C83_config_reach` and `C83_config_reach_stay` hold, and
so do those of `C83_synthesis_reach` and `C83_synthesis_reach_stay`. The network has a kink inside the goal. -/
theorem exAbsStay_run : ∃ (r : Ready) (w : World Answer Unit (Net × ℚ)) (learn : _), AnyConfigRun exStayConfig r (fun p i => - p i) w learn ∧
    ∃ net out, Solves r.cfg.loop (singleComponents w r.cfg false learn) net () [] out ∧ out.found = true ∧
      out.net.1 = (exAbsReach .RSWS).net := by
  obtain ⟨data, hr⟩ := exStay_ready
  obtain ⟨s1, s2, s3, s4⟩ := exStay_sets
  refine ⟨_, idealWorld _ [.neg (.var 0)], fun _ => .ok (((exAbsReach .RSWS).net, 0), ()), ⟨Or.inl rfl, ⟨by decide, ?_⟩, minus_x_system _, hr,
    idealWorld_sound _ _ _, fun _ => rfl, ?_⟩, ?_⟩
  · intro k s hm
    simp only [exStayConfig, List.mem_cons, Prod.mk.injEq, List.not_mem_nil, or_false] at hm
    rcases hm with ⟨-, rfl⟩ | ⟨-, rfl⟩ | ⟨-, rfl⟩ | ⟨-, rfl⟩
    exacts [⟨_, s1⟩, ⟨_, s2⟩, ⟨_, s3⟩, ⟨_, s4⟩]
  · intro st n k h
    cases h
    rfl
  · obtain ⟨g, hq, ha⟩ := exAbsReach_accepted
    have hd : DistinctLabels g := by
      obtain ⟨d, V, Vdot, -, -, h⟩ := queriesCT_inv hq
      exact rws_distinct h
    have hm : (-(1/2) : ℚ) = -1/2 := by norm_num
    have e1 : queriesCT (SynthCfg.setup ⟨.z3, 1, .RSWS, exStayDoms, false, 3, false, 10⟩ (exAbsReach .RSWS).net 0 [.neg (.var 0)])
        = queriesCT (exAbsReach .RSWS) := by
      unfold exStayDoms
      rw [hm]
      rfl
    have e2 : stayCheckCT smtBackend (fun _ _ => idealSolver) (SynthCfg.setup ⟨.z3, 1, .RSWS, exStayDoms, false, 3, false, 10⟩ (exAbsReach .RSWS).net 0 [.neg (.var 0)])
        = stayCheckCT smtBackend (fun _ _ => idealSolver) (exAbsReach .RSWS) := by
      unfold exStayDoms
      rw [hm]
      rfl
    obtain ⟨out, h1, h2, h3⟩ := C46_synthesis_succeeds ⟨.z3, 1, .RSWS, exStayDoms, false, 3, false, 10⟩ (exAbsReach .RSWS).net 0 [.neg (.var 0)] g (e1.trans hq) hd
      (accepted_refutes hd ha) (fun _ => ⟨_, _, by rw [e2]; exact exAbsReach_beta⟩)
    exact ⟨_, out, h1, h2, by rw [h3]⟩

/-- A complete Lyapunov run from a file with the ReLU network `|x|`. -/
theorem exAbsLyap_run : ∃ (r : Ready) (w : World Answer Unit (Net × ℚ)) (learn : _), AnyConfigRun exLyapConfig r (fun p i => - p i) w learn ∧
    ∃ net out, Solves r.cfg.loop (singleComponents w r.cfg false learn) net () [] out ∧ out.found = true ∧ out.net.1 = absNet := by
  obtain ⟨s1, s2, s3, s4⟩ := exStay_sets
  obtain ⟨data, hr⟩ := exLyapConfig_ready
  refine ⟨_, idealWorld _ exLyap.f, fun _ => .ok ((absNet, 0), ()), ⟨Or.inl rfl, ⟨by decide, ?_⟩, minus_x_system _, hr,
    idealWorld_sound _ _ _, fun _ => rfl, ?_⟩, ?_⟩
  · intro k s hm
    simp only [exLyapConfig, List.mem_cons, Prod.mk.injEq, List.not_mem_nil, or_false] at hm
    rw [hm.2]
    exact ⟨_, s3⟩
  · intro st n k h
    cases h
    rfl
  · obtain ⟨g, hq, ha⟩ := exAbs_accepted
    have hd : DistinctLabels g := by
      obtain ⟨d, V, Vdot, -, -, h⟩ := queriesCT_inv hq
      obtain ⟨dom, -, h⟩ := except_bind_ok (show lyapunovConstraints 1 false d V Vdot = .ok g from h)
      cases h
      simp [DistinctLabels, queries]
    obtain ⟨out, h1, h2, h3⟩ := C46_synthesis_succeeds ⟨.z3, 1, .LYAPUNOV, exLyap.domains, false, 3, false, 10⟩ absNet 0 exLyap.f g hq hd
      (accepted_refutes hd ha) (by intro h; cases h)
    exact ⟨_, out, h1, h2, by rw [h3]⟩

/-- Hence the origin of the written system `x' = -x` is asymptotically stable, on the evidence of the verified `|x|`. -/
example : AsympStable (fun (p : Pt 1) i => - p i) := by
  obtain ⟨r, w, learn, hr, net, out, h, hf, e⟩ := exAbsLyap_run
  obtain ⟨s1, s2, s3, s4⟩ := exStay_sets
  refine C83_config_stability hr rfl _ ⟨_, by simp [exLyapConfig], s3⟩ ?_ (by show Continuous fun (p : Pt 1) i => - p i; fun_prop) net () [] out h hf (Or.inl rfl)
    (Or.inr (by rw [e]; exact absNet_zero))
  have : {p : Pt 1 | ∀ i : Fin 1, entry [-1] i ≤ p i ∧ p i ≤ entry [1] i} = (fun p : Pt 1 => p 0) ⁻¹' Icc (-1) 1 := by
    ext p; simp [entry, Fin.forall_fin_one]
  show {p : Pt 1 | ∀ i : Fin 1, entry [-1] i ≤ p i ∧ p i ≤ entry [1] i} ∈ 𝓝 (0 : Pt 1)
  rw [this]
  exact (continuous_apply (0 : Fin 1)).continuousAt.preimage_mem_nhds (Icc_mem_nhds (by simp) (by simp))

/-- A complete region-of-attraction run from a file with the ReLU network `|x|`, with LLO. -/
theorem exAbsROA_run : ∃ (r : Ready) (w : World Answer Unit (Net × ℚ)) (learn : _), AnyConfigRun exROAConfig r (fun p i => - p i) w learn ∧
    ∃ net out, Solves r.cfg.loop (singleComponents w r.cfg false learn) net () [] out ∧ out.found = true ∧ out.net.1 = absNet := by
  obtain ⟨s1, s2, s3⟩ := exConfig_sets
  obtain ⟨data, hr⟩ := exROAConfig_ready
  refine ⟨_, idealWorld _ [.neg (.var 0)], fun _ => .ok ((absNet, 1), ()), ⟨Or.inl rfl, ⟨by decide, ?_⟩, minus_x_system _, hr,
    idealWorld_sound _ _ _, fun _ => rfl, ?_⟩, ?_⟩
  · intro k s hm
    simp only [exROAConfig, List.mem_cons, Prod.mk.injEq, List.not_mem_nil, or_false] at hm
    rcases hm with ⟨-, rfl⟩ | ⟨-, rfl⟩
    exacts [⟨_, s1⟩, ⟨_, s2⟩]
  · intro st n k h
    cases h
    rfl
  · have h1 : roundBy 3 1 = 1 := by decide +kernel
    have h4 : roundBy 3 (-1) = -1 := by decide +kernel
    have hq : ∃ g, queriesCT (SynthCfg.setup ⟨.z3, 1, .ROA, exROAStill.domains, true, 3, false, 10⟩ absNet 1 [.neg (.var 0)]) = .ok g ∧
        DistinctLabels g ∧ ∀ q ∈ g, ∀ p ∈ q, ∀ ρ : Env, ¬ p.2.holds ρ := by
      refine ⟨_, rfl, by simp [DistinctLabels, queries, XI, XU, XD], ?_⟩
      intro g hg q hq ρ h
      simp only [List.mem_singleton] at hg
      subst hg
      simp only [List.mem_singleton] at hq
      subst hq
      simp [Formula.holds, Formula.conj, Term.eval, Term.sum, leZero, geZero, gtZero, factors, vars, h1, h4, exROAStill, absNet, SynthCfg.setup,
        eyeJac, postVal, postGrad, gradTerms, hiddenBias, diagJac, Fn.eval] at h
      rw [abs_slope] at h
      rcases h with h | ⟨⟨a, b⟩, c⟩
      · have := abs_le.2 ⟨by linarith [h.1.1], h.1.2⟩
        norm_num at this
        linarith [h.2]
      · have : ρ 0 = 0 := abs_eq_zero.1 (le_antisymm c (abs_nonneg _))
        rw [this] at b; norm_num at b
    obtain ⟨g, hq, hd, ha⟩ := hq
    obtain ⟨out, h1, h2, h3⟩ := C46_synthesis_succeeds ⟨.z3, 1, .ROA, exROAStill.domains, true, 3, false, 10⟩ absNet 1 [.neg (.var 0)] g hq hd
      ha (by intro h; cases h)
    exact ⟨_, out, h1, h2, by rw [h3]⟩

/-- The queries for `|x| - 3/2` on the sets of the file are refuted. -/
theorem exAbsAlt_file : ∃ g, queriesCT (SynthCfg.setup ⟨.z3, 1, .BARRIERALT, (exBarrier .BARRIERALT).domains, false, 3, false, 10⟩ exAbsAlt.net 0
          [.neg (.var 0)]) = .ok g ∧ DistinctLabels g ∧ ∀ q ∈ g, ∀ p ∈ q, ∀ ρ : Env, ¬ p.2.holds ρ := by
  have h1 : roundBy 3 1 = 1 := by decide +kernel
  have h0 : roundBy 3 0 = 0 := by decide +kernel
  have h4 : roundBy 3 (-1) = -1 := by decide +kernel
  have h5 : roundBy 3 (-3/2) = -3/2 := by decide +kernel
  refine ⟨_, rfl, by simp [DistinctLabels, queries, XI, XU, XD], ?_⟩
  intro g hg q hq ρ h
  simp only [List.mem_cons, List.not_mem_nil, or_false] at hg
  rcases hg with rfl | rfl <;> simp only [List.mem_cons, List.not_mem_nil, or_false] at hq
  · rcases hq with rfl | rfl
    all_goals
      simp [Formula.holds, Formula.conj, Term.eval, Term.sum, leZero, geZero, gtZero, factors, vars, h1, h0,
        h4, h5, Fn.eval, exAbsAlt, exBarrier, SynthCfg.setup, eyeJac, postVal, postGrad, gradTerms, hiddenBias, diagJac] at h
      norm_num at h
    · have := abs_le.2 h.1.2
      linarith [h.1.1]
    · have := le_abs_self (ρ 0)
      linarith [h.1.1, h.1.2.1]
  · subst hq
    simp [Formula.holds, Formula.conj, Term.eval, Term.sum, leZero, geZero, gtZero, factors, vars, h1, h0,
        h4, h5, Fn.eval, exAbsAlt, exBarrier, SynthCfg.setup, eyeJac, postVal, postGrad, gradTerms, hiddenBias, diagJac] at h
    rw [abs_slope] at h
    linarith [h.1, abs_nonneg (ρ 0)]

/-- A complete barrier run from a file with the ReLU network `|x| - 3/2`. -/
theorem exAbsAlt_run : ∃ (r : Ready) (w : World Answer Unit (Net × ℚ)) (learn : _), AnyConfigRun (exConfig .BARRIERALT) r (fun p i => - p i) w learn ∧
    ∃ net out, Solves r.cfg.loop (singleComponents w r.cfg false learn) net () [] out ∧ out.found = true ∧ out.net.1 = exAbsAlt.net := by
  obtain ⟨s1, s2, s3⟩ := exConfig_sets
  obtain ⟨data, hr⟩ := exConfig_ready .BARRIERALT (Or.inr rfl)
  refine ⟨_, idealWorld _ [.neg (.var 0)], fun _ => .ok ((exAbsAlt.net, 0), ()), ⟨Or.inl rfl, ⟨by decide, ?_⟩, minus_x_system _, hr,
    idealWorld_sound _ _ _, fun _ => rfl, ?_⟩, ?_⟩
  · intro k s hm
    simp only [exConfig, exConfigL, List.mem_cons, Prod.mk.injEq, List.not_mem_nil, or_false] at hm
    rcases hm with ⟨-, rfl⟩ | ⟨-, rfl⟩ | ⟨-, rfl⟩
    exacts [⟨_, s1⟩, ⟨_, s2⟩, ⟨_, s3⟩]
  · intro st n k h
    cases h
    rfl
  · obtain ⟨g, hq, hd, ha⟩ := exAbsAlt_file
    obtain ⟨out, h1, h2, h3⟩ := C46_synthesis_succeeds ⟨.z3, 1, .BARRIERALT, (exBarrier .BARRIERALT).domains, false, 3, false, 10⟩ exAbsAlt.net 0 [.neg (.var 0)] g hq hd
      ha (by intro h; cases h)
    exact ⟨_, out, h1, h2, by rw [h3]⟩

/-- The reach-avoid-remain example with ReLU networks: `1000000 |x| - 700000` and `|x| - 5/8`. -/
def exAbsRAR : Setup := { exRAR with net := (exAbsReach .RSWS).net }

def exAbsRARNet : Net := ⟨1, [⟨[[1], [-1]], some [0, 0]⟩, ⟨[[1, 1]], some [-5/8]⟩], [.relu]⟩

theorem exAbsRAR_accepted : ∃ groups, queriesDouble exAbsRAR exAbsRARNet = .ok groups ∧ Accepted 1 groups := by
  have h1 : roundBy 3 1 = 1 := by decide +kernel
  have h5 : roundBy 3 (-1) = -1 := by decide +kernel
  have h0 : roundBy 3 0 = 0 := by decide +kernel
  have h2 : roundBy 3 1000000 = 1000000 := by decide +kernel
  have h3 : roundBy 3 (-700000) = -700000 := by decide +kernel
  have h4 : roundBy 3 (-5/8) = -5/8 := by decide +kernel
  refine ⟨[[(XI, _), (XU, _)], [(XD, _)], [(XG, _), (XNF, _)], [(XF, _)]], rfl, accepted_of_refuted
    (by simp [DistinctLabels, queries, XI, XU, XD, XG, XNF, XF]) ?_⟩
  intro g hg q hq ρ h
  simp only [List.mem_cons, List.not_mem_nil, or_false, List.cons_append, List.nil_append] at hg
  rcases hg with rfl | rfl | rfl | rfl <;> simp only [List.mem_cons, List.not_mem_nil, or_false] at hq
  · rcases hq with rfl | rfl
    all_goals
      simp [Formula.holds, Formula.conj, Term.eval, Term.sum, leZero, geZero, gtZero, factors, vars, h1, h0,
        h2, h3, h5, exAbsRAR, exRAR, exAbsReach, exReach, eyeJac, postVal, postGrad, gradTerms, hiddenBias, diagJac, Fn.eval] at h
      norm_num at h
    · rw [max_eq_left (by linarith), max_eq_right (by linarith)] at h
      linarith [h.1.1, h.1.2.2]
    · obtain ⟨⟨a, b⟩, c⟩ := h
      have e : ρ 0 = -1 ∨ ρ 0 = 1 := b.1
      rcases e with e | e <;> (rw [e] at a; norm_num at a)
  · subst hq
    simp [Formula.holds, Formula.conj, Term.eval, Term.sum, leZero, geZero, gtZero, factors, vars, h1, h0,
        h2, h3, h5, exAbsRAR, exRAR, exAbsReach, exReach, eyeJac, postVal, postGrad, gradTerms, hiddenBias, diagJac, gamma, Fn.eval] at h
    norm_num at h
    obtain ⟨⟨-, -, c⟩, d⟩ := h
    rcases lt_or_ge (ρ 0) (-(1/2)) with h | h
    · rw [if_neg (by linarith), if_pos (by linarith)] at d; linarith
    · have := c h
      rw [if_pos (by linarith), if_neg (by linarith)] at d; linarith
  · rcases hq with rfl | rfl
    all_goals
      simp [Formula.holds, Formula.conj, Term.eval, Term.sum, leZero, geZero, gtZero, factors, vars, h1, h0,
        h2, h3, h4, h5, exAbsRAR, exRAR, exAbsRARNet, exReach, eyeJac, postVal, postGrad, gradTerms, hiddenBias, diagJac, Fn.eval] at h
      norm_num at h
    · linarith [abs_le.2 ⟨h.1.2.1, h.1.2.2⟩, h.1.1]
    · linarith [(abs_le.1 h.1.1).2, h.1.2 (by linarith [(abs_le.1 h.1.1).1])]
  · subst hq
    simp [Formula.holds, Formula.conj, Term.eval, Term.sum, leZero, geZero, gtZero, factors, vars, h1, h0,
        h2, h3, h4, h5, exAbsRAR, exRAR, exAbsRARNet, exReach, eyeJac, postVal, postGrad, gradTerms, hiddenBias, diagJac, gamma, Fn.eval] at h
    norm_num at h
    rw [abs_slope] at h
    linarith [h.1.1, h.1.2]

/-- The kink of the second network is at the origin, in the domain but not on the zero level. -/
theorem exAbsRAR_level : LevelAwayFromKinks 1 exAbsRAR.domains exAbsRAR.rounding exAbsRARNet := by
  have h1 : roundBy 3 1 = 1 := by decide +kernel
  have h5 : roundBy 3 (-1) = -1 := by decide +kernel
  have h0 : roundBy 3 0 = 0 := by decide +kernel
  have h4 : roundBy 3 (-5/8) = -5/8 := by decide +kernel
  intro p hp hz
  simp [certValue, exAbsRAR, exRAR, exReach, exAbsRARNet, roundedNet, roundedHidden, roundedLast, h1, h0, h4, h5, Net.forward, hiddenForward,
    Layer.apply, dotR, Act.forward, coordList, at?, Bind.bind, Except.bind] at hz
  simp [exAbsRAR, exRAR, exReach, exAbsRARNet, roundedNet, noKink, coordList, roundedHidden, Layer.apply, dotR, h1, h5, h0]
  rintro e
  rw [e] at hz
  norm_num at hz

/-- A reach-avoid-remain synthesis run with ReLU networks that reports success. -/
example : ∃ out, Solves (SynthCfg.loop ⟨.z3, 1, .RAR, exAbsRAR.domains, false, 3, false, 10⟩)
    (doubleComponents (idealWorld _ exAbsRAR.f) ⟨.z3, 1, .RAR, exAbsRAR.domains, false, 3, false, 10⟩
      (fun _ => .ok (((exAbsRAR.net, 0), exAbsRARNet), ()))) ((exAbsRAR.net, 0), exAbsRARNet) () [] out ∧ out.found = true ∧
    LevelAwayFromKinks 1 exAbsRAR.domains 3 out.net.2 ∧ out.net.2.inputSize = 1 ∧ out.net.1.1.inputSize = 1 ∧
    ReachSets 1 exAbsRAR.domains := by
  obtain ⟨g, hq, ha⟩ := exAbsRAR_accepted
  have hd : DistinctLabels g := rar_distinct rfl hq
  obtain ⟨cex, hv⟩ := ideal_verifies 1 g hd (accepted_refutes hd ha)
  obtain ⟨out, h1, h2, h3, -⟩ := synthesis_succeeds_double ⟨.z3, 1, .RAR, exAbsRAR.domains, false, 3, false, 10⟩ (Or.inr rfl) exAbsRAR.net
    exAbsRARNet 0 (fun _ : Unit => [.neg (.var 0)]) () g cex hq hv
  exact ⟨out, h1, h2, by rw [h3]; exact exAbsRAR_level, by rw [h3]; rfl, by rw [h3]; rfl, exRAR_sets⟩

/-- `|x| - 1` as barrier of the stable-while-safe example. -/
def exAbsBarr : Net := ⟨1, [⟨[[1], [-1]], some [0, 0]⟩, ⟨[[1, 1]], some [-1]⟩], [.relu]⟩

theorem exAbsBarr_refuted : ∃ q1 q2 q3, queriesCT (exStableSafe.barrierHalf exAbsBarr) = .ok [[(XI, q1), (XU, q2)], [(XD, q3)]] ∧
      (∀ ρ : Env, ¬ Formula.holds ρ q1) ∧ (∀ ρ : Env, ¬ Formula.holds ρ q2) ∧ ∀ ρ : Env, ¬ Formula.holds ρ q3 := by
  have h1 : roundBy 3 1 = 1 := by decide +kernel
  have h0 : roundBy 3 0 = 0 := by decide +kernel
  have h2 : roundBy 3 (-1) = -1 := by decide +kernel
  refine ⟨_, _, _, rfl, ?_, ?_, ?_⟩
  all_goals
    intro ρ h
    simp [Formula.holds, Formula.conj, Term.eval, Term.sum, leZero, geZero, gtZero, factors, vars, h1, h0, h2,
          exStableSafe, exAbsBarr, Setup.barrierHalf, eyeJac, postVal, postGrad, gradTerms, hiddenBias, diagJac, Fn.eval] at h
    norm_num at h
  · have h2 : |ρ 0| ≤ 1/2 := abs_le.2 ⟨by linarith [h.1.2.1], by linarith [h.1.2.2]⟩
    linarith [h.1.1]
  · have h2 := h.1.1
    rw [abs_le] at h2
    linarith [h.1.2.1]
  · rw [abs_slope] at h
    linarith [h.1.1, h.1.2]

/-- A stable-while-safe synthesis run with a ReLU barrier network that reports success. -/
example : ∃ out, Solves (SynthCfg.loop ⟨.z3, 1, .STABLESAFE, exStableSafe.domains, true, 3, false, 10⟩)
    (doubleComponents (idealWorld _ exStableSafe.f) ⟨.z3, 1, .STABLESAFE, exStableSafe.domains, true, 3, false, 10⟩
      (fun _ => .ok (((exStableSafe.net, 10/11), exAbsBarr), ()))) ((exStableSafe.net, 10/11), exAbsBarr) () [] out ∧ out.found = true ∧
    LevelAwayFromKinks 1 exStableSafe.domains 3 out.net.2 ∧ out.net.2.inputSize = 1 := by
  obtain ⟨g, cex, hq, hv⟩ := exStableSafe_success_of (10/11) exAbsBarr exAbsBarr_refuted ⟨_, rfl⟩
  obtain ⟨out, h1, h2, h3, -⟩ := synthesis_succeeds_double ⟨.z3, 1, .STABLESAFE, exStableSafe.domains, true, 3, false, 10⟩ (Or.inl rfl) exStableSafe.net
    exAbsBarr (10/11) (fun _ : Unit => exStableSafe.f) () g cex hq hv
  refine ⟨out, h1, h2, ?_, by rw [h3]; rfl⟩
  have h1 : roundBy 3 1 = 1 := by decide +kernel
  have h5 : roundBy 3 (-1) = -1 := by decide +kernel
  have h0 : roundBy 3 0 = 0 := by decide +kernel
  rw [h3]
  intro p hp hz
  simp [certValue, exAbsBarr, roundedNet, roundedHidden, roundedLast, h1, h0, h5, Net.forward, hiddenForward,
    Layer.apply, dotR, Act.forward, coordList, at?, Bind.bind, Except.bind] at hz
  simp [exAbsBarr, roundedNet, noKink, coordList, roundedHidden, Layer.apply, dotR, h1, h5, h0]
  rintro e
  rw [e] at hz
  norm_num at hz

end Fossil

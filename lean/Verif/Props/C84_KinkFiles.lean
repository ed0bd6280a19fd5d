/-
C84: complete runs of a configuration file whose networks may have ReLU units: from the file to the returned state, and what success means.
-/
import Verif.Props.C83_KinkRuns
import Verif.Props.C76_File

namespace Fossil
open Spec Set Filter Topology

variable {R : Type}

namespace Spec

/-- Hidden widths and activations that can be used: enough activations (with LLO at least one), all supported by the solver. ReLU is allowed. -/
structure UsableNet (lib : Lib) (llo : Bool) (hidden : List ℕ) (acts : List ActivationType) : Prop where
  enough : hidden.length ≤ acts.length
  some : llo = true → acts ≠ []
  supported : ∀ a ∈ acts, ∃ x, activationFcn a = .some x ∧ supportsAct lib x = true

/-- A run started from a file for a certificate with one network, as `FileRun` but with any activations the solver supports. -/
structure AnyFileRun (c : ConfigText) (r : Ready) (F : Pt c.nVars → Pt c.nVars) (w : World R Unit (Net × ℚ)) (T : Trainer Unit) (hidden : List ℕ)
    (acts : List ActivationType) : Prop where
  lib : c.lib = .z3 ∨ c.lib = .dreal
  domains : DomainsDescribed c
  system : SystemText c.lib.funcs c.nVars c.system F
  accepted : readConfig c = .ok r
  iters : 0 ≤ c.maxIters
  sound : SoundWorld r.cfg w
  dynamics : ∀ k, w.dynamics k = r.f
  fair : FairWorld w c.nVars
  stay : c.cert = .RSWS → ∀ i V Vdot, ∃ k β, BetaRun (stayCheckFor w.backend (w.stayOracle i) r.cfg V Vdot) betaInit k β
  shape : ∀ i t θ, SameShape θ.1 (T.step i t θ).1
  net : UsableNet c.lib c.llo hidden acts

/-- The same for the certificates with two networks. -/
structure AnyFileRun2 (c : ConfigText) (r : Ready) (F : Pt c.nVars → Pt c.nVars) (w : World R Unit ((Net × ℚ) × Net)) (T : Trainer2 Unit) (hidden hidden2 : List ℕ)
    (acts acts2 : List ActivationType) : Prop where
  lib : c.lib = .z3 ∨ c.lib = .dreal
  domains : DomainsDescribed c
  system : SystemText c.lib.funcs c.nVars c.system F
  accepted : readConfig c = .ok r
  iters : 0 ≤ c.maxIters
  sound : SoundWorld r.cfg w
  dynamics : ∀ k, w.dynamics k = r.f
  fair : FairWorld w c.nVars
  shape : ∀ i t θ, SameShape θ.1.1 (T.step i t θ).1.1 ∧ SameShape θ.1.2 (T.step i t θ).1.2
  net : UsableNet c.lib c.llo hidden acts
  net2 : UsableNet c.lib false hidden2 acts2

end Spec

/-- The initial network of a usable description is usable; without bias and with vanishing activations it vanishes at the origin. -/
theorem newNet_usable {lib : Lib} {n : ℕ} {hidden : List ℕ} {acts : List ActivationType} {llo : Bool} (h : UsableNet lib llo hidden acts) (bias : Bool)
    (wt : ℕ → ℕ → ℕ → ℚ) (bs : ℕ → ℕ → ℚ) : ∃ net, newNet n hidden acts llo bias wt bs = .ok net ∧ Usable lib n net ∧
      (bias = false → Vanishing acts → ZeroNet net) := by
  obtain ⟨net, h1, h2, -, h4, h5⟩ := C76_initial_network n hidden acts llo bias wt bs h.enough (fun a ha e => by
    obtain ⟨x, hx, -⟩ := h.supported a ha
    rw [e] at hx; cases hx) h.some
  have hact : ∀ x ∈ net.acts, ∃ a ∈ acts, activationFcn a = some x := by
    intro x hx
    have : some x ∈ net.acts.map some := List.mem_map_of_mem hx
    rw [← h5] at this
    obtain ⟨a, ha, e⟩ := List.mem_map.1 this
    exact ⟨a, ha, e⟩
  refine ⟨net, h1, ⟨h2, fun x hx => ?_⟩, fun hb hz => ⟨fun l hl => ?_, fun x hx => ?_⟩⟩
  · obtain ⟨a, ha, e⟩ := hact x (List.mem_of_mem_take hx)
    obtain ⟨y, hy, hs⟩ := h.supported a ha
    rw [e] at hy; cases hy; exact hs
  · have := h4 l hl
    rw [hb] at this
    simpa using this
  · obtain ⟨a, ha, e⟩ := hact x hx
    obtain ⟨z1, z2, z3, z4, z5, z6⟩ := hz a ha
    cases a <;> simp only [activationFcn, Option.some.injEq, reduceCtorEq] at e <;> first | exact absurd rfl z1 | exact absurd rfl z2 | exact absurd rfl z3 | exact absurd rfl z4 | exact absurd rfl z5 | exact absurd rfl z6 | skip
    all_goals (subst e; exact ⟨(by intro h; cases h), (by intro h; cases h), (by intro k h; cases h)⟩)

section
variable {c : ConfigText} {r : Ready} {F : Pt c.nVars → Pt c.nVars} {w : World R Unit (Net × ℚ)} {T : Trainer Unit} {hidden : List ℕ} {acts : List ActivationType}

/-- The runs of the modelled training are runs of a learner that keeps the number of inputs. -/
theorem anyFile_config (h : AnyFileRun c r F w T hidden acts) (g g' : Rng) (discrete : Bool) {net : Net} (hnet : Usable c.lib c.nVars net) {b0 : ℚ} {S out}
    (hs : Solves r.cfg.loop (singleComponents (w.withEstimate g g' r.cfg) r.cfg discrete (trainedLearn T r.cfg discrete w.dynNum)) (net, b0) () S out) :
    (∃ learn, AnyConfigRun c r F (w.withEstimate g g' r.cfg) learn ∧
      Solves r.cfg.loop (singleComponents (w.withEstimate g g' r.cfg) r.cfg discrete learn) (net, b0) () S out) ∧ (ZeroNet net → ZeroNet out.net.1) := by
  have step : ∀ {Q : Net → Prop}, (∀ {a b}, SameShape a b → Q a → Q b) → ∀ st n k, Q st.net.1 → trainedLearn T r.cfg discrete w.dynNum st = .ok (n, k) → Q n.1 := by
    intro Q hQ st n k h0 hl
    obtain ⟨m, hm⟩ := trained_after (w := w) st n k hl
    have := afterSteps_shape (h.shape st.iters) hQ (st.net.1, st.ctrl) h0 m
    rw [← hm] at this
    exact this
  refine ⟨⟨guardLearn (fun n : Net × ℚ => Usable c.lib c.nVars n.1) (trainedLearn T r.cfg discrete w.dynNum), ⟨h.lib, h.domains, h.system, h.accepted,
    soundWorld_estimate h.sound g g', h.dynamics, fun st n k hl => ?_⟩, ?_⟩, fun hz => ?_⟩
  · unfold guardLearn at hl
    split_ifs at hl with hq
    exact (step sameShape_usable st n k hq hl).1.input
  · exact (solves_guard (C := singleComponents (w.withEstimate g g' r.cfg) r.cfg discrete (trainedLearn T r.cfg discrete w.dynNum))
      (Q := fun n : Net × ℚ => Usable c.lib c.nVars n.1) (fun st n k => step sameShape_usable st n k) hnet hs).1
  · exact (solves_guard (C := singleComponents (w.withEstimate g g' r.cfg) r.cfg discrete (trainedLearn T r.cfg discrete w.dynNum))
      (Q := fun n : Net × ℚ => ZeroNet n.1) (fun st n k => step sameShape_zero st n k) hz hs).2

/-- **C84 (termination).** For every accepted file of a certificate with one network, whatever supported activations (ReLU included), every choice of random numbers,
sound solver and optimiser that changes weights only: the network is constructed, the data are drawn, and the run either returns after at most CEGIS_MAX_ITERS + 1 passes,
or (Lyapunov only) raises because a training sample has derivative exactly 0. -/
theorem C84_file_run_total (h : AnyFileRun c r F w T hidden acts) (hct : SingleCert c.cert) (discrete : Bool) (hrnd : discrete = true → c.rounding ≠ 0) (fl : ℝ → ℚ)
    (gs : ℕ → Rng) (g g' : Rng) (wt : ℕ → ℕ → ℕ → ℚ) (bs : ℕ → ℕ → ℚ) (hdraw : DrawsSome fl gs r.data) :
    ∃ net S, newNet c.nVars hidden acts c.llo (certBias c.cert) wt bs = .ok net ∧ initData fl gs r.data = .ok S ∧
      ((∃ out, Solves r.cfg.loop (singleComponents (w.withEstimate g g' r.cfg) r.cfg discrete (trainedLearn T r.cfg discrete w.dynNum)) (net, 0) () S out ∧
        (out.iters : ℤ) ≤ c.maxIters + 1) ∨
      (c.cert = .LYAPUNOV ∧ ∃ k st, Steps r.cfg.loop (singleComponents (w.withEstimate g g' r.cfg) r.cfg discrete (trainedLearn T r.cfg discrete w.dynNum))
        (initState (singleComponents (w.withEstimate g g' r.cfg) r.cfg discrete (trainedLearn T r.cfg discrete w.dynNum)) (net, 0) () S) k st ∧
        MeetsZeroDerivative T r.cfg discrete w.dynNum st)) := by
  obtain ⟨net, hn1, hn2, -⟩ := newNet_usable (n := c.nVars) h.net (certBias c.cert) wt bs
  obtain ⟨S, hS, hk, hw, -⟩ := C76_initial_data c r h.domains h.accepted fl gs
  refine ⟨net, S, hn1, hS, ?_⟩
  have hset := (readConfig_inv h.accepted).2
  obtain ⟨d, -, -, hcheck⟩ := readSets_check hset
  have hplain := accepted_plain h.domains hset
  have hus := accepted_usable h.domains hset
  have hlab := accepted_sets hct.2.2 hset
  have hcfg := ready_cfg h.accepted
  generalize r.cfg.domains = doms at *
  have hst := h.stay
  rw [hcfg] at hst ⊢
  rw [← hk] at hcheck
  exact C75_run_total_checked_single w ⟨c.lib, c.nVars, c.cert, doms, c.llo, c.rounding, c.quad, c.maxIters⟩ discrete T g g' h.lib hct h.iters hus hlab
    (fun _ P hP => plain_lyapunov (hplain.1 _ (Dict.get?_eq_some_mem hP))) hrnd h.fair hst (fun i t θ hu => sameShape_usable (h.shape i t θ) hu) (net, 0) () S hn2
    (fun l p hp => ⟨hdraw S hS l p hp, hw l p hp⟩) (Dict.keys d) hcheck

theorem anyFile_total_with (h : AnyFileRun c r F w T hidden acts) (hct : SingleCert c.cert) (hl : c.cert ≠ .LYAPUNOV) (discrete : Bool)
    (hrnd : discrete = true → c.rounding ≠ 0) (fl : ℝ → ℚ) (gs : ℕ → Rng) (g g' : Rng) (wt : ℕ → ℕ → ℕ → ℚ) (bs : ℕ → ℕ → ℚ) (hdraw : DrawsSome fl gs r.data)
    {G : LoopState (Net × ℚ) Unit (List ℚ) Term → Prop}
    (hG : ∀ learn net S out, AnyConfigRun c r F (w.withEstimate g g' r.cfg) learn →
      Solves r.cfg.loop (singleComponents (w.withEstimate g g' r.cfg) r.cfg discrete learn) net () S out → out.found = true → G out) :
    ∃ net S out, newNet c.nVars hidden acts c.llo (certBias c.cert) wt bs = .ok net ∧ initData fl gs r.data = .ok S ∧
      Solves r.cfg.loop (singleComponents (w.withEstimate g g' r.cfg) r.cfg discrete (trainedLearn T r.cfg discrete w.dynNum)) (net, 0) () S out ∧
      (out.iters : ℤ) ≤ c.maxIters + 1 ∧ (out.found = true → G out) := by
  obtain ⟨net, S, h1, h2, h3⟩ := C84_file_run_total h hct discrete hrnd fl gs g g' wt bs hdraw
  rcases h3 with ⟨out, h3, h4⟩ | ⟨e, -⟩
  · obtain ⟨net', h1', h5, -⟩ := newNet_usable (n := c.nVars) h.net (certBias c.cert) wt bs
    rw [h1] at h1'; cases h1'
    obtain ⟨⟨learn, hr, hs⟩, -⟩ := anyFile_config h g g' discrete h5 h3
    exact ⟨net, S, out, h1, h2, h3, h4, hG learn _ _ out hr hs⟩
  · exact absurd e hl

/-- **C84, safety.** For every accepted BarrierAlt file the run returns; if it reports success, no trajectory of the written vector field from the
written initial set, inside the written domain, reaches the written unsafe set. -/
theorem C84_file_safety (h : AnyFileRun c r F w T hidden acts) (hc : c.cert = .BARRIERALT) (fl : ℝ → ℚ)
    (gs : ℕ → Rng) (g g' : Rng) (wt : ℕ → ℕ → ℕ → ℚ) (bs : ℕ → ℕ → ℚ) (hdraw : DrawsSome fl gs r.data)
    (I D U : Set (Pt c.nVars)) (hI : Configures c.nVars c.domains "XI" I) (hD : Configures c.nVars c.domains "XD" D) (hU : Configures c.nVars c.domains "XU" U) :
    ∃ net S out, newNet c.nVars hidden acts c.llo (certBias c.cert) wt bs = .ok net ∧ initData fl gs r.data = .ok S ∧
      Solves r.cfg.loop (singleComponents (w.withEstimate g g' r.cfg) r.cfg false (trainedLearn T r.cfg false w.dynNum)) (net, 0) () S out ∧
      (out.iters : ℤ) ≤ c.maxIters + 1 ∧
      (out.found = true → ∀ (T : ℝ) (ξ : ℝ → Pt c.nVars), Trajectory F T ξ → ξ 0 ∈ I → (∀ t ∈ Icc 0 T, ξ t ∈ D) → ∀ t ∈ Icc 0 T, ξ t ∉ U) :=
  anyFile_total_with h (by rw [hc]; refine ⟨?_, ?_, ?_⟩ <;> intro h <;> cases h) (by rw [hc]; decide)
    false (fun h => by cases h) fl gs g g' wt bs hdraw
    (fun learn net S out hr hs hf T' ξ a b d => C83_config_safety hr hc I D U hI hD hU _ _ _ out hs hf T' ξ a b d)

/-- **C84, discrete safety.** The same for BarrierAlt in discrete time with a non-zero rounding. -/
theorem C84_file_safety_dt (h : AnyFileRun c r F w T hidden acts) (hc : c.cert = .BARRIERALT) (hq : c.quad = false) (hrnd : c.rounding ≠ 0) (fl : ℝ → ℚ)
    (gs : ℕ → Rng) (g g' : Rng) (wt : ℕ → ℕ → ℕ → ℚ) (bs : ℕ → ℕ → ℚ) (hdraw : DrawsSome fl gs r.data)
    (I D U : Set (Pt c.nVars)) (hI : Configures c.nVars c.domains "XI" I) (hD : Configures c.nVars c.domains "XD" D) (hU : Configures c.nVars c.domains "XU" U) :
    ∃ net S out, newNet c.nVars hidden acts c.llo (certBias c.cert) wt bs = .ok net ∧ initData fl gs r.data = .ok S ∧
      Solves r.cfg.loop (singleComponents (w.withEstimate g g' r.cfg) r.cfg true (trainedLearn T r.cfg true w.dynNum)) (net, 0) () S out ∧
      (out.iters : ℤ) ≤ c.maxIters + 1 ∧
      (out.found = true → ∀ x : ℕ → Pt c.nVars, IsRun F x → x 0 ∈ I → ∀ k, (∀ j ≤ k, x j ∈ D) → x k ∉ U) :=
  anyFile_total_with h (by rw [hc]; refine ⟨?_, ?_, ?_⟩ <;> intro h <;> cases h) (by rw [hc]; decide) true (fun _ => hrnd) fl gs g g' wt bs hdraw
    (fun learn net S out hr hs hf x a b k d => by
      have hf' := config_field (readConfig_inv hr.accepted).1 hr.system
      have hss := anyRun_sets hr
      have hw := hr.sound
      have hdyn := hr.dynamics out.ctrl
      have rI := hss.region .XI (by decide) (by decide) (by intro h; cases h) hI
      have rD := hss.region .XD (by decide) (by decide) (by rintro -; simp [hc]) hD
      have rU := hss.region .XU (by decide) (by decide) (by intro h; cases h) hU
      have hwf := hss.wf
      have hdd : (w.withEstimate g g' r.cfg).dynamics out.ctrl = w.dynamics out.ctrl := rfl
      obtain ⟨gr, i, cex, hq', hv⟩ := solve_queries_dt _ r.cfg learn _ _ _ out hs hf
      have ha : Accepted r.cfg.nVars gr := accepted_of_world hw
        (fun hcl => queriesDT_below (s := r.cfg.setup out.net.1 out.net.2 ((w.withEstimate g g' r.cfg).dynamics out.ctrl)) (hcl _) hq')
        (fun hsm hc' => by
          obtain ⟨d, V, Vdot, h1, -, h3⟩ := queriesDT_inv hq'
          have hl : r.cfg.lib = .z3 ∨ r.cfg.lib = .dreal := by obtain ⟨doms, e⟩ := hss.cfg; rw [e]; exact hss.lib
          have hw' : WFDomains r.cfg.nVars r.cfg.domains := by
            obtain ⟨doms, e⟩ := hss.cfg; rw [e] at hwf ⊢; exact hwf
          exact single_confined hl hw' hsm (initialise_single h1 (single_cert h3)) hc' h3) hv
      rw [hdyn] at hq'
      clear hdd hdyn hs hv hw hr h
      obtain ⟨cfg, f, data⟩ := r
      obtain ⟨doms, e⟩ := hss.cfg
      dsimp only at e rI rD rU hwf hf' hq' ha
      subst e rI rD rU
      exact C11_barrierAlt_safety_dt (SynthCfg.setup ⟨c.lib, c.nVars, c.cert, doms, c.llo, c.rounding, c.quad, c.maxIters⟩ out.net.1 out.net.2 f) hss.lib hwf hf'.2.1 hq hc gr hq' ha x (by
        show IsRun (field c.nVars f) x
        rw [hf'.1]; exact a) b k d)

/-- **C84, reach while staying.** -/
theorem C84_file_reach (h : AnyFileRun c r F w T hidden acts) (hc : c.cert = .RWS ∨ c.cert = .RWA ∨ c.cert = .RSWS ∨ c.cert = .RSWA) (fl : ℝ → ℚ)
    (gs : ℕ → Rng) (g g' : Rng) (wt : ℕ → ℕ → ℕ → ℚ) (bs : ℕ → ℕ → ℚ) (hdraw : DrawsSome fl gs r.data)
    (I S D G : Set (Pt c.nVars)) (hI : Configures c.nVars c.domains "XI" I) (hS : Configures c.nVars c.domains "XS" S)
    (hD : Configures c.nVars c.domains "XD" D) (hG : Configures c.nVars c.domains "XG" G) (h1 : I ⊆ S) (h2 : I ⊆ D) (h3 : frontier S ⊆ D) :
    ∃ net S0 out, newNet c.nVars hidden acts c.llo (certBias c.cert) wt bs = .ok net ∧ initData fl gs r.data = .ok S0 ∧
      Solves r.cfg.loop (singleComponents (w.withEstimate g g' r.cfg) r.cfg false (trainedLearn T r.cfg false w.dynNum)) (net, 0) () S0 out ∧
      (out.iters : ℤ) ≤ c.maxIters + 1 ∧
      (out.found = true → ∃ τ : ℝ, ∀ (T : ℝ) (ξ : ℝ → Pt c.nVars), Trajectory F T ξ → τ ≤ T → ξ 0 ∈ I →
        (certValue c.rounding c.quad out.net.1 (ξ 0) < 0 ∨
          noKink (roundedNet c.rounding out.net.1).layers.dropLast out.net.1.acts (coordList (ξ 0))) →
        (∃ t ∈ Icc 0 τ, ξ t ∈ G) ∧ ∀ t ∈ Icc 0 T, ξ t ∈ S ∨ ∃ r ∈ Icc 0 t, ξ r ∈ G) :=
  anyFile_total_with h (by rcases hc with e | e | e | e <;> rw [e] <;> refine ⟨?_, ?_, ?_⟩ <;> intro h <;> cases h)
    (by rcases hc with e | e | e | e <;> rw [e] <;> decide) false (fun h => by cases h) fl gs g g' wt bs hdraw
    (fun learn net S0 out hr hs hf => C83_config_reach hr hc I S D G hI hS hD hG h1 h2 h3 _ _ _ out hs hf)

/-- **C84, reach and stay.** -/
theorem C84_file_reach_stay (h : AnyFileRun c r F w T hidden acts) (hc : c.cert = .RSWS) (fl : ℝ → ℚ)
    (gs : ℕ → Rng) (g g' : Rng) (wt : ℕ → ℕ → ℕ → ℚ) (bs : ℕ → ℕ → ℚ) (hdraw : DrawsSome fl gs r.data)
    (I S D G : Set (Pt c.nVars)) (hI : Configures c.nVars c.domains "XI" I) (hS : Configures c.nVars c.domains "XS" S)
    (hD : Configures c.nVars c.domains "XD" D) (hG : Configures c.nVars c.domains "XG" G) (h1 : I ⊆ S) (h2 : I ⊆ D) (h3 : frontier S ⊆ D) (h4 : G ⊆ S) :
    ∃ net S0 out, newNet c.nVars hidden acts c.llo (certBias c.cert) wt bs = .ok net ∧ initData fl gs r.data = .ok S0 ∧
      Solves r.cfg.loop (singleComponents (w.withEstimate g g' r.cfg) r.cfg false (trainedLearn T r.cfg false w.dynNum)) (net, 0) () S0 out ∧
      (out.iters : ℤ) ≤ c.maxIters + 1 ∧
      (out.found = true → ∃ τ : ℝ, ∀ (T : ℝ) (ξ : ℝ → Pt c.nVars), Trajectory F T ξ → τ ≤ T → ξ 0 ∈ I →
        (certValue c.rounding c.quad out.net.1 (ξ 0) < 0 ∨
          noKink (roundedNet c.rounding out.net.1).layers.dropLast out.net.1.acts (coordList (ξ 0))) →
        (∃ t₁ ∈ Icc 0 τ, ∀ t ∈ Icc t₁ T, ξ t ∈ G) ∧ ∀ t ∈ Icc 0 T, ξ t ∈ S) :=
  anyFile_total_with h (by rw [hc]; refine ⟨?_, ?_, ?_⟩ <;> intro h <;> cases h) (by rw [hc]; decide) false (fun h => by cases h) fl gs g g' wt bs hdraw
    (fun learn net S0 out hr hs hf => C83_config_reach_stay hr hc I S D G hI hS hD hG h1 h2 h3 h4 _ _ _ out hs hf)

/-- **C84, region of attraction.** -/
theorem C84_file_roa (h : AnyFileRun c r F w T hidden acts) (hc : c.cert = .ROA) (fl : ℝ → ℚ)
    (gs : ℕ → Rng) (g g' : Rng) (wt : ℕ → ℕ → ℕ → ℚ) (bs : ℕ → ℕ → ℚ) (hdraw : DrawsSome fl gs r.data)
    (I : Set (Pt c.nVars)) (hI : Configures c.nVars c.domains "XI" I) :
    ∃ net S out, newNet c.nVars hidden acts c.llo (certBias c.cert) wt bs = .ok net ∧ initData fl gs r.data = .ok S ∧
      Solves r.cfg.loop (singleComponents (w.withEstimate g g' r.cfg) r.cfg false (trainedLearn T r.cfg false w.dynNum)) (net, 0) () S out ∧
      (out.iters : ℤ) ≤ c.maxIters + 1 ∧
      (out.found = true → (∀ p ∈ I, certValue c.rounding c.quad out.net.1 p ≤ (out.net.2 : ℝ) * (11/10)) ∧
        ∀ (T : ℝ) (ξ : ℝ → Pt c.nVars), Trajectory F T ξ →
          certValue c.rounding c.quad out.net.1 (ξ 0) < (out.net.2 : ℝ) * (11/10) → (∀ t ∈ Icc 0 T, (1/100)^2 < normSq (ξ t)) →
          (∀ t ∈ Icc 0 T, certValue c.rounding c.quad out.net.1 (ξ t) ≤ certValue c.rounding c.quad out.net.1 (ξ 0)) ∧
          (c.llo = true → StrictAntiOn (fun t => certValue c.rounding c.quad out.net.1 (ξ t)) (Icc 0 T))) :=
  anyFile_total_with h (by rw [hc]; refine ⟨?_, ?_, ?_⟩ <;> intro h <;> cases h) (by rw [hc]; decide) false (fun h => by cases h) fl gs g g' wt bs hdraw
    (fun learn net S0 out hr hs hf => C83_config_roa hr hc I hI _ _ _ out hs hf)

/-- **C84, stability.** For every accepted Lyapunov file without LLO whose activations vanish at 0 (ReLU included) and whose domain is a neighbourhood of the origin, with a
continuous vector field: the run returns after at most CEGIS_MAX_ITERS + 1 passes or raises because a training sample has derivative exactly 0, and if it reports success
the origin is asymptotically stable for the written vector field. -/
theorem C84_file_stability (h : AnyFileRun c r F w T hidden acts) (hc : c.cert = .LYAPUNOV) (hllo : c.llo = false)
    (hz : Vanishing acts) (fl : ℝ → ℚ)
    (gs : ℕ → Rng) (g g' : Rng) (wt : ℕ → ℕ → ℕ → ℚ) (bs : ℕ → ℕ → ℚ) (hdraw : DrawsSome fl gs r.data)
    (D : Set (Pt c.nVars)) (hD : Configures c.nVars c.domains "XD" D) (hn : D ∈ nhds 0) (hF : Continuous F) :
    ∃ net S, newNet c.nVars hidden acts c.llo (certBias c.cert) wt bs = .ok net ∧ initData fl gs r.data = .ok S ∧
      ((∃ out, Solves r.cfg.loop (singleComponents (w.withEstimate g g' r.cfg) r.cfg false (trainedLearn T r.cfg false w.dynNum)) (net, 0) () S out ∧
        (out.iters : ℤ) ≤ c.maxIters + 1 ∧ (out.found = true → AsympStable F)) ∨
      (∃ k st, Steps r.cfg.loop (singleComponents (w.withEstimate g g' r.cfg) r.cfg false (trainedLearn T r.cfg false w.dynNum))
        (initState (singleComponents (w.withEstimate g g' r.cfg) r.cfg false (trainedLearn T r.cfg false w.dynNum)) (net, 0) () S) k st ∧
        MeetsZeroDerivative T r.cfg false w.dynNum st)) := by
  obtain ⟨net, S, h1, h2, h3⟩ := C84_file_run_total h (by rw [hc]; refine ⟨?_, ?_, ?_⟩ <;> intro h <;> cases h) false (fun h => by cases h) fl gs g g' wt bs hdraw
  refine ⟨net, S, h1, h2, ?_⟩
  rcases h3 with ⟨out, h3, h4⟩ | ⟨-, h3⟩
  · obtain ⟨net', h1', h5, h6⟩ := newNet_usable (n := c.nVars) h.net (certBias c.cert) wt bs
    rw [h1] at h1'; cases h1'
    obtain ⟨⟨learn, hr, hs⟩, hz'⟩ := anyFile_config h g g' false h5 h3
    exact Or.inl ⟨out, h3, h4, fun hf => C83_config_stability hr hc D hD hn hF _ _ _ out hs hf (Or.inl hllo) (Or.inr (hz' (h6 (by rw [hc]; rfl) hz)))⟩
  · exact Or.inr h3

end

/-! ### two networks -/

section
variable {c : ConfigText} {r : Ready} {F : Pt c.nVars → Pt c.nVars} {w : World R Unit ((Net × ℚ) × Net)} {T : Trainer2 Unit} {hidden hidden2 : List ℕ}
  {acts acts2 : List ActivationType}

theorem anyFile2_sizes (h : AnyFileRun2 c r F w T hidden hidden2 acts acts2) {net net2 : Net} (hnet : Usable c.lib c.nVars net) (hnet2 : Usable c.lib c.nVars net2) {b0 : ℚ} {S out}
    (hs : Solves r.cfg.loop (doubleComponents w r.cfg (trainedLearn2 T r.cfg w.dynNum)) ((net, b0), net2) () S out) :
    out.net.1.1.inputSize = c.nVars ∧ out.net.2.inputSize = c.nVars := by
  have := (solves_guard (C := doubleComponents w r.cfg (trainedLearn2 T r.cfg w.dynNum))
      (Q := fun n : (Net × ℚ) × Net => Usable c.lib c.nVars n.1.1 ∧ Usable c.lib c.nVars n.2) (fun st n k h0 hl => by
        obtain ⟨m, hm⟩ := trained_after2 hl
        have := afterSteps_shape2 (h.shape st.iters) sameShape_usable ((st.net.1.1, st.net.2), st.ctrl) h0 m
        rw [← hm] at this
        exact this) ⟨hnet, hnet2⟩ hs).2
  exact ⟨this.1.1.input, this.2.1.input⟩

/-- A file with two networks, run to its end, and the guarantee of a successful run. -/
theorem anyFile2_total_with (h : AnyFileRun2 c r F w T hidden hidden2 acts acts2) (hct : c.cert = .STABLESAFE ∨ c.cert = .RAR) (fl : ℝ → ℚ)
    (gs : ℕ → Rng) (wt wt2 : ℕ → ℕ → ℕ → ℚ) (bs bs2 : ℕ → ℕ → ℚ) (hdraw : DrawsSome fl gs r.data)
    {G : LoopState ((Net × ℚ) × Net) Unit (List ℚ) (Term × Term) → Prop}
    (hG : ∀ net S out, Solves r.cfg.loop (doubleComponents w r.cfg (trainedLearn2 T r.cfg w.dynNum)) net () S out → out.net.1.1.inputSize = c.nVars →
      out.net.2.inputSize = c.nVars → out.found = true → G out) :
    ∃ net net2 S out, newNet c.nVars hidden acts c.llo (certBias2 c.cert).1 wt bs = .ok net ∧
      newNet c.nVars hidden2 acts2 false (certBias2 c.cert).2 wt2 bs2 = .ok net2 ∧ initData fl gs r.data = .ok S ∧
      Solves r.cfg.loop (doubleComponents w r.cfg (trainedLearn2 T r.cfg w.dynNum)) ((net, 0), net2) () S out ∧
      (out.iters : ℤ) ≤ c.maxIters + 1 ∧ (out.found = true → G out) := by
  obtain ⟨net, hn1, hn2, -⟩ := newNet_usable (n := c.nVars) h.net (certBias2 c.cert).1 wt bs
  obtain ⟨net2, hm1, hm2, -⟩ := newNet_usable (n := c.nVars) h.net2 (certBias2 c.cert).2 wt2 bs2
  obtain ⟨S, hS, hk, hw, -⟩ := C76_initial_data c r h.domains h.accepted fl gs
  have hset := (readConfig_inv h.accepted).2
  obtain ⟨d, -, -, hcheck⟩ := readSets_check hset
  have hus := accepted_usable h.domains hset
  have hlab := accepted_sets (by rcases hct with e | e <;> rw [e] <;> decide) hset
  have hcfg := ready_cfg h.accepted
  have hnd : (Dict.keys S).Nodup := by
    rw [hk]
    obtain ⟨D, d, -, h3, -⟩ := readSets_inv hset
    exact parseConfig_nodup h3
  obtain ⟨out, h3, h4⟩ : ∃ out, Solves r.cfg.loop (doubleComponents w r.cfg (trainedLearn2 T r.cfg w.dynNum)) ((net, 0), net2) () S out ∧
      (out.iters : ℤ) ≤ c.maxIters + 1 := by
    generalize r.cfg.domains = doms at *
    rw [hcfg]
    rw [← hk] at hcheck
    exact C75_run_total_checked w ⟨c.lib, c.nVars, c.cert, doms, c.llo, c.rounding, c.quad, c.maxIters⟩ T h.lib hct h.iters hus hlab h.fair
      (fun i t θ hu => ⟨sameShape_usable (h.shape i t θ).1 hu.1, sameShape_usable (h.shape i t θ).2 hu.2⟩) ((net, 0), net2) () S ⟨hn2, hm2⟩ hnd
      (fun l p hp => ⟨hdraw S hS l p hp, hw l p hp⟩) (Dict.keys d) hcheck
  obtain ⟨s1, s2⟩ := anyFile2_sizes h hn2 hm2 h3
  exact ⟨net, net2, S, out, hn1, hm1, hS, h3, h4, hG _ _ out h3 s1 s2⟩

/-- **C84, stable while safe.** For every accepted StableSafe file, whatever supported activations in both networks, the run returns; if it reports success and no kink of
the barrier network lies on its zero level in the written domain, no trajectory of the written vector field from the written initial set, inside the domain, reaches the
written unsafe set. -/
theorem C84_file_stable_safe (h : AnyFileRun2 c r F w T hidden hidden2 acts acts2) (hc : c.cert = .STABLESAFE) (fl : ℝ → ℚ)
    (gs : ℕ → Rng) (wt wt2 : ℕ → ℕ → ℕ → ℚ) (bs bs2 : ℕ → ℕ → ℚ) (hdraw : DrawsSome fl gs r.data)
    (I D U : Set (Pt c.nVars)) (hI : Configures c.nVars c.domains "XI" I) (hD : Configures c.nVars c.domains "XD" D) (hU : Configures c.nVars c.domains "XU" U) :
    ∃ net net2 S out, newNet c.nVars hidden acts c.llo (certBias2 c.cert).1 wt bs = .ok net ∧
      newNet c.nVars hidden2 acts2 false (certBias2 c.cert).2 wt2 bs2 = .ok net2 ∧ initData fl gs r.data = .ok S ∧
      Solves r.cfg.loop (doubleComponents w r.cfg (trainedLearn2 T r.cfg w.dynNum)) ((net, 0), net2) () S out ∧ (out.iters : ℤ) ≤ c.maxIters + 1 ∧
      (out.found = true →
        (∀ p ∈ D, certValue c.rounding false out.net.2 p = 0 → noKink (roundedNet c.rounding out.net.2).layers.dropLast out.net.2.acts (coordList p)) →
        ∀ (T : ℝ) (ξ : ℝ → Pt c.nVars), Trajectory F T ξ → ξ 0 ∈ I → (∀ t ∈ Icc 0 T, ξ t ∈ D) → ∀ t ∈ Icc 0 T, ξ t ∉ U) :=
  anyFile2_total_with h (Or.inl hc) fl gs wt wt2 bs bs2 hdraw (fun net S out hs s1 s2 hf hk T' ξ a b d => by
    have hss : SetsRun c r.cfg := ⟨h.lib, h.domains, _, (readConfig_inv h.accepted).2⟩
    have hw := h.sound
    have hfld : field c.nVars (w.dynamics out.ctrl) = F := by
      rw [h.dynamics]; exact (config_field (readConfig_inv h.accepted).1 h.system).1
    have rI := hss.region .XI (by decide) (by decide) (by intro h; cases h) hI
    have rD := hss.region .XD (by decide) (by decide) (by rintro -; simp [hc]) hD
    have rU := hss.region .XU (by decide) (by decide) (by intro h; cases h) hU
    have hwf := hss.wf
    generalize trainedLearn2 T r.cfg w.dynNum = learn at hs
    clear h
    obtain ⟨cfg, f, data⟩ := r
    obtain ⟨doms, e⟩ := hss.cfg
    dsimp only at e rI rD rU hwf hw hs
    subst e rI rD rU
    exact C83_synthesis_stable_safe _ w hw learn hss.lib hwf hc _ _ _ out hs hf s2 hk T' ξ (by rw [hfld]; exact a) b d)

/-- **C84, reach, avoid, remain.** -/
theorem C84_file_rar (h : AnyFileRun2 c r F w T hidden hidden2 acts acts2) (hc : c.cert = .RAR) (fl : ℝ → ℚ)
    (gs : ℕ → Rng) (wt wt2 : ℕ → ℕ → ℕ → ℚ) (bs bs2 : ℕ → ℕ → ℚ) (hdraw : DrawsSome fl gs r.data)
    (I S D G P : Set (Pt c.nVars)) (hI : Configures c.nVars c.domains "XI" I)
    (hS : Configures c.nVars c.domains "XS" S) (hD : Configures c.nVars c.domains "XD" D) (hG : Configures c.nVars c.domains "XG" G)
    (hP : Configures c.nVars c.domains "XF" P) (h1 : I ⊆ S) (h2 : I ⊆ D) (h3 : frontier S ⊆ D) :
    ∃ net net2 S0 out, newNet c.nVars hidden acts c.llo (certBias2 c.cert).1 wt bs = .ok net ∧
      newNet c.nVars hidden2 acts2 false (certBias2 c.cert).2 wt2 bs2 = .ok net2 ∧ initData fl gs r.data = .ok S0 ∧
      Solves r.cfg.loop (doubleComponents w r.cfg (trainedLearn2 T r.cfg w.dynNum)) ((net, 0), net2) () S0 out ∧ (out.iters : ℤ) ≤ c.maxIters + 1 ∧
      (out.found = true →
        (∀ p ∈ D, certValue c.rounding false out.net.2 p = 0 → noKink (roundedNet c.rounding out.net.2).layers.dropLast out.net.2.acts (coordList p)) →
        ∃ τ : ℝ, ∀ (T : ℝ) (ξ : ℝ → Pt c.nVars), Trajectory F T ξ → τ ≤ T → ξ 0 ∈ I →
        (certValue c.rounding false out.net.1.1 (ξ 0) < 0 ∨
          noKink (roundedNet c.rounding out.net.1.1).layers.dropLast out.net.1.1.acts (coordList (ξ 0))) → (∀ t ∈ Icc 0 T, ξ t ∈ D) →
        (∃ t ∈ Icc 0 τ, ξ t ∈ G) ∧ (∀ t ∈ Icc 0 T, ξ t ∈ S ∨ ∃ r ∈ Icc 0 t, ξ r ∈ G) ∧ ∀ r ∈ Icc 0 T, ξ r ∈ G → ∀ t ∈ Icc r T, ξ t ∈ P) :=
  anyFile2_total_with h (Or.inr hc) fl gs wt wt2 bs bs2 hdraw (fun net S0 out hs s1 s2 hf hk => by
    have hss : SetsRun c r.cfg := ⟨h.lib, h.domains, _, (readConfig_inv h.accepted).2⟩
    have hw := h.sound
    have hfld : field c.nVars (w.dynamics out.ctrl) = F := by
      rw [h.dynamics]; exact (config_field (readConfig_inv h.accepted).1 h.system).1
    have ht : TakesSafeSet c.cert := by simp [TakesSafeSet, hc]
    have rI := hss.region .XI (by decide) (by decide) (by intro h; cases h) hI
    have rS := hss.region .XS (by decide) (by decide) (by intro h; cases h) hS
    have rD := hss.region .XD (by decide) (by decide) (by rintro -; simp [hc]) hD
    have rG := hss.region .XG (by decide) (by decide) (by intro h; cases h) hG
    have rP := hss.region .XF (by decide) (by decide) (by intro h; cases h) hP
    obtain ⟨dat, hacc⟩ := hss.accepted
    have hsets := config_reachSets c hss.domains _ dat hacc ht I S D hI hS hD h1 h2 h3
    have hbd : Bornology.IsBounded S := by obtain ⟨s, -, h⟩ := hS; exact setText_bounded h
    have hwf := hss.wf
    generalize trainedLearn2 T r.cfg w.dynNum = learn at hs
    clear h hacc
    obtain ⟨cfg, f, data⟩ := r
    obtain ⟨doms, e⟩ := hss.cfg
    dsimp only at e rI rS rD rG rP hwf hw hs hsets
    subst e rI rS rD rG rP
    have := C83_synthesis_rar _ w hw learn hss.lib hwf hc hsets hbd _ _ _ out hs hf s1 s2 hk
    rw [hfld] at this
    exact this)

end

/-! ### non-vacuity -/

theorem relu_usable (llo : Bool) : UsableNet .z3 llo [2] [.RELU] :=
  ⟨by simp, by simp, fun a ha => by rw [List.mem_singleton.1 ha]; exact ⟨.relu, rfl, rfl⟩⟩

/-- The initial weights that give `|x| - 3/2`. -/
def absW : ℕ → ℕ → ℕ → ℚ := fun k i _ => if k = 0 ∧ i = 1 then -1 else 1
def absB : ℕ → ℕ → ℚ := fun k _ => if k = 0 then 0 else -3/2

theorem exAbsFile_net : newNet 1 [2] [.RELU] false true absW absB = .ok exAbsAlt.net := by
  simp [newNet, actsOf, activationFcn, takeAbs, hiddenLayers, lastWidth, initMat, initLastLayer, lloWarning, exAbsAlt, absW, absB, Bind.bind, Except.bind, pure,
    Except.pure, Except.map, List.range_succ]

/-- A BarrierAlt file with a ReLU network, a solver and an optimiser meeting the hypotheses of the theorems above. -/
theorem exAbsFile_run : ∃ r, AnyFileRun (exConfig .BARRIERALT) r (fun p i => - p i) (idealWorld (Net × ℚ) [.neg (.var 0)]) exTrainer [2] [.RELU] ∧
    r.cfg = ⟨.z3, 1, .BARRIERALT, (exBarrier .BARRIERALT).domains, false, 3, false, 10⟩ ∧ ∀ fl g, DrawsSome fl g r.data := by
  obtain ⟨data, hr⟩ := exConfig_ready .BARRIERALT (Or.inr rfl)
  obtain ⟨s1, s2, s3⟩ := exConfig_sets
  have hd : DomainsDescribed (exConfig .BARRIERALT) := by
    refine ⟨by decide, ?_⟩
    intro k s hm
    simp only [exConfig, exConfigL, List.mem_cons, Prod.mk.injEq, List.not_mem_nil, or_false] at hm
    rcases hm with ⟨-, rfl⟩ | ⟨-, rfl⟩ | ⟨-, rfl⟩
    exacts [⟨_, s1⟩, ⟨_, s2⟩, ⟨_, s3⟩]
  refine ⟨_, ⟨Or.inl rfl, hd, minus_x_system _, hr, by decide, idealWorld_sound _ _ _, fun _ => rfl, idealWorld_fair _ _ _ rfl, (fun h => by cases h),
    fun _ _ _ => sameShape_refl _, relu_usable _⟩, rfl, fun fl g => C76_draws_some _ _ hd hr (by simp [exConfig, exConfigL]) ?_ fl g⟩
  show ∀ e ∈ [("XD", 10), ("XI", 10), ("XU", 10)], 0 < e.2
  decide

/-- For these random weights the run of the example file reports success, whatever data are drawn. -/
theorem exAbsFile_succeeds (fl : ℝ → ℚ) (gs : ℕ → Rng) (g g' : Rng) : ∃ r S out,
    AnyFileRun (exConfig .BARRIERALT) r (fun p i => - p i) (idealWorld (Net × ℚ) [.neg (.var 0)]) exTrainer [2] [.RELU] ∧ DrawsSome fl gs r.data ∧
    initData fl gs r.data = .ok S ∧
    Solves r.cfg.loop (singleComponents ((idealWorld (Net × ℚ) [.neg (.var 0)]).withEstimate g g' r.cfg) r.cfg false
      (trainedLearn exTrainer r.cfg false (idealWorld (Net × ℚ) [.neg (.var 0)]).dynNum)) (exAbsAlt.net, 0) () S out ∧ out.found = true := by
  obtain ⟨r, hr, hcfg, hdr⟩ := exAbsFile_run
  obtain ⟨S, hS, hk, hw, -⟩ := C76_initial_data _ r hr.domains hr.accepted fl gs
  refine ⟨r, S, ?_⟩
  suffices h : ∃ out, Solves r.cfg.loop (singleComponents ((idealWorld (Net × ℚ) [.neg (.var 0)]).withEstimate g g' r.cfg) r.cfg false
      (trainedLearn exTrainer r.cfg false (idealWorld (Net × ℚ) [.neg (.var 0)]).dynNum)) (exAbsAlt.net, 0) () S out ∧ out.found = true by
    obtain ⟨out, h⟩ := h
    exact ⟨out, hr, hdr fl gs, hS, h⟩
  obtain ⟨d, -, -, hcheck⟩ := readSets_check (readConfig_inv hr.accepted).2
  rw [← hk] at hcheck
  obtain ⟨l1, -, l3⟩ := checked_labels (ct := .BARRIERALT) (by decide) hcheck
  obtain ⟨net', e1, hnet, -⟩ := newNet_usable (n := 1) (relu_usable false) true absW absB
  rw [exAbsFile_net] at e1; cases e1
  have hdata : TrainData 1 .BARRIERALT S (Dict.mapVals (List.map fun x => x) S) := initState_data (fun x hx => hx) hw (fun l hl => by
    obtain ⟨p, hp⟩ := Option.isSome_iff_exists.1 (Dict.get?_isSome_iff.2 (l1 l hl))
    exact ⟨p, hp, hdr fl gs S hS l p hp⟩) l3
  rw [hcfg]
  set cfg : SynthCfg := ⟨.z3, 1, .BARRIERALT, (exBarrier .BARRIERALT).domains, false, 3, false, 10⟩ with hcfg'
  set w := idealWorld (Net × ℚ) [.neg (.var 0)] with hwd
  set C := singleComponents (w.withEstimate g g' cfg) cfg false (trainedLearn exTrainer cfg false w.dynNum) with hC
  obtain ⟨⟨n, b1⟩, k, hl, -⟩ : ∃ n k, trainedLearn exTrainer cfg false w.dynNum (initState C (exAbsAlt.net, 0) () S) = .ok (n, k) ∧ Usable .z3 1 n.1 := by
    rcases trainedLearn_total exTrainer cfg false w.dynNum (by refine ⟨?_, ?_, ?_⟩ <;> intro h <;> cases h) (fun _ _ _ h => h)
      (initState C (exAbsAlt.net, 0) () S) hnet hdata with ⟨h, -⟩ | h
    · cases h
    · exact h
  obtain ⟨m, hm⟩ := trained_after (w := w) _ _ _ hl
  have hid : ∀ i m θ, afterSteps (exTrainer.step i) m θ = θ := by
    intro i m θ
    induction m with
    | zero => rfl
    | succ m ih => exact ih
  rw [hid] at hm
  obtain rfl : n = exAbsAlt.net := congrArg Prod.fst hm
  obtain ⟨gr, hq, hd, ha⟩ := exAbsAlt_file
  obtain ⟨cex, hv⟩ := ideal_verifies 1 gr hd ha
  unfold queriesCT at hq
  obtain ⟨d, hdd, hq⟩ := except_bind_ok hq
  obtain ⟨⟨V, Vdot⟩, ht, hq⟩ := except_bind_ok hq
  obtain ⟨out, o1, o2, -⟩ := first_pass_when cfg.loop C (exAbsAlt.net, 0) () S (exAbsAlt.net, b1) k V Vdot cex [] hl ht (by
    have hdd' : initialiseDomains cfg.lib cfg.nVars cfg.cert cfg.domains = .ok d := hdd
    have hq' : singleConstraints cfg.cert cfg.nVars cfg.llo b1 d V Vdot = .ok gr := hq
    have hv' : verify w.backend cfg.nVars (w.noise 0) (w.oracle 0) gr = .ok ⟨true, cex⟩ := hv
    rw [hC]
    simp only [singleComponents, World.withEstimate, Bind.bind, Except.bind, hdd', hq', hv', pure, Except.pure]) rfl (fun h => by rcases h with h | h <;> cases h) (fun h => by cases h)
  exact ⟨out, o1, o2⟩

/-- A Lyapunov file with ReLU units meets the hypotheses of `C84_file_stability`. -/
example : ∃ r, AnyFileRun exLyapConfig r (fun p i => - p i) (idealWorld (Net × ℚ) exLyap.f) exTrainer [2] [.RELU] ∧ exLyapConfig.llo = false ∧ Vanishing [.RELU] ∧
    ∀ fl g, DrawsSome fl g r.data := by
  obtain ⟨s1, s2, s3, s4⟩ := exStay_sets
  obtain ⟨data, hr⟩ := exLyapConfig_ready
  have hd : DomainsDescribed exLyapConfig := by
    refine ⟨by decide, ?_⟩
    intro k s hm
    simp only [exLyapConfig, List.mem_cons, Prod.mk.injEq, List.not_mem_nil, or_false] at hm
    rw [hm.2]
    exact ⟨_, s3⟩
  refine ⟨_, ⟨Or.inl rfl, hd, minus_x_system _, hr, by decide, idealWorld_sound _ _ _, fun _ => rfl, idealWorld_fair _ _ _ rfl, (fun h => by cases h),
    fun _ _ _ => sameShape_refl _, relu_usable _⟩, rfl, by simp [Vanishing], fun fl g => C76_draws_some _ _ hd hr (by simp [exLyapConfig]) ?_ fl g⟩
  show ∀ e ∈ [("XD", 10)], 0 < e.2
  decide

/-- A region-of-attraction file with ReLU units meets the hypotheses of `C84_file_roa`. -/
example : ∃ r, AnyFileRun exROAConfig r (fun p i => - p i) (idealWorld (Net × ℚ) [.neg (.var 0)]) exTrainer [2] [.RELU] ∧
    ∀ fl g, DrawsSome fl g r.data := by
  obtain ⟨s1, s2, s3⟩ := exConfig_sets
  obtain ⟨data, hr⟩ := exROAConfig_ready
  have hd : DomainsDescribed exROAConfig := by
    refine ⟨by decide, ?_⟩
    intro k s hm
    simp only [exROAConfig, List.mem_cons, Prod.mk.injEq, List.not_mem_nil, or_false] at hm
    rcases hm with ⟨-, rfl⟩ | ⟨-, rfl⟩
    exacts [⟨_, s1⟩, ⟨_, s2⟩]
  refine ⟨_, ⟨Or.inl rfl, hd, minus_x_system _, hr, by decide, idealWorld_sound _ _ _, fun _ => rfl, idealWorld_fair _ _ _ rfl, (fun h => by cases h),
    fun _ _ _ => sameShape_refl _, relu_usable _⟩, fun fl g => C76_draws_some _ _ hd hr (by simp [exROAConfig]) ?_ fl g⟩
  show ∀ e ∈ [("XD", 10), ("XI", 10)], 0 < e.2
  decide

/-- Every accepted file with two networks has such runs: here a StableSafe and a reach-avoid-remain file, with ReLU units (`C84_file_stable_safe`, `C84_file_rar`)
and with squares (`C76_file_stable_safe`, `C76_file_rar`). -/
example : (∃ r, AnyFileRun2 exSSConfig r (fun p i => - p i) (idealWorld ((Net × ℚ) × Net) r.f) exTrainer2 [2] [2] [.RELU] [.RELU] ∧
      FileRun2 exSSConfig r (fun p i => - p i) (idealWorld ((Net × ℚ) × Net) r.f) exTrainer2 [1] [1] [.SQUARE] [.SQUARE] ∧ ∀ fl g, DrawsSome fl g r.data) ∧
    ∃ r, AnyFileRun2 exRARConfig r (fun p i => - p i) (idealWorld ((Net × ℚ) × Net) r.f) exTrainer2 [2] [2] [.RELU] [.RELU] ∧
      FileRun2 exRARConfig r (fun p i => - p i) (idealWorld ((Net × ℚ) × Net) r.f) exTrainer2 [1] [1] [.SQUARE] [.SQUARE] := by
  have good : ∀ llo, GoodNet .z3 llo [1] [.SQUARE] := fun llo => ⟨by simp, by simp, fun a ha => by
    rw [List.mem_singleton.1 ha]; exact ⟨.square, rfl, rfl, by intro h; cases h⟩⟩
  constructor
  · obtain ⟨r, w, learn, hr, -⟩ := exSSConfig_run
    have hlen : r.f.length = 1 := (config_field (readConfig_inv hr.accepted).1 hr.system).2.1
    refine ⟨r, ⟨hr.lib, hr.domains, hr.system, hr.accepted, by decide, idealWorld_sound _ _ _, fun _ => rfl, idealWorld_fair _ _ _ hlen,
      fun _ _ _ => ⟨sameShape_refl _, sameShape_refl _⟩, relu_usable _, relu_usable _⟩, ⟨hr.lib, hr.domains, hr.system, hr.accepted, by decide, idealWorld_sound _ _ _,
      fun _ => rfl, idealWorld_fair _ _ _ hlen, fun _ _ _ => ⟨sameShape_refl _, sameShape_refl _⟩, good _, good _⟩,
      fun fl g => C76_draws_some _ _ hr.domains hr.accepted (by simp [exSSConfig, exConfig, exConfigL]) ?_ fl g⟩
    show ∀ e ∈ [("XD", 10), ("XI", 10), ("XU", 10)], 0 < e.2
    decide
  · obtain ⟨r, w, learn, hr, -⟩ := exRARConfig_run
    have hlen : r.f.length = 1 := (config_field (readConfig_inv hr.accepted).1 hr.system).2.1
    refine ⟨r, ⟨hr.lib, hr.domains, hr.system, hr.accepted, by decide, idealWorld_sound _ _ _, fun _ => rfl, idealWorld_fair _ _ _ hlen,
      fun _ _ _ => ⟨sameShape_refl _, sameShape_refl _⟩, relu_usable _, relu_usable _⟩, ⟨hr.lib, hr.domains, hr.system, hr.accepted, by decide, idealWorld_sound _ _ _,
      fun _ => rfl, idealWorld_fair _ _ _ hlen, fun _ _ _ => ⟨sameShape_refl _, sameShape_refl _⟩, good _, good _⟩⟩

/-! ### a reach-and-stay file: the data are drawn for concrete random numbers, and the search for the level returns -/

/-- A solver that refutes what is unsatisfiable and is undecided otherwise; in the search for the level it answers "sat" instead of "unknown", and always after the first guess,
so that the search returns for every certificate. -/
noncomputable def stayWorld (N : Type) (f : List Term) : World Answer Unit N :=
  { idealWorld N f with stayOracle := fun _ β _ φ => if β = -499500 then (match idealSolver φ with | .unsat => .unsat | _ => .sat fun _ => none) else .sat fun _ => none }

theorem stayWorld_sound (c : SynthCfg) (N : Type) (f : List Term) : SoundWorld c (stayWorld N f) :=
  .smt _ rfl (fun _ => idealSolver_refutationSound) fun _ β b φ h => by
    have h : (if β = -499500 then (match idealSolver φ with | .unsat => .unsat | _ => .sat fun _ => none) else .sat fun _ => none) = Answer.unsat := h
    split_ifs at h
    split at h
    · rename_i e; exact idealSolver_sound φ (by rw [e]; rfl)
    · cases h

theorem stayWorld_fair (N : Type) (f : List Term) (n : ℕ) (hf : f.length = n) : FairWorld (stayWorld N f) n :=
  let h := idealWorld_fair N f n hf
  ⟨h.dyn, h.num, h.val, h.cons⟩

theorem stayWorld_search (N : Type) (f : List Term) (c : SynthCfg) (hd : ∃ d, initialiseDomains c.lib c.nVars c.cert c.domains = .ok d ∧ ∀ V Vdot β, ∃ q, stayQueries d V Vdot β = .ok q)
    (i : ℕ) (V Vdot : Term) : ∃ k β, BetaRun (stayCheckFor (stayWorld N f).backend ((stayWorld N f).stayOracle i) c V Vdot) betaInit k β := by
  obtain ⟨d, hd, hq⟩ := hd
  have hg : betaInit.guess = -499500 := by norm_num [betaInit, BetaState.guess]
  have two : ∀ r, r = Answer.unsat ∨ r = .sat (fun _ => none) → (r = .unsat ∧ smtBackend.isUnsat r = true ∧ smtBackend.isSat r = false) ∨
      (smtBackend.isUnsat r = false ∧ smtBackend.isSat r = true) := by
    rintro r (rfl | rfl)
    · exact Or.inl ⟨rfl, rfl, rfl⟩
    · exact Or.inr ⟨rfl, rfl⟩
  have ans : ∀ β b φ, (stayWorld N f).stayOracle i β b φ = .unsat ∨ (stayWorld N f).stayOracle i β b φ = .sat fun _ => none := by
    intro β b φ
    by_cases hb : β = -499500
    · have : (stayWorld N f).stayOracle i β b φ = match idealSolver φ with | .unsat => .unsat | _ => .sat fun _ => none := if_pos hb
      rw [this]
      split <;> simp
    · exact Or.inr (if_neg hb)
  have other : ∀ β b φ, β ≠ -499500 → (stayWorld N f).stayOracle i β b φ = .sat fun _ => none := by
    intro β b φ h
    exact if_neg h
  have later : ∀ s : BetaState, s.guess ≠ -499500 →
      BetaRun (stayCheckFor (stayWorld N f).backend ((stayWorld N f).stayOracle i) c V Vdot) s 0 none := by
    intro s hs
    apply BetaRun.done
    obtain ⟨⟨q1, q2⟩, hq⟩ := hq V Vdot s.guess
    simp only [betaStep, stayCheckFor, hd, hq, Bind.bind, Except.bind, other _ _ _ hs, stayVerdict]
    rfl
  obtain ⟨⟨q1, q2⟩, hq'⟩ := hq V Vdot betaInit.guess
  have first : stayCheckFor (stayWorld N f).backend ((stayWorld N f).stayOracle i) c V Vdot betaInit.guess =
      stayVerdict smtBackend ((stayWorld N f).stayOracle i betaInit.guess false q1) ((stayWorld N f).stayOracle i betaInit.guess true q2) := by
    simp only [stayCheckFor, hd, hq', Bind.bind, Except.bind]
    rfl
  generalize h1 : (stayWorld N f).stayOracle i betaInit.guess false q1 = a1 at first
  generalize h2 : (stayWorld N f).stayOracle i betaInit.guess true q2 = a2 at first
  have c1 := two a1 (by rw [← h1]; exact ans _ _ _)
  have c2 := two a2 (by rw [← h2]; exact ans _ _ _)
  rcases c1 with ⟨-, u1, s1⟩ | ⟨u1, s1⟩ <;> rcases c2 with ⟨-, u2, s2⟩ | ⟨u2, s2⟩ <;>
    simp only [stayVerdict, u1, u2, s1, s2, Bool.and_true, Bool.and_false, Bool.false_eq_true, if_true, if_false] at first
  · exact ⟨0, _, .done (by simp only [betaStep, first]; rfl)⟩
  · refine ⟨1, _, .step (s' := ⟨betaInit.guess, betaInit.upper⟩) (by simp only [betaStep, first]) (later _ ?_)⟩
    norm_num [betaInit, BetaState.guess]
  · refine ⟨1, _, .step (s' := ⟨betaInit.lower, betaInit.guess⟩) (by simp only [betaStep, first]) (later _ ?_)⟩
    norm_num [betaInit, BetaState.guess]
  · exact ⟨0, _, .done (by simp only [betaStep, first]; rfl)⟩

/-- The data sources of the reach-and-stay file. -/
def exStayData : Dict String Src := [(XD, .interior (.rectangle [-2] [2] none) 10), (XI, .interior (.rectangle [3/5] [13/20] none) 10),
  (XS, .interior (.rectangle [-1] [1] none) 10), (XG, .interior (.rectangle [-(1/2)] [1/2] none) 10), (XGB, .border (.rectangle [-(1/2)] [1/2] none) 10),
  (XU, .interior (.setMinus (.rectangle [-2] [2] none) (.rectangle [-1] [1] none)) 10)]

theorem exStay_ready_data : readConfig exStayConfig = .ok ⟨⟨.z3, 1, .RSWS, exStayDoms, false, 3, false, 10⟩, [.neg (.var 0)], exStayData⟩ := by
  obtain ⟨h2, h1, h5, h6, h65⟩ := exStay_numerals
  have e1 : parseDomain "Rectangle([-2],[2])" = .ok (.rectangle [-2] [2] none) := rfl
  have e2 : parseDomain "Rectangle([0.6],[0.65])" = .ok (.rectangle [3/5] [13/20] none) :=
    C55_rectangle_text [['0', '.', '6']] [['0', '.', '6', '5']] _ _ (.cons (.none h6) .nil) (.cons (.none h65) .nil) _ (layout_flatten _)
  have e3 : parseDomain "Rectangle([-1],[1])" = .ok (.rectangle [-1] [1] none) := rfl
  have e4 : parseDomain "Rectangle([-0.5],[0.5])" = .ok (.rectangle [-(1/2)] [1/2] none) :=
    C55_rectangle_text [['-', '0', '.', '5']] [['0', '.', '5']] _ _ (.cons (.minus h5) .nil) (.cons (.none h5) .nil) _ (layout_flatten _)
  have ed : readDomainTexts exStayConfig.domains = .ok [("XD", .rectangle [-2] [2] none), ("XI", .rectangle [3/5] [13/20] none),
      ("XS", .rectangle [-1] [1] none), ("XG", .rectangle [-(1/2)] [1/2] none)] := by
    simp only [exStayConfig, readDomainTexts, e1, e2, e3, e4, Bind.bind, Except.bind, pure, Except.pure]
  have es : readSystem exStayConfig.lib exStayConfig.nVars exStayConfig.system = .ok [.neg (.var 0)] := rfl
  have hp : parseConfig .RSWS [("XD", .rectangle [-2] [2] none), ("XI", .rectangle [3/5] [13/20] none),
      ("XS", .rectangle [-1] [1] none), ("XG", .rectangle [-(1/2)] [1/2] none)] exStayConfig.nData = .ok (exStayData, exStayDoms) := rfl
  obtain ⟨d, hd, ha⟩ : ∃ d, initialiseDomains .z3 1 .RSWS exStayDoms = .ok d ∧ assertState .RSWS d.keys exStayData.keys = .ok () := ⟨_, rfl, rfl⟩
  have hlr : ¬ ((1 : ℚ) ≤ 0) := by norm_num
  exact readConfig_ok es (readSets_ok ed hp hd hlr rfl (Or.inl rfl) ha)

/-- With random numbers 0 every point drawn is an upper corner. -/
def zeroRng : Rng := ⟨fun _ _ _ => 0, fun _ _ _ => 0⟩

theorem exStay_draws (fl : ℝ → ℚ) : DrawsSome fl (fun _ => zeroRng) exStayData := by
  have sq : ∀ a b : ℚ, (PySet.rectangle [a] [b] none).generateData zeroRng 10 = .ok (List.replicate 10 [(b : ℝ)]) := by
    intro a b
    simp [PySet.generateData, squareInitData, mkRows, mkRow, zeroRng, ent, List.range_succ]
  have fr : filterRows (.rectangle [-1] [1] none) false (List.replicate 10 [((2 : ℚ) : ℝ)]) = .ok (List.replicate 10 [((2 : ℚ) : ℝ)]) := by
    have hP : ∃ P, (PySet.rectangle [-1] [1] none).checkContainment [((2 : ℚ) : ℝ)] = .ok P ∧ ¬ P := ⟨_, rfl, by
      simp⟩
    obtain ⟨P, hP, hn⟩ := hP
    have : ∀ k, filterRows (.rectangle [-1] [1] none) false (List.replicate k [((2 : ℚ) : ℝ)]) = .ok (List.replicate k [((2 : ℚ) : ℝ)]) := by
      intro k
      induction k with
      | zero => rfl
      | succ k ih => simp only [List.replicate_succ, filterRows, hP, ih, Bind.bind, Except.bind, pure, Except.pure]; simp [hn]
    exact this 10
  have bd : ∃ rows, (PySet.rectangle [-(1/2)] [1/2] none).sampleBorder zeroRng 10 = .ok rows ∧ rows ≠ [] := by
    refine ⟨_, rfl, ?_⟩
    simp [List.range_succ, roundInitData, segment, mkRows]
  have sm : (PySet.setMinus (.rectangle [-2] [2] none) (.rectangle [-1] [1] none)).generateData zeroRng 10 = .ok (List.replicate 10 [((2 : ℚ) : ℝ)]) := by
    rw [PySet.generateData, sq]; exact fr
  obtain ⟨rows, hb, hne⟩ := bd
  intro S hS l p hp
  have : initData fl (fun _ => zeroRng) exStayData = .ok (exStayData.map fun e => (e.1, 
    (if e.1 = XGB then rows else if e.1 = XI then List.replicate 10 [((13/20 : ℚ) : ℝ)] else if e.1 = XS then List.replicate 10 [((1 : ℚ) : ℝ)] else
      if e.1 = XG then List.replicate 10 [((1/2 : ℚ) : ℝ)] else List.replicate 10 [((2 : ℚ) : ℝ)]).map (List.map fl))) := by
    simp only [initData, exStayData, Src.sample, sq, hb, sm, Bind.bind, Except.bind, pure, Except.pure]
    simp [XD, XI, XS, XG, XGB, XU]
  rw [this] at hS
  cases hS
  have hm := Dict.get?_eq_some_mem hp
  obtain ⟨e, -, he⟩ := List.mem_map.1 hm
  cases he
  split_ifs <;> simp [hne]

/-- The reach-and-stay file with ReLU units (`C84_file_reach`, `C84_file_reach_stay`) and with squares (`C76_file_reach`, `C76_file_reach_stay`). -/
example : ∃ r, AnyFileRun exStayConfig r (fun p i => - p i) (stayWorld (Net × ℚ) [.neg (.var 0)]) exTrainer [2] [.RELU] ∧
    FileRun exStayConfig r (fun p i => - p i) (stayWorld (Net × ℚ) [.neg (.var 0)]) exTrainer [1] [.SQUARE] ∧
    ∀ fl, DrawsSome fl (fun _ => zeroRng) r.data := by
  obtain ⟨s1, s2, s3, s4⟩ := exStay_sets
  have hd : DomainsDescribed exStayConfig := by
    refine ⟨by decide, ?_⟩
    intro k s hm
    simp only [exStayConfig, List.mem_cons, Prod.mk.injEq, List.not_mem_nil, or_false] at hm
    rcases hm with ⟨-, rfl⟩ | ⟨-, rfl⟩ | ⟨-, rfl⟩ | ⟨-, rfl⟩
    exacts [⟨_, s1⟩, ⟨_, s2⟩, ⟨_, s3⟩, ⟨_, s4⟩]
  have hs := fun i V Vdot => stayWorld_search (Net × ℚ) [.neg (.var 0)] ⟨.z3, 1, .RSWS, exStayDoms, false, 3, false, 10⟩ ⟨_, rfl, fun V Vdot β => ⟨_, rfl⟩⟩ i V Vdot
  exact ⟨_, ⟨Or.inl rfl, hd, minus_x_system _, exStay_ready_data, by decide, stayWorld_sound _ _ _, fun _ => rfl, stayWorld_fair _ _ _ rfl, fun _ => hs,
    fun _ _ _ => sameShape_refl _, relu_usable _⟩, ⟨Or.inl rfl, hd, minus_x_system _, exStay_ready_data, by decide, stayWorld_sound _ _ _, fun _ => rfl,
    stayWorld_fair _ _ _ rfl, fun _ => hs, fun _ _ _ => sameShape_refl _, exFile_good⟩, exStay_draws⟩

end Fossil

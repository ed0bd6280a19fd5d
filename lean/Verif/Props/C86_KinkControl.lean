/-
C86: complete runs of a configuration file that asks for a controller, with networks that may have ReLU units, in continuous and discrete time.
-/
import Verif.Props.C85_DiscreteLyapunov
import Verif.Props.C77_ControlFile

namespace Fossil
open Spec Set Filter Topology

variable {R : Type}

namespace Spec

/-- A run started from a file that asks for a controller, for a certificate with one network, as `ControlFileRun` but with any activations the solver supports in the
certificate network (the controller may have any activations of the code: the file was accepted). -/
structure AnyControlRun (c : ControlConfig) (w0 : ℕ → ℕ → ℕ → ℚ) (r : ReadyControl) (m : ℕ) (F : Pt c.base.nVars → Pt m → Pt c.base.nVars)
    (w : World R Controller (Net × ℚ)) (T : Trainer Controller) (hidden : List ℕ) (acts : List ActivationType) : Prop where
  lib : c.base.lib = .z3 ∨ c.base.lib = .dreal
  domains : DomainsDescribed c.base
  system : ControlText (decide (c.base.lib = .dreal)) c.base.lib.funcs c.base.nVars m c.base.system F
  inputs : m ≤ 10
  accepted : readControl w0 c = .ok r
  iters : 0 ≤ c.base.maxIters
  sound : SoundWorld r.cfg w
  dynamics : ∀ k f, closedLoop c.base.lib r.sys c.base.nVars k = .ok f → w.dynamics k = f
  fair : FairWorld w c.base.nVars
  stay : c.base.cert = .RSWS → ∀ i V Vdot, ∃ k β, BetaRun (stayCheckFor w.backend (w.stayOracle i) r.cfg V Vdot) betaInit k β
  shape : ∀ i t θ, SameShape θ.1 (T.step i t θ).1 ∧ SameController θ.2 (T.step i t θ).2
  net : UsableNet c.base.lib c.base.llo hidden acts

/-- The same for the certificates with two networks. -/
structure AnyControlRun2 (c : ControlConfig) (w0 : ℕ → ℕ → ℕ → ℚ) (r : ReadyControl) (m : ℕ) (F : Pt c.base.nVars → Pt m → Pt c.base.nVars)
    (w : World R Controller ((Net × ℚ) × Net)) (T : Trainer2 Controller) (hidden hidden2 : List ℕ) (acts acts2 : List ActivationType) : Prop where
  lib : c.base.lib = .z3 ∨ c.base.lib = .dreal
  domains : DomainsDescribed c.base
  system : ControlText (decide (c.base.lib = .dreal)) c.base.lib.funcs c.base.nVars m c.base.system F
  inputs : m ≤ 10
  accepted : readControl w0 c = .ok r
  iters : 0 ≤ c.base.maxIters
  sound : SoundWorld r.cfg w
  dynamics : ∀ k f, closedLoop c.base.lib r.sys c.base.nVars k = .ok f → w.dynamics k = f
  fair : FairWorld w c.base.nVars
  shape : ∀ i t θ, SameShape θ.1.1 (T.step i t θ).1.1 ∧ SameShape θ.1.2 (T.step i t θ).1.2 ∧ SameController θ.2 (T.step i t θ).2
  net : UsableNet c.base.lib c.base.llo hidden acts
  net2 : UsableNet c.base.lib false hidden2 acts2

end Spec

section
variable {c : ControlConfig} {w0 : ℕ → ℕ → ℕ → ℚ} {r : ReadyControl} {m : ℕ} {F : Pt c.base.nVars → Pt m → Pt c.base.nVars} {w : World R Controller (Net × ℚ)}
  {T : Trainer Controller} {hidden : List ℕ} {acts : List ActivationType}

/-- What is known of the state a run returns: the network has the right number of inputs, the dynamics given to the solver are the written system driven by the returned
controller rounded to five decimals, and a network that vanishes at the origin by construction still does. -/
theorem anyControl_out (h : AnyControlRun c w0 r m F w T hidden acts) (g g' : Rng) (discrete : Bool) {net : Net} (hnet : Usable c.base.lib c.base.nVars net) {b0 : ℚ} {S out}
    (hs : Solves r.cfg.loop (singleComponents (w.withEstimate g g' r.cfg) r.cfg discrete (trainedLearn T r.cfg discrete w.dynNum)) (net, b0) r.ctrl S out) :
    out.net.1.inputSize = c.base.nVars ∧ (field c.base.nVars (w.dynamics out.ctrl) = driven F (rounded5 out.ctrl) ∧ (w.dynamics out.ctrl).length = c.base.nVars) ∧
      (ZeroNet net → ZeroNet out.net.1) := by
  have step : ∀ {Q : Net × Controller → Prop}, (∀ {a b}, SameShape a.1 b.1 ∧ SameController a.2 b.2 → Q a → Q b) → ∀ st n k, Q (st.net.1, st.ctrl) →
      trainedLearn T r.cfg discrete w.dynNum st = .ok (n, k) → Q (n.1, k) := by
    intro Q hQ st n k h0 hl
    obtain ⟨m, hm⟩ := trained_after (w := w) st n k hl
    have := afterSteps_inv (Q := Q) (step := T.step st.iters) (fun t θ hθ => hQ (h.shape st.iters t θ) hθ) (st.net.1, st.ctrl) h0 m
    rw [← hm] at this
    exact this
  have main := (solves_guardBoth (C := singleComponents (w.withEstimate g g' r.cfg) r.cfg discrete (trainedLearn T r.cfg discrete w.dynNum))
      (Q := fun (n : Net × ℚ) k => Usable c.base.lib c.base.nVars n.1 ∧ SameController r.ctrl k)
      (fun st n k => step (Q := fun θ => Usable c.base.lib c.base.nVars θ.1 ∧ SameController r.ctrl θ.2)
        (fun hab ha => ⟨sameShape_usable hab.1 ha.1, sameController_trans ha.2 hab.2⟩) st n k) ⟨hnet, sameController_refl _⟩ hs).2
  obtain ⟨h1, -, -, f0, hf0⟩ := readControl_inv h.accepted
  obtain ⟨f, hf⟩ := C77_closed_loop_shape _ _ _ _ _ main.2 f0 hf0
  have hcf := control_field h1 h.system h.inputs (by simp) hf
  refine ⟨main.1.1.input, by rw [h.dynamics _ f hf]; exact ⟨hcf.1, hcf.2.1⟩, fun hz => ?_⟩
  exact (solves_guardBoth (C := singleComponents (w.withEstimate g g' r.cfg) r.cfg discrete (trainedLearn T r.cfg discrete w.dynNum))
      (Q := fun (n : Net × ℚ) _ => ZeroNet n.1) (fun st n k => step (Q := fun θ => ZeroNet θ.1) (fun hab hz => sameShape_zero hab.1 hz) st n k) hz hs).2

/-- **C86 (termination).** As C77, whatever supported activations the certificate network has. -/
theorem C86_control_run_total (h : AnyControlRun c w0 r m F w T hidden acts) (hct : SingleCert c.base.cert) (discrete : Bool) (hrnd : discrete = true → c.base.rounding ≠ 0) (fl : ℝ → ℚ)
    (gs : ℕ → Rng) (g g' : Rng) (wt : ℕ → ℕ → ℕ → ℚ) (bs : ℕ → ℕ → ℚ) (hdraw : DrawsSome fl gs r.data) :
    ∃ net S, newNet c.base.nVars hidden acts c.base.llo (certBias c.base.cert) wt bs = .ok net ∧ initData fl gs r.data = .ok S ∧
      ((∃ out, Solves r.cfg.loop (singleComponents (w.withEstimate g g' r.cfg) r.cfg discrete (trainedLearn T r.cfg discrete w.dynNum)) (net, 0) r.ctrl S out ∧
        (out.iters : ℤ) ≤ c.base.maxIters + 1) ∨
      (c.base.cert = .LYAPUNOV ∧ ∃ k st, Steps r.cfg.loop (singleComponents (w.withEstimate g g' r.cfg) r.cfg discrete (trainedLearn T r.cfg discrete w.dynNum))
        (initState (singleComponents (w.withEstimate g g' r.cfg) r.cfg discrete (trainedLearn T r.cfg discrete w.dynNum)) (net, 0) r.ctrl S) k st ∧
        MeetsZeroDerivative T r.cfg discrete w.dynNum st)) := by
  obtain ⟨net, hn1, hn2, -⟩ := newNet_usable (n := c.base.nVars) h.net (certBias c.base.cert) wt bs
  obtain ⟨S, hS, hk, hw, -⟩ := C77_initial_data c w0 r h.domains h.accepted fl gs
  refine ⟨net, S, hn1, hS, ?_⟩
  have hset := (readControl_inv h.accepted).2.1
  obtain ⟨d, -, -, hcheck⟩ := readSets_check hset
  have hplain := accepted_plain h.domains hset
  have hus := accepted_usable h.domains hset
  have hlab := accepted_sets hct.2.2 hset
  have hcfg := ready_control_cfg h.accepted
  generalize r.cfg.domains = doms at *
  have hst := h.stay
  rw [hcfg] at hst ⊢
  rw [← hk] at hcheck
  exact C75_run_total_checked_single w ⟨c.base.lib, c.base.nVars, c.base.cert, doms, c.base.llo, c.base.rounding, c.base.quad, c.base.maxIters⟩ discrete T g g' h.lib hct h.iters hus hlab
    (fun _ P hP => plain_lyapunov (hplain.1 _ (Dict.get?_eq_some_mem hP))) hrnd h.fair hst (fun i t θ hu => sameShape_usable (h.shape i t θ).1 hu) (net, 0) r.ctrl S hn2
    (fun l p hp => ⟨hdraw S hS l p hp, hw l p hp⟩) (Dict.keys d) hcheck

theorem anyControl_total_with (h : AnyControlRun c w0 r m F w T hidden acts) (hct : SingleCert c.base.cert) (hl : c.base.cert ≠ .LYAPUNOV) (discrete : Bool)
    (hrnd : discrete = true → c.base.rounding ≠ 0) (fl : ℝ → ℚ) (gs : ℕ → Rng) (g g' : Rng) (wt : ℕ → ℕ → ℕ → ℚ) (bs : ℕ → ℕ → ℚ) (hdraw : DrawsSome fl gs r.data)
    {G : LoopState (Net × ℚ) Controller (List ℚ) Term → Prop}
    (hG : ∀ learn net ctrl S out, Solves r.cfg.loop (singleComponents (w.withEstimate g g' r.cfg) r.cfg discrete learn) net ctrl S out → out.found = true →
      out.net.1.inputSize = c.base.nVars → field c.base.nVars (w.dynamics out.ctrl) = driven F (rounded5 out.ctrl) → (w.dynamics out.ctrl).length = c.base.nVars → G out) :
    ∃ net S out, newNet c.base.nVars hidden acts c.base.llo (certBias c.base.cert) wt bs = .ok net ∧ initData fl gs r.data = .ok S ∧
      Solves r.cfg.loop (singleComponents (w.withEstimate g g' r.cfg) r.cfg discrete (trainedLearn T r.cfg discrete w.dynNum)) (net, 0) r.ctrl S out ∧
      (out.iters : ℤ) ≤ c.base.maxIters + 1 ∧ (out.found = true → G out) := by
  obtain ⟨net, S, h1, h2, h3⟩ := C86_control_run_total h hct discrete hrnd fl gs g g' wt bs hdraw
  rcases h3 with ⟨out, h3, h4⟩ | ⟨e, -⟩
  · obtain ⟨net', h1', h5, -⟩ := newNet_usable (n := c.base.nVars) h.net (certBias c.base.cert) wt bs
    rw [h1] at h1'; cases h1'
    obtain ⟨a, ⟨b, d⟩, -⟩ := anyControl_out h g g' discrete h5 h3
    exact ⟨net, S, out, h1, h2, h3, h4, fun hf => hG _ _ _ _ out h3 hf a b d⟩
  · exact absurd e hl

theorem anyControl_sets (h : AnyControlRun c w0 r m F w T hidden acts) : SetsRun c.base r.cfg := ⟨h.lib, h.domains, _, (readControl_inv h.accepted).2.1⟩

/-- **C86, safety.** For every accepted BarrierAlt file the run returns; if it reports success, no trajectory of the written system driven by the returned controller (rounded to
five decimals) from the written initial set, inside the written domain, reaches the written unsafe set. -/
theorem C86_control_safety (h : AnyControlRun c w0 r m F w T hidden acts) (hc : c.base.cert = .BARRIERALT) (fl : ℝ → ℚ)
    (gs : ℕ → Rng) (g g' : Rng) (wt : ℕ → ℕ → ℕ → ℚ) (bs : ℕ → ℕ → ℚ) (hdraw : DrawsSome fl gs r.data)
    (I D U : Set (Pt c.base.nVars)) (hI : Configures c.base.nVars c.base.domains "XI" I) (hD : Configures c.base.nVars c.base.domains "XD" D) (hU : Configures c.base.nVars c.base.domains "XU" U) :
    ∃ net S out, newNet c.base.nVars hidden acts c.base.llo (certBias c.base.cert) wt bs = .ok net ∧ initData fl gs r.data = .ok S ∧
      Solves r.cfg.loop (singleComponents (w.withEstimate g g' r.cfg) r.cfg false (trainedLearn T r.cfg false w.dynNum)) (net, 0) r.ctrl S out ∧
      (out.iters : ℤ) ≤ c.base.maxIters + 1 ∧
      (out.found = true → ∀ (T : ℝ) (ξ : ℝ → Pt c.base.nVars), Trajectory (driven F (rounded5 out.ctrl)) T ξ → ξ 0 ∈ I → (∀ t ∈ Icc 0 T, ξ t ∈ D) → ∀ t ∈ Icc 0 T, ξ t ∉ U) :=
  anyControl_total_with h (by rw [hc]; refine ⟨?_, ?_, ?_⟩ <;> intro h <;> cases h) (by rw [hc]; decide)
    false (fun h => by cases h) fl gs g g' wt bs hdraw
    (fun learn net ctrl S out hs hf hsz hfld hlen T' ξ a b d => by
      have hw := soundWorld_estimateK h.sound g g'
      have hss := anyControl_sets h
      have rI := hss.region .XI (by decide) (by decide) (by intro h; cases h) hI
      have rD := hss.region .XD (by decide) (by decide) (by rintro -; simp [hc]) hD
      have rU := hss.region .XU (by decide) (by decide) (by intro h; cases h) hU
      have hwf := hss.wf
      have hdd : (w.withEstimate g g' r.cfg).dynamics out.ctrl = w.dynamics out.ctrl := rfl
      rw [← hdd] at hfld
      generalize w.withEstimate g g' r.cfg = w' at *
      clear hdd h
      obtain ⟨cfg, sys, k0, data⟩ := r
      obtain ⟨doms, e⟩ := hss.cfg
      dsimp only at e rI rD rU hwf hw hs
      subst e rI rD rU
      exact C82_synthesis_safe _ w' hw learn hss.lib hwf hc net ctrl S out hs hf hsz T' ξ (by rw [hfld]; exact a) b d)

/-- **C86, discrete safety.** The same for BarrierAlt in discrete time with a non-zero rounding and no factors. -/
theorem C86_control_safety_dt (h : AnyControlRun c w0 r m F w T hidden acts) (hc : c.base.cert = .BARRIERALT) (hq : c.base.quad = false) (hrnd : c.base.rounding ≠ 0) (fl : ℝ → ℚ)
    (gs : ℕ → Rng) (g g' : Rng) (wt : ℕ → ℕ → ℕ → ℚ) (bs : ℕ → ℕ → ℚ) (hdraw : DrawsSome fl gs r.data)
    (I D U : Set (Pt c.base.nVars)) (hI : Configures c.base.nVars c.base.domains "XI" I) (hD : Configures c.base.nVars c.base.domains "XD" D) (hU : Configures c.base.nVars c.base.domains "XU" U) :
    ∃ net S out, newNet c.base.nVars hidden acts c.base.llo (certBias c.base.cert) wt bs = .ok net ∧ initData fl gs r.data = .ok S ∧
      Solves r.cfg.loop (singleComponents (w.withEstimate g g' r.cfg) r.cfg true (trainedLearn T r.cfg true w.dynNum)) (net, 0) r.ctrl S out ∧
      (out.iters : ℤ) ≤ c.base.maxIters + 1 ∧
      (out.found = true → ∀ x : ℕ → Pt c.base.nVars, IsRun (driven F (rounded5 out.ctrl)) x → x 0 ∈ I → ∀ k, (∀ j ≤ k, x j ∈ D) → x k ∉ U) :=
  anyControl_total_with h (by rw [hc]; refine ⟨?_, ?_, ?_⟩ <;> intro h <;> cases h) (by rw [hc]; decide) true (fun _ => hrnd) fl gs g g' wt bs hdraw
    (fun learn net ctrl S out hs hf hsz hfld hlen x a b k d => by
      have hw := soundWorld_estimateK h.sound g g'
      have hss := anyControl_sets h
      have rI := hss.region .XI (by decide) (by decide) (by intro h; cases h) hI
      have rD := hss.region .XD (by decide) (by decide) (by rintro -; simp [hc]) hD
      have rU := hss.region .XU (by decide) (by decide) (by intro h; cases h) hU
      have hwf := hss.wf
      have hdd : (w.withEstimate g g' r.cfg).dynamics out.ctrl = w.dynamics out.ctrl := rfl
      rw [← hdd] at hfld hlen
      generalize w.withEstimate g g' r.cfg = w' at *
      clear hdd h
      obtain ⟨cfg, sys, k0, data⟩ := r
      obtain ⟨doms, e⟩ := hss.cfg
      dsimp only at e rI rD rU hwf hw hs
      subst e rI rD rU
      obtain ⟨gr, hq', ha⟩ := run_accepted_dt_any hw hss.lib hwf hs hf
      exact C11_barrierAlt_safety_dt (SynthCfg.setup ⟨c.base.lib, c.base.nVars, c.base.cert, doms, c.base.llo, c.base.rounding, c.base.quad, c.base.maxIters⟩ out.net.1 out.net.2
        (w'.dynamics out.ctrl)) hss.lib hwf hlen hq hc gr hq' ha x (by
          show IsRun (field c.base.nVars (w'.dynamics out.ctrl)) x
          rw [hfld]; exact a) b k d)

/-- **C86, reach while staying.** -/
theorem C86_control_reach (h : AnyControlRun c w0 r m F w T hidden acts) (hc : c.base.cert = .RWS ∨ c.base.cert = .RWA ∨ c.base.cert = .RSWS ∨ c.base.cert = .RSWA) (fl : ℝ → ℚ)
    (gs : ℕ → Rng) (g g' : Rng) (wt : ℕ → ℕ → ℕ → ℚ) (bs : ℕ → ℕ → ℚ) (hdraw : DrawsSome fl gs r.data)
    (I S D G : Set (Pt c.base.nVars)) (hI : Configures c.base.nVars c.base.domains "XI" I) (hS : Configures c.base.nVars c.base.domains "XS" S)
    (hD : Configures c.base.nVars c.base.domains "XD" D) (hG : Configures c.base.nVars c.base.domains "XG" G) (h1 : I ⊆ S) (h2 : I ⊆ D) (h3 : frontier S ⊆ D) :
    ∃ net S0 out, newNet c.base.nVars hidden acts c.base.llo (certBias c.base.cert) wt bs = .ok net ∧ initData fl gs r.data = .ok S0 ∧
      Solves r.cfg.loop (singleComponents (w.withEstimate g g' r.cfg) r.cfg false (trainedLearn T r.cfg false w.dynNum)) (net, 0) r.ctrl S0 out ∧
      (out.iters : ℤ) ≤ c.base.maxIters + 1 ∧
      (out.found = true → ∃ τ : ℝ, ∀ (T : ℝ) (ξ : ℝ → Pt c.base.nVars), Trajectory (driven F (rounded5 out.ctrl)) T ξ → τ ≤ T → ξ 0 ∈ I →
        (certValue c.base.rounding c.base.quad out.net.1 (ξ 0) < 0 ∨
          noKink (roundedNet c.base.rounding out.net.1).layers.dropLast out.net.1.acts (coordList (ξ 0))) →
        (∃ t ∈ Icc 0 τ, ξ t ∈ G) ∧ ∀ t ∈ Icc 0 T, ξ t ∈ S ∨ ∃ r ∈ Icc 0 t, ξ r ∈ G) :=
  anyControl_total_with h (by rcases hc with e | e | e | e <;> rw [e] <;> refine ⟨?_, ?_, ?_⟩ <;> intro h <;> cases h)
    (by rcases hc with e | e | e | e <;> rw [e] <;> decide) false (fun h => by cases h) fl gs g g' wt bs hdraw
    (fun learn net ctrl S0 out hs hf hsz hfld hlen => by
      have hw := soundWorld_estimateK h.sound g g'
      have hss := anyControl_sets h
      have ht : TakesSafeSet c.base.cert := by rcases hc with h | h | h | h <;> simp [TakesSafeSet, h]
      have rI := hss.region .XI (by decide) (by decide) (by intro h; cases h) hI
      have rS := hss.region .XS (by decide) (by decide) (by intro h; cases h) hS
      have rG := hss.region .XG (by decide) (by decide) (by intro h; cases h) hG
      obtain ⟨dat, hacc⟩ := hss.accepted
      have hsets := config_reachSets c.base hss.domains _ dat hacc ht I S D hI hS hD h1 h2 h3
      have hbd : Bornology.IsBounded S := by obtain ⟨s, -, h⟩ := hS; exact setText_bounded h
      have hwf := hss.wf
      have hdd : (w.withEstimate g g' r.cfg).dynamics out.ctrl = w.dynamics out.ctrl := rfl
      rw [← hdd] at hfld
      generalize w.withEstimate g g' r.cfg = w' at *
      clear hdd h hacc
      obtain ⟨cfg, sys, k0, data⟩ := r
      obtain ⟨doms, e⟩ := hss.cfg
      dsimp only at e rI rS rG hwf hw hs hsets
      subst e rI rS rG
      have := C83_synthesis_reach _ w' hw learn hss.lib hwf hc hsets hbd net ctrl S0 out hs hf hsz
      dsimp only at this
      rw [hfld] at this
      exact this)

/-- **C86, reach and stay.** -/
theorem C86_control_reach_stay (h : AnyControlRun c w0 r m F w T hidden acts) (hc : c.base.cert = .RSWS) (fl : ℝ → ℚ)
    (gs : ℕ → Rng) (g g' : Rng) (wt : ℕ → ℕ → ℕ → ℚ) (bs : ℕ → ℕ → ℚ) (hdraw : DrawsSome fl gs r.data)
    (I S D G : Set (Pt c.base.nVars)) (hI : Configures c.base.nVars c.base.domains "XI" I) (hS : Configures c.base.nVars c.base.domains "XS" S)
    (hD : Configures c.base.nVars c.base.domains "XD" D) (hG : Configures c.base.nVars c.base.domains "XG" G) (h1 : I ⊆ S) (h2 : I ⊆ D) (h3 : frontier S ⊆ D) (h4 : G ⊆ S) :
    ∃ net S0 out, newNet c.base.nVars hidden acts c.base.llo (certBias c.base.cert) wt bs = .ok net ∧ initData fl gs r.data = .ok S0 ∧
      Solves r.cfg.loop (singleComponents (w.withEstimate g g' r.cfg) r.cfg false (trainedLearn T r.cfg false w.dynNum)) (net, 0) r.ctrl S0 out ∧
      (out.iters : ℤ) ≤ c.base.maxIters + 1 ∧
      (out.found = true → ∃ τ : ℝ, ∀ (T : ℝ) (ξ : ℝ → Pt c.base.nVars), Trajectory (driven F (rounded5 out.ctrl)) T ξ → τ ≤ T → ξ 0 ∈ I →
        (certValue c.base.rounding c.base.quad out.net.1 (ξ 0) < 0 ∨
          noKink (roundedNet c.base.rounding out.net.1).layers.dropLast out.net.1.acts (coordList (ξ 0))) →
        (∃ t₁ ∈ Icc 0 τ, ∀ t ∈ Icc t₁ T, ξ t ∈ G) ∧ ∀ t ∈ Icc 0 T, ξ t ∈ S) :=
  anyControl_total_with h (by rw [hc]; refine ⟨?_, ?_, ?_⟩ <;> intro h <;> cases h) (by rw [hc]; decide) false (fun h => by cases h) fl gs g g' wt bs hdraw
    (fun learn net ctrl S0 out hs hf hsz hfld hlen => by
      have hw := soundWorld_estimateK h.sound g g'
      have hss := anyControl_sets h
      have rI := hss.region .XI (by decide) (by decide) (by intro h; cases h) hI
      have rS := hss.region .XS (by decide) (by decide) (by intro h; cases h) hS
      have rG := hss.region .XG (by decide) (by decide) (by intro h; cases h) hG
      have hsets := config_staySets hss hc I S D G hI hS hD hG h1 h2 h3 h4
      have hbd : Bornology.IsBounded S := by obtain ⟨s, -, h⟩ := hS; exact setText_bounded h
      have hwf := hss.wf
      have hdd : (w.withEstimate g g' r.cfg).dynamics out.ctrl = w.dynamics out.ctrl := rfl
      rw [← hdd] at hfld
      generalize w.withEstimate g g' r.cfg = w' at *
      clear hdd h
      obtain ⟨cfg, sys, k0, data⟩ := r
      obtain ⟨doms, e⟩ := hss.cfg
      dsimp only at e rI rS rG hwf hw hs hsets
      subst e rI rS rG
      have := C83_synthesis_reach_stay _ w' hw learn hss.lib hwf hc hsets hbd net ctrl S0 out hs hf hsz
      dsimp only at this
      rw [hfld] at this
      exact this)

/-- **C86, region of attraction.** -/
theorem C86_control_roa (h : AnyControlRun c w0 r m F w T hidden acts) (hc : c.base.cert = .ROA) (fl : ℝ → ℚ)
    (gs : ℕ → Rng) (g g' : Rng) (wt : ℕ → ℕ → ℕ → ℚ) (bs : ℕ → ℕ → ℚ) (hdraw : DrawsSome fl gs r.data)
    (I : Set (Pt c.base.nVars)) (hI : Configures c.base.nVars c.base.domains "XI" I) :
    ∃ net S out, newNet c.base.nVars hidden acts c.base.llo (certBias c.base.cert) wt bs = .ok net ∧ initData fl gs r.data = .ok S ∧
      Solves r.cfg.loop (singleComponents (w.withEstimate g g' r.cfg) r.cfg false (trainedLearn T r.cfg false w.dynNum)) (net, 0) r.ctrl S out ∧
      (out.iters : ℤ) ≤ c.base.maxIters + 1 ∧
      (out.found = true → (∀ p ∈ I, certValue c.base.rounding c.base.quad out.net.1 p ≤ (out.net.2 : ℝ) * (11/10)) ∧
        ∀ (T : ℝ) (ξ : ℝ → Pt c.base.nVars), Trajectory (driven F (rounded5 out.ctrl)) T ξ →
          certValue c.base.rounding c.base.quad out.net.1 (ξ 0) < (out.net.2 : ℝ) * (11/10) → (∀ t ∈ Icc 0 T, (1/100)^2 < normSq (ξ t)) →
          (∀ t ∈ Icc 0 T, certValue c.base.rounding c.base.quad out.net.1 (ξ t) ≤ certValue c.base.rounding c.base.quad out.net.1 (ξ 0)) ∧
          (c.base.llo = true → StrictAntiOn (fun t => certValue c.base.rounding c.base.quad out.net.1 (ξ t)) (Icc 0 T))) :=
  anyControl_total_with h (by rw [hc]; refine ⟨?_, ?_, ?_⟩ <;> intro h <;> cases h) (by rw [hc]; decide) false (fun h => by cases h) fl gs g g' wt bs hdraw
    (fun learn net ctrl S out hs hf hsz hfld hlen => by
      have hw := soundWorld_estimateK h.sound g g'
      have hss := anyControl_sets h
      have rI := hss.region .XI (by decide) (by decide) (by intro h; cases h) hI
      have hwf := hss.wf
      have hdd : (w.withEstimate g g' r.cfg).dynamics out.ctrl = w.dynamics out.ctrl := rfl
      rw [← hdd] at hfld
      generalize w.withEstimate g g' r.cfg = w' at *
      clear hdd h
      obtain ⟨cfg, sys, k0, data⟩ := r
      obtain ⟨doms, e⟩ := hss.cfg
      dsimp only at e rI hwf hw hs
      subst e rI
      have := C83_synthesis_roa _ w' hw learn hss.lib hwf hc net ctrl S out hs hf hsz
      dsimp only at this
      rw [hfld] at this
      exact this)

/-- The shared part of the two stability theorems: the run, and the facts about the returned network. -/
theorem anyControl_lyap (h : AnyControlRun c w0 r m F w T hidden acts) (hc : c.base.cert = .LYAPUNOV) (discrete : Bool) (hrnd : discrete = true → c.base.rounding ≠ 0)
    (hllo : c.base.llo = false ∨ (LloActs hidden acts ∧ LloSteps T acts)) (hz : Vanishing acts) (fl : ℝ → ℚ)
    (gs : ℕ → Rng) (g g' : Rng) (wt : ℕ → ℕ → ℕ → ℚ) (bs : ℕ → ℕ → ℚ) (hdraw : DrawsSome fl gs r.data)
    {G : LoopState (Net × ℚ) Controller (List ℚ) Term → Prop}
    (hG : ∀ learn net ctrl S out, Solves r.cfg.loop (singleComponents (w.withEstimate g g' r.cfg) r.cfg discrete learn) net ctrl S out → out.found = true →
      out.net.1.inputSize = c.base.nVars → field c.base.nVars (w.dynamics out.ctrl) = driven F (rounded5 out.ctrl) → (w.dynamics out.ctrl).length = c.base.nVars →
      (c.base.llo = false ∨ PDNet out.net.1) → ZeroNet out.net.1 → G out) :
    ∃ net S, newNet c.base.nVars hidden acts c.base.llo (certBias c.base.cert) wt bs = .ok net ∧ initData fl gs r.data = .ok S ∧
      ((∃ out, Solves r.cfg.loop (singleComponents (w.withEstimate g g' r.cfg) r.cfg discrete (trainedLearn T r.cfg discrete w.dynNum)) (net, 0) r.ctrl S out ∧
        (out.iters : ℤ) ≤ c.base.maxIters + 1 ∧ (out.found = true → G out)) ∨
      (∃ k st, Steps r.cfg.loop (singleComponents (w.withEstimate g g' r.cfg) r.cfg discrete (trainedLearn T r.cfg discrete w.dynNum))
        (initState (singleComponents (w.withEstimate g g' r.cfg) r.cfg discrete (trainedLearn T r.cfg discrete w.dynNum)) (net, 0) r.ctrl S) k st ∧
        MeetsZeroDerivative T r.cfg discrete w.dynNum st)) := by
  obtain ⟨net, S, h1, h2, h3⟩ := C86_control_run_total h (by rw [hc]; refine ⟨?_, ?_, ?_⟩ <;> intro h <;> cases h) discrete hrnd fl gs g g' wt bs hdraw
  refine ⟨net, S, h1, h2, ?_⟩
  rcases h3 with ⟨out, h3, h4⟩ | ⟨-, h3⟩
  swap; · exact Or.inr h3
  obtain ⟨net', h1', h5, h6⟩ := newNet_usable (n := c.base.nVars) h.net (certBias c.base.cert) wt bs
  rw [h1] at h1'; cases h1'
  obtain ⟨hsz, ⟨hfld, hlen⟩, hz'⟩ := anyControl_out h g g' discrete h5 h3
  refine Or.inl ⟨out, h3, h4, fun hf => hG _ _ _ _ out h3 hf hsz hfld hlen ?_ (hz' (h6 (by rw [hc]; rfl) hz))⟩
  cases hl : c.base.llo with
  | false => exact Or.inl rfl
  | true =>
    rcases hllo with e | ⟨ha, hst⟩
    · rw [e] at hl; cases hl
    · right
      have hcfg := ready_control_cfg h.accepted
      exact llo_run_pd (by rw [hcfg]; exact hc) (fun i t θ => (h.shape i t θ).1) ha hst (by rw [hl, hc] at h1; exact h1) h3

/-- **C86, stability.** For every accepted Lyapunov file whose activations vanish at 0 (ReLU included), with or without LLO (with LLO as in C76: non-negative last activation, the steps
of `Lyapunov.learn`), on a domain that is a neighbourhood of the origin and with a continuous vector field: the run returns after at most CEGIS_MAX_ITERS + 1 passes or raises
because a training sample has derivative exactly 0, and if it reports success the origin is asymptotically stable for the written system driven by the returned controller. -/
theorem C86_control_stability (h : AnyControlRun c w0 r m F w T hidden acts) (hc : c.base.cert = .LYAPUNOV)
    (hllo : c.base.llo = false ∨ (LloActs hidden acts ∧ LloSteps T acts)) (hz : Vanishing acts) (fl : ℝ → ℚ)
    (gs : ℕ → Rng) (g g' : Rng) (wt : ℕ → ℕ → ℕ → ℚ) (bs : ℕ → ℕ → ℚ) (hdraw : DrawsSome fl gs r.data)
    (D : Set (Pt c.base.nVars)) (hD : Configures c.base.nVars c.base.domains "XD" D) (hn : D ∈ nhds 0) (hF : Continuous (fun z : Pt c.base.nVars × Pt m => F z.1 z.2)) :
    ∃ net S, newNet c.base.nVars hidden acts c.base.llo (certBias c.base.cert) wt bs = .ok net ∧ initData fl gs r.data = .ok S ∧
      ((∃ out, Solves r.cfg.loop (singleComponents (w.withEstimate g g' r.cfg) r.cfg false (trainedLearn T r.cfg false w.dynNum)) (net, 0) r.ctrl S out ∧
        (out.iters : ℤ) ≤ c.base.maxIters + 1 ∧ (out.found = true → AsympStable (driven F (rounded5 out.ctrl)))) ∨
      (∃ k st, Steps r.cfg.loop (singleComponents (w.withEstimate g g' r.cfg) r.cfg false (trainedLearn T r.cfg false w.dynNum))
        (initState (singleComponents (w.withEstimate g g' r.cfg) r.cfg false (trainedLearn T r.cfg false w.dynNum)) (net, 0) r.ctrl S) k st ∧
        MeetsZeroDerivative T r.cfg false w.dynNum st)) :=
  anyControl_lyap h hc false (fun h => by cases h) hllo hz fl gs g g' wt bs hdraw
    (fun learn net ctrl S out hs hf hsz hfld hlen hpd hzn => by
      have hw := soundWorld_estimateK h.sound g g'
      have hss := anyControl_sets h
      have rD := hss.region .XD (by decide) (by decide) (by rintro -; simp [hc]) hD
      have hwf := hss.wf
      have hdd : (w.withEstimate g g' r.cfg).dynamics out.ctrl = w.dynamics out.ctrl := rfl
      rw [← hdd] at hfld
      generalize w.withEstimate g g' r.cfg = w' at *
      clear hdd h
      obtain ⟨cfg, sys, k0, data⟩ := r
      obtain ⟨doms, e⟩ := hss.cfg
      dsimp only at e rD hwf hw hs
      subst e rD
      have := C82_synthesis_stable _ w' hw learn hss.lib hwf hc net ctrl S out hs hf hsz hpd (Or.inr hzn) hn (by rw [hfld]; exact driven_continuous hF _)
      rwa [hfld] at this)

/-- **C86, stability in discrete time.** The same for discrete time without factors and with a non-zero rounding: if the run reports success and the map driven by the returned
controller keeps the origin in the domain, then the origin is a fixed point of it and asymptotically stable. -/
theorem C86_control_stability_dt (h : AnyControlRun c w0 r m F w T hidden acts) (hc : c.base.cert = .LYAPUNOV) (hq : c.base.quad = false) (hrnd : c.base.rounding ≠ 0)
    (hllo : c.base.llo = false ∨ (LloActs hidden acts ∧ LloSteps T acts)) (hz : Vanishing acts) (fl : ℝ → ℚ)
    (gs : ℕ → Rng) (g g' : Rng) (wt : ℕ → ℕ → ℕ → ℚ) (bs : ℕ → ℕ → ℚ) (hdraw : DrawsSome fl gs r.data)
    (D : Set (Pt c.base.nVars)) (hD : Configures c.base.nVars c.base.domains "XD" D) (hn : D ∈ nhds 0) (hF : Continuous (fun z : Pt c.base.nVars × Pt m => F z.1 z.2)) :
    ∃ net S, newNet c.base.nVars hidden acts c.base.llo (certBias c.base.cert) wt bs = .ok net ∧ initData fl gs r.data = .ok S ∧
      ((∃ out, Solves r.cfg.loop (singleComponents (w.withEstimate g g' r.cfg) r.cfg true (trainedLearn T r.cfg true w.dynNum)) (net, 0) r.ctrl S out ∧
        (out.iters : ℤ) ≤ c.base.maxIters + 1 ∧ (out.found = true → driven F (rounded5 out.ctrl) 0 ∈ D →
          driven F (rounded5 out.ctrl) 0 = 0 ∧ AsympStableDT (driven F (rounded5 out.ctrl)))) ∨
      (∃ k st, Steps r.cfg.loop (singleComponents (w.withEstimate g g' r.cfg) r.cfg true (trainedLearn T r.cfg true w.dynNum))
        (initState (singleComponents (w.withEstimate g g' r.cfg) r.cfg true (trainedLearn T r.cfg true w.dynNum)) (net, 0) r.ctrl S) k st ∧
        MeetsZeroDerivative T r.cfg true w.dynNum st)) :=
  anyControl_lyap h hc true (fun _ => hrnd) hllo hz fl gs g g' wt bs hdraw
    (fun learn net ctrl S out hs hf hsz hfld hlen hpd hzn hin => by
      have hw := soundWorld_estimateK h.sound g g'
      have hss := anyControl_sets h
      have rD := hss.region .XD (by decide) (by decide) (by rintro -; simp [hc]) hD
      have hwf := hss.wf
      have hdd : (w.withEstimate g g' r.cfg).dynamics out.ctrl = w.dynamics out.ctrl := rfl
      rw [← hdd] at hfld hlen
      generalize w.withEstimate g g' r.cfg = w' at *
      clear hdd h
      obtain ⟨cfg, sys, k0, data⟩ := r
      obtain ⟨doms, e⟩ := hss.cfg
      dsimp only at e rD hwf hw hs
      subst e rD
      have := C85_synthesis_stability_dt _ w' hw learn hss.lib hwf hc hq net ctrl S out hs hf hlen hpd hzn hn (by rw [hfld]; exact driven_continuous hF _)
        (by rw [hfld]; exact hin)
      rwa [hfld] at this)

end

/-! ### two networks -/

section
variable {c : ControlConfig} {w0 : ℕ → ℕ → ℕ → ℚ} {r : ReadyControl} {m : ℕ} {F : Pt c.base.nVars → Pt m → Pt c.base.nVars}
  {w : World R Controller ((Net × ℚ) × Net)} {T : Trainer2 Controller} {hidden hidden2 : List ℕ} {acts acts2 : List ActivationType}

/-- A file with two networks, run to its end, and the guarantee of a successful run. -/
theorem anyControl2_total_with (h : AnyControlRun2 c w0 r m F w T hidden hidden2 acts acts2) (hct : c.base.cert = .STABLESAFE ∨ c.base.cert = .RAR) (fl : ℝ → ℚ)
    (gs : ℕ → Rng) (wt wt2 : ℕ → ℕ → ℕ → ℚ) (bs bs2 : ℕ → ℕ → ℚ) (hdraw : DrawsSome fl gs r.data)
    {G : LoopState ((Net × ℚ) × Net) Controller (List ℚ) (Term × Term) → Prop}
    (hG : ∀ learn net ctrl S out, Solves r.cfg.loop (doubleComponents w r.cfg learn) net ctrl S out → out.net.1.1.inputSize = c.base.nVars →
      out.net.2.inputSize = c.base.nVars → field c.base.nVars (w.dynamics out.ctrl) = driven F (rounded5 out.ctrl) → out.found = true → G out) :
    ∃ net net2 S out, newNet c.base.nVars hidden acts c.base.llo (certBias2 c.base.cert).1 wt bs = .ok net ∧
      newNet c.base.nVars hidden2 acts2 false (certBias2 c.base.cert).2 wt2 bs2 = .ok net2 ∧ initData fl gs r.data = .ok S ∧
      Solves r.cfg.loop (doubleComponents w r.cfg (trainedLearn2 T r.cfg w.dynNum)) ((net, 0), net2) r.ctrl S out ∧
      (out.iters : ℤ) ≤ c.base.maxIters + 1 ∧ (out.found = true → G out) := by
  obtain ⟨net, hn1, hn2, -⟩ := newNet_usable (n := c.base.nVars) h.net (certBias2 c.base.cert).1 wt bs
  obtain ⟨net2, hm1, hm2, -⟩ := newNet_usable (n := c.base.nVars) h.net2 (certBias2 c.base.cert).2 wt2 bs2
  obtain ⟨S, hS, hk, hw, -⟩ := C77_initial_data c w0 r h.domains h.accepted fl gs
  have hset := (readControl_inv h.accepted).2.1
  obtain ⟨d, -, -, hcheck⟩ := readSets_check hset
  have hus := accepted_usable h.domains hset
  have hlab := accepted_sets (by rcases hct with e | e <;> rw [e] <;> decide) hset
  have hcfg := ready_control_cfg h.accepted
  have hnd : (Dict.keys S).Nodup := by
    rw [hk]
    obtain ⟨D, d, -, h3, -⟩ := readSets_inv hset
    exact parseConfig_nodup h3
  obtain ⟨out, h3, h4⟩ : ∃ out, Solves r.cfg.loop (doubleComponents w r.cfg (trainedLearn2 T r.cfg w.dynNum)) ((net, 0), net2) r.ctrl S out ∧
      (out.iters : ℤ) ≤ c.base.maxIters + 1 := by
    generalize r.cfg.domains = doms at *
    rw [hcfg]
    rw [← hk] at hcheck
    exact C75_run_total_checked w ⟨c.base.lib, c.base.nVars, c.base.cert, doms, c.base.llo, c.base.rounding, c.base.quad, c.base.maxIters⟩ T h.lib hct h.iters hus hlab h.fair
      (fun i t θ hu => ⟨sameShape_usable (h.shape i t θ).1 hu.1, sameShape_usable (h.shape i t θ).2.1 hu.2⟩) ((net, 0), net2) r.ctrl S ⟨hn2, hm2⟩ hnd
      (fun l p hp => ⟨hdraw S hS l p hp, hw l p hp⟩) (Dict.keys d) hcheck
  let Q : (Net × Net) × Controller → Prop := fun θ => (Usable c.base.lib c.base.nVars θ.1.1 ∧ Usable c.base.lib c.base.nVars θ.1.2) ∧ SameController r.ctrl θ.2
  have main := (solves_guardBoth (C := doubleComponents w r.cfg (trainedLearn2 T r.cfg w.dynNum)) (Q := fun (n : (Net × ℚ) × Net) k => Q ((n.1.1, n.2), k))
      (fun st n k h0 hl => by
        obtain ⟨m, hm⟩ := trained_after2 hl
        have := afterSteps_inv (Q := Q) (step := T.step st.iters) (fun t θ hθ => ⟨⟨sameShape_usable (h.shape st.iters t θ).1 hθ.1.1,
          sameShape_usable (h.shape st.iters t θ).2.1 hθ.1.2⟩, sameController_trans hθ.2 (h.shape st.iters t θ).2.2⟩) ((st.net.1.1, st.net.2), st.ctrl) h0 m
        rw [← hm] at this
        exact this) ⟨⟨hn2, hm2⟩, sameController_refl _⟩ h3).2
  obtain ⟨e1, -, -, f0, hf0⟩ := readControl_inv h.accepted
  obtain ⟨f, hf⟩ := C77_closed_loop_shape _ _ _ _ _ main.2 f0 hf0
  have hcf := control_field e1 h.system h.inputs (by simp) hf
  exact ⟨net, net2, S, out, hn1, hm1, hS, h3, h4, hG _ _ _ _ out h3 main.1.1.1.input main.1.2.1.input (by rw [h.dynamics _ f hf]; exact hcf.1)⟩

/-- **C86, stable while safe.** -/
theorem C86_control_stable_safe (h : AnyControlRun2 c w0 r m F w T hidden hidden2 acts acts2) (hc : c.base.cert = .STABLESAFE) (fl : ℝ → ℚ)
    (gs : ℕ → Rng) (wt wt2 : ℕ → ℕ → ℕ → ℚ) (bs bs2 : ℕ → ℕ → ℚ) (hdraw : DrawsSome fl gs r.data)
    (I D U : Set (Pt c.base.nVars)) (hI : Configures c.base.nVars c.base.domains "XI" I) (hD : Configures c.base.nVars c.base.domains "XD" D) (hU : Configures c.base.nVars c.base.domains "XU" U) :
    ∃ net net2 S out, newNet c.base.nVars hidden acts c.base.llo (certBias2 c.base.cert).1 wt bs = .ok net ∧
      newNet c.base.nVars hidden2 acts2 false (certBias2 c.base.cert).2 wt2 bs2 = .ok net2 ∧ initData fl gs r.data = .ok S ∧
      Solves r.cfg.loop (doubleComponents w r.cfg (trainedLearn2 T r.cfg w.dynNum)) ((net, 0), net2) r.ctrl S out ∧ (out.iters : ℤ) ≤ c.base.maxIters + 1 ∧
      (out.found = true →
        (∀ p ∈ D, certValue c.base.rounding false out.net.2 p = 0 → noKink (roundedNet c.base.rounding out.net.2).layers.dropLast out.net.2.acts (coordList p)) →
        ∀ (T : ℝ) (ξ : ℝ → Pt c.base.nVars), Trajectory (driven F (rounded5 out.ctrl)) T ξ → ξ 0 ∈ I → (∀ t ∈ Icc 0 T, ξ t ∈ D) → ∀ t ∈ Icc 0 T, ξ t ∉ U) :=
  anyControl2_total_with h (Or.inl hc) fl gs wt wt2 bs bs2 hdraw (fun learn net ctrl S out hs s1 s2 hfld hf hk T' ξ a b d => by
    have hss : SetsRun c.base r.cfg := ⟨h.lib, h.domains, _, (readControl_inv h.accepted).2.1⟩
    have hw := h.sound
    have rI := hss.region .XI (by decide) (by decide) (by intro h; cases h) hI
    have rD := hss.region .XD (by decide) (by decide) (by rintro -; simp [hc]) hD
    have rU := hss.region .XU (by decide) (by decide) (by intro h; cases h) hU
    have hwf := hss.wf
    clear h
    obtain ⟨cfg, sys, k0, data⟩ := r
    obtain ⟨doms, e⟩ := hss.cfg
    dsimp only at e rI rD rU hwf hw hs
    subst e rI rD rU
    exact C83_synthesis_stable_safe _ w hw learn hss.lib hwf hc _ _ _ out hs hf s2 hk T' ξ (by rw [hfld]; exact a) b d)

/-- **C86, reach, avoid, remain.** -/
theorem C86_control_rar (h : AnyControlRun2 c w0 r m F w T hidden hidden2 acts acts2) (hc : c.base.cert = .RAR) (fl : ℝ → ℚ)
    (gs : ℕ → Rng) (wt wt2 : ℕ → ℕ → ℕ → ℚ) (bs bs2 : ℕ → ℕ → ℚ) (hdraw : DrawsSome fl gs r.data)
    (I S D G P : Set (Pt c.base.nVars)) (hI : Configures c.base.nVars c.base.domains "XI" I)
    (hS : Configures c.base.nVars c.base.domains "XS" S) (hD : Configures c.base.nVars c.base.domains "XD" D) (hG : Configures c.base.nVars c.base.domains "XG" G)
    (hP : Configures c.base.nVars c.base.domains "XF" P) (h1 : I ⊆ S) (h2 : I ⊆ D) (h3 : frontier S ⊆ D) :
    ∃ net net2 S0 out, newNet c.base.nVars hidden acts c.base.llo (certBias2 c.base.cert).1 wt bs = .ok net ∧
      newNet c.base.nVars hidden2 acts2 false (certBias2 c.base.cert).2 wt2 bs2 = .ok net2 ∧ initData fl gs r.data = .ok S0 ∧
      Solves r.cfg.loop (doubleComponents w r.cfg (trainedLearn2 T r.cfg w.dynNum)) ((net, 0), net2) r.ctrl S0 out ∧ (out.iters : ℤ) ≤ c.base.maxIters + 1 ∧
      (out.found = true →
        (∀ p ∈ D, certValue c.base.rounding false out.net.2 p = 0 → noKink (roundedNet c.base.rounding out.net.2).layers.dropLast out.net.2.acts (coordList p)) →
        ∃ τ : ℝ, ∀ (T : ℝ) (ξ : ℝ → Pt c.base.nVars), Trajectory (driven F (rounded5 out.ctrl)) T ξ → τ ≤ T → ξ 0 ∈ I →
        (certValue c.base.rounding false out.net.1.1 (ξ 0) < 0 ∨
          noKink (roundedNet c.base.rounding out.net.1.1).layers.dropLast out.net.1.1.acts (coordList (ξ 0))) → (∀ t ∈ Icc 0 T, ξ t ∈ D) →
        (∃ t ∈ Icc 0 τ, ξ t ∈ G) ∧ (∀ t ∈ Icc 0 T, ξ t ∈ S ∨ ∃ r ∈ Icc 0 t, ξ r ∈ G) ∧ ∀ r ∈ Icc 0 T, ξ r ∈ G → ∀ t ∈ Icc r T, ξ t ∈ P) :=
  anyControl2_total_with h (Or.inr hc) fl gs wt wt2 bs bs2 hdraw (fun learn net ctrl S0 out hs s1 s2 hfld hf hk => by
    have hss : SetsRun c.base r.cfg := ⟨h.lib, h.domains, _, (readControl_inv h.accepted).2.1⟩
    have hw := h.sound
    have ht : TakesSafeSet c.base.cert := by simp [TakesSafeSet, hc]
    have rI := hss.region .XI (by decide) (by decide) (by intro h; cases h) hI
    have rS := hss.region .XS (by decide) (by decide) (by intro h; cases h) hS
    have rD := hss.region .XD (by decide) (by decide) (by rintro -; simp [hc]) hD
    have rG := hss.region .XG (by decide) (by decide) (by intro h; cases h) hG
    have rP := hss.region .XF (by decide) (by decide) (by intro h; cases h) hP
    obtain ⟨dat, hacc⟩ := hss.accepted
    have hsets := config_reachSets c.base hss.domains _ dat hacc ht I S D hI hS hD h1 h2 h3
    have hbd : Bornology.IsBounded S := by obtain ⟨s, -, h⟩ := hS; exact setText_bounded h
    have hwf := hss.wf
    clear h hacc
    obtain ⟨cfg, sys, k0, data⟩ := r
    obtain ⟨doms, e⟩ := hss.cfg
    dsimp only at e rI rS rD rG rP hwf hw hs hsets
    subst e rI rS rD rG rP
    have := C83_synthesis_rar _ w hw learn hss.lib hwf hc hsets hbd _ _ _ out hs hf s1 s2 hk
    rw [hfld] at this
    exact this)

end

/-! ### non-vacuity -/

/-- A file for the system `u0 - x0` with a linear controller: any sets, certificate and options. -/
def exDriven (ct : CertType) (doms : List (String × String)) (nd : Option NData) (chk : CheckCfg) (llo : Bool) : ControlConfig :=
  ⟨⟨.z3, 1, ct, ["u0 - x0"], doms, nd, chk, llo, 3, false, 10⟩, [1, 1], [.IDENTITY]⟩

/-- The solver of the examples for the closed loops; the search for a level of the goal returns. -/
noncomputable def exDrivenWorld (N : Type) : World Answer Controller N := { idealWorldK N exLoops with stayOracle := (stayWorld N []).stayOracle }

theorem exDriven_ready {ct doms nd chk llo cfg data} (h : readSets (exDriven ct doms nd chk llo).base = .ok (cfg, data)) :
    readControl exWeights (exDriven ct doms nd chk llo) = .ok ⟨cfg, [.sub (.u 0) (.x 0)], exControlNet, data⟩ :=
  readControl_ok (exControl_read .z3 (Or.inl rfl)) rfl (exControl_closed .z3 (Or.inl rfl) (-1) (by decide +kernel)) h

theorem exDrivenWorld_sound (c : SynthCfg) (N : Type) : SoundWorld c (exDrivenWorld N) :=
  .smt _ rfl (fun _ => idealSolver_refutationSound) fun _ β b φ h => by
    have h : (if β = -499500 then (match idealSolver φ with | .unsat => .unsat | _ => .sat fun _ => none) else .sat fun _ => none) = Answer.unsat := h
    split_ifs at h
    split at h
    · rename_i e; exact idealSolver_sound φ (by rw [e]; rfl)
    · cases h

theorem exDrivenWorld_fair (N : Type) : FairWorld (exDrivenWorld N) 1 := by
  refine ⟨exLoops_length, fun _ x hx => hx, fun i k φ h => ?_, fun _ _ _ _ => ⟨[], rfl, fun _ => rfl, fun r hr => by cases hr⟩⟩
  have h : smtBackend.isSat (idealSolver φ) = true := h
  unfold idealSolver at h
  split at h <;> cases h

theorem exLoops_eq (k : Controller) (f) (hf : closedLoop .z3 [.sub (.u 0) (.x 0)] 1 k = .ok f) : exLoops k = f := by
  unfold exLoops
  rw [hf]

/-- Any such file that is accepted has runs as described by `AnyControlRun`, with any supported activations. -/
theorem exDriven_run {ct doms nd chk llo cfg data} (hd : DomainsDescribed (exDriven ct doms nd chk llo).base)
    (h : readSets (exDriven ct doms nd chk llo).base = .ok (cfg, data))
    (hst : ct = .RSWS → ∃ d, initialiseDomains cfg.lib cfg.nVars cfg.cert cfg.domains = .ok d ∧ ∀ V Vdot β, ∃ q, stayQueries d V Vdot β = .ok q)
    {hidden : List ℕ} {acts : List ActivationType} (hn : UsableNet .z3 llo hidden acts) :
    AnyControlRun (exDriven ct doms nd chk llo) exWeights ⟨cfg, [.sub (.u 0) (.x 0)], exControlNet, data⟩ 1 exControlField (exDrivenWorld (Net × ℚ)) exTrainerK hidden acts :=
  ⟨Or.inl rfl, hd, exControl_text _ _, by decide, exDriven_ready h, (by decide : (0 : ℤ) ≤ 10), exDrivenWorld_sound _ _, fun k f hf => exLoops_eq k f hf, exDrivenWorld_fair _,
    fun e i V Vdot => stayWorld_search (Net × ℚ) [] cfg (hst e) i V Vdot, fun _ _ _ => ⟨sameShape_refl _, sameController_refl _⟩, hn⟩

/-- A trainer of two networks and a controller that changes nothing. -/
def exTrainerK2 : Trainer2 Controller := ⟨fun _ _ θ => θ, true, true, fun _ => 0⟩

theorem exDriven_run2 {ct doms nd chk llo cfg data} (hd : DomainsDescribed (exDriven ct doms nd chk llo).base)
    (h : readSets (exDriven ct doms nd chk llo).base = .ok (cfg, data))
    {hidden hidden2 : List ℕ} {acts acts2 : List ActivationType} (hn : UsableNet .z3 llo hidden acts) (hn2 : UsableNet .z3 false hidden2 acts2) :
    AnyControlRun2 (exDriven ct doms nd chk llo) exWeights ⟨cfg, [.sub (.u 0) (.x 0)], exControlNet, data⟩ 1 exControlField (exDrivenWorld ((Net × ℚ) × Net)) exTrainerK2 hidden hidden2
      acts acts2 :=
  ⟨Or.inl rfl, hd, exControl_text _ _, by decide, exDriven_ready h, (by decide : (0 : ℤ) ≤ 10), exDrivenWorld_sound _ _, fun k f hf => exLoops_eq k f hf, exDrivenWorld_fair _,
    fun _ _ _ => ⟨sameShape_refl _, sameShape_refl _, sameController_refl _⟩, hn, hn2⟩

/-- A BarrierAlt file with ReLU units (`C86_control_safety`, `C86_control_safety_dt`). -/
example : ∃ r, AnyControlRun (exDriven .BARRIERALT [("XD", "Rectangle([-4],[4])"), ("XI", "Rectangle([-0.5],[0.5])"), ("XU", "Rectangle([2],[3])")]
      (some (.dict [("XD", 10), ("XI", 10), ("XU", 10)])) ⟨1, true, false⟩ false) exWeights r 1 exControlField (exDrivenWorld (Net × ℚ)) exTrainerK [2] [.RELU] ∧
    ∀ fl g, DrawsSome fl g r.data := by
  obtain ⟨s1, s2, s3⟩ := exConfig_sets
  obtain ⟨data, h⟩ := exConfig_readyL .z3 (Or.inl rfl) .BARRIERALT (Or.inr rfl)
  have hd : DomainsDescribed (exDriven .BARRIERALT [("XD", "Rectangle([-4],[4])"), ("XI", "Rectangle([-0.5],[0.5])"), ("XU", "Rectangle([2],[3])")]
      (some (.dict [("XD", 10), ("XI", 10), ("XU", 10)])) ⟨1, true, false⟩ false).base := by
    refine ⟨by decide, ?_⟩
    intro k s hm
    simp only [exDriven, List.mem_cons, Prod.mk.injEq, List.not_mem_nil, or_false] at hm
    rcases hm with ⟨-, rfl⟩ | ⟨-, rfl⟩ | ⟨-, rfl⟩
    exacts [⟨_, s1⟩, ⟨_, s2⟩, ⟨_, s3⟩]
  have h' := (readConfig_inv h).2
  refine ⟨_, exDriven_run hd h' (fun h => by cases h) (relu_usable _), fun fl g => C77_draws_some _ exWeights _ hd (exDriven_ready h') (by simp [exDriven]) ?_ fl g⟩
  show ∀ e ∈ [("XD", 10), ("XI", 10), ("XU", 10)], 0 < e.2
  decide

/-- Lyapunov files, without LLO and with ReLU units, with LLO and squares (`C86_control_stability`, `C86_control_stability_dt`), and the image of the origin. -/
example : (∃ r, AnyControlRun (exDriven .LYAPUNOV [("XD", "Rectangle([-1],[1])")] (some (.dict [("XD", 10)])) ⟨1, true, false⟩ false) exWeights r 1 exControlField
        (exDrivenWorld (Net × ℚ)) exTrainerK [2] [.RELU] ∧ Vanishing [.RELU] ∧ ∀ fl g, DrawsSome fl g r.data) ∧
    (∃ r, AnyControlRun (exDriven .LYAPUNOV [("XD", "Rectangle([-1],[1])")] (some (.dict [("XD", 10)])) ⟨1, true, false⟩ true) exWeights r 1 exControlField
        (exDrivenWorld (Net × ℚ)) exTrainerK [1] [.SQUARE] ∧ Vanishing [.SQUARE] ∧ LloActs [1] [.SQUARE] ∧ LloSteps exTrainerK [.SQUARE] ∧ ∀ fl g, DrawsSome fl g r.data) ∧
    Continuous (fun z : Pt 1 × Pt 1 => exControlField z.1 z.2) ∧
    (∃ D : Set (Pt 1), Configures 1 [("XD", "Rectangle([-1],[1])")] "XD" D ∧ D ∈ nhds 0) ∧ driven exControlField (rounded5 exControlNet) 0 = 0 := by
  obtain ⟨s1, s2, s3, s4⟩ := exStay_sets
  have hd : ∀ llo, DomainsDescribed (exDriven .LYAPUNOV [("XD", "Rectangle([-1],[1])")] (some (.dict [("XD", 10)])) ⟨1, true, false⟩ llo).base := by
    intro llo
    refine ⟨by simp [exDriven], ?_⟩
    intro k s hm
    simp only [exDriven, List.mem_cons, Prod.mk.injEq, List.not_mem_nil, or_false] at hm
    rw [hm.2]
    exact ⟨_, s3⟩
  refine ⟨?_, ?_, ?_, ?_, ?_⟩
  · obtain ⟨data, hr⟩ := exHalf_ready false
    have h' := (readConfig_inv hr).2
    refine ⟨_, exDriven_run (hd _) h' (fun h => by cases h) (relu_usable _), by simp [Vanishing], fun fl g => C77_draws_some _ exWeights _ (hd _) (exDriven_ready h') (Or.inl rfl) ?_ fl g⟩
    show ∀ e ∈ [("XD", 10)], 0 < e.2
    decide
  · obtain ⟨data, hr⟩ := exHalf_ready true
    have h' := (readConfig_inv hr).2
    obtain ⟨_, -, -, -, hv, ha, hst, -⟩ := exLlo_run
    refine ⟨_, exDriven_run (hd _) h' (fun h => by cases h) ⟨by simp, by simp, fun a ha => by rw [List.mem_singleton.1 ha]; exact ⟨.square, rfl, rfl⟩⟩, hv, ha,
      fun as ta e1 e2 i t θ => ?_, fun fl g => C77_draws_some _ exWeights _ (hd _) (exDriven_ready h') (Or.inl rfl) ?_ fl g⟩
    · exact hst as ta e1 e2 i t (θ.1, ())
    · show ∀ e ∈ [("XD", 10)], 0 < e.2
      decide
  · show Continuous fun (z : Pt 1 × Pt 1) (_ : Fin 1) => z.2 0 - z.1 0
    fun_prop
  · have : {p : Pt 1 | ∀ i : Fin 1, entry [-1] i ≤ p i ∧ p i ≤ entry [1] i} = (fun p : Pt 1 => p 0) ⁻¹' Icc (-1) 1 := by
      ext p; simp [entry, Fin.forall_fin_one]
    refine ⟨_, ⟨_, by simp, s3⟩, ?_⟩
    rw [this]
    exact (continuous_apply (0 : Fin 1)).continuousAt.preimage_mem_nhds (Icc_mem_nhds (by simp) (by simp))
  · have h1 : npRound 5 1 = 1 := by decide +kernel
    have h2 : npRound 5 (-1) = -1 := by decide +kernel
    have hcf := (control_field (exControl_read .z3 (Or.inl rfl)) (exControl_text false _) (by decide) (by intro h; cases h)
      (exControl_closed .z3 (Or.inl rfl) (-1) h2)).1
    show driven exControlField (rounded5 ⟨[[[1]], [[-1]]], [some .identity]⟩) 0 = 0
    rw [← hcf]
    funext i
    rw [Subsingleton.elim i 0]
    simp [field, exControlDyn, Term.eval, Term.sum, Pt.env]

/-- A region-of-attraction file (`C86_control_roa`). -/
example : ∃ r, AnyControlRun (exDriven .ROA [("XD", "Rectangle([-4],[4])"), ("XI", "Rectangle([-0.5],[0.5])")] (some (.dict [("XD", 10), ("XI", 10)])) ⟨1, true, false⟩ true)
      exWeights r 1 exControlField (exDrivenWorld (Net × ℚ)) exTrainerK [2] [.RELU] ∧ ∀ fl g, DrawsSome fl g r.data := by
  obtain ⟨s1, s2, s3⟩ := exConfig_sets
  obtain ⟨data, h⟩ := exROAConfig_ready
  have hd : DomainsDescribed (exDriven .ROA [("XD", "Rectangle([-4],[4])"), ("XI", "Rectangle([-0.5],[0.5])")] (some (.dict [("XD", 10), ("XI", 10)])) ⟨1, true, false⟩ true).base := by
    refine ⟨by decide, ?_⟩
    intro k s hm
    simp only [exDriven, List.mem_cons, Prod.mk.injEq, List.not_mem_nil, or_false] at hm
    rcases hm with ⟨-, rfl⟩ | ⟨-, rfl⟩
    exacts [⟨_, s1⟩, ⟨_, s2⟩]
  have h' := (readConfig_inv h).2
  refine ⟨_, exDriven_run hd h' (fun h => by cases h) (relu_usable _), fun fl g => C77_draws_some _ exWeights _ hd (exDriven_ready h') (by simp [exDriven]) ?_ fl g⟩
  show ∀ e ∈ [("XD", 10), ("XI", 10)], 0 < e.2
  decide

/-- A reach-and-stay file with drawn data and a search for the level that returns (`C86_control_reach`, `C86_control_reach_stay`). -/
example : ∃ r, AnyControlRun (exDriven .RSWS exStayConfig.domains exStayConfig.nData ⟨1, true, false⟩ false) exWeights r 1 exControlField (exDrivenWorld (Net × ℚ)) exTrainerK [2] [.RELU] ∧
    ∀ fl, DrawsSome fl (fun _ => zeroRng) r.data := by
  obtain ⟨s1, s2, s3, s4⟩ := exStay_sets
  have hd : DomainsDescribed (exDriven .RSWS exStayConfig.domains exStayConfig.nData ⟨1, true, false⟩ false).base := by
    refine ⟨by decide, ?_⟩
    intro k s hm
    simp only [exDriven, exStayConfig, List.mem_cons, Prod.mk.injEq, List.not_mem_nil, or_false] at hm
    rcases hm with ⟨-, rfl⟩ | ⟨-, rfl⟩ | ⟨-, rfl⟩ | ⟨-, rfl⟩
    exacts [⟨_, s1⟩, ⟨_, s2⟩, ⟨_, s3⟩, ⟨_, s4⟩]
  have h' := (readConfig_inv exStay_ready_data).2
  exact ⟨_, exDriven_run hd h' (fun _ => ⟨_, rfl, fun V Vdot β => ⟨_, rfl⟩⟩) (relu_usable _), exStay_draws⟩

/-- StableSafe and reach-avoid-remain files with ReLU units in both networks (`C86_control_stable_safe`, `C86_control_rar`). -/
example : (∃ r, AnyControlRun2 (exDriven .STABLESAFE exSSConfig.domains exSSConfig.nData ⟨1, true, false⟩ true) exWeights r 1 exControlField (exDrivenWorld ((Net × ℚ) × Net)) exTrainerK2
      [2] [2] [.RELU] [.RELU] ∧ ∀ fl g, DrawsSome fl g r.data) ∧
    ∃ r, AnyControlRun2 (exDriven .RAR exRARConfig.domains exRARConfig.nData ⟨1, true, false⟩ false) exWeights r 1 exControlField (exDrivenWorld ((Net × ℚ) × Net)) exTrainerK2
      [2] [2] [.RELU] [.RELU] := by
  constructor
  · obtain ⟨r, w, learn, hr, -⟩ := exSSConfig_run
    have h' := (readConfig_inv hr.accepted).2
    have hd : DomainsDescribed (exDriven .STABLESAFE exSSConfig.domains exSSConfig.nData ⟨1, true, false⟩ true).base := ⟨hr.domains.1, hr.domains.2⟩
    refine ⟨_, exDriven_run2 hd h' (relu_usable _) (relu_usable _), fun fl g => C77_draws_some _ exWeights _ hd (exDriven_ready h') (by simp [exDriven]) ?_ fl g⟩
    show ∀ e ∈ [("XD", 10), ("XI", 10), ("XU", 10)], 0 < e.2
    decide
  · obtain ⟨r, w, learn, hr, -⟩ := exRARConfig_run
    have h' := (readConfig_inv hr.accepted).2
    have hd : DomainsDescribed (exDriven .RAR exRARConfig.domains exRARConfig.nData ⟨1, true, false⟩ false).base := ⟨hr.domains.1, hr.domains.2⟩
    exact ⟨_, exDriven_run2 hd h' (relu_usable _) (relu_usable _)⟩

end Fossil

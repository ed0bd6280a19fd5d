/-
C91: problems that have no solution are never reported solved, whatever the training, the random numbers and the solver's models; and (for C84, C86) the
safety that a Barrier run with arbitrary activations gives.
-/
import Verif.Props.C90_Ring

namespace Fossil
open Spec Set Filter Topology

variable {R K : Type} {n : ℕ}

/-! ### Barrier files with arbitrary activations -/

section
variable {c : ConfigText} {r : Ready} {F : Pt c.nVars → Pt c.nVars} {w : World R Unit (Net × ℚ)} {T : Trainer Unit} {hidden : List ℕ} {acts : List ActivationType}

/-- **C84, safety for Barrier.** For every accepted Barrier file, whatever supported activations: the run returns after at most CEGIS_MAX_ITERS + 1 passes, and if it reports
success and no kink of the returned network lies on its zero level in the domain, no trajectory from the initial set, inside the domain, reaches the unsafe set. (Without the
condition this is false: `C45_relu_barrier_unsound`.) -/
theorem C84_file_barrier (h : AnyFileRun c r F w T hidden acts) (hc : c.cert = .BARRIER) (fl : ℝ → ℚ)
    (gs : ℕ → Rng) (g g' : Rng) (wt : ℕ → ℕ → ℕ → ℚ) (bs : ℕ → ℕ → ℚ) (hdraw : DrawsSome fl gs r.data)
    (I D U : Set (Pt c.nVars)) (hI : Configures c.nVars c.domains "XI" I) (hD : Configures c.nVars c.domains "XD" D) (hU : Configures c.nVars c.domains "XU" U) :
    ∃ net S out, newNet c.nVars hidden acts c.llo (certBias c.cert) wt bs = .ok net ∧ initData fl gs r.data = .ok S ∧
      Solves r.cfg.loop (singleComponents (w.withEstimate g g' r.cfg) r.cfg false (trainedLearn T r.cfg false w.dynNum)) (net, 0) () S out ∧
      (out.iters : ℤ) ≤ c.maxIters + 1 ∧
      (out.found = true →
        (∀ p ∈ D, certValue c.rounding c.quad out.net.1 p = 0 → noKink (roundedNet c.rounding out.net.1).layers.dropLast out.net.1.acts (coordList p)) →
        ∀ (T : ℝ) (ξ : ℝ → Pt c.nVars), Trajectory F T ξ → ξ 0 ∈ I → (∀ t ∈ Icc 0 T, ξ t ∈ D) → ∀ t ∈ Icc 0 T, ξ t ∉ U) :=
  anyFile_total_with h (by rw [hc]; refine ⟨?_, ?_, ?_⟩ <;> intro h <;> cases h) (by rw [hc]; decide)
    false (fun h => by cases h) fl gs g g' wt bs hdraw
    (fun learn net S out hr hs hf hk T' ξ a b d => by
      have hsz := anyRun_size hr hs hf
      have hw := hr.sound
      have hss := anyRun_sets hr
      have hfld := anyRun_field hr out.ctrl
      have rI := hss.region .XI (by decide) (by decide) (by intro h; cases h) hI
      have rD := hss.region .XD (by decide) (by decide) (by rintro -; simp [hc]) hD
      have rU := hss.region .XU (by decide) (by decide) (by intro h; cases h) hU
      have hwf := hss.wf
      generalize w.withEstimate g g' r.cfg = w' at *
      clear hr h hdraw
      obtain ⟨cfg, f, data⟩ := r
      obtain ⟨doms, e⟩ := hss.cfg
      dsimp only at e rI rD rU hwf hw hs
      subst e rI rD rU
      obtain ⟨gr, hq, ha⟩ := run_accepted_any hw hss.lib hwf hs hf
      exact C45_relu_barrier_safety_partial _ hss.lib hwf hsz hc gr hq ha hk T' ξ (by
        show Trajectory (field c.nVars (w'.dynamics out.ctrl)) T' ξ
        rw [hfld]; exact a) b d)

end

section
variable {c : ControlConfig} {w0 : ℕ → ℕ → ℕ → ℚ} {r : ReadyControl} {m : ℕ} {F : Pt c.base.nVars → Pt m → Pt c.base.nVars} {w : World R Controller (Net × ℚ)}
  {T : Trainer Controller} {hidden : List ℕ} {acts : List ActivationType}

/-- **C86, safety for Barrier.** The same for the written system driven by the returned controller (rounded to five decimals). -/
theorem C86_control_barrier (h : AnyControlRun c w0 r m F w T hidden acts) (hc : c.base.cert = .BARRIER) (fl : ℝ → ℚ)
    (gs : ℕ → Rng) (g g' : Rng) (wt : ℕ → ℕ → ℕ → ℚ) (bs : ℕ → ℕ → ℚ) (hdraw : DrawsSome fl gs r.data)
    (I D U : Set (Pt c.base.nVars)) (hI : Configures c.base.nVars c.base.domains "XI" I) (hD : Configures c.base.nVars c.base.domains "XD" D) (hU : Configures c.base.nVars c.base.domains "XU" U) :
    ∃ net S out, newNet c.base.nVars hidden acts c.base.llo (certBias c.base.cert) wt bs = .ok net ∧ initData fl gs r.data = .ok S ∧
      Solves r.cfg.loop (singleComponents (w.withEstimate g g' r.cfg) r.cfg false (trainedLearn T r.cfg false w.dynNum)) (net, 0) r.ctrl S out ∧
      (out.iters : ℤ) ≤ c.base.maxIters + 1 ∧
      (out.found = true →
        (∀ p ∈ D, certValue c.base.rounding c.base.quad out.net.1 p = 0 →
          noKink (roundedNet c.base.rounding out.net.1).layers.dropLast out.net.1.acts (coordList p)) →
        ∀ (T : ℝ) (ξ : ℝ → Pt c.base.nVars), Trajectory (driven F (rounded5 out.ctrl)) T ξ → ξ 0 ∈ I → (∀ t ∈ Icc 0 T, ξ t ∈ D) → ∀ t ∈ Icc 0 T, ξ t ∉ U) :=
  anyControl_total_with h (by rw [hc]; refine ⟨?_, ?_, ?_⟩ <;> intro h <;> cases h) (by rw [hc]; decide)
    false (fun h => by cases h) fl gs g g' wt bs hdraw
    (fun learn net ctrl S out hs hf hsz hfld hlen hk T' ξ a b d => by
      have hw := soundWorld_estimateK h.sound g g'
      have hss := anyControl_sets h
      have rI := hss.region .XI (by decide) (by decide) (by intro h; cases h) hI
      have rD := hss.region .XD (by decide) (by decide) (by rintro -; simp [hc]) hD
      have rU := hss.region .XU (by decide) (by decide) (by intro h; cases h) hU
      have hwf := hss.wf
      have hdd : (w.withEstimate g g' r.cfg).dynamics out.ctrl = w.dynamics out.ctrl := rfl
      rw [← hdd] at hfld
      generalize w.withEstimate g g' r.cfg = w' at *
      clear hdd h hdraw
      obtain ⟨cfg, sys, k0, data⟩ := r
      obtain ⟨doms, e⟩ := hss.cfg
      dsimp only at e rI rD rU hwf hw hs
      subst e rI rD rU
      obtain ⟨gr, hq, ha⟩ := run_accepted_any hw hss.lib hwf hs hf
      exact C45_relu_barrier_safety_partial _ hss.lib hwf hsz hc gr hq ha hk T' ξ (by
        show Trajectory (field c.base.nVars (w'.dynamics out.ctrl)) T' ξ
        rw [hfld]; exact a) b d)

end

/-! ### overlapping sets -/

/-- The verified conditions of the two barrier certificates exclude a point common to the three sets. -/
theorem barrier_overlap {lib : Lib} {n : ℕ} {cert : CertType} (hc : cert = .BARRIER ∨ cert = .BARRIERALT) {doms : Dict String PySet} (hlib : lib = .z3 ∨ lib = .dreal)
    (hw : WFDomains n doms) {d V Vdot llo β groups} (h1 : initialiseDomains lib n cert doms = .ok d)
    (h3 : singleConstraints cert n llo β d V Vdot = .ok groups) (ha : Accepted n groups) (p : Pt n)
    (hI : p ∈ region n doms XI) (hD : p ∈ region n doms XD) : p ∉ region n doms XU := by
  intro hU
  have h1' := initialise_single h1 (by rcases hc with rfl | rfl <;> simp)
  rcases hc with rfl | rfl
  · obtain ⟨dom, init, un, hd, hi, hu, H1, H2, -⟩ := barrier_inv (n := n) h3 (accepted_refutes (barrier_distinct h3) ha)
    have a := H1 p ((entry_region hlib hw h1' (by decide) hi p).2 hI) ((entry_region hlib hw h1' (by decide) hd p).2 hD)
    have b := H2 p ((entry_region hlib hw h1' (by decide) hu p).2 hU) ((entry_region hlib hw h1' (by decide) hd p).2 hD)
    linarith
  · obtain ⟨dom, init, un, hd, hi, hu, H1, H2, -⟩ := barrierAlt_inv (n := n) h3 (accepted_refutes (barrierAlt_distinct h3) ha)
    have a := H1 p ((entry_region hlib hw h1' (by decide) hi p).2 hI) ((entry_region hlib hw h1' (by decide) hd p).2 hD)
    have b := H2 p ((entry_region hlib hw h1' (by decide) hu p).2 hU) ((entry_region hlib hw h1' (by decide) hd p).2 hD)
    linarith

/-- **C91 (synthesis).** If an initial point of the domain is unsafe, no barrier run, in either time, with any training and any controller, reports success. -/
theorem C91_synthesis_overlap (c : SynthCfg) (w : World R K (Net × ℚ)) (hw : SoundWorld c w) (learn) (discrete : Bool)
    (hlib : c.lib = .z3 ∨ c.lib = .dreal) (hwf : WFDomains c.nVars c.domains) (hc : c.cert = .BARRIER ∨ c.cert = .BARRIERALT) (net ctrl S out)
    (h : Solves c.loop (singleComponents w c discrete learn) net ctrl S out) (p : Pt c.nVars)
    (hI : p ∈ region c.nVars c.domains XI) (hD : p ∈ region c.nVars c.domains XD) (hU : p ∈ region c.nVars c.domains XU) : out.found = false := by
  by_contra hne
  have hf : out.found = true := by simpa using hne
  cases discrete with
  | false =>
    obtain ⟨g, hq, ha⟩ := run_accepted_any hw hlib hwf h hf
    obtain ⟨d, V, Vdot, h1, -, h3⟩ := queriesCT_inv hq
    exact barrier_overlap hc hlib hwf h1 h3 ha p hI hD hU
  | true =>
    obtain ⟨g, hq, ha⟩ := run_accepted_dt_any hw hlib hwf h hf
    obtain ⟨d, V, Vdot, h1, -, h3⟩ := queriesDT_inv hq
    exact barrier_overlap hc hlib hwf h1 h3 ha p hI hD hU

section
variable {c : ConfigText} {r : Ready} {F : Pt c.nVars → Pt c.nVars} {w : World R Unit (Net × ℚ)} {T : Trainer Unit} {hidden : List ℕ} {acts : List ActivationType}

/-- **C91 (file, overlap).** A barrier file in which a point of the domain is both initial and unsafe: every run ends, and none reports success. -/
theorem C91_file_overlap (h : AnyFileRun c r F w T hidden acts) (hc : c.cert = .BARRIER ∨ c.cert = .BARRIERALT) (discrete : Bool) (hrnd : discrete = true → c.rounding ≠ 0) (fl : ℝ → ℚ)
    (gs : ℕ → Rng) (g g' : Rng) (wt : ℕ → ℕ → ℕ → ℚ) (bs : ℕ → ℕ → ℚ) (hdraw : DrawsSome fl gs r.data)
    (I D U : Set (Pt c.nVars)) (hI : Configures c.nVars c.domains "XI" I) (hD : Configures c.nVars c.domains "XD" D) (hU : Configures c.nVars c.domains "XU" U)
    (hov : (I ∩ D ∩ U).Nonempty) :
    ∃ net S out, newNet c.nVars hidden acts c.llo (certBias c.cert) wt bs = .ok net ∧ initData fl gs r.data = .ok S ∧
      Solves r.cfg.loop (singleComponents (w.withEstimate g g' r.cfg) r.cfg discrete (trainedLearn T r.cfg discrete w.dynNum)) (net, 0) () S out ∧
      (out.iters : ℤ) ≤ c.maxIters + 1 ∧ out.found = false := by
  obtain ⟨net, S, out, h1, h2, h3, h4, h5⟩ := anyFile_total_with (G := fun _ => False) h (by rcases hc with e | e <;> rw [e] <;> refine ⟨?_, ?_, ?_⟩ <;> intro h <;> cases h)
    (by rcases hc with e | e <;> rw [e] <;> decide) discrete hrnd fl gs g g' wt bs hdraw
    (fun learn net S out hr hs hf => by
      have hw := hr.sound
      have hss := anyRun_sets hr
      have rI := hss.region .XI (by decide) (by decide) (by intro h; cases h) hI
      have rD := hss.region .XD (by decide) (by decide) (by rintro -; rcases hc with e | e <;> simp [e]) hD
      have rU := hss.region .XU (by decide) (by decide) (by intro h; cases h) hU
      have hwf := hss.wf
      generalize w.withEstimate g g' r.cfg = w' at *
      clear hr h hdraw
      obtain ⟨cfg, f, data⟩ := r
      obtain ⟨doms, e⟩ := hss.cfg
      dsimp only at e rI rD rU hwf hw hs
      subst e rI rD rU
      obtain ⟨p, ⟨hpI, hpD⟩, hpU⟩ := hov
      have := C91_synthesis_overlap _ w' hw learn discrete hss.lib hwf hc _ _ _ out hs p hpI hpD hpU
      rw [hf] at this
      cases this)
  exact ⟨net, S, out, h1, h2, h3, h4, by simpa using h5⟩

/-- **C91 (file, unsafe path).** A BarrierAlt file whose vector field has a trajectory in the domain from the initial to the unsafe set: every run ends, and none reports success,
whatever the activations. -/
theorem C91_file_unsafe_path (h : AnyFileRun c r F w T hidden acts) (hc : c.cert = .BARRIERALT) (fl : ℝ → ℚ)
    (gs : ℕ → Rng) (g g' : Rng) (wt : ℕ → ℕ → ℕ → ℚ) (bs : ℕ → ℕ → ℚ) (hdraw : DrawsSome fl gs r.data)
    (I D U : Set (Pt c.nVars)) (hI : Configures c.nVars c.domains "XI" I) (hD : Configures c.nVars c.domains "XD" D) (hU : Configures c.nVars c.domains "XU" U)
    (T' : ℝ) (hT : 0 ≤ T') (ξ : ℝ → Pt c.nVars) (hξ : Trajectory F T' ξ) (h0 : ξ 0 ∈ I) (hin : ∀ t ∈ Icc 0 T', ξ t ∈ D) (h1 : ξ T' ∈ U) :
    ∃ net S out, newNet c.nVars hidden acts c.llo (certBias c.cert) wt bs = .ok net ∧ initData fl gs r.data = .ok S ∧
      Solves r.cfg.loop (singleComponents (w.withEstimate g g' r.cfg) r.cfg false (trainedLearn T r.cfg false w.dynNum)) (net, 0) () S out ∧
      (out.iters : ℤ) ≤ c.maxIters + 1 ∧ out.found = false := by
  obtain ⟨net, S, out, e1, e2, e3, e4, e5⟩ := C84_file_safety h hc fl gs g g' wt bs hdraw I D U hI hD hU
  exact ⟨net, S, out, e1, e2, e3, e4, by
    by_contra hf
    exact e5 (by simpa using hf) T' ξ hξ h0 hin T' ⟨hT, le_rfl⟩ h1⟩

/-- **C91 (file, closed trajectory).** A Lyapunov file whose vector field has a closed trajectory (an equilibrium is one) in the domain, off the origin: no run reports success,
whatever the activations. -/
theorem C91_file_closed (h : AnyFileRun c r F w T hidden acts) (hc : c.cert = .LYAPUNOV) (fl : ℝ → ℚ)
    (gs : ℕ → Rng) (g g' : Rng) (wt : ℕ → ℕ → ℕ → ℚ) (bs : ℕ → ℕ → ℚ) (hdraw : DrawsSome fl gs r.data)
    (D : Set (Pt c.nVars)) (hD : Configures c.nVars c.domains "XD" D) (hF : Continuous F)
    (T' : ℝ) (hT : 0 < T') (ξ : ℝ → Pt c.nVars) (hξ : Trajectory F T' ξ) (hin : ∀ t ∈ Icc 0 T', ξ t ∈ D ∧ ξ t ≠ 0) (hcl : ξ T' = ξ 0) :
    ∃ net S, newNet c.nVars hidden acts c.llo (certBias c.cert) wt bs = .ok net ∧ initData fl gs r.data = .ok S ∧
      ((∃ out, Solves r.cfg.loop (singleComponents (w.withEstimate g g' r.cfg) r.cfg false (trainedLearn T r.cfg false w.dynNum)) (net, 0) () S out ∧
        (out.iters : ℤ) ≤ c.maxIters + 1 ∧ out.found = false) ∨
      (∃ k st, Steps r.cfg.loop (singleComponents (w.withEstimate g g' r.cfg) r.cfg false (trainedLearn T r.cfg false w.dynNum))
        (initState (singleComponents (w.withEstimate g g' r.cfg) r.cfg false (trainedLearn T r.cfg false w.dynNum)) (net, 0) () S) k st ∧
        MeetsZeroDerivative T r.cfg false w.dynNum st)) := by
  obtain ⟨net, S, e1, e2, e3⟩ := C90_file h hc fl gs g g' wt bs hdraw D hD hF
  refine ⟨net, S, e1, e2, e3.imp_left ?_⟩
  rintro ⟨out, o1, o2, o3⟩
  refine ⟨out, o1, o2, ?_⟩
  by_contra hf
  have := (o3 (by simpa using hf)).descends T' ξ hξ hin ⟨le_rfl, hT.le⟩ ⟨hT.le, le_rfl⟩ hT
  dsimp only at this
  rw [hcl] at this
  exact lt_irrefl _ this

/-- **C91 (file, periodic points).** The same in discrete time: a periodic point (a fixed point is one) whose orbit lies in the domain, off the origin. -/
theorem C91_file_periodic (h : AnyFileRun c r F w T hidden acts) (hc : c.cert = .LYAPUNOV) (hq : c.quad = false) (hrnd : c.rounding ≠ 0) (fl : ℝ → ℚ)
    (gs : ℕ → Rng) (g g' : Rng) (wt : ℕ → ℕ → ℕ → ℚ) (bs : ℕ → ℕ → ℚ) (hdraw : DrawsSome fl gs r.data)
    (D : Set (Pt c.nVars)) (hD : Configures c.nVars c.domains "XD" D) (hF : Continuous F)
    (p : Pt c.nVars) (m : ℕ) (hm : 0 < m) (hin : ∀ k < m, F^[k] p ∈ D ∧ F^[k] p ≠ 0) (hcl : F^[m] p = p) :
    ∃ net S, newNet c.nVars hidden acts c.llo (certBias c.cert) wt bs = .ok net ∧ initData fl gs r.data = .ok S ∧
      ((∃ out, Solves r.cfg.loop (singleComponents (w.withEstimate g g' r.cfg) r.cfg true (trainedLearn T r.cfg true w.dynNum)) (net, 0) () S out ∧
        (out.iters : ℤ) ≤ c.maxIters + 1 ∧ out.found = false) ∨
      (∃ k st, Steps r.cfg.loop (singleComponents (w.withEstimate g g' r.cfg) r.cfg true (trainedLearn T r.cfg true w.dynNum))
        (initState (singleComponents (w.withEstimate g g' r.cfg) r.cfg true (trainedLearn T r.cfg true w.dynNum)) (net, 0) () S) k st ∧
        MeetsZeroDerivative T r.cfg true w.dynNum st)) := by
  obtain ⟨net, S, e1, e2, e3⟩ := C90_file_dt h hc hq hrnd fl gs g g' wt bs hdraw D hD hF
  refine ⟨net, S, e1, e2, e3.imp_left ?_⟩
  rintro ⟨out, o1, o2, o3⟩
  refine ⟨out, o1, o2, ?_⟩
  by_contra hf
  have H := (o3 (by simpa using hf)).descends (fun k => F^[k] p) (fun k => Function.iterate_succ_apply' F k p)
  have key : ∀ k, k ≤ m → 0 < k → certValue c.rounding false out.net.1 (F^[k] p) < certValue c.rounding false out.net.1 p := by
    intro k
    induction k with
    | zero => intro _ h; exact absurd h (lt_irrefl _)
    | succ k ih =>
      intro hk _
      have h1 := H k (hin k (by omega)).1 (hin k (by omega)).2
      rcases Nat.eq_zero_or_pos k with rfl | hpos
      · exact h1
      · exact h1.trans (ih (by omega) hpos)
  have := key m le_rfl hm
  rw [hcl] at this
  exact lt_irrefl _ this

/-- **C91 (file, a goal that is missed).** A reach file (XI inside XS and XD, the frontier of XS inside XD) with a trajectory from the initial set that misses the goal for all
times, or one that leaves the safe set before it meets the goal: no run reports success. -/
theorem C91_file_missed_goal (h : FileRun c r F w T hidden acts) (hc : c.cert = .RWS ∨ c.cert = .RWA ∨ c.cert = .RSWS ∨ c.cert = .RSWA) (fl : ℝ → ℚ)
    (gs : ℕ → Rng) (g g' : Rng) (wt : ℕ → ℕ → ℕ → ℚ) (bs : ℕ → ℕ → ℚ) (hdraw : DrawsSome fl gs r.data)
    (I S D G : Set (Pt c.nVars)) (hI : Configures c.nVars c.domains "XI" I) (hS : Configures c.nVars c.domains "XS" S)
    (hD : Configures c.nVars c.domains "XD" D) (hG : Configures c.nVars c.domains "XG" G) (h1 : I ⊆ S) (h2 : I ⊆ D) (h3 : frontier S ⊆ D)
    (ξ : ℝ → Pt c.nVars) (hξ : ∀ T, Trajectory F T ξ) (h0 : ξ 0 ∈ I)
    (hmiss : (∀ t, 0 ≤ t → ξ t ∉ G) ∨ ∃ t, 0 ≤ t ∧ ξ t ∉ S ∧ ∀ r ∈ Icc 0 t, ξ r ∉ G) :
    ∃ net S0 out, newNet c.nVars hidden acts c.llo (certBias c.cert) wt bs = .ok net ∧ initData fl gs r.data = .ok S0 ∧
      Solves r.cfg.loop (singleComponents (w.withEstimate g g' r.cfg) r.cfg false (trainedLearn T r.cfg false w.dynNum)) (net, 0) () S0 out ∧
      (out.iters : ℤ) ≤ c.maxIters + 1 ∧ out.found = false := by
  obtain ⟨net, S0, out, e1, e2, e3, e4, e5⟩ := C76_file_reach h hc fl gs g g' wt bs hdraw I S D G hI hS hD hG h1 h2 h3
  refine ⟨net, S0, out, e1, e2, e3, e4, ?_⟩
  by_contra hf
  obtain ⟨τ, H⟩ := e5 (by simpa using hf)
  rcases hmiss with hm | ⟨t, ht, hS', hm⟩
  · obtain ⟨⟨t, ht, hg⟩, -⟩ := H τ ξ (hξ _) le_rfl h0
    exact hm t ht.1 hg
  · obtain ⟨-, H'⟩ := H (max τ t) ξ (hξ _) (le_max_left _ _) h0
    rcases H' t ⟨ht, le_max_right _ _⟩ with h' | ⟨r, hr, hg⟩
    · exact hS' h'
    · exact hm r hr hg

/-- **C91 (file, region of attraction).** A ROA file with LLO whose vector field has a closed trajectory (an equilibrium is one) through the initial set that stays farther than 0.01
from the origin: no run reports success. -/
theorem C91_file_roa_closed (h : FileRun c r F w T hidden acts) (hc : c.cert = .ROA) (hllo : c.llo = true) (fl : ℝ → ℚ)
    (gs : ℕ → Rng) (g g' : Rng) (wt : ℕ → ℕ → ℕ → ℚ) (bs : ℕ → ℕ → ℚ) (hdraw : DrawsSome fl gs r.data)
    (I : Set (Pt c.nVars)) (hI : Configures c.nVars c.domains "XI" I)
    (T' : ℝ) (hT : 0 < T') (ξ : ℝ → Pt c.nVars) (hξ : Trajectory F T' ξ) (h0 : ξ 0 ∈ I) (hfar : ∀ t ∈ Icc 0 T', (1/100)^2 < normSq (ξ t)) (hcl : ξ T' = ξ 0) :
    ∃ net S out, newNet c.nVars hidden acts c.llo (certBias c.cert) wt bs = .ok net ∧ initData fl gs r.data = .ok S ∧
      Solves r.cfg.loop (singleComponents (w.withEstimate g g' r.cfg) r.cfg false (trainedLearn T r.cfg false w.dynNum)) (net, 0) () S out ∧
      (out.iters : ℤ) ≤ c.maxIters + 1 ∧ out.found = false := by
  obtain ⟨net, S, out, e1, e2, e3, e4, e5⟩ := fileRun_total_with (G := fun _ => False) h (by rw [hc]; refine ⟨?_, ?_, ?_⟩ <;> intro h <;> cases h) (by rw [hc]; decide)
    false (fun h => by cases h) fl gs g g' wt bs hdraw
    (fun learn net S0 out hr hs hf => by
      obtain ⟨-, b⟩ := C56_config_roa c r F _ learn hr hc I hI _ _ _ out hs hf
      have := (b T' ξ hξ hT.le h0 hfar).2 hllo ⟨le_rfl, hT.le⟩ ⟨hT.le, le_rfl⟩ hT
      dsimp only at this
      rw [hcl] at this
      exact lt_irrefl _ this)
  exact ⟨net, S, out, e1, e2, e3, e4, by simpa using e5⟩

end

section
variable {c : ConfigText} {r : Ready} {F : Pt c.nVars → Pt c.nVars} {w : World R Unit ((Net × ℚ) × Net)} {T : Trainer2 Unit} {hidden hidden2 : List ℕ} {acts acts2 : List ActivationType}

/-- **C91 (file, StableSafe).** A StableSafe file with a trajectory in the domain from the initial to the unsafe set: no run reports success. -/
theorem C91_file_stable_safe (h : FileRun2 c r F w T hidden hidden2 acts acts2) (hc : c.cert = .STABLESAFE) (fl : ℝ → ℚ)
    (gs : ℕ → Rng) (wt wt2 : ℕ → ℕ → ℕ → ℚ) (bs bs2 : ℕ → ℕ → ℚ) (hdraw : DrawsSome fl gs r.data)
    (I D U : Set (Pt c.nVars)) (hI : Configures c.nVars c.domains "XI" I) (hD : Configures c.nVars c.domains "XD" D) (hU : Configures c.nVars c.domains "XU" U)
    (T' : ℝ) (hT : 0 ≤ T') (ξ : ℝ → Pt c.nVars) (hξ : Trajectory F T' ξ) (h0 : ξ 0 ∈ I) (hin : ∀ t ∈ Icc 0 T', ξ t ∈ D) (h1 : ξ T' ∈ U) :
    ∃ net net2 S out, newNet c.nVars hidden acts c.llo (certBias2 c.cert).1 wt bs = .ok net ∧
      newNet c.nVars hidden2 acts2 false (certBias2 c.cert).2 wt2 bs2 = .ok net2 ∧ initData fl gs r.data = .ok S ∧
      Solves r.cfg.loop (doubleComponents w r.cfg (trainedLearn2 T r.cfg w.dynNum)) ((net, 0), net2) () S out ∧ (out.iters : ℤ) ≤ c.maxIters + 1 ∧ out.found = false := by
  obtain ⟨net, net2, S, out, e1, e2, e3, e4, e5, e6⟩ := C76_file_stable_safe h hc fl gs wt wt2 bs bs2 hdraw I D U hI hD hU
  exact ⟨net, net2, S, out, e1, e2, e3, e4, e5, by
    by_contra hf
    exact e6 (by simpa using hf) T' ξ hξ h0 hin T' ⟨hT, le_rfl⟩ h1⟩

/-- **C91 (file, RAR).** A reach-avoid-remain file with a trajectory in the domain from the initial set that misses the goal for all times, or leaves the final set after a visit to
the goal: no run reports success. -/
theorem C91_file_rar (h : FileRun2 c r F w T hidden hidden2 acts acts2) (hc : c.cert = .RAR) (fl : ℝ → ℚ)
    (gs : ℕ → Rng) (wt wt2 : ℕ → ℕ → ℕ → ℚ) (bs bs2 : ℕ → ℕ → ℚ) (hdraw : DrawsSome fl gs r.data)
    (I S D G P : Set (Pt c.nVars)) (hI : Configures c.nVars c.domains "XI" I)
    (hS : Configures c.nVars c.domains "XS" S) (hD : Configures c.nVars c.domains "XD" D) (hG : Configures c.nVars c.domains "XG" G)
    (hP : Configures c.nVars c.domains "XF" P) (h1 : I ⊆ S) (h2 : I ⊆ D) (h3 : frontier S ⊆ D)
    (ξ : ℝ → Pt c.nVars) (hξ : ∀ T, Trajectory F T ξ) (h0 : ξ 0 ∈ I) (hin : ∀ t, 0 ≤ t → ξ t ∈ D)
    (hmiss : (∀ t, 0 ≤ t → ξ t ∉ G) ∨ ∃ s t, 0 ≤ s ∧ s ≤ t ∧ ξ s ∈ G ∧ ξ t ∉ P) :
    ∃ net net2 S0 out, newNet c.nVars hidden acts c.llo (certBias2 c.cert).1 wt bs = .ok net ∧
      newNet c.nVars hidden2 acts2 false (certBias2 c.cert).2 wt2 bs2 = .ok net2 ∧ initData fl gs r.data = .ok S0 ∧
      Solves r.cfg.loop (doubleComponents w r.cfg (trainedLearn2 T r.cfg w.dynNum)) ((net, 0), net2) () S0 out ∧ (out.iters : ℤ) ≤ c.maxIters + 1 ∧ out.found = false := by
  obtain ⟨net, net2, S0, out, e1, e2, e3, e4, e5, e6⟩ := C76_file_rar h hc fl gs wt wt2 bs bs2 hdraw I S D G P hI hS hD hG hP h1 h2 h3
  refine ⟨net, net2, S0, out, e1, e2, e3, e4, e5, ?_⟩
  by_contra hf
  obtain ⟨τ, H⟩ := e6 (by simpa using hf)
  rcases hmiss with hm | ⟨s, t, hs, hst, hg, hp⟩
  · obtain ⟨⟨t, ht, hg⟩, -⟩ := H τ ξ (hξ _) le_rfl h0 fun t ht => hin t ht.1
    exact hm t ht.1 hg
  · obtain ⟨-, -, H'⟩ := H (max τ t) ξ (hξ _) (le_max_left _ _) h0 fun t ht => hin t ht.1
    exact hp (H' s ⟨hs, hst.trans (le_max_right _ _)⟩ hg t ⟨hst, le_max_right _ _⟩)

end

section
variable {c : ControlConfig} {w0 : ℕ → ℕ → ℕ → ℚ} {r : ReadyControl} {m : ℕ} {F : Pt c.base.nVars → Pt m → Pt c.base.nVars} {w : World R Controller (Net × ℚ)}
  {T : Trainer Controller} {hidden : List ℕ} {acts : List ActivationType}

/-- **C91 (controller file, overlap).** No controller helps when a point of the domain is both initial and unsafe. -/
theorem C91_control_overlap (h : AnyControlRun c w0 r m F w T hidden acts) (hc : c.base.cert = .BARRIER ∨ c.base.cert = .BARRIERALT) (discrete : Bool)
    (hrnd : discrete = true → c.base.rounding ≠ 0) (fl : ℝ → ℚ)
    (gs : ℕ → Rng) (g g' : Rng) (wt : ℕ → ℕ → ℕ → ℚ) (bs : ℕ → ℕ → ℚ) (hdraw : DrawsSome fl gs r.data)
    (I D U : Set (Pt c.base.nVars)) (hI : Configures c.base.nVars c.base.domains "XI" I) (hD : Configures c.base.nVars c.base.domains "XD" D) (hU : Configures c.base.nVars c.base.domains "XU" U)
    (hov : (I ∩ D ∩ U).Nonempty) :
    ∃ net S out, newNet c.base.nVars hidden acts c.base.llo (certBias c.base.cert) wt bs = .ok net ∧ initData fl gs r.data = .ok S ∧
      Solves r.cfg.loop (singleComponents (w.withEstimate g g' r.cfg) r.cfg discrete (trainedLearn T r.cfg discrete w.dynNum)) (net, 0) r.ctrl S out ∧
      (out.iters : ℤ) ≤ c.base.maxIters + 1 ∧ out.found = false := by
  obtain ⟨net, S, out, h1, h2, h3, h4, h5⟩ := anyControl_total_with (G := fun _ => False) h (by rcases hc with e | e <;> rw [e] <;> refine ⟨?_, ?_, ?_⟩ <;> intro h <;> cases h)
    (by rcases hc with e | e <;> rw [e] <;> decide) discrete hrnd fl gs g g' wt bs hdraw
    (fun learn net ctrl S out hs hf hsz hfld hlen => by
      have hw := soundWorld_estimateK h.sound g g'
      have hss := anyControl_sets h
      have rI := hss.region .XI (by decide) (by decide) (by intro h; cases h) hI
      have rD := hss.region .XD (by decide) (by decide) (by rintro -; rcases hc with e | e <;> simp [e]) hD
      have rU := hss.region .XU (by decide) (by decide) (by intro h; cases h) hU
      have hwf := hss.wf
      clear hfld hlen
      generalize w.withEstimate g g' r.cfg = w' at *
      clear h hdraw
      obtain ⟨cfg, sys, k0, data⟩ := r
      obtain ⟨doms, e⟩ := hss.cfg
      dsimp only at e rI rD rU hwf hw hs
      subst e rI rD rU
      obtain ⟨p, ⟨hpI, hpD⟩, hpU⟩ := hov
      have := C91_synthesis_overlap _ w' hw learn discrete hss.lib hwf hc _ _ _ out hs p hpI hpD hpU
      rw [hf] at this
      cases this)
  exact ⟨net, S, out, h1, h2, h3, h4, by simpa using h5⟩

end

/-! ### examples -/

theorem shift_x_text (funcs : FName → Bool) (ch : Char) (hd : '0' ≤ ch ∧ ch ≤ '9') (k : ℕ) (hk : digitsValue [ch] = k) :
    SystemText funcs 1 [String.ofList [ch, '-', 'x', '0']] (fun p i => (k : ℝ) - p i) := by
  refine ⟨rfl, fun i hi => ⟨[.num k, .minus, .x 0], .sub (.num k) (.x 0),
    .sub (a := [.num k]) (b := [.x 0]) (.sum (.term (.factor (.signed (.num k))))) (.term (.factor (.signed (.x 0)))), ?_, ⟨[[ch], ['-'], ['x', '0']], ?_, ?_⟩, rfl, ?_, ?_⟩⟩
  · rintro ⟨p, a, e, r, h, -⟩
    have : Tok.dstar ∈ [Tok.num k, .minus, .x 0] := by rw [h]; simp
    simp at this
  · exact .cons (.num (numeral_int (by simpa using hd) (by rw [hk]))) (.cons .minus (.cons (TokText.x (d := ['0']) ⟨digits_of (by decide), Or.inl rfl⟩) .nil))
  · obtain rfl : i = 0 := by omega
    simpa using layout_flatten [[ch], ['-'], ['x', '0']]
  · intro j hj
    simp [AExpr.xs] at hj
    subst hj; simp
  · intro p
    obtain rfl : i = 0 := by omega
    simp [AExpr.eval, Pt.env]

theorem one_minus_x (funcs : FName → Bool) : SystemText funcs 1 ["1-x0"] (fun p i => 1 - p i) := by
  have := shift_x_text funcs '1' (by decide) 1 (by decide +kernel)
  simpa using this

theorem three_minus_x (funcs : FName → Bool) : SystemText funcs 1 ["3-x0"] (fun p i => 3 - p i) := by
  have := shift_x_text funcs '3' (by decide) 3 (by decide +kernel)
  simpa using this

theorem one_minus_read : readSystem .z3 1 ["1-x0"] = .ok [.sub (.const 1) (.var 0)] := rfl
theorem three_minus_read : readSystem .z3 1 ["3-x0"] = .ok [.sub (.const 3) (.var 0)] := rfl

/-- The solutions of `x' = k - x`. -/
theorem shift_trajectory (k x : ℝ) (T : ℝ) : Trajectory (fun (p : Pt 1) i => k - p i) T (fun t _ => k - (k - x) * Real.exp (-t)) := by
  intro t _
  refine hasDerivWithinAt_pi.2 fun i => ?_
  have h : HasDerivAt (fun t : ℝ => k - (k - x) * Real.exp (-t)) (k - (k - (k - x) * Real.exp (-t))) t := by
    have h1 : HasDerivAt (fun t : ℝ => Real.exp (-t)) (-Real.exp (-t)) t := by
      have := (hasDerivAt_neg t).exp
      rwa [mul_neg_one] at this
    have := (h1.const_mul (k - x)).const_sub k
    rwa [show -((k - x) * -Real.exp (-t)) = k - (k - (k - x) * Real.exp (-t)) by ring] at this
  exact h.hasDerivWithinAt

theorem shift_bounds {k x t : ℝ} (hx : x ≤ k) (ht : 0 ≤ t) : x ≤ k - (k - x) * Real.exp (-t) ∧ k - (k - x) * Real.exp (-t) ≤ k := by
  have h1 : Real.exp (-t) ≤ 1 := Real.exp_le_one_iff.2 (by linarith)
  have h2 := Real.exp_pos (-t)
  constructor <;> nlinarith

/-- The barrier files of `exConfig` for the vector field `3 - x`. -/
def exPushed (ct : CertType) : ConfigText := { exConfig ct with system := ["3-x0"] }

theorem exPushed_described (ct : CertType) : DomainsDescribed (exPushed ct) := by
  obtain ⟨s1, s2, s3⟩ := exConfig_sets
  refine ⟨by simp [exPushed, exConfigL], ?_⟩
  intro k s hm
  simp only [exPushed, exConfig, exConfigL, List.mem_cons, Prod.mk.injEq, List.not_mem_nil, or_false] at hm
  rcases hm with ⟨-, rfl⟩ | ⟨-, rfl⟩ | ⟨-, rfl⟩
  exacts [⟨_, s1⟩, ⟨_, s2⟩, ⟨_, s3⟩]

/-- A file and a trajectory for `C91_file_unsafe_path`: `x' = 3 - x` from 0 to 2. -/
example : ∃ r, AnyFileRun (exPushed .BARRIERALT) r (fun p i => 3 - p i) (idealWorld (Net × ℚ) [.sub (.const 3) (.var 0)]) exTrainer [2] [.RELU] ∧ (∀ fl g, DrawsSome fl g r.data) ∧
    ∃ (I D U : Set (Pt 1)) (T : ℝ) (ξ : ℝ → Pt 1), Configures 1 (exPushed .BARRIERALT).domains "XI" I ∧ Configures 1 (exPushed .BARRIERALT).domains "XD" D ∧
      Configures 1 (exPushed .BARRIERALT).domains "XU" U ∧ 0 ≤ T ∧ Trajectory (fun (p : Pt 1) i => 3 - p i) T ξ ∧ ξ 0 ∈ I ∧ (∀ t ∈ Icc 0 T, ξ t ∈ D) ∧ ξ T ∈ U := by
  obtain ⟨data, h⟩ := exConfig_ready .BARRIERALT (Or.inr rfl)
  have hr : readConfig (exPushed .BARRIERALT) = .ok ⟨_, [.sub (.const 3) (.var 0)], data⟩ := readConfig_ok three_minus_read (readConfig_inv h).2
  obtain ⟨s1, s2, s3⟩ := exConfig_sets
  refine ⟨_, ⟨Or.inl rfl, exPushed_described _, three_minus_x _, hr, by decide, idealWorld_sound _ _ _, fun _ => rfl, idealWorld_fair _ _ _ rfl, (fun h => by cases h),
    fun _ _ _ => sameShape_refl _, relu_usable _⟩, fun fl g => C76_draws_some _ _ (exPushed_described _) hr (by simp [exPushed, exConfigL]) ?_ fl g,
    _, _, _, Real.log 3, _, ⟨_, by simp [exPushed, exConfigL], s2⟩, ⟨_, by simp [exPushed, exConfigL], s1⟩, ⟨_, by simp [exPushed, exConfigL], s3⟩, Real.log_nonneg (by norm_num),
    shift_trajectory 3 0 _, ?_, ?_, ?_⟩
  · show ∀ e ∈ [("XD", 10), ("XI", 10), ("XU", 10)], 0 < e.2
    decide
  · intro i
    norm_num [entry, Subsingleton.elim i 0]
  · intro t ht i
    obtain ⟨a, b⟩ := shift_bounds (k := 3) (x := 0) (by norm_num) ht.1
    rw [Subsingleton.elim i 0]
    simp only [entry, List.getD_cons_zero, Fin.val_zero]
    push_cast
    constructor <;> linarith
  · intro i
    have e : Real.exp (-Real.log 3) = 1/3 := by rw [Real.exp_neg, Real.exp_log (by norm_num)]; norm_num
    rw [Subsingleton.elim i 0, e]
    norm_num [entry]

/-- The barrier files with the unsafe set moved onto the initial set. -/
def exOverlap (ct : CertType) : ConfigText :=
  { exConfig ct with domains := [("XD", "Rectangle([-4],[4])"), ("XI", "Rectangle([-0.5],[0.5])"), ("XU", "Rectangle([-0.5],[0.5])")] }

theorem exOverlap_described (ct : CertType) : DomainsDescribed (exOverlap ct) := by
  obtain ⟨s1, s2, s3⟩ := exConfig_sets
  refine ⟨by simp [exOverlap], ?_⟩
  intro k s hm
  simp only [exOverlap, List.mem_cons, Prod.mk.injEq, List.not_mem_nil, or_false] at hm
  rcases hm with ⟨-, rfl⟩ | ⟨-, rfl⟩ | ⟨-, rfl⟩
  exacts [⟨_, s1⟩, ⟨_, s2⟩, ⟨_, s2⟩]

theorem exOverlap_sets (ct : CertType) (hc : ct = .BARRIER ∨ ct = .BARRIERALT) : ∃ cfg data, readSets (exOverlap ct) = .ok (cfg, data) := by
  have ed : readDomainTexts (exOverlap ct).domains = .ok [("XD", .rectangle [-4] [4] none), ("XI", .rectangle [-1/2] [1/2] none), ("XU", .rectangle [-1/2] [1/2] none)] := by
    have e1 : parseDomain "Rectangle([-4],[4])" = .ok (.rectangle [-4] [4] none) := rfl
    simp only [exOverlap, readDomainTexts, e1, half_text, Bind.bind, Except.bind, pure, Except.pure]
  have hp : ∃ (data : Dict String Src) (doms : Dict String PySet), parseConfig ct [("XD", .rectangle [-4] [4] none), ("XI", .rectangle [-1/2] [1/2] none),
      ("XU", .rectangle [-1/2] [1/2] none)] (exOverlap ct).nData = .ok (data, doms) ∧
      ∃ d, initialiseDomains .z3 1 ct doms = .ok d ∧ assertState ct d.keys data.keys = .ok () := by
    rcases hc with rfl | rfl <;> exact ⟨_, _, rfl, _, rfl, rfl⟩
  obtain ⟨data, doms, hp, d, hd, ha⟩ := hp
  have hlr : ¬ ((1 : ℚ) ≤ 0) := by norm_num
  exact ⟨_, data, readSets_ok (c := exOverlap ct) ed hp hd hlr rfl (Or.inl rfl) ha⟩

/-- Files, without and with a controller, for `C91_file_overlap` and `C91_control_overlap`. -/
example : (∃ r, AnyFileRun (exOverlap .BARRIER) r (fun p i => - p i) (idealWorld (Net × ℚ) [.neg (.var 0)]) exTrainer [2] [.RELU] ∧ ∀ fl g, DrawsSome fl g r.data) ∧
    (∃ r, AnyControlRun (exDriven .BARRIERALT (exOverlap .BARRIERALT).domains (exOverlap .BARRIERALT).nData ⟨1, true, false⟩ false) exWeights r 1 exControlField
      (exDrivenWorld (Net × ℚ)) exTrainerK [2] [.RELU] ∧ ∀ fl g, DrawsSome fl g r.data) ∧
    ∃ I D U : Set (Pt 1), Configures 1 (exOverlap .BARRIER).domains "XI" I ∧ Configures 1 (exOverlap .BARRIER).domains "XD" D ∧ Configures 1 (exOverlap .BARRIER).domains "XU" U ∧
      (I ∩ D ∩ U).Nonempty := by
  refine ⟨?_, ?_, ?_⟩
  · obtain ⟨cfg, data, h⟩ := exOverlap_sets .BARRIER (Or.inl rfl)
    have hr : readConfig (exOverlap .BARRIER) = .ok ⟨_, [.neg (.var 0)], data⟩ := readConfig_ok rfl h
    refine ⟨_, ⟨Or.inl rfl, exOverlap_described _, minus_x_system _, hr, by decide, idealWorld_sound _ _ _, fun _ => rfl, idealWorld_fair _ _ _ rfl, (fun h => by cases h),
      fun _ _ _ => sameShape_refl _, relu_usable _⟩, fun fl g => C76_draws_some _ _ (exOverlap_described _) hr (by simp [exOverlap, exConfigL]) ?_ fl g⟩
    show ∀ e ∈ [("XD", 10), ("XI", 10), ("XU", 10)], 0 < e.2
    decide
  · obtain ⟨cfg, data, h⟩ := exOverlap_sets .BARRIERALT (Or.inr rfl)
    have hd := exOverlap_described .BARRIERALT
    have hd' : DomainsDescribed (exDriven .BARRIERALT (exOverlap .BARRIERALT).domains (exOverlap .BARRIERALT).nData ⟨1, true, false⟩ false).base := ⟨hd.1, hd.2⟩
    have h' : readSets (exDriven .BARRIERALT (exOverlap .BARRIERALT).domains (exOverlap .BARRIERALT).nData ⟨1, true, false⟩ false).base = _ := h
    refine ⟨_, exDriven_run hd' h' (fun h => by cases h) (relu_usable _), fun fl g => C77_draws_some _ exWeights _ hd' (exDriven_ready h') (by simp [exDriven]) ?_ fl g⟩
    show ∀ e ∈ [("XD", 10), ("XI", 10), ("XU", 10)], 0 < e.2
    decide
  · obtain ⟨s1, s2, s3⟩ := exConfig_sets
    refine ⟨_, _, _, ⟨_, by simp [exOverlap], s2⟩, ⟨_, by simp [exOverlap], s1⟩, ⟨_, by simp [exOverlap], s2⟩, 0, ⟨?_, ?_⟩, ?_⟩ <;> intro i <;>
      norm_num [entry, Subsingleton.elim i 0]

/-- Lyapunov files on a ring for `C91_file_closed` (`x' = 1 - x` has the equilibrium 1) and `C91_file_periodic` (the map `-x` has points of period 2). -/
example : (∃ r, AnyFileRun (exRingConfig "1-x0") r (fun p i => 1 - p i) (idealWorld (Net × ℚ) [.sub (.const 1) (.var 0)]) exTrainer [2] [.RELU] ∧ (∀ fl g, DrawsSome fl g r.data) ∧
      ∃ (D : Set (Pt 1)) (ξ : ℝ → Pt 1), Configures 1 (exRingConfig "1-x0").domains "XD" D ∧ Trajectory (fun (p : Pt 1) i => 1 - p i) 1 ξ ∧ (∀ t ∈ Icc 0 1, ξ t ∈ D ∧ ξ t ≠ 0) ∧ ξ 1 = ξ 0) ∧
    ∃ r, AnyFileRun (exRingConfig "-x0") r (fun p i => - p i) (idealWorld (Net × ℚ) [.neg (.var 0)]) exTrainer [2] [.RELU] ∧ (∀ fl g, DrawsSome fl g r.data) ∧
      ∃ (D : Set (Pt 1)) (p : Pt 1), Configures 1 (exRingConfig "-x0").domains "XD" D ∧ (∀ k < 2, (fun (p : Pt 1) i => - p i)^[k] p ∈ D ∧ (fun (p : Pt 1) i => - p i)^[k] p ≠ 0) ∧
        (fun (p : Pt 1) i => - p i)^[2] p = p := by
  refine ⟨?_, ?_⟩
  · obtain ⟨data, h⟩ := exRing_sets "1-x0"
    have hr : readConfig (exRingConfig "1-x0") = .ok ⟨_, [.sub (.const 1) (.var 0)], data⟩ := readConfig_ok one_minus_read h
    refine ⟨_, ⟨Or.inl rfl, exRing_described _, one_minus_x _, hr, by decide, idealWorld_sound _ _ _, fun _ => rfl, idealWorld_fair _ _ _ rfl, (fun h => by cases h),
      fun _ _ _ => sameShape_refl _, relu_usable _⟩, fun fl g => C76_draws_some _ _ (exRing_described _) hr (Or.inl rfl) (exRing_counts _) fl g,
      _, _, ⟨_, by simp [exRingConfig], exRing_set⟩, shift_trajectory 1 1 1, fun t _ => ⟨?_, fun h => ?_⟩, ?_⟩
    · norm_num [distSq, entry]
    · have := congrFun h 0
      norm_num at this
    · norm_num
  · obtain ⟨data, h⟩ := exRing_sets "-x0"
    have hr : readConfig (exRingConfig "-x0") = .ok ⟨_, [.neg (.var 0)], data⟩ := readConfig_ok rfl h
    refine ⟨_, ⟨Or.inl rfl, exRing_described _, minus_x_system _, hr, by decide, idealWorld_sound _ _ _, fun _ => rfl, idealWorld_fair _ _ _ rfl, (fun h => by cases h),
      fun _ _ _ => sameShape_refl _, relu_usable _⟩, fun fl g => C76_draws_some _ _ (exRing_described _) hr (Or.inl rfl) (exRing_counts _) fl g,
      _, fun _ => 3/2, ⟨_, by simp [exRingConfig], exRing_set⟩, fun k hk => ⟨?_, fun h => ?_⟩, ?_⟩
    · interval_cases k <;> norm_num [distSq, entry]
    · have := congrFun h 0
      interval_cases k <;> norm_num at this
    · funext i
      simp

/-- A reach file and a trajectory for `C91_file_missed_goal`: for `x' = 1 - x` the goal `[-0.5, 0.5]` is never reached from 0.6. -/
example : ∃ r, FileRun { exStayConfig with system := ["1-x0"] } r (fun p i => 1 - p i) (stayWorld (Net × ℚ) [.sub (.const 1) (.var 0)]) exTrainer [1] [.SQUARE] ∧
    (∀ fl, DrawsSome fl (fun _ => zeroRng) r.data) ∧
    ∃ (I S D G : Set (Pt 1)) (ξ : ℝ → Pt 1), Configures 1 exStayConfig.domains "XI" I ∧ Configures 1 exStayConfig.domains "XS" S ∧ Configures 1 exStayConfig.domains "XD" D ∧
      Configures 1 exStayConfig.domains "XG" G ∧ I ⊆ S ∧ I ⊆ D ∧ frontier S ⊆ D ∧ (∀ T, Trajectory (fun (p : Pt 1) i => 1 - p i) T ξ) ∧ ξ 0 ∈ I ∧ ∀ t, 0 ≤ t → ξ t ∉ G := by
  obtain ⟨s1, s2, s3, s4⟩ := exStay_sets
  have hd : DomainsDescribed { exStayConfig with system := ["1-x0"] } := by
    refine ⟨by decide, ?_⟩
    intro k s hm
    simp only [exStayConfig, List.mem_cons, Prod.mk.injEq, List.not_mem_nil, or_false] at hm
    rcases hm with ⟨-, rfl⟩ | ⟨-, rfl⟩ | ⟨-, rfl⟩ | ⟨-, rfl⟩
    exacts [⟨_, s1⟩, ⟨_, s2⟩, ⟨_, s3⟩, ⟨_, s4⟩]
  have hs := fun i V Vdot => stayWorld_search (Net × ℚ) [.sub (.const 1) (.var 0)] ⟨.z3, 1, .RSWS, exStayDoms, false, 3, false, 10⟩ ⟨_, rfl, fun V Vdot β => ⟨_, rfl⟩⟩ i V Vdot
  have hr : readConfig { exStayConfig with system := ["1-x0"] } = .ok ⟨⟨.z3, 1, .RSWS, exStayDoms, false, 3, false, 10⟩, [.sub (.const 1) (.var 0)], exStayData⟩ :=
    readConfig_ok one_minus_read (readConfig_inv exStay_ready_data).2
  refine ⟨_, ⟨Or.inl rfl, hd, one_minus_x _, hr, by decide, stayWorld_sound _ _ _, fun _ => rfl, stayWorld_fair _ _ _ rfl, fun _ => hs, fun _ _ _ => sameShape_refl _, exFile_good⟩,
    exStay_draws, _, _, _, _, _, ⟨_, by simp [exStayConfig], s2⟩, ⟨_, by simp [exStayConfig], s3⟩, ⟨_, by simp [exStayConfig], s1⟩, ⟨_, by simp [exStayConfig], s4⟩, ?_, ?_, ?_,
    fun T => shift_trajectory 1 (3/5) T, ?_, ?_⟩
  · intro p hp i
    have := hp i
    rw [Subsingleton.elim i 0] at this ⊢
    norm_num [entry] at this ⊢
    constructor <;> linarith [this.1, this.2]
  · intro p hp i
    have := hp i
    rw [Subsingleton.elim i 0] at this ⊢
    norm_num [entry] at this ⊢
    constructor <;> linarith [this.1, this.2]
  · have e : {p : Pt 1 | ∀ i : Fin 1, entry [-1] i ≤ p i ∧ p i ≤ entry [1] i} = (fun p : Pt 1 => p 0) ⁻¹' Icc (-1) 1 := by
      ext p; simp [entry, Fin.forall_fin_one]
    rw [e]
    intro p hp i
    have h : p 0 ∈ frontier (Icc (-1 : ℝ) 1) := Continuous.frontier_preimage_subset (f := fun p : Pt 1 => p 0) (by fun_prop) _ hp
    rw [frontier_Icc (by norm_num)] at h
    rw [Subsingleton.elim i 0]
    rcases h with h | h <;> rw [h] <;> norm_num [entry]
  · intro i
    norm_num [entry, Subsingleton.elim i 0]
  · intro t ht hg
    have := (hg 0).2
    obtain ⟨a, -⟩ := shift_bounds (k := 1) (x := 3/5) (by norm_num) ht
    simp only [entry, List.getD_cons_zero, Fin.val_zero] at this
    push_cast at this
    linarith

/-- A StableSafe file and a trajectory for `C91_file_stable_safe`. -/
example : ∃ r, FileRun2 { exSSConfig with system := ["3-x0"] } r (fun p i => 3 - p i) (idealWorld ((Net × ℚ) × Net) [.sub (.const 3) (.var 0)]) exTrainer2 [1] [1] [.SQUARE] [.SQUARE] ∧
    ∀ fl g, DrawsSome fl g r.data := by
  have good : ∀ llo, GoodNet .z3 llo [1] [.SQUARE] := fun llo => ⟨by simp, by simp, fun a ha => by
    rw [List.mem_singleton.1 ha]; exact ⟨.square, rfl, rfl, by intro h; cases h⟩⟩
  obtain ⟨r, w, learn, h, -⟩ := exSSConfig_run
  obtain ⟨s1, s2, s3⟩ := exConfig_sets
  have hd : DomainsDescribed { exSSConfig with system := ["3-x0"] } := ⟨h.domains.1, h.domains.2⟩
  have hr : readConfig { exSSConfig with system := ["3-x0"] } = .ok ⟨r.cfg, [.sub (.const 3) (.var 0)], r.data⟩ := readConfig_ok three_minus_read (readConfig_inv h.accepted).2
  refine ⟨_, ⟨Or.inl rfl, hd, three_minus_x _, hr, by decide, idealWorld_sound _ _ _, fun _ => rfl, idealWorld_fair _ _ _ rfl, fun _ _ _ => ⟨sameShape_refl _, sameShape_refl _⟩,
    good _, good _⟩, fun fl g => C76_draws_some _ _ hd hr (by simp [exSSConfig, exConfig, exConfigL]) ?_ fl g⟩
  show ∀ e ∈ [("XD", 10), ("XI", 10), ("XU", 10)], 0 < e.2
  decide

/-- A region-of-attraction file, with LLO, for `C91_file_roa_closed`: the equilibrium 1 of `x' = 1 - x` is in the initial set `[-1, 1]`. -/
example : ∃ r, FileRun { exROAConfig with system := ["1-x0"], domains := [("XD", "Rectangle([-4],[4])"), ("XI", "Rectangle([-1],[1])")] } r (fun p i => 1 - p i)
      (idealWorld (Net × ℚ) [.sub (.const 1) (.var 0)]) exTrainer [1] [.SQUARE] ∧ (∀ fl g, DrawsSome fl g r.data) ∧
    ∃ (I : Set (Pt 1)) (ξ : ℝ → Pt 1), Configures 1 [("XD", "Rectangle([-4],[4])"), ("XI", "Rectangle([-1],[1])")] "XI" I ∧ Trajectory (fun (p : Pt 1) i => 1 - p i) 1 ξ ∧ ξ 0 ∈ I ∧
      (∀ t ∈ Icc 0 1, (1/100 : ℝ)^2 < normSq (ξ t)) ∧ ξ 1 = ξ 0 := by
  obtain ⟨s1, -, -⟩ := exConfig_sets
  obtain ⟨-, -, s3, -⟩ := exStay_sets
  have hd : DomainsDescribed { exROAConfig with system := ["1-x0"], domains := [("XD", "Rectangle([-4],[4])"), ("XI", "Rectangle([-1],[1])")] } := by
    refine ⟨by decide, ?_⟩
    intro k s hm
    simp only [List.mem_cons, Prod.mk.injEq, List.not_mem_nil, or_false] at hm
    rcases hm with ⟨-, rfl⟩ | ⟨-, rfl⟩
    exacts [⟨_, s1⟩, ⟨_, s3⟩]
  have ed : readDomainTexts [("XD", "Rectangle([-4],[4])"), ("XI", "Rectangle([-1],[1])")] = .ok [("XD", .rectangle [-4] [4] none), ("XI", .rectangle [-1] [1] none)] := rfl
  have hp : ∃ (data : Dict String Src) (doms : Dict String PySet), parseConfig .ROA [("XD", .rectangle [-4] [4] none), ("XI", .rectangle [-1] [1] none)] exROAConfig.nData = .ok (data, doms) ∧
      ∃ d, initialiseDomains .z3 1 .ROA doms = .ok d ∧ assertState .ROA d.keys data.keys = .ok () := ⟨_, _, rfl, _, rfl, rfl⟩
  obtain ⟨data, doms, hp, d, hdd, ha⟩ := hp
  have hlr : ¬ ((1 : ℚ) ≤ 0) := by norm_num
  have hr : readConfig { exROAConfig with system := ["1-x0"], domains := [("XD", "Rectangle([-4],[4])"), ("XI", "Rectangle([-1],[1])")] } = .ok ⟨_, [.sub (.const 1) (.var 0)], data⟩ :=
    readConfig_ok one_minus_read (readSets_ok ed hp hdd hlr rfl (Or.inl rfl) ha)
  refine ⟨_, ⟨Or.inl rfl, hd, one_minus_x _, hr, by decide, idealWorld_sound _ _ _, fun _ => rfl, idealWorld_fair _ _ _ rfl, (fun h => by cases h), fun _ _ _ => sameShape_refl _,
    ⟨by simp, by simp, fun a ha => by rw [List.mem_singleton.1 ha]; exact ⟨.square, rfl, rfl, by intro h; cases h⟩⟩⟩,
    fun fl g => C76_draws_some _ _ hd hr (by simp [exROAConfig]) ?_ fl g, _, _, ⟨_, by simp, s3⟩, shift_trajectory 1 1 1, ?_, fun t _ => ?_, ?_⟩
  · show ∀ e ∈ [("XD", 10), ("XI", 10)], 0 < e.2
    decide
  · intro i
    norm_num [entry, Subsingleton.elim i 0]
  · norm_num [normSq]
  · norm_num

/-- The data sources of the reach-avoid-remain file. -/
def exRARSrc : Dict String Src := [(XD, .interior (.rectangle [-2] [2] none) 10), (XI, .interior (.rectangle [3/5] [13/20] none) 10),
  (XG, .interior (.rectangle [-1/2] [1/2] none) 10), (XF, .interior (.rectangle [-3/4] [3/4] none) 10),
  (XU, .interior (.setMinus (.rectangle [-2] [2] none) (.rectangle [-1] [1] none)) 10), (XNF, .interior (.setMinus (.rectangle [-2] [2] none) (.rectangle [-3/4] [3/4] none)) 10)]

theorem exRAR_sets_data : readSets exRARConfig = .ok (⟨.z3, 1, .RAR, exRARDoms, false, 3, false, 10⟩, exRARSrc) ∧
    SetText 1 "Rectangle([-0.75],[0.75])" {p | ∀ i : Fin 1, entry [-(3/4)] i ≤ p i ∧ p i ≤ entry [3/4] i} := by
  obtain ⟨h2, h1, h5, h6, h65⟩ := exStay_numerals
  have h75 : Numeral ['0', '.', '7', '5'] (3/4) := numeral_dec (a := ['0']) (b := ['7', '5']) (by decide) (by decide) (by decide +kernel)
  have ed : readDomainTexts exRARConfig.domains = .ok [("XD", .rectangle [-2] [2] none), ("XI", .rectangle [3/5] [13/20] none),
    ("XS", .rectangle [-1] [1] none), ("XG", .rectangle [-1/2] [1/2] none), ("XF", .rectangle [-3/4] [3/4] none)] := by
    have e1 : parseDomain "Rectangle([-2],[2])" = .ok (.rectangle [-2] [2] none) := rfl
    have e2 : parseDomain "Rectangle([0.6],[0.65])" = .ok (.rectangle [3/5] [13/20] none) :=
      C55_rectangle_text [['0', '.', '6']] [['0', '.', '6', '5']] _ _ (.cons (.none h6) .nil) (.cons (.none h65) .nil) _ (layout_flatten _)
    have e3 : parseDomain "Rectangle([-1],[1])" = .ok (.rectangle [-1] [1] none) := rfl
    have e5 : parseDomain "Rectangle([-0.75],[0.75])" = .ok (.rectangle [-3/4] [3/4] none) := by
      have := C55_rectangle_text [['-', '0', '.', '7', '5']] [['0', '.', '7', '5']] _ _ (.cons (.minus h75) .nil) (.cons (.none h75) .nil)
        "Rectangle([-0.75],[0.75])" (layout_flatten _)
      rwa [show -(3/4 : ℚ) = -3/4 by norm_num] at this
    simp only [exRARConfig, readDomainTexts, e1, e2, e3, e5, half_text, Bind.bind, Except.bind, pure, Except.pure]
  have hp : parseConfig .RAR [("XD", .rectangle [-2] [2] none), ("XI", .rectangle [3/5] [13/20] none), ("XS", .rectangle [-1] [1] none), ("XG", .rectangle [-1/2] [1/2] none),
      ("XF", .rectangle [-3/4] [3/4] none)] exRARConfig.nData = .ok (exRARSrc, exRARDoms) := rfl
  obtain ⟨d, hd, ha⟩ : ∃ d, initialiseDomains .z3 1 .RAR exRARDoms = .ok d ∧ assertState .RAR d.keys exRARSrc.keys = .ok () := ⟨_, rfl, rfl⟩
  have hlr : ¬ ((1 : ℚ) ≤ 0) := by norm_num
  exact ⟨readSets_ok ed hp hd hlr rfl (Or.inl rfl) ha,
    .rectangle (lb := [['-', '0', '.', '7', '5']]) (ub := [['0', '.', '7', '5']]) (.cons (.minus h75) .nil) (.cons (.none h75) .nil) rfl rfl (layout_flatten _)⟩

theorem exRAR_draws (fl : ℝ → ℚ) : DrawsSome fl (fun _ => zeroRng) exRARSrc := by
  have sq : ∀ a b : ℚ, (PySet.rectangle [a] [b] none).generateData zeroRng 10 = .ok (List.replicate 10 [(b : ℝ)]) := by
    intro a b
    simp [PySet.generateData, squareInitData, mkRows, mkRow, zeroRng, ent, List.range_succ]
  have fr : ∀ a b : ℚ, b < 2 → filterRows (.rectangle [a] [b] none) false (List.replicate 10 [((2 : ℚ) : ℝ)]) = .ok (List.replicate 10 [((2 : ℚ) : ℝ)]) := by
    intro a b hb
    have hP : ∃ P, (PySet.rectangle [a] [b] none).checkContainment [((2 : ℚ) : ℝ)] = .ok P ∧ ¬ P := ⟨_, rfl, by
      have hb' : (b : ℝ) < 2 := by exact_mod_cast hb
      simp
      intro h
      linarith⟩
    obtain ⟨P, hP, hn⟩ := hP
    have : ∀ k, filterRows (.rectangle [a] [b] none) false (List.replicate k [((2 : ℚ) : ℝ)]) = .ok (List.replicate k [((2 : ℚ) : ℝ)]) := by
      intro k
      induction k with
      | zero => rfl
      | succ k ih => simp only [List.replicate_succ, filterRows, hP, ih, Bind.bind, Except.bind, pure, Except.pure]; simp [hn]
    exact this 10
  have sm : ∀ a b : ℚ, b < 2 → (PySet.setMinus (.rectangle [-2] [2] none) (.rectangle [a] [b] none)).generateData zeroRng 10 = .ok (List.replicate 10 [((2 : ℚ) : ℝ)]) := by
    intro a b hb
    rw [PySet.generateData, sq]; exact fr a b hb
  have sm1 := sm (-1) 1 (by norm_num)
  have sm2 := sm (-3/4) (3/4) (by norm_num)
  intro S hS l p hp
  have : initData fl (fun _ => zeroRng) exRARSrc = .ok (exRARSrc.map fun e => (e.1,
    (if e.1 = XI then List.replicate 10 [((13/20 : ℚ) : ℝ)] else if e.1 = XF then List.replicate 10 [((3/4 : ℚ) : ℝ)] else
      if e.1 = XG then List.replicate 10 [((1/2 : ℚ) : ℝ)] else List.replicate 10 [((2 : ℚ) : ℝ)]).map (List.map fl))) := by
    simp only [initData, exRARSrc, Src.sample, sq, sm1, sm2, Bind.bind, Except.bind, pure, Except.pure]
    simp [XD, XI, XF, XG, XU, XNF]
  rw [this] at hS
  cases hS
  have hm := Dict.get?_eq_some_mem hp
  obtain ⟨e, -, he⟩ := List.mem_map.1 hm
  cases he
  split_ifs <;> simp

/-- A reach-avoid-remain file and a trajectory for `C91_file_rar`: for `x' = 1 - x` the goal `[-0.5, 0.5]` is never reached from 0.6. (With `x' = -x` the data show that
`C76_file_rar` and `C84_file_rar` have instances whose data are drawn.) -/
example : (∃ r, FileRun2 { exRARConfig with system := ["1-x0"] } r (fun p i => 1 - p i) (idealWorld ((Net × ℚ) × Net) [.sub (.const 1) (.var 0)]) exTrainer2 [1] [1] [.SQUARE] [.SQUARE] ∧
    ∀ fl, DrawsSome fl (fun _ => zeroRng) r.data) ∧
    ∃ (I S D G P : Set (Pt 1)) (ξ : ℝ → Pt 1), Configures 1 exRARConfig.domains "XI" I ∧ Configures 1 exRARConfig.domains "XS" S ∧ Configures 1 exRARConfig.domains "XD" D ∧
      Configures 1 exRARConfig.domains "XG" G ∧ Configures 1 exRARConfig.domains "XF" P ∧ I ⊆ S ∧ I ⊆ D ∧ frontier S ⊆ D ∧
      (∀ T, Trajectory (fun (p : Pt 1) i => 1 - p i) T ξ) ∧ ξ 0 ∈ I ∧ (∀ t, 0 ≤ t → ξ t ∈ D) ∧ ∀ t, 0 ≤ t → ξ t ∉ G := by
  obtain ⟨s1, s2, s3, s4⟩ := exStay_sets
  obtain ⟨h, s5⟩ := exRAR_sets_data
  have good : ∀ llo, GoodNet .z3 llo [1] [.SQUARE] := fun llo => ⟨by simp, by simp, fun a ha => by
    rw [List.mem_singleton.1 ha]; exact ⟨.square, rfl, rfl, by intro h; cases h⟩⟩
  have hd : DomainsDescribed { exRARConfig with system := ["1-x0"] } := by
    refine ⟨by decide, ?_⟩
    intro k s hm
    simp only [exRARConfig, List.mem_cons, Prod.mk.injEq, List.not_mem_nil, or_false] at hm
    rcases hm with ⟨-, rfl⟩ | ⟨-, rfl⟩ | ⟨-, rfl⟩ | ⟨-, rfl⟩ | ⟨-, rfl⟩
    exacts [⟨_, s1⟩, ⟨_, s2⟩, ⟨_, s3⟩, ⟨_, s4⟩, ⟨_, s5⟩]
  have hr : readConfig { exRARConfig with system := ["1-x0"] } = .ok ⟨_, [.sub (.const 1) (.var 0)], exRARSrc⟩ := readConfig_ok one_minus_read h
  refine ⟨⟨_, ⟨Or.inl rfl, hd, one_minus_x _, hr, by decide, idealWorld_sound _ _ _, fun _ => rfl, idealWorld_fair _ _ _ rfl, fun _ _ _ => ⟨sameShape_refl _, sameShape_refl _⟩,
    good _, good _⟩, exRAR_draws⟩, _, _, _, _, _, _, ⟨_, by simp [exRARConfig], s2⟩, ⟨_, by simp [exRARConfig], s3⟩, ⟨_, by simp [exRARConfig], s1⟩,
    ⟨_, by simp [exRARConfig], s4⟩, ⟨_, by simp [exRARConfig], s5⟩, ?_, ?_, ?_, fun T => shift_trajectory 1 (3/5) T, ?_, ?_, ?_⟩
  · intro p hp i
    have := hp i
    rw [Subsingleton.elim i 0] at this ⊢
    norm_num [entry] at this ⊢
    constructor <;> linarith [this.1, this.2]
  · intro p hp i
    have := hp i
    rw [Subsingleton.elim i 0] at this ⊢
    norm_num [entry] at this ⊢
    constructor <;> linarith [this.1, this.2]
  · have e : {p : Pt 1 | ∀ i : Fin 1, entry [-1] i ≤ p i ∧ p i ≤ entry [1] i} = (fun p : Pt 1 => p 0) ⁻¹' Icc (-1) 1 := by
      ext p; simp [entry, Fin.forall_fin_one]
    rw [e]
    intro p hp i
    have h : p 0 ∈ frontier (Icc (-1 : ℝ) 1) := Continuous.frontier_preimage_subset (f := fun p : Pt 1 => p 0) (by fun_prop) _ hp
    rw [frontier_Icc (by norm_num)] at h
    rw [Subsingleton.elim i 0]
    rcases h with h | h <;> rw [h] <;> norm_num [entry]
  · intro i
    norm_num [entry, Subsingleton.elim i 0]
  · intro t ht i
    obtain ⟨a, b⟩ := shift_bounds (k := 1) (x := 3/5) (by norm_num) ht
    rw [Subsingleton.elim i 0]
    simp only [entry, List.getD_cons_zero, Fin.val_zero]
    push_cast
    constructor <;> linarith
  · intro t ht hg
    have := (hg 0).2
    obtain ⟨a, -⟩ := shift_bounds (k := 1) (x := 3/5) (by norm_num) ht
    simp only [entry, List.getD_cons_zero, Fin.val_zero] at this
    push_cast at this
    linarith

end Fossil

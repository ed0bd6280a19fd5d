/-
C88, continued: whole runs and configuration files of region-of-attraction certificates verified with dReal.
-/
import Verif.Props.C88_DRealBox
import Verif.Props.C87_Lyap

namespace Fossil
open Spec Set

namespace Spec

/-- dReal in the loop can be trusted: its "no solution" answers are right, boxes returned for queries that confine the variables to the second-chance box are within the variable
bounds. Nothing is asked of the sets and the certificate. -/
structure DRealWorld {K N : Type} (n : ℕ) (w : World (Option Box) K N) : Prop where
  backend : w.backend = drealBackend
  oracle : ∀ i, ∃ check : ℕ → ℕ → Formula → Option Box, w.oracle i = drealOracle n check ∧ (∀ k, DRealSound (check k)) ∧ ∀ k, BoxesInRange n (check k)

/-- What a successful region-of-attraction run with dReal guarantees of the certificate `V`, the level `ℓ`, the field `G` and the initial set `I`. -/
def ROAInBox (n : ℕ) (llo : Bool) (V : Pt n → ℝ) (ℓ : ℝ) (G : Pt n → Pt n) (I : Set (Pt n)) : Prop :=
  (∀ p ∈ I, p ∈ secondBox n → V p ≤ ℓ) ∧
  (∀ (T : ℝ) (ξ : ℝ → Pt n), Trajectory G T ξ → 0 ≤ T → ξ 0 ∈ I → (llo = true ∨ V (ξ 0) < ℓ) → (∀ t ∈ Icc 0 T, (1/100)^2 < normSq (ξ t)) →
    (∀ t ∈ Icc 0 T, ξ t ∈ secondBox n) → ∀ t ∈ Icc 0 T, V (ξ t) ≤ ℓ) ∧
  ((∀ p ∈ frontier (secondBox n), ℓ < V p) →
    ∀ (T : ℝ) (ξ : ℝ → Pt n), Trajectory G T ξ → 0 ≤ T → ξ 0 ∈ I → ξ 0 ∈ secondBox n → (llo = true ∨ V (ξ 0) < ℓ) → (∀ t ∈ Icc 0 T, (1/100)^2 < normSq (ξ t)) →
      ∀ t ∈ Icc 0 T, ξ t ∈ secondBox n ∧ V (ξ t) ≤ ℓ)

end Spec

variable {K : Type}

/-- A reported success is a success of the dReal verifier on the queries of the returned network. -/
theorem dreal_run_success {w : World (Option Box) K (Net × ℚ)} {c : SynthCfg} (hw : DRealWorld c.nVars w) {learn} {net ctrl S out}
    (h : Solves c.loop (singleComponents w c false learn) net ctrl S out) (hf : out.found = true) (hcl : AllBelow c.nVars (w.dynamics out.ctrl)) :
    ∃ groups, queriesCT (c.setup out.net.1 out.net.2 (w.dynamics out.ctrl)) = .ok groups ∧ DRealSuccess c.nVars groups := by
  obtain ⟨g, i, cex, hq, hv⟩ := solve_queries w c learn net ctrl S out h hf
  obtain ⟨check, e, h1, h2⟩ := hw.oracle i
  rw [hw.backend, e] at hv
  exact ⟨g, hq, queriesCT_below (s := c.setup out.net.1 out.net.2 (w.dynamics out.ctrl)) hcl hq, _, check, cex, h1, h2, hv⟩

/-- **C88, whole runs (partial).** If synthesis with dReal reports success for a region-of-attraction certificate, the certificate is at most the level (times 1.1) on the part of the initial
set in the box, and a trajectory of the closed loop from there that starts strictly below the level (or LLO is on) and stays in the box and 0.01 away from the origin stays below the level; if the
certificate is above the level on the boundary of the box, it does stay in the box. Missing: trajectories that leave the box, see `C88_leaves_box`. -/
theorem C88_roa_synthesis_partial (c : SynthCfg) (w : World (Option Box) K (Net × ℚ)) (hw : DRealWorld c.nVars w) (learn) (hc : c.cert = .ROA) (net ctrl S out)
    (h : Solves c.loop (singleComponents w c false learn) net ctrl S out) (hf : out.found = true) (hcl : AllBelow c.nVars (w.dynamics out.ctrl))
    (hs : SmoothSetup (c.setup out.net.1 out.net.2 (w.dynamics out.ctrl))) :
    ROAInBox c.nVars c.llo (certValue c.rounding c.quad out.net.1) ((out.net.2 : ℝ) * (11/10)) (field c.nVars (w.dynamics out.ctrl)) (region c.nVars c.domains XI) := by
  obtain ⟨g, hq, ha⟩ := dreal_run_success hw h hf hcl
  exact ⟨(C88_roa_conditions _ hs.lib hs.sets hs.size hc g hq ha).1,
    fun T ξ a b d e f k => C88_roa_invariant_partial _ hs hc g hq ha T ξ a b d e f k,
    fun hwall T ξ a b d d' e f => C88_roa_stays _ hs hc g hq ha hwall T ξ a b d d' e f⟩

namespace Spec

/-- A run started from a configuration file without controller, verified with dReal: as `FileRun`, but only the answers of dReal are trusted. -/
structure DRealFileRun (c : ConfigText) (r : Ready) (F : Pt c.nVars → Pt c.nVars) (w : World (Option Box) Unit (Net × ℚ)) (T : Trainer Unit) (hidden : List ℕ)
    (acts : List ActivationType) : Prop where
  lib : c.lib = .dreal
  domains : DomainsDescribed c
  system : SystemText c.lib.funcs c.nVars c.system F
  accepted : readConfig c = .ok r
  iters : 0 ≤ c.maxIters
  sound : DRealWorld c.nVars w
  dynamics : ∀ k, w.dynamics k = r.f
  fair : FairWorld w c.nVars
  shape : ∀ i t θ, SameShape θ.1 (T.step i t θ).1
  net : GoodNet c.lib c.llo hidden acts

/-- The same for a file that asks for a controller. -/
structure DRealControlRun (c : ControlConfig) (w0 : ℕ → ℕ → ℕ → ℚ) (r : ReadyControl) (m : ℕ) (F : Pt c.base.nVars → Pt m → Pt c.base.nVars)
    (w : World (Option Box) Controller (Net × ℚ)) (T : Trainer Controller) (hidden : List ℕ) (acts : List ActivationType) : Prop where
  lib : c.base.lib = .dreal
  domains : DomainsDescribed c.base
  system : ControlText (decide (c.base.lib = .dreal)) c.base.lib.funcs c.base.nVars m c.base.system F
  inputs : m ≤ 10
  accepted : readControl w0 c = .ok r
  iters : 0 ≤ c.base.maxIters
  sound : DRealWorld c.base.nVars w
  dynamics : ∀ k f, closedLoop c.base.lib r.sys c.base.nVars k = .ok f → w.dynamics k = f
  fair : FairWorld w c.base.nVars
  shape : ∀ i t θ, SameShape θ.1 (T.step i t θ).1 ∧ SameController θ.2 (T.step i t θ).2
  net : GoodNet c.base.lib c.base.llo hidden acts

end Spec

section
variable {c : ConfigText} {r : Ready} {F : Pt c.nVars → Pt c.nVars} {w : World (Option Box) Unit (Net × ℚ)} {T : Trainer Unit} {hidden : List ℕ} {acts : List ActivationType}

/-- **C88, configuration files (partial).** For every accepted region-of-attraction file verified with dReal and every choice of random numbers the run returns after at most CEGIS_MAX_ITERS + 1
passes; if it reports success the guarantee in the box holds for the written vector field and the written initial set. -/
theorem C88_file_roa_partial (h : DRealFileRun c r F w T hidden acts) (hc : c.cert = .ROA) (fl : ℝ → ℚ)
    (gs : ℕ → Rng) (g g' : Rng) (wt : ℕ → ℕ → ℕ → ℚ) (bs : ℕ → ℕ → ℚ) (hdraw : DrawsSome fl gs r.data)
    (I : Set (Pt c.nVars)) (hI : Configures c.nVars c.domains "XI" I) :
    ∃ net S out, newNet c.nVars hidden acts c.llo (certBias c.cert) wt bs = .ok net ∧ initData fl gs r.data = .ok S ∧
      Solves r.cfg.loop (singleComponents (w.withEstimate g g' r.cfg) r.cfg false (trainedLearn T r.cfg false w.dynNum)) (net, 0) () S out ∧
      (out.iters : ℤ) ≤ c.maxIters + 1 ∧
      (out.found = true → ROAInBox c.nVars c.llo (certValue c.rounding c.quad out.net.1) ((out.net.2 : ℝ) * (11/10)) F I) := by
  have hlib : c.lib = .z3 ∨ c.lib = .dreal := Or.inr h.lib
  have hct : SingleCert c.cert := by rw [hc]; refine ⟨?_, ?_, ?_⟩ <;> intro h <;> cases h
  obtain ⟨net, hn1, hn2, -⟩ := newNet_arch (n := c.nVars) h.net (certBias c.cert) wt bs
  obtain ⟨S, hS, hk, hw, -⟩ := C76_initial_data c r h.domains h.accepted fl gs
  have hset := (readConfig_inv h.accepted).2
  have hsr : SetsRun c r.cfg := ⟨hlib, h.domains, _, hset⟩
  have rI := hsr.region .XI (by decide) (by decide) (by intro h; cases h) hI
  have hwf := hsr.wf
  obtain ⟨d, -, -, hcheck⟩ := readSets_check hset
  have hplain := accepted_plain h.domains hset
  have hus := accepted_usable h.domains hset
  have hlab := accepted_sets hct.2.2 hset
  have hcfg := ready_cfg h.accepted
  generalize r.cfg.domains = doms at *
  rw [hcfg]
  rw [← hk] at hcheck
  have tot := C75_run_total_checked_single w ⟨c.lib, c.nVars, c.cert, doms, c.llo, c.rounding, c.quad, c.maxIters⟩ false T g g' hlib hct h.iters hus hlab
    (fun _ P hP => plain_lyapunov (hplain.1 _ (Dict.get?_eq_some_mem hP))) (fun h => by cases h) h.fair (fun h => by rw [hc] at h; cases h)
    (fun i t θ hu => sameShape_usable (h.shape i t θ) hu) (net, 0) () S hn2.1
    (fun l p hp => ⟨hdraw S hS l p hp, hw l p hp⟩) (Dict.keys d) hcheck
  rcases tot with ⟨out, h3, h4⟩ | ⟨e, -⟩
  swap
  · rw [hc] at e; cases e
  refine ⟨net, S, out, hn1, hS, h3, h4, fun hf => ?_⟩
  have step : ∀ st n k, Arch c.lib c.nVars st.net.1 → trainedLearn T ⟨c.lib, c.nVars, c.cert, doms, c.llo, c.rounding, c.quad, c.maxIters⟩ false w.dynNum st = .ok (n, k) →
      Arch c.lib c.nVars n.1 := by
    intro st n k h0 hl
    obtain ⟨m, hm⟩ := trained_after (w := w) st n k hl
    have := afterSteps_shape (Q := Arch c.lib c.nVars) (h.shape st.iters) (fun {a b} hab ha => ⟨sameShape_usable hab ha.1, sameShape_smooth hab ha.2⟩) (st.net.1, st.ctrl) h0 m
    rw [← hm] at this
    exact this
  have harch := (solves_guard (Q := fun n : Net × ℚ => Arch c.lib c.nVars n.1) (fun st n k => step st n k) hn2 h3).2
  obtain ⟨f1, -, f3⟩ := config_field (readConfig_inv h.accepted).1 h.system
  have hdyn : (w.withEstimate g g' ⟨c.lib, c.nVars, c.cert, doms, c.llo, c.rounding, c.quad, c.maxIters⟩).dynamics out.ctrl = r.f := h.dynamics _
  have := C88_roa_synthesis_partial ⟨c.lib, c.nVars, c.cert, doms, c.llo, c.rounding, c.quad, c.maxIters⟩ (w.withEstimate g g' ⟨c.lib, c.nVars, c.cert, doms, c.llo, c.rounding, c.quad, c.maxIters⟩) ⟨h.sound.backend, h.sound.oracle⟩ _ hc _ _ _ out h3 hf
    (by rw [hdyn]; exact f3) ⟨hlib, hwf, harch.1.1.input, harch.2⟩
  rw [hdyn] at this
  rw [← f1, ← rI]
  exact this

end

section
variable {c : ControlConfig} {w0 : ℕ → ℕ → ℕ → ℚ} {r : ReadyControl} {m : ℕ} {F : Pt c.base.nVars → Pt m → Pt c.base.nVars} {w : World (Option Box) Controller (Net × ℚ)}
  {T : Trainer Controller} {hidden : List ℕ} {acts : List ActivationType}

/-- **C88, files with a controller (partial).** The same for the written system driven by the returned controller, rounded to five decimals. -/
theorem C88_control_roa_partial (h : DRealControlRun c w0 r m F w T hidden acts) (hc : c.base.cert = .ROA) (fl : ℝ → ℚ)
    (gs : ℕ → Rng) (g g' : Rng) (wt : ℕ → ℕ → ℕ → ℚ) (bs : ℕ → ℕ → ℚ) (hdraw : DrawsSome fl gs r.data)
    (I : Set (Pt c.base.nVars)) (hI : Configures c.base.nVars c.base.domains "XI" I) :
    ∃ net S out, newNet c.base.nVars hidden acts c.base.llo (certBias c.base.cert) wt bs = .ok net ∧ initData fl gs r.data = .ok S ∧
      Solves r.cfg.loop (singleComponents (w.withEstimate g g' r.cfg) r.cfg false (trainedLearn T r.cfg false w.dynNum)) (net, 0) r.ctrl S out ∧
      (out.iters : ℤ) ≤ c.base.maxIters + 1 ∧
      (out.found = true → ROAInBox c.base.nVars c.base.llo (certValue c.base.rounding c.base.quad out.net.1) ((out.net.2 : ℝ) * (11/10)) (driven F (rounded5 out.ctrl)) I) := by
  have hlib : c.base.lib = .z3 ∨ c.base.lib = .dreal := Or.inr h.lib
  have hct : SingleCert c.base.cert := by rw [hc]; refine ⟨?_, ?_, ?_⟩ <;> intro h <;> cases h
  obtain ⟨net, hn1, hn2, -⟩ := newNet_arch (n := c.base.nVars) h.net (certBias c.base.cert) wt bs
  obtain ⟨S, hS, hk, hw, -⟩ := C77_initial_data c w0 r h.domains h.accepted fl gs
  obtain ⟨hread, hset, -, f0, hf0⟩ := readControl_inv h.accepted
  have hsr : SetsRun c.base r.cfg := ⟨hlib, h.domains, _, hset⟩
  have rI := hsr.region .XI (by decide) (by decide) (by intro h; cases h) hI
  have hwf := hsr.wf
  obtain ⟨d, -, -, hcheck⟩ := readSets_check hset
  have hplain := accepted_plain h.domains hset
  have hus := accepted_usable h.domains hset
  have hlab := accepted_sets hct.2.2 hset
  have hcfg := ready_control_cfg h.accepted
  generalize r.cfg.domains = doms at *
  rw [hcfg]
  rw [← hk] at hcheck
  have tot := C75_run_total_checked_single w ⟨c.base.lib, c.base.nVars, c.base.cert, doms, c.base.llo, c.base.rounding, c.base.quad, c.base.maxIters⟩ false T g g' hlib hct h.iters hus hlab
    (fun _ P hP => plain_lyapunov (hplain.1 _ (Dict.get?_eq_some_mem hP))) (fun h => by cases h) h.fair (fun h => by rw [hc] at h; cases h)
    (fun i t θ hu => sameShape_usable (h.shape i t θ).1 hu) (net, 0) r.ctrl S hn2.1
    (fun l p hp => ⟨hdraw S hS l p hp, hw l p hp⟩) (Dict.keys d) hcheck
  rcases tot with ⟨out, h3, h4⟩ | ⟨e, -⟩
  swap
  · rw [hc] at e; cases e
  refine ⟨net, S, out, hn1, hS, h3, h4, fun hf => ?_⟩
  have hA : ∀ {a b : Net × Controller}, SameShape a.1 b.1 ∧ SameController a.2 b.2 → (Arch c.base.lib c.base.nVars a.1 ∧ SameController r.ctrl a.2) →
      (Arch c.base.lib c.base.nVars b.1 ∧ SameController r.ctrl b.2) :=
    fun hab ha => ⟨⟨sameShape_usable hab.1 ha.1.1, sameShape_smooth hab.1 ha.1.2⟩, sameController_trans ha.2 hab.2⟩
  have step : ∀ st n k, (Arch c.base.lib c.base.nVars st.net.1 ∧ SameController r.ctrl st.ctrl) →
      trainedLearn T ⟨c.base.lib, c.base.nVars, c.base.cert, doms, c.base.llo, c.base.rounding, c.base.quad, c.base.maxIters⟩ false w.dynNum st = .ok (n, k) →
      (Arch c.base.lib c.base.nVars n.1 ∧ SameController r.ctrl k) := by
    intro st n k h0 hl
    obtain ⟨m, hm⟩ := trained_after (w := w) st n k hl
    have := afterSteps_inv (Q := fun θ : Net × Controller => Arch c.base.lib c.base.nVars θ.1 ∧ SameController r.ctrl θ.2) (step := T.step st.iters)
      (fun t θ hθ => hA (h.shape st.iters t θ) hθ) (st.net.1, st.ctrl) h0 m
    rw [← hm] at this
    exact this
  obtain ⟨harch, hsame⟩ := (solves_guardBoth (Q := fun (n : Net × ℚ) k => Arch c.base.lib c.base.nVars n.1 ∧ SameController r.ctrl k) (fun st n k => step st n k)
    ⟨hn2, sameController_refl _⟩ h3).2
  obtain ⟨f, hfl⟩ := C77_closed_loop_shape _ _ _ _ _ hsame f0 hf0
  obtain ⟨f1, -, f3⟩ := control_field hread h.system h.inputs (by simp) hfl
  have hdyn : (w.withEstimate g g' ⟨c.base.lib, c.base.nVars, c.base.cert, doms, c.base.llo, c.base.rounding, c.base.quad, c.base.maxIters⟩).dynamics out.ctrl = f := h.dynamics _ _ hfl
  have := C88_roa_synthesis_partial ⟨c.base.lib, c.base.nVars, c.base.cert, doms, c.base.llo, c.base.rounding, c.base.quad, c.base.maxIters⟩ (w.withEstimate g g' ⟨c.base.lib, c.base.nVars, c.base.cert, doms, c.base.llo, c.base.rounding, c.base.quad, c.base.maxIters⟩)
    ⟨h.sound.backend, h.sound.oracle⟩ _ hc _ _ _ out h3 hf
    (by rw [hdyn]; exact f3) ⟨hlib, hwf, harch.1.1.input, harch.2⟩
  rw [hdyn] at this
  rw [← f1, ← rI]
  exact this

end

/-- **C88, roa-test.yaml (partial).** With dReal as the file says: every run returns after at most eleven passes. If it reports success, the certificate is at most the level (times 1.1) on the disc of
radius 0.1, and trajectories of the driven plant from that disc that start strictly below the level and stay in `(-1000, 1000)²`, 0.01 away from the origin, stay below the level; if the certificate is above the level on the
boundary of that square, they do stay in it. -/
theorem C88_roa_test_partial {w0 : ℕ → ℕ → ℕ → ℚ} {r : ReadyControl} {w : World (Option Box) Controller (Net × ℚ)} {T : Trainer Controller}
    (hr : readControl w0 roaConfig = .ok r) (hs : DRealWorld 2 w) (hd : ∀ k f, closedLoop .dreal r.sys 2 k = .ok f → w.dynamics k = f) (hfair : FairWorld w 2)
    (hT : KeepsSizes T) (fl : ℝ → ℚ) (gs : ℕ → Rng) (g g' : Rng)
    (wt : ℕ → ℕ → ℕ → ℚ) (bs : ℕ → ℕ → ℚ) :
    ∃ net S out, newNet 2 [5] [.SQUARE] false false wt bs = .ok net ∧ initData fl gs r.data = .ok S ∧
      Solves r.cfg.loop (singleComponents (w.withEstimate g g' r.cfg) r.cfg false (trainedLearn T r.cfg false w.dynNum)) (net, 0) r.ctrl S out ∧ (out.iters : ℤ) ≤ 11 ∧
      (out.found = true → (∀ p ∈ disc 0 0 (1/10), certValue 3 false out.net.1 p ≤ (out.net.2 : ℝ) * (11/10)) ∧
        ∀ (T : ℝ) (ξ : ℝ → Pt 2), Trajectory (driven plant (rounded5 out.ctrl)) T ξ → 0 ≤ T → ξ 0 ∈ disc 0 0 (1/10) →
          certValue 3 false out.net.1 (ξ 0) < (out.net.2 : ℝ) * (11/10) → (∀ t ∈ Icc 0 T, (1/100)^2 < normSq (ξ t)) →
          ((∀ t ∈ Icc 0 T, ξ t ∈ secondBox 2) ∨ ∀ p ∈ frontier (secondBox 2), (out.net.2 : ℝ) * (11/10) < certValue 3 false out.net.1 p) →
            ∀ t ∈ Icc 0 T, certValue 3 false out.net.1 (ξ t) ≤ (out.net.2 : ℝ) * (11/10)) := by
  have hbox : disc 0 0 (1/10) ⊆ secondBox 2 := by
    intro p hp i
    have hp : (p 0 - ((0 : ℚ) : ℝ)) ^ 2 + (p 1 - ((0 : ℚ) : ℝ)) ^ 2 ≤ (((1/10 : ℚ)) : ℝ) ^ 2 := hp
    push_cast at hp
    fin_cases i
    · constructor <;> simp only [Fin.zero_eta, Fin.mk_one] <;> nlinarith [sq_nonneg (p 1)]
    · constructor <;> simp only [Fin.zero_eta, Fin.mk_one] <;> nlinarith [sq_nonneg (p 0)]
  have run : DRealControlRun roaConfig w0 r 1 plant w T [5] [.SQUARE] :=
    ⟨rfl, roa_described, plant_text _ _, by decide, hr, (by decide : (0 : ℤ) ≤ 10), hs, hd, hfair, hT, square_good _ _ _⟩
  obtain ⟨net, S, out, h1, h2, h3, h4, h5⟩ := C88_control_roa_partial run rfl fl gs g g' wt bs
    (C77_draws_some _ w0 r roa_described hr (by simp [roaConfig, plantConfig]) (by show ∀ e ∈ [("XD", 1000), ("XI", 1000)], 0 < e.2; decide) fl gs)
    _ ⟨_, by simp [roaConfig, plantConfig], t01.1⟩
  refine ⟨net, S, out, h1, h2, h3, h4, fun hf => ?_⟩
  obtain ⟨a, b, d⟩ := h5 hf
  refine ⟨fun p hp => a p hp (hbox hp), fun T ξ x1 x2 x3 x4 x5 x6 => ?_⟩
  rcases x6 with x6 | x6
  · exact b T ξ x1 x2 x3 (Or.inr x4) x5 x6
  · exact fun t ht => (d x6 T ξ x1 x2 x3 (hbox x3) (Or.inr x4) x5 t ht).2

/-! ### Non-vacuity -/

namespace Spec

open Classical in
/-- An ideal dReal for `n` variables: `None` exactly for the unsatisfiable queries, otherwise a box with an entry for every variable. -/
noncomputable def zerosCheck (n : ℕ) (φ : Formula) : Option Box :=
  if ∃ ρ : Env, φ.holds ρ then some ((List.range n).map fun i => (i, 0)) else none

/-- The closed loops of the plant of the shipped files, of the right length where the code would raise. -/
noncomputable def plantLoops (k : Controller) : List Term :=
  match closedLoop .dreal plantSys 2 k with
  | .ok f => f
  | .error _ => [.const 0, .const 0]

/-- The shipped files in a world with the ideal dReal and no trajectory search. -/
noncomputable def plantWorld (N : Type) : World (Option Box) Controller N :=
  ⟨drealBackend, fun _ => drealOracle 2 fun _ _ => zerosCheck 2, fun _ _ _ => drealSolve 2 fun _ => zerosCheck 2, fun _ _ _ _ => 0, plantLoops, fun _ x => x,
    fun _ _ _ _ => .ok [], fun _ => .ok ()⟩

end Spec

theorem zerosCheck_none {n : ℕ} {φ : Formula} : zerosCheck n φ = none ↔ ∀ ρ : Env, ¬ φ.holds ρ := by
  unfold zerosCheck
  split <;> simp_all

theorem zerosCheck_sound (n : ℕ) : DRealSound (fun _ => zerosCheck n) := fun _ φ h => zerosCheck_none.1 h

theorem zerosCheck_boxes (n : ℕ) : BoxesInRange n (fun _ => zerosCheck n) := by
  intro _ φ bx _ _ h
  dsimp only [zerosCheck] at h
  split_ifs at h
  cases h
  intro p hp
  obtain ⟨i, -, rfl⟩ := List.mem_map.1 hp
  norm_num

theorem plantLoops_eq (k : Controller) (f) (h : closedLoop .dreal plantSys 2 k = .ok f) : plantLoops k = f := by
  unfold plantLoops
  rw [h]

theorem plantLoops_shape (k : Controller) : (plantLoops k).length = 2 ∧ AllBelow 2 (plantLoops k) := by
  unfold plantLoops
  cases h : closedLoop .dreal plantSys 2 k with
  | ok f => exact (control_field plant_read (plant_text true _) (by decide) (fun _ => rfl) h).2
  | error e =>
    refine ⟨rfl, fun t ht => ?_⟩
    simp only [List.mem_cons, List.not_mem_nil, or_false, or_self] at ht
    subst ht; trivial

theorem plantWorld_fair (N : Type) : FairWorld (plantWorld N) 2 := by
  refine ⟨fun k => (plantLoops_shape k).1, fun _ x hx => hx, fun i k φ h v hv => ?_, fun i m k cex => ⟨[], rfl, fun _ => rfl, by simp⟩⟩
  show ∃ q, drealValue (drealSolve 2 (fun _ => zerosCheck 2) φ) v = .ok q
  have h : drealIsSat (drealSolve 2 (fun _ => zerosCheck 2) φ) = true := h
  have key : ∀ ψ bx, zerosCheck 2 ψ = some bx → ∃ q, drealValue (some bx) v = .ok q := by
    intro ψ bx hb
    unfold zerosCheck at hb
    split_ifs at hb
    cases hb
    refine ⟨0, ?_⟩
    simp [drealValue, hv]
  cases hx : drealSolve 2 (fun _ => zerosCheck 2) φ with
  | none => rw [hx] at h; cases h
  | some bx =>
    simp only [drealSolve] at hx
    split at hx
    · exact key _ _ hx
    · exact key _ _ hx

theorem plantWorld_dreal (N : Type) : DRealWorld 2 (plantWorld N) :=
  ⟨rfl, fun _ => ⟨fun _ _ => zerosCheck 2, rfl, fun _ => zerosCheck_sound 2, fun _ => zerosCheck_boxes 2⟩⟩

theorem exTrainerK_keeps : KeepsSizes exTrainerK := fun _ _ _ => ⟨sameShape_refl _, sameController_refl _⟩

theorem exTrainerK2_keeps : KeepsSizes2 exTrainerK2 := fun _ _ _ => ⟨sameShape_refl _, sameShape_refl _, sameController_refl _⟩

/-- Non-vacuity of C88_roa_test_partial. -/
example (w0 : ℕ → ℕ → ℕ → ℚ) : ∃ r, readControl w0 roaConfig = .ok r ∧ DRealWorld 2 (plantWorld (Net × ℚ)) ∧
    (∀ k f, closedLoop .dreal r.sys 2 k = .ok f → (plantWorld (Net × ℚ)).dynamics k = f) ∧ FairWorld (plantWorld (Net × ℚ)) 2 ∧ KeepsSizes exTrainerK := by
  obtain ⟨cfg, data, h⟩ := roa_sets
  obtain ⟨k, h⟩ := plant_ready w0 h
  exact ⟨_, h, plantWorld_dreal _, fun k f hf => plantLoops_eq k f hf, plantWorld_fair _, exTrainerK_keeps⟩

/-- The sets of the shipped files are small. -/
theorem disc_small {a b r : ℚ} (h : |a| + |r| < 1000) (h' : |b| + |r| < 1000) : ∀ p ∈ disc a b r, ∀ i, -1000 < p i ∧ p i < 1000 := by
  intro p hp i
  have hp : (p 0 - (a : ℝ)) ^ 2 + (p 1 - (b : ℝ)) ^ 2 ≤ (r : ℝ) ^ 2 := hp
  have h : |(a : ℝ)| + |(r : ℝ)| < 1000 := by exact_mod_cast h
  have h' : |(b : ℝ)| + |(r : ℝ)| < 1000 := by exact_mod_cast h'
  have e0 := sq_le_sq.1 (by nlinarith [sq_nonneg (p 1 - (b : ℝ))] : (p 0 - (a : ℝ)) ^ 2 ≤ (r : ℝ) ^ 2)
  have e1 := sq_le_sq.1 (by nlinarith [sq_nonneg (p 0 - (a : ℝ))] : (p 1 - (b : ℝ)) ^ 2 ≤ (r : ℝ) ^ 2)
  have key : ∀ x y z : ℝ, |x - y| ≤ |z| → |y| + |z| < 1000 → -1000 < x ∧ x < 1000 := by
    intro x y z h1 h2
    rw [← abs_lt]
    calc |x| = |(x - y) + y| := by ring_nf
      _ ≤ |x - y| + |y| := abs_add_le _ _
      _ < 1000 := by linarith
  fin_cases i
  · exact key _ _ _ e0 h
  · exact key _ _ _ e1 h'

/-- Non-vacuity of the dReal worlds of C87: the files of the safety, reach and joint certificates with the ideal dReal. -/
theorem plantWorld_surroundings {ct doms nd N} (w0 : ℕ → ℕ → ℕ → ℚ) {cfg data} (h : readSets (plantConfig ct doms nd).base = .ok (cfg, data)) (hct : ct ≠ .ROA)
    (hd : DomainsDescribed (plantConfig ct doms nd).base) (hsm : ∀ k S, Configures 2 doms k S → ∀ p ∈ S, ∀ i, -1000 < p i ∧ p i < 1000) :
    ∃ r, readControl w0 (plantConfig ct doms nd) = .ok r ∧ Surroundings (plantConfig ct doms nd) r (plantWorld N) := by
  obtain ⟨k, hr⟩ := plant_ready w0 h
  have hs : SetsRun (plantConfig ct doms nd).base cfg := ⟨Or.inr rfl, hd, _, h⟩
  have hsmall := hs.small hsm
  obtain ⟨dd, e⟩ := hs.cfg
  refine ⟨_, hr, ⟨?_, fun k f hf => plantLoops_eq k f hf, plantWorld_fair _⟩⟩
  subst e
  exact .dreal _ (fun _ _ _ => zerosCheck 2) (fun _ _ _ _ => zerosCheck 2) rfl (fun _ => rfl) (fun _ _ _ => rfl) (fun _ _ => zerosCheck_sound 2)
    (fun _ _ => zerosCheck_boxes 2) (fun _ _ _ => zerosCheck_sound 2) (fun _ _ _ => zerosCheck_boxes 2) hsmall (fun k => (plantLoops_shape k).2) hct

theorem shipped_small {s : String} {S : Set (Pt 2)} (h : SetText 2 s S)
    (hs : s = "Sphere([0,0], 1.1)" ∨ s = "Sphere([0,0], 0.1)" ∨ s = "Sphere([0.8,0.8], 0.1)" ∨ s = "Sphere([0,0], 0.05)" ∨ s = "Sphere([0,0], 1.0)" ∨ s = "Sphere([0,0], 0.075)") :
    ∀ p ∈ S, ∀ i, -1000 < p i ∧ p i < 1000 := by
  rcases hs with rfl | rfl | rfl | rfl | rfl | rfl
  · rw [setText_unique h t11.1]; exact disc_small (by norm_num) (by norm_num)
  · rw [setText_unique h t01.1]; exact disc_small (by norm_num) (by norm_num)
  · rw [setText_unique h tU.1]; exact disc_small (by norm_num) (by norm_num)
  · rw [setText_unique h t005.1]; exact disc_small (by norm_num) (by norm_num)
  · rw [setText_unique h t10.1]; exact disc_small (by norm_num) (by norm_num)
  · rw [setText_unique h t0075.1]; exact disc_small (by norm_num) (by norm_num)

/-- Non-vacuity of C87_barrier_file, C87_rwa_file, C87_rswa_file, C87_rar_file and C87_stable_safe_file: a world for each file. -/
theorem shipped_worlds (w0 : ℕ → ℕ → ℕ → ℚ) (N : Type) : (∃ r, readControl w0 barrConfig = .ok r ∧ Surroundings barrConfig r (plantWorld N)) ∧
    (∃ r, readControl w0 stableSafeConfig = .ok r ∧ Surroundings stableSafeConfig r (plantWorld N)) ∧
    (∃ r, readControl w0 rwaConfig = .ok r ∧ Surroundings rwaConfig r (plantWorld N)) ∧ (∃ r, readControl w0 rswaConfig = .ok r ∧ Surroundings rswaConfig r (plantWorld N)) ∧
    ∃ r, readControl w0 rarConfig = .ok r ∧ Surroundings rarConfig r (plantWorld N) := by
  refine ⟨?_, ?_, ?_, ?_, ?_⟩
  · obtain ⟨_, _, h⟩ := barr_sets
    refine plantWorld_surroundings w0 h (by decide) (barr_described _ _) fun k S ⟨s, hm, hS⟩ => shipped_small hS ?_
    simp only [List.mem_cons, Prod.mk.injEq, List.not_mem_nil, or_false] at hm
    rcases hm with ⟨-, rfl⟩ | ⟨-, rfl⟩ | ⟨-, rfl⟩ <;> simp
  · obtain ⟨_, _, h⟩ := stableSafe_sets
    refine plantWorld_surroundings w0 h (by decide) (barr_described _ _) fun k S ⟨s, hm, hS⟩ => shipped_small hS ?_
    simp only [List.mem_cons, Prod.mk.injEq, List.not_mem_nil, or_false] at hm
    rcases hm with ⟨-, rfl⟩ | ⟨-, rfl⟩ | ⟨-, rfl⟩ <;> simp
  · obtain ⟨_, _, h⟩ := rwa_sets
    refine plantWorld_surroundings w0 h (by decide) (reach_described _ _) fun k S ⟨s, hm, hS⟩ => shipped_small hS ?_
    simp only [List.mem_cons, Prod.mk.injEq, List.not_mem_nil, or_false] at hm
    rcases hm with ⟨-, rfl⟩ | ⟨-, rfl⟩ | ⟨-, rfl⟩ | ⟨-, rfl⟩ <;> simp
  · obtain ⟨_, _, h⟩ := rswa_sets
    refine plantWorld_surroundings w0 h (by decide) (reach_described _ _) fun k S ⟨s, hm, hS⟩ => shipped_small hS ?_
    simp only [List.mem_cons, Prod.mk.injEq, List.not_mem_nil, or_false] at hm
    rcases hm with ⟨-, rfl⟩ | ⟨-, rfl⟩ | ⟨-, rfl⟩ | ⟨-, rfl⟩ <;> simp
  · obtain ⟨_, _, h⟩ := rar_sets
    refine plantWorld_surroundings w0 h (by decide) rar_described fun k S ⟨s, hm, hS⟩ => shipped_small hS ?_
    simp only [List.mem_cons, Prod.mk.injEq, List.not_mem_nil, or_false] at hm
    rcases hm with ⟨-, rfl⟩ | ⟨-, rfl⟩ | ⟨-, rfl⟩ | ⟨-, rfl⟩ | ⟨-, rfl⟩ <;> simp

/-- `x' = -x` in the setup of exROAStill, with dReal and LLO: success, and the certificate is above the level on the boundary of the box. -/
theorem exROA_dreal : SmoothSetup { exROAStill with lib := .dreal, llo := true, f := [.neg (.var 0)] } ∧
    (∃ groups, queriesCT { exROAStill with lib := .dreal, llo := true, f := [.neg (.var 0)] } = .ok groups ∧ DRealSuccess 1 groups) ∧
    ∀ p ∈ frontier (secondBox 1), (exROAStill.beta : ℝ) * (11/10) < certValue exROAStill.rounding exROAStill.quad exROAStill.net p := by
  have h1 : roundBy 3 1 = 1 := by decide +kernel
  refine ⟨⟨Or.inr rfl, by intro e he; simp [exROAStill] at he; subst he; simp [WF, exROAStill, noSel], rfl,
    by intro a ha; simp [exROAStill] at ha; simp [ha]⟩, ?_, fun p hp => ?_⟩
  · have : ∃ φ, queriesCT { exROAStill with lib := .dreal, llo := true, f := [.neg (.var 0)] } = .ok [[("lie", φ)]] ∧ ∀ ρ : Env, ¬ φ.holds ρ := by
      refine ⟨_, rfl, fun ρ h => ?_⟩
      simp [Formula.holds, Formula.conj, Term.eval, Term.sum, leZero, geZero, factors, vars, h1, exROAStill,
        eyeJac, postVal, postGrad, gradTerms, hiddenBias, diagJac] at h
      norm_num at h
      norm_cast at h
      rcases h with ⟨⟨h2, h3⟩, h4⟩ | ⟨⟨h2, h3⟩, h4⟩
      · exact absurd (abs_le.2 ⟨by linarith, by linarith⟩ : |ρ 0| ≤ 1) (not_le.2 h4)
      · nlinarith
    obtain ⟨φ, hq, hφ⟩ := this
    obtain ⟨cex, hv⟩ := single_dreal 1 (fun _ _ _ => 0) (fun _ _ => zerosCheck 1) "lie" φ (by simp [drealSolve, zerosCheck_none.2 hφ, drealIsSat])
    refine ⟨_, hq, queriesCT_below (s := { exROAStill with lib := .dreal, llo := true, f := [.neg (.var 0)] }) ?_ hq, _, _, cex,
      fun _ => zerosCheck_sound 1, fun _ => zerosCheck_boxes 1, hv⟩
    intro t ht
    simp at ht
    subst ht
    simp [exROAStill, termBelow]
  · have hn : ¬ (-1000 < p 0 ∧ p 0 < 1000) := fun h => hp.2 (by
      rw [(secondBox_open 1).interior_eq]
      intro i; rw [Fin.fin_one_eq_zero i]; exact h)
    have hv : certValue exROAStill.rounding exROAStill.quad exROAStill.net p = p 0 ^ 2 := by
      simp [certValue, exROAStill, roundedNet, Net.forward, hiddenForward, roundedHidden, roundedLast, h1, Layer.apply, dotR, Act.forward, coordList, at?,
        Bind.bind, Except.bind, pure, Except.pure]
    rw [hv]
    norm_num [exROAStill]
    by_contra hc
    push Not at hc
    have := abs_le.1 hc
    exact hn ⟨by linarith, by linarith⟩

end Fossil

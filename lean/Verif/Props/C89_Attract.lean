/-
C89: what a verified region of attraction (with LLO) attracts, for one network and for the stability half of
stable-while-safe: from the verified query to complete runs of configuration files.
-/
import Verif.Props.C86_KinkControl

namespace Fossil
open Spec Set Filter Topology

variable {R K : Type} {n : ℕ}

namespace Spec

/-- What "a verified region of attraction" means for trajectories of `F`: `V` is the certificate, `level` the verified level and `I` the initial set.
Outside the ball of radius 0.01 (`normSq` is the squared Euclidean norm) nothing else than the level confines a trajectory. -/
structure AttractionRegion (F : Pt n → Pt n) (V : Pt n → ℝ) (level : ℝ) (I : Set (Pt n)) : Prop where
  /-- The initial set is in the verified level set. -/
  covers : ∀ p ∈ I, V p ≤ level
  /-- While a trajectory that starts below the level is outside the ball of radius 0.01, the certificate strictly decreases. -/
  descends : ∀ (T : ℝ) (ξ : ℝ → Pt n), Trajectory F T ξ → V (ξ 0) < level → (∀ t ∈ Icc 0 T, (1/100)^2 < normSq (ξ t)) →
    StrictAntiOn (fun t => V (ξ t)) (Icc 0 T)
  /-- For every compact set and every radius above 0.01 there is a time by which every trajectory that starts below the level and stays in the compact set has
  been in the ball of that radius. -/
  enters : ∀ K : Set (Pt n), IsCompact K → ∀ ε : ℝ, 1/100 < ε → ∃ τ : ℝ, 0 ≤ τ ∧ ∀ (T : ℝ) (ξ : ℝ → Pt n), Trajectory F T ξ → τ ≤ T →
    V (ξ 0) < level → (∀ t ∈ Icc 0 T, ξ t ∈ K) → ∃ t ∈ Icc 0 τ, normSq (ξ t) < ε ^ 2
  /-- If the certificate is at the level or above on the frontier of a compact set, and below `b` in the part of the ball of radius 0.01 inside it, then trajectories that start
  in the set at or below `c` (`b ≤ c < level`) stay in it, stay at or below `c`, and after a common time stay at or below `b`. -/
  settles : ∀ A : Set (Pt n), IsCompact A → ∀ b c : ℝ, b ≤ c → c < level → (∀ p ∈ A, normSq p ≤ (1/100)^2 → V p < b) →
    (∀ p ∈ frontier A, level ≤ V p) → ∃ τ : ℝ, ∀ (T : ℝ) (ξ : ℝ → Pt n), Trajectory F T ξ → ξ 0 ∈ A → V (ξ 0) ≤ c →
      ∀ t ∈ Icc 0 T, ξ t ∈ A ∧ V (ξ t) ≤ c ∧ (τ ≤ t → V (ξ t) ≤ b)

/-- The solver decides the first query of every verification (the Lyapunov query of stable-while-safe): it does not run into its time limit. -/
def DecidesFirst {K N : Type} (w : World Answer K N) : Prop := ∀ i φ, w.oracle i 0 φ ≠ .unknown

end Spec

theorem continuous_normSq : Continuous (normSq : Pt n → ℝ) :=
  continuous_finsetSum _ fun i _ => (continuous_apply i).pow 2

/-- Strict decrease outside an open set on a compact set: trajectories that stay in the compact set enter the open set within a common time. -/
theorem enters_off {V L : Pt n → ℝ} {F : Pt n → Pt n} (hF : Continuous F) (hV : Continuous V) (hL : OffLie F V L)
    {C G : Set (Pt n)} (hC : IsCompact C) (hG : IsOpen G) {c : ℝ} (hneg : ∀ p ∈ C, p ∉ G → V p ≤ c → L p < 0) :
    ∃ τ : ℝ, 0 ≤ τ ∧ ∀ (T : ℝ) (ξ : ℝ → Pt n), Trajectory F T ξ → τ ≤ T → V (ξ 0) < c → (∀ t ∈ Icc 0 T, ξ t ∈ C) → ∃ t ∈ Icc 0 τ, ξ t ∈ G := by
  have hK : IsCompact ((C ∩ Gᶜ) ∩ V ⁻¹' Iic c) := (hC.inter_right hG.isClosed_compl).inter_right (isClosed_Iic.preimage hV)
  obtain ⟨δ, hδ, hdec⟩ := uniform_decrease hF hV hK fun η hη hin =>
    (hL 1 η hη).strictAnti (fun t ht => hneg _ (hin t ht).1.1 (hin t ht).1.2 (hin t ht).2)
      ⟨le_rfl, zero_le_one⟩ ⟨zero_le_one, le_rfl⟩ zero_lt_one
  obtain ⟨M, hM⟩ := (hK.image hV).isBounded.exists_norm_le
  have hMp : ∀ p ∈ (C ∩ Gᶜ) ∩ V ⁻¹' Iic c, |V p| ≤ M := fun p hp => by
    have := hM _ ⟨p, hp, rfl⟩
    rwa [Real.norm_eq_abs] at this
  obtain ⟨N, hN⟩ := exists_nat_gt (2 * M / δ)
  refine ⟨N, Nat.cast_nonneg N, fun T ξ hξ hT h0 hin => ?_⟩
  by_contra hno
  push Not at hno
  have hle := ((hL T ξ hξ).restrict le_rfl hT).fence h0 le_rfl fun t ht _ h2 =>
    (hneg _ (hin t ⟨ht.1, ht.2.le.trans hT⟩) (hno t ⟨ht.1, ht.2.le⟩) h2.le).le
  have hmem : ∀ t ∈ Icc (0:ℝ) N, ξ t ∈ (C ∩ Gᶜ) ∩ V ⁻¹' Iic c := fun t ht =>
    ⟨⟨hin t ⟨ht.1, ht.2.trans hT⟩, hno t ht⟩, (hle t ht).trans h0.le⟩
  have key : ∀ k : ℕ, k ≤ N → V (ξ k) ≤ V (ξ 0) - k * δ := by
    intro k
    induction k with
    | zero => intro _; simp
    | succ k ih =>
      intro hk
      have hkN : (k:ℝ) + 1 ≤ N := by exact_mod_cast hk
      have hk0 : (0:ℝ) ≤ k := Nat.cast_nonneg k
      have h2 := traj_restrict hξ (show (k:ℝ) + 1 ≤ T by linarith)
      have h3 := traj_shift h2 hk0
      rw [add_sub_cancel_left] at h3
      have h4 := hdec _ h3 (fun r hr => hmem _ ⟨by linarith [hr.1], by linarith [hr.2]⟩)
      simp only [add_zero] at h4
      have := ih (by omega)
      push_cast
      linarith
  have h1 := key N le_rfl
  have h2 := hMp _ (hmem N ⟨Nat.cast_nonneg N, le_rfl⟩)
  have h3 := hMp _ (hmem 0 ⟨le_rfl, Nat.cast_nonneg N⟩)
  rw [div_lt_iff₀ hδ] at hN
  rw [abs_le] at h2 h3
  linarith [h2.1, h3.2]

/-- **C89.** An accepted region-of-attraction certificate with LLO, whatever its activations, for a continuous vector field: the verified level set is a region of attraction
in the sense of `AttractionRegion`. -/
theorem C89_roa_attracts (s : Setup) (hs : AnySetup s) (hc : s.cert = .ROA) (hllo : s.llo = true) (groups)
    (hq : queriesCT s = .ok groups) (ha : Accepted s.nVars groups) (hF : Continuous (field s.nVars s.f)) :
    AttractionRegion (field s.nVars s.f) (certValue s.rounding s.quad s.net) ((s.beta : ℝ) * (11/10)) (region s.nVars s.domains XI) := by
  obtain ⟨d, V, Vdot, h1, h2, h3⟩ := queriesCT_inv hq
  rw [hc] at h3
  have hd : DistinctLabels groups := by
    unfold singleConstraints roaConstraints at h3
    simp only [Bind.bind, Except.bind] at h3
    split at h3
    · cases h3
    cases h3
    simp [DistinctLabels, queries]
  obtain ⟨init, hi, H1, H2⟩ := roa_inv h3 (accepted_refutes hd ha)
  have hL : OffLie (field s.nVars s.f) (certValue s.rounding s.quad s.net) (fun q => Vdot.eval q.env) := fun T ξ hξ => traj_off h2 hs.size hξ
  have hneg : ∀ p : Pt s.nVars, certValue s.rounding s.quad s.net p ≤ (s.beta : ℝ) * (11/10) → (1/100)^2 < normSq p → Vdot.eval p.env < 0 := fun p hp hn => by
    have := H2 p (by rwa [certValue_eq h2]) (by norm_num at hn ⊢; exact hn)
    rw [hllo] at this
    simpa using this
  have hV := continuous_certValue s.nVars s.rounding s.quad s.net
  refine ⟨(C08_roa_conditions s hs.lib hs.sets hs.size hc groups hq ha).1, fun T ξ hξ hlt hout => (C82_roa_invariant s hs hc groups hq ha T ξ hξ hlt hout).2 hllo,
    fun C hC ε hε => ?_, fun A hA b c hbc hcl hball hfr => ?_⟩
  · refine enters_off hF hV hL hC (isOpen_Iio.preimage (continuous_normSq (n := s.nVars))) (G := {p | normSq p < ε ^ 2}) fun p _ hp hle => hneg p hle ?_
    have : ε ^ 2 ≤ normSq p := not_lt.1 hp
    nlinarith
  · refine ultimate_off hF hV hL hA hbc hcl (fun p hp hb hl => hneg p hl.le ?_) hfr
    by_contra hn
    exact absurd hb (not_le.2 (hball p hp (not_lt.1 hn)))

/-- **C89 (synthesis).** A successful ROA synthesis with LLO, whatever the activations, gives a region of attraction of the closed loop it returns. -/
theorem C89_synthesis_roa (c : SynthCfg) (w : World R K (Net × ℚ)) (hw : SoundWorld c w) (learn)
    (hlib : c.lib = .z3 ∨ c.lib = .dreal) (hwf : WFDomains c.nVars c.domains) (hc : c.cert = .ROA) (hllo : c.llo = true) (net ctrl S out)
    (h : Solves c.loop (singleComponents w c false learn) net ctrl S out) (hf : out.found = true)
    (hsz : out.net.1.inputSize = c.nVars) (hF : Continuous (field c.nVars (w.dynamics out.ctrl))) :
    AttractionRegion (field c.nVars (w.dynamics out.ctrl)) (certValue c.rounding c.quad out.net.1) ((out.net.2 : ℝ) * (11/10)) (region c.nVars c.domains XI) := by
  obtain ⟨g, hq, ha⟩ := run_accepted_any hw hlib hwf h hf
  exact C89_roa_attracts (c.setup out.net.1 out.net.2 (w.dynamics out.ctrl)) ⟨hlib, hwf, hsz⟩ hc hllo g hq ha hF

/-- If the solver decided the Lyapunov query, a success of the verifier on a stable-while-safe pair accepts the region-of-attraction half. -/
theorem stable_safe_roa_accepted (s : Setup) (barr : Net) (hc : s.cert = .STABLESAFE) (groups) (hq : queriesDouble s barr = .ok groups)
    (noise) (o : Oracle Answer) (sound : RefutationSound o) (hdec : ∀ φ, o 0 φ ≠ .unknown) (cex)
    (hv : verify smtBackend s.nVars noise o groups = .ok ⟨true, cex⟩) :
    ∃ q0, queriesCT s.roaHalf = .ok [[(XD, q0)]] ∧ Accepted s.nVars [[(XD, q0)]] := by
  obtain ⟨q0, q1, q2, q3, rfl, hR, -⟩ := safeRoa_split hc hq
  obtain ⟨u0, -, -, -⟩ := verify_four smtBackend s.nVars noise o q0 q1 q2 q3 cex (fun k φ _ hu => by rw [unsat_of_isUnsat hu]; rfl) hv
  have hu : o 0 q0 = .unsat := by
    have := hdec q0
    cases h : o 0 q0 with
    | unsat => rfl
    | unknown => exact absurd h this
    | sat m => rw [h] at u0; simp [smtBackend, Answer.isSat] at u0
  exact ⟨q0, hR, accepted_of_refuted (by simp [DistinctLabels, queries]) (single_refuted (sound _ _ hu))⟩

/-- **C89 (stable while safe, synthesis).** With LLO and a solver that decides the Lyapunov query, a successful stable-while-safe synthesis gives a region of attraction. -/
theorem C89_synthesis_stable_safe (c : SynthCfg) (w : World Answer K ((Net × ℚ) × Net)) (hb : w.backend = smtBackend) (ho : ∀ i, RefutationSound (w.oracle i))
    (hdec : DecidesFirst w) (learn) (hlib : c.lib = .z3 ∨ c.lib = .dreal) (hwf : WFDomains c.nVars c.domains) (hc : c.cert = .STABLESAFE) (hllo : c.llo = true)
    (net ctrl S out) (h : Solves c.loop (doubleComponents w c learn) net ctrl S out) (hf : out.found = true)
    (hsz : out.net.1.1.inputSize = c.nVars) (hF : Continuous (field c.nVars (w.dynamics out.ctrl))) :
    AttractionRegion (field c.nVars (w.dynamics out.ctrl)) (certValue c.rounding false out.net.1.1) ((out.net.1.2 : ℝ) * (11/10)) (region c.nVars c.domains XI) := by
  obtain ⟨g, i, cex, hq, hv⟩ := solve_queries_double w c learn net ctrl S out h hf
  rw [hb] at hv
  obtain ⟨q0, hR, ha⟩ := stable_safe_roa_accepted (c.setup out.net.1.1 out.net.1.2 (w.dynamics out.ctrl)) out.net.2 hc g hq (w.noise i) (w.oracle i) (ho i)
    (hdec i) cex hv
  exact C89_roa_attracts (c.setup out.net.1.1 out.net.1.2 (w.dynamics out.ctrl)).roaHalf ⟨hlib, hwf, hsz⟩ rfl hllo _ hR ha hF

/-! ### complete runs of a file -/

section
variable {c : ConfigText} {r : Ready} {F : Pt c.nVars → Pt c.nVars} {w : World R Unit (Net × ℚ)} {T : Trainer Unit} {hidden : List ℕ} {acts : List ActivationType}

/-- **C89 (file, one network).** For every accepted ROA file with LLO, whatever supported activations, and a continuous written vector field: the run returns; if it reports
success, the returned network and level are a region of attraction of the written vector field containing the written initial set. -/
theorem C89_file_roa (h : AnyFileRun c r F w T hidden acts) (hc : c.cert = .ROA) (hllo : c.llo = true) (fl : ℝ → ℚ)
    (gs : ℕ → Rng) (g g' : Rng) (wt : ℕ → ℕ → ℕ → ℚ) (bs : ℕ → ℕ → ℚ) (hdraw : DrawsSome fl gs r.data)
    (I : Set (Pt c.nVars)) (hI : Configures c.nVars c.domains "XI" I) (hF : Continuous F) :
    ∃ net S out, newNet c.nVars hidden acts c.llo (certBias c.cert) wt bs = .ok net ∧ initData fl gs r.data = .ok S ∧
      Solves r.cfg.loop (singleComponents (w.withEstimate g g' r.cfg) r.cfg false (trainedLearn T r.cfg false w.dynNum)) (net, 0) () S out ∧
      (out.iters : ℤ) ≤ c.maxIters + 1 ∧
      (out.found = true → AttractionRegion F (certValue c.rounding c.quad out.net.1) ((out.net.2 : ℝ) * (11/10)) I) :=
  anyFile_total_with h (by rw [hc]; refine ⟨?_, ?_, ?_⟩ <;> intro h <;> cases h) (by rw [hc]; decide) false (fun h => by cases h) fl gs g g' wt bs hdraw
    (fun learn net S0 out hr hs hf => by
      have hsz := anyRun_size hr hs hf
      have hw := hr.sound
      have hss := anyRun_sets hr
      have hfld := anyRun_field hr out.ctrl
      have rI := hss.region .XI (by decide) (by decide) (by intro h; cases h) hI
      have hwf := hss.wf
      clear h
      obtain ⟨cfg, f, data⟩ := r
      obtain ⟨doms, e⟩ := hss.cfg
      dsimp only at e rI hwf hw hs
      subst e rI
      have := C89_synthesis_roa _ _ hw learn hss.lib hwf hc hllo net () S0 out hs hf hsz (by rw [hfld]; exact hF)
      dsimp only at this
      rw [hfld] at this
      exact this)

end

section
variable {c : ConfigText} {r : Ready} {F : Pt c.nVars → Pt c.nVars} {w : World Answer Unit ((Net × ℚ) × Net)} {T : Trainer2 Unit} {hidden hidden2 : List ℕ}
  {acts acts2 : List ActivationType}

/-- The first network of a run without bias and with vanishing activations vanishes at the origin. -/
theorem anyFile2_zero (h : AnyFileRun2 c r F w T hidden hidden2 acts acts2) {net net2 : Net} (hz : ZeroNet net) {b0 : ℚ} {S out}
    (hs : Solves r.cfg.loop (doubleComponents w r.cfg (trainedLearn2 T r.cfg w.dynNum)) ((net, b0), net2) () S out) : ZeroNet out.net.1.1 :=
  (solves_guard (C := doubleComponents w r.cfg (trainedLearn2 T r.cfg w.dynNum)) (Q := fun n : (Net × ℚ) × Net => ZeroNet n.1.1) (fun st n k h0 hl => by
    obtain ⟨m, hm⟩ := trained_after2 hl
    have key : ∀ m, ZeroNet (afterSteps (T.step st.iters) m ((st.net.1.1, st.net.2), st.ctrl)).1.1 := by
      intro m
      induction m with
      | zero => exact h0
      | succ m ih => exact sameShape_zero (h.shape st.iters m _).1 ih
    have := key m
    rw [← hm] at this
    exact this) hz hs).2

/-- **C89 (file, stable while safe).** For every accepted StableSafe file with LLO, whatever supported activations, a continuous written vector field and a z3 whose "unsat" answers
are right and that decides the Lyapunov queries: the run returns; if it reports success, the first network and its level are a region of attraction of the written vector field containing
the written initial set; if moreover the activations of the first network vanish at 0, its certificate is 0 at the origin; and if no kink of the second network lies on its zero level in the
written domain, no trajectory from the initial set that stays in the domain reaches the unsafe set. -/
theorem C89_file_stable_safe (h : AnyFileRun2 c r F w T hidden hidden2 acts acts2) (hc : c.cert = .STABLESAFE) (hllo : c.llo = true)
    (hb : w.backend = smtBackend) (ho : ∀ i, RefutationSound (w.oracle i)) (hdec : DecidesFirst w) (fl : ℝ → ℚ)
    (gs : ℕ → Rng) (wt wt2 : ℕ → ℕ → ℕ → ℚ) (bs bs2 : ℕ → ℕ → ℚ) (hdraw : DrawsSome fl gs r.data)
    (I D U : Set (Pt c.nVars)) (hI : Configures c.nVars c.domains "XI" I) (hD : Configures c.nVars c.domains "XD" D) (hU : Configures c.nVars c.domains "XU" U)
    (hF : Continuous F) :
    ∃ net net2 S out, newNet c.nVars hidden acts c.llo (certBias2 c.cert).1 wt bs = .ok net ∧
      newNet c.nVars hidden2 acts2 false (certBias2 c.cert).2 wt2 bs2 = .ok net2 ∧ initData fl gs r.data = .ok S ∧
      Solves r.cfg.loop (doubleComponents w r.cfg (trainedLearn2 T r.cfg w.dynNum)) ((net, 0), net2) () S out ∧ (out.iters : ℤ) ≤ c.maxIters + 1 ∧
      (out.found = true →
        AttractionRegion F (certValue c.rounding false out.net.1.1) ((out.net.1.2 : ℝ) * (11/10)) I ∧
        (Vanishing acts → certValue c.rounding false out.net.1.1 (0 : Pt c.nVars) = 0) ∧
        ((∀ p ∈ D, certValue c.rounding false out.net.2 p = 0 → noKink (roundedNet c.rounding out.net.2).layers.dropLast out.net.2.acts (coordList p)) →
          ∀ (T : ℝ) (ξ : ℝ → Pt c.nVars), Trajectory F T ξ → ξ 0 ∈ I → (∀ t ∈ Icc 0 T, ξ t ∈ D) → ∀ t ∈ Icc 0 T, ξ t ∉ U)) := by
  obtain ⟨net, net2, S, out, a1, a2, a3, a4, a5, a6⟩ := C84_file_stable_safe h hc fl gs wt wt2 bs bs2 hdraw I D U hI hD hU
  refine ⟨net, net2, S, out, a1, a2, a3, a4, a5, fun hf => ⟨?_, fun hz => ?_, a6 hf⟩⟩
  · obtain ⟨net', e1, b1, -⟩ := newNet_usable (n := c.nVars) h.net (certBias2 c.cert).1 wt bs
    rw [a1] at e1; cases e1
    obtain ⟨net', e2, b2, -⟩ := newNet_usable (n := c.nVars) h.net2 (certBias2 c.cert).2 wt2 bs2
    rw [a2] at e2; cases e2
    obtain ⟨s1, -⟩ := anyFile2_sizes h b1 b2 a4
    have hss : SetsRun c r.cfg := ⟨h.lib, h.domains, _, (readConfig_inv h.accepted).2⟩
    have hfld : field c.nVars (w.dynamics out.ctrl) = F := by
      rw [h.dynamics]; exact (config_field (readConfig_inv h.accepted).1 h.system).1
    have rI := hss.region .XI (by decide) (by decide) (by intro h; cases h) hI
    have hwf := hss.wf
    generalize trainedLearn2 T r.cfg w.dynNum = learn at a4
    clear h a6
    obtain ⟨cfg, f, data⟩ := r
    obtain ⟨doms, e⟩ := hss.cfg
    dsimp only at e rI hwf a4
    subst e rI
    have := C89_synthesis_stable_safe _ w hb ho hdec learn hss.lib hwf hc hllo _ _ _ out a4 hf s1 (by rw [hfld]; exact hF)
    dsimp only at this
    rw [hfld] at this
    exact this
  · obtain ⟨net', e1, -, b1⟩ := newNet_usable (n := c.nVars) h.net (certBias2 c.cert).1 wt bs
    rw [a1] at e1; cases e1
    exact C47_vanishes_at_origin _ _ _ _ (Or.inr (anyFile2_zero h (b1 (by rw [hc]; rfl) hz) a4))

end

/-! ### complete runs of a file with a controller -/

section
variable {c : ControlConfig} {w0 : ℕ → ℕ → ℕ → ℚ} {r : ReadyControl} {m : ℕ} {F : Pt c.base.nVars → Pt m → Pt c.base.nVars} {w : World R Controller (Net × ℚ)}
  {T : Trainer Controller} {hidden : List ℕ} {acts : List ActivationType}

/-- **C89 (file with a controller, one network).** The same for the written system driven by the returned controller (rounded to five decimals). -/
theorem C89_control_roa (h : AnyControlRun c w0 r m F w T hidden acts) (hc : c.base.cert = .ROA) (hllo : c.base.llo = true) (fl : ℝ → ℚ)
    (gs : ℕ → Rng) (g g' : Rng) (wt : ℕ → ℕ → ℕ → ℚ) (bs : ℕ → ℕ → ℚ) (hdraw : DrawsSome fl gs r.data)
    (I : Set (Pt c.base.nVars)) (hI : Configures c.base.nVars c.base.domains "XI" I) (hF : Continuous (fun z : Pt c.base.nVars × Pt m => F z.1 z.2)) :
    ∃ net S out, newNet c.base.nVars hidden acts c.base.llo (certBias c.base.cert) wt bs = .ok net ∧ initData fl gs r.data = .ok S ∧
      Solves r.cfg.loop (singleComponents (w.withEstimate g g' r.cfg) r.cfg false (trainedLearn T r.cfg false w.dynNum)) (net, 0) r.ctrl S out ∧
      (out.iters : ℤ) ≤ c.base.maxIters + 1 ∧
      (out.found = true → AttractionRegion (driven F (rounded5 out.ctrl)) (certValue c.base.rounding c.base.quad out.net.1) ((out.net.2 : ℝ) * (11/10)) I) :=
  anyControl_total_with h (by rw [hc]; refine ⟨?_, ?_, ?_⟩ <;> intro h <;> cases h) (by rw [hc]; decide) false (fun h => by cases h) fl gs g g' wt bs hdraw
    (fun learn net ctrl S out hs hf hsz hfld hlen => by
      have hw := soundWorld_estimateK h.sound g g'
      have hss := anyControl_sets h
      have rI := hss.region .XI (by decide) (by decide) (by intro h; cases h) hI
      have hwf := hss.wf
      have hdd : (w.withEstimate g g' r.cfg).dynamics out.ctrl = w.dynamics out.ctrl := rfl
      rw [← hdd] at hfld
      generalize w.withEstimate g g' r.cfg = w' at *
      clear hdd h
      obtain ⟨cfg, sys, k0, data⟩ := r
      obtain ⟨doms, e⟩ := hss.cfg
      dsimp only at e rI hwf hw hs
      subst e rI
      have := C89_synthesis_roa _ w' hw learn hss.lib hwf hc hllo net ctrl S out hs hf hsz (by rw [hfld]; exact driven_continuous hF _)
      dsimp only at this
      rw [hfld] at this
      exact this)
end

section
variable {c : ControlConfig} {w0 : ℕ → ℕ → ℕ → ℚ} {r : ReadyControl} {m : ℕ} {F : Pt c.base.nVars → Pt m → Pt c.base.nVars} {w : World Answer Controller ((Net × ℚ) × Net)}
  {T : Trainer2 Controller} {hidden hidden2 : List ℕ} {acts acts2 : List ActivationType}

/-- **C89 (file with a controller, stable while safe).** -/
theorem C89_control_stable_safe (h : AnyControlRun2 c w0 r m F w T hidden hidden2 acts acts2) (hc : c.base.cert = .STABLESAFE) (hllo : c.base.llo = true)
    (hb : w.backend = smtBackend) (ho : ∀ i, RefutationSound (w.oracle i)) (hdec : DecidesFirst w) (fl : ℝ → ℚ)
    (gs : ℕ → Rng) (wt wt2 : ℕ → ℕ → ℕ → ℚ) (bs bs2 : ℕ → ℕ → ℚ) (hdraw : DrawsSome fl gs r.data)
    (I D U : Set (Pt c.base.nVars)) (hI : Configures c.base.nVars c.base.domains "XI" I) (hD : Configures c.base.nVars c.base.domains "XD" D) (hU : Configures c.base.nVars c.base.domains "XU" U)
    (hF : Continuous (fun z : Pt c.base.nVars × Pt m => F z.1 z.2)) :
    ∃ net net2 S out, newNet c.base.nVars hidden acts c.base.llo (certBias2 c.base.cert).1 wt bs = .ok net ∧
      newNet c.base.nVars hidden2 acts2 false (certBias2 c.base.cert).2 wt2 bs2 = .ok net2 ∧ initData fl gs r.data = .ok S ∧
      Solves r.cfg.loop (doubleComponents w r.cfg (trainedLearn2 T r.cfg w.dynNum)) ((net, 0), net2) r.ctrl S out ∧ (out.iters : ℤ) ≤ c.base.maxIters + 1 ∧
      (out.found = true →
        AttractionRegion (driven F (rounded5 out.ctrl)) (certValue c.base.rounding false out.net.1.1) ((out.net.1.2 : ℝ) * (11/10)) I ∧
        ((∀ p ∈ D, certValue c.base.rounding false out.net.2 p = 0 → noKink (roundedNet c.base.rounding out.net.2).layers.dropLast out.net.2.acts (coordList p)) →
          ∀ (T : ℝ) (ξ : ℝ → Pt c.base.nVars), Trajectory (driven F (rounded5 out.ctrl)) T ξ → ξ 0 ∈ I → (∀ t ∈ Icc 0 T, ξ t ∈ D) → ∀ t ∈ Icc 0 T, ξ t ∉ U)) :=
  anyControl2_total_with h (Or.inl hc) fl gs wt wt2 bs bs2 hdraw (fun learn net ctrl S out hs s1 s2 hfld hf => by
    have hss : SetsRun c.base r.cfg := ⟨h.lib, h.domains, _, (readControl_inv h.accepted).2.1⟩
    have hw := h.sound
    have rI := hss.region .XI (by decide) (by decide) (by intro h; cases h) hI
    have rD := hss.region .XD (by decide) (by decide) (by rintro -; simp [hc]) hD
    have rU := hss.region .XU (by decide) (by decide) (by intro h; cases h) hU
    have hwf := hss.wf
    clear h
    obtain ⟨cfg, sys, k0, data⟩ := r
    obtain ⟨doms, e⟩ := hss.cfg
    dsimp only at e rI rD rU hwf hw hs
    subst e rI rD rU
    refine ⟨?_, fun hk T' ξ a b d => C83_synthesis_stable_safe _ w hw learn hss.lib hwf hc _ _ _ out hs hf s2 hk T' ξ (by rw [hfld]; exact a) b d⟩
    have := C89_synthesis_stable_safe _ w hb ho hdec learn hss.lib hwf hc hllo _ _ _ out hs hf s1 (by rw [hfld]; exact driven_continuous hF _)
    dsimp only at this
    rw [hfld] at this
    exact this)
end

/-! ### non-vacuity -/

/-- A solver that answers "unsat" exactly for what is unsatisfiable, and otherwise "sat" with the model 0. -/
noncomputable def decidingSolver (φ : Formula) : Answer := by
  classical exact if ∀ ρ : Env, ¬ φ.holds ρ then .unsat else .sat fun _ => some (.rat 0)

/-- The world of that solver; `dyn` gives the dynamics for each controller. -/
noncomputable def decidingWorld {K : Type} (N : Type) (dyn : K → List Term) : World Answer K N :=
  ⟨smtBackend, fun _ _ => decidingSolver, fun _ _ _ => decidingSolver, fun _ _ _ _ => 0, dyn, fun _ x => x, fun _ _ _ _ => .ok [], fun _ => .ok ()⟩

theorem decidingSolver_sound (φ : Formula) (h : decidingSolver φ = .unsat) (ρ : Env) : ¬ φ.holds ρ := by
  unfold decidingSolver at h
  split at h
  · rename_i hn; exact hn ρ
  · cases h

theorem decidingSolver_decides (φ : Formula) : decidingSolver φ ≠ .unknown := by
  unfold decidingSolver
  split <;> intro h <;> cases h

theorem decidingWorld_sound {K : Type} (c : SynthCfg) (N : Type) (f : K → List Term) : SoundWorld c (decidingWorld N f) :=
  .smt _ rfl (fun _ _ φ h => decidingSolver_sound φ h) fun _ _ _ φ h => decidingSolver_sound φ h

theorem decidingWorld_fair {K : Type} (N : Type) (f : K → List Term) (n : ℕ) (hf : ∀ k, (f k).length = n) : FairWorld (decidingWorld N f) n where
  dyn := hf
  num _ x hx := hx
  val i k φ h := by
    have h : smtBackend.isSat (decidingSolver φ) = true := h
    intro v _
    show ∃ q, smtBackend.value (decidingSolver φ) v = .ok q
    unfold decidingSolver at h ⊢
    split at h
    · cases h
    · rename_i hn
      rw [if_neg hn]
      exact ⟨0, rfl⟩
  cons _ _ _ _ := ⟨[], rfl, fun _ => rfl, fun r hr => by cases hr⟩

/-- A StableSafe file with ReLU units and LLO and a ROA file with LLO meeting the hypotheses of `C89_file_stable_safe` and `C89_file_roa`. -/
example : (∃ r, AnyFileRun2 exSSConfig r (fun p i => - p i) (decidingWorld ((Net × ℚ) × Net) fun _ : Unit => r.f) exTrainer2 [2] [2] [.RELU] [.RELU] ∧
      DecidesFirst (decidingWorld ((Net × ℚ) × Net) fun _ : Unit => r.f) ∧ (∀ i, RefutationSound ((decidingWorld ((Net × ℚ) × Net) fun _ : Unit => r.f).oracle i)) ∧ Vanishing [.RELU] ∧
      exSSConfig.llo = true ∧ ∀ fl g, DrawsSome fl g r.data) ∧ exROAConfig.llo = true ∧ Continuous (fun (p : Pt 1) i => - p i) := by
  refine ⟨?_, rfl, by fun_prop⟩
  obtain ⟨r, w, learn, hr, -⟩ := exSSConfig_run
  have hlen : r.f.length = 1 := (config_field (readConfig_inv hr.accepted).1 hr.system).2.1
  refine ⟨r, ⟨hr.lib, hr.domains, hr.system, hr.accepted, by decide, decidingWorld_sound _ _ _, fun _ => rfl, decidingWorld_fair _ _ _ fun _ => hlen,
    fun _ _ _ => ⟨sameShape_refl _, sameShape_refl _⟩, relu_usable _, relu_usable _⟩, fun i φ => decidingSolver_decides φ, fun _ _ φ h => decidingSolver_sound φ h, ?_, rfl,
    fun fl g => C76_draws_some _ _ hr.domains hr.accepted (by simp [exSSConfig, exConfig, exConfigL]) ?_ fl g⟩
  · intro a ha
    rw [List.mem_singleton.1 ha]
    decide
  · show ∀ e ∈ [("XD", 10), ("XI", 10), ("XU", 10)], 0 < e.2
    decide

/-- A StableSafe file with a controller meeting the hypotheses of `C89_control_stable_safe`; the examples of C86 meet those of `C89_control_roa`. -/
example : (∃ r, AnyControlRun2 (exDriven .STABLESAFE exSSConfig.domains exSSConfig.nData ⟨1, true, false⟩ true) exWeights r 1 exControlField (decidingWorld ((Net × ℚ) × Net) exLoops) exTrainerK2
      [2] [2] [.RELU] [.RELU] ∧ DecidesFirst (decidingWorld ((Net × ℚ) × Net) exLoops) ∧ (∀ i, RefutationSound ((decidingWorld ((Net × ℚ) × Net) exLoops).oracle i)) ∧
      ∀ fl g, DrawsSome fl g r.data) ∧ Continuous (fun z : Pt 1 × Pt 1 => exControlField z.1 z.2) := by
  refine ⟨?_, by show Continuous fun (z : Pt 1 × Pt 1) (_ : Fin 1) => z.2 0 - z.1 0; fun_prop⟩
  obtain ⟨r, w, learn, hr, -⟩ := exSSConfig_run
  have h' := (readConfig_inv hr.accepted).2
  have hd : DomainsDescribed (exDriven .STABLESAFE exSSConfig.domains exSSConfig.nData ⟨1, true, false⟩ true).base := ⟨hr.domains.1, hr.domains.2⟩
  have hrun := exDriven_run2 (hidden := [2]) (hidden2 := [2]) (acts := [.RELU]) (acts2 := [.RELU]) hd h' (relu_usable _) (relu_usable _)
  refine ⟨_, { hrun with sound := decidingWorld_sound _ _ _, dynamics := hrun.dynamics, fair := decidingWorld_fair _ _ _ hrun.fair.dyn }, fun i φ => decidingSolver_decides φ,
    fun _ _ φ h => decidingSolver_sound φ h,
    fun fl g => C77_draws_some _ exWeights _ hd (exDriven_ready h') (by simp [exDriven]) ?_ fl g⟩
  show ∀ e ∈ [("XD", 10), ("XI", 10), ("XU", 10)], 0 < e.2
  decide

/-- The hypotheses of `C89_roa_attracts` are met by `x' = -x` with the ReLU certificate `|x|`, and the set `[-1, 1]` with `b = 1/10`, `c = 1` meets those of `settles`. -/
example : ∃ groups, queriesCT { exAbsROA with llo := true } = .ok groups ∧ Accepted 1 groups ∧ Continuous (field 1 [.neg (.var 0)]) ∧
    (∀ p ∈ {p : Pt 1 | p 0 ∈ Icc (-(11/10)) (11/10)}, normSq p ≤ (1/100)^2 → certValue 3 false absNet p < 1/10) ∧
    ∀ p ∈ frontier {p : Pt 1 | p 0 ∈ Icc (-(11/10):ℝ) (11/10)}, (1:ℝ) * (11/10) ≤ certValue 3 false absNet p := by
  have h1 : roundBy 3 1 = 1 := by decide +kernel
  have h4 : roundBy 3 (-1) = -1 := by decide +kernel
  have hv : ∀ p : Pt 1, certValue 3 false absNet p = |p 0| := by
    intro p
    simp [certValue, absNet, roundedNet, roundedHidden, roundedLast, h1, h4, Net.forward, hiddenForward, Layer.apply, dotR,
      Act.forward, coordList, at?, Bind.bind, Except.bind]
  refine ⟨_, rfl, accepted_of_refuted (by simp [DistinctLabels, queries, XD]) ?_, ?_, fun p hp hn => ?_, fun p hp => ?_⟩
  · intro g hg q hq ρ h
    simp only [List.mem_singleton] at hg
    subst hg
    simp only [List.mem_singleton] at hq
    subst hq
    simp [Formula.holds, Formula.conj, Term.eval, Term.sum, geZero, gtZero, factors, vars, h1, h4, exAbsROA, absNet,
      eyeJac, postVal, postGrad, gradTerms, hiddenBias, diagJac, Fn.eval] at h
    rw [abs_slope] at h
    rcases h with h | ⟨⟨a, b⟩, c⟩
    · have := abs_le.2 ⟨by linarith [h.1.1], h.1.2⟩
      norm_num at this
      linarith [h.2]
    · have : ρ 0 = 0 := abs_eq_zero.1 (le_antisymm c (abs_nonneg _))
      rw [this] at b; norm_num at b
  · have : field 1 [.neg (.var 0)] = fun (p : Pt 1) i => - p i := by
      funext p i
      rw [Fin.fin_one_eq_zero i]
      simp [field, Term.eval, Pt.env]
    rw [this]
    fun_prop
  · rw [hv]
    have : p 0 ^ 2 ≤ (1/100)^2 := by simpa [normSq] using hn
    have := abs_le_of_sq_le_sq this (by norm_num)
    linarith
  · rw [hv]
    have h : p 0 ∈ frontier (Icc (-(11/10):ℝ) (11/10)) := Continuous.frontier_preimage_subset (f := fun p : Pt 1 => p 0) (by fun_prop) _ hp
    rw [frontier_Icc (by norm_num)] at h
    rcases h with h | h
    · rw [h, abs_neg, abs_of_pos] <;> norm_num
    · rw [Set.mem_singleton_iff.1 h, abs_of_pos] <;> norm_num

end Fossil

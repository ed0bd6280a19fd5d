/-
C90: Lyapunov certificates on a domain that need not contain the origin (the usual `Torus`): what a successful run means for
trajectories and runs, from the query to complete runs of configuration files, in continuous and discrete time.
-/
import Verif.Props.C89_Attract
import Verif.Props.C85_DiscreteLyapunov

namespace Fossil
open Spec Set Filter Topology

variable {R K : Type} {n : ℕ}

namespace Spec

/-- What a Lyapunov certificate `V` verified on `D` means for the trajectories of `F`. Nothing is assumed of the origin. -/
structure DecreasingOn (F : Pt n → Pt n) (V : Pt n → ℝ) (D : Set (Pt n)) : Prop where
  /-- Along trajectories in the domain (away from the origin) the certificate strictly decreases. -/
  descends : ∀ (T : ℝ) (ξ : ℝ → Pt n), Trajectory F T ξ → (∀ t ∈ Icc 0 T, ξ t ∈ D ∧ ξ t ≠ 0) → StrictAntiOn (fun t => V (ξ t)) (Icc 0 T)
  /-- If outside an open set `G` all points of a compact set are in the domain and not the origin, then trajectories that stay in the compact set enter `G`
  within a common time. -/
  enters : ∀ C G : Set (Pt n), IsCompact C → IsOpen G → (∀ p ∈ C, p ∉ G → p ∈ D ∧ p ≠ 0) → ∃ τ : ℝ, 0 ≤ τ ∧ ∀ (T : ℝ) (ξ : ℝ → Pt n), Trajectory F T ξ → τ ≤ T →
    (∀ t ∈ Icc 0 T, ξ t ∈ C) → ∃ t ∈ Icc 0 τ, ξ t ∈ G
  /-- A compact set `A` with a hole `H` around the origin: if the certificate is at least `l` on the frontier of `A` and below `b` in the hole, then trajectories
  that start in `A` at or below `c` (`b ≤ c < l`) stay in `A`, stay at or below `c`, and after a common time stay at or below `b`. -/
  settles : ∀ A H : Set (Pt n), IsCompact A → (∀ p ∈ A, p ∉ H → p ∈ D ∧ p ≠ 0) → ∀ b c l : ℝ, b ≤ c → c < l → (∀ p ∈ A, p ∈ H → V p < b) →
    (∀ p ∈ frontier A, l ≤ V p) → ∃ τ : ℝ, ∀ (T : ℝ) (ξ : ℝ → Pt n), Trajectory F T ξ → ξ 0 ∈ A → V (ξ 0) ≤ c →
      ∀ t ∈ Icc 0 T, ξ t ∈ A ∧ V (ξ t) ≤ c ∧ (τ ≤ t → V (ξ t) ≤ b)

/-- The same for the runs of a map. -/
structure DecreasingOnDT (F : Pt n → Pt n) (V : Pt n → ℝ) (D : Set (Pt n)) : Prop where
  descends : ∀ x : ℕ → Pt n, IsRun F x → ∀ k, x k ∈ D → x k ≠ 0 → V (x (k + 1)) < V (x k)
  enters : ∀ C G : Set (Pt n), IsCompact C → IsOpen G → (∀ p ∈ C, p ∉ G → p ∈ D ∧ p ≠ 0) → ∃ N : ℕ, ∀ x : ℕ → Pt n, IsRun F x →
    (∀ k ≤ N, x k ∈ C) → ∃ k ≤ N, x k ∈ G
  /-- The map may jump over a frontier, so the compact set is the whole sub-level set of `c`; in the hole the image must be at or below `b`. -/
  settles : ∀ (H : Set (Pt n)) (b c : ℝ), b ≤ c → IsCompact {p | V p ≤ c} → (∀ p, V p ≤ c → p ∉ H → p ∈ D ∧ p ≠ 0) → (∀ p ∈ H, V p < b ∧ V (F p) ≤ b) →
    ∃ N : ℕ, ∀ x : ℕ → Pt n, IsRun F x → V (x 0) ≤ c → ∀ k, V (x k) ≤ c ∧ (N ≤ k → V (x k) ≤ b)

end Spec

/-- A continuous certificate that decreases off countably many times along trajectories has the properties of `DecreasingOn`. -/
theorem decreasingOn_of {V L : Pt n → ℝ} {F : Pt n → Pt n} {D : Set (Pt n)} (hF : Continuous F) (hV : Continuous V) (hL : OffLie F V L)
    (hneg : ∀ p ∈ D, p ≠ 0 → L p < 0) : DecreasingOn F V D where
  descends T ξ hξ hin := (hL T ξ hξ).strictAnti fun t ht => hneg _ (hin t ht).1 (hin t ht).2
  enters C G hC hG hCG := by
    obtain ⟨M, hM⟩ := (hC.image hV).isBounded.exists_norm_le
    have hMp : ∀ p ∈ C, V p < M + 1 := fun p hp => by
      have := hM _ ⟨p, hp, rfl⟩
      rw [Real.norm_eq_abs] at this
      linarith [le_abs_self (V p)]
    obtain ⟨τ, h0, hτ⟩ := enters_off hF hV hL hC hG (c := M + 1) fun p hp hg _ => hneg p (hCG p hp hg).1 (hCG p hp hg).2
    exact ⟨τ, h0, fun T ξ hξ hT hin => hτ T ξ hξ hT (hMp _ (hin 0 ⟨le_rfl, h0.trans hT⟩)) hin⟩
  settles A H hA hAD b c l hbc hcl hH hfr := ultimate_off hF hV hL hA hbc hcl (fun p hp hb _ =>
    (fun h => hneg p h.1 h.2) (hAD p hp fun h => absurd hb (not_le.2 (hH p hp h)))) hfr

/-- A strict decrease along the map on a compact set is uniform. -/
theorem uniform_decrease_dt {V : Pt n → ℝ} {F : Pt n → Pt n} (hF : Continuous F) (hV : Continuous V) {C : Set (Pt n)} (hC : IsCompact C)
    (hneg : ∀ p ∈ C, V (F p) < V p) : ∃ δ > 0, ∀ p ∈ C, V (F p) ≤ V p - δ := by
  rcases C.eq_empty_or_nonempty with he | he
  · exact ⟨1, one_pos, by rw [he]; simp⟩
  · obtain ⟨q, hq, hmin⟩ := hC.exists_isMinOn he (f := fun p => V p - V (F p)) (hV.sub (hV.comp hF)).continuousOn
    refine ⟨V q - V (F q), by linarith [hneg q hq], fun p hp => ?_⟩
    have := hmin hp
    rw [Set.mem_ofPred_eq] at this
    linarith

theorem decreasingOnDT_of {V : Pt n → ℝ} {F : Pt n → Pt n} {D : Set (Pt n)} (hF : Continuous F) (hV : Continuous V)
    (hneg : ∀ p ∈ D, p ≠ 0 → V (F p) < V p) : DecreasingOnDT F V D where
  descends x hx k h1 h2 := by rw [hx k]; exact hneg _ h1 h2
  enters C G hC hG hCG := by
    obtain ⟨δ, hδ, hdec⟩ := uniform_decrease_dt hF hV (hC.inter_right hG.isClosed_compl) fun p hp => hneg p (hCG p hp.1 hp.2).1 (hCG p hp.1 hp.2).2
    obtain ⟨M, hM⟩ := (hC.image hV).isBounded.exists_norm_le
    have hMp : ∀ p ∈ C, |V p| ≤ M := fun p hp => by
      have := hM _ ⟨p, hp, rfl⟩
      rwa [Real.norm_eq_abs] at this
    obtain ⟨N, hN⟩ := exists_nat_gt (2 * M / δ)
    refine ⟨N, fun x hx hin => ?_⟩
    by_contra hno
    push Not at hno
    have key : ∀ k : ℕ, k ≤ N → V (x k) ≤ V (x 0) - k * δ := by
      intro k
      induction k with
      | zero => intro _; simp
      | succ k ih =>
        intro hk
        have h1 := hdec (x k) ⟨hin k (by omega), hno k (by omega)⟩
        rw [← hx k] at h1
        have := ih (by omega)
        push_cast
        linarith
    have h1 := key N le_rfl
    have h2 := abs_le.1 (hMp _ (hin N le_rfl))
    have h3 := abs_le.1 (hMp _ (hin 0 (Nat.zero_le _)))
    rw [div_lt_iff₀ hδ] at hN
    linarith [h2.1, h3.2]
  settles H b c hbc hK hD hH := by
    have hcl : IsCompact ({p | V p ≤ c} ∩ V ⁻¹' Ici b) := hK.inter_right (isClosed_Ici.preimage hV)
    have hoff : ∀ p, V p ≤ c → b ≤ V p → p ∈ D ∧ p ≠ 0 := fun p h1 h2 => hD p h1 fun h => absurd h2 (not_le.2 (hH p h).1)
    obtain ⟨δ, hδ, hdec⟩ := uniform_decrease_dt hF hV hcl fun p hp => hneg p (hoff p hp.1 hp.2).1 (hoff p hp.1 hp.2).2
    have step : ∀ p, V p ≤ c → V (F p) ≤ c := fun p hp => by
      by_cases h : p ∈ H
      · exact (hH p h).2.trans hbc
      · exact (hneg p (hD p hp h).1 (hD p hp h).2).le.trans hp
    have step' : ∀ p, V p ≤ b → V (F p) ≤ b := fun p hp => by
      by_cases h : p ∈ H
      · exact (hH p h).2
      · exact (hneg p (hD p (hp.trans hbc) h).1 (hD p (hp.trans hbc) h).2).le.trans hp
    obtain ⟨N, hN⟩ := exists_nat_gt ((c - b) / δ)
    refine ⟨N, fun x hx h0 => ?_⟩
    have hc' : ∀ k, V (x k) ≤ c := fun k => by
      induction k with
      | zero => exact h0
      | succ k ih => rw [hx k]; exact step _ ih
    have stay : ∀ j k, j ≤ k → V (x j) ≤ b → V (x k) ≤ b := fun j k hjk hj => by
      induction k, hjk using Nat.le_induction with
      | base => exact hj
      | succ k _ ih => rw [hx k]; exact step' _ ih
    refine fun k => ⟨hc' k, fun hk => ?_⟩
    obtain ⟨j, hj, hjb⟩ : ∃ j ≤ N, V (x j) ≤ b := by
      by_contra hno
      push Not at hno
      have key : ∀ k : ℕ, k ≤ N → V (x k) ≤ c - k * δ := by
        intro k
        induction k with
        | zero => intro _; simpa using h0
        | succ k ih =>
          intro hk
          have h1 := hdec (x k) ⟨hc' k, (hno k (by omega)).le⟩
          rw [← hx k] at h1
          have := ih (by omega)
          push_cast
          linarith
      have h1 := key N le_rfl
      have h2 := hno N le_rfl
      rw [div_lt_iff₀ hδ] at hN
      linarith
    exact stay j k (hj.trans hk) hjb

/-- **C90 (continuous time).** An accepted Lyapunov certificate, whatever its activations and its domain. -/
theorem C90_lyapunov (s : Setup) (hs : AnySetup s) (hc : s.cert = .LYAPUNOV) (groups) (hq : queriesCT s = .ok groups) (ha : Accepted s.nVars groups)
    (hF : Continuous (field s.nVars s.f)) :
    DecreasingOn (field s.nVars s.f) (certValue s.rounding s.quad s.net) (region s.nVars s.domains XD) := by
  obtain ⟨L, hL, H⟩ := lyap_facts_off s hs hc groups hq ha
  exact decreasingOn_of hF (continuous_certValue s.nVars s.rounding s.quad s.net) hL fun p hp h0 => (H p hp h0).2

/-- **C90 (discrete time).** -/
theorem C90_lyapunov_dt (s : Setup) (hlib : s.lib = .z3 ∨ s.lib = .dreal) (hw : WFDomains s.nVars s.domains) (hlen : s.f.length = s.nVars) (hquad : s.quad = false)
    (hc : s.cert = .LYAPUNOV) (groups) (hq : queriesDT s = .ok groups) (ha : Accepted s.nVars groups) (hF : Continuous (field s.nVars s.f)) :
    DecreasingOnDT (field s.nVars s.f) (certValue s.rounding false s.net) (region s.nVars s.domains XD) := by
  refine decreasingOnDT_of hF (continuous_certValue s.nVars s.rounding false s.net) fun p hp h0 => ?_
  have := (C06_decreases_along_runs s hlib hw hlen hquad hc groups hq ha (fun k => (field s.nVars s.f)^[k] p) (fun k => by
      show (field s.nVars s.f)^[k + 1] p = _
      rw [Function.iterate_succ_apply']) 0 hp h0).1
  rw [hquad] at this
  simpa using this

/-- **C90 (synthesis).** -/
theorem C90_synthesis (c : SynthCfg) (w : World R K (Net × ℚ)) (hw : SoundWorld c w) (learn)
    (hlib : c.lib = .z3 ∨ c.lib = .dreal) (hwf : WFDomains c.nVars c.domains) (hc : c.cert = .LYAPUNOV) (net ctrl S out)
    (h : Solves c.loop (singleComponents w c false learn) net ctrl S out) (hf : out.found = true)
    (hsz : out.net.1.inputSize = c.nVars) (hF : Continuous (field c.nVars (w.dynamics out.ctrl))) :
    DecreasingOn (field c.nVars (w.dynamics out.ctrl)) (certValue c.rounding c.quad out.net.1) (region c.nVars c.domains XD) := by
  obtain ⟨g, hq, ha⟩ := run_accepted_any hw hlib hwf h hf
  exact C90_lyapunov (c.setup out.net.1 out.net.2 (w.dynamics out.ctrl)) ⟨hlib, hwf, hsz⟩ hc g hq ha hF

/-- **C90 (synthesis in discrete time).** -/
theorem C90_synthesis_dt (c : SynthCfg) (w : World R K (Net × ℚ)) (hw : SoundWorld c w) (learn)
    (hlib : c.lib = .z3 ∨ c.lib = .dreal) (hwf : WFDomains c.nVars c.domains) (hc : c.cert = .LYAPUNOV) (hquad : c.quad = false) (net ctrl S out)
    (h : Solves c.loop (singleComponents w c true learn) net ctrl S out) (hf : out.found = true)
    (hlen : (w.dynamics out.ctrl).length = c.nVars) (hF : Continuous (field c.nVars (w.dynamics out.ctrl))) :
    DecreasingOnDT (field c.nVars (w.dynamics out.ctrl)) (certValue c.rounding false out.net.1) (region c.nVars c.domains XD) := by
  obtain ⟨g, hq, ha⟩ := run_accepted_dt_any hw hlib hwf h hf
  exact C90_lyapunov_dt (c.setup out.net.1 out.net.2 (w.dynamics out.ctrl)) hlib hwf hlen hquad hc g hq ha hF

/-! ### complete runs of a file -/

section
variable {c : ConfigText} {r : Ready} {F : Pt c.nVars → Pt c.nVars} {w : World R Unit (Net × ℚ)} {T : Trainer Unit} {hidden : List ℕ} {acts : List ActivationType}

/-- **C90 (file).** For every accepted Lyapunov file, with or without LLO, whatever supported activations and domain, and a continuous written vector field: the run returns after at
most CEGIS_MAX_ITERS + 1 passes or raises because a training sample has derivative exactly 0, and if it reports success the returned certificate is decreasing on the
written domain in the sense of `DecreasingOn`. -/
theorem C90_file (h : AnyFileRun c r F w T hidden acts) (hc : c.cert = .LYAPUNOV) (fl : ℝ → ℚ)
    (gs : ℕ → Rng) (g g' : Rng) (wt : ℕ → ℕ → ℕ → ℚ) (bs : ℕ → ℕ → ℚ) (hdraw : DrawsSome fl gs r.data)
    (D : Set (Pt c.nVars)) (hD : Configures c.nVars c.domains "XD" D) (hF : Continuous F) :
    ∃ net S, newNet c.nVars hidden acts c.llo (certBias c.cert) wt bs = .ok net ∧ initData fl gs r.data = .ok S ∧
      ((∃ out, Solves r.cfg.loop (singleComponents (w.withEstimate g g' r.cfg) r.cfg false (trainedLearn T r.cfg false w.dynNum)) (net, 0) () S out ∧
        (out.iters : ℤ) ≤ c.maxIters + 1 ∧ (out.found = true → DecreasingOn F (certValue c.rounding c.quad out.net.1) D)) ∨
      (∃ k st, Steps r.cfg.loop (singleComponents (w.withEstimate g g' r.cfg) r.cfg false (trainedLearn T r.cfg false w.dynNum))
        (initState (singleComponents (w.withEstimate g g' r.cfg) r.cfg false (trainedLearn T r.cfg false w.dynNum)) (net, 0) () S) k st ∧
        MeetsZeroDerivative T r.cfg false w.dynNum st)) := by
  obtain ⟨net, S, h1, h2, h3⟩ := C84_file_run_total h (by rw [hc]; refine ⟨?_, ?_, ?_⟩ <;> intro h <;> cases h) false (fun h => by cases h) fl gs g g' wt bs hdraw
  refine ⟨net, S, h1, h2, ?_⟩
  rcases h3 with ⟨out, h3, h4⟩ | ⟨-, h3⟩
  swap; · exact Or.inr h3
  obtain ⟨net', h1', h5, -⟩ := newNet_usable (n := c.nVars) h.net (certBias c.cert) wt bs
  rw [h1] at h1'; cases h1'
  obtain ⟨⟨learn, hr, hs⟩, -⟩ := anyFile_config h g g' false h5 h3
  refine Or.inl ⟨out, h3, h4, fun hf => ?_⟩
  have hsz := anyRun_size hr hs hf
  have hw := hr.sound
  have hss := anyRun_sets hr
  have hfld := anyRun_field hr out.ctrl
  have rD := hss.region .XD (by decide) (by decide) (by rintro -; simp [hc]) hD
  have hwf := hss.wf
  clear hr h h3 h1 h5
  obtain ⟨cfg, f, data⟩ := r
  obtain ⟨doms, e⟩ := hss.cfg
  dsimp only at e rD hwf hw hs
  subst e rD
  have := C90_synthesis _ _ hw learn hss.lib hwf hc _ _ _ out hs hf hsz (by rw [hfld]; exact hF)
  dsimp only at this
  rw [hfld] at this
  exact this

/-- **C90 (file, discrete time).** The same for a file run in discrete time without factors and with a non-zero rounding. -/
theorem C90_file_dt (h : AnyFileRun c r F w T hidden acts) (hc : c.cert = .LYAPUNOV) (hq : c.quad = false) (hrnd : c.rounding ≠ 0) (fl : ℝ → ℚ)
    (gs : ℕ → Rng) (g g' : Rng) (wt : ℕ → ℕ → ℕ → ℚ) (bs : ℕ → ℕ → ℚ) (hdraw : DrawsSome fl gs r.data)
    (D : Set (Pt c.nVars)) (hD : Configures c.nVars c.domains "XD" D) (hF : Continuous F) :
    ∃ net S, newNet c.nVars hidden acts c.llo (certBias c.cert) wt bs = .ok net ∧ initData fl gs r.data = .ok S ∧
      ((∃ out, Solves r.cfg.loop (singleComponents (w.withEstimate g g' r.cfg) r.cfg true (trainedLearn T r.cfg true w.dynNum)) (net, 0) () S out ∧
        (out.iters : ℤ) ≤ c.maxIters + 1 ∧ (out.found = true → DecreasingOnDT F (certValue c.rounding false out.net.1) D)) ∨
      (∃ k st, Steps r.cfg.loop (singleComponents (w.withEstimate g g' r.cfg) r.cfg true (trainedLearn T r.cfg true w.dynNum))
        (initState (singleComponents (w.withEstimate g g' r.cfg) r.cfg true (trainedLearn T r.cfg true w.dynNum)) (net, 0) () S) k st ∧
        MeetsZeroDerivative T r.cfg true w.dynNum st)) := by
  obtain ⟨net, S, h1, h2, h3⟩ := C84_file_run_total h (by rw [hc]; refine ⟨?_, ?_, ?_⟩ <;> intro h <;> cases h) true (fun _ => hrnd) fl gs g g' wt bs hdraw
  refine ⟨net, S, h1, h2, ?_⟩
  rcases h3 with ⟨out, h3, h4⟩ | ⟨-, h3⟩
  swap; · exact Or.inr h3
  obtain ⟨net', h1', h5, -⟩ := newNet_usable (n := c.nVars) h.net (certBias c.cert) wt bs
  rw [h1] at h1'; cases h1'
  obtain ⟨⟨learn, hr, hs⟩, -⟩ := anyFile_config h g g' true h5 h3
  refine Or.inl ⟨out, h3, h4, fun hf => ?_⟩
  have hf' := config_field (readConfig_inv hr.accepted).1 hr.system
  have hw := hr.sound
  have hss := anyRun_sets hr
  have hfld := anyRun_field hr out.ctrl
  have hdyn := hr.dynamics out.ctrl
  have rD := hss.region .XD (by decide) (by decide) (by rintro -; simp [hc]) hD
  have hwf := hss.wf
  clear hr h h3 h1 h5
  obtain ⟨cfg, f, data⟩ := r
  obtain ⟨doms, e⟩ := hss.cfg
  dsimp only at e rD hwf hf' hw hs hdyn
  subst e rD
  have := C90_synthesis_dt _ _ hw learn hss.lib hwf hc hq _ _ _ out hs hf (by rw [hdyn]; exact hf'.2.1) (by rw [hfld]; exact hF)
  dsimp only at this
  rw [hfld] at this
  exact this

end

section
variable {c : ControlConfig} {w0 : ℕ → ℕ → ℕ → ℚ} {r : ReadyControl} {m : ℕ} {F : Pt c.base.nVars → Pt m → Pt c.base.nVars} {w : World R Controller (Net × ℚ)}
  {T : Trainer Controller} {hidden : List ℕ} {acts : List ActivationType}

/-- **C90 (file with a controller).** The same for the written system driven by the returned controller (rounded to five decimals). -/
theorem C90_control (h : AnyControlRun c w0 r m F w T hidden acts) (hc : c.base.cert = .LYAPUNOV) (fl : ℝ → ℚ)
    (gs : ℕ → Rng) (g g' : Rng) (wt : ℕ → ℕ → ℕ → ℚ) (bs : ℕ → ℕ → ℚ) (hdraw : DrawsSome fl gs r.data)
    (D : Set (Pt c.base.nVars)) (hD : Configures c.base.nVars c.base.domains "XD" D) (hF : Continuous (fun z : Pt c.base.nVars × Pt m => F z.1 z.2)) :
    ∃ net S, newNet c.base.nVars hidden acts c.base.llo (certBias c.base.cert) wt bs = .ok net ∧ initData fl gs r.data = .ok S ∧
      ((∃ out, Solves r.cfg.loop (singleComponents (w.withEstimate g g' r.cfg) r.cfg false (trainedLearn T r.cfg false w.dynNum)) (net, 0) r.ctrl S out ∧
        (out.iters : ℤ) ≤ c.base.maxIters + 1 ∧
        (out.found = true → DecreasingOn (driven F (rounded5 out.ctrl)) (certValue c.base.rounding c.base.quad out.net.1) D)) ∨
      (∃ k st, Steps r.cfg.loop (singleComponents (w.withEstimate g g' r.cfg) r.cfg false (trainedLearn T r.cfg false w.dynNum))
        (initState (singleComponents (w.withEstimate g g' r.cfg) r.cfg false (trainedLearn T r.cfg false w.dynNum)) (net, 0) r.ctrl S) k st ∧
        MeetsZeroDerivative T r.cfg false w.dynNum st)) := by
  obtain ⟨net, S, h1, h2, h3⟩ := C86_control_run_total h (by rw [hc]; refine ⟨?_, ?_, ?_⟩ <;> intro h <;> cases h) false (fun h => by cases h) fl gs g g' wt bs hdraw
  refine ⟨net, S, h1, h2, ?_⟩
  rcases h3 with ⟨out, h3, h4⟩ | ⟨-, h3⟩
  swap; · exact Or.inr h3
  obtain ⟨net', h1', h5, -⟩ := newNet_usable (n := c.base.nVars) h.net (certBias c.base.cert) wt bs
  rw [h1] at h1'; cases h1'
  obtain ⟨hsz, ⟨hfld, -⟩, -⟩ := anyControl_out h g g' false h5 h3
  refine Or.inl ⟨out, h3, h4, fun hf => ?_⟩
  have hw := soundWorld_estimateK h.sound g g'
  have hss := anyControl_sets h
  have rD := hss.region .XD (by decide) (by decide) (by rintro -; simp [hc]) hD
  have hwf := hss.wf
  have hdd : (w.withEstimate g g' r.cfg).dynamics out.ctrl = w.dynamics out.ctrl := rfl
  rw [← hdd] at hfld
  generalize w.withEstimate g g' r.cfg = w' at *
  generalize trainedLearn T r.cfg false w.dynNum = learn at h3
  clear hdd h h1 h2 h5
  obtain ⟨cfg, sys, k0, data⟩ := r
  obtain ⟨doms, e⟩ := hss.cfg
  dsimp only at e rD hwf hw h3
  subst e rD
  have := C90_synthesis _ w' hw learn hss.lib hwf hc _ _ _ out h3 hf hsz (by rw [hfld]; exact driven_continuous hF _)
  dsimp only at this
  rw [hfld] at this
  exact this

end

/-! ### examples -/

/-- A Lyapunov file on a ring. -/
def exRingConfig (sys : String) : ConfigText := ⟨.z3, 1, .LYAPUNOV, [sys], [("XD", "Torus([0],2,1)")], some (.dict [("XD", 10)]), ⟨1, true, false⟩, false, 3, false, 10⟩

def exRingDoms : Dict String PySet := [(XD, .torus [0] 2 1 none)]

theorem exRing_set : SetText 1 "Torus([0],2,1)" {p | ((1 : ℚ) : ℝ) ^ 2 ≤ distSq [0] p ∧ distSq [0] p ≤ ((2 : ℚ) : ℝ) ^ 2} :=
  .torus (cs := [['0']]) (os := ['2']) (is := ['1']) (.cons (.none (numeral_int (by decide) (by decide +kernel))) .nil) (.none (numeral_int (by decide) (by decide +kernel)))
    (.none (numeral_int (by decide) (by decide +kernel))) rfl (by norm_num) (by norm_num) (layout_flatten _)

theorem exRing_sets (sys : String) : ∃ data, readSets (exRingConfig sys) = .ok (⟨.z3, 1, .LYAPUNOV, exRingDoms, false, 3, false, 10⟩, data) := by
  have ed : readDomainTexts [("XD", "Torus([0],2,1)")] = .ok [("XD", .torus [0] 2 1 none)] := rfl
  have hp : ∃ data : Dict String Src, parseConfig .LYAPUNOV [("XD", .torus [0] 2 1 none)] (some (.dict [("XD", 10)])) = .ok (data, exRingDoms) ∧
      ∃ d, initialiseDomains .z3 1 .LYAPUNOV exRingDoms = .ok d ∧ assertState .LYAPUNOV d.keys data.keys = .ok () := ⟨_, rfl, _, rfl, rfl⟩
  obtain ⟨data, hp, d, hd, ha⟩ := hp
  have hlr : ¬ ((1 : ℚ) ≤ 0) := by norm_num
  exact ⟨data, readSets_ok (c := exRingConfig sys) ed hp hd hlr rfl (Or.inl rfl) ha⟩

theorem exRing_described (sys : String) : DomainsDescribed (exRingConfig sys) := by
  refine ⟨by simp [exRingConfig], ?_⟩
  intro k s hm
  simp only [exRingConfig, List.mem_cons, Prod.mk.injEq, List.not_mem_nil, or_false] at hm
  rw [hm.2]
  exact ⟨_, exRing_set⟩

theorem exRing_counts (sys : String) : PositiveCounts (exRingConfig sys).nData := by
  show ∀ e ∈ [("XD", 10)], 0 < e.2
  decide

/-- Files on a ring, with ReLU units, in continuous and in discrete time, and with a controller, meet the hypotheses of `C90_file`, `C90_file_dt` and `C90_control`. The origin is
not in the described domain. -/
example : (∃ r, AnyFileRun (exRingConfig "-x0") r (fun p i => - p i) (idealWorld (Net × ℚ) exLyap.f) exTrainer [2] [.RELU] ∧ ∀ fl g, DrawsSome fl g r.data) ∧
    (∃ r, AnyFileRun (exRingConfig "x0/2") r (fun p i => p i / 2) (idealWorld (Net × ℚ) [.div (.var 0) (.const 2)]) exTrainer [2] [.RELU] ∧ ∀ fl g, DrawsSome fl g r.data) ∧
    (∃ r, AnyControlRun (exDriven .LYAPUNOV (exRingConfig "").domains (exRingConfig "").nData ⟨1, true, false⟩ false) exWeights r 1 exControlField
        (exDrivenWorld (Net × ℚ)) exTrainerK [2] [.RELU] ∧ ∀ fl g, DrawsSome fl g r.data) ∧
    (∃ D : Set (Pt 1), Configures 1 (exRingConfig "-x0").domains "XD" D ∧ 0 ∉ D ∧ (fun _ => (3/2 : ℝ)) ∈ D) := by
  refine ⟨?_, ?_, ?_, ?_⟩
  · obtain ⟨data, h⟩ := exRing_sets "-x0"
    have hr : readConfig (exRingConfig "-x0") = .ok ⟨_, exLyap.f, data⟩ := readConfig_ok rfl h
    exact ⟨_, ⟨Or.inl rfl, exRing_described _, minus_x_system _, hr, by decide, idealWorld_sound _ _ _, fun _ => rfl, idealWorld_fair _ _ _ rfl, (fun h => by cases h),
      fun _ _ _ => sameShape_refl _, relu_usable _⟩, fun fl g => C76_draws_some _ _ (exRing_described _) hr (Or.inl rfl) (exRing_counts _) fl g⟩
  · obtain ⟨data, h⟩ := exRing_sets "x0/2"
    have hr : readConfig (exRingConfig "x0/2") = .ok ⟨_, [.div (.var 0) (.const 2)], data⟩ := readConfig_ok exHalf_system h
    exact ⟨_, ⟨Or.inl rfl, exRing_described _, half_x_system _, hr, by decide, idealWorld_sound _ _ _, fun _ => rfl, idealWorld_fair _ _ _ rfl, (fun h => by cases h),
      fun _ _ _ => sameShape_refl _, relu_usable _⟩, fun fl g => C76_draws_some _ _ (exRing_described _) hr (Or.inl rfl) (exRing_counts _) fl g⟩
  · obtain ⟨data, h⟩ := exRing_sets ""
    have hd := exRing_described ""
    have hd' : DomainsDescribed (exDriven .LYAPUNOV (exRingConfig "").domains (exRingConfig "").nData ⟨1, true, false⟩ false).base := ⟨hd.1, hd.2⟩
    have h' : readSets (exDriven .LYAPUNOV (exRingConfig "").domains (exRingConfig "").nData ⟨1, true, false⟩ false).base = _ := h
    exact ⟨_, exDriven_run hd' h' (fun h => by cases h) (relu_usable _),
      fun fl g => C77_draws_some _ exWeights _ hd' (exDriven_ready h') (Or.inl rfl) (exRing_counts "") fl g⟩
  · refine ⟨_, ⟨_, by simp [exRingConfig], exRing_set⟩, ?_, ?_⟩
    · simp [distSq, entry]
    · norm_num [distSq, entry]

/-- The hypotheses of `DecreasingOn.settles` and `DecreasingOn.enters` for `|x|` on that ring: the interval `[-2, 2]` with the hole `(-1, 1)`. -/
example : IsCompact ((fun p : Pt 1 => p 0) ⁻¹' Icc (-2) 2) ∧
    (∀ p : Pt 1, p ∈ (fun p : Pt 1 => p 0) ⁻¹' Icc (-2) 2 → p ∉ {p : Pt 1 | |p 0| < 1} → p ∈ {p : Pt 1 | ((1 : ℚ) : ℝ) ^ 2 ≤ distSq [0] p ∧ distSq [0] p ≤ ((2 : ℚ) : ℝ) ^ 2} ∧ p ≠ 0) ∧
    (∀ p : Pt 1, p ∈ (fun p : Pt 1 => p 0) ⁻¹' Icc (-2) 2 → p ∈ {p : Pt 1 | |p 0| < 1} → |p 0| < 1) ∧
    (∀ p ∈ frontier ((fun p : Pt 1 => p 0) ⁻¹' Icc (-2) 2), (2 : ℝ) ≤ |p 0|) := by
  refine ⟨?_, ?_, fun p _ h => h, ?_⟩
  · have : (fun p : Pt 1 => p 0) ⁻¹' Icc (-2 : ℝ) 2 = Set.pi univ fun _ => Icc (-2) 2 := by
      ext p; exact ⟨fun h i _ => by rw [Subsingleton.elim i 0]; exact h, fun h => h 0 trivial⟩
    rw [this]
    exact isCompact_univ_pi fun _ => isCompact_Icc
  · intro p hp hh
    have hh' : 1 ≤ |p 0| := not_lt.1 hh
    have hp' : |p 0| ≤ 2 := abs_le.2 hp
    have e : distSq [0] p = |p 0| ^ 2 := by simp [distSq, entry]
    refine ⟨?_, fun h => ?_⟩
    · show _ ≤ distSq [0] p ∧ distSq [0] p ≤ _
      rw [e]
      push_cast
      constructor <;> nlinarith
    · rw [h] at hh'
      norm_num at hh'
  · intro p hp
    have h : p 0 ∈ frontier (Icc (-2 : ℝ) 2) := Continuous.frontier_preimage_subset (f := fun p : Pt 1 => p 0) (by fun_prop) _ hp
    rw [frontier_Icc (by norm_num)] at h
    rcases h with h | h <;> rw [h] <;> norm_num

/-- The hypotheses of `DecreasingOnDT.settles` for `|x|` and the map `x/2` on that ring. -/
example : IsCompact {p : Pt 1 | |p 0| ≤ 2} ∧
    (∀ p : Pt 1, |p 0| ≤ 2 → p ∉ {p : Pt 1 | |p 0| < 1} → p ∈ {p : Pt 1 | ((1 : ℚ) : ℝ) ^ 2 ≤ distSq [0] p ∧ distSq [0] p ≤ ((2 : ℚ) : ℝ) ^ 2} ∧ p ≠ 0) ∧
    (∀ p : Pt 1, p ∈ {p : Pt 1 | |p 0| < 1} → |p 0| < 1 ∧ |(fun i => p i / 2 : Pt 1) 0| ≤ 1) := by
  refine ⟨?_, ?_, fun p h => ⟨h, ?_⟩⟩
  · have : {p : Pt 1 | |p 0| ≤ 2} = Set.pi univ fun _ => Icc (-2) 2 := by
      ext p; exact ⟨fun h i _ => by rw [Subsingleton.elim i 0]; exact abs_le.1 h, fun h => abs_le.2 (h 0 trivial)⟩
    rw [this]
    exact isCompact_univ_pi fun _ => isCompact_Icc
  · intro p hp' hh
    have hh' : 1 ≤ |p 0| := not_lt.1 hh
    have e : distSq [0] p = |p 0| ^ 2 := by simp [distSq, entry]
    refine ⟨?_, fun h => ?_⟩
    · show _ ≤ distSq [0] p ∧ distSq [0] p ≤ _
      rw [e]
      push_cast
      constructor <;> nlinarith
    · rw [h] at hh'
      norm_num at hh'
  · have h' : |p 0| < 1 := h
    rw [abs_div, abs_of_pos (by norm_num : (0 : ℝ) < 2)]
    linarith [abs_nonneg (p 0)]

end Fossil

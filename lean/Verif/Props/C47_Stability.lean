/-
C47: what a Lyapunov certificate is for: (asymptotic) stability of the origin.
-/
import Verif.Props.C46_EndToEnd
import Verif.Props.C07_LLO
import Verif.Lemmas.Stability
import Verif.Lemmas.Smooth

namespace Fossil
open Spec Set Filter Topology

/-- Networks whose output is zero at the origin by construction: no biases, and only activations that map zero to zero. (The
Lyapunov and ROA classes build their networks without biases, certificate.py:155, 330.) -/
structure Spec.ZeroNet (net : Net) : Prop where
  bias : ∀ l ∈ net.layers, l.bias = none
  acts : ∀ a ∈ net.acts, a ≠ .sigmoid ∧ a ≠ .softplus ∧ ∀ k, a ≠ .evenPolyN k

theorem dotR_zero (r : List ℚ) (x : List ℝ) (h : ∀ t ∈ x, t = 0) : dotR r x = 0 := by
  unfold dotR
  induction r generalizing x with
  | nil => simp
  | cons c r ih =>
    cases x with
    | nil => simp
    | cons t x =>
      simp only [List.zipWith_cons_cons, List.sum_cons]
      rw [ih x (fun u hu => h u (by simp [hu])), h t (by simp)]
      simp

theorem apply_zero (l : Layer) (hl : l.bias = none) (x : List ℝ) (h : ∀ t ∈ x, t = 0) : ∀ t ∈ l.apply x, t = 0 := by
  intro t ht
  simp only [Layer.apply, hl, List.mem_map] at ht
  obtain ⟨r, -, rfl⟩ := ht
  exact dotR_zero r x h

theorem forward_zero (a : Act) (ha : a ≠ .sigmoid ∧ a ≠ .softplus ∧ ∀ k, a ≠ .evenPolyN k) (x : List ℝ)
    (h : ∀ t ∈ x, t = 0) : ∀ t ∈ a.forward x, t = 0 := by
  intro t ht
  rw [Act.forward_eq] at ht
  obtain ⟨i, hi, rfl⟩ := List.mem_mapIdx.1 ht
  rw [h x[i] (List.getElem_mem _)]
  cases a <;> simp [Act.scal] at ha ⊢
  case poly2 => split <;> simp
  case shiftedSoftplus => norm_num
  case shiftedSoftplusSquare => norm_num

theorem hiddenForward_zero (ls : List Layer) (hl : ∀ l ∈ ls, l.bias = none) (as : List Act)
    (ha : ∀ a ∈ as, a ≠ .sigmoid ∧ a ≠ .softplus ∧ ∀ k, a ≠ .evenPolyN k) (x : List ℝ) (h : ∀ t ∈ x, t = 0) (y)
    (hy : hiddenForward ls as x = .ok y) : ∀ t ∈ y, t = 0 := by
  induction ls generalizing as x with
  | nil => simp only [hiddenForward] at hy; cases hy; exact h
  | cons l ls ih =>
    cases as with
    | nil => cases hy
    | cons a as =>
      exact ih (fun l hl' => hl l (by simp [hl'])) as (fun b hb => ha b (by simp [hb])) _
        (forward_zero a (ha a (by simp)) _ (apply_zero l (hl l (by simp)) x h)) hy

/-- **C47.** The certificate vanishes at the origin whenever factors are used or the network is a `ZeroNet`. -/
theorem C47_vanishes_at_origin (n : ℕ) (rnd : ℤ) (quad : Bool) (net : Net) (h : quad = true ∨ ZeroNet net) :
    certValue rnd quad net (0 : Pt n) = 0 := by
  rcases h with h | h
  · simp [certValue, h, normSq]
  · unfold certValue
    refine mul_eq_zero_of_left ?_ _
    · split
      · rename_i y hy
        unfold Net.forward roundedNet at hy
        cases hlast : net.layers.getLast? with
        | none => simp [hlast] at hy
        | some last =>
          simp only [hlast, List.getLast?_concat, List.dropLast_concat] at hy
          obtain ⟨z, hz, hy⟩ := except_bind_ok hy
          have hmem : last ∈ net.layers := List.mem_of_getLast? hlast
          have hz0 := hiddenForward_zero _ (by
            intro l hl
            obtain ⟨l', hl', rfl⟩ := List.mem_map.1 hl
            simp [roundedHidden, h.bias l' (List.mem_of_mem_dropLast hl')]) _ h.acts _ (by
            intro t ht
            simp [coordList] at ht
            exact ht.2.symm ▸ rfl) z hz
          have hy0 := apply_zero (roundedLast rnd last) (by simp [roundedLast, h.bias last hmem]) z hz0
          cases hl : (roundedLast rnd last).apply z with
          | nil => simp [hl, at?] at hy
          | cons a l =>
            rw [hl] at hy hy0
            simp [at?] at hy
            subst hy
            exact hy0 a (by simp)
      · rfl

/-- The facts about an accepted Lyapunov certificate that the stability theorems use. -/
theorem lyap_facts (s : Setup) (hs : SmoothSetup s) (hc : s.cert = .LYAPUNOV) (groups)
    (hq : queriesCT s = .ok groups) (ha : Accepted s.nVars groups) (hpd : s.llo = false ∨ PDNet s.net) :
    ∃ L : Pt s.nVars → ℝ, (∀ p, IsLieDerivAt (field s.nVars s.f) (certValue s.rounding s.quad s.net) L p) ∧
      ∀ p ∈ region s.nVars s.domains XD, p ≠ 0 → 0 < certValue s.rounding s.quad s.net p ∧ L p < 0 := by
  obtain ⟨L, h1, h2⟩ := C05_lyapunov_conditions s hs.lib hs.sets hs.size hc groups hq ha
  refine ⟨L, fun p => h1 p (noKink_of_smooth s.net hs.smooth _ _), fun p hp h0 => ⟨?_, (h2 p hp h0).2⟩⟩
  rcases hpd with h | h
  · exact (h2 p hp h0).1 h
  · exact C07_llo_positive_ct s hs.lib hs.sets hc h groups hq ha p hp h0

/-- **C47 (continuous time).** If a Lyapunov certificate is accepted on a neighbourhood of the origin and vanishes at the origin,
then the origin is stable, and asymptotically stable when the vector field is continuous. -/
theorem C47_lyapunov_stability_partial (s : Setup) (hs : SmoothSetup s) (hc : s.cert = .LYAPUNOV) (groups)
    (hq : queriesCT s = .ok groups) (ha : Accepted s.nVars groups) (hpd : s.llo = false ∨ PDNet s.net)
    (hz : s.quad = true ∨ ZeroNet s.net) (hD : region s.nVars s.domains XD ∈ 𝓝 0) :
    Stable (field s.nVars s.f) ∧ (Continuous (field s.nVars s.f) → AsympStable (field s.nVars s.f)) := by
  obtain ⟨L, hL, H⟩ := lyap_facts s hs hc groups hq ha hpd
  have hV := continuous_certValue s.nVars s.rounding s.quad s.net
  have h0 := C47_vanishes_at_origin s.nVars s.rounding s.quad s.net hz
  have hpos : ∀ p ∈ region s.nVars s.domains XD, p ≠ 0 →
      certValue s.rounding s.quad s.net 0 < certValue s.rounding s.quad s.net p := fun p hp hp0 => by
    rw [h0]; exact (H p hp hp0).1
  exact ⟨stable_of hV hL hD hpos fun p hp hp0 => (H p hp hp0).2, fun hF =>
    asympStable_of hV hL (lie_continuous (contDiff_certValue _ _ _ _ hs.smooth) hF hL) hD hpos
      fun p hp hp0 => (H p hp hp0).2⟩

/-- **C47 (region of attraction).** Under the same hypotheses every trajectory that starts in a compact part `A` of the domain,
at or below a level that the certificate exceeds on the whole frontier of `A`, converges to the origin (uniformly). -/
theorem C47_lyapunov_attraction_partial (s : Setup) (hs : SmoothSetup s) (hc : s.cert = .LYAPUNOV) (groups)
    (hq : queriesCT s = .ok groups) (ha : Accepted s.nVars groups) (hpd : s.llo = false ∨ PDNet s.net)
    (hz : s.quad = true ∨ ZeroNet s.net) (hF : Continuous (field s.nVars s.f))
    (A : Set (Pt s.nVars)) (hA : IsCompact A) (hAD : A ⊆ region s.nVars s.domains XD) (c : ℝ)
    (hfr : ∀ p ∈ frontier A, c < certValue s.rounding s.quad s.net p) :
    Attracts (field s.nVars s.f) {p | p ∈ A ∧ certValue s.rounding s.quad s.net p ≤ c} := by
  obtain ⟨L, hL, H⟩ := lyap_facts s hs hc groups hq ha hpd
  refine attracts_of (continuous_certValue s.nVars s.rounding s.quad s.net) hL
    (lie_continuous (contDiff_certValue _ _ _ _ hs.smooth) hF hL) hA (fun p hp hp0 => ?_)
    (fun p hp hp0 => (H p (hAD hp) hp0).2) hfr
  rw [C47_vanishes_at_origin s.nVars s.rounding s.quad s.net hz]
  exact (H p (hAD hp) hp0).1

/-- **C47 (domains with a hole).** For a domain that excludes a region `H` around the origin (the usual `Torus` domain), with no
condition at the origin: let `A` be compact, its points outside `H` in the domain, the certificate above `c` on the frontier of
`A` and at most `b` on `H`. Then trajectories that start in `A` at or below level `c` never leave `A`, and for each level
`b' > b` they are below `b'` after a common time. -/
theorem C47_lyapunov_ultimate_bound (s : Setup) (hs : SmoothSetup s) (hc : s.cert = .LYAPUNOV) (groups)
    (hq : queriesCT s = .ok groups) (ha : Accepted s.nVars groups) (hF : Continuous (field s.nVars s.f))
    (A H : Set (Pt s.nVars)) (hA : IsCompact A) (hAD : ∀ p ∈ A, p ∉ H → p ∈ region s.nVars s.domains XD ∧ p ≠ 0)
    (b c : ℝ) (hH : ∀ p ∈ A, p ∈ H → certValue s.rounding s.quad s.net p ≤ b)
    (hfr : ∀ p ∈ frontier A, c < certValue s.rounding s.quad s.net p) (b' : ℝ) (hb : b < b') (hbc : b' ≤ c) :
    ∃ τ : ℝ, ∀ (T : ℝ) (ξ : ℝ → Pt s.nVars), Trajectory (field s.nVars s.f) T ξ → ξ 0 ∈ A →
      certValue s.rounding s.quad s.net (ξ 0) ≤ c → ∀ t ∈ Icc 0 T,
        ξ t ∈ A ∧ certValue s.rounding s.quad s.net (ξ t) ≤ c ∧
        (τ ≤ t → certValue s.rounding s.quad s.net (ξ t) < b') := by
  obtain ⟨L, h1, h2⟩ := C05_lyapunov_conditions s hs.lib hs.sets hs.size hc groups hq ha
  have hL := fun p => h1 p (noKink_of_smooth s.net hs.smooth _ _)
  refine ultimate_of (continuous_certValue s.nVars s.rounding s.quad s.net) hL
    (lie_continuous (contDiff_certValue _ _ _ _ hs.smooth) hF hL) hA hbc (fun p hp hle _ => ?_) hfr
  obtain ⟨h3, h4⟩ := hAD p hp fun h => by linarith [hH p hp h]
  exact (h2 p h3 h4).2

/-- **C47 (discrete time).** An accepted discrete-time Lyapunov certificate (no factors) on a neighbourhood of the origin, for a
continuous map that fixes the origin: asymptotic stability. ReLU networks included. -/
theorem C47_lyapunov_stability_dt_partial (s : Setup) (hlib : s.lib = .z3 ∨ s.lib = .dreal)
    (hw : WFDomains s.nVars s.domains) (hlen : s.f.length = s.nVars) (hquad : s.quad = false)
    (hc : s.cert = .LYAPUNOV) (groups)
    (hq : queriesDT s = .ok groups) (ha : Accepted s.nVars groups) (hpd : s.llo = false ∨ PDNet s.net)
    (hz : ZeroNet s.net) (hD : region s.nVars s.domains XD ∈ 𝓝 0) (hF : Continuous (field s.nVars s.f))
    (hF0 : field s.nVars s.f 0 = 0) : AsympStableDT (field s.nVars s.f) := by
  have H : ∀ p ∈ region s.nVars s.domains XD, p ≠ 0 → 0 < certValue s.rounding s.quad s.net p ∧
      certValue s.rounding s.quad s.net (field s.nVars s.f p) < certValue s.rounding s.quad s.net p := by
    intro p hp hp0
    obtain ⟨h1, h2⟩ := C06_decreases_along_runs s hlib hw hlen hquad hc groups hq ha
      (fun k => (field s.nVars s.f)^[k] p) (fun k => by
        show (field s.nVars s.f)^[k + 1] p = _
        rw [Function.iterate_succ_apply']) 0 hp hp0
    refine ⟨?_, by simpa using h1⟩
    rcases hpd with h | h
    · simpa using h2 h
    · exact C07_llo_positive_dt s hlib hw hlen hquad hc h groups hq ha p hp hp0
  refine asympStableDT_of (continuous_certValue s.nVars s.rounding s.quad s.net) hF hF0 hD (fun p hp hp0 => ?_)
    fun p hp hp0 => (H p hp hp0).2
  rw [C47_vanishes_at_origin s.nVars s.rounding s.quad s.net (Or.inr hz)]
  exact (H p hp hp0).1

/-- **C47, end to end.** If synthesis reports success for a Lyapunov certificate (no LLO) whose network vanishes at the origin by
construction, the origin of the closed loop with the returned controller is asymptotically stable. -/
theorem C47_synthesis_stable_partial {R K : Type} (c : SynthCfg) (w : World R K (Net × ℚ)) (hw : SoundWorld c w) (learn)
    (hr : SmoothRun c learn) (hc : c.cert = .LYAPUNOV) (net ctrl S out)
    (h : Solves c.loop (singleComponents w c false learn) net ctrl S out) (hf : out.found = true)
    (hpd : c.llo = false ∨ PDNet out.net.1) (hz : c.quad = true ∨ ZeroNet out.net.1)
    (hD : region c.nVars c.domains XD ∈ 𝓝 0) (hF : Continuous (field c.nVars (w.dynamics out.ctrl))) :
    AsympStable (field c.nVars (w.dynamics out.ctrl)) := by
  obtain ⟨g, hq, ha⟩ := run_accepted hw hr h hf
  exact (C47_lyapunov_stability_partial _ (smoothSetup_of_run hr h hf) hc g hq ha hpd hz hD).2 hF

/-! ### non-vacuity -/

theorem exLyap_zero : ZeroNet exLyap.net :=
  ⟨by intro l hl; simp [exLyap] at hl; subst hl; rfl, by intro a ha; simp [exLyap] at ha; subst ha; simp⟩

theorem interval_nhds : region 1 [(XD, .rectangle [-1] [1] none)] XD ∈ 𝓝 (0 : Pt 1) := by
  have : region 1 [(XD, .rectangle [-1] [1] none)] XD = (fun p : Pt 1 => p 0) ⁻¹' Icc (-1) 1 := by
    ext p
    have e : region 1 [(XD, .rectangle [-1] [1] none)] XD = docSet 1 (.rectangle [-1] [1] none) := by
      simp [region, Dict.get?]
    rw [e, seg_mem]; simp
  rw [this]
  exact (continuous_apply (0 : Fin 1)).continuousAt.preimage_mem_nhds (Icc_mem_nhds (by simp) (by simp))

theorem exLyap_cont : Continuous (field 1 exLyap.f) := by
  refine continuous_pi fun i => ?_
  have : (fun p : Pt 1 => field 1 exLyap.f p i) = fun p => - p 0 := by
    funext p; simp [field, exLyap, Term.eval, Pt.env]
  rw [this]; fun_prop

example : AsympStable (field 1 exLyap.f) := by
  obtain ⟨g, h1, h2⟩ := exLyap_accepted
  exact (C47_lyapunov_stability_partial exLyap exLyap_smooth rfl g h1 h2 (Or.inl rfl) (Or.inr exLyap_zero) interval_nhds).2
    exLyap_cont

example : AsympStableDT (field 1 exLyapDT.f) := by
  obtain ⟨g, h1, h2⟩ := exLyapDT_accepted
  refine C47_lyapunov_stability_dt_partial exLyapDT (Or.inl rfl) exLyap_smooth.sets rfl rfl rfl g h1 h2 (Or.inl rfl) exLyap_zero
    interval_nhds ?_ ?_
  · refine continuous_pi fun i => ?_
    have : (fun p : Pt 1 => field 1 exLyapDT.f p i) = fun p => (1/2 : ℝ) * p 0 := by
      funext p; fin_cases i; simp [field, exLyapDT, Term.eval, Pt.env]
    show Continuous fun p : Pt 1 => field 1 exLyapDT.f p i
    rw [this]; fun_prop
  · show field 1 exLyapDT.f 0 = 0
    funext i; simp [field, exLyapDT, Term.eval, Pt.env]

/-! ### what fails -/

/-- A network without biases whose output does not vanish at the origin: the even-polynomial activation contains the constant
`x ↦ x⁰`. `V = 2 - x²` for the unstable system `x' = x` on `[-1, 1]`. -/
def exEven : Setup := ⟨.z3, 1, .LYAPUNOV, [(XD, .rectangle [-1] [1] none)], false, 3, false,
  ⟨1, [⟨[[1], [1], [1], [1]], none⟩, ⟨[[2, -1, 0, 0]], none⟩], [.evenPolyN 4]⟩, [.var 0], 0⟩

theorem exEven_accepted : ∃ groups, queriesCT exEven = .ok groups ∧ Accepted exEven.nVars groups := by
  refine ⟨_, rfl, accepted_of_refuted (by simp [DistinctLabels, queries]) ?_⟩
  have h1 : roundBy 3 1 = 1 := by decide +kernel
  have h0 : roundBy 3 0 = 0 := by decide +kernel
  have h2 : roundBy 3 2 = 2 := by decide +kernel
  have h3 : roundBy 3 (-1) = -1 := by decide +kernel
  intro g hg q hq ρ h
  simp only [List.mem_singleton] at hg
  subst hg
  simp only [List.mem_singleton] at hq
  subst hq
  simp [Formula.holds, Formula.conj, Term.eval, Term.sum, leZero, geZero, factors, vars, h1, h0, h2, h3, exEven, eyeJac, postVal,
    postGrad, gradTerms, hiddenBias, diagJac, polyCat, polyParts, List.mapIdx_cons, List.range_succ] at h
  have h4 := mul_self_pos.2 h.2.2
  rcases h.2.1 with h5 | h5
  · nlinarith [h.1.1, h.1.2]
  · nlinarith

theorem exEven_unstable : ¬ Stable (field 1 exEven.f) := by
  intro hst
  obtain ⟨W, hW, h⟩ := hst (Metric.ball 0 1) (Metric.ball_mem_nhds _ one_pos)
  obtain ⟨ε, hε, hsub⟩ := Metric.mem_nhds_iff.1 hW
  set δ := min (ε / 2) (1 / 2) with hδ
  have hδ0 : 0 < δ := lt_min (by linarith) (by norm_num)
  have hδ1 : δ ≤ 1 / 2 := min_le_right _ _
  have hδε : δ < ε := lt_of_le_of_lt (min_le_left _ _) (by linarith)
  have htraj : Trajectory (field 1 exEven.f) (Real.log (1 / δ)) (fun t _ => δ * Real.exp t) := by
    intro t _
    rw [hasDerivWithinAt_pi]
    intro i
    refine HasDerivWithinAt.congr_deriv ((Real.hasDerivAt_exp t).const_mul δ).hasDerivWithinAt ?_
    simp [field, exEven, Term.eval, Pt.env]
  have hl : 0 ≤ Real.log (1 / δ) := Real.log_nonneg (by rw [le_div_iff₀ hδ0]; linarith)
  have h1 := h _ _ htraj (hsub (by
    rw [mem_ball_zero_iff, pi_norm_lt_iff hε]
    intro i
    simpa [abs_of_pos hδ0] using hδε)) _ ⟨hl, le_rfl⟩
  rw [mem_ball_zero_iff, pi_norm_lt_iff one_pos] at h1
  have h2 := h1 0
  rw [Real.exp_log (by positivity)] at h2
  rw [mul_one_div_cancel hδ0.ne'] at h2
  simp at h2

/-- **C47 fails without the condition at the origin.** The value at the origin is never checked: an accepted Lyapunov certificate,
from a network built without biases, on a neighbourhood of an unstable origin. -/
theorem C47_unstable_accepted :
    ∃ s : Setup, SmoothSetup s ∧ s.cert = .LYAPUNOV ∧ s.llo = false ∧ (∀ l ∈ s.net.layers, l.bias = none) ∧
      region s.nVars s.domains XD ∈ 𝓝 0 ∧ Continuous (field s.nVars s.f) ∧
      (∃ groups, queriesCT s = .ok groups ∧ Accepted s.nVars groups) ∧ ¬ Stable (field s.nVars s.f) := by
  refine ⟨exEven, ⟨Or.inl rfl, by intro e he; simp [exEven] at he; subst he; simp [WF, exEven, noSel], rfl,
    by intro a ha; simp [exEven] at ha; simp [ha]⟩, rfl, rfl, ?_, interval_nhds, ?_, exEven_accepted, exEven_unstable⟩
  · intro l hl
    simp [exEven] at hl
    rcases hl with rfl | rfl <;> rfl
  · refine continuous_pi fun i => ?_
    have : (fun p : Pt 1 => field 1 exEven.f p i) = fun p => p 0 := by
      funext p; fin_cases i; simp [field, exEven, Term.eval, Pt.env]
    show Continuous fun p : Pt 1 => field 1 exEven.f p i
    rw [this]; fun_prop

/-- `x' = -x` with the usual annular domain, `V = x²`: the hole is a ball of radius 1/10. -/
def exHole : Setup := ⟨.z3, 1, .LYAPUNOV, [(XD, .torus [0] 1 (1/10) none)], false, 3, false,
  ⟨1, [⟨[[1]], none⟩, ⟨[[1]], none⟩], [.square]⟩, [.neg (.var 0)], 0⟩

theorem exHole_accepted : ∃ groups, queriesCT exHole = .ok groups ∧ Accepted exHole.nVars groups := by
  refine ⟨_, rfl, accepted_of_refuted (by simp [DistinctLabels, queries]) ?_⟩
  have h1 : roundBy 3 1 = 1 := by decide +kernel
  intro g hg q hq ρ h
  simp only [List.mem_singleton] at hg
  subst hg
  simp only [List.mem_singleton] at hq
  subst hq
  simp [Formula.holds, Formula.conj, Term.eval, Term.sum, leZero, geZero, factors, vars, h1, exHole, eyeJac, postVal,
    postGrad, gradTerms, hiddenBias, diagJac] at h
  have h2 := mul_self_pos.2 h.2.2
  rcases h.2.1 with h3 | h3
  · norm_cast at h3; nlinarith
  · norm_num at h3; nlinarith

theorem exHole_value (p : Pt 1) : certValue exHole.rounding exHole.quad exHole.net p = p 0 ^ 2 := by
  have h1 : roundBy 3 1 = 1 := by decide +kernel
  simp [certValue, exHole, roundedNet, Net.forward, hiddenForward, Layer.apply, dotR, Act.forward, roundedHidden, roundedLast, h1,
    coordList, Bind.bind, Except.bind, at?]

/-- Non-vacuity of the theorem for domains with a hole: `A = [-1, 1]`, `H` the ball of radius 1/10, levels 1/100 and 1/2. -/
example : ∃ τ : ℝ, ∀ (T : ℝ) (ξ : ℝ → Pt 1), Trajectory (field 1 exHole.f) T ξ → |ξ 0 0| ≤ 1/2 →
    ∀ t ∈ Icc 0 T, τ ≤ t → ξ t 0 ^ 2 < 1/50 := by
  obtain ⟨g, h1, h2⟩ := exHole_accepted
  have hcl : docSet 1 (.rectangle [-1] [1] none) = (fun p : Pt 1 => p 0) ⁻¹' Icc (-1) 1 := by
    ext p; rw [seg_mem]; simp
  have hfr : ∀ p ∈ frontier (docSet 1 (.rectangle [-1] [1] none)), (1/2 : ℝ) < p 0 ^ 2 := by
    intro p hp
    have hp1 : p ∈ docSet 1 (.rectangle [-1] [1] none) := (seg_closed (-1) 1).frontier_subset hp
    rw [seg_mem] at hp1
    by_contra hcon
    push Not at hcon
    have : p ∈ interior (docSet 1 (.rectangle [-1] [1] none)) := by
      rw [mem_interior_iff_mem_nhds, hcl]
      refine (continuous_apply (0 : Fin 1)).continuousAt.preimage_mem_nhds (Icc_mem_nhds ?_ ?_) <;> nlinarith
    exact hp.2 this
  have hsm : SmoothSetup exHole := ⟨Or.inl rfl, by
      intro e he; simp [exHole] at he; subst he; simp [WF, exHole, selCount, selOk]; norm_num, rfl,
      by intro a ha; simp [exHole] at ha; simp [ha]⟩
  have hAD : ∀ p ∈ docSet 1 (.rectangle [-1] [1] none), p ∉ {p : Pt 1 | |p 0| < 1/10} →
      p ∈ region 1 exHole.domains XD ∧ p ≠ 0 := by
    intro p hp hH
    rw [seg_mem] at hp
    rw [Set.mem_ofPred_eq, not_lt] at hH
    refine ⟨?_, fun e => by rw [e] at hH; norm_num at hH⟩
    have : |p 0| ≤ 1 := abs_le.2 (by simpa using hp)
    simp [region, exHole, Dict.get?, docSet, euclid, coords, reals, Real.sqrt_sq_eq_abs]
    exact ⟨by simpa using hH, this⟩
  have hH : ∀ p ∈ docSet 1 (.rectangle [-1] [1] none), p ∈ {p : Pt 1 | |p 0| < 1/10} →
      certValue exHole.rounding exHole.quad exHole.net p ≤ 1/100 := by
    intro p _ hH
    rw [exHole_value]
    rw [Set.mem_ofPred_eq] at hH
    rw [← sq_abs]
    nlinarith [abs_nonneg (p 0)]
  obtain ⟨τ, hτ⟩ := C47_lyapunov_ultimate_bound exHole hsm rfl g h1 h2 exLyap_cont (docSet 1 (.rectangle [-1] [1] none))
    _ (Metric.isCompact_of_isClosed_isBounded (seg_closed _ _) (seg_bounded _ _)) hAD (1/100) (1/2) hH
    (fun p hp => by have := hfr p hp; rwa [← exHole_value p] at this) (1/50) (by norm_num) (by norm_num)
  refine ⟨τ, fun T ξ hξ h0 t ht htt => ?_⟩
  have h3 := abs_le.1 h0
  have h4 : ξ 0 ∈ docSet 1 (.rectangle [-1] [1] none) := by
    rw [seg_mem]; push_cast; constructor <;> linarith
  have h5 : certValue exHole.rounding exHole.quad exHole.net (ξ 0) ≤ 1/2 := by
    rw [exHole_value]; nlinarith [sq_abs (ξ 0 0), abs_nonneg (ξ 0 0)]
  have := (hτ T ξ hξ h4 h5 t ht).2.2 htt
  rwa [← exHole_value (ξ t)]

end Fossil

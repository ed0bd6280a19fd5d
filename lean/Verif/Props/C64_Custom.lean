/-
C64: certificates supplied by the user.
-/
import Verif.Custom
import Verif.Props.C46_EndToEnd
import Verif.Props.C47_Stability
import Verif.Props.C34_Cli

namespace Fossil
open Spec Set

variable {R K σ : Type}

namespace Spec

/-- A custom run a user can set up: z3 or dReal terms, well-formed sets, and training that keeps the architecture (right number of
inputs, no ReLU units). -/
structure CustomRun (c : SynthCfg) (cls : CustomClass K σ) : Prop where
  lib : c.lib = .z3 ∨ c.lib = .dreal
  sets : WFDomains c.nVars c.domains
  arch : ∀ st n k, cls.runLearn st = .ok (n, k) → n.1.inputSize = c.nVars ∧ smoothActs n.1

/-- The labels a class gives to its conditions do not repeat across dictionaries. -/
def UniqueLabels (cls : CustomClass K σ) : Prop :=
  ∀ s V Vdot gs, cls.runConstraints s V Vdot = .ok (.groups gs) → DistinctLabels gs

/-- For dReal: the conditions mention only state variables if the certificate and its derivative do, and confine them to the second-chance bound. -/
def ConfinedConditions (n : ℕ) (cls : CustomClass K σ) (s : σ) : Prop :=
  ∀ V Vdot gs, termBelow n V → termBelow n Vdot → cls.runConstraints s V Vdot = .ok (.groups gs) →
    ∀ g ∈ gs, ∀ q ∈ g, formulaBelow n q.2 ∧ Confined n q.2

/-- The formulas `d` the class is constructed with: one for each configured set; those of the interior labels hold exactly in the set, those of the border
labels at least on its frontier (for the shapes that have a boundary formula). -/
structure DenotesSets (n : ℕ) (doms : Dict String PySet) (d : Dict String Formula) : Prop where
  labels : d.keys = doms.keys
  interior : ∀ l φ, Dict.get? d l = some φ → l ≠ XSB → l ≠ XGB → ∀ p : Pt n, φ.holds p.env ↔ p ∈ region n doms l
  border : ∀ l φ, Dict.get? d l = some φ → (l = XSB ∨ l = XGB) → (∀ S, Dict.get? doms l = some S → BoundaryOK S) →
    ∀ p ∈ frontier (region n doms l), φ.holds (Pt.env p)

/-- The solver can be trusted on the conditions of the class: an SMT solver whose `unsat` answers are right, or dReal (as in `SoundWorld`) with conditions
it can decide. -/
inductive TrustedFor {N : Type} (c : SynthCfg) (cls : CustomClass K σ) (s : σ) : {R : Type} → World R K N → Prop where
  | smt (w : World Answer K N) (backend : w.backend = smtBackend) (oracle : ∀ i, RefutationSound (w.oracle i)) : TrustedFor c cls s w
  | dreal (w : World (Option Box) K N) (check : ℕ → ℕ → ℕ → Formula → Option Box)
      (backend : w.backend = drealBackend) (oracle : ∀ i, w.oracle i = drealOracle c.nVars (check i))
      (sound : ∀ i k, DRealSound (check i k)) (boxes : ∀ i k, BoxesInRange c.nVars (check i k))
      (closed : ∀ k, AllBelow c.nVars (w.dynamics k)) (confined : ConfinedConditions c.nVars cls s) : TrustedFor c cls s w

end Spec

theorem startCustom_inv {c : SynthCfg} {custom : Option (CustomClass K σ)} {disc : Bool} {cls s}
    (h : startCustom c custom disc = .ok (cls, s)) :
    disc = false ∧ custom = some cls ∧ ∃ d, initialiseDomains c.lib c.nVars c.cert c.domains = .ok d ∧ cls.new d = .ok s := by
  unfold startCustom at h
  obtain ⟨d, hd, h⟩ := except_bind_ok h
  obtain ⟨cls', hc, h⟩ := except_bind_ok h
  obtain ⟨s', hs, h⟩ := except_bind_ok h
  obtain ⟨u, ha, h⟩ := except_bind_ok h
  cases h
  have h1 : disc = false := by cases disc with
    | false => rfl
    | true => cases ha
  have h2 : custom = some cls := by cases custom with
    | none => cases hc
    | some x => cases hc; rfl
  exact ⟨h1, h2, d, hd, hs⟩

/-- What the class returned in the successful pass. -/
theorem custom_queries (w : World R K (Net × σ)) (c : SynthCfg) (cls : CustomClass K σ) (net : Net × σ) (ctrl : K) (S out)
    (h : Solves c.loop (customComponents w c cls) net ctrl S out) (hf : out.found = true) :
    ∃ k st V Vdot gs i cex, Steps c.loop (customComponents w c cls) (initState (customComponents w c cls) net ctrl S) k st ∧
      cls.runLearn st = .ok (out.net, out.ctrl) ∧
      translateCT c.lib c.rounding none c.quad out.net.1 (vars c.nVars) (w.dynamics out.ctrl) = .ok (V, Vdot) ∧
      (cls.runConstraints out.net.2 V Vdot = .ok (.groups gs) ∨ cls.runConstraints out.net.2 V Vdot = .ok (.single []) ∧ gs = []) ∧
      verify w.backend c.nVars (w.noise i) (w.oracle i) gs = .ok ⟨true, cex⟩ := by
  obtain ⟨k, st, V, Vdot, cex, hk, hl, ht, -, -, -, hv, -⟩ := C27_success_is_verified _ _ _ _ _ _ h hf
  obtain ⟨r, hr, hv⟩ := except_bind_ok hv
  obtain ⟨g, hg, hv⟩ := except_bind_ok hv
  obtain ⟨o, ho, hv⟩ := except_bind_ok hv
  obtain ⟨of, oc⟩ := o
  cases hv
  refine ⟨k, st, V, Vdot, g, st.iters, oc, hk, hl, ht, ?_, ho⟩
  cases r with
  | groups gs => cases hg; exact Or.inl hr
  | single d => cases d with
    | nil => cases hg; exact Or.inr ⟨hr, rfl⟩
    | cons _ _ => cases hg

theorem custom_accepted {w : World R K (Net × σ)} {c : SynthCfg} {cls : CustomClass K σ} {net : Net × σ} {ctrl : K} {S out}
    (h : Solves c.loop (customComponents w c cls) net ctrl S out) (hf : out.found = true) (hw : TrustedFor c cls out.net.2 w) :
    ∃ k st V Vdot gs, Steps c.loop (customComponents w c cls) (initState (customComponents w c cls) net ctrl S) k st ∧
      cls.runLearn st = .ok (out.net, out.ctrl) ∧
      translateCT c.lib c.rounding none c.quad out.net.1 (vars c.nVars) (w.dynamics out.ctrl) = .ok (V, Vdot) ∧
      (cls.runConstraints out.net.2 V Vdot = .ok (.groups gs) ∨ cls.runConstraints out.net.2 V Vdot = .ok (.single []) ∧ gs = []) ∧
      Accepted c.nVars gs := by
  obtain ⟨k, st, V, Vdot, gs, i, cex, hk, hl, ht, hg, hv⟩ := custom_queries w c cls net ctrl S out h hf
  refine ⟨k, st, V, Vdot, gs, hk, hl, ht, hg, ?_⟩
  cases hw with
  | smt w hb ho =>
    rw [hb] at hv
    exact .z3 _ _ cex (ho i) hv
  | dreal w check hb ho hs hx hcl hcf =>
    rw [hb, ho] at hv
    obtain ⟨b1, b2⟩ := translateCT_below (vars_below c.nVars) (hcl _) ht
    have hall : ∀ g ∈ gs, ∀ q ∈ g, formulaBelow c.nVars q.2 ∧ Confined c.nVars q.2 := by
      rcases hg with hg | ⟨-, rfl⟩
      · exact hcf V Vdot gs b1 b2 hg
      · intro g hg; cases hg
    exact .dreal _ (check i) cex (hs i) (fun g hg q hq => (hall g hg q hq).1) (fun g hg q hq => (hall g hg q hq).2) (hx i) hv

/-- **C64.** If synthesis with a custom certificate reports success, the run was in continuous time with a class supplied by the
user, and — for the formulas `V`, `Vdot` of the returned network and its derivative — every condition `get_constraints` returned for
them has no solution at all. `V` is the value of the returned network, `Vdot` its derivative along the returned closed loop, and the
formulas the class was constructed with denote the configured sets. -/
theorem C64_success_is_verified (c : SynthCfg) (hcert : c.cert = .CUSTOM) (w : World R K (Net × σ))
    (custom : Option (CustomClass K σ)) (disc : Bool) (net ctrl S out) (h : CustomSolves w c custom disc net ctrl S out) (hf : out.found = true)
    (hr : ∀ cls, custom = some cls → CustomRun c cls ∧ UniqueLabels cls ∧ TrustedFor c cls out.net.2 w) :
    disc = false ∧ ∃ cls s d V Vdot r gs, custom = some cls ∧ cls.new d = .ok s ∧
      DenotesSets c.nVars c.domains d ∧
      (∀ p : Pt c.nVars, V.eval p.env = certValue c.rounding c.quad out.net.1 p) ∧
      (∀ p : Pt c.nVars, IsLieDerivAt (field c.nVars (w.dynamics out.ctrl)) (certValue c.rounding c.quad out.net.1) (fun q => Vdot.eval q.env) p) ∧
      cls.runConstraints out.net.2 V Vdot = .ok r ∧ r.iterate = .ok gs ∧
      ∀ g ∈ gs, ∀ q ∈ g, ∀ ρ : Env, ¬ q.2.holds ρ := by
  obtain ⟨cls, s, hs, h⟩ := h
  obtain ⟨hd, hc, d, hdd, hnew⟩ := startCustom_inv hs
  obtain ⟨hrun, huniq, htr⟩ := hr cls hc
  obtain ⟨k, st, V, Vdot, gs, -, hl, ht, hg, hacc⟩ := custom_accepted h hf htr
  obtain ⟨hsz, hsm⟩ := hrun.arch _ _ _ hl
  have hv : (fun q : Pt c.nVars => V.eval q.env) = certValue c.rounding c.quad out.net.1 := funext (certValue_eq ht)
  have hlie : ∀ p : Pt c.nVars, IsLieDerivAt (field c.nVars (w.dynamics out.ctrl)) (certValue c.rounding c.quad out.net.1) (fun q => Vdot.eval q.env) p := by
    intro p
    rw [← hv]
    exact C17_lie_derivative_smooth c.lib c.rounding c.quad out.net.1 c.nVars _ V Vdot ht hsz hsm p
  have hdd' := initialise_single hdd (by simp [hcert])
  have hreg : DenotesSets c.nVars c.domains d :=
    ⟨domainEntries_keys hdd', fun l φ hl h1 h2 p => entry_region hrun.lib hrun.sets hdd' (by simp [isBorder, h1, h2]) (getE_ok.2 hl) p,
      fun l φ hl hb hB p hp => entry_border hrun.lib hrun.sets hdd' (by rcases hb with rfl | rfl <;> decide) (getE_ok.2 hl) hB p hp⟩
  rcases hg with hg | ⟨hg, rfl⟩
  · exact ⟨hd, cls, s, d, V, Vdot, _, gs, hc, hnew, hreg, certValue_eq ht, hlie, hg, rfl, accepted_refutes (huniq _ _ _ _ hg) hacc⟩
  · exact ⟨hd, cls, s, d, V, Vdot, _, [], hc, hnew, hreg, certValue_eq ht, hlie, hg, rfl, by intro g hg; cases hg⟩

/-- **C64.** Nothing is ever reported for CUSTOM without a class, in discrete time, or with a class that does not define its own
constructor, `learn` and `get_constraints`. -/
theorem C64_needs_complete_class (c : SynthCfg) (w : World R K (Net × σ)) (custom : Option (CustomClass K σ)) (disc : Bool)
    (net ctrl S out) (h : CustomSolves w c custom disc net ctrl S out) :
    disc = false ∧ ∃ cls, custom = some cls ∧ cls.init.isSome ∧ cls.learn.isSome ∧ cls.constraints.isSome := by
  obtain ⟨cls, s, hs, h⟩ := h
  obtain ⟨hd, hc, d, -, hnew⟩ := startCustom_inv hs
  obtain ⟨k, st, -, hb⟩ := h
  obtain ⟨n, kk, V, Vdot, found, cex, traj, st2, h1, h2, h3, -⟩ := loopBody_inv hb
  refine ⟨hd, cls, hc, ?_, ?_, ?_⟩
  · cases hi : cls.init with
    | none => simp only [CustomClass.new, hi] at hnew; cases hnew
    | some f => rfl
  · cases hi : cls.learn with
    | none => simp only [customComponents, CustomClass.runLearn, hi] at h1; cases h1
    | some f => rfl
  · cases hi : cls.constraints with
    | none =>
      obtain ⟨r, hr, -⟩ := except_bind_ok h3
      simp only [CustomClass.runConstraints, hi] at hr; cases hr
    | some f => rfl

/-- The documented shortcut of returning one (non-empty) dictionary instead of a tuple of dictionaries never works: no run with such
a class returns. -/
theorem C64_single_dictionary_never_returns (c : SynthCfg) (w : World R K (Net × σ)) (cls : CustomClass K σ) (disc : Bool)
    (hsingle : ∀ s V Vdot r, cls.runConstraints s V Vdot = .ok r → ∃ e g, r = .single (e :: g))
    (net ctrl S out) : ¬ CustomSolves w c (some cls) disc net ctrl S out := by
  rintro ⟨cls', s, hs, k, st, -, hb⟩
  obtain ⟨-, hc, -⟩ := startCustom_inv hs
  cases hc
  obtain ⟨n, kk, V, Vdot, found, cex, traj, st2, h1, h2, h3, -⟩ := loopBody_inv hb
  obtain ⟨r, hr, h3⟩ := except_bind_ok h3
  obtain ⟨e, g, rfl⟩ := hsingle _ _ _ _ hr
  cases h3

/-- A class whose `get_constraints` returns nothing to check is successful in its first pass, whatever the network. -/
theorem C64_no_conditions_succeeds (c : SynthCfg) (hcert : c.cert = .CUSTOM) (w : World R K (Net × σ)) (cls : CustomClass K σ) (net ctrl S) (d s n k V Vdot r traj)
    (hd : initialiseDomains c.lib c.nVars c.cert c.domains = .ok d) (hi : cls.new d = .ok s)
    (hl : cls.runLearn (initState (customComponents w c cls) (net, s) ctrl S) = .ok (n, k))
    (ht : translateCT c.lib c.rounding none c.quad n.1 (vars c.nVars) (w.dynamics k) = .ok (V, Vdot))
    (hg : cls.runConstraints n.2 V Vdot = .ok r) (hr : r = .groups [] ∨ r = .single []) (hco : w.consolidate 0 n k [] = .ok traj) :
    ∃ out, CustomSolves w c (some cls) false net ctrl S out ∧ out.found = true ∧ out.net = n := by
  have hve : (customComponents w c cls).verify 0 n V Vdot = .ok (true, []) := by
    rcases hr with rfl | rfl <;>
      simp [customComponents, hg, Returned.iterate, verify, solveGroups, Bind.bind, Except.bind, pure, Except.pure, Dict.values]
  have hst : startCustom c (some cls) false = .ok (cls, s) := by
    simp [startCustom, hd, customClassOf, hi, assertContinuous, Bind.bind, Except.bind, pure, Except.pure]
  let C := customComponents w c cls
  have hb : loopBody c.loop C (initState C (net, s) ctrl S) = .ok (true, ((initState C (net, s) ctrl S).after n k V Vdot true [] traj).tick) := by
    have hl : C.learn (initState C (net, s) ctrl S) = .ok (n, k) := hl
    have ht : C.translate n k = .ok (V, Vdot) := ht
    have hve : C.verify (initState C (net, s) ctrl S).iters n V Vdot = .ok (true, []) := hve
    have hco : C.consolidate (initState C (net, s) ctrl S).iters n k [] = .ok traj := hco
    simp only [loopBody, hl, ht, hve, hco, Bind.bind, Except.bind, pure, Except.pure]
    simp [loopDecide, LoopState.after, processCertificate, SynthCfg.loop, hcert]
  exact ⟨_, ⟨cls, s, hst, 0, _, .refl _, hb⟩, rfl, rfl⟩

/-! ### The example class of the repository -/

theorem processCex_net {N K P E : Type} {b : Bool} {C : Components N K P E} {st st' : LoopState N K P E} (h : processCex b C st = .ok st') : st'.net = st.net := by
  unfold processCex at h
  split at h
  · cases h
  · split at h
    · cases h
    · cases h; rfl

theorem loopBody_net {N K P E : Type} {cfg : LoopCfg} {C : Components N K P E} {st st' : LoopState N K P E} {stop : Bool}
    (h : loopBody cfg C st = .ok (stop, st')) : ∃ k, C.learn st = .ok (st'.net, k) := by
  obtain ⟨m, kk, V, Vdot, found, cex, traj, st2, h1, -, -, -, rfl, h5⟩ := loopBody_inv h
  refine ⟨kk, ?_⟩
  rw [h1]
  have : st2.net = m := by
    split at h5
    · rcases processCertificate_inv h5 with ⟨-, rfl, -⟩ | ⟨-, -, -, rfl⟩ <;> rfl
    · split at h5
      · rw [h5.2]; rfl
      · split at h5
        · rw [h5.2]; rfl
        · exact processCex_net h5.2
  rw [← this]; rfl

/-- The object of the example class keeps the formula of its domain. -/
theorem customLyapunov_state {n : ℕ} {train} (w : World R K (Net × Formula)) (c : SynthCfg) {net ctrl S k st}
    (h : Steps c.loop (customComponents w c (customLyapunov n train)) (initState (customComponents w c (customLyapunov n train)) net ctrl S) k st) :
    st.net.2 = net.2 := by
  generalize hs0 : initState (customComponents w c (customLyapunov n train)) net ctrl S = s0 at h
  induction h with
  | refl => rw [← hs0]; rfl
  | tail _ hb ih =>
    obtain ⟨kk, h1⟩ := loopBody_net hb
    obtain ⟨tk, -, h1⟩ := except_bind_ok h1
    have := Except.ok.inj h1
    rw [← ih, ← congrArg (fun x => x.1.2) this]

/-- The solver can be trusted on the conditions of the example class if it can for the other certificates. -/
theorem customLyapunov_trusted {w : World R K (Net × Formula)} {c : SynthCfg} (hw : SoundWorld c w) (hlib : c.lib = .z3 ∨ c.lib = .dreal)
    (hsets : WFDomains c.nVars c.domains) (hcert : c.cert = .CUSTOM) {train} {d dom}
    (hd : initialiseDomains c.lib c.nVars c.cert c.domains = .ok d) (hdom : Dict.getE d XD = .ok dom) :
    TrustedFor c (customLyapunov (K := K) c.nVars train) dom w := by
  cases hw with
  | smt w hb ho hst => exact .smt w hb ho
  | dreal w check stayCheck hb ho hst hs hx hs' hx' hsm hcl hc =>
    refine .dreal w check hb ho hs hx hcl fun V Vdot gs hV hW hg => ?_
    have h3 : singleConstraints .LYAPUNOV c.nVars false 0 d V Vdot = .ok gs := by
      simp only [singleConstraints, lyapunovConstraints, hdom, Bind.bind, Except.bind, pure, Except.pure]
      cases hg
      rfl
    have hd' := initialise_single hd (by simp [hcert])
    have h1 := single_below (initialise_below hd) hV hW h3
    have h2 := single_confined hlib hsets hsm hd' (by simp) h3
    exact fun g hg q hq => ⟨h1 g hg q hq, h2 g hg q hq⟩

/-- A successful run with the example class is an accepted Lyapunov certificate. -/
theorem customLyapunov_accepted {w : World R K (Net × Formula)} {c : SynthCfg} (hw : SoundWorld c w) (hcert : c.cert = .CUSTOM) {train}
    (hr : CustomRun c (customLyapunov (K := K) c.nVars train)) {disc net ctrl S out}
    (h : CustomSolves w c (some (customLyapunov c.nVars train)) disc net ctrl S out) (hf : out.found = true) :
    let s : Setup := { c.setup out.net.1 0 (w.dynamics out.ctrl) with cert := .LYAPUNOV, llo := false }
    SmoothSetup s ∧ ∃ groups, queriesCT s = .ok groups ∧ Accepted s.nVars groups := by
  obtain ⟨cls, s, hs, h⟩ := h
  obtain ⟨-, hc, d, hd, hnew⟩ := startCustom_inv hs
  cases hc
  have hnew : Dict.getE d XD = .ok s := hnew
  obtain ⟨k, st, V, Vdot, cex, hk, hl, -⟩ := C27_success_is_verified _ _ _ _ _ _ h hf
  have hst := customLyapunov_state w c hk
  have hout : out.net.2 = s := by
    obtain ⟨tk, -, h1⟩ := except_bind_ok hl
    have := Except.ok.inj h1
    rw [← congrArg (fun x => x.1.2) this]
    exact hst
  obtain ⟨k, st, V, Vdot, gs, -, hl, ht, hg, hacc⟩ := custom_accepted h hf (hout ▸ customLyapunov_trusted hw hr.lib hr.sets hcert hd hnew)
  obtain ⟨hsz, hsm⟩ := hr.arch _ _ _ hl
  refine ⟨⟨hr.lib, hr.sets, hsz, hsm⟩, gs, ?_, hacc⟩
  have hd' : initialiseDomains c.lib c.nVars .LYAPUNOV c.domains = .ok d := by
    rw [hcert] at hd
    simpa [initialiseDomains] using hd
  simp only [queriesCT, SynthCfg.setup, Bind.bind, Except.bind, hd', ht]
  rcases hg with hg | ⟨hg, rfl⟩
  · simp only [singleConstraints, lyapunovConstraints, hnew, Bind.bind, Except.bind, pure, Except.pure]
    rw [hout] at hg
    cases hg
    rfl
  · rw [hout] at hg; cases hg

/-- **C64.** The example class of the repository gives what the built-in Lyapunov certificate gives: after success, the returned
network is positive away from the origin on XD, and strictly decreases along every trajectory of the closed loop in XD minus the
origin; if XD is a neighbourhood of the origin and the network vanishes there, the origin is stable, and asymptotically stable for
continuous dynamics. -/
theorem C64_custom_lyapunov (c : SynthCfg) (hcert : c.cert = .CUSTOM) (w : World R K (Net × Formula)) (hw : SoundWorld c w) (train)
    (hr : CustomRun c (customLyapunov (K := K) c.nVars train)) (disc net ctrl S out)
    (h : CustomSolves w c (some (customLyapunov c.nVars train)) disc net ctrl S out) (hf : out.found = true) :
    (∀ p ∈ region c.nVars c.domains XD, p ≠ 0 → 0 < certValue c.rounding c.quad out.net.1 p) ∧
    (∀ (T : ℝ) (ξ : ℝ → Pt c.nVars), Trajectory (field c.nVars (w.dynamics out.ctrl)) T ξ →
      (∀ t ∈ Icc 0 T, ξ t ∈ region c.nVars c.domains XD ∧ ξ t ≠ 0) →
      StrictAntiOn (fun t => certValue c.rounding c.quad out.net.1 (ξ t)) (Icc 0 T)) ∧
    (region c.nVars c.domains XD ∈ nhds 0 → (c.quad = true ∨ ZeroNet out.net.1) →
      Stable (field c.nVars (w.dynamics out.ctrl)) ∧
      (Continuous (field c.nVars (w.dynamics out.ctrl)) → AsympStable (field c.nVars (w.dynamics out.ctrl)))) := by
  obtain ⟨hs, g, hq, ha⟩ := customLyapunov_accepted hw hcert hr h hf
  obtain ⟨L, -, hL⟩ := C05_lyapunov_conditions _ hs.lib hs.sets hs.size rfl g hq ha
  exact ⟨fun p hp h0 => (hL p hp h0).1 rfl, fun T ξ hξ hin => C06_decreases_along_trajectories _ hs rfl g hq ha T ξ hξ hin,
    fun hD hz => C47_lyapunov_stability_partial _ hs rfl g hq ha (Or.inl rfl) hz hD⟩

/-! ### Non-vacuity -/

/-- The configuration of the example: `x' = -x` on `[-1, 1]`. -/
def exCustom : SynthCfg := ⟨.z3, 1, .CUSTOM, exLyap.domains, false, 3, false, 10⟩

/-- Training that proposes the network `x²`. -/
def exTrain (_ : LoopState (Net × Formula) Unit (List ℚ) Term) : Except Err (Net × Unit) := .ok (exLyap.net, ())

theorem exCustom_run : CustomRun exCustom (customLyapunov (K := Unit) 1 exTrain) :=
  ⟨Or.inl rfl, exLyap_smooth.sets, fun st n k h => by
    cases h
    exact ⟨exLyap_smooth.size, exLyap_smooth.smooth⟩⟩

/-- Synthesis with the example class succeeds. -/
theorem exCustom_succeeds : ∃ out, CustomSolves (idealWorld (Net × Formula) exLyap.f) exCustom (some (customLyapunov 1 exTrain)) false exLyap.net () [] out ∧
    out.found = true ∧ out.net.1 = exLyap.net := by
  obtain ⟨groups, hq, ha⟩ := exLyap_accepted
  obtain ⟨d, V, Vdot, h1, h2, h3⟩ := queriesCT_inv hq
  have hdl : DistinctLabels groups := by
    obtain ⟨dom, hd, h3⟩ := except_bind_ok h3
    cases h3
    simp [DistinctLabels, queries]
  obtain ⟨cex, hv⟩ := ideal_verifies 1 groups hdl (accepted_refutes hdl ha)
  obtain ⟨dom, hdom, h3⟩ := except_bind_ok h3
  have hst : startCustom exCustom (some (customLyapunov (K := Unit) 1 exTrain)) false = .ok (customLyapunov 1 exTrain, dom) := by
    have h1' : initialiseDomains exCustom.lib exCustom.nVars exCustom.cert exCustom.domains = .ok d := h1
    have hn : (customLyapunov (K := Unit) 1 exTrain).new d = .ok dom := hdom
    simp only [startCustom, h1', customClassOf, hn, assertContinuous, Bind.bind, Except.bind, pure, Except.pure]
    rfl
  let C := customComponents (idealWorld (Net × Formula) exLyap.f) exCustom (customLyapunov 1 exTrain)
  obtain ⟨out, ho, hf, hn, -⟩ := first_pass exCustom.loop C (exLyap.net, dom) () [] (exLyap.net, dom) () V Vdot cex [] rfl h2
    (by
      cases h3
      have hv : verify (idealWorld (Net × Formula) exLyap.f).backend exCustom.nVars ((idealWorld (Net × Formula) exLyap.f).noise 0)
        ((idealWorld (Net × Formula) exLyap.f).oracle 0) _ = _ := hv
      simp only [C, customComponents, CustomClass.runConstraints, customLyapunov, Returned.iterate, Bind.bind, Except.bind]
      erw [hv]
      rfl) rfl rfl (by intro h; cases h)
  exact ⟨out, ⟨_, _, hst, ho⟩, hf, by rw [hn]⟩

/-- The hypotheses of the C64 theorems are met by a run that succeeds. -/
example : exCustom.cert = .CUSTOM ∧ SoundWorld exCustom (idealWorld (Net × Formula) exLyap.f) ∧
    CustomRun exCustom (customLyapunov (K := Unit) 1 exTrain) ∧ UniqueLabels (customLyapunov (K := Unit) 1 exTrain) ∧
    (∀ s, TrustedFor exCustom (customLyapunov (K := Unit) 1 exTrain) s (idealWorld (Net × Formula) exLyap.f)) ∧
    ∃ out, CustomSolves (idealWorld (Net × Formula) exLyap.f) exCustom (some (customLyapunov 1 exTrain)) false exLyap.net () [] out ∧ out.found = true := by
  obtain ⟨out, h, hf, -⟩ := exCustom_succeeds
  refine ⟨rfl, idealWorld_sound _ _ _, exCustom_run, ?_, fun s => .smt _ rfl fun _ => idealSolver_refutationSound, out, h, hf⟩
  intro s V Vdot gs h
  cases h
  simp [DistinctLabels, queries]

/-- A class returning one dictionary. -/
example : ∀ (s : Formula) V Vdot r, (⟨some fun d => Dict.getE d XD, none, some fun dom _ _ => .ok (.single [(XD, dom)])⟩ :
    CustomClass Unit Formula).runConstraints s V Vdot = .ok r → ∃ e g, r = .single (e :: g) := by
  intro s V Vdot r h
  cases h
  exact ⟨_, _, rfl⟩

/-- A class that checks nothing. -/
def exNothing : CustomClass Unit Formula :=
  ⟨some fun d => Dict.getE d XD, some fun st => .ok (st.net, ()), some fun _ _ _ => .ok (.groups [])⟩

/-- Synthesis with it reports success for `V = -x²` (and any other network). -/
example : ∃ out, CustomSolves (idealWorld (Net × Formula) exLyap.f) exCustom (some exNothing) false
    ⟨1, [⟨[[1]], none⟩, ⟨[[-1]], none⟩], [.square]⟩ () [] out ∧ out.found = true := by
  obtain ⟨d, V, Vdot, h1, -, h3⟩ := queriesCT_inv exLyap_accepted.choose_spec.1
  obtain ⟨dom, hdom, -⟩ := except_bind_ok h3
  obtain ⟨out, h, hf, -⟩ := C64_no_conditions_succeeds exCustom rfl (idealWorld (Net × Formula) exLyap.f) exNothing
    ⟨1, [⟨[[1]], none⟩, ⟨[[-1]], none⟩], [.square]⟩ () [] d dom _ () _ _ _ [] h1 hdom rfl rfl rfl (Or.inl rfl) rfl
  exact ⟨out, h, hf⟩

/-- A class that uses one label for two conditions, the first of which the solver cannot decide. -/
def exRepeated : CustomClass Unit Formula :=
  ⟨some fun d => Dict.getE d XD, some fun st => .ok ((exLyap.net, st.net.2), ()),
    some fun _ V _ => .ok (.groups [[(XD, .le V (.const 0))], [(XD, .ff)]])⟩

/-- Distinct labels are needed: a class that reuses a label can be successful although one of its conditions has solutions and was
never refuted (the answer "unknown" is overwritten, C03). -/
theorem C64_repeated_label_hides_condition : ∃ (w : World Answer Unit (Net × Formula)) (out : LoopState (Net × Formula) Unit (List ℚ) Term),
    w.backend = smtBackend ∧ (∀ i, RefutationSound (w.oracle i)) ∧ CustomRun exCustom exRepeated ∧
    CustomSolves w exCustom (some exRepeated) false exLyap.net () [] out ∧ out.found = true ∧
    ∃ V Vdot gs, out.V = some V ∧ out.Vdot = some Vdot ∧ exRepeated.runConstraints out.net.2 V Vdot = .ok (.groups gs) ∧
      ∃ g ∈ gs, ∃ q ∈ g, ∃ ρ : Env, q.2.holds ρ := by
  obtain ⟨d, V, Vdot, h1, h2, h3⟩ := queriesCT_inv exLyap_accepted.choose_spec.1
  obtain ⟨dom, hdom, -⟩ := except_bind_ok h3
  let w : World Answer Unit (Net × Formula) :=
    { idealWorld (Net × Formula) exLyap.f with oracle := fun _ _ φ => if φ = .ff then .unsat else .unknown }
  let C := customComponents w exCustom exRepeated
  obtain ⟨out, ⟨k, st, hk, hb⟩, hf, hn, -⟩ := first_pass exCustom.loop C (exLyap.net, dom) () [] (exLyap.net, dom) () V Vdot [(XD, [])] [] rfl h2 rfl rfl rfl (by intro h; cases h)
  have hst : startCustom exCustom (some exRepeated) false = .ok (exRepeated, dom) := by
    have h1' : initialiseDomains exCustom.lib exCustom.nVars exCustom.cert exCustom.domains = .ok d := h1
    have hn : exRepeated.new d = .ok dom := hdom
    simp only [startCustom, h1', customClassOf, hn, assertContinuous, Bind.bind, Except.bind, pure, Except.pure]
    rfl
  obtain ⟨_, _, V', Vdot', _, _, _, ht, hV, hW, -⟩ := C27_success_is_verified _ _ _ _ _ _ ⟨k, st, hk, hb⟩ hf
  refine ⟨w, out, rfl, fun i k φ h ρ => ?_, ⟨Or.inl rfl, exLyap_smooth.sets, fun st n k h => by cases h; exact ⟨exLyap_smooth.size, exLyap_smooth.smooth⟩⟩, ⟨_, _, hst, k, st, hk, hb⟩, hf, V', Vdot', _, hV, hW, rfl, _, List.mem_cons_self .., _, List.mem_cons_self .., fun _ => 0, ?_⟩
  · have h : (if φ = Formula.ff then Answer.unsat else .unknown) = .unsat := h
    split at h
    · rename_i e; subst e; simp [Formula.holds]
    · cases h
  · rw [hn] at ht
    have ht : translateCT .z3 3 none false exLyap.net (vars 1) exLyap.f = .ok (V', Vdot') := ht
    have he := certValue_eq ht (0 : Pt 1)
    have hz : certValue 3 false exLyap.net (0 : Pt 1) = 0 := C47_vanishes_at_origin 1 3 false exLyap.net (Or.inr ?_)
    · have henv : (0 : Pt 1).env = fun _ => 0 := by funext i; simp [Pt.env]
      rw [henv, hz] at he
      simp [Formula.holds, Term.eval, he]
    · exact exLyap_zero

end Fossil

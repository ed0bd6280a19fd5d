/-
C63: what the choice of verifier, time domain, certificate and controller means for a run.
-/
import Verif.Backends
import Verif.Props.C27_Cegis
import Verif.Props.C46_EndToEnd
import Verif.Props.C47_Stability
import Verif.Props.C62_Options

namespace Fossil

open Spec

/-- **C63, parts.** A run that can be started at all has a verifier other than MARABOU; its translator takes the one-step difference exactly in discrete
time, and both networks exactly for the certificates with two; discrete time is possible for LYAPUNOV and BARRIERALT only; the learner differentiates along
the flow exactly in continuous time and trains a controller exactly if there is one. -/
theorem C63_started_run (early late : Except Err Unit) (v : VName) (discrete ctrl : Bool) (cert : CertType) (p : Parts)
    (h : startParts early late v discrete ctrl cert = .ok p) :
    v ≠ .MARABOU ∧ p.verifier = v ∧
    p.translator = (if discrete then .DT else if cert = .STABLESAFE ∨ cert = .RAR then .CTDouble else .CT) ∧
    p.learner = (match discrete, ctrl with | false, false => .CT | false, true => .ctrlCT | true, false => .DT | true, true => .ctrlDT) ∧
    (discrete = true → cert = .LYAPUNOV ∨ cert = .BARRIERALT) := by
  simp only [startParts, newVerifier, runTranslator, assertTime] at h
  obtain ⟨-, -, h⟩ := except_bind_ok h
  obtain ⟨ver, hv, h⟩ := except_bind_ok h
  obtain ⟨t, ht, h⟩ := except_bind_ok h
  obtain ⟨u, ha, h⟩ := except_bind_ok h
  obtain ⟨-, -, h⟩ := except_bind_ok h
  by_cases hm : v = .MARABOU
  · rw [if_pos hm] at hv; cases hv
  rw [if_neg hm] at hv
  cases hv
  by_cases hd : discrete = true ∧ ¬ (cert = .LYAPUNOV ∨ cert = .BARRIERALT)
  · rw [if_pos hd] at ha; cases ha
  cases h
  have hcd : discrete = true → cert = .LYAPUNOV ∨ cert = .BARRIERALT := fun e => by
    by_contra hc; exact hd ⟨e, hc⟩
  refine ⟨hm, rfl, ?_, by cases discrete <;> cases ctrl <;> rfl, hcd⟩
  cases discrete with
  | true =>
    have hc : ¬ (cert = .STABLESAFE ∨ cert = .RAR) := by
      rcases hcd rfl with rfl | rfl <;> decide
    rw [if_neg hc] at ht
    simp only [translatorType, if_neg hm, if_true] at ht
    cases ht; rfl
  | false =>
    by_cases hc : cert = .STABLESAFE ∨ cert = .RAR
    · rw [if_pos hc] at ht
      cases ht
      simp [hc]
    · rw [if_neg hc] at ht
      simp only [translatorType, if_neg hm, Bool.false_eq_true, if_false] at ht
      cases ht
      simp [hc]

/-- **C63, everything else starts.** Conversely a run can be started, if nothing else in its configuration raises, with every other verifier in continuous
time, and in discrete time for LYAPUNOV and BARRIERALT. -/
theorem C63_can_start (v : VName) (hv : v ≠ .MARABOU) (discrete ctrl : Bool) (cert : CertType)
    (hd : discrete = true → cert = .LYAPUNOV ∨ cert = .BARRIERALT) :
    ∃ p, startParts (.ok ()) (.ok ()) v discrete ctrl cert = .ok p := by
  have hd' : ¬ (discrete = true ∧ ¬ (cert = .LYAPUNOV ∨ cert = .BARRIERALT)) := fun h => h.2 (hd h.1)
  cases v <;> first | exact absurd rfl hv | skip
  all_goals
    cases discrete <;> cases ctrl <;> cases cert <;>
      first | (exact absurd (hd rfl) (by decide)) | exact ⟨_, rfl⟩

/-- **C63, one library.** The sets, the dynamics and the activations of a started run are written with the functions of one and the same library, that of
its verifier (sympy's without one); this is so although the three look at the variables separately. -/
theorem C63_one_library (early late : Except Err Unit) (v : VName) (discrete ctrl : Bool) (cert : CertType) (p : Parts)
    (h : startParts early late v discrete ctrl cert = .ok p) :
    ∃ lib, (match v with | .Z3 => lib = Lib.z3 | .DREAL => lib = .dreal | .CVC5 => lib = .cvc5 | .NONE => lib = .sympy | .MARABOU => False) ∧
      p.vars.modelTable = some lib ∧ p.vars.setTable = lib ∧ p.vars.activationTable = .ok lib := by
  have hm := (C63_started_run early late v discrete ctrl cert p h).1
  have hp : p.vars = v.newVars := by
    simp only [startParts] at h
    obtain ⟨-, -, h⟩ := except_bind_ok h
    obtain ⟨ver, hv, h⟩ := except_bind_ok h
    obtain ⟨t, ht, h⟩ := except_bind_ok h
    obtain ⟨-, -, h⟩ := except_bind_ok h
    obtain ⟨-, -, h⟩ := except_bind_ok h
    cases h; rfl
  rw [hp]
  cases v with
  | Z3 => exact ⟨_, rfl, rfl, rfl, rfl⟩
  | DREAL => exact ⟨_, rfl, rfl, rfl, rfl⟩
  | CVC5 => exact ⟨_, rfl, rfl, rfl, rfl⟩
  | NONE => exact ⟨_, rfl, rfl, rfl, rfl⟩
  | MARABOU => exact absurd rfl hm

example : ∃ p, startParts (.ok ()) (.ok ()) .DREAL true true .BARRIERALT = .ok p ∧ p.translator = .DT ∧ p.learner = .ctrlDT :=
  ⟨_, rfl, rfl, rfl⟩

/-! ### the run without a verifier -/

section
variable {N K E : Type} (cfg : LoopCfg) (C : Components N K (List ℚ) E) (net : N) (ctrl : K) (S : Dict String (List (List ℚ)))

theorem withoutVerifier_pass {st st' : LoopState N K (List ℚ) E} {stop : Bool} (h : loopBody cfg (withoutVerifier C) st = .ok (stop, st')) :
    cfg.cert ≠ .RSWS ∧ stop = true ∧ st'.found = true ∧ st'.iters = st.iters + 1 ∧ C.learn st = .ok (st'.net, st'.ctrl) := by
  obtain ⟨n, k, V, Vdot, found, cex, traj, st2, h1, h2, h3, h4, rfl, h5⟩ := loopBody_inv h
  have h3 : Except.ok (true, ([] : Dict String (List (List ℚ)))) = .ok (found, cex) := h3
  cases h3
  simp only [if_true] at h5
  rcases processCertificate_inv h5 with ⟨rfl, rfl, hr⟩ | ⟨-, hb, -⟩
  · refine ⟨fun hc => ?_, rfl, rfl, rfl, h1⟩
    have := hr hc
    cases this
  · cases hb

/-- **C63, no verifier (negation of C27's meaning).** Without a verifier every run that returns reports success, after the first pass, with whatever network
the first training step produced: no solver is asked, and no property of the network or the system enters. -/
theorem C63_no_verifier_reports_success (out : LoopState N K (List ℚ) E) (h : Solves cfg (withVerifier .NONE C) net ctrl S out) :
    out.found = true ∧ out.iters = 1 ∧ C.learn (initState C net ctrl S) = .ok (out.net, out.ctrl) := by
  obtain ⟨k, st, hk, hb⟩ := h
  have hb : loopBody cfg (withoutVerifier C) st = .ok (true, out) := hb
  obtain ⟨-, -, h1, h2, h3⟩ := withoutVerifier_pass cfg C hb
  cases hk with
  | refl => exact ⟨h1, h2, h3⟩
  | tail _ hs =>
    have hs : loopBody cfg (withoutVerifier C) _ = .ok (false, st) := hs
    cases (withoutVerifier_pass cfg C hs).2.1

/-- **C63, no verifier.** And it does return whenever training, translation and (for LYAPUNOV and ROA) the level estimate do not raise, for every
certificate but RSWS. -/
theorem C63_no_verifier_returns (hc : cfg.cert ≠ .RSWS) (n : N) (k : K) (V Vdot : E) (hl : C.learn (initState C net ctrl S) = .ok (n, k))
    (ht : C.translate n k = .ok (V, Vdot)) (he : C.estimateBeta n = .ok ()) :
    ∃ out, Solves cfg (withVerifier .NONE C) net ctrl S out ∧ out.found = true ∧ out.net = n ∧ out.ctrl = k :=
  first_pass cfg (withoutVerifier C) net ctrl S n k V Vdot [] [] hl ht rfl rfl he fun h => absurd h hc

/-- **C63, RSWS without a verifier** always raises. -/
theorem C63_no_verifier_rsws_raises (hc : cfg.cert = .RSWS) (out : LoopState N K (List ℚ) E) : ¬ Solves cfg (withVerifier .NONE C) net ctrl S out := by
  rintro ⟨k, st, hk, hb⟩
  exact (withoutVerifier_pass cfg C (st := st) (st' := out) hb).1 hc

/-- **C63, with a verifier** the components are those of C27 and C46: nothing is replaced. -/
theorem C63_verifier_is_used (v : VName) (hv : v ≠ .NONE) : withVerifier v C = C := if_neg hv

end

/-- A file asking for no verifier: the unstable system `x' = x`. -/
def exNoneFile : Dict String Yaml := [
  ("SYSTEM", .texts ["x0"]), ("CERTIFICATE", .text "Lyapunov"), ("DOMAINS", .textMap [("XD", "Rectangle([-1], [1])")]),
  ("TIME_DOMAIN", .text "CONTINUOUS"), ("VERIFIER", .text "none"), ("N_DATA", .int 100), ("N_VARS", .int 1),
  ("N_HIDDEN_NEURONS", .ints [1]), ("ACTIVATION", .texts ["SQUARE"])]

/-- What it is read as. -/
def exNoneText : ConfigText :=
  ⟨.sympy, 1, .LYAPUNOV, ["x0"], [("XD", "Rectangle([-1], [1])")], some (.int 100), ⟨1 / 10, true, false⟩, false, 3, false, 10⟩

/-- The network `x ↦ x²`. -/
def exNoneNet : Net := ⟨1, [⟨[[1]], none⟩, ⟨[[1]], none⟩], [.square]⟩

theorem exNone_read : readFile exNoneFile = .ok (.synth exNoneText ⟨[1], [.SQUARE], [10], [.SQUARE]⟩) := by
  decide +kernel

theorem exNone_ready : ∃ data, readConfig exNoneText = .ok ⟨⟨.sympy, 1, .LYAPUNOV, [(XD, .rectangle [-1] [1] none)], false, 3, false, 10⟩, [.var 0], data⟩ := by
  have es : readSystem exNoneText.lib exNoneText.nVars exNoneText.system = .ok [.var 0] := rfl
  have ed : readDomainTexts exNoneText.domains = .ok [("XD", .rectangle [-1] [1] none)] := by rfl
  have hp : ∃ data : Dict String Src, parseConfig .LYAPUNOV [("XD", .rectangle [-1] [1] none)] exNoneText.nData =
      .ok (data, [(XD, .rectangle [-1] [1] none)]) ∧
      ∃ d, initialiseDomains .sympy 1 .LYAPUNOV [(XD, .rectangle [-1] [1] none)] = .ok d ∧ assertState .LYAPUNOV d.keys data.keys = .ok () :=
    ⟨_, rfl, _, rfl, rfl⟩
  obtain ⟨data, hp, d, hd, ha⟩ := hp
  refine ⟨data, ?_⟩
  have hlr : ¬ ((1 / 10 : ℚ) ≤ 0) := by norm_num
  exact readConfig_ok es (readSets_ok ed hp hd hlr rfl (Or.inl rfl) ha)

/-- **C63, negation from the command line.** There is a configuration file, accepted by the tool, whose run (with any solver) reports that it found a Lyapunov
function although the origin of the written system is unstable: `VERIFIER: none` is accepted in a file. -/
theorem C63_file_without_verifier : ∃ (file : Dict String Yaml) (c : ConfigText) (o : NetOpts) (r : Ready), readFile file = .ok (.synth c o) ∧
    readConfig c = .ok r ∧ c.lib = .sympy ∧ c.cert = .LYAPUNOV ∧ ¬ Stable (field r.cfg.nVars r.f) ∧
    ∀ (R : Type) (w : World R Unit (Net × ℚ)) (S : Dict String (List (List ℚ))), (∀ k, w.dynamics k = r.f) → (∀ n, w.estimateBeta n = .ok ()) →
      ∃ out, Solves r.cfg.loop (withVerifier .NONE (singleComponents w r.cfg false fun _ => .ok ((exNoneNet, 0), ()))) (exNoneNet, 0) () S out ∧
        out.found = true := by
  obtain ⟨data, hr⟩ := exNone_ready
  refine ⟨exNoneFile, exNoneText, _, _, exNone_read, hr, rfl, rfl, exEven_unstable, ?_⟩
  intro R w S hw he
  let C := singleComponents w ⟨.sympy, 1, .LYAPUNOV, [(XD, .rectangle [-1] [1] none)], false, 3, false, 10⟩ false fun _ => .ok ((exNoneNet, 0), ())
  have ht : ∃ V Vdot, C.translate (exNoneNet, 0) () = .ok (V, Vdot) := by
    simp only [C, singleComponents, hw]
    exact ⟨_, _, rfl⟩
  obtain ⟨V, Vdot, ht⟩ := ht
  obtain ⟨out, h1, h2, -⟩ := C63_no_verifier_returns ⟨.LYAPUNOV, 10⟩ C (exNoneNet, 0) () S (by decide) (exNoneNet, 0) () V Vdot rfl ht (he _)
  exact ⟨out, h1, h2⟩

/-- **C63, files.** The library of an accepted file names its verifier; `VERIFIER: marabou` is never accepted. -/
theorem C63_file_marabou_rejected (file : Dict String Yaml) (hn : file.keys.Nodup) (v : Yaml) (hv : file.get? "VERIFIER" = some v)
    (hm : Spec.Names v "MARABOU") : ∃ e, readFile file = .error e := by
  cases hr : readFile file with
  | error e => exact ⟨e, rfl⟩
  | ok s =>
    exfalso
    have key : ∀ c : ConfigText, Spec.OptionsOf file c → False := by
      intro c hc
      have h1 := hc.verifier
      simp only [Spec.inEffect, hv] at h1
      obtain ⟨s, rfl, hs⟩ := hm
      obtain ⟨s', h2, h3⟩ := h1
      cases h2
      rw [hs] at h3
      revert h3
      cases c.lib <;> decide +kernel
    cases s with
    | synth c o => exact key c (C62_options_used file hn c o hr).1
    | control c o => exact key c.base (C62_control_options_used file hn c o hr).1
    | verify c cand => exact key c (C62_verify_options_used file hn c cand hr).1

/-- Non-vacuity. -/
example : ∃ e, readFile (("VERIFIER", .text "Marabou") :: exNoneFile.filter (·.1 ≠ "VERIFIER")) = .error e :=
  C63_file_marabou_rejected _ (by decide +kernel) _ rfl ⟨_, rfl, by decide +kernel⟩

/-- **C63, controllers.** A file with a controller needs a verifier: with `VERIFIER: none` it is rejected. -/
theorem C63_file_controller_needs_verifier (w : ℕ → ℕ → ℕ → ℚ) (file : Dict String Yaml) (hn : file.keys.Nodup) (v : Yaml)
    (hv : file.get? "VERIFIER" = some v) (hm : Spec.Names v "NONE") (c : ControlConfig) (o : NetOpts) (h : readFile file = .ok (.control c o)) :
    ∃ e, readControl w c = .error e := by
  have h1 := (C62_control_options_used file hn c o h).1.verifier
  have hl : c.base.lib = .sympy := by
    simp only [Spec.inEffect, hv] at h1
    obtain ⟨s, rfl, hs⟩ := hm
    obtain ⟨s', h2, h3⟩ := h1
    cases h2
    rw [hs] at h3
    revert h3
    cases c.base.lib <;> decide +kernel
  cases hr : readControl w c with
  | error e => exact ⟨e, rfl⟩
  | ok r =>
    exfalso
    simp only [readControl, hl] at hr
    obtain ⟨sys, h2, -⟩ := except_bind_ok hr
    simp only [readControlled] at h2
    obtain ⟨num, _, h3⟩ := except_bind_ok h2
    obtain ⟨u, _, h4⟩ := except_bind_ok h3
    rw [if_pos trivial] at h4
    cases h4

/-- **C63, candidates.** A candidate is never accepted without a check: with `VERIFIER: none` its verification raises (there is no derivative). -/
theorem C63_candidate_needs_verifier {R : Type} (B : Backend R) (noise : String → ℕ → ℕ → ℚ) (o : Oracle R) (c : VerifyCfg) (hl : c.lib = .sympy)
    (hn : c.nVars ≠ 0) : ∃ e, verifyCandidate B noise o c = .error e := by
  cases hr : candidateQueries c with
  | error e => exact ⟨e, by simp only [verifyCandidate, hr]⟩
  | ok g =>
    exfalso
    simp only [candidateQueries] at hr
    obtain ⟨d, _, hr'⟩ := except_bind_ok hr
    obtain ⟨G, hG, _⟩ := except_bind_ok hr'
    simp only [gradient, hl] at hG
    rw [if_neg (by decide), if_neg hn] at hG
    cases hG

end Fossil

/- C56: from the text of a configuration file to the guarantee. -/
import Verif.Lemmas.Config
import Verif.Props.C32_Sound

namespace Fossil

open Spec Set
open scoped Topology

variable {R : Type}

/-! ### the guarantees -/

/-- A run from a configuration file: the texts describe the vector field `F` and sets, the configuration is accepted, the loop runs with the dynamics and
sets read from the file, a sound solver, and training that keeps the architecture (right number of inputs, no ReLU units). -/
structure ConfigRun (c : ConfigText) (r : Ready) (F : Pt c.nVars → Pt c.nVars) (w : World R Unit (Net × ℚ))
    (learn : LoopState (Net × ℚ) Unit (List ℚ) Term → Except Err ((Net × ℚ) × Unit)) : Prop where
  lib : c.lib = .z3 ∨ c.lib = .dreal
  domains : DomainsDescribed c
  system : SystemText c.lib.funcs c.nVars c.system F
  accepted : readConfig c = .ok r
  sound : SoundWorld r.cfg w
  dynamics : ∀ k, w.dynamics k = r.f
  arch : ∀ st n k, learn st = .ok (n, k) → n.1.inputSize = c.nVars ∧ smoothActs n.1

/-- The same for the certificates with two networks. -/
structure ConfigRun2 (c : ConfigText) (r : Ready) (F : Pt c.nVars → Pt c.nVars) (w : World R Unit ((Net × ℚ) × Net))
    (learn : LoopState ((Net × ℚ) × Net) Unit (List ℚ) (Term × Term) → Except Err (((Net × ℚ) × Net) × Unit)) : Prop where
  lib : c.lib = .z3 ∨ c.lib = .dreal
  domains : DomainsDescribed c
  system : SystemText c.lib.funcs c.nVars c.system F
  accepted : readConfig c = .ok r
  sound : SoundWorld r.cfg w
  dynamics : ∀ k, w.dynamics k = r.f
  arch : ∀ st n k, learn st = .ok (n, k) → (n.1.1.inputSize = c.nVars ∧ smoothActs n.1.1) ∧ (n.2.inputSize = c.nVars ∧ smoothActs n.2)

section
variable {c : ConfigText} {r : Ready} {F : Pt c.nVars → Pt c.nVars}

theorem ConfigRun.sets {w : World R Unit _} {learn} (h : ConfigRun c r F w learn) : SetsRun c r.cfg := ⟨h.lib, h.domains, _, (readConfig_inv h.accepted).2⟩
theorem ConfigRun2.sets {w : World R Unit _} {learn} (h : ConfigRun2 c r F w learn) : SetsRun c r.cfg := ⟨h.lib, h.domains, _, (readConfig_inv h.accepted).2⟩

theorem ConfigRun.field {w : World R Unit _} {learn} (h : ConfigRun c r F w learn) (k) : field c.nVars (w.dynamics k) = F ∧ (w.dynamics k).length = c.nVars := by
  rw [h.dynamics]; exact ⟨(config_field (readConfig_inv h.accepted).1 h.system).1, (config_field (readConfig_inv h.accepted).1 h.system).2.1⟩
theorem ConfigRun2.field {w : World R Unit _} {learn} (h : ConfigRun2 c r F w learn) (k) : field c.nVars (w.dynamics k) = F := by
  rw [h.dynamics]; exact (config_field (readConfig_inv h.accepted).1 h.system).1
end

/-- **C56, safety.** If a run started from a configuration file reports success for a Barrier or BarrierAlt certificate in continuous time, then no
trajectory of the vector field written in the file that starts in the initial set written in the file and stays in the written domain ever
reaches the written unsafe set. -/
theorem C56_config_safety (c : ConfigText) (r : Ready) (F : Pt c.nVars → Pt c.nVars) (w : World R Unit _) (learn) (hr : ConfigRun c r F w learn)
    (hc : c.cert = .BARRIER ∨ c.cert = .BARRIERALT) (I D U : Set (Pt c.nVars)) (hI : Configures c.nVars c.domains "XI" I)
    (hD : Configures c.nVars c.domains "XD" D) (hU : Configures c.nVars c.domains "XU" U) (net ctrl S out)
    (h : Solves r.cfg.loop (singleComponents w r.cfg false learn) net ctrl S out) (hf : out.found = true)
    (T : ℝ) (ξ : ℝ → Pt c.nVars) (hξ : Trajectory F T ξ) (h0 : ξ 0 ∈ I) (hin : ∀ t ∈ Icc 0 T, ξ t ∈ D) : ∀ t ∈ Icc 0 T, ξ t ∉ U :=
  core_safety hr.sets w hr.sound learn hr.arch hc I D U hI hD hU net ctrl S out h hf T ξ (by rw [(hr.field _).1]; exact hξ) h0 hin

/-- **C56, discrete safety.** The same for BarrierAlt in discrete time: no run of the written map from the written initial set, inside the written domain,
reaches the written unsafe set. -/
theorem C56_config_safety_dt (c : ConfigText) (r : Ready) (F : Pt c.nVars → Pt c.nVars) (w : World R Unit _) (learn) (hr : ConfigRun c r F w learn)
    (hc : c.cert = .BARRIERALT) (hq : c.quad = false) (I D U : Set (Pt c.nVars)) (hI : Configures c.nVars c.domains "XI" I)
    (hD : Configures c.nVars c.domains "XD" D) (hU : Configures c.nVars c.domains "XU" U) (net ctrl S out)
    (h : Solves r.cfg.loop (singleComponents w r.cfg true learn) net ctrl S out) (hf : out.found = true)
    (x : ℕ → Pt c.nVars) (hx : IsRun F x) (h0 : x 0 ∈ I) (k : ℕ) (hin : ∀ j ≤ k, x j ∈ D) : x k ∉ U :=
  core_safety_dt hr.sets w hr.sound learn hr.arch hc hq I D U hI hD hU net ctrl S out h hf (hr.field _).2 x (by rw [(hr.field _).1]; exact hx) h0 k hin

/-- **C56, stability.** If a run started from a configuration file reports success for a Lyapunov certificate (no LLO) whose network vanishes at the
origin by construction, and the written domain is a neighbourhood of the origin, then the origin is asymptotically stable for
the written (continuous) vector field. -/
theorem C56_config_stability (c : ConfigText) (r : Ready) (F : Pt c.nVars → Pt c.nVars) (w : World R Unit _) (learn) (hr : ConfigRun c r F w learn)
    (hc : c.cert = .LYAPUNOV) (D : Set (Pt c.nVars)) (hD : Configures c.nVars c.domains "XD" D) (hn : D ∈ 𝓝 0) (hF : Continuous F) (net ctrl S out)
    (h : Solves r.cfg.loop (singleComponents w r.cfg false learn) net ctrl S out) (hf : out.found = true)
    (hpd : c.llo = false ∨ PDNet out.net.1) (hz : c.quad = true ∨ ZeroNet out.net.1) : AsympStable F := by
  have := core_stability hr.sets w hr.sound learn hr.arch hc D hD hn net ctrl S out h hf (by rw [(hr.field _).1]; exact hF) hpd hz
  rwa [(hr.field _).1] at this

/-- **C56, reach while staying.** If a run started from a configuration file reports success for one of the reach certificates, there is a time
bound within which every trajectory of the written vector field from the written initial set reaches the written goal, staying in the
written safe set until then. -/
theorem C56_config_reach (c : ConfigText) (r : Ready) (F : Pt c.nVars → Pt c.nVars) (w : World R Unit _) (learn) (hr : ConfigRun c r F w learn)
    (hc : c.cert = .RWS ∨ c.cert = .RWA ∨ c.cert = .RSWS ∨ c.cert = .RSWA) (I S D G : Set (Pt c.nVars)) (hI : Configures c.nVars c.domains "XI" I)
    (hS : Configures c.nVars c.domains "XS" S) (hD : Configures c.nVars c.domains "XD" D) (hG : Configures c.nVars c.domains "XG" G)
    (h1 : I ⊆ S) (h2 : I ⊆ D) (h3 : frontier S ⊆ D) (net ctrl Sd out)
    (h : Solves r.cfg.loop (singleComponents w r.cfg false learn) net ctrl Sd out) (hf : out.found = true) :
    ∃ τ : ℝ, ∀ (T : ℝ) (ξ : ℝ → Pt c.nVars), Trajectory F T ξ → τ ≤ T → ξ 0 ∈ I →
      (∃ t ∈ Icc 0 τ, ξ t ∈ G) ∧ ∀ t ∈ Icc 0 T, ξ t ∈ S ∨ ∃ r ∈ Icc 0 t, ξ r ∈ G := by
  have := core_reach hr.sets w hr.sound learn hr.arch hc I S D G hI hS hD hG h1 h2 h3 net ctrl Sd out h hf
  rwa [(hr.field _).1] at this

/-- **C56, reach and stay.** If a run started from a configuration file reports success for RSWS, there is a time bound by which every
trajectory of the written vector field from the written initial set is in the written goal for ever, always staying in the written safe set. -/
theorem C56_config_reach_stay (c : ConfigText) (r : Ready) (F : Pt c.nVars → Pt c.nVars) (w : World R Unit _) (learn) (hr : ConfigRun c r F w learn)
    (hc : c.cert = .RSWS) (I S D G : Set (Pt c.nVars)) (hI : Configures c.nVars c.domains "XI" I)
    (hS : Configures c.nVars c.domains "XS" S) (hD : Configures c.nVars c.domains "XD" D) (hG : Configures c.nVars c.domains "XG" G)
    (h1 : I ⊆ S) (h2 : I ⊆ D) (h3 : frontier S ⊆ D) (h4 : G ⊆ S) (net ctrl Sd out)
    (h : Solves r.cfg.loop (singleComponents w r.cfg false learn) net ctrl Sd out) (hf : out.found = true) :
    ∃ τ : ℝ, ∀ (T : ℝ) (ξ : ℝ → Pt c.nVars), Trajectory F T ξ → τ ≤ T → ξ 0 ∈ I →
      (∃ t₁ ∈ Icc 0 τ, ∀ t ∈ Icc t₁ T, ξ t ∈ G) ∧ ∀ t ∈ Icc 0 T, ξ t ∈ S := by
  have := core_reach_stay hr.sets w hr.sound learn hr.arch hc I S D G hI hS hD hG h1 h2 h3 h4 net ctrl Sd out h hf
  rwa [(hr.field _).1] at this

/-- **C56, region of attraction.** If a run started from a configuration file reports success for ROA, the written initial set lies in the sublevel set of the
certificate at 1.1 β, and a trajectory of the written vector field from there, as long as it is further than 0.01 from the origin,
stays in that sublevel set if it starts strictly inside or LLO is set; with LLO the certificate strictly decreases along it. -/
theorem C56_config_roa (c : ConfigText) (r : Ready) (F : Pt c.nVars → Pt c.nVars) (w : World R Unit _) (learn) (hr : ConfigRun c r F w learn)
    (hc : c.cert = .ROA) (I : Set (Pt c.nVars)) (hI : Configures c.nVars c.domains "XI" I) (net ctrl S out)
    (h : Solves r.cfg.loop (singleComponents w r.cfg false learn) net ctrl S out) (hf : out.found = true) :
    (∀ p ∈ I, certValue c.rounding c.quad out.net.1 p ≤ (out.net.2 : ℝ) * (11/10)) ∧
    ∀ (T : ℝ) (ξ : ℝ → Pt c.nVars), Trajectory F T ξ → 0 ≤ T → ξ 0 ∈ I → (∀ t ∈ Icc 0 T, (1/100)^2 < normSq (ξ t)) →
      ((c.llo = true ∨ certValue c.rounding c.quad out.net.1 (ξ 0) < (out.net.2 : ℝ) * (11/10)) →
        ∀ t ∈ Icc 0 T, certValue c.rounding c.quad out.net.1 (ξ t) ≤ (out.net.2 : ℝ) * (11/10)) ∧
      (c.llo = true → StrictAntiOn (fun t => certValue c.rounding c.quad out.net.1 (ξ t)) (Icc 0 T)) := by
  have := core_roa hr.sets w hr.sound learn hr.arch hc I hI net ctrl S out h hf
  rwa [(hr.field _).1] at this

/-- **C56, stable while safe.** If a run started from a configuration file reports success for StableSafe, no trajectory of the written vector field from the
written initial set, inside the written domain, reaches the written unsafe set. -/
theorem C56_config_stable_safe (c : ConfigText) (r : Ready) (F : Pt c.nVars → Pt c.nVars) (w : World R Unit _) (learn) (hr : ConfigRun2 c r F w learn)
    (hc : c.cert = .STABLESAFE) (I D U : Set (Pt c.nVars)) (hI : Configures c.nVars c.domains "XI" I)
    (hD : Configures c.nVars c.domains "XD" D) (hU : Configures c.nVars c.domains "XU" U) (net ctrl S out)
    (h : Solves r.cfg.loop (doubleComponents w r.cfg learn) net ctrl S out) (hf : out.found = true)
    (T : ℝ) (ξ : ℝ → Pt c.nVars) (hξ : Trajectory F T ξ) (h0 : ξ 0 ∈ I) (hin : ∀ t ∈ Icc 0 T, ξ t ∈ D) : ∀ t ∈ Icc 0 T, ξ t ∉ U :=
  core_stable_safe hr.sets w hr.sound learn hr.arch hc I D U hI hD hU net ctrl S out h hf T ξ (by rw [hr.field _]; exact hξ) h0 hin

/-- **C56, reach, avoid, remain.** If a run started from a configuration file reports success for RAR, there is a time bound within which every trajectory of the
written vector field from the written initial set, inside the written domain, reaches the written goal, staying in the written safe set
until then, and once in the goal it stays in the written final set. -/
theorem C56_config_rar (c : ConfigText) (r : Ready) (F : Pt c.nVars → Pt c.nVars) (w : World R Unit _) (learn) (hr : ConfigRun2 c r F w learn)
    (hc : c.cert = .RAR) (I S D G P : Set (Pt c.nVars)) (hI : Configures c.nVars c.domains "XI" I)
    (hS : Configures c.nVars c.domains "XS" S) (hD : Configures c.nVars c.domains "XD" D) (hG : Configures c.nVars c.domains "XG" G)
    (hP : Configures c.nVars c.domains "XF" P) (h1 : I ⊆ S) (h2 : I ⊆ D) (h3 : frontier S ⊆ D) (net ctrl Sd out)
    (h : Solves r.cfg.loop (doubleComponents w r.cfg learn) net ctrl Sd out) (hf : out.found = true) :
    ∃ τ : ℝ, ∀ (T : ℝ) (ξ : ℝ → Pt c.nVars), Trajectory F T ξ → τ ≤ T → ξ 0 ∈ I → (∀ t ∈ Icc 0 T, ξ t ∈ D) →
      (∃ t ∈ Icc 0 τ, ξ t ∈ G) ∧ (∀ t ∈ Icc 0 T, ξ t ∈ S ∨ ∃ r ∈ Icc 0 t, ξ r ∈ G) ∧ ∀ r ∈ Icc 0 T, ξ r ∈ G → ∀ t ∈ Icc r T, ξ t ∈ P := by
  have := core_rar hr.sets w hr.sound learn hr.arch hc I S D G P hI hS hD hG hP h1 h2 h3 net ctrl Sd out h hf
  rwa [hr.field _] at this

/-! ### non-vacuity: a complete configuration file -/

theorem layout_flatten : ∀ ts : List (List Char), Layout ts ts.flatten
  | [] => by intro c hc; cases hc
  | t :: ts => ⟨[], ts.flatten, fun c hc => (List.not_mem_nil hc).elim, by simp, layout_flatten ts⟩

theorem digits_of {d : List Char} (h : d ≠ [] ∧ d.all (fun c => '0' ≤ c && c ≤ '9') = true) : Digits d := by
  refine ⟨h.1, fun c hc => ?_⟩
  have := List.all_eq_true.1 h.2 c hc
  simpa using this

theorem minus_x_system (funcs : FName → Bool) : SystemText funcs 1 ["-x0"] (fun p i => - p i) := by
  refine ⟨rfl, fun i hi => ⟨[.minus, .x 0], .neg (.x 0), .sum (.term (.factor (.neg (.signed (.x 0))))), ?_, ⟨[['-'], ['x', '0']], ?_, ?_⟩, rfl, ?_, ?_⟩⟩
  · rintro ⟨p, a, e, r, h, -⟩
    have : Tok.dstar ∈ [Tok.minus, .x 0] := by rw [h]; simp
    simp at this
  · exact .cons .minus (.cons (TokText.x (d := ['0']) ⟨digits_of (by decide), Or.inl rfl⟩) .nil)
  · obtain rfl : i = 0 := by omega
    exact layout_flatten _
  · intro j hj
    simp [AExpr.xs] at hj
    subst hj; simp
  · intro p
    obtain rfl : i = 0 := by omega
    simp [AExpr.eval, Pt.env]

/-- `x' = -x` on `[-4, 4]`, initially in `[-0.5, 0.5]`, avoiding `[2, 3]`. -/
def exConfigL (lib : Lib) (ct : CertType) : ConfigText := ⟨lib, 1, ct, ["-x0"],
  [("XD", "Rectangle([-4],[4])"), ("XI", "Rectangle([-0.5],[0.5])"), ("XU", "Rectangle([2],[3])")],
  some (.dict [("XD", 10), ("XI", 10), ("XU", 10)]), ⟨1, true, false⟩, false, 3, false, 10⟩

abbrev exConfig (ct : CertType) : ConfigText := exConfigL .z3 ct

theorem exConfig_sets : SetText 1 "Rectangle([-4],[4])" {p | ∀ i : Fin 1, entry [-4] i ≤ p i ∧ p i ≤ entry [4] i} ∧
    SetText 1 "Rectangle([-0.5],[0.5])" {p | ∀ i : Fin 1, entry [-1/2] i ≤ p i ∧ p i ≤ entry [1/2] i} ∧
    SetText 1 "Rectangle([2],[3])" {p | ∀ i : Fin 1, entry [2] i ≤ p i ∧ p i ≤ entry [3] i} := by
  have h4 : Numeral ['4'] 4 := by
    have := Numeral.int (d := ['4']) (digits_of (by decide))
    rwa [show ((digitsValue ['4'] : ℕ) : ℚ) = 4 by decide +kernel] at this
  have h2 : Numeral ['2'] 2 := by
    have := Numeral.int (d := ['2']) (digits_of (by decide))
    rwa [show ((digitsValue ['2'] : ℕ) : ℚ) = 2 by decide +kernel] at this
  have h3 : Numeral ['3'] 3 := by
    have := Numeral.int (d := ['3']) (digits_of (by decide))
    rwa [show ((digitsValue ['3'] : ℕ) : ℚ) = 3 by decide +kernel] at this
  have hh : Numeral ['0', '.', '5'] (1/2) := by
    have := Numeral.dec (a := ['0']) (b := ['5']) (digits_of (by decide)) (digits_of (by decide))
    rwa [show ((digitsValue ['0'] : ℕ) : ℚ) + (digitsValue ['5'] : ℕ) / 10 ^ (['5'] : List Char).length = 1/2 by decide +kernel] at this
  refine ⟨.rectangle (lb := [['-', '4']]) (ub := [['4']]) (.cons (.minus h4) .nil) (.cons (.none h4) .nil) rfl rfl (layout_flatten _), ?_,
    .rectangle (lb := [['2']]) (ub := [['3']]) (.cons (.none h2) .nil) (.cons (.none h3) .nil) rfl rfl (layout_flatten _)⟩
  have := SetText.rectangle (n := 1) (s := "Rectangle([-0.5],[0.5])") (lb := [['-', '0', '.', '5']]) (ub := [['0', '.', '5']]) (.cons (.minus hh) .nil)
    (.cons (.none hh) .nil) rfl rfl (layout_flatten _)
  rwa [show -(1/2 : ℚ) = -1/2 by norm_num] at this

theorem exConfig_readyL (lib : Lib) (hl : lib = .z3 ∨ lib = .dreal) (ct : CertType) (hc : ct = .BARRIER ∨ ct = .BARRIERALT) :
    ∃ data, readConfig (exConfigL lib ct) = .ok ⟨⟨lib, 1, ct, (exBarrier ct).domains, false, 3, false, 10⟩, (exBarrier ct).f, data⟩ := by
  have e2 : parseDomain "Rectangle([-0.5],[0.5])" = .ok (.rectangle [-1/2] [1/2] none) := by
    have hh : Numeral ['0', '.', '5'] (1/2) := by
      have := Numeral.dec (a := ['0']) (b := ['5']) (digits_of (by decide)) (digits_of (by decide))
      rwa [show ((digitsValue ['0'] : ℕ) : ℚ) + (digitsValue ['5'] : ℕ) / 10 ^ (['5'] : List Char).length = 1/2 by decide +kernel] at this
    have := C55_rectangle_text [['-', '0', '.', '5']] [['0', '.', '5']] [-(1/2)] [1/2] (.cons (.minus hh) .nil) (.cons (.none hh) .nil)
      "Rectangle([-0.5],[0.5])" (layout_flatten _)
    rwa [show -(1/2 : ℚ) = -1/2 by norm_num] at this
  have ed : readDomainTexts (exConfigL lib ct).domains = .ok [("XD", .rectangle [-4] [4] none), ("XI", .rectangle [-1/2] [1/2] none),
      ("XU", .rectangle [2] [3] none)] := by
    have e1 : parseDomain "Rectangle([-4],[4])" = .ok (.rectangle [-4] [4] none) := rfl
    have e3 : parseDomain "Rectangle([2],[3])" = .ok (.rectangle [2] [3] none) := rfl
    simp only [exConfigL, readDomainTexts, e1, e2, e3, Bind.bind, Except.bind, pure, Except.pure]
  have es : readSystem (exConfigL lib ct).lib (exConfigL lib ct).nVars (exConfigL lib ct).system = .ok [.neg (.var 0)] := by rcases hl with rfl | rfl <;> rfl
  have hp : ∃ data : Dict String Src, parseConfig ct [("XD", .rectangle [-4] [4] none), ("XI", .rectangle [-1/2] [1/2] none),
      ("XU", .rectangle [2] [3] none)] (some (.dict [("XD", 10), ("XI", 10), ("XU", 10)])) = .ok (data, (exBarrier ct).domains) ∧
      ∃ d, initialiseDomains lib 1 ct (exBarrier ct).domains = .ok d ∧ assertState ct d.keys data.keys = .ok () := by
    rcases hc with rfl | rfl <;> rcases hl with rfl | rfl <;> exact ⟨_, rfl, _, rfl, rfl⟩
  obtain ⟨data, hp, d, hd, ha⟩ := hp
  refine ⟨data, ?_⟩
  have hlr : ¬ ((1 : ℚ) ≤ 0) := by norm_num
  have hs : readSets (exConfigL lib ct) = .ok (⟨lib, 1, ct, (exBarrier ct).domains, false, 3, false, 10⟩, data) :=
    readSets_ok ed hp hd hlr rfl (Or.inl rfl) ha
  rcases hc with rfl | rfl <;> exact readConfig_ok es hs

theorem exConfig_ready (ct : CertType) (hc : ct = .BARRIER ∨ ct = .BARRIERALT) : ∃ data, readConfig (exConfig ct) =
    .ok ⟨⟨.z3, 1, ct, (exBarrier ct).domains, false, 3, false, 10⟩, (exBarrier ct).f, data⟩ := exConfig_readyL .z3 (Or.inl rfl) ct hc

/-- A complete run from this file, with the ideal solver and a learner that proposes the right network: all hypotheses of the theorem hold,
and hence so does the guarantee. -/
theorem exConfig_run : ∃ (r : Ready) (w : World Answer Unit (Net × ℚ)) (learn : _), ConfigRun (exConfig .BARRIER) r (fun p i => - p i) w learn ∧
    ∃ net out, Solves r.cfg.loop (singleComponents w r.cfg false learn) net () [] out ∧ out.found = true := by
  obtain ⟨data, hr⟩ := exConfig_ready .BARRIER (Or.inl rfl)
  obtain ⟨s1, s2, s3⟩ := exConfig_sets
  refine ⟨_, idealWorld _ (exBarrier .BARRIER).f, fun _ => .ok (((exBarrier .BARRIER).net, 0), ()), ⟨Or.inl rfl, ⟨by decide, ?_⟩, ?_, hr,
    idealWorld_sound _ _ _, fun _ => rfl, ?_⟩, ?_⟩
  · intro k s hm
    simp only [exConfig, exConfigL, List.mem_cons, Prod.mk.injEq, List.not_mem_nil, or_false] at hm
    rcases hm with ⟨-, rfl⟩ | ⟨-, rfl⟩ | ⟨-, rfl⟩
    exacts [⟨_, s1⟩, ⟨_, s2⟩, ⟨_, s3⟩]
  · exact minus_x_system _
  · intro st n k h
    cases h
    exact ⟨rfl, (exBarrier_smooth .BARRIER).smooth⟩
  · obtain ⟨g, hq, ha⟩ := exBarrier_accepted.1
    have hd : DistinctLabels g := by
      obtain ⟨d, V, Vdot, -, -, h⟩ := queriesCT_inv hq
      exact barrier_distinct h
    obtain ⟨out, h1, h2, -⟩ := C46_synthesis_succeeds ⟨.z3, 1, .BARRIER, (exBarrier .BARRIER).domains, false, 3, false, 10⟩ _ _ _ g hq hd
      (accepted_refutes hd ha) (by intro h; cases h)
    exact ⟨_, out, h1, h2⟩

/-- **C56, dReal.** With `VERIFIER: DREAL` the solver assumption of the guarantees is met by every dReal whose `None` answers are right and whose boxes
for confined queries are within the variable bounds, if all sets written in the file are inside `(-1000, 1000)ⁿ` and the certificate is not ROA. -/
theorem C56_dreal_trusted {K N : Type} (c : ConfigText) (cfg : SynthCfg) (hs : SetsRun c cfg)
    (hsm : ∀ k S, Configures c.nVars c.domains k S → ∀ p ∈ S, ∀ i, -1000 < p i ∧ p i < 1000) (hc : c.cert ≠ .ROA)
    (w : World (Option Box) K N) (check : ℕ → ℕ → ℕ → Formula → Option Box) (stayCheck : ℕ → ℚ → Bool → ℕ → Formula → Option Box)
    (hb : w.backend = drealBackend) (ho : ∀ i, w.oracle i = drealOracle c.nVars (check i))
    (hst : ∀ i β b, w.stayOracle i β b = drealSolve c.nVars (stayCheck i β b))
    (sound : ∀ i k, DRealSound (check i k)) (boxes : ∀ i k, BoxesInRange c.nVars (check i k))
    (staySound : ∀ i β b, DRealSound (stayCheck i β b)) (stayBoxes : ∀ i β b, BoxesInRange c.nVars (stayCheck i β b))
    (f : List Term) (hf : readSystem c.lib c.nVars c.system = .ok f) (F : Pt c.nVars → Pt c.nVars) (hF : SystemText c.lib.funcs c.nVars c.system F)
    (hdyn : ∀ k, w.dynamics k = f) : SoundWorld cfg w := by
  have hsmall := hs.small hsm
  obtain ⟨doms, rfl⟩ := hs.cfg
  exact .dreal w check stayCheck hb ho hst sound boxes staySound stayBoxes hsmall (fun k => by rw [hdyn]; exact (config_field hf hF).2.2) hc

/-- The run of the example with dReal. -/
theorem exConfig_run_dreal : ∃ (r : Ready) (w : World (Option Box) Unit (Net × ℚ)) (learn : _),
    ConfigRun (exConfigL .dreal .BARRIER) r (fun p i => - p i) w learn ∧
    ∃ net out, Solves r.cfg.loop (singleComponents w r.cfg false learn) net () [] out ∧ out.found = true := by
  obtain ⟨data, hr⟩ := exConfig_readyL .dreal (Or.inr rfl) .BARRIER (Or.inl rfl)
  obtain ⟨s1, s2, s3⟩ := exConfig_sets
  refine ⟨_, drealWorld 1 _ fun _ => (exBarrier .BARRIER).f, fun _ => .ok (((exBarrier .BARRIER).net, 0), ()), ⟨Or.inr rfl, ⟨by decide, ?_⟩, ?_, hr,
    drealWorld_sound _ _ _ (exDreal_small .BARRIER)
      (fun _ => by simp [AllBelow, exBarrier, termBelow]) (by intro h; cases h), fun _ => rfl, ?_⟩, ?_⟩
  · intro k s hm
    simp only [exConfigL, List.mem_cons, Prod.mk.injEq, List.not_mem_nil, or_false] at hm
    rcases hm with ⟨-, rfl⟩ | ⟨-, rfl⟩ | ⟨-, rfl⟩
    exacts [⟨_, s1⟩, ⟨_, s2⟩, ⟨_, s3⟩]
  · exact minus_x_system _
  · intro st n k h
    cases h
    exact ⟨rfl, (exBarrier_smooth .BARRIER).smooth⟩
  · obtain ⟨out, h1, h2, -⟩ := exDreal_run
    exact ⟨_, out, h1, h2⟩

theorem numeral_int {d : List Char} {q : ℚ} (h : d ≠ [] ∧ d.all (fun c => '0' ≤ c && c ≤ '9') = true) (hq : ((digitsValue d : ℕ) : ℚ) = q) : Numeral d q := by
  subst hq; exact .int (digits_of h)

theorem numeral_dec {a b : List Char} {q : ℚ} (ha : a ≠ [] ∧ a.all (fun c => '0' ≤ c && c ≤ '9') = true)
    (hb : b ≠ [] ∧ b.all (fun c => '0' ≤ c && c ≤ '9') = true) (hq : ((digitsValue a : ℕ) : ℚ) + (digitsValue b : ℕ) / 10 ^ b.length = q) :
    Numeral (a ++ '.' :: b) q := by
  subst hq; exact .dec (digits_of ha) (digits_of hb)

/-- `x' = -x`: from `[0.6, 0.65]` reach `[-0.5, 0.5]` and stay there, inside `[-1, 1]`. -/
def exStayConfig : ConfigText := ⟨.z3, 1, .RSWS, ["-x0"],
  [("XD", "Rectangle([-2],[2])"), ("XI", "Rectangle([0.6],[0.65])"), ("XS", "Rectangle([-1],[1])"), ("XG", "Rectangle([-0.5],[0.5])")],
  some (.dict [("XD", 10), ("XI", 10), ("XU", 10), ("XS", 10), ("XG", 10), ("XG_BORDER", 10)]), ⟨1, true, false⟩, false, 3, false, 10⟩

theorem exStay_numerals : Numeral ['2'] 2 ∧ Numeral ['1'] 1 ∧ Numeral ['0', '.', '5'] (1/2) ∧ Numeral ['0', '.', '6'] (3/5) ∧
    Numeral ['0', '.', '6', '5'] (13/20) :=
  ⟨numeral_int (by decide) (by decide +kernel), numeral_int (by decide) (by decide +kernel),
    numeral_dec (a := ['0']) (b := ['5']) (by decide) (by decide) (by decide +kernel),
    numeral_dec (a := ['0']) (b := ['6']) (by decide) (by decide) (by decide +kernel),
    numeral_dec (a := ['0']) (b := ['6', '5']) (by decide) (by decide) (by decide +kernel)⟩

theorem exStay_sets : SetText 1 "Rectangle([-2],[2])" {p | ∀ i : Fin 1, entry [-2] i ≤ p i ∧ p i ≤ entry [2] i} ∧
    SetText 1 "Rectangle([0.6],[0.65])" {p | ∀ i : Fin 1, entry [3/5] i ≤ p i ∧ p i ≤ entry [13/20] i} ∧
    SetText 1 "Rectangle([-1],[1])" {p | ∀ i : Fin 1, entry [-1] i ≤ p i ∧ p i ≤ entry [1] i} ∧
    SetText 1 "Rectangle([-0.5],[0.5])" {p | ∀ i : Fin 1, entry [-(1/2)] i ≤ p i ∧ p i ≤ entry [1/2] i} := by
  obtain ⟨h2, h1, h5, h6, h65⟩ := exStay_numerals
  exact ⟨.rectangle (lb := [['-', '2']]) (ub := [['2']]) (.cons (.minus h2) .nil) (.cons (.none h2) .nil) rfl rfl (layout_flatten _),
    .rectangle (lb := [['0', '.', '6']]) (ub := [['0', '.', '6', '5']]) (.cons (.none h6) .nil) (.cons (.none h65) .nil) rfl rfl (layout_flatten _),
    .rectangle (lb := [['-', '1']]) (ub := [['1']]) (.cons (.minus h1) .nil) (.cons (.none h1) .nil) rfl rfl (layout_flatten _),
    .rectangle (lb := [['-', '0', '.', '5']]) (ub := [['0', '.', '5']]) (.cons (.minus h5) .nil) (.cons (.none h5) .nil) rfl rfl (layout_flatten _)⟩

def exStayDoms : Dict String PySet :=
  [(XD, .rectangle [-2] [2] none), (XI, .rectangle [3/5] [13/20] none), (XS, .rectangle [-1] [1] none), (XG, .rectangle [-(1/2)] [1/2] none),
    (XSB, .rectangle [-1] [1] none), (XGB, .rectangle [-(1/2)] [1/2] none)]

theorem exStay_ready : ∃ data, readConfig exStayConfig = .ok ⟨⟨.z3, 1, .RSWS, exStayDoms, false, 3, false, 10⟩, [.neg (.var 0)], data⟩ := by
  obtain ⟨h2, h1, h5, h6, h65⟩ := exStay_numerals
  have e1 : parseDomain "Rectangle([-2],[2])" = .ok (.rectangle [-2] [2] none) := rfl
  have e2 : parseDomain "Rectangle([0.6],[0.65])" = .ok (.rectangle [3/5] [13/20] none) :=
    C55_rectangle_text [['0', '.', '6']] [['0', '.', '6', '5']] _ _ (.cons (.none h6) .nil) (.cons (.none h65) .nil) _ (layout_flatten _)
  have e3 : parseDomain "Rectangle([-1],[1])" = .ok (.rectangle [-1] [1] none) := rfl
  have e4 : parseDomain "Rectangle([-0.5],[0.5])" = .ok (.rectangle [-(1/2)] [1/2] none) :=
    C55_rectangle_text [['-', '0', '.', '5']] [['0', '.', '5']] _ _ (.cons (.minus h5) .nil) (.cons (.none h5) .nil) _ (layout_flatten _)
  have ed : readDomainTexts exStayConfig.domains = .ok [("XD", .rectangle [-2] [2] none), ("XI", .rectangle [3/5] [13/20] none),
      ("XS", .rectangle [-1] [1] none), ("XG", .rectangle [-(1/2)] [1/2] none)] := by
    simp only [exStayConfig, readDomainTexts, e1, e2, e3, e4, Bind.bind, Except.bind, pure, Except.pure]
  have es : readSystem exStayConfig.lib exStayConfig.nVars exStayConfig.system = .ok [.neg (.var 0)] := rfl
  have hp : ∃ data : Dict String Src, parseConfig .RSWS [("XD", .rectangle [-2] [2] none), ("XI", .rectangle [3/5] [13/20] none),
      ("XS", .rectangle [-1] [1] none), ("XG", .rectangle [-(1/2)] [1/2] none)] exStayConfig.nData = .ok (data, exStayDoms) ∧
      ∃ d, initialiseDomains .z3 1 .RSWS exStayDoms = .ok d ∧ assertState .RSWS d.keys data.keys = .ok () := ⟨_, rfl, _, rfl, rfl⟩
  obtain ⟨data, hp, d, hd, ha⟩ := hp
  refine ⟨data, ?_⟩
  have hlr : ¬ ((1 : ℚ) ≤ 0) := by norm_num
  exact readConfig_ok es (readSets_ok ed hp hd hlr rfl (Or.inl rfl) ha)

/-- A complete reach-and-stay run from a file: the hypotheses of `C56_config_reach` and `C56_config_reach_stay` hold. -/
theorem exStay_run : ∃ (r : Ready) (w : World Answer Unit (Net × ℚ)) (learn : _), ConfigRun exStayConfig r (fun p i => - p i) w learn ∧
    (∃ net out, Solves r.cfg.loop (singleComponents w r.cfg false learn) net () [] out ∧ out.found = true) ∧
    ∃ I S D G : Set (Pt 1), Configures 1 exStayConfig.domains "XI" I ∧ Configures 1 exStayConfig.domains "XS" S ∧
      Configures 1 exStayConfig.domains "XD" D ∧ Configures 1 exStayConfig.domains "XG" G ∧ I ⊆ S ∧ I ⊆ D ∧ frontier S ⊆ D ∧ G ⊆ S ∧ I.Nonempty := by
  obtain ⟨data, hr⟩ := exStay_ready
  obtain ⟨s1, s2, s3, s4⟩ := exStay_sets
  refine ⟨_, idealWorld _ [.neg (.var 0)], fun _ => .ok (((exReach .RSWS).net, 0), ()), ⟨Or.inl rfl, ⟨by decide, ?_⟩, minus_x_system _, hr,
    idealWorld_sound _ _ _, fun _ => rfl, ?_⟩, ?_, ?_⟩
  · intro k s hm
    simp only [exStayConfig, List.mem_cons, Prod.mk.injEq, List.not_mem_nil, or_false] at hm
    rcases hm with ⟨-, rfl⟩ | ⟨-, rfl⟩ | ⟨-, rfl⟩ | ⟨-, rfl⟩
    exacts [⟨_, s1⟩, ⟨_, s2⟩, ⟨_, s3⟩, ⟨_, s4⟩]
  · intro st n k h
    cases h
    exact ⟨rfl, (exReach_smooth .RSWS).smooth⟩
  · obtain ⟨g, hq, ha⟩ := exReach_accepted.2
    have hd : DistinctLabels g := by
      obtain ⟨d, V, Vdot, -, -, h⟩ := queriesCT_inv hq
      exact rws_distinct h
    have hm : (-(1/2) : ℚ) = -1/2 := by norm_num
    have e1 : queriesCT (SynthCfg.setup ⟨.z3, 1, .RSWS, exStayDoms, false, 3, false, 10⟩ (exReach .RSWS).net 0 [.neg (.var 0)]) = queriesCT (exReach .RSWS) := by
      unfold exStayDoms
      rw [hm]
      rfl
    have e2 : stayCheckCT smtBackend (fun _ _ => idealSolver) (SynthCfg.setup ⟨.z3, 1, .RSWS, exStayDoms, false, 3, false, 10⟩ (exReach .RSWS).net 0 [.neg (.var 0)])
        = stayCheckCT smtBackend (fun _ _ => idealSolver) (exReach .RSWS) := by
      unfold exStayDoms
      rw [hm]
      rfl
    obtain ⟨out, h1, h2, -⟩ := C46_synthesis_succeeds ⟨.z3, 1, .RSWS, exStayDoms, false, 3, false, 10⟩ (exReach .RSWS).net 0 [.neg (.var 0)] g (e1.trans hq) hd
      (accepted_refutes hd ha) (fun _ => ⟨_, _, by rw [e2]; exact exReach_beta⟩)
    exact ⟨_, out, h1, h2⟩
  · have mem : ∀ (a b : ℚ) (p : Pt 1), p ∈ {p : Pt 1 | ∀ i : Fin 1, entry [a] i ≤ p i ∧ p i ≤ entry [b] i} ↔ (a : ℝ) ≤ p 0 ∧ p 0 ≤ b := by
      intro a b p
      simp [entry, Fin.forall_fin_one]
    have hcl : IsClosed {p : Pt 1 | ∀ i : Fin 1, entry [-1] i ≤ p i ∧ p i ≤ entry [1] i} := by
      have : {p : Pt 1 | ∀ i : Fin 1, entry [-1] i ≤ p i ∧ p i ≤ entry [1] i} = Icc (fun i : Fin 1 => entry [-1] i) (fun i : Fin 1 => entry [1] i) := by
        ext p; simp [Pi.le_def, forall_and]
      rw [this]; exact isClosed_Icc
    refine ⟨_, _, _, _, ⟨_, by simp [exStayConfig], s2⟩, ⟨_, by simp [exStayConfig], s3⟩, ⟨_, by simp [exStayConfig], s1⟩, ⟨_, by simp [exStayConfig], s4⟩,
      ?_, ?_, ?_, ?_, ?_⟩
    · intro p hp; rw [mem] at hp ⊢; norm_num at hp ⊢; constructor <;> linarith [hp.1, hp.2]
    · intro p hp; rw [mem] at hp ⊢; norm_num at hp ⊢; constructor <;> linarith [hp.1, hp.2]
    · intro p hp
      have hp := hcl.frontier_subset hp
      rw [mem] at hp ⊢; norm_num at hp ⊢; constructor <;> linarith [hp.1, hp.2]
    · intro p hp; rw [mem] at hp ⊢; norm_num at hp ⊢; constructor <;> linarith [hp.1, hp.2]
    · exact ⟨fun _ => 3/5, by rw [mem]; norm_num⟩

/-- `x' = -x` with a Lyapunov certificate on `[-1, 1]`. -/
def exLyapConfig : ConfigText := ⟨.z3, 1, .LYAPUNOV, ["-x0"], [("XD", "Rectangle([-1],[1])")], some (.dict [("XD", 10)]), ⟨1, true, false⟩, false, 3, false, 10⟩

theorem exLyapConfig_ready : ∃ data, readConfig exLyapConfig = .ok ⟨⟨.z3, 1, .LYAPUNOV, exLyap.domains, false, 3, false, 10⟩, exLyap.f, data⟩ := by
  have es : readSystem exLyapConfig.lib exLyapConfig.nVars exLyapConfig.system = .ok [.neg (.var 0)] := rfl
  have ed : readDomainTexts exLyapConfig.domains = .ok [("XD", .rectangle [-1] [1] none)] := rfl
  have hp : ∃ data : Dict String Src, parseConfig .LYAPUNOV [("XD", .rectangle [-1] [1] none)] exLyapConfig.nData = .ok (data, exLyap.domains) ∧
      ∃ d, initialiseDomains .z3 1 .LYAPUNOV exLyap.domains = .ok d ∧ assertState .LYAPUNOV d.keys data.keys = .ok () := ⟨_, rfl, _, rfl, rfl⟩
  obtain ⟨data, hp, d, hd, ha⟩ := hp
  refine ⟨data, ?_⟩
  have hlr : ¬ ((1 : ℚ) ≤ 0) := by norm_num
  exact readConfig_ok es (readSets_ok ed hp hd hlr rfl (Or.inl rfl) ha)

/-- A complete Lyapunov run from a file, hence asymptotic stability of the written system. -/
theorem exLyapConfig_run : ∃ (r : Ready) (w : World Answer Unit (Net × ℚ)) (learn : _), ConfigRun exLyapConfig r (fun p i => - p i) w learn ∧
    (∃ net out, Solves r.cfg.loop (singleComponents w r.cfg false learn) net () [] out ∧ out.found = true ∧ ZeroNet out.net.1) ∧
    ∃ D : Set (Pt 1), Configures 1 exLyapConfig.domains "XD" D ∧ D ∈ 𝓝 0 := by
  obtain ⟨s1, s2, s3, s4⟩ := exStay_sets
  obtain ⟨data, hr⟩ := exLyapConfig_ready
  refine ⟨_, idealWorld _ exLyap.f, fun _ => .ok ((exLyap.net, 0), ()), ⟨Or.inl rfl, ⟨by decide, ?_⟩, minus_x_system _, hr,
    idealWorld_sound _ _ _, fun _ => rfl, ?_⟩, ?_, ?_⟩
  · intro k s hm
    simp only [exLyapConfig, List.mem_cons, Prod.mk.injEq, List.not_mem_nil, or_false] at hm
    rw [hm.2]
    exact ⟨_, s3⟩
  · intro st n k h
    cases h
    exact ⟨rfl, exLyap_smooth.smooth⟩
  · obtain ⟨g, hq, ha⟩ := exLyap_accepted
    have hd : DistinctLabels g := by
      obtain ⟨d, V, Vdot, -, -, h⟩ := queriesCT_inv hq
      obtain ⟨dom, -, h⟩ := except_bind_ok (show lyapunovConstraints 1 false d V Vdot = .ok g from h)
      cases h
      simp [DistinctLabels, queries]
    obtain ⟨out, h1, h2, h3⟩ := C46_synthesis_succeeds ⟨.z3, 1, .LYAPUNOV, exLyap.domains, false, 3, false, 10⟩ _ _ _ g hq hd
      (accepted_refutes hd ha) (by intro h; cases h)
    exact ⟨_, out, h1, h2, by rw [h3]; exact exLyap_zero⟩
  · refine ⟨_, ⟨_, by simp [exLyapConfig], s3⟩, ?_⟩
    have : {p : Pt 1 | ∀ i : Fin 1, entry [-1] i ≤ p i ∧ p i ≤ entry [1] i} = (fun p : Pt 1 => p 0) ⁻¹' Icc (-1) 1 := by
      ext p; simp [entry, Fin.forall_fin_one]
    rw [this]
    exact (continuous_apply (0 : Fin 1)).continuousAt.preimage_mem_nhds (Icc_mem_nhds (by simp) (by simp))

example : AsympStable (fun (p : Pt 1) i => - p i) := by
  obtain ⟨r, w, learn, hr, ⟨net, out, h1, h2, h3⟩, D, hD, hn⟩ := exLyapConfig_run
  exact C56_config_stability exLyapConfig r _ w learn hr rfl D hD hn (by fun_prop) net () [] out h1 h2 (Or.inl rfl) (Or.inr h3)

/-- `x' = -x`: region of attraction of `[-0.5, 0.5]`; StableSafe with unsafe set `[2, 3]`. -/
def exROAConfig : ConfigText := ⟨.z3, 1, .ROA, ["-x0"], [("XD", "Rectangle([-4],[4])"), ("XI", "Rectangle([-0.5],[0.5])")],
  some (.dict [("XD", 10), ("XI", 10)]), ⟨1, true, false⟩, true, 3, false, 10⟩

def exSSConfig : ConfigText := { exConfig .STABLESAFE with llo := true }

/-- `x' = -x`: from `[0.6, 0.65]` reach `[-0.5, 0.5]` inside `[-1, 1]`, then remain in `[-0.75, 0.75]`. -/
def exRARConfig : ConfigText := ⟨.z3, 1, .RAR, ["-x0"],
  [("XD", "Rectangle([-2],[2])"), ("XI", "Rectangle([0.6],[0.65])"), ("XS", "Rectangle([-1],[1])"), ("XG", "Rectangle([-0.5],[0.5])"),
    ("XF", "Rectangle([-0.75],[0.75])")],
  some (.dict [("XD", 10), ("XI", 10), ("XU", 10), ("XG", 10), ("XF", 10), ("XNF", 10)]), ⟨1, true, false⟩, false, 3, false, 10⟩

theorem half_text : parseDomain "Rectangle([-0.5],[0.5])" = .ok (.rectangle [-1/2] [1/2] none) := by
  obtain ⟨h2, h1, h5, h6, h65⟩ := exStay_numerals
  have := C55_rectangle_text [['-', '0', '.', '5']] [['0', '.', '5']] _ _ (.cons (.minus h5) .nil) (.cons (.none h5) .nil)
    "Rectangle([-0.5],[0.5])" (layout_flatten _)
  rwa [show -(1/2 : ℚ) = -1/2 by norm_num] at this

theorem exROAConfig_ready : ∃ data, readConfig exROAConfig = .ok ⟨⟨.z3, 1, .ROA, exROAStill.domains, true, 3, false, 10⟩, [.neg (.var 0)], data⟩ := by
  have es : readSystem exROAConfig.lib exROAConfig.nVars exROAConfig.system = .ok [.neg (.var 0)] := rfl
  have ed : readDomainTexts exROAConfig.domains = .ok [("XD", .rectangle [-4] [4] none), ("XI", .rectangle [-1/2] [1/2] none)] := by
    have e1 : parseDomain "Rectangle([-4],[4])" = .ok (.rectangle [-4] [4] none) := rfl
    simp only [exROAConfig, readDomainTexts, e1, half_text, Bind.bind, Except.bind, pure, Except.pure]
  have hp : ∃ data : Dict String Src, parseConfig .ROA [("XD", .rectangle [-4] [4] none), ("XI", .rectangle [-1/2] [1/2] none)] exROAConfig.nData
      = .ok (data, exROAStill.domains) ∧
      ∃ d, initialiseDomains .z3 1 .ROA exROAStill.domains = .ok d ∧ assertState .ROA d.keys data.keys = .ok () := ⟨_, rfl, _, rfl, rfl⟩
  obtain ⟨data, hp, d, hd, ha⟩ := hp
  have hlr : ¬ ((1 : ℚ) ≤ 0) := by norm_num
  exact ⟨data, readConfig_ok es (readSets_ok ed hp hd hlr rfl (Or.inl rfl) ha)⟩

theorem exROAConfig_run : ∃ (r : Ready) (w : World Answer Unit (Net × ℚ)) (learn : _), ConfigRun exROAConfig r (fun p i => - p i) w learn ∧
    (∃ net out, Solves r.cfg.loop (singleComponents w r.cfg false learn) net () [] out ∧ out.found = true) ∧
    ∃ I : Set (Pt 1), Configures 1 exROAConfig.domains "XI" I ∧ (fun _ => 1/4) ∈ I := by
  obtain ⟨s1, s2, s3⟩ := exConfig_sets
  obtain ⟨data, hr⟩ := exROAConfig_ready
  refine ⟨_, idealWorld _ [.neg (.var 0)], fun _ => .ok ((exROAStill.net, 10/11), ()), ⟨Or.inl rfl, ⟨by decide, ?_⟩, minus_x_system _, hr,
    idealWorld_sound _ _ _, fun _ => rfl, ?_⟩, ?_, ?_⟩
  · intro k s hm
    simp only [exROAConfig, List.mem_cons, Prod.mk.injEq, List.not_mem_nil, or_false] at hm
    rcases hm with ⟨-, rfl⟩ | ⟨-, rfl⟩
    exacts [⟨_, s1⟩, ⟨_, s2⟩]
  · intro st n k h
    cases h
    exact ⟨rfl, C08_no_attraction.1.smooth⟩
  · obtain ⟨g, hq, ha⟩ := exROA_accepted
    have hd : DistinctLabels g := by
      obtain ⟨d, V, Vdot, -, -, h⟩ := queriesCT_inv hq
      obtain ⟨dom, -, h⟩ := except_bind_ok (show roaConstraints 1 true (10/11) d V Vdot = .ok g from h)
      cases h
      simp [DistinctLabels, queries]
    obtain ⟨out, h1, h2, h3⟩ := C46_synthesis_succeeds ⟨.z3, 1, .ROA, exROAStill.domains, true, 3, false, 10⟩ exROAStill.net (10/11) [.neg (.var 0)] g hq hd
      (accepted_refutes hd ha) (by intro h; cases h)
    exact ⟨_, out, h1, h2⟩
  · refine ⟨_, ⟨_, by simp [exROAConfig], s2⟩, fun i => ?_⟩
    obtain rfl : i = 0 := Subsingleton.elim _ _
    simp [entry]; norm_num

theorem exSSConfig_run : ∃ (r : Ready) (w : World Answer Unit ((Net × ℚ) × Net)) (learn : _), ConfigRun2 exSSConfig r (fun p i => - p i) w learn ∧
    ∃ net out, Solves r.cfg.loop (doubleComponents w r.cfg learn) net () [] out ∧ out.found = true := by
  obtain ⟨s1, s2, s3⟩ := exConfig_sets
  have hr : ∃ data, readConfig exSSConfig = .ok ⟨⟨.z3, 1, .STABLESAFE, exStableSafe.domains, true, 3, false, 10⟩, [.neg (.var 0)], data⟩ := by
    have es : readSystem exSSConfig.lib exSSConfig.nVars exSSConfig.system = .ok [.neg (.var 0)] := rfl
    have ed : readDomainTexts exSSConfig.domains = .ok [("XD", .rectangle [-4] [4] none), ("XI", .rectangle [-1/2] [1/2] none),
        ("XU", .rectangle [2] [3] none)] := by
      have e1 : parseDomain "Rectangle([-4],[4])" = .ok (.rectangle [-4] [4] none) := rfl
      have e3 : parseDomain "Rectangle([2],[3])" = .ok (.rectangle [2] [3] none) := rfl
      simp only [exSSConfig, exConfig, exConfigL, readDomainTexts, e1, e3, half_text, Bind.bind, Except.bind, pure, Except.pure]
    have hp : ∃ data : Dict String Src, parseConfig .STABLESAFE [("XD", .rectangle [-4] [4] none), ("XI", .rectangle [-1/2] [1/2] none),
        ("XU", .rectangle [2] [3] none)] exSSConfig.nData = .ok (data, exStableSafe.domains) ∧
        ∃ d, initialiseDomains .z3 1 .STABLESAFE exStableSafe.domains = .ok d ∧ assertState .STABLESAFE d.keys data.keys = .ok () := ⟨_, rfl, _, rfl, rfl⟩
    obtain ⟨data, hp, d, hd, ha⟩ := hp
    have hlr : ¬ ((1 : ℚ) ≤ 0) := by norm_num
    exact ⟨data, readConfig_ok es (readSets_ok ed hp hd hlr rfl (Or.inl rfl) ha)⟩
  obtain ⟨data, hr⟩ := hr
  refine ⟨_, idealWorld _ [.neg (.var 0)], fun _ => .ok (((exStableSafe.net, 10/11), exBarrNet), ()), ⟨Or.inl rfl, ⟨by decide, ?_⟩, minus_x_system _, hr,
    idealWorld_sound _ _ _, fun _ => rfl, ?_⟩, ?_⟩
  · intro k s hm
    simp only [exSSConfig, exConfig, exConfigL, List.mem_cons, Prod.mk.injEq, List.not_mem_nil, or_false] at hm
    rcases hm with ⟨-, rfl⟩ | ⟨-, rfl⟩ | ⟨-, rfl⟩
    exacts [⟨_, s1⟩, ⟨_, s2⟩, ⟨_, s3⟩]
  · intro st n k h
    cases h
    exact ⟨⟨rfl, exStableSafe_smooth.smooth⟩, rfl, by intro a ha; simp [exBarrNet] at ha; simp [ha]⟩
  · obtain ⟨g, cex, hq, hv⟩ := exStableSafe_success (10/11)
    obtain ⟨out, h1, h2, -⟩ := synthesis_succeeds_double ⟨.z3, 1, .STABLESAFE, exStableSafe.domains, true, 3, false, 10⟩ (Or.inl rfl) exStableSafe.net
      exBarrNet (10/11) (fun _ : Unit => [.neg (.var 0)]) () g cex hq hv
    exact ⟨_, out, h1, h2⟩

def exRARDoms : Dict String PySet :=
  [(XD, .rectangle [-2] [2] none), (XI, .rectangle [3/5] [13/20] none), (XS, .rectangle [-1] [1] none), (XG, .rectangle [-1/2] [1/2] none),
    (XF, .rectangle [-3/4] [3/4] none), (XSB, .rectangle [-1] [1] none)]

theorem exRARConfig_run : ∃ (r : Ready) (w : World Answer Unit ((Net × ℚ) × Net)) (learn : _), ConfigRun2 exRARConfig r (fun p i => - p i) w learn ∧
    (∃ net out, Solves r.cfg.loop (doubleComponents w r.cfg learn) net () [] out ∧ out.found = true) ∧
    ∃ I S D G P : Set (Pt 1), Configures 1 exRARConfig.domains "XI" I ∧ Configures 1 exRARConfig.domains "XS" S ∧
      Configures 1 exRARConfig.domains "XD" D ∧ Configures 1 exRARConfig.domains "XG" G ∧ Configures 1 exRARConfig.domains "XF" P ∧
      I ⊆ S ∧ I ⊆ D ∧ frontier S ⊆ D ∧ I.Nonempty := by
  obtain ⟨h2, h1, h5, h6, h65⟩ := exStay_numerals
  obtain ⟨s1, s2, s3, s4⟩ := exStay_sets
  have h75 : Numeral ['0', '.', '7', '5'] (3/4) := numeral_dec (a := ['0']) (b := ['7', '5']) (by decide) (by decide) (by decide +kernel)
  have s5 : SetText 1 "Rectangle([-0.75],[0.75])" {p | ∀ i : Fin 1, entry [-(3/4)] i ≤ p i ∧ p i ≤ entry [3/4] i} :=
    .rectangle (lb := [['-', '0', '.', '7', '5']]) (ub := [['0', '.', '7', '5']]) (.cons (.minus h75) .nil) (.cons (.none h75) .nil) rfl rfl (layout_flatten _)
  have hr : ∃ data, readConfig exRARConfig = .ok ⟨⟨.z3, 1, .RAR, exRARDoms, false, 3, false, 10⟩, [.neg (.var 0)], data⟩ := by
    have es : readSystem exRARConfig.lib exRARConfig.nVars exRARConfig.system = .ok [.neg (.var 0)] := rfl
    have ed : readDomainTexts exRARConfig.domains = .ok [("XD", .rectangle [-2] [2] none), ("XI", .rectangle [3/5] [13/20] none),
      ("XS", .rectangle [-1] [1] none), ("XG", .rectangle [-1/2] [1/2] none), ("XF", .rectangle [-3/4] [3/4] none)] := by
      have e1 : parseDomain "Rectangle([-2],[2])" = .ok (.rectangle [-2] [2] none) := rfl
      have e2 : parseDomain "Rectangle([0.6],[0.65])" = .ok (.rectangle [3/5] [13/20] none) :=
        C55_rectangle_text [['0', '.', '6']] [['0', '.', '6', '5']] _ _ (.cons (.none h6) .nil) (.cons (.none h65) .nil) _ (layout_flatten _)
      have e3 : parseDomain "Rectangle([-1],[1])" = .ok (.rectangle [-1] [1] none) := rfl
      have e5 : parseDomain "Rectangle([-0.75],[0.75])" = .ok (.rectangle [-3/4] [3/4] none) := by
        have := C55_rectangle_text [['-', '0', '.', '7', '5']] [['0', '.', '7', '5']] _ _ (.cons (.minus h75) .nil) (.cons (.none h75) .nil)
          "Rectangle([-0.75],[0.75])" (layout_flatten _)
        rwa [show -(3/4 : ℚ) = -3/4 by norm_num] at this
      simp only [exRARConfig, readDomainTexts, e1, e2, e3, e5, half_text, Bind.bind, Except.bind, pure, Except.pure]
    have hp : ∃ data : Dict String Src, parseConfig .RAR [("XD", .rectangle [-2] [2] none), ("XI", .rectangle [3/5] [13/20] none),
      ("XS", .rectangle [-1] [1] none), ("XG", .rectangle [-1/2] [1/2] none), ("XF", .rectangle [-3/4] [3/4] none)] exRARConfig.nData
        = .ok (data, exRARDoms) ∧
        ∃ d, initialiseDomains .z3 1 .RAR exRARDoms = .ok d ∧ assertState .RAR d.keys data.keys = .ok () := ⟨_, rfl, _, rfl, rfl⟩
    obtain ⟨data, hp, d, hd, ha⟩ := hp
    have hlr : ¬ ((1 : ℚ) ≤ 0) := by norm_num
    exact ⟨data, readConfig_ok es (readSets_ok ed hp hd hlr rfl (Or.inl rfl) ha)⟩
  obtain ⟨data, hr⟩ := hr
  refine ⟨_, idealWorld _ [.neg (.var 0)], fun _ => .ok (((exRAR.net, 0), exRARNet), ()), ⟨Or.inl rfl, ⟨by decide, ?_⟩, minus_x_system _, hr,
    idealWorld_sound _ _ _, fun _ => rfl, ?_⟩, ?_, ?_⟩
  · intro k s hm
    simp only [exRARConfig, List.mem_cons, Prod.mk.injEq, List.not_mem_nil, or_false] at hm
    rcases hm with ⟨-, rfl⟩ | ⟨-, rfl⟩ | ⟨-, rfl⟩ | ⟨-, rfl⟩ | ⟨-, rfl⟩
    exacts [⟨_, s1⟩, ⟨_, s2⟩, ⟨_, s3⟩, ⟨_, s4⟩, ⟨_, s5⟩]
  · intro st n k h
    cases h
    exact ⟨⟨rfl, exRAR_smooth.1.smooth⟩, rfl, exRAR_smooth.2⟩
  · obtain ⟨g, hq, ha⟩ := exRAR_accepted
    have hd : DistinctLabels g := rar_distinct rfl hq
    obtain ⟨cex, hv⟩ := ideal_verifies 1 g hd (accepted_refutes hd ha)
    obtain ⟨out, h1, h2, -⟩ := synthesis_succeeds_double ⟨.z3, 1, .RAR, exRARDoms, false, 3, false, 10⟩ (Or.inr rfl) exRAR.net
      exRARNet 0 (fun _ : Unit => [.neg (.var 0)]) () g cex hq hv
    exact ⟨_, out, h1, h2⟩
  · have mem : ∀ (a b : ℚ) (p : Pt 1), p ∈ {p : Pt 1 | ∀ i : Fin 1, entry [a] i ≤ p i ∧ p i ≤ entry [b] i} ↔ (a : ℝ) ≤ p 0 ∧ p 0 ≤ b := by
      intro a b p
      simp [entry, Fin.forall_fin_one]
    have hcl : IsClosed {p : Pt 1 | ∀ i : Fin 1, entry [-1] i ≤ p i ∧ p i ≤ entry [1] i} := by
      have : {p : Pt 1 | ∀ i : Fin 1, entry [-1] i ≤ p i ∧ p i ≤ entry [1] i} = Icc (fun i : Fin 1 => entry [-1] i) (fun i : Fin 1 => entry [1] i) := by
        ext p; simp [Pi.le_def, forall_and]
      rw [this]; exact isClosed_Icc
    refine ⟨_, _, _, _, _, ⟨_, by simp [exRARConfig], s2⟩, ⟨_, by simp [exRARConfig], s3⟩, ⟨_, by simp [exRARConfig], s1⟩,
      ⟨_, by simp [exRARConfig], s4⟩, ⟨_, by simp [exRARConfig], s5⟩, ?_, ?_, ?_, ?_⟩
    · intro p hp; rw [mem] at hp ⊢; norm_num at hp ⊢; constructor <;> linarith [hp.1, hp.2]
    · intro p hp; rw [mem] at hp ⊢; norm_num at hp ⊢; constructor <;> linarith [hp.1, hp.2]
    · intro p hp
      have hp := hcl.frontier_subset hp
      rw [mem] at hp ⊢; norm_num at hp ⊢; constructor <;> linarith [hp.1, hp.2]
    · exact ⟨fun _ => 3/5, by rw [mem]; norm_num⟩

/-- The functions of a system text are there with dReal and are a parse error with Z3 and CVC5. -/
theorem C56_functions_by_library :
    readSystem .dreal 2 ["-x0 + sin(x1)", "x0*tanh(x1)"] =
      .ok [.add (.neg (.var 0)) (.app .sin (.var 1)), .mul (.var 0) (.app .tanh (.var 1))] ∧
    readSystem .z3 2 ["-x0 + sin(x1)", "x0*tanh(x1)"] = .error .valueError ∧
    readSystem .cvc5 2 ["-x0 + sin(x1)", "x0*tanh(x1)"] = .error .valueError := by
  refine ⟨?_, ?_, ?_⟩ <;> decide +kernel

theorem tight_no_functions {c : Cat} {ts : List Tok} {e : AExpr} (h : Tight (fun _ => false) c ts e) : ∀ g, Tok.fn g ∉ ts := by
  induction h with
  | call h hf => cases hf
  | num | x | u => intro g; simp
  | brackets h ih | neg h ih => intro g; simp [ih g]
  | signed h ih | factor h ih | term h ih | sum h ih => exact ih
  | power h h' ih ih' | mul h h' ih ih' | div h h' ih ih' | add h h' ih ih' | sub h h' ih ih' => intro g; simp [ih g, ih' g]

/-- **C56.** With Z3 and CVC5 no accepted system text applies a function: whatever the texts are, each is spelled without function names. -/
theorem C56_no_functions (lib : Lib) (hl : lib = .z3 ∨ lib = .cvc5) (n : ℕ) (texts : List String) (f : List Term) (h : readSystem lib n texts = .ok f)
    (s : String) (hs : s ∈ texts) (hb : NoEmptyBrackets s) : ∃ ts, Spells ts s ∧ ∀ g, Tok.fn g ∉ ts := by
  have hsys : ∃ sys, texts.mapM (parseText lib.funcs) = .ok sys := by
    unfold readSystem at h
    obtain ⟨num, -, h⟩ := except_bind_ok h
    obtain ⟨-, -, h⟩ := except_bind_ok h
    obtain ⟨sys, hsys, -⟩ := except_bind_ok h
    exact ⟨sys, hsys⟩
  obtain ⟨sys, hsys⟩ := hsys
  clear h
  have hv : ∃ v, parseText lib.funcs s = .ok v := by
    induction texts generalizing sys with
    | nil => cases hs
    | cons t ts ih =>
      rw [List.mapM_cons] at hsys
      obtain ⟨v, hv, hsys⟩ := except_bind_ok hsys
      obtain ⟨vs, hvs, -⟩ := except_bind_ok hsys
      rcases List.mem_cons.1 hs with rfl | hs
      · exact ⟨v, hv⟩
      · exact ih hs vs hvs
  obtain ⟨v, hv⟩ := hv
  have e : lib.funcs = fun _ => false := by rcases hl with rfl | rfl <;> rfl
  rw [e] at hv
  obtain ⟨ts, w, h1, h2, -⟩ := C32_text_accepted_meaning s v hb hv
  exact ⟨ts, h1, tight_no_functions h2⟩

example : (∃ f, readSystem .z3 2 ["-x0 + x1", "x0*x1"] = .ok f) ∧ ∀ s ∈ ["-x0 + x1", "x0*x1"], NoEmptyBrackets s := by
  refine ⟨⟨[.add (.neg (.var 0)) (.var 1), .mul (.var 0) (.var 1)], by decide +kernel⟩, fun s hs p w r _ e => ?_⟩
  have hm : '(' ∈ s.toList := by rw [e]; simp
  have : ∀ s ∈ ["-x0 + x1", "x0*x1"], '(' ∉ s.toList := by decide +kernel
  exact this s hs hm

end Fossil

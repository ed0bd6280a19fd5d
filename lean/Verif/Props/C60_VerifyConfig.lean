/- C60: from the text of a configuration file with a candidate certificate to the guarantee for the written system. -/
import Verif.Lemmas.Config
import Verif.VerifyConfig
import Verif.Props.C48_Candidate
import Verif.Props.C56_Config

namespace Fossil

open Spec Set
open scoped Topology

namespace Spec

/-- The entry `CANDIDATE` describes the function `V` on `ℝⁿ`: it is one text, in ordinary notation (with no sign directly before a power), an expression in the
state variables `x0 ... x(n-1)` whose value at `p` is `V p`, and at the states in `S` every operation in it is applied where it is differentiable. -/
def CandidateText (n : ℕ) (texts : List String) (V : Pt n → ℝ) (S : Set (Pt n)) : Prop :=
  ∃ s ts e, texts = [s] ∧ Denotes true drealFuncs .sum ts e ∧ ¬ MinusPower drealFuncs ts ∧ Spells ts s ∧ (∀ j ∈ e.xs, j < n) ∧
    ∀ p : Pt n, V p = e.eval p.env (fun _ => 0) ∧ (p ∈ S → SmoothAt p.env (fun _ => 0) e)

end Spec

/-- The solver term of an expression is regular where the expression is smooth. -/
theorem AExpr.toTerm?_regular {ρ μ : ℕ → ℝ} {a : AExpr} : ∀ {t : Term}, a.toTerm? (fun _ => none) = some t → SmoothAt ρ μ a → regular ρ t := by
  have ev : ∀ {a : AExpr} {t : Term}, a.toTerm? (fun _ => none) = some t → t.eval ρ = a.eval ρ μ := fun h =>
    AExpr.toTerm?_eval (fun _ _ _ hs => by cases hs) h
  induction a with
  | num q => intro t h _; cases h; trivial
  | x i => intro t h _; cases h; trivial
  | u i => intro t h; cases h
  | add a b iha ihb | sub a b iha ihb | mul a b iha ihb =>
    intro t h hs
    simp only [AExpr.toTerm?, Option.bind_eq_bind, Option.bind_eq_some_iff, Option.pure_def, Option.some.injEq] at h
    obtain ⟨ta, h1, tb, h2, rfl⟩ := h
    exact ⟨iha h1 hs.1, ihb h2 hs.2⟩
  | div a b iha ihb =>
    intro t h hs
    simp only [AExpr.toTerm?, Option.bind_eq_bind, Option.bind_eq_some_iff, Option.pure_def, Option.some.injEq] at h
    obtain ⟨ta, h1, tb, h2, rfl⟩ := h
    exact ⟨iha h1 hs.1, ihb h2 hs.2.1, by rw [ev h2]; exact hs.2.2⟩
  | pow a b iha ihb =>
    intro t h hs
    cases b with
    | num q =>
      simp only [AExpr.toTerm?] at h
      split_ifs at h with hq
      simp only [Option.bind_eq_bind, Option.bind_eq_some_iff, Option.pure_def, Option.some.injEq] at h
      obtain ⟨ta, h1, rfl⟩ := h
      refine ⟨iha h1 hs.1, ?_⟩
      rw [ev h1]
      rcases hs.2.2 with ⟨k, hk⟩ | ⟨k, hk, h0⟩ | h0
      · right
        have : (0:ℝ) ≤ (q : ℝ) := by
          rw [show ((q : ℚ) : ℝ) = k from hk]; exact Nat.cast_nonneg k
        exact Rat.num_nonneg.2 (by exact_mod_cast this)
      · exact Or.inl h0
      · exact Or.inl h0.ne'
    | _ => simp [AExpr.toTerm?] at h
  | neg a iha =>
    intro t h hs
    simp only [AExpr.toTerm?, Option.bind_eq_bind, Option.bind_eq_some_iff, Option.pure_def, Option.some.injEq] at h
    obtain ⟨ta, h1, rfl⟩ := h
    exact (iha h1 hs : regular ρ ta)
  | app f a iha =>
    intro t h hs
    simp only [AExpr.toTerm?, Option.bind_eq_bind, Option.bind_eq_some_iff, Option.pure_def, Option.some.injEq] at h
    obtain ⟨g, hg, ta, h1, rfl⟩ := h
    refine ⟨iha h1 hs.1, fun hl => ?_⟩
    rw [ev h1]
    refine hs.2 ?_
    cases f <;> simp [FName.toFn?] at hg <;> subst hg <;> simp at hl ⊢

/-- The candidate that is verified is the written one. -/
theorem readCandidate_inv {n : ℕ} {texts : List String} {C : Term} (h : readCandidate texts n = .ok C) {V : Pt n → ℝ} {S : Set (Pt n)}
    (hV : CandidateText n texts V S) : candValue C = V ∧ (∀ p ∈ S, regular p.env C) ∧ termBelow n C := by
  obtain ⟨s, ts, e, rfl, hd, hm, hs, hx, hp⟩ := hV
  simp only [readCandidate] at h
  cases hv : parseText drealFuncs s with
  | error => rw [hv] at h; cases h
  | ok v =>
    rw [hv] at h
    simp only at h
    obtain ⟨hsim, hxs, -⟩ := accepted_sim hs hd hm hv
    by_cases ha : ((List.range n).all fun i => v.xs.contains i) = true
    · rw [if_pos ha] at h
      cases ht : v.toTerm? (fun _ => none) with
      | none => rw [ht] at h; cases h
      | some t =>
        rw [ht] at h
        cases h
        refine ⟨?_, fun p hpS => ?_, AExpr.toTerm?_below (fun _ _ hs => by cases hs) (by rw [hxs]; exact hx) ht⟩
        · funext p
          rw [(hp p).1, candValue, AExpr.toTerm?_eval (μ := fun _ => 0) (fun _ _ _ hs => by cases hs) ht]
          exact (hsim _ _).1
        · exact AExpr.toTerm?_regular ht (((hsim p.env (fun _ => 0)).2).2 ((hp p).2 hpS))
    · rw [if_neg ha] at h; cases h

theorem readVerify_inv {c : ConfigText} {cand : List String} {v : VerifyCfg} (h : readVerify c cand = .ok v) :
    ∃ cfg data, readSystem c.lib c.nVars c.system = .ok v.f ∧ readSets c = .ok (cfg, data) ∧ readCandidate cand c.nVars = .ok v.cand ∧
      v = ⟨c.lib, c.nVars, c.check.discrete, c.cert, cfg.domains, c.llo, v.cand, v.f⟩ := by
  obtain ⟨f, h1, h⟩ := except_bind_ok h
  obtain ⟨⟨cfg, data⟩, h2, h⟩ := except_bind_ok h
  obtain ⟨C, h3, h⟩ := except_bind_ok h
  cases h
  exact ⟨cfg, data, h1, h2, h3, rfl⟩

/-- A verification run from a configuration file with dReal that reports success, for a file whose texts describe the vector field `F`, the candidate `V`
(smooth on `S`) and sets inside `(-1000, 1000)ⁿ`; dReal is right when it gives no box and gives boxes in range for queries confined to the range. -/
structure VerifyRun (c : ConfigText) (cand : List String) (F : Pt c.nVars → Pt c.nVars) (V : Pt c.nVars → ℝ) (S : Set (Pt c.nVars))
    (noise : String → ℕ → ℕ → ℚ) (check : ℕ → ℕ → Formula → Option Box) (v : VerifyCfg) : Prop where
  lib : c.lib = .dreal
  domains : DomainsDescribed c
  small : ∀ k S, Configures c.nVars c.domains k S → ∀ p ∈ S, ∀ i, -1000 < p i ∧ p i < 1000
  system : SystemText drealFuncs c.nVars c.system F
  candidate : CandidateText c.nVars cand V S
  sound : ∀ k, DRealSound (check k)
  boxes : ∀ k, BoxesInRange c.nVars (check k)
  accepted : readVerify c cand = .ok v
  success : ∃ cex, verifyCandidate drealBackend noise (drealOracle c.nVars check) v = .ok ⟨true, cex⟩

/-- What such a run has established: the queries for the written system, candidate and sets were refuted. -/
theorem VerifyRun.core {c : ConfigText} {cand F V S noise check v} (h : VerifyRun c cand F V S noise check v) :
    ∃ cfg groups, SetsRun c cfg ∧ v = ⟨c.lib, c.nVars, c.check.discrete, c.cert, cfg.domains, c.llo, v.cand, v.f⟩ ∧ field c.nVars v.f = F ∧
      candValue v.cand = V ∧ (∀ p ∈ S, regular p.env v.cand) ∧ candidateQueries v = .ok groups ∧ Accepted c.nVars groups := by
  obtain ⟨cfg, data, h1, h2, h3, h4⟩ := readVerify_inv h.accepted
  have hs : SetsRun c cfg := ⟨Or.inr h.lib, h.domains, data, h2⟩
  obtain ⟨f1, -, f3⟩ := config_field h1 (F := F) (by rw [h.lib]; exact h.system)
  obtain ⟨c1, c2, c3⟩ := readCandidate_inv h3 h.candidate
  obtain ⟨cex, hok⟩ := h.success
  have hn : v.nVars = c.nVars := by rw [h4]
  have : ∃ groups, candidateQueries v = .ok groups ∧ Accepted v.nVars groups := by
    refine C48_success_accepted noise check v cex h.sound ?_ (by rw [h4]; exact h.lib) ?_ ?_ ?_ ?_ ?_
    · rw [hn]; exact h.boxes
    · rw [h4]; exact hs.wf
    · rw [h4]; exact hs.small h.small
    · rw [hn]; exact c3
    · rw [hn]; exact f3
    · rw [hn]; exact hok
  obtain ⟨groups, g1, g2⟩ := this
  exact ⟨cfg, groups, hs, h4, f1, c1, c2, g1, by rw [← hn]; exact g2⟩

/-- **C60, safety.** If verification of the candidate in a configuration file succeeds for a Barrier or BarrierAlt certificate, and the candidate is smooth on
the written domain, no trajectory of the written system that starts in the written initial set and stays in the written domain reaches the written
unsafe set. -/
theorem C60_verify_safety (c : ConfigText) (cand F V S noise check v) (h : VerifyRun c cand F V S noise check v) (hc : c.cert = .BARRIER ∨ c.cert = .BARRIERALT)
    (I D U : Set (Pt c.nVars)) (hI : Configures c.nVars c.domains "XI" I) (hD : Configures c.nVars c.domains "XD" D)
    (hU : Configures c.nVars c.domains "XU" U) (hS : D ⊆ S) (T : ℝ) (ξ : ℝ → Pt c.nVars) (hξ : Trajectory F T ξ) (h0 : ξ 0 ∈ I)
    (hin : ∀ t ∈ Icc 0 T, ξ t ∈ D) : ∀ t ∈ Icc 0 T, ξ t ∉ U := by
  obtain ⟨cfg, groups, hs, hv, rfl, rfl, hreg, hq, ha⟩ := h.core
  have rI := hs.region .XI (by decide) (by decide) (by intro h; cases h) hI
  have rD := hs.region .XD (by decide) (by decide) (by rintro -; rcases hc with h | h <;> simp [h]) hD
  have rU := hs.region .XU (by decide) (by decide) (by intro h; cases h) hU
  have hwf := hs.wf
  subst rI rD rU
  have hl := h.lib
  rw [hv] at hq
  exact C48_candidate_safety_partial _ hl hwf hc groups hq ha (fun p hp => hreg p (hS hp)) T ξ hξ h0 hin

/-- **C60, stability.** If verification of the candidate in a configuration file succeeds for a Lyapunov certificate (without LLO), the candidate vanishes at the
origin and is smooth everywhere, and the written domain is a neighbourhood of the origin, then the origin is stable for the written system, and
asymptotically stable if the system is continuous. -/
theorem C60_verify_stability (c : ConfigText) (cand F V S noise check v) (h : VerifyRun c cand F V S noise check v) (hc : c.cert = .LYAPUNOV)
    (hllo : c.llo = false) (D : Set (Pt c.nVars)) (hD : Configures c.nVars c.domains "XD" D) (hn : D ∈ 𝓝 0) (hz : V 0 = 0) (hS : S = univ) :
    Stable F ∧ (Continuous F → AsympStable F) := by
  obtain ⟨cfg, groups, hs, hv, rfl, rfl, hreg, hq, ha⟩ := h.core
  have rD := hs.region .XD (by decide) (by decide) (by rintro -; simp [hc]) hD
  have hwf := hs.wf
  subst rD
  have hl := h.lib
  rw [hv] at hq
  exact C48_candidate_stability_partial _ hl hwf hc groups hq ha hllo (fun p => hreg p (by rw [hS]; trivial)) hz hn

/-- **C60, the Lyapunov conditions.** Whatever the candidate's value at the origin: on the written domain away from the origin the written candidate is positive (without LLO)
and strictly decreases along the written system. -/
theorem C60_verify_lyapunov (c : ConfigText) (cand F V S noise check v) (h : VerifyRun c cand F V S noise check v) (hc : c.cert = .LYAPUNOV)
    (D : Set (Pt c.nVars)) (hD : Configures c.nVars c.domains "XD" D) :
    ∃ L : Pt c.nVars → ℝ, (∀ p ∈ S, IsLieDerivAt F V L p) ∧ ∀ p ∈ D, p ≠ 0 → (c.llo = false → 0 < V p) ∧ L p < 0 := by
  obtain ⟨cfg, groups, hs, hv, rfl, rfl, hreg, hq, ha⟩ := h.core
  have rD := hs.region .XD (by decide) (by decide) (by rintro -; simp [hc]) hD
  have hwf := hs.wf
  subst rD
  have hl := h.lib
  rw [hv] at hq
  obtain ⟨L, h1, -, h3⟩ := C48_candidate_lyapunov_conditions_partial _ hl hwf hc groups hq ha
  exact ⟨L, fun p hp => h1 p (hreg p hp), h3⟩

/-- **C60, reach while staying.** If verification of the candidate in a configuration file succeeds for a reach certificate and the candidate is smooth
everywhere, there is a time bound within which every trajectory of the written system from the written initial set reaches the written goal, staying in
the written safe set until then. -/
theorem C60_verify_reach (c : ConfigText) (cand F V S' noise check v) (h : VerifyRun c cand F V S' noise check v)
    (hc : c.cert = .RWS ∨ c.cert = .RWA ∨ c.cert = .RSWS ∨ c.cert = .RSWA) (I S D G : Set (Pt c.nVars))
    (hI : Configures c.nVars c.domains "XI" I) (hS : Configures c.nVars c.domains "XS" S) (hD : Configures c.nVars c.domains "XD" D)
    (hG : Configures c.nVars c.domains "XG" G) (h1 : I ⊆ S) (h2 : I ⊆ D) (h3 : frontier S ⊆ D) (hS' : S' = univ) :
    ∃ τ : ℝ, ∀ (T : ℝ) (ξ : ℝ → Pt c.nVars), Trajectory F T ξ → τ ≤ T → ξ 0 ∈ I →
      (∃ t ∈ Icc 0 τ, ξ t ∈ G) ∧ ∀ t ∈ Icc 0 T, ξ t ∈ S ∨ ∃ r ∈ Icc 0 t, ξ r ∈ G := by
  obtain ⟨cfg, groups, hs, hv, rfl, rfl, hreg, hq, ha⟩ := h.core
  have ht : TakesSafeSet c.cert := by rcases hc with h | h | h | h <;> simp [TakesSafeSet, h]
  have rI := hs.region .XI (by decide) (by decide) (by intro h; cases h) hI
  have rS := hs.region .XS (by decide) (by decide) (by intro h; cases h) hS
  have rG := hs.region .XG (by decide) (by decide) (by intro h; cases h) hG
  obtain ⟨data, hacc⟩ := hs.accepted
  have hsets := config_reachSets c hs.domains cfg data hacc ht I S D hI hS hD h1 h2 h3
  have hbd : Bornology.IsBounded S := by obtain ⟨s, -, h⟩ := hS; exact setText_bounded h
  have hwf := hs.wf
  subst rI rS rG
  have hl := h.lib
  rw [hv] at hq
  exact C48_candidate_reach_partial _ hl hwf hsets hc groups hq ha (fun p => hreg p (by rw [hS']; trivial)) hbd

/-- **C60.** A file with a candidate and another verifier than dReal always ends in an exception. -/
theorem C60_needs_dreal {R α : Type} (B : Backend R) (noise o) (synth : Ready → Except Err α) (c : ConfigText) (cand : List String) (hl : c.lib ≠ .dreal) (hn : 0 < c.nVars) :
    ∃ e, cliEntry B noise o synth c (some cand) = .error e := by
  cases h : readVerify c cand with
  | error e => exact ⟨e, by simp [cliEntry, h, Bind.bind, Except.bind]⟩
  | ok v =>
    obtain ⟨cfg, data, -, -, -, h4⟩ := readVerify_inv h
    obtain ⟨e, he⟩ := C48_needs_dreal B noise o v (by rw [h4]; exact hl) (by rw [h4]; exact hn)
    exact ⟨e, by simp [cliEntry, h, he, Bind.bind, Except.bind]⟩

/-- **C60.** So does one that asks for a region-of-attraction, stable-while-avoid or reach-avoid-remain certificate. -/
theorem C60_unsupported_certificates {R α : Type} (B : Backend R) (noise o) (synth : Ready → Except Err α) (c : ConfigText) (cand : List String)
    (hc : c.cert = .ROA ∨ c.cert = .STABLESAFE ∨ c.cert = .RAR) : ∃ e, cliEntry B noise o synth c (some cand) = .error e := by
  cases h : readVerify c cand with
  | error e => exact ⟨e, by simp [cliEntry, h, Bind.bind, Except.bind]⟩
  | ok v =>
    obtain ⟨cfg, data, -, -, -, h4⟩ := readVerify_inv h
    obtain ⟨e, he⟩ := C48_unsupported_certificates B noise o v (by rw [h4]; exact hc)
    exact ⟨e, by simp [cliEntry, h, he, Bind.bind, Except.bind]⟩

/-- **C60.** The entry point reports success exactly when reading and verification succeed: nothing is learned for a file with a candidate. -/
theorem C60_entry_verifies {R α : Type} (B : Backend R) (noise o) (synth : Ready → Except Err α) (c : ConfigText) (cand : List String) (out : VerifyOut ⊕ α) :
    cliEntry B noise o synth c (some cand) = .ok out ↔ ∃ v r, readVerify c cand = .ok v ∧ verifyCandidate B noise o v = .ok r ∧ out = .inl r := by
  constructor
  · intro h
    obtain ⟨v, h1, h⟩ := except_bind_ok h
    obtain ⟨r, h2, h⟩ := except_bind_ok h
    exact ⟨v, r, h1, h2, (Except.ok.inj h).symm⟩
  · rintro ⟨v, r, h1, h2, rfl⟩
    simp [cliEntry, h1, h2, Bind.bind, Except.bind, pure, Except.pure]

/-! ### examples -/

/-- The written candidate of the examples. -/
noncomputable def sq1 : Pt 1 → ℝ := fun p => p 0 ^ 2

theorem square_candidate : CandidateText 1 ["x0**2"] sq1 univ := by
  refine ⟨_, [.x 0, .dstar, .num 2], .pow (.x 0) (.num 2), rfl, .sum (.term (.power (a := [.x 0]) (.x 0) (.factor (.signed (.num 2))))), ?_,
    ⟨[['x', '0'], ['*', '*'], ['2']], ?_, layout_flatten _⟩, by simp [AExpr.xs], fun p => ⟨?_, fun _ => ?_⟩⟩
  · rintro ⟨p, a, e, r, h, -⟩
    have : Tok.minus ∈ [Tok.x 0, .dstar, .num 2] := by rw [h]; simp
    simp at this
  · exact .cons (TokText.x (d := ['0']) ⟨digits_of (by decide), Or.inl rfl⟩)
      (.cons .dstar (.cons (.num (numeral_int (by decide) (by decide +kernel))) .nil))
  · simp [AExpr.eval, Pt.env, sq1]
  · exact ⟨trivial, trivial, Or.inl ⟨2, by norm_num [AExpr.eval]⟩⟩

/-- Sets with integer bounds, for the examples. -/
theorem interval_small {c : ConfigText} {a b : ℚ} (ha : -1000 < a) (hb : b < 1000) {S : Set (Pt c.nVars)} {s : String}
    (hp : parseDomain s = .ok (.rectangle [a] [b] none)) (hS : SetText c.nVars s S) (hn : c.nVars = 1) : ∀ p ∈ S, ∀ i, -1000 < p i ∧ p i < 1000 := by
  obtain ⟨P, h1, h2, -, h3⟩ := setText_parse hS
  rw [hp] at h1
  cases h1
  rw [← h3, rectangle_doc (by rw [hn]; rfl) (by rw [hn]; rfl)]
  intro p hpS i
  have hi : (i : ℕ) = 0 := by have := i.2; omega
  have := hpS i
  rw [hi] at this
  simp only [entry, List.getD_cons_zero] at this
  have h4 : ((-1000 : ℚ) : ℝ) < (a : ℝ) := by exact_mod_cast ha
  have h5 : (b : ℝ) < ((1000 : ℚ) : ℝ) := by exact_mod_cast hb
  push_cast at h4 h5
  exact ⟨lt_of_lt_of_le h4 this.1, lt_of_le_of_lt this.2 h5⟩

/-- A Lyapunov problem on `[-1, 1]`. -/
def exVerify (disc : Bool) (sys : String) : ConfigText :=
  ⟨.dreal, 1, .LYAPUNOV, [sys], [("XD", "Rectangle([-1],[1])")], some (.dict [("XD", 10)]), ⟨1, true, disc⟩, false, 3, false, 10⟩

theorem exVerify_sets (disc : Bool) (sys : String) :
    ∃ data, readSets (exVerify disc sys) = .ok (⟨.dreal, 1, .LYAPUNOV, exCand.domains, false, 3, false, 10⟩, data) := by
  have ed : readDomainTexts (exVerify disc sys).domains = .ok [("XD", .rectangle [-1] [1] none)] := rfl
  have hp : ∃ data : Dict String Src, parseConfig .LYAPUNOV [("XD", .rectangle [-1] [1] none)] (exVerify disc sys).nData = .ok (data, exCand.domains) ∧
      ∃ d, initialiseDomains .dreal 1 .LYAPUNOV exCand.domains = .ok d ∧ assertState .LYAPUNOV d.keys data.keys = .ok () := ⟨_, rfl, _, rfl, rfl⟩
  obtain ⟨data, hp, d, hd, ha⟩ := hp
  have hlr : ¬ ((1 : ℚ) ≤ 0) := by norm_num
  exact ⟨data, readSets_ok ed hp hd hlr rfl (Or.inr rfl) ha⟩

theorem exVerify_described (disc : Bool) (sys : String) : DomainsDescribed (exVerify disc sys) := by
  obtain ⟨s1, s2, s3, s4⟩ := exStay_sets
  refine ⟨by simp [exVerify], fun k s hm => ?_⟩
  simp only [exVerify, List.mem_cons, Prod.mk.injEq, List.not_mem_nil, or_false] at hm
  rw [hm.2]
  exact ⟨_, s3⟩

theorem exVerify_small (disc : Bool) (sys : String) : ∀ k S, Configures (exVerify disc sys).nVars (exVerify disc sys).domains k S →
    ∀ p ∈ S, ∀ i, -1000 < p i ∧ p i < 1000 := by
  rintro k S ⟨s, hm, hs⟩
  simp only [exVerify, List.mem_cons, Prod.mk.injEq, List.not_mem_nil, or_false] at hm
  rw [hm.2] at hs
  exact interval_small (c := exVerify disc sys) (a := -1) (b := 1) (by norm_num) (by norm_num) rfl hs rfl

theorem exVerify_read (disc : Bool) (sys : String) (f : List Term) (h : readSystem .dreal 1 [sys] = .ok f) :
    readVerify (exVerify disc sys) ["x0**2"] = .ok { exCand with discrete := disc, f := f } := by
  obtain ⟨data, hs⟩ := exVerify_sets disc sys
  have hc : readCandidate ["x0**2"] 1 = .ok exCand.cand := by decide +kernel
  have h' : readSystem (exVerify disc sys).lib (exVerify disc sys).nVars (exVerify disc sys).system = .ok f := h
  have hc' : readCandidate ["x0**2"] (exVerify disc sys).nVars = .ok exCand.cand := hc
  simp only [readVerify, h', hs, hc', Bind.bind, Except.bind, pure, Except.pure]
  rfl

theorem verify_ideal {c : VerifyCfg} {g} (hq : candidateQueries c = .ok g) (hd : DistinctLabels g) (ha : Accepted c.nVars g) :
    ∃ cex, verifyCandidate drealBackend (fun _ _ _ => 0) (drealOracle c.nVars fun _ _ => idealCheck) c = .ok ⟨true, cex⟩ := by
  unfold verifyCandidate
  rw [hq]
  exact dreal_verifies _ _ hd (accepted_refutes hd ha)

/-- The file: system `-x0`, candidate `x0**2`. -/
theorem exVerify_run : ∃ v, VerifyRun (exVerify false "-x0") ["x0**2"] (fun p i => - p i) sq1 univ (fun _ _ _ => 0) (fun _ _ => idealCheck) v := by
  obtain ⟨g, hq, ha⟩ := exCand_accepted
  have hd : DistinctLabels g := by
    have : candidateQueries exCand = .ok g := hq
    cases this; simp [DistinctLabels, queries]
  exact ⟨_, rfl, exVerify_described _ _, exVerify_small _ _, minus_x_system _, square_candidate, fun _ => idealCheck_sound, fun _ => idealCheck_boxes _,
    exVerify_read false "-x0" [.neg (.var 0)] rfl, verify_ideal hq hd ha⟩

/-- All hypotheses of the stability theorem hold of this file, and so does its conclusion. -/
example : AsympStable (fun (p : Pt 1) i => - p i) := by
  obtain ⟨v, hv⟩ := exVerify_run
  obtain ⟨s1, s2, s3, s4⟩ := exStay_sets
  refine (C60_verify_stability _ _ _ _ _ _ _ v hv rfl rfl _ ⟨_, by simp [exVerify], s3⟩ ?_ ?_ rfl).2 (continuous_pi fun i => (continuous_apply i).neg)
  · have : {p : Pt 1 | ∀ i : Fin 1, entry [-1] i ≤ p i ∧ p i ≤ entry [1] i} = region 1 [(XD, .rectangle [-1] [1] none)] XD :=
      (rectangle_doc (n := 1) (l := [-1]) (u := [1]) rfl rfl).symm
    change {p : Pt 1 | ∀ i : Fin 1, entry [-1] i ≤ p i ∧ p i ≤ entry [1] i} ∈ 𝓝 0
    rw [this]
    exact interval_nhds
  · change (0 : ℝ) ^ 2 = 0
    norm_num

/-- The written map of the discrete-time file below. -/
theorem minus_two_system : SystemText drealFuncs 1 ["-2*x0"] (fun p i => -2 * p i) := by
  refine ⟨rfl, fun i hi => ⟨[.minus, .num 2, .star, .x 0], .mul (.neg (.num 2)) (.x 0),
    .sum (.mul (a := [.minus, .num 2]) (.term (.factor (.neg (.signed (.num 2))))) (.factor (.signed (.x 0)))), ?_,
    ⟨[['-'], ['2'], ['*'], ['x', '0']], ?_, ?_⟩, rfl, ?_, ?_⟩⟩
  · rintro ⟨p, a, e, r, h, -⟩
    have : Tok.dstar ∈ [Tok.minus, .num 2, .star, .x 0] := by rw [h]; simp
    simp at this
  · exact .cons .minus (.cons (.num (numeral_int (by decide) (by decide +kernel))) (.cons .star
      (.cons (TokText.x (d := ['0']) ⟨digits_of (by decide), Or.inl rfl⟩) .nil)))
  · obtain rfl : i = 0 := by omega
    exact layout_flatten _
  · intro j hj
    simp [AExpr.xs] at hj
    omega
  · intro p
    obtain rfl : i = 0 := by omega
    simp [AExpr.eval, Pt.env]

/-- **C60, the defect.** The file asks for discrete time; verification of `x0**2` for `x⁺ = -2 x` nevertheless succeeds (the condition of continuous time is
checked), although the origin is not stable. -/
theorem C60_discrete_time_unsound : ∃ (c : ConfigText) (cand : List String) (F : Pt c.nVars → Pt c.nVars) (V : Pt c.nVars → ℝ) (noise : String → ℕ → ℕ → ℚ)
    (check : ℕ → ℕ → Formula → Option Box) (v : VerifyCfg), c.check.discrete = true ∧ c.cert = .LYAPUNOV ∧ c.llo = false ∧
      VerifyRun c cand F V univ noise check v ∧ ¬ StableDT F := by
  have hf : field 1 [.mul (.neg (.const 2)) (.var 0)] = (fun (p : Pt 1) i => -2 * p i) := by
    funext p i
    obtain rfl : i = 0 := Subsingleton.elim _ _
    simp [field, Term.eval, Pt.env]
  have hq : ∃ g, candidateQueries { exCand with discrete := true, f := [.mul (.neg (.const 2)) (.var 0)] } = .ok g ∧ DistinctLabels g ∧ Accepted 1 g := by
    refine ⟨_, rfl, by simp [DistinctLabels, queries], accepted_of_refuted (by simp [DistinctLabels, queries]) ?_⟩
    intro g hg q hq ρ h
    simp only [List.mem_singleton] at hg
    subst hg
    simp only [List.mem_singleton] at hq
    subst hq
    simp [Formula.holds, Formula.conj, Term.eval, Term.sum, leZero, geZero, vars, exCand] at h
    have h2 := mul_self_pos.2 h.2.2
    rcases h.2.1 with h3 | h3
    · norm_cast at h3; nlinarith
    · norm_num at h3; nlinarith
  obtain ⟨g, hq, hd, ha⟩ := hq
  refine ⟨exVerify true "-2*x0", ["x0**2"], fun p i => -2 * p i, sq1, fun _ _ _ => 0, fun _ _ => idealCheck,
    { exCand with discrete := true, f := [.mul (.neg (.const 2)) (.var 0)] }, rfl, rfl, rfl,
    ⟨rfl, exVerify_described _ _, exVerify_small _ _, minus_two_system, square_candidate, fun _ => idealCheck_sound, fun _ => idealCheck_boxes _,
    exVerify_read true "-2*x0" _ (by decide +kernel), verify_ideal hq hd ha⟩, ?_⟩
  obtain ⟨-, -, -, hns⟩ := C48_discrete_time_unsound
  have e : field 1 exCandDT.f = (fun (p : Pt 1) i => -2 * p i) := by
    funext p i
    obtain rfl : i = 0 := Subsingleton.elim _ _
    simp [field, exCandDT, Term.eval, Pt.env]
  rwa [e] at hns

/-- The written candidate `x0**2-1`. -/
noncomputable def sqm1 : Pt 1 → ℝ := fun p => p 0 ^ 2 - 1

theorem barrier_candidate : CandidateText 1 ["x0**2-1"] sqm1 univ := by
  refine ⟨_, [.x 0, .dstar, .num 2, .minus, .num 1], .sub (.pow (.x 0) (.num 2)) (.num 1), rfl,
    .sub (a := [.x 0, .dstar, .num 2]) (.sum (.term (.power (a := [.x 0]) (.x 0) (.factor (.signed (.num 2)))))) (.term (.factor (.signed (.num 1)))), ?_,
    ⟨[['x', '0'], ['*', '*'], ['2'], ['-'], ['1']], ?_, layout_flatten _⟩, by simp [AExpr.xs], fun p => ⟨?_, fun _ => ?_⟩⟩
  · rintro ⟨p, a, e, r, h, -⟩
    rcases p with _ | ⟨q, _ | ⟨q', _ | ⟨q'', _ | ⟨q3, p⟩⟩⟩⟩ <;> simp at h
    · obtain ⟨-, -, -, h⟩ := h
      have : Tok.dstar ∈ [Tok.num 1] := by rw [h]; simp
      simp at this
    · obtain ⟨-, -, -, -, h⟩ := h
      have : Tok.dstar ∈ p ++ Tok.minus :: (a ++ Tok.dstar :: r) := by simp
      rw [← h] at this
      simp at this
  · exact .cons (TokText.x (d := ['0']) ⟨digits_of (by decide), Or.inl rfl⟩)
      (.cons .dstar (.cons (.num (numeral_int (by decide) (by decide +kernel))) (.cons .minus (.cons (.num (numeral_int (by decide) (by decide +kernel))) .nil))))
  · simp [AExpr.eval, Pt.env, sqm1]
  · exact ⟨⟨trivial, trivial, Or.inl ⟨2, by norm_num [AExpr.eval]⟩⟩, trivial⟩

/-- The file of C56 (system `-x0`, initial set `[-0.5, 0.5]`, unsafe set `[2, 3]`) with the candidate `x0**2-1`. -/
def exVerifyB : VerifyCfg := ⟨.dreal, 1, false, .BARRIER, (exBarrier .BARRIER).domains, false, .sub (.pow (.var 0) 2) (.const 1), [.neg (.var 0)]⟩

theorem exVerifyB_run : ∃ v, VerifyRun (exConfigL .dreal .BARRIER) ["x0**2-1"] (fun p i => - p i) sqm1 univ (fun _ _ _ => 0) (fun _ _ => idealCheck) v := by
  obtain ⟨s1, s2, s3⟩ := exConfig_sets
  obtain ⟨data, hr⟩ := exConfig_readyL .dreal (Or.inr rfl) .BARRIER (Or.inl rfl)
  obtain ⟨r1, r2⟩ := readConfig_inv hr
  have hq : ∃ g, candidateQueries exVerifyB = .ok g ∧ DistinctLabels g ∧ Accepted 1 g := by
    refine ⟨_, rfl, by simp [DistinctLabels, queries, XI, XU, XD], accepted_of_refuted (by simp [DistinctLabels, queries, XI, XU, XD]) ?_⟩
    intro g hg q hq ρ h
    simp only [List.mem_cons, List.not_mem_nil, or_false] at hg
    rcases hg with rfl | rfl <;> simp only [List.mem_cons, List.not_mem_nil, or_false] at hq
    · rcases hq with rfl | rfl
      · simp [Formula.holds, Formula.conj, Term.eval, Term.sum, leZero, geZero, vars, exVerifyB, exBarrier] at h
        norm_num at h
        norm_cast at h
        have h2 : |ρ 0| ≤ 1/2 := abs_le.2 ⟨by linarith [h.1.2.1], by linarith [h.1.2.2]⟩
        linarith [h.1.1]
      · simp [Formula.holds, Formula.conj, Term.eval, Term.sum, leZero, geZero, vars, exVerifyB, exBarrier] at h
        norm_num at h
        norm_cast at h
        have h2 := h.1.1
        rw [abs_le] at h2
        linarith [h.1.2.1]
    · subst hq
      simp [Formula.holds, Formula.conj, Term.eval, Term.sum, leZero, geZero, gtZero, vars, exVerifyB, exBarrier] at h
      norm_cast at h
      nlinarith [h.1.1, h.1.2]
  obtain ⟨g, hq, hd, ha⟩ := hq
  have hc : readCandidate ["x0**2-1"] 1 = .ok exVerifyB.cand := by decide +kernel
  have hc' : readCandidate ["x0**2-1"] (exConfigL .dreal .BARRIER).nVars = .ok exVerifyB.cand := hc
  refine ⟨exVerifyB, rfl, ⟨by decide, ?_⟩, ?_, minus_x_system _, barrier_candidate, fun _ => idealCheck_sound, fun _ => idealCheck_boxes _, ?_, verify_ideal hq hd ha⟩
  · intro k s hm
    simp only [exConfigL, List.mem_cons, Prod.mk.injEq, List.not_mem_nil, or_false] at hm
    rcases hm with ⟨-, rfl⟩ | ⟨-, rfl⟩ | ⟨-, rfl⟩
    exacts [⟨_, s1⟩, ⟨_, s2⟩, ⟨_, s3⟩]
  · rintro k S ⟨s, hm, hs⟩
    simp only [exConfigL, List.mem_cons, Prod.mk.injEq, List.not_mem_nil, or_false] at hm
    rcases hm with ⟨-, rfl⟩ | ⟨-, rfl⟩ | ⟨-, rfl⟩
    · exact interval_small (c := exConfigL .dreal .BARRIER) (a := -4) (b := 4) (by norm_num) (by norm_num) rfl hs rfl
    · exact interval_small (c := exConfigL .dreal .BARRIER) (a := -1/2) (b := 1/2) (by norm_num) (by norm_num) half_text hs rfl
    · exact interval_small (c := exConfigL .dreal .BARRIER) (a := 2) (b := 3) (by norm_num) (by norm_num) rfl hs rfl
  · simp only [readVerify, r1, r2, hc', Bind.bind, Except.bind, pure, Except.pure]
    rfl

/-- All hypotheses of the safety theorem hold of this file, with a trajectory from the initial set. -/
example : ∀ t ∈ Icc (0:ℝ) 5, (fun _ => Real.exp (-t) / 2 : Pt 1) ∉ {p : Pt 1 | ∀ i : Fin 1, entry [2] i ≤ p i ∧ p i ≤ entry [3] i} := by
  obtain ⟨v, hv⟩ := exVerifyB_run
  obtain ⟨s1, s2, s3⟩ := exConfig_sets
  refine C60_verify_safety _ _ _ _ _ _ _ v hv (Or.inl rfl) _ _ _ ⟨_, by simp [exConfigL], s2⟩ ⟨_, by simp [exConfigL], s1⟩ ⟨_, by simp [exConfigL], s3⟩
    (fun _ _ => trivial) 5 (fun t _ => Real.exp (-t) / 2) ?_ ?_ ?_
  · intro t _
    refine hasDerivWithinAt_pi.2 fun i => ?_
    have hd : HasDerivAt (fun t : ℝ => Real.exp (-t) / 2) (Real.exp (-t) * (-1) / 2) t := ((hasDerivAt_neg t).exp).div_const 2
    refine HasDerivWithinAt.congr_deriv hd.hasDerivWithinAt ?_
    ring
  · intro i
    obtain rfl : i = 0 := Subsingleton.elim (α := Fin 1) _ _
    simp [entry]
    norm_num
  · intro t ht i
    obtain rfl : i = 0 := Subsingleton.elim (α := Fin 1) _ _
    have h1 : Real.exp (-t) ≤ 1 := Real.exp_le_one_iff.2 (by linarith [ht.1])
    have h2 := Real.exp_pos (-t)
    simp [entry]
    constructor <;> linarith

end Fossil

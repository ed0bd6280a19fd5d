/-
C46: what a successful synthesis run guarantees, end to end: the CEGIS loop with the modelled translator, set formulas,
certificate conditions and verifier, for any optimiser, any perturbations, any controller and any solver whose "unsat"
answers are right.
-/
import Verif.Assembly
import Verif.Props.C27_Cegis
import Verif.Props.C16_RAR
import Verif.Props.C15_Double
import Verif.Props.C18_Discrete
import Verif.Lemmas.Below

namespace Fossil
open Spec Set

variable {R K : Type}

/-- A successful run verified exactly the queries for the returned network, level and controller. -/
theorem solve_queries (w : World R K (Net × ℚ)) (c : SynthCfg) (learn) (net : Net × ℚ) (ctrl : K)
    (S : Dict String (List (List ℚ))) (out) (h : Solves c.loop (singleComponents w c false learn) net ctrl S out)
    (hf : out.found = true) :
    ∃ groups i cex, queriesCT (c.setup out.net.1 out.net.2 (w.dynamics out.ctrl)) = .ok groups ∧
      verify w.backend c.nVars (w.noise i) (w.oracle i) groups = .ok ⟨true, cex⟩ := by
  obtain ⟨k, st, V, Vdot, cex, -, -, ht, -, -, -, hv, -⟩ := C27_success_is_verified _ _ _ _ _ _ h hf
  obtain ⟨d, hd, hv⟩ := except_bind_ok hv
  obtain ⟨g, hg, hv⟩ := except_bind_ok hv
  obtain ⟨o, ho, hv⟩ := except_bind_ok hv
  obtain ⟨of, oc⟩ := o
  cases hv
  have ht : translateCT c.lib c.rounding none c.quad out.net.1 (vars c.nVars) (w.dynamics out.ctrl)
      = .ok (V, Vdot) := ht
  refine ⟨g, st.iters, oc, ?_, ho⟩
  simp only [queriesCT, SynthCfg.setup, bind, Except.bind, hd, ht, hg]

theorem solve_queries_dt (w : World R K (Net × ℚ)) (c : SynthCfg) (learn) (net : Net × ℚ) (ctrl : K)
    (S : Dict String (List (List ℚ))) (out) (h : Solves c.loop (singleComponents w c true learn) net ctrl S out)
    (hf : out.found = true) :
    ∃ groups i cex, queriesDT (c.setup out.net.1 out.net.2 (w.dynamics out.ctrl)) = .ok groups ∧
      verify w.backend c.nVars (w.noise i) (w.oracle i) groups = .ok ⟨true, cex⟩ := by
  obtain ⟨k, st, V, Vdot, cex, -, -, ht, -, -, -, hv, -⟩ := C27_success_is_verified _ _ _ _ _ _ h hf
  obtain ⟨d, hd, hv⟩ := except_bind_ok hv
  obtain ⟨g, hg, hv⟩ := except_bind_ok hv
  obtain ⟨o, ho, hv⟩ := except_bind_ok hv
  obtain ⟨of, oc⟩ := o
  cases hv
  have ht : translateDT c.lib c.rounding c.quad out.net.1 (vars c.nVars) (w.dynamics out.ctrl)
      = .ok (V, Vdot) := ht
  refine ⟨g, st.iters, oc, ?_, ho⟩
  simp only [queriesDT, SynthCfg.setup, bind, Except.bind, hd, ht, hg]

theorem solve_queries_double (w : World R K ((Net × ℚ) × Net)) (c : SynthCfg) (learn) (net : (Net × ℚ) × Net) (ctrl : K)
    (S : Dict String (List (List ℚ))) (out) (h : Solves c.loop (doubleComponents w c learn) net ctrl S out)
    (hf : out.found = true) :
    ∃ groups i cex,
      queriesDouble (c.setup out.net.1.1 out.net.1.2 (w.dynamics out.ctrl)) out.net.2 = .ok groups ∧
      verify w.backend c.nVars (w.noise i) (w.oracle i) groups = .ok ⟨true, cex⟩ := by
  obtain ⟨k, st, V, Vdot, cex, -, -, ht, -, -, -, hv, -⟩ := C27_success_is_verified _ _ _ _ _ _ h hf
  obtain ⟨d, hd, hv⟩ := except_bind_ok hv
  obtain ⟨g, hg, hv⟩ := except_bind_ok hv
  obtain ⟨o, ho, hv⟩ := except_bind_ok hv
  obtain ⟨of, oc⟩ := o
  cases hv
  obtain ⟨tt, ht1, ht2⟩ := except_bind_ok ht
  cases ht2
  refine ⟨g, st.iters, oc, ?_, ho⟩
  simp only [queriesDouble, SynthCfg.setup, bind, Except.bind, hd, ht1]
  exact hg

/-- A synthesis run a user can set up: z3 or dReal terms, well-formed sets, and training that keeps the architecture of
the network (right number of inputs, no ReLU units). -/
structure SmoothRun (c : SynthCfg) (learn : LoopState (Net × ℚ) K (List ℚ) Term → Except Err ((Net × ℚ) × K)) :
    Prop where
  lib : c.lib = .z3 ∨ c.lib = .dreal
  sets : WFDomains c.nVars c.domains
  arch : ∀ st n k, learn st = .ok (n, k) → n.1.inputSize = c.nVars ∧ smoothActs n.1

/-- The same for the double loop. -/
structure SmoothRun2 (c : SynthCfg)
    (learn : LoopState ((Net × ℚ) × Net) K (List ℚ) (Term × Term) → Except Err (((Net × ℚ) × Net) × K)) : Prop where
  lib : c.lib = .z3 ∨ c.lib = .dreal
  sets : WFDomains c.nVars c.domains
  arch : ∀ st n k, learn st = .ok (n, k) → (n.1.1.inputSize = c.nVars ∧ smoothActs n.1.1) ∧
    (n.2.inputSize = c.nVars ∧ smoothActs n.2)

/-- The solver in the loop can be trusted. Either it is an SMT solver (z3) all of whose `unsat` answers are right; or it is dReal: what is consulted
are the calls `check` of `dr.CheckSatisfiability` (at most two per query, the second one with the second-chance bound), whose `None` answers are right and
whose boxes for confined queries are within the variable bounds, all configured sets are inside the second-chance bound, and the dynamics mention only state
variables. The certificate ROA is
excluded for dReal: its query confines nothing (see `C04_dreal_unbounded_violation_missed`). -/
inductive SoundWorld {K N : Type} (c : SynthCfg) : {R : Type} → World R K N → Prop where
  | smt (w : World Answer K N) (backend : w.backend = smtBackend) (oracle : ∀ i, RefutationSound (w.oracle i))
      (stay : ∀ i β b φ, w.stayOracle i β b φ = .unsat → ∀ ρ : Env, ¬ φ.holds ρ) : SoundWorld c w
  | dreal (w : World (Option Box) K N) (check : ℕ → ℕ → ℕ → Formula → Option Box) (stayCheck : ℕ → ℚ → Bool → ℕ → Formula → Option Box)
      (backend : w.backend = drealBackend) (oracle : ∀ i, w.oracle i = drealOracle c.nVars (check i))
      (stayOracle : ∀ i β b, w.stayOracle i β b = drealSolve c.nVars (stayCheck i β b))
      (sound : ∀ i k, DRealSound (check i k)) (boxes : ∀ i k, BoxesInRange c.nVars (check i k))
      (staySound : ∀ i β b, DRealSound (stayCheck i β b)) (stayBoxes : ∀ i β b, BoxesInRange c.nVars (stayCheck i β b))
      (small : SmallSets c.nVars c.domains) (closed : ∀ k, AllBelow c.nVars (w.dynamics k)) (cert : c.cert ≠ .ROA) : SoundWorld c w

/-- What the proofs use of a trusted solver: "unsat" excludes "sat" for the formulas `Q`, and is right for the formulas `P`. -/
structure Reliable (B : Backend R) (Q P : Formula → Prop) (o : Formula → R) : Prop where
  excl : ∀ φ, Q φ → B.isUnsat (o φ) = true → B.isSat (o φ) = false
  sound : ∀ φ, P φ → B.isUnsat (o φ) = true → ∀ ρ : Env, ¬ φ.holds ρ

theorem dreal_reliable {n : ℕ} {check : ℕ → Formula → Option Box} (hs : DRealSound check) (hb : BoxesInRange n check) :
    Reliable drealBackend (formulaBelow n) (fun φ => formulaBelow n φ ∧ Confined n φ) (drealSolve n check) := by
  have hexcl : ∀ φ, formulaBelow n φ → drealIsUnsat (drealSolve n check φ) = true → drealSolve n check φ = none := by
    intro φ hbl hu
    cases hx : drealSolve n check φ with
    | none => rfl
    | some bx =>
      rw [hx] at hu
      simp only [drealIsUnsat, Option.isNone_some, Bool.false_or, Bool.not_eq_true'] at hu
      simp only [drealSolve] at hx
      split at hx
      · rw [(withinBounds_iff bx).2 (hb 1 _ bx (secondChance_below hbl) (secondChance_confines n φ) hx)] at hu; cases hu
      · rename_i hc
        rw [hx] at hc
        simp [drealIsSat, hu] at hc
  refine ⟨fun φ hbl hu => by rw [hexcl φ hbl hu]; rfl, fun φ ⟨hbl, hc⟩ hu ρ hρ => ?_⟩
  have hn := hexcl φ hbl hu
  simp only [drealSolve] at hn
  split at hn
  · refine hs 1 _ hn ρ ?_
    simp only [secondChance, Formula.holds_conj, List.mem_cons, List.mem_map, forall_eq_or_imp]
    refine ⟨hρ, ?_⟩
    rintro _ ⟨t, ht, rfl⟩
    simp only [vars, List.mem_map, List.mem_range] at ht
    obtain ⟨i, hi, rfl⟩ := ht
    have := hc ρ hρ i hi
    simp only [Formula.holds, Term.eval]
    push_cast
    exact ⟨this.2, this.1⟩
  · exact hs 0 _ hn ρ hρ

theorem smt_reliable {o : Formula → Answer} (h : ∀ φ, o φ = .unsat → ∀ ρ : Env, ¬ φ.holds ρ) : Reliable smtBackend (fun _ => True) (fun _ => True) o := by
  refine ⟨fun φ _ hu => ?_, fun φ _ hu => h φ (unsat_of_isUnsat hu)⟩
  rw [unsat_of_isUnsat hu]; rfl

/-- A trusted solver is reliable, on all formulas or (dReal) on the confined ones. -/
theorem SoundWorld.reliable {N : Type} {c : SynthCfg} {w : World R K N} (hw : SoundWorld c w) :
    ∃ Q P : Formula → Prop, (∀ i k, Reliable w.backend Q P (w.oracle i k)) ∧ (∀ i β b, Reliable w.backend Q P (w.stayOracle i β b)) ∧
      ((∀ φ, Q φ ∧ P φ) ∨ ((∀ φ, formulaBelow c.nVars φ → Q φ) ∧ (∀ φ, formulaBelow c.nVars φ → Confined c.nVars φ → P φ) ∧
        SmallSets c.nVars c.domains ∧ (∀ k, AllBelow c.nVars (w.dynamics k)) ∧ c.cert ≠ .ROA)) := by
  cases hw with
  | smt w hb ho hst =>
    refine ⟨fun _ => True, fun _ => True, fun i k => ?_, fun i β b => ?_, Or.inl fun _ => ⟨trivial, trivial⟩⟩
    · rw [hb]; exact smt_reliable fun φ h => ho i k φ h
    · rw [hb]; exact smt_reliable fun φ h => hst i β b φ h
  | dreal w check stayCheck hb ho hst hs hx hs' hx' hsm hcl hc =>
    refine ⟨formulaBelow c.nVars, fun φ => formulaBelow c.nVars φ ∧ Confined c.nVars φ, fun i k => ?_, fun i β b => ?_, Or.inr ⟨fun _ h => h, fun _ h h' => ⟨h, h'⟩, hsm, hcl, hc⟩⟩
    · rw [hb, ho]; exact dreal_reliable (hs i k) (hx i k)
    · rw [hb, hst]; exact dreal_reliable (hs' i β b) (hx' i β b)

theorem smoothSetup_of_run {w : World R K (Net × ℚ)} {c : SynthCfg} {learn} {disc : Bool}
    (hr : SmoothRun c learn) {net ctrl S out} (h : Solves c.loop (singleComponents w c disc learn) net ctrl S out)
    (hf : out.found = true) : SmoothSetup (c.setup out.net.1 out.net.2 (w.dynamics out.ctrl)) := by
  obtain ⟨k, st, V, Vdot, cex, -, hl, -⟩ := C27_success_is_verified _ _ _ _ _ _ h hf
  obtain ⟨a, b⟩ := hr.arch _ _ _ hl
  exact ⟨hr.lib, hr.sets, a, b⟩

/-- Success of the verifier with a trusted solver is acceptance, if the queries are confined whenever the sets are small. -/
theorem accepted_of_world {N : Type} {c : SynthCfg} {w : World R K N} (hw : SoundWorld c w) {groups} {i cex}
    (hbl : (∀ k, AllBelow c.nVars (w.dynamics k)) → ∀ g ∈ groups, ∀ q ∈ g, formulaBelow c.nVars q.2)
    (hcf : SmallSets c.nVars c.domains → c.cert ≠ .ROA → ∀ g ∈ groups, ∀ q ∈ g, Confined c.nVars q.2)
    (hv : verify w.backend c.nVars (w.noise i) (w.oracle i) groups = .ok ⟨true, cex⟩) : Accepted c.nVars groups := by
  cases hw with
  | smt w hb ho hst =>
    rw [hb] at hv
    exact .z3 _ _ cex (ho i) hv
  | dreal w check stayCheck hb ho hst hs hx hs' hx' hsm hcl hc =>
    rw [hb, ho] at hv
    exact .dreal _ (check i) cex (hs i) (hbl hcl) (fun g hg q hq ρ hρ => hcf hsm hc g hg q hq ρ hρ) (hx i) hv

theorem single_cert {ct : CertType} {n : ℕ} {llo : Bool} {β : ℚ} {d : Dict String Formula} {V Vdot : Term} {groups}
    (h : singleConstraints ct n llo β d V Vdot = .ok groups) : ct ≠ .RAR := by
  rintro rfl
  cases h

/-- A reported success is an acceptance of the queries of the returned network, for any activations. -/
theorem run_accepted_any {w : World R K (Net × ℚ)} {c : SynthCfg} (hw : SoundWorld c w) {learn}
    (hlib : c.lib = .z3 ∨ c.lib = .dreal) (hsets : WFDomains c.nVars c.domains)
    {net ctrl S out} (h : Solves c.loop (singleComponents w c false learn) net ctrl S out)
    (hf : out.found = true) :
    ∃ groups, queriesCT (c.setup out.net.1 out.net.2 (w.dynamics out.ctrl)) = .ok groups ∧
      Accepted c.nVars groups := by
  obtain ⟨g, i, cex, hq, hv⟩ := solve_queries w c learn net ctrl S out h hf
  refine ⟨g, hq, accepted_of_world hw (fun hcl => queriesCT_below (s := c.setup out.net.1 out.net.2 (w.dynamics out.ctrl)) (hcl _) hq) (fun hsm hc => ?_) hv⟩
  obtain ⟨d, V, Vdot, h1, -, h3⟩ := queriesCT_inv hq
  exact single_confined hlib hsets hsm (initialise_single h1 (single_cert h3)) hc h3

theorem run_accepted {w : World R K (Net × ℚ)} {c : SynthCfg} (hw : SoundWorld c w) {learn} (hr : SmoothRun c learn)
    {net ctrl S out} (h : Solves c.loop (singleComponents w c false learn) net ctrl S out)
    (hf : out.found = true) :
    ∃ groups, queriesCT (c.setup out.net.1 out.net.2 (w.dynamics out.ctrl)) = .ok groups ∧
      Accepted c.nVars groups := by
  exact run_accepted_any hw hr.lib hr.sets h hf

theorem run_accepted_dt {w : World R K (Net × ℚ)} {c : SynthCfg} (hw : SoundWorld c w) {learn} (hr : SmoothRun c learn)
    {net ctrl S out} (h : Solves c.loop (singleComponents w c true learn) net ctrl S out)
    (hf : out.found = true) :
    ∃ groups, queriesDT (c.setup out.net.1 out.net.2 (w.dynamics out.ctrl)) = .ok groups ∧
      Accepted c.nVars groups := by
  obtain ⟨g, i, cex, hq, hv⟩ := solve_queries_dt w c learn net ctrl S out h hf
  refine ⟨g, hq, accepted_of_world hw (fun hcl => queriesDT_below (s := c.setup out.net.1 out.net.2 (w.dynamics out.ctrl)) (hcl _) hq) (fun hsm hc => ?_) hv⟩
  obtain ⟨d, V, Vdot, h1, -, h3⟩ := queriesDT_inv hq
  exact single_confined hr.lib hr.sets hsm (initialise_single h1 (single_cert h3)) hc h3

/-- The reach-and-stay check of a trusted solver is that of a solver whose "unsat" answers are all right. -/
theorem stay_sound {w : World R K (Net × ℚ)} {c : SynthCfg} (hw : SoundWorld c w) (hlib : c.lib = .z3 ∨ c.lib = .dreal) (hsets : WFDomains c.nVars c.domains)
    (hc : c.cert ≠ .RAR) (i : ℕ) : ∃ o : ℚ → Bool → Formula → R, (∀ β b φ, w.backend.isUnsat (o β b φ) = true → ∀ ρ : Env, ¬ φ.holds ρ) ∧
      ∀ V Vdot k net β, translateCT c.lib c.rounding none c.quad net (vars c.nVars) (w.dynamics k) = .ok (V, Vdot) →
        stayCheckFor w.backend (w.stayOracle i) c V Vdot β = stayCheckFor w.backend o c V Vdot β := by
  classical
  cases hw with
  | smt w hb ho hst => exact ⟨w.stayOracle i, fun β b φ hu => hst i β b φ (unsat_of_isUnsat (by rwa [hb] at hu)), fun _ _ _ _ _ _ => rfl⟩
  | dreal w check stayCheck hb ho hst hs hx hs' hx' hsm hcl hcert =>
    refine ⟨fun β b φ => if formulaBelow c.nVars φ ∧ Confined c.nVars φ then w.stayOracle i β b φ else some [], fun β b φ hu => ?_, fun V Vdot k net β ht => ?_⟩
    · rw [hb] at hu
      dsimp only at hu
      split at hu
      · rename_i hcf
        rw [hst] at hu
        exact (dreal_reliable (hs' i β b) (hx' i β b)).sound φ hcf hu
      · cases hu
    · obtain ⟨hV, hW⟩ := translateCT_below (vars_below _) (hcl k) ht
      unfold stayCheckFor
      cases hd : initialiseDomains c.lib c.nVars c.cert c.domains with
      | error e => rfl
      | ok d =>
        cases hq : stayQueries d V Vdot β with
        | error e => simp only [bind, Except.bind, hq]
        | ok q =>
          obtain ⟨q1, q2⟩ := q
          obtain ⟨c1, c2⟩ := stay_confined hlib hsets hsm (initialise_single hd hc) hq
          obtain ⟨b1, b2⟩ := stay_below (initialise_below hd) hV hW hq
          simp only [bind, Except.bind, hq, if_pos (And.intro b1 c1), if_pos (And.intro b2 c2)]

theorem rar_confined {s : Setup} (hlib : s.lib = .z3 ∨ s.lib = .dreal) (hsets : WFDomains s.nVars s.domains) (hsm : SmallSets s.nVars s.domains)
    (hc : s.cert = .RAR) {barr : Net} {groups} (h : queriesDouble s barr = .ok groups) : ∀ g ∈ groups, ∀ q ∈ g, Confined s.nVars q.2 := by
  obtain ⟨g1, d, nf, S, B, Bdot, dom, goal, b1, b2, b3, hd, -, -, hq, -, hdom, -, rfl, rfl, rfl, rfl⟩ := rar_split hc h
  have hD := entry_confined hlib hsets hsm hd (by decide) hdom
  intro g hg q hqg
  rcases List.mem_append.1 hg with hg | hg
  · obtain ⟨d', V, Vdot, h1, -, h3⟩ := queriesCT_inv hq
    exact single_confined (lib := s.lib) hlib hsets hsm (initialise_single h1 (single_cert h3)) (by simp [Setup.rwsHalf]) h3 g hg q hqg
  · simp only [List.mem_cons, List.not_mem_nil, or_false] at hg
    rcases hg with rfl | rfl <;> simp only [List.mem_cons, List.not_mem_nil, or_false] at hqg
    · rcases hqg with rfl | rfl <;> exact fun ρ hρ => hD ρ hρ.2
    · subst hqg
      exact fun ρ hρ => hD ρ hρ.2

/-- **C46, barrier.** If synthesis reports success for a Barrier or BarrierAlt certificate (continuous time), no
trajectory of the closed loop with the returned controller that starts in XI and stays in XD ever reaches XU. -/
theorem C46_barrier_synthesis_safe (c : SynthCfg) (w : World R K (Net × ℚ)) (hw : SoundWorld c w) (learn)
    (hr : SmoothRun c learn) (hc : c.cert = .BARRIER ∨ c.cert = .BARRIERALT) (net ctrl S out)
    (h : Solves c.loop (singleComponents w c false learn) net ctrl S out) (hf : out.found = true)
    (T : ℝ) (ξ : ℝ → Pt c.nVars) (hξ : Trajectory (field c.nVars (w.dynamics out.ctrl)) T ξ)
    (h0 : ξ 0 ∈ region c.nVars c.domains XI) (hin : ∀ t ∈ Icc 0 T, ξ t ∈ region c.nVars c.domains XD) :
    ∀ t ∈ Icc 0 T, ξ t ∉ region c.nVars c.domains XU := by
  obtain ⟨g, hq, ha⟩ := run_accepted hw hr h hf
  have hs := smoothSetup_of_run hr h hf
  rcases hc with hc | hc
  · exact C09_barrier_safety _ hs hc g hq ha T ξ hξ h0 hin
  · exact C10_barrierAlt_safety_ct _ hs hc g hq ha T ξ hξ h0 hin

/-- **C46, discrete barrier.** The same for discrete time, BarrierAlt. -/
theorem C46_discrete_barrier_synthesis_safe (c : SynthCfg) (w : World R K (Net × ℚ)) (hw : SoundWorld c w) (learn)
    (hr : SmoothRun c learn) (hc : c.cert = .BARRIERALT) (hquad : c.quad = false) (net ctrl S out)
    (h : Solves c.loop (singleComponents w c true learn) net ctrl S out) (hf : out.found = true)
    (hlen : (w.dynamics out.ctrl).length = c.nVars)
    (x : ℕ → Pt c.nVars) (hx : IsRun (field c.nVars (w.dynamics out.ctrl)) x)
    (h0 : x 0 ∈ region c.nVars c.domains XI) (k : ℕ) (hin : ∀ j ≤ k, x j ∈ region c.nVars c.domains XD) :
    x k ∉ region c.nVars c.domains XU := by
  obtain ⟨g, hq, ha⟩ := run_accepted_dt hw hr h hf
  exact C11_barrierAlt_safety_dt _ hr.lib hr.sets hlen hquad hc g hq ha x hx h0 k hin

/-- **C46, Lyapunov.** If synthesis reports success for a Lyapunov certificate (continuous time), the returned certificate
is positive away from the origin on XD (without LLO) and strictly decreases along every trajectory of the closed loop
inside XD minus the origin. -/
theorem C46_lyapunov_synthesis (c : SynthCfg) (w : World R K (Net × ℚ)) (hw : SoundWorld c w) (learn)
    (hr : SmoothRun c learn) (hc : c.cert = .LYAPUNOV) (net ctrl S out)
    (h : Solves c.loop (singleComponents w c false learn) net ctrl S out) (hf : out.found = true) :
    (c.llo = false → ∀ p ∈ region c.nVars c.domains XD, p ≠ 0 → 0 < certValue c.rounding c.quad out.net.1 p) ∧
    ∀ (T : ℝ) (ξ : ℝ → Pt c.nVars), Trajectory (field c.nVars (w.dynamics out.ctrl)) T ξ →
      (∀ t ∈ Icc 0 T, ξ t ∈ region c.nVars c.domains XD ∧ ξ t ≠ 0) →
      StrictAntiOn (fun t => certValue c.rounding c.quad out.net.1 (ξ t)) (Icc 0 T) := by
  obtain ⟨g, hq, ha⟩ := run_accepted hw hr h hf
  have hs := smoothSetup_of_run hr h hf
  obtain ⟨L, -, hL⟩ := C05_lyapunov_conditions _ hs.lib hs.sets hs.size hc g hq ha
  exact ⟨fun hl p hp h0 => (hL p hp h0).1 hl,
    fun T ξ hξ hin => C06_decreases_along_trajectories _ hs hc g hq ha T ξ hξ hin⟩

/-- **C46, reach-while-stay.** If synthesis reports success for RWS/RWA, there is a time bound within which every
trajectory of the closed loop from XI reaches XG, staying in XS until then. -/
theorem C46_reach_synthesis (c : SynthCfg) (w : World R K (Net × ℚ)) (hw : SoundWorld c w) (learn)
    (hr : SmoothRun c learn) (hc : c.cert = .RWS ∨ c.cert = .RWA ∨ c.cert = .RSWS ∨ c.cert = .RSWA)
    (hsets : ReachSets c.nVars c.domains) (hbd : Bornology.IsBounded (region c.nVars c.domains XS)) (net ctrl S out)
    (h : Solves c.loop (singleComponents w c false learn) net ctrl S out) (hf : out.found = true) :
    ∃ τ : ℝ, ∀ (T : ℝ) (ξ : ℝ → Pt c.nVars), Trajectory (field c.nVars (w.dynamics out.ctrl)) T ξ → τ ≤ T →
      ξ 0 ∈ region c.nVars c.domains XI →
      (∃ t ∈ Icc 0 τ, ξ t ∈ region c.nVars c.domains XG) ∧
      ∀ t ∈ Icc 0 T, ξ t ∈ region c.nVars c.domains XS ∨ ∃ r ∈ Icc 0 t, ξ r ∈ region c.nVars c.domains XG := by
  obtain ⟨g, hq, ha⟩ := run_accepted hw hr h hf
  exact C12_rws_reaches_goal _ (smoothSetup_of_run hr h hf) hsets hc g hq ha hbd

/-- **C46, reach-and-stay.** If synthesis reports success for RSWS, there is a time bound by which every trajectory of the
closed loop from XI is in XG for ever, always staying in XS. -/
theorem C46_reach_stay_synthesis (c : SynthCfg) (w : World R K (Net × ℚ)) (hw : SoundWorld c w) (learn)
    (hr : SmoothRun c learn) (hc : c.cert = .RSWS) (hsets : StaySets c.nVars c.domains)
    (hbd : Bornology.IsBounded (region c.nVars c.domains XS)) (net ctrl S out)
    (h : Solves c.loop (singleComponents w c false learn) net ctrl S out) (hf : out.found = true) :
    ∃ τ : ℝ, ∀ (T : ℝ) (ξ : ℝ → Pt c.nVars), Trajectory (field c.nVars (w.dynamics out.ctrl)) T ξ → τ ≤ T →
      ξ 0 ∈ region c.nVars c.domains XI →
      (∃ t₁ ∈ Icc 0 τ, ∀ t ∈ Icc t₁ T, ξ t ∈ region c.nVars c.domains XG) ∧
      ∀ t ∈ Icc 0 T, ξ t ∈ region c.nVars c.domains XS := by
  obtain ⟨g, hq, ha⟩ := run_accepted hw hr h hf
  obtain ⟨k, st, V, Vdot, cex, -, -, ht, -, -, -, hv, hb⟩ := C27_success_is_verified _ _ _ _ _ _ h hf
  have hb : betaSearchFn (stayCheckFor w.backend (w.stayOracle st.iters) c V Vdot) = .ok true := hb hc
  have ht : translateCT c.lib c.rounding none c.quad out.net.1 (vars c.nVars) (w.dynamics out.ctrl)
      = .ok (V, Vdot) := ht
  unfold betaSearchFn at hb
  split at hb
  · rename_i hex
    obtain ⟨kb, β, hrun⟩ := hex
    obtain ⟨o, hsound, ho⟩ := stay_sound hw hr.lib hr.sets (by simp [hc]) st.iters
    have heq : stayCheckFor w.backend (w.stayOracle st.iters) c V Vdot =
        stayCheckCT w.backend o (c.setup out.net.1 out.net.2 (w.dynamics out.ctrl)) := by
      funext b
      rw [ho _ _ _ _ b ht]
      simp only [stayCheckFor, stayCheckCT, SynthCfg.setup, bind, Except.bind, ht]
    rw [heq] at hrun
    exact C13_reaches_and_stays w.backend o hsound _ (smoothSetup_of_run hr h hf) hsets (Or.inl hc) g hq ha kb β hrun hbd
  · split at hb <;> cases hb

/-- **C46, region of attraction.** If synthesis reports success for ROA with LLO, along every trajectory from XI the
certificate strictly decreases, and stays below the level, as long as the trajectory is outside the ball of radius
0.01. -/
theorem C46_roa_synthesis (c : SynthCfg) (w : World R K (Net × ℚ)) (hw : SoundWorld c w) (learn)
    (hr : SmoothRun c learn) (hc : c.cert = .ROA) (net ctrl S out)
    (h : Solves c.loop (singleComponents w c false learn) net ctrl S out) (hf : out.found = true) :
    (∀ p ∈ region c.nVars c.domains XI, certValue c.rounding c.quad out.net.1 p ≤ (out.net.2 : ℝ) * (11/10)) ∧
    ∀ (T : ℝ) (ξ : ℝ → Pt c.nVars), Trajectory (field c.nVars (w.dynamics out.ctrl)) T ξ → 0 ≤ T →
      ξ 0 ∈ region c.nVars c.domains XI → (∀ t ∈ Icc 0 T, (1/100)^2 < normSq (ξ t)) →
      ((c.llo = true ∨ certValue c.rounding c.quad out.net.1 (ξ 0) < (out.net.2 : ℝ) * (11/10)) →
        ∀ t ∈ Icc 0 T, certValue c.rounding c.quad out.net.1 (ξ t) ≤ (out.net.2 : ℝ) * (11/10)) ∧
      (c.llo = true → StrictAntiOn (fun t => certValue c.rounding c.quad out.net.1 (ξ t)) (Icc 0 T)) := by
  obtain ⟨g, hq, ha⟩ := run_accepted hw hr h hf
  have hs := smoothSetup_of_run hr h hf
  exact ⟨(C08_roa_conditions _ hs.lib hs.sets hs.size hc g hq ha).1, fun T ξ hξ hT h0 hout =>
    ⟨fun hst => C08_roa_invariant_partial _ hs hc g hq ha T ξ hξ hT h0 hst hout,
      fun hl => C08_roa_llo_strictly_decreasing _ hs hc g hq ha hl T ξ hξ hT h0 hout⟩⟩

/-- **C46, stable-while-safe.** If synthesis reports success for StableSafe, no trajectory of the closed loop from XI
inside XD reaches XU. -/
theorem C46_stable_safe_synthesis (c : SynthCfg) (w : World R K ((Net × ℚ) × Net)) (hw : SoundWorld c w) (learn)
    (hr : SmoothRun2 c learn) (hc : c.cert = .STABLESAFE) (net ctrl S out)
    (h : Solves c.loop (doubleComponents w c learn) net ctrl S out) (hf : out.found = true)
    (T : ℝ) (ξ : ℝ → Pt c.nVars) (hξ : Trajectory (field c.nVars (w.dynamics out.ctrl)) T ξ)
    (h0 : ξ 0 ∈ region c.nVars c.domains XI) (hin : ∀ t ∈ Icc 0 T, ξ t ∈ region c.nVars c.domains XD) :
    ∀ t ∈ Icc 0 T, ξ t ∉ region c.nVars c.domains XU := by
  obtain ⟨g, i, cex, hq, hv⟩ := solve_queries_double w c learn net ctrl S out h hf
  obtain ⟨k, st, V, Vdot, cex', -, hl, -⟩ := C27_success_is_verified _ _ _ _ _ _ h hf
  obtain ⟨⟨a1, a2⟩, b1, b2⟩ := hr.arch _ _ _ hl
  obtain ⟨Q, P, hR, -, hP⟩ := hw.reliable
  refine stable_safe_safety _ ⟨hr.lib, hr.sets, a1, a2⟩ out.net.2 b1 b2 hc g hq w.backend (w.noise i) (w.oracle i) (fun k q hBq => (hR i k).excl q ?_)
    (fun k q hBq hu => (hR i k).sound q ?_ hu) cex hv T ξ hξ h0 hin
  · rcases hP with hP | ⟨hQ, -, -, hcl, -⟩
    · exact (hP q).1
    obtain ⟨g', hg, q', hq', rfl⟩ := hBq
    exact hQ _ (queriesDouble_below (s := c.setup out.net.1.1 out.net.1.2 (w.dynamics out.ctrl)) (hcl _) hq g' hg q' hq')
  rcases hP with hP | ⟨-, hP, hsm, hcl, -⟩
  · exact (hP q).2
  obtain ⟨gb, hgb, g, hg, q', hq', rfl⟩ := hBq
  obtain ⟨d, V, Vdot, h1, -, h3⟩ := queriesCT_inv hgb
  refine hP _ (queriesCT_below (s := (c.setup out.net.1.1 out.net.1.2 (w.dynamics out.ctrl)).barrierHalf out.net.2) (hcl _) hgb g hg _ hq') (single_confined hr.lib hr.sets hsm (initialise_single h1 (single_cert h3)) (by simp [Setup.barrierHalf]) h3 g hg _ hq')

/-- **C46, reach-avoid-remain.** If synthesis reports success for RAR, within a time bound every trajectory of the closed
loop from XI (inside XD) reaches XG, staying in XS until then, and once in XG it remains in XF. -/
theorem C46_rar_synthesis (c : SynthCfg) (w : World R K ((Net × ℚ) × Net)) (hw : SoundWorld c w) (learn)
    (hr : SmoothRun2 c learn) (hc : c.cert = .RAR) (hsets : ReachSets c.nVars c.domains)
    (hbd : Bornology.IsBounded (region c.nVars c.domains XS)) (net ctrl S out)
    (h : Solves c.loop (doubleComponents w c learn) net ctrl S out) (hf : out.found = true) :
    ∃ τ : ℝ, ∀ (T : ℝ) (ξ : ℝ → Pt c.nVars), Trajectory (field c.nVars (w.dynamics out.ctrl)) T ξ → τ ≤ T →
      ξ 0 ∈ region c.nVars c.domains XI → (∀ t ∈ Icc 0 T, ξ t ∈ region c.nVars c.domains XD) →
      (∃ t ∈ Icc 0 τ, ξ t ∈ region c.nVars c.domains XG) ∧
      (∀ t ∈ Icc 0 T, ξ t ∈ region c.nVars c.domains XS ∨
        ∃ r ∈ Icc 0 t, ξ r ∈ region c.nVars c.domains XG) ∧
      ∀ r ∈ Icc 0 T, ξ r ∈ region c.nVars c.domains XG →
        ∀ t ∈ Icc r T, ξ t ∈ region c.nVars c.domains XF := by
  obtain ⟨g, i, cex, hq, hv⟩ := solve_queries_double w c learn net ctrl S out h hf
  obtain ⟨k, st, V, Vdot, cex', -, hl, -⟩ := C27_success_is_verified _ _ _ _ _ _ h hf
  obtain ⟨⟨a1, a2⟩, b1, b2⟩ := hr.arch _ _ _ hl
  refine C16_reach_avoid_remain _ ⟨hr.lib, hr.sets, a1, a2⟩ out.net.2 b1 b2 hsets hc g hq
    (accepted_of_world hw (fun hcl => queriesDouble_below (s := c.setup out.net.1.1 out.net.1.2 (w.dynamics out.ctrl)) (hcl _) hq) (fun hsm _ => ?_) hv) hbd
  exact rar_confined (s := c.setup out.net.1.1 out.net.1.2 (w.dynamics out.ctrl)) hr.lib hr.sets hsm hc hq

/-! ### Non-vacuity: the ideal solver and a learner that proposes a correct network -/

/-- A world with the ideal solver and no trajectory search; `dyn` gives the closed-loop dynamics of a controller. -/
noncomputable def idealWorldK {K : Type} (N : Type) (dyn : K → List Term) : World Answer K N :=
  ⟨smtBackend, fun _ _ => idealSolver, fun _ _ _ => idealSolver, fun _ _ _ _ => 0, dyn, fun _ x => x,
    fun _ _ _ _ => .ok [], fun _ => .ok ()⟩

/-- A world with the ideal solver, no controller and no trajectory search. -/
noncomputable def idealWorld (N : Type) (f : List Term) : World Answer Unit N := idealWorldK N fun _ => f

theorem idealWorldK_sound {K : Type} (c : SynthCfg) (N : Type) (dyn : K → List Term) : SoundWorld c (idealWorldK N dyn) :=
  .smt _ rfl (fun _ => idealSolver_refutationSound)
    fun _ _ _ φ h => idealSolver_sound φ (by rw [show idealSolver φ = .unsat from h]; rfl)

theorem idealWorld_sound (c : SynthCfg) (N : Type) (f : List Term) : SoundWorld c (idealWorld N f) := idealWorldK_sound c N _

/-- A loop whose components succeed at once returns after the first pass. -/
theorem first_pass_when {N K P E : Type} (c : LoopCfg) (C : Components N K P E) (n₀ : N) (k₀ : K) (S : Dict String (List P)) (n : N) (k : K) (V Vdot : E) (cex traj)
    (hle : C.learn (initState C n₀ k₀ S) = .ok (n, k)) (htr : C.translate n k = .ok (V, Vdot)) (hve : C.verify 0 n V Vdot = .ok (true, cex))
    (hco : C.consolidate 0 n k cex = .ok traj) (hes : c.cert = .LYAPUNOV ∨ c.cert = .ROA → C.estimateBeta n = .ok ()) (hbs : c.cert = .RSWS → C.betaSearch 0 V Vdot = .ok true) :
    ∃ out, Solves c C n₀ k₀ S out ∧ out.found = true ∧ out.net = n ∧ out.ctrl = k := by
  let st := initState C n₀ k₀ S
  have hpc : processCertificate c C V Vdot (st.after n k V Vdot true cex traj) = .ok (true, st.after n k V Vdot true cex traj) := by
    unfold processCertificate
    have : (if c.cert = .LYAPUNOV ∨ c.cert = .ROA then C.estimateBeta (st.after n k V Vdot true cex traj).net else .ok ()) = .ok () := by
      split
      · rename_i h
        exact hes h
      · rfl
    rw [this]
    simp only
    split
    · rename_i h
      have : C.betaSearch (st.after n k V Vdot true cex traj).iters V Vdot = .ok true := hbs h
      rw [this]
    · rfl
  have hbody : loopBody c C st = .ok (true, (st.after n k V Vdot true cex traj).tick) := by
    have hve : C.verify st.iters n V Vdot = .ok (true, cex) := hve
    have hco : C.consolidate st.iters n k cex = .ok traj := hco
    have hle : C.learn st = .ok (n, k) := hle
    have hde : loopDecide c C V Vdot (st.after n k V Vdot true cex traj) = .ok (true, st.after n k V Vdot true cex traj) := by
      unfold loopDecide
      rw [if_pos (show (st.after n k V Vdot true cex traj).found = true from rfl)]
      exact hpc
    simp only [loopBody, bind, Except.bind, hle, htr, hve, hco, hde, pure, Except.pure]
  exact ⟨_, ⟨0, st, .refl _, hbody⟩, rfl, rfl, rfl⟩

theorem first_pass {N K P E : Type} (c : LoopCfg) (C : Components N K P E) (n₀ : N) (k₀ : K) (S : Dict String (List P)) (n : N) (k : K) (V Vdot : E) (cex traj)
    (hle : C.learn (initState C n₀ k₀ S) = .ok (n, k)) (htr : C.translate n k = .ok (V, Vdot)) (hve : C.verify 0 n V Vdot = .ok (true, cex))
    (hco : C.consolidate 0 n k cex = .ok traj) (hes : C.estimateBeta n = .ok ()) (hbs : c.cert = .RSWS → C.betaSearch 0 V Vdot = .ok true) :
    ∃ out, Solves c C n₀ k₀ S out ∧ out.found = true ∧ out.net = n ∧ out.ctrl = k :=
  first_pass_when c C n₀ k₀ S n k V Vdot cex traj hle htr hve hco (fun _ => hes) hbs

theorem ideal_verifies (n : ℕ) (groups) (hd : DistinctLabels groups) (ha : ∀ g ∈ groups, ∀ q ∈ g, ∀ ρ : Env, ¬ q.2.holds ρ) :
    ∃ cex, verify smtBackend n (fun _ _ _ => 0) (fun _ => idealSolver) groups = .ok ⟨true, cex⟩ :=
  (C01_found_iff_every_query_unsat _ _ _ groups hd).2 fun k hk => by
    have hm : (queries groups)[k] ∈ queries groups := List.getElem_mem hk
    obtain ⟨g, hg, hm⟩ := List.mem_flatten.1 hm
    exact idealSolver_unsat (ha g hg _ hm)

/-- Synthesis does succeed (in the first pass) when the learner proposes a network (and controller) whose violation queries are all
unsatisfiable and the solver decides them; for RSWS the stay queries must hold for some level of the search as well. -/
theorem synthesis_succeeds {K : Type} (c : SynthCfg) (net : Net) (β : ℚ) (dyn : K → List Term) (k : K) (groups)
    (hq : queriesCT (c.setup net β (dyn k)) = .ok groups) (hd : DistinctLabels groups)
    (ha : ∀ g ∈ groups, ∀ q ∈ g, ∀ ρ : Env, ¬ q.2.holds ρ)
    (hb : c.cert = .RSWS → ∃ j b, BetaRun (stayCheckCT smtBackend (fun _ _ => idealSolver) (c.setup net β (dyn k)))
      betaInit j (some b)) :
    ∃ out, Solves c.loop (singleComponents (idealWorldK _ dyn) c false (fun _ => .ok ((net, β), k))) (net, β) k [] out ∧
      out.found = true ∧ out.net = (net, β) ∧ out.ctrl = k := by
  obtain ⟨cex, hv⟩ := ideal_verifies c.nVars groups hd ha
  unfold queriesCT at hq
  obtain ⟨d, hdd, hq⟩ := except_bind_ok hq
  obtain ⟨⟨V, Vdot⟩, ht, hq⟩ := except_bind_ok hq
  simp only [SynthCfg.setup] at hdd ht hq
  let C := singleComponents (idealWorldK _ dyn) c false (fun _ => .ok ((net, β), k))
  refine first_pass c.loop C _ k [] (net, β) k V Vdot cex [] rfl ht ?_ rfl rfl ?_
  · simp only [C, singleComponents, idealWorldK, bind, Except.bind, hdd, hq, hv, pure, Except.pure]
  · intro h
    obtain ⟨j, b, hrun⟩ := hb h
    have heq : stayCheckFor smtBackend (fun _ _ => idealSolver) c V Vdot =
        stayCheckCT smtBackend (fun _ _ => idealSolver) (c.setup net β (dyn k)) := by
      funext b
      simp only [stayCheckFor, stayCheckCT, SynthCfg.setup, bind, Except.bind, ht]
    rw [← heq] at hrun
    change betaSearchFn (stayCheckFor smtBackend (fun _ _ => idealSolver) c V Vdot) = _
    unfold betaSearchFn
    rw [dif_pos ⟨j, b, hrun⟩]

/-- The same for the certificates with two networks, for any list of queries on which the verifier reports success. -/
theorem synthesis_succeeds_double {K : Type} (c : SynthCfg) (hc : c.cert = .STABLESAFE ∨ c.cert = .RAR) (net barr : Net) (β : ℚ) (dyn : K → List Term) (k : K)
    (groups cex) (hq : queriesDouble (c.setup net β (dyn k)) barr = .ok groups)
    (hv : verify smtBackend c.nVars (fun _ _ _ => 0) (fun _ => idealSolver) groups = .ok ⟨true, cex⟩) :
    ∃ out, Solves c.loop (doubleComponents (idealWorldK _ dyn) c (fun _ => .ok (((net, β), barr), k))) ((net, β), barr) k [] out ∧
      out.found = true ∧ out.net = ((net, β), barr) ∧ out.ctrl = k := by
  unfold queriesDouble at hq
  obtain ⟨d, hdd, hq⟩ := except_bind_ok hq
  obtain ⟨⟨⟨V, Vdot⟩, ⟨B, Bdot⟩⟩, ht, hq⟩ := except_bind_ok hq
  simp only [SynthCfg.setup] at hdd ht hq
  let C := doubleComponents (idealWorldK _ dyn) c (fun _ => .ok (((net, β), barr), k))
  refine first_pass c.loop C _ k [] ((net, β), barr) k (V, B) (Vdot, Bdot) cex [] rfl ?_ ?_ rfl rfl ?_
  · simp only [C, doubleComponents, idealWorldK, bind, Except.bind, ht, pure, Except.pure]
  · rcases hc with hc | hc <;> rw [hc] at hq hdd <;>
      simp only [C, doubleComponents, idealWorldK, bind, Except.bind, hc, hdd, hq, hv, pure, Except.pure]
  · intro h
    have h : c.cert = .RSWS := h
    rcases hc with hc | hc <;> rw [hc] at h <;> cases h

theorem C46_synthesis_succeeds (c : SynthCfg) (net : Net) (β : ℚ) (f : List Term) (groups)
    (hq : queriesCT (c.setup net β f) = .ok groups) (hd : DistinctLabels groups)
    (ha : ∀ g ∈ groups, ∀ q ∈ g, ∀ ρ : Env, ¬ q.2.holds ρ)
    (hb : c.cert = .RSWS → ∃ k b, BetaRun (stayCheckCT smtBackend (fun _ _ => idealSolver) (c.setup net β f))
      betaInit k (some b)) :
    ∃ out, Solves c.loop (singleComponents (idealWorld _ f) c false (fun _ => .ok ((net, β), ()))) (net, β) () [] out ∧
      out.found = true ∧ out.net = (net, β) := by
  obtain ⟨out, h1, h2, h3, -⟩ := synthesis_succeeds c net β (fun _ : Unit => f) () groups hq hd ha hb
  exact ⟨out, h1, h2, h3⟩

/-- Concrete synthesis runs that succeed: barrier and reach-and-stay. -/
example : ∃ out, Solves (SynthCfg.loop ⟨.z3, 1, .BARRIER, (exBarrier .BARRIER).domains, false, 3, false, 10⟩)
    (singleComponents (idealWorld _ (exBarrier .BARRIER).f)
      ⟨.z3, 1, .BARRIER, (exBarrier .BARRIER).domains, false, 3, false, 10⟩ false
      (fun _ => .ok (((exBarrier .BARRIER).net, 0), ()))) ((exBarrier .BARRIER).net, 0) () [] out ∧
    out.found = true ∧ out.net = ((exBarrier .BARRIER).net, 0) := by
  obtain ⟨g, hq, ha⟩ := exBarrier_accepted.1
  have hd : DistinctLabels g := by
    obtain ⟨d, V, Vdot, -, -, h⟩ := queriesCT_inv hq
    exact barrier_distinct h
  exact C46_synthesis_succeeds _ _ _ _ g hq hd (accepted_refutes hd ha) (by intro h; cases h)

example : ∃ out, Solves (SynthCfg.loop ⟨.z3, 1, .RSWS, (exReach .RSWS).domains, false, 3, false, 10⟩)
    (singleComponents (idealWorld _ (exReach .RSWS).f)
      ⟨.z3, 1, .RSWS, (exReach .RSWS).domains, false, 3, false, 10⟩ false
      (fun _ => .ok (((exReach .RSWS).net, 0), ()))) ((exReach .RSWS).net, 0) () [] out ∧
    out.found = true ∧ out.net = ((exReach .RSWS).net, 0) := by
  obtain ⟨g, hq, ha⟩ := exReach_accepted.2
  have hd : DistinctLabels g := by
    obtain ⟨d, V, Vdot, -, -, h⟩ := queriesCT_inv hq
    exact rws_distinct h
  exact C46_synthesis_succeeds _ _ _ _ g hq hd (accepted_refutes hd ha) (fun _ => ⟨_, _, exReach_beta⟩)

/-! ### a run with dReal -/

/-- A truthful dReal: `None` if there is no solution, otherwise an (empty) box. -/
noncomputable def idealCheck (φ : Formula) : Option Box :=
  open Classical in if ∃ ρ : Env, φ.holds ρ then some [] else none

theorem idealCheck_none {φ : Formula} : idealCheck φ = none ↔ ∀ ρ : Env, ¬ φ.holds ρ := by
  unfold idealCheck
  split <;> simp_all

theorem idealCheck_sound : DRealSound (fun _ => idealCheck) := fun _ φ h => idealCheck_none.1 h

theorem idealCheck_boxes (n : ℕ) : BoxesInRange n (fun _ => idealCheck) := by
  intro _ φ bx _ _ h
  simp only [idealCheck] at h
  split at h
  · cases h; simp
  · cases h

/-- A world with the ideal dReal and no trajectory search. -/
noncomputable def drealWorld {K : Type} (n : ℕ) (N : Type) (dyn : K → List Term) : World (Option Box) K N :=
  ⟨drealBackend, fun _ => drealOracle n fun _ _ => idealCheck, fun _ _ _ => drealSolve n fun _ => idealCheck, fun _ _ _ _ => 0, dyn, fun _ x => x,
    fun _ _ _ _ => .ok [], fun _ => .ok ()⟩

theorem drealWorld_sound {K : Type} (c : SynthCfg) (N : Type) (dyn : K → List Term) (hs : SmallSets c.nVars c.domains)
    (hf : ∀ k, AllBelow c.nVars (dyn k)) (hc : c.cert ≠ .ROA) : SoundWorld c (drealWorld c.nVars N dyn) :=
  .dreal _ (fun _ _ _ => idealCheck) (fun _ _ _ _ => idealCheck) rfl (fun _ => rfl) (fun _ _ _ => rfl) (fun _ _ => idealCheck_sound)
    (fun _ _ => idealCheck_boxes _) (fun _ _ _ => idealCheck_sound) (fun _ _ _ => idealCheck_boxes _) hs hf hc

theorem drealSolve_ideal {n : ℕ} {φ : Formula} (h : ∀ ρ : Env, ¬ φ.holds ρ) : drealSolve n (fun _ => idealCheck) φ = none := by
  simp [drealSolve, idealCheck_none.2 h, drealIsSat]

theorem dreal_verifies (n : ℕ) (groups) (hd : DistinctLabels groups) (ha : ∀ g ∈ groups, ∀ q ∈ g, ∀ ρ : Env, ¬ q.2.holds ρ) :
    ∃ cex, verify drealBackend n (fun _ _ _ => 0) (drealOracle n fun _ _ => idealCheck) groups = .ok ⟨true, cex⟩ := by
  obtain ⟨gs, gs', h1, h2, h3⟩ := solveGroups_prefix drealBackend (drealOracle n fun _ _ => idealCheck) 0 [] groups
  have hnd : Dict.keys (queries gs) |>.Nodup := by
    have : (queries gs).map Prod.fst <+: (queries groups).map Prod.fst := by
      rw [h1]; simp [queries]
    exact hd.sublist this.sublist
  have hres := solveGroup_nodup (drealOracle n fun _ _ => idealCheck) 0 [] gs.flatten hnd (by simp [Dict.keys])
  have hall : (solveGroups drealBackend (drealOracle n fun _ _ => idealCheck) 0 [] groups).2.values.all drealBackend.isUnsat = true := by
    rw [h2, hres]
    simp only [List.nil_append, Dict.values, List.all_eq_true, List.mem_map]
    rintro r ⟨p, hp, rfl⟩
    rw [List.mem_mapIdx] at hp
    obtain ⟨i, hi, rfl⟩ := hp
    obtain ⟨g, hg, hm⟩ := List.mem_flatten.1 (List.getElem_mem hi)
    have : drealOracle n (fun _ _ => idealCheck) (0 + i) gs.flatten[i].2 = none :=
      drealSolve_ideal (ha g (by rw [h1]; simp [hg]) _ hm)
    rw [this]; rfl
  unfold verify
  simp only [hall, if_true, bind, Except.bind, pure, Except.pure]
  exact ⟨_, rfl⟩

/-- A concrete synthesis run with dReal that succeeds: `x' = -x` with the barrier of the z3 example. -/
theorem exDreal_run : ∃ out, Solves (SynthCfg.loop ⟨.dreal, 1, .BARRIER, (exBarrier .BARRIER).domains, false, 3, false, 10⟩)
    (singleComponents (drealWorld 1 _ fun _ : Unit => (exBarrier .BARRIER).f)
      ⟨.dreal, 1, .BARRIER, (exBarrier .BARRIER).domains, false, 3, false, 10⟩ false
      (fun _ => .ok (((exBarrier .BARRIER).net, 0), ()))) ((exBarrier .BARRIER).net, 0) () [] out ∧
    out.found = true ∧ out.net = ((exBarrier .BARRIER).net, 0) := by
  obtain ⟨g, hq, ha⟩ := exBarrier_accepted.1
  have hd : DistinctLabels g := by
    obtain ⟨d, V, Vdot, -, -, h⟩ := queriesCT_inv hq
    exact barrier_distinct h
  obtain ⟨cex, hv⟩ := dreal_verifies 1 g hd (accepted_refutes hd ha)
  have hq' : queriesCT ⟨.dreal, 1, .BARRIER, (exBarrier .BARRIER).domains, false, 3, false, (exBarrier .BARRIER).net, (exBarrier .BARRIER).f, 0⟩ = .ok g := hq
  unfold queriesCT at hq'
  obtain ⟨d, hdd, hq'⟩ := except_bind_ok hq'
  obtain ⟨⟨V, Vdot⟩, ht, hq'⟩ := except_bind_ok hq'
  obtain ⟨out, h1, h2, h3, -⟩ := first_pass (SynthCfg.loop ⟨.dreal, 1, .BARRIER, (exBarrier .BARRIER).domains, false, 3, false, 10⟩)
    (singleComponents (drealWorld 1 _ fun _ : Unit => (exBarrier .BARRIER).f)
      ⟨.dreal, 1, .BARRIER, (exBarrier .BARRIER).domains, false, 3, false, 10⟩ false
      (fun _ => .ok (((exBarrier .BARRIER).net, 0), ()))) ((exBarrier .BARRIER).net, 0) () [] ((exBarrier .BARRIER).net, 0) () V Vdot cex [] rfl ht
    (by
      change (initialiseDomains .dreal 1 .BARRIER _ >>= _) = _
      simp only [exBarrier] at hdd hq' hv
      simp only [exBarrier, singleComponents, drealWorld, bind, Except.bind, hdd, hq', hv, pure, Except.pure]) rfl rfl (by intro h; cases h)
  exact ⟨out, h1, h2, h3⟩

/-- Its sets are inside the second-chance bound, so the run meets the hypotheses of the C46 theorems. -/
theorem exDreal_small (ct : CertType) : SmallSets 1 (exBarrier ct).domains := by
  intro e he
  simp only [exBarrier, List.mem_cons, List.not_mem_nil, or_false] at he
  rcases he with rfl | rfl | rfl <;> refine ⟨fun p hp i => ?_, fun _ => trivial⟩ <;> rw [seg_mem] at hp <;> obtain ⟨h1, h2⟩ := hp <;>
    (have : i = 0 := Subsingleton.elim _ _) <;> subst this <;> norm_num at h1 h2 <;> constructor <;> linarith

example : SoundWorld ⟨.dreal, 1, .BARRIER, (exBarrier .BARRIER).domains, false, 3, false, 10⟩
    (drealWorld 1 (Net × ℚ) fun _ : Unit => (exBarrier .BARRIER).f) :=
  drealWorld_sound ⟨.dreal, 1, .BARRIER, (exBarrier .BARRIER).domains, false, 3, false, 10⟩ _ _ (exDreal_small .BARRIER)
    (fun _ => by simp [AllBelow, exBarrier, termBelow]) (by decide)

end Fossil

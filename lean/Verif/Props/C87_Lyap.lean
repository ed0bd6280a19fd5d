/-
C87, continued: `lyap-test.yaml`, `learn.yaml`, `verify.yaml`.
-/
import Verif.Props.C87_Shipped
import Verif.Props.C84_KinkFiles
import Verif.Props.C63_Backends
import Verif.Props.C60_VerifyConfig

namespace Fossil
open Spec Set

deriving instance DecidableEq for AExpr, Term, SynthCfg, Ready

namespace Spec

/-- The system of `lyap-test.yaml` and `learn.yaml`: the damped oscillator `x0' = x1`, `x1' = - x1 - x0`. -/
def damped (p : Pt 2) : Pt 2 := ![p 1, - p 1 - p 0]

end Spec

theorem damped_text (funcs : FName → Bool) : SystemText funcs 2 ["x1", "-x1 - x0"] damped := by
  refine ⟨rfl, fun i hi => ?_⟩
  have : i = 0 ∨ i = 1 := by omega
  rcases this with rfl | rfl
  · refine ⟨[.x 1], .x 1, .sum (.term (.factor (.signed (.x 1)))), no_dstar (by simp), ⟨[['x', '1']], ?_, ?_⟩, rfl, by simp [AExpr.xs], fun p => ?_⟩
    · exact .cons (TokText.x (d := ['1']) ⟨digits_of (by decide), Or.inl rfl⟩) .nil
    · exact layout_of [[]] [] rfl (by simp) (by simp) (by decide +kernel)
    · simp [AExpr.eval, Pt.env, damped]
  · refine ⟨[.minus, .x 1, .minus, .x 0], .sub (.neg (.x 1)) (.x 0),
      .sub (a := [.minus, .x 1]) (b := [.x 0]) (.sum (.term (.factor (.neg (.signed (.x 1)))))) (.term (.factor (.signed (.x 0)))), no_dstar (by simp),
      ⟨[['-'], ['x', '1'], ['-'], ['x', '0']], ?_, ?_⟩, by simp [AExpr.us], by simp [AExpr.xs], fun p => ?_⟩
    · exact .cons .minus (.cons (TokText.x (d := ['1']) ⟨digits_of (by decide), Or.inl rfl⟩) (.cons .minus
        (.cons (TokText.x (d := ['0']) ⟨digits_of (by decide), Or.inl rfl⟩) .nil)))
    · exact layout_of [[], [], [' '], [' ']] [] rfl (by simp) (by simp) (by decide +kernel)
    · simp [AExpr.eval, Pt.env, damped]

/-- lyap-test.yaml (and, with sympy's functions, learn.yaml), as read by cli.py:203-241. -/
def lyapConfig (lib : Lib) : ConfigText :=
  ⟨lib, 2, .LYAPUNOV, ["x1", "-x1 - x0"], [("XD", "Sphere([0,0], 1.0)")], some (.dict [("XD", 1000)]), ⟨1/10, true, false⟩, false, 3, false, 10⟩

/-- The networks both files ask for. -/
def lyapNets : NetOpts := ⟨[5], [.SQUARE], [10], [.SQUARE]⟩

/-- **C87.** The two files are read as these configurations, which differ in the library (no verifier: sympy's functions). -/
theorem C87_lyap_read : readFile lyapFile = .ok (.synth (lyapConfig .z3) lyapNets) ∧ readFile learnFile = .ok (.synth (lyapConfig .sympy) lyapNets) := by
  refine ⟨?_, ?_⟩ <;> decide +kernel

def dampedTerms : List Term := [.var 1, .sub (.neg (.var 1)) (.var 0)]

def lyapCfg (lib : Lib) : SynthCfg := ⟨lib, 2, .LYAPUNOV, [(XD, .sphere [0, 0] 1 none)], false, 3, false, 10⟩

/-- **C87.** Both files are accepted. -/
theorem C87_lyap_accepted : readConfig (lyapConfig .z3) = .ok ⟨lyapCfg .z3, dampedTerms, [(XD, .interior (.sphere [0, 0] 1 none) 1000)]⟩ ∧
    readConfig (lyapConfig .sympy) = .ok ⟨lyapCfg .sympy, dampedTerms, [(XD, .interior (.sphere [0, 0] 1 none) 1000)]⟩ := by
  refine ⟨?_, ?_⟩ <;> decide +kernel

theorem lyap_described (lib : Lib) : DomainsDescribed (lyapConfig lib) := by
  refine ⟨by simp [lyapConfig], fun k s hm => ?_⟩
  simp only [lyapConfig, List.mem_singleton, Prod.mk.injEq] at hm
  rw [hm.2]
  exact ⟨_, t10.1⟩

theorem disc_nhds (r : ℚ) (h : 0 < r) : disc 0 0 r ∈ nhds (0 : Pt 2) := by
  have : disc 0 0 r = (fun p : Pt 2 => p 0 ^ 2 + p 1 ^ 2) ⁻¹' Iic ((r : ℝ) ^ 2) := by ext p; simp [disc]
  rw [this]
  have hr : (0 : ℝ) < r := by exact_mod_cast h
  exact (by fun_prop : Continuous fun p : Pt 2 => p 0 ^ 2 + p 1 ^ 2).continuousAt.preimage_mem_nhds (Iic_mem_nhds (by simpa using pow_pos hr 2))

theorem damped_continuous : Continuous damped := by
  refine continuous_pi fun i => ?_
  fin_cases i <;> simp [damped] <;> fun_prop

/-- **C87, lyap-test.yaml.** Every run returns, after at most eleven passes, unless the certificate's derivative is exactly 0 at a training sample, which makes training raise.
If it reports success, the origin is asymptotically stable for the damped oscillator. -/
theorem C87_lyapunov_file {R : Type} {r : Ready} {w : World R Unit (Net × ℚ)} {T : Trainer Unit} (hr : readConfig (lyapConfig .z3) = .ok r) (hw : SoundWorld r.cfg w)
    (hdyn : ∀ k, w.dynamics k = r.f) (hfair : FairWorld w 2) (hT : ∀ i t θ, SameShape θ.1 (T.step i t θ).1) (fl : ℝ → ℚ) (gs : ℕ → Rng) (g g' : Rng)
    (wt : ℕ → ℕ → ℕ → ℚ) (bs : ℕ → ℕ → ℚ) :
    ∃ net S, newNet 2 [5] [.SQUARE] false false wt bs = .ok net ∧ initData fl gs r.data = .ok S ∧
      ((∃ out, Solves r.cfg.loop (singleComponents (w.withEstimate g g' r.cfg) r.cfg false (trainedLearn T r.cfg false w.dynNum)) (net, 0) () S out ∧
        (out.iters : ℤ) ≤ 11 ∧ (out.found = true → AsympStable damped)) ∨
      (∃ k st, Steps r.cfg.loop (singleComponents (w.withEstimate g g' r.cfg) r.cfg false (trainedLearn T r.cfg false w.dynNum))
        (initState (singleComponents (w.withEstimate g g' r.cfg) r.cfg false (trainedLearn T r.cfg false w.dynNum)) (net, 0) () S) k st ∧
        MeetsZeroDerivative T r.cfg false w.dynNum st)) :=
  C76_file_stability ⟨Or.inl rfl, lyap_described _, damped_text _, hr, by decide, hw, hdyn, hfair, (fun h => by cases h), hT, square_good _ _ _⟩ rfl rfl (by simp [Vanishing])
    fl gs g g' wt bs (C76_draws_some _ _ (lyap_described _) hr (by simp [lyapConfig]) (by show ∀ e ∈ [("XD", 1000)], 0 < e.2; decide) fl gs)
    _ ⟨_, by simp [lyapConfig], t10.1⟩ (disc_nhds _ (by norm_num)) damped_continuous

/-- A network of the size the file asks for: `(x0/2 + x1)² + (5/4) x0²`. -/
def lyapNet : Net := ⟨2, [⟨[[1/2, 1], [1, 0], [0, 0], [0, 0], [0, 0]], none⟩, ⟨[[1, 5/4, 0, 0, 0]], none⟩], [.square]⟩

theorem lyapNet_accepted : ∃ groups, queriesCT ((lyapCfg .z3).setup lyapNet 0 dampedTerms) = .ok groups ∧ DistinctLabels groups ∧
    ∀ g ∈ groups, ∀ q ∈ g, ∀ ρ : Env, ¬ q.2.holds ρ := by
  refine ⟨_, rfl, by simp [DistinctLabels, queries], ?_⟩
  have h0 : roundBy 3 0 = 0 := by decide +kernel
  have h1 : roundBy 3 1 = 1 := by decide +kernel
  have h2 : roundBy 3 2⁻¹ = 1/2 := by decide +kernel
  have h5 : roundBy 3 (5/4) = 5/4 := by decide +kernel
  intro g hg q hq ρ h
  simp only [List.mem_singleton] at hg
  subst hg
  simp only [List.mem_singleton] at hq
  subst hq
  simp [Formula.holds, Formula.conj, Term.eval, Term.sum, leZero, geZero, factors, vars, h0, h1, h2, h5, lyapNet, lyapCfg, SynthCfg.setup, dampedTerms, eyeJac, postVal,
    postGrad, gradTerms, hiddenBias, diagJac, List.range_succ] at h
  obtain ⟨-, h, h3⟩ := h
  have hs : ρ 0 ^ 2 + ρ 1 ^ 2 ≤ 0 := by
    rcases h with h | h
    · nlinarith [sq_nonneg (ρ 0), sq_nonneg (ρ 0 + ρ 1)]
    · nlinarith
  have e0 : ρ 0 = 0 := by nlinarith [sq_nonneg (ρ 0), sq_nonneg (ρ 1)]
  exact h3 e0 (by nlinarith [sq_nonneg (ρ 0), sq_nonneg (ρ 1)])

/-- The file has runs that report success. -/
example : ∃ (r : Ready) (out : _), readConfig (lyapConfig .z3) = .ok r ∧
    Solves r.cfg.loop (singleComponents (idealWorld _ r.f) r.cfg false (fun _ => .ok ((lyapNet, 0), ()))) (lyapNet, 0) () [] out ∧ out.found = true := by
  obtain ⟨g, hq, hd, ha⟩ := lyapNet_accepted
  obtain ⟨out, h1, h2, h3⟩ := C46_synthesis_succeeds (lyapCfg .z3) _ _ _ g hq hd ha (by intro h; cases h)
  exact ⟨_, out, C87_lyap_accepted.1, h1, h2⟩


/-! ### `learn.yaml` -/

/-- The same network with the sign of its output changed: its value is negative everywhere but at the origin. -/
def lyapNetNeg : Net := ⟨2, [⟨[[1/2, 1], [1, 0], [0, 0], [0, 0], [0, 0]], none⟩, ⟨[[-1, -5/4, 0, 0, 0]], none⟩], [.square]⟩

/-- **C87, learn.yaml.** The file has no verifier (`VERIFIER: NONE`). Every run that returns reports success after the first pass, with what training returned ... -/
theorem C87_learn_file {R : Type} {r : Ready} {w : World R Unit (Net × ℚ)} (learn : LoopState (Net × ℚ) Unit (List ℚ) Term → Except Err ((Net × ℚ) × Unit))
    (net : Net × ℚ) (S : Dict String (List (List ℚ))) (out : LoopState (Net × ℚ) Unit (List ℚ) Term)
    (h : Solves r.cfg.loop (withVerifier .NONE (singleComponents w r.cfg false learn)) net () S out) :
    out.found = true ∧ out.iters = 1 ∧ learn (initState (singleComponents w r.cfg false learn) net () S) = .ok (out.net, out.ctrl) :=
  C63_no_verifier_reports_success r.cfg.loop (singleComponents w r.cfg false learn) net () S out h

/-- **C87, learn.yaml, negation.** ... whether or not it is a Lyapunov function: if training returns a network that is negative everywhere but at the origin, that is what is
reported as found. -/
theorem C87_learn_file_unsound : ∃ r, readConfig (lyapConfig .sympy) = .ok r ∧ (∀ p : Pt 2, p ≠ 0 → certValue 3 false lyapNetNeg p < 0) ∧
    ∀ (R : Type) (w : World R Unit (Net × ℚ)) (S : Dict String (List (List ℚ))), (∀ k, w.dynamics k = r.f) → (∀ n, w.estimateBeta n = .ok ()) →
      ∃ out, Solves r.cfg.loop (withVerifier .NONE (singleComponents w r.cfg false fun _ => .ok ((lyapNetNeg, 0), ()))) (lyapNetNeg, 0) () S out ∧
        out.found = true ∧ out.net = (lyapNetNeg, 0) := by
  refine ⟨_, C87_lyap_accepted.2, ?_, ?_⟩
  · intro p hp
    have h1 : roundBy 3 1 = 1 := by decide +kernel
    have hm : roundBy 3 (-1) = -1 := by decide +kernel
    have h0 : roundBy 3 0 = 0 := by decide +kernel
    have h2 : roundBy 3 2⁻¹ = 1/2 := by decide +kernel
    have h5 : roundBy 3 (-5/4) = -5/4 := by decide +kernel
    have hv : certValue 3 false lyapNetNeg p = - (((1/2 : ℝ) * p 0 + p 1) ^ 2 + 5/4 * p 0 ^ 2) := by
      simp [certValue, lyapNetNeg, roundedNet, roundedHidden, roundedLast, h0, h1, hm, h2, h5, Net.forward, hiddenForward, Layer.apply, dotR, coordList, Act.forward, at?,
        Bind.bind, Except.bind, pure, Except.pure]
      ring
    rw [hv]
    have : p 0 ≠ 0 ∨ p 1 ≠ 0 := by
      by_contra h
      rw [not_or, not_not, not_not] at h
      exact hp (funext fun i => by fin_cases i <;> simp [h.1, h.2])
    rcases this with h | h
    · have := pow_pos (abs_pos.2 h) 2
      rw [sq_abs] at this
      nlinarith [sq_nonneg ((1/2 : ℝ) * p 0 + p 1)]
    · have := pow_pos (abs_pos.2 h) 2
      rw [sq_abs] at this
      nlinarith [sq_nonneg (p 0 + p 1), sq_nonneg (p 0)]
  · intro R w S hw he
    have ht : ∃ V Vdot, (singleComponents w (lyapCfg .sympy) false fun _ => .ok ((lyapNetNeg, 0), ())).translate (lyapNetNeg, 0) () = .ok (V, Vdot) := by
      simp only [singleComponents, hw]
      exact ⟨_, _, rfl⟩
    obtain ⟨V, Vdot, ht⟩ := ht
    obtain ⟨out, h1, h2, h3, -⟩ := C63_no_verifier_returns (lyapCfg .sympy).loop (singleComponents w (lyapCfg .sympy) false fun _ => .ok ((lyapNetNeg, 0), ())) (lyapNetNeg, 0) () S
      (by decide) (lyapNetNeg, 0) () V Vdot rfl ht (he _)
    exact ⟨out, h1, h2, h3⟩

/-! ### `verify.yaml` -/

namespace Spec

/-- The points of the plane whose distance from the origin is between 0.1 and 1. -/
def ring : Set (Pt 2) := {p | (1/10 : ℝ) ^ 2 ≤ p 0 ^ 2 + p 1 ^ 2 ∧ p 0 ^ 2 + p 1 ^ 2 ≤ 1}

end Spec

/-- verify.yaml, as read. -/
def verifyConfig : ConfigText :=
  ⟨.dreal, 2, .LYAPUNOV, ["-x0", "-x1"], [("XD", "Torus([0,0], 1.0, 0.1)")], some (.dict [("XD", 1000)]), ⟨1/10, true, false⟩, false, 3, false, 10⟩

def verifyStart : VerifyCfg := ⟨.dreal, 2, false, .LYAPUNOV, [(XD, .torus [0, 0] 1 (1/10) none)], false, .add (.pow (.var 0) 2) (.pow (.var 1) 2), [.neg (.var 0), .neg (.var 1)]⟩

deriving instance DecidableEq for VerifyCfg

/-- **C87.** The file is read as a candidate to verify, and accepted. -/
theorem C87_verify_accepted : readFile verifyFile = .ok (.verify verifyConfig ["x0**2 + x1**2"]) ∧ readVerify verifyConfig ["x0**2 + x1**2"] = .ok verifyStart := by
  refine ⟨?_, ?_⟩ <;> decide +kernel

theorem ring_text : SetText 2 "Torus([0,0], 1.0, 0.1)" ring := by
  have h := SetText.torus (n := 2) (c := [0, 0]) (.cons n0 (.cons n0 .nil)) n10 n01 rfl (by norm_num) (by norm_num)
    (layout_of (s := "Torus([0,0], 1.0, 0.1)".toList) [[], [], [], [], [], [], [], [], [' '], [], [' '], []] [] (by simp [torusText, listText, commaSep]) (by simp) (by simp)
      (by decide +kernel))
  have e : {p : Pt 2 | (((1/10 : ℚ) : ℝ)) ^ 2 ≤ distSq [0, 0] p ∧ distSq [0, 0] p ≤ ((1 : ℚ) : ℝ) ^ 2} = ring := by
    ext p; simp [ring, distSq, entry, Fin.sum_univ_two]
  rwa [e] at h

theorem setText_unique {n : ℕ} {s : String} {A B : Set (Pt n)} (h : SetText n s A) (h' : SetText n s B) : A = B := by
  obtain ⟨P, h1, -, -, h2⟩ := setText_parse h
  obtain ⟨Q, h3, -, -, h4⟩ := setText_parse h'
  rw [h1] at h3; cases h3
  rw [← h2, ← h4]

theorem verify_described : DomainsDescribed verifyConfig := by
  refine ⟨by simp [verifyConfig], fun k s hm => ?_⟩
  simp only [verifyConfig, List.mem_singleton, Prod.mk.injEq] at hm
  rw [hm.2]
  exact ⟨_, ring_text⟩

theorem minus_id_text : SystemText drealFuncs 2 ["-x0", "-x1"] (fun p => -p) := by
  refine ⟨rfl, fun i hi => ?_⟩
  have : i = 0 ∨ i = 1 := by omega
  rcases this with rfl | rfl
  · refine ⟨[.minus, .x 0], .neg (.x 0), .sum (.term (.factor (.neg (.signed (.x 0))))), no_dstar (by simp), ⟨[['-'], ['x', '0']], ?_, ?_⟩, rfl, by simp [AExpr.xs], fun p => ?_⟩
    · exact .cons .minus (.cons (TokText.x (d := ['0']) ⟨digits_of (by decide), Or.inl rfl⟩) .nil)
    · exact layout_of [[], []] [] rfl (by simp) (by simp) (by decide +kernel)
    · simp [AExpr.eval, Pt.env]
  · refine ⟨[.minus, .x 1], .neg (.x 1), .sum (.term (.factor (.neg (.signed (.x 1))))), no_dstar (by simp), ⟨[['-'], ['x', '1']], ?_, ?_⟩, rfl, by simp [AExpr.xs], fun p => ?_⟩
    · exact .cons .minus (.cons (TokText.x (d := ['1']) ⟨digits_of (by decide), Or.inl rfl⟩) .nil)
    · exact layout_of [[], []] [] rfl (by simp) (by simp) (by decide +kernel)
    · simp [AExpr.eval, Pt.env]

theorem squares_candidate : CandidateText 2 ["x0**2 + x1**2"] (fun p => p 0 ^ 2 + p 1 ^ 2) univ := by
  refine ⟨_, [.x 0, .dstar, .num 2, .plus, .x 1, .dstar, .num 2], .add (.pow (.x 0) (.num 2)) (.pow (.x 1) (.num 2)), rfl,
    .add (a := [.x 0, .dstar, .num 2]) (b := [.x 1, .dstar, .num 2]) (.sum (.term (.power (a := [.x 0]) (.x 0) (.factor (.signed (.num 2))))))
      (.term (.power (a := [.x 1]) (.x 1) (.factor (.signed (.num 2))))), ?_,
    ⟨[['x', '0'], ['*', '*'], ['2'], ['+'], ['x', '1'], ['*', '*'], ['2']], ?_, ?_⟩, by simp [AExpr.xs], fun p => ⟨?_, fun _ => ?_⟩⟩
  · rintro ⟨p, a, e, r, h, -⟩
    have : Tok.minus ∈ [Tok.x 0, .dstar, .num 2, .plus, .x 1, .dstar, .num 2] := by rw [h]; simp
    simp at this
  · exact .cons (TokText.x (d := ['0']) ⟨digits_of (by decide), Or.inl rfl⟩) (.cons .dstar (.cons (.num (numeral_int (by decide) (by decide +kernel)))
      (.cons .plus (.cons (TokText.x (d := ['1']) ⟨digits_of (by decide), Or.inl rfl⟩) (.cons .dstar (.cons (.num (numeral_int (by decide) (by decide +kernel))) .nil))))))
  · exact layout_of [[], [], [], [' '], [' '], [], []] [] rfl (by simp) (by simp) (by decide +kernel)
  · simp [AExpr.eval, Pt.env]
  · exact ⟨⟨trivial, trivial, Or.inl ⟨2, by norm_num [AExpr.eval]⟩⟩, ⟨trivial, trivial, Or.inl ⟨2, by norm_num [AExpr.eval]⟩⟩⟩

theorem verify_queries : ∃ g, candidateQueries verifyStart = .ok g ∧ DistinctLabels g ∧ Accepted 2 g := by
  refine ⟨_, rfl, by simp [DistinctLabels, queries], accepted_of_refuted (by simp [DistinctLabels, queries]) ?_⟩
  intro g hg q hq ρ h
  simp only [List.mem_singleton] at hg
  subst hg
  simp only [List.mem_singleton] at hq
  subst hq
  simp [Formula.holds, Formula.conj, Term.eval, Term.sum, leZero, geZero, vars, verifyStart, List.range_succ] at h
  obtain ⟨-, h, h3⟩ := h
  have hs : ρ 0 ^ 2 + ρ 1 ^ 2 ≤ 0 := by
    rcases h with h | h
    · exact h
    · nlinarith
  have e0 : ρ 0 = 0 := by nlinarith [sq_nonneg (ρ 0), sq_nonneg (ρ 1)]
  exact h3 e0 (by nlinarith [sq_nonneg (ρ 0), sq_nonneg (ρ 1)])

theorem ring_small (p : Pt 2) (hp : p ∈ ring) (i : Fin 2) : -1000 < p i ∧ p i < 1000 := by
  have h := hp.2
  have hi : p i ^ 2 ≤ 1 := by
    fin_cases i
    · show p 0 ^ 2 ≤ 1
      nlinarith [sq_nonneg (p 1)]
    · show p 1 ^ 2 ≤ 1
      nlinarith [sq_nonneg (p 0)]
  constructor <;> nlinarith

theorem verify_run (noise : String → ℕ → ℕ → ℚ) (check : ℕ → ℕ → Formula → Option Box) (hs : ∀ k, DRealSound (check k)) (hb : ∀ k, BoxesInRange 2 (check k))
    (h : ∃ cex, verifyCandidate drealBackend noise (drealOracle 2 check) verifyStart = .ok ⟨true, cex⟩) :
    VerifyRun verifyConfig ["x0**2 + x1**2"] (fun p : Pt 2 => -p) (fun p : Pt 2 => p 0 ^ 2 + p 1 ^ 2) (univ : Set (Pt 2)) noise check verifyStart := by
  refine ⟨rfl, verify_described, ?_, minus_id_text, squares_candidate, hs, hb, C87_verify_accepted.2, h⟩
  rintro k S ⟨s, hm, hS⟩ p hp i
  simp only [verifyConfig, List.mem_singleton, Prod.mk.injEq] at hm
  rw [hm.2] at hS
  rw [setText_unique hS ring_text] at hp
  exact ring_small p hp i

/-- **C87, verify.yaml.** Verification of the written candidate succeeds with a solver that decides every query, and whenever it succeeds with a sound solver, the
candidate is positive and decreases along `x0' = -x0`, `x1' = -x1` on the ring. -/
theorem C87_verify_file (noise : String → ℕ → ℕ → ℚ) (check : ℕ → ℕ → Formula → Option Box) (hs : ∀ k, DRealSound (check k)) (hb : ∀ k, BoxesInRange 2 (check k)) :
    (∃ cex, verifyCandidate drealBackend (fun _ _ _ => 0) (drealOracle 2 fun _ _ => idealCheck) verifyStart = .ok ⟨true, cex⟩) ∧
    ((∃ cex, verifyCandidate drealBackend noise (drealOracle 2 check) verifyStart = .ok ⟨true, cex⟩) →
      ∃ L : Pt 2 → ℝ, (∀ p, IsLieDerivAt (fun p => -p) (fun p => p 0 ^ 2 + p 1 ^ 2) L p) ∧ ∀ p ∈ ring, 0 < p 0 ^ 2 + p 1 ^ 2 ∧ L p < 0) := by
  obtain ⟨g, hq, hd, ha⟩ := verify_queries
  refine ⟨verify_ideal hq hd ha, fun h => ?_⟩
  obtain ⟨L, h1, h2⟩ := C60_verify_lyapunov _ _ _ _ _ _ _ _ (verify_run noise check hs hb h) rfl ring ⟨_, by simp [verifyConfig], ring_text⟩
  refine ⟨L, fun p => h1 p trivial, fun p hp => ?_⟩
  have h0 : p ≠ 0 := by
    rintro rfl
    have := hp.1
    norm_num at this
  exact ⟨(h2 p hp h0).1 rfl, (h2 p hp h0).2⟩

end Fossil

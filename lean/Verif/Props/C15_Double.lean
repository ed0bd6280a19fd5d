/-
C15, C16: certificates with two networks (stable-while-safe, reach-avoid-remain).
-/
import Verif.Props.C12_Reach

namespace Fossil
open Spec Set

theorem queriesDouble_inv {s : Setup} {barr : Net} {groups} (h : queriesDouble s barr = .ok groups) :
    ∃ d V Vdot B Bdot, initialiseDomains s.lib s.nVars s.cert s.domains = .ok d ∧
      translateCT s.lib s.rounding none false s.net (vars s.nVars) s.f = .ok (V, Vdot) ∧
      translateCT s.lib s.rounding none false barr (vars s.nVars) s.f = .ok (B, Bdot) ∧
      ((s.cert = .STABLESAFE ∧ safeRoaConstraints s.nVars s.llo s.beta d V Vdot B Bdot = .ok groups) ∨
        (s.cert = .RAR ∧ rarConstraints d V Vdot B Bdot = .ok groups)) := by
  unfold queriesDouble translateCTDouble at h
  simp only [bind, Except.bind] at h
  split at h
  · cases h
  rename_i d hd
  split at h
  · cases h
  rename_i v hv
  split at hv
  · cases hv
  rename_i a ha
  split at hv
  · cases hv
  rename_i b hb
  cases hv
  refine ⟨d, a.1, a.2, b.1, b.2, hd, ha, hb, ?_⟩
  dsimp only at h
  split at h
  · rename_i e; exact Or.inl ⟨e, h⟩
  · rename_i e; exact Or.inr ⟨e, h⟩
  · cases h

/-- Success on the queries of the stable-while-safe certificate: all but the first query are answered "unsat", the
first is not answered "sat" (its answer is overwritten by that of the last one, which has the same label). -/
theorem verify_four {R : Type} (B : Backend R) (n : ℕ) (noise) (o : Oracle R) (q0 q1 q2 q3 : Formula) (cex)
    (ex : ∀ k, ∀ φ ∈ [q0, q1, q2, q3], B.isUnsat (o k φ) = true → B.isSat (o k φ) = false)
    (h : verify B n noise o [[(XD, q0)], [(XI, q1), (XU, q2)], [(XD, q3)]] = .ok ⟨true, cex⟩) :
    B.isSat (o 0 q0) = false ∧ B.isUnsat (o 1 q1) = true ∧ B.isUnsat (o 2 q2) = true ∧
      B.isUnsat (o 3 q3) = true := by
  have e1 : (XD == XI) = false := by decide
  have e2 : (XD == XU) = false := by decide
  have e3 : (XI == XU) = false := by decide
  have e4 : (XI == XD) = false := by decide
  have e5 : (XU == XD) = false := by decide
  have hall : (solveGroups B o 0 [] [[(XD, q0)], [(XI, q1), (XU, q2)], [(XD, q3)]]).2.values.all
      B.isUnsat = true := by
    by_contra hc
    unfold verify at h
    simp only [hc] at h
    simp only [bind, Except.bind, pure, Except.pure] at h
    split at h
    · rename_i hh; simp at hh
    · split at h <;> simp at h
  simp only [solveGroups, solveGroup] at hall
  simp [Dict.set, Dict.values, Dict.keys, XD, XI, XU] at hall
  by_cases h0 : B.isSat (o 0 q0) = true
  · simp [h0] at hall
    rw [ex _ _ (by simp) hall] at h0; cases h0
  · simp only [Bool.not_eq_true] at h0
    simp [h0] at hall
    split at hall
    · rename_i hs
      rcases hs with hs | hs
      · rw [ex _ q1 (by simp) (hall "init" _ (by simp))] at hs; cases hs
      · rw [ex _ q2 (by simp) (hall "unsafe" _ (by simp))] at hs; cases hs
    · exact ⟨h0, hall "init" _ (by simp), hall "unsafe" _ (by simp), hall "lie" _ (by simp)⟩

/-- The Lyapunov half of a stable-while-safe setup (the two-network translator uses no factors). -/
def Setup.roaHalf (s : Setup) : Setup := { s with cert := .ROA, quad := false }

/-- The barrier half. -/
def Setup.barrierHalf (s : Setup) (barr : Net) : Setup := { s with cert := .BARRIER, quad := false, net := barr }

theorem safeRoa_split {s : Setup} {barr : Net} {groups} (hc : s.cert = .STABLESAFE)
    (h : queriesDouble s barr = .ok groups) :
    ∃ q0 q1 q2 q3, groups = [[(XD, q0)], [(XI, q1), (XU, q2)], [(XD, q3)]] ∧
      queriesCT s.roaHalf = .ok [[(XD, q0)]] ∧
      queriesCT (s.barrierHalf barr) = .ok [[(XI, q1), (XU, q2)], [(XD, q3)]] := by
  obtain ⟨d, V, Vdot, B, Bdot, h1, h2, h3, h4⟩ := queriesDouble_inv h
  rcases h4 with ⟨-, h4⟩ | ⟨h4, -⟩
  swap
  · rw [hc] at h4; cases h4
  have hd := initialise_single h1 (by simp [hc])
  have hd' : ∀ ct, ct ≠ .RAR → initialiseDomains s.lib s.nVars ct s.domains = .ok d := by
    intro ct hct
    simp [initialiseDomains, hd, hct]
  unfold safeRoaConstraints at h4
  simp only [bind, Except.bind] at h4
  split at h4
  · cases h4
  rename_i l hl
  split at h4
  · cases h4
  rename_i b hb
  cases h4
  have hq1 : queriesCT s.roaHalf = .ok l := by
    simp only [queriesCT, Setup.roaHalf, hd' .ROA (by simp), h2, bind, Except.bind]
    exact hl
  have hq2 : queriesCT (s.barrierHalf barr) = .ok b := by
    simp only [queriesCT, Setup.barrierHalf, hd' .BARRIER (by simp), h3, bind, Except.bind]
    exact hb
  unfold roaConstraints at hl
  simp only [bind, Except.bind] at hl
  split at hl
  · cases hl
  cases hl
  unfold barrierConstraints at hb
  simp only [bind, Except.bind] at hb
  split at hb
  · cases hb
  split at hb
  · cases hb
  split at hb
  · cases hb
  cases hb
  exact ⟨_, _, _, _, rfl, hq1, hq2⟩

theorem smt_excl (o : Oracle Answer) : ∀ r, smtBackend.isSat r = true → smtBackend.isUnsat r = true →
    ∀ k φ, o k φ ≠ r := by
  intro r h1 h2
  cases r <;> simp [smtBackend, Answer.isSat, Answer.isUnsat] at h1 h2

theorem unsat_of_isUnsat {r : Answer} (h : smtBackend.isUnsat r = true) : r = .unsat := by
  cases r <;> simp [smtBackend, Answer.isUnsat] at h ⊢

/-- A success of the verifier on the stable-while-safe pair refutes all queries of the barrier half. -/
theorem stable_safe_half {R : Type} (s : Setup) (barr : Net)
    (hc : s.cert = .STABLESAFE) (groups) (hq : queriesDouble s barr = .ok groups)
    (B : Backend R) (noise) (o : Oracle R) (excl : ∀ k φ, (∃ g ∈ groups, ∃ q ∈ g, q.2 = φ) → B.isUnsat (o k φ) = true → B.isSat (o k φ) = false)
    (sound : ∀ k φ, (∃ gb, queriesCT (s.barrierHalf barr) = .ok gb ∧ ∃ g ∈ gb, ∃ q ∈ g, q.2 = φ) → B.isUnsat (o k φ) = true → ∀ ρ : Env, ¬ φ.holds ρ) (cex)
    (hv : verify B s.nVars noise o groups = .ok ⟨true, cex⟩) :
    ∃ gb, queriesCT (s.barrierHalf barr) = .ok gb ∧ Accepted s.nVars gb := by
  obtain ⟨q0, q1, q2, q3, rfl, -, hB⟩ := safeRoa_split hc hq
  obtain ⟨-, u1, u2, u3⟩ := verify_four B s.nVars noise o q0 q1 q2 q3 cex
    (fun k φ hφ => excl k φ (by
      simp only [List.mem_cons, List.not_mem_nil, or_false] at hφ
      rcases hφ with rfl | rfl | rfl | rfl
      · exact ⟨_, List.mem_cons_self, (XD, φ), by simp, rfl⟩
      · exact ⟨_, by simp; right; left; rfl, (XI, φ), by simp, rfl⟩
      · exact ⟨_, by simp; right; left; rfl, (XU, φ), by simp, rfl⟩
      · exact ⟨_, by simp; right; right; rfl, (XD, φ), by simp, rfl⟩)) hv
  have hacc : Accepted s.nVars [[(XI, q1), (XU, q2)], [(XD, q3)]] := by
    refine accepted_of_refuted (by simp [DistinctLabels, queries, XI, XU, XD]) ?_
    intro g hg q hq ρ
    have hmem : ∃ gb, queriesCT (s.barrierHalf barr) = .ok gb ∧ ∃ g ∈ gb, ∃ q' ∈ g, q'.2 = q.2 := ⟨_, hB, g, hg, q, hq, rfl⟩
    simp only [List.mem_cons, List.not_mem_nil, or_false] at hg
    rcases hg with rfl | rfl <;> simp only [List.mem_cons, List.not_mem_nil, or_false] at hq
    · rcases hq with rfl | rfl
      · exact sound 1 _ hmem u1 ρ
      · exact sound 2 _ hmem u2 ρ
    · subst hq; exact sound 3 _ hmem u3 ρ
  exact ⟨_, hB, hacc⟩

/-- The safety half for any solver whose "unsat" answers exclude "sat" and are right for the barrier queries. -/
theorem stable_safe_safety {R : Type} (s : Setup) (hs : SmoothSetup s) (barr : Net) (hbn : barr.inputSize = s.nVars)
    (hbs : smoothActs barr) (hc : s.cert = .STABLESAFE) (groups) (hq : queriesDouble s barr = .ok groups)
    (B : Backend R) (noise) (o : Oracle R) (excl : ∀ k φ, (∃ g ∈ groups, ∃ q ∈ g, q.2 = φ) → B.isUnsat (o k φ) = true → B.isSat (o k φ) = false)
    (sound : ∀ k φ, (∃ gb, queriesCT (s.barrierHalf barr) = .ok gb ∧ ∃ g ∈ gb, ∃ q ∈ g, q.2 = φ) → B.isUnsat (o k φ) = true → ∀ ρ : Env, ¬ φ.holds ρ) (cex)
    (hv : verify B s.nVars noise o groups = .ok ⟨true, cex⟩)
    (T : ℝ) (ξ : ℝ → Pt s.nVars) (hξ : Trajectory (field s.nVars s.f) T ξ)
    (h0 : ξ 0 ∈ region s.nVars s.domains XI) (hin : ∀ t ∈ Icc 0 T, ξ t ∈ region s.nVars s.domains XD) :
    ∀ t ∈ Icc 0 T, ξ t ∉ region s.nVars s.domains XU := by
  obtain ⟨gb, hB, hacc⟩ := stable_safe_half s barr hc groups hq B noise o excl sound cex hv
  exact C09_barrier_safety (s.barrierHalf barr) ⟨hs.lib, hs.sets, hbn, hbs⟩ rfl _ hB hacc T ξ hξ h0 hin

/-- **C15 (safety half).** If the stable-while-safe pair is verified, no trajectory from the initial set that stays in
the domain reaches the unsafe set — whatever the solver answered to the Lyapunov query. -/
theorem C15_stable_safe_safety (s : Setup) (hs : SmoothSetup s) (barr : Net) (hbn : barr.inputSize = s.nVars)
    (hbs : smoothActs barr) (hc : s.cert = .STABLESAFE) (groups) (hq : queriesDouble s barr = .ok groups)
    (noise) (o : Oracle Answer) (sound : RefutationSound o) (cex)
    (hv : verify smtBackend s.nVars noise o groups = .ok ⟨true, cex⟩)
    (T : ℝ) (ξ : ℝ → Pt s.nVars) (hξ : Trajectory (field s.nVars s.f) T ξ)
    (h0 : ξ 0 ∈ region s.nVars s.domains XI) (hin : ∀ t ∈ Icc 0 T, ξ t ∈ region s.nVars s.domains XD) :
    ∀ t ∈ Icc 0 T, ξ t ∉ region s.nVars s.domains XU :=
  stable_safe_safety s hs barr hbn hbs hc groups hq smtBackend noise o (fun k φ _ hu => by rw [unsat_of_isUnsat hu]; rfl)
    (fun k φ _ hu => sound _ _ (unsat_of_isUnsat hu)) cex hv T ξ hξ h0 hin

/-- **C15 (stability half, partial).** If moreover the solver decided the first (Lyapunov) query, the region-of-attraction
conclusions hold for the Lyapunov network: the initial set is inside the verified sub-level set, trajectories
starting strictly inside (or with LLO) never leave it while outside the 0.01-ball, and with LLO the certificate
strictly decreases on the way.
Missing: an undecided first query — then the conclusion is false, see `C15_unknown_hides_lyapunov`. -/
theorem C15_stable_safe_roa_partial (s : Setup) (hs : SmoothSetup s) (barr : Net)
    (hc : s.cert = .STABLESAFE) (groups) (hq : queriesDouble s barr = .ok groups)
    (noise) (o : Oracle Answer) (sound : RefutationSound o) (hdec : ∀ g ∈ groups.head?, ∀ q ∈ g, o 0 q.2 ≠ .unknown) (cex)
    (hv : verify smtBackend s.nVars noise o groups = .ok ⟨true, cex⟩) :
    (∀ p ∈ region s.nVars s.domains XI, certValue s.rounding false s.net p ≤ (s.beta : ℝ) * (11/10)) ∧
    ∀ (T : ℝ) (ξ : ℝ → Pt s.nVars), Trajectory (field s.nVars s.f) T ξ → 0 ≤ T →
      ξ 0 ∈ region s.nVars s.domains XI → (∀ t ∈ Icc 0 T, (1/100)^2 < normSq (ξ t)) →
      ((s.llo = true ∨ certValue s.rounding false s.net (ξ 0) < (s.beta : ℝ) * (11/10)) →
        ∀ t ∈ Icc 0 T, certValue s.rounding false s.net (ξ t) ≤ (s.beta : ℝ) * (11/10)) ∧
      (s.llo = true → StrictAntiOn (fun t => certValue s.rounding false s.net (ξ t)) (Icc 0 T)) := by
  obtain ⟨q0, q1, q2, q3, rfl, hR, -⟩ := safeRoa_split hc hq
  obtain ⟨u0, -, -, -⟩ := verify_four smtBackend s.nVars noise o q0 q1 q2 q3 cex (fun k φ _ hu => by rw [unsat_of_isUnsat hu]; rfl) hv
  have hu : o 0 q0 = .unsat := by
    have := hdec _ rfl _ (List.mem_singleton_self _)
    cases h : o 0 q0 with
    | unsat => rfl
    | unknown => exact absurd h this
    | sat m => rw [h] at u0; simp [smtBackend, Answer.isSat] at u0
  have hacc : Accepted s.nVars [[(XD, q0)]] :=
    accepted_of_refuted (by simp [DistinctLabels, queries]) (single_refuted (sound _ _ hu))
  have hsm : SmoothSetup s.roaHalf := ⟨hs.lib, hs.sets, hs.size, hs.smooth⟩
  refine ⟨(C08_roa_conditions s.roaHalf hs.lib hs.sets hs.size rfl _ hR hacc).1, fun T ξ hξ hT h0 hout =>
    ⟨fun hst => ?_, fun hllo => ?_⟩⟩
  · exact C08_roa_invariant_partial s.roaHalf hsm rfl _ hR hacc T ξ hξ hT h0 hst hout
  · exact C08_roa_llo_strictly_decreasing s.roaHalf hsm rfl _ hR hacc hllo T ξ hξ hT h0 hout

/-- `x' = -x` on `[-4, 4]`, Lyapunov network `x²` (level 10/11, LLO), initial set `[-1/2, 1/2]`, unsafe set `[2, 3]`;
barrier network `x² - 1`. -/
def exStableSafe : Setup := ⟨.z3, 1, .STABLESAFE,
  [(XD, .rectangle [-4] [4] none), (XI, .rectangle [-1/2] [1/2] none), (XU, .rectangle [2] [3] none)],
  true, 3, false, ⟨1, [⟨[[1]], none⟩, ⟨[[1]], none⟩], [.square]⟩, [.neg (.var 0)], 10/11⟩

def exBarrNet : Net := ⟨1, [⟨[[1]], some [0]⟩, ⟨[[1]], some [-1]⟩], [.square]⟩

theorem exStableSafe_smooth : SmoothSetup exStableSafe :=
  ⟨Or.inl rfl, by
    intro e he; simp [exStableSafe] at he
    rcases he with rfl | rfl | rfl <;> simp [WF, exStableSafe, noSel], rfl,
    by intro a ha; simp [exStableSafe] at ha; simp [ha]⟩

/-- The barrier half of the example is refuted whatever the Lyapunov network and level. -/
theorem exStableSafe_barrier (s : Setup) (hs : s = exStableSafe.barrierHalf exBarrNet) :
    ∃ q1 q2 q3, queriesCT s = .ok [[(XI, q1), (XU, q2)], [(XD, q3)]] ∧
      (∀ ρ : Env, ¬ Formula.holds ρ q1) ∧ (∀ ρ : Env, ¬ Formula.holds ρ q2) ∧ ∀ ρ : Env, ¬ Formula.holds ρ q3 := by
  have h1 : roundBy 3 1 = 1 := by decide +kernel
  have h0 : roundBy 3 0 = 0 := by decide +kernel
  have h2 : roundBy 3 (-1) = -1 := by decide +kernel
  subst hs
  refine ⟨_, _, _, rfl, ?_, ?_, ?_⟩
  all_goals
    intro ρ h
    simp [Formula.holds, Formula.conj, Term.eval, Term.sum, leZero, geZero, gtZero, factors, vars, h1, h0, h2,
          exStableSafe, exBarrNet, Setup.barrierHalf, eyeJac, postVal, postGrad, gradTerms, hiddenBias, diagJac] at h
    norm_num at h
  · norm_cast at h
    have h2 : |ρ 0| ≤ 1/2 := abs_le.2 ⟨by linarith [h.1.2.1], by linarith [h.1.2.2]⟩
    linarith [h.1.1]
  · norm_cast at h
    have h2 := h.1.1
    rw [abs_le] at h2
    linarith [h.1.2.1]
  · try simp only [zpow_ofNat] at h
    nlinarith [h.1.1, h.1.2]

/-- Whatever the Lyapunov level, the verifier with the ideal solver reports success on the example, unless the Lyapunov
query is answered "sat" (the ideal solver never does). -/
theorem exStableSafe_success_of (β : ℚ) (barr : Net)
    (hB : ∃ q1 q2 q3, queriesCT (exStableSafe.barrierHalf barr) = .ok [[(XI, q1), (XU, q2)], [(XD, q3)]] ∧
      (∀ ρ : Env, ¬ Formula.holds ρ q1) ∧ (∀ ρ : Env, ¬ Formula.holds ρ q2) ∧ ∀ ρ : Env, ¬ Formula.holds ρ q3)
    (hg : ∃ groups, queriesDouble { exStableSafe with beta := β } barr = .ok groups) :
    ∃ groups cex, queriesDouble { exStableSafe with beta := β } barr = .ok groups ∧
      verify smtBackend 1 (fun _ _ _ => 0) (fun _ => idealSolver) groups = .ok ⟨true, cex⟩ := by
  obtain ⟨q1, q2, q3, h, e1, e2, e3⟩ := hB
  obtain ⟨groups, hg⟩ := hg
  obtain ⟨q0, q1', q2', q3', rfl, -, hb⟩ := safeRoa_split rfl hg
  have : queriesCT (Setup.barrierHalf { exStableSafe with beta := β } barr)
      = queriesCT (exStableSafe.barrierHalf barr) := rfl
  rw [this, h] at hb
  simp only [Except.ok.injEq, List.cons.injEq, Prod.mk.injEq, true_and, and_true] at hb
  obtain ⟨⟨rfl, rfl⟩, rfl⟩ := hb
  refine ⟨_, (solveGroups smtBackend (fun _ => idealSolver) 0 []
    [[(XD, q0)], [(XI, q1), (XU, q2)], [(XD, q3)]]).2.map (fun p => (p.1, [])), hg, ?_⟩
  have hns : smtBackend.isSat (idealSolver q0) = false := by
    unfold idealSolver; split <;> simp [smtBackend, Answer.isSat]
  unfold verify
  rw [if_pos]
  simp only [solveGroups, solveGroup, idealSolver_unsat e1, idealSolver_unsat e2, idealSolver_unsat e3]
  have hns' : Answer.isSat (idealSolver q0) = false := hns
  cases hi : idealSolver q0 with
  | sat m => rw [hi] at hns'; simp [Answer.isSat] at hns'
  | unsat | unknown =>
    simp [Dict.set, Dict.values, Dict.keys, XD, XI, XU, smtBackend, Answer.isSat, Answer.isUnsat]

theorem exStableSafe_success (β : ℚ) :
    ∃ groups cex, queriesDouble { exStableSafe with beta := β } exBarrNet = .ok groups ∧
      verify smtBackend 1 (fun _ _ _ => 0) (fun _ => idealSolver) groups = .ok ⟨true, cex⟩ :=
  exStableSafe_success_of β _ (exStableSafe_barrier _ rfl) ⟨_, rfl⟩

theorem idealSolver_refutationSound : RefutationSound (fun _ => idealSolver) := by
  intro k φ h ρ
  exact idealSolver_sound φ (by rw [show idealSolver φ = .unsat from h]; rfl) ρ

/-- C15 is false when the solver leaves the Lyapunov query undecided: the pair is reported as verified although the
initial set is not inside the claimed sub-level set (which here is empty) — the undecided answer has been
overwritten by the barrier query carrying the same label. -/
theorem C15_unknown_hides_lyapunov :
    ∃ (s : Setup) (barr : Net) (groups : List (Dict String Formula)) (cex : Dict String (List (List ℚ)))
      (o : Oracle Answer),
      SmoothSetup s ∧ s.cert = .STABLESAFE ∧ barr.inputSize = s.nVars ∧ smoothActs barr ∧
      queriesDouble s barr = .ok groups ∧ RefutationSound o ∧
      verify smtBackend s.nVars (fun _ _ _ => 0) o groups = .ok ⟨true, cex⟩ ∧
      ∃ p ∈ region s.nVars s.domains XI, (s.beta : ℝ) * (11/10) < certValue s.rounding false s.net p := by
  obtain ⟨groups, cex, h1, h2⟩ := exStableSafe_success (-1)
  refine ⟨{ exStableSafe with beta := -1 }, exBarrNet, groups, cex, fun _ => idealSolver,
    ⟨exStableSafe_smooth.lib, exStableSafe_smooth.sets, exStableSafe_smooth.size, exStableSafe_smooth.smooth⟩,
    rfl, rfl, by intro a ha; simp [exBarrNet] at ha; simp [ha], h1, idealSolver_refutationSound, h2,
    fun _ => 0, ?_, ?_⟩
  · show (fun _ => 0) ∈ region 1 exStableSafe.domains XI
    simp [region, exStableSafe, XI, XD, Dict.get?_cons, seg_mem]
    norm_num
  · have h1 : roundBy 3 1 = 1 := by decide +kernel
    simp [certValue, exStableSafe, roundedNet, Net.forward, hiddenForward, roundedHidden, roundedLast, h1,
      Layer.apply, dotR, Act.forward, coordList, at?, bind, Except.bind]

/-- Non-vacuity of C15: with the right level the ideal solver refutes the Lyapunov query too, so its first answer is
decided. -/
example : ∃ q0, queriesCT exStableSafe.roaHalf = .ok [[(XD, q0)]] ∧ idealSolver q0 = .unsat := by
  have h1 : roundBy 3 1 = 1 := by decide +kernel
  refine ⟨_, rfl, idealSolver_unsat fun ρ h => ?_⟩
  simp [Formula.holds, Formula.conj, Term.eval, Term.sum, leZero, geZero, factors, vars, h1, exStableSafe,
      Setup.roaHalf, eyeJac, postVal, postGrad, gradTerms, hiddenBias, diagJac] at h
  norm_num at h
  norm_cast at h
  rcases h with ⟨⟨h2, h3⟩, h4⟩ | ⟨⟨h2, h3⟩, h4⟩
  · exact absurd (abs_le.2 ⟨by linarith, by linarith⟩ : |ρ 0| ≤ 1) (not_le.2 h4)
  · nlinarith

end Fossil

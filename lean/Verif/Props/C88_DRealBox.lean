/-
C88: what a success of the dReal verifier is worth without any bound on the sets: there is no counterexample in the box of the second attempt, and in general
nothing outside of it. For region-of-attraction certificates, whose query is never bounded, this is what remains of C08.
-/
import Verif.Props.C87_Shipped

namespace Fossil
open Spec Set

namespace Spec

/-- The box `(-1000, 1000)ⁿ` of the second-chance search (verifier.py:58, 346-350). -/
def secondBox (n : ℕ) : Set (Pt n) := {p | ∀ i, -1000 < p i ∧ p i < 1000}

/-- The dReal verifier reported success on the queries. All that is assumed: dReal's "no solution" answers are right, the queries are in the state variables, boxes
returned for queries that confine the variables to the second-chance box are within the variable bounds. -/
structure DRealSuccess (n : ℕ) (groups : List (Dict String Formula)) : Prop where
  below : ∀ g ∈ groups, ∀ q ∈ g, formulaBelow n q.2
  run : ∃ (noise : String → ℕ → ℕ → ℚ) (check : ℕ → ℕ → Formula → Option Box) (cex : _), (∀ k, DRealSound (check k)) ∧ (∀ k, BoxesInRange n (check k)) ∧
    verify drealBackend n noise (drealOracle n check) groups = .ok ⟨true, cex⟩

end Spec

/-- **C88, any query.** If the dReal verifier reports success, no violation formula holds anywhere in the box `(-1000, 1000)ⁿ`, whether or not the formulas are bounded. -/
theorem C88_dreal_box (n : ℕ) (noise : String → ℕ → ℕ → ℚ) (check : ℕ → ℕ → Formula → Option Box) (hs : ∀ k, DRealSound (check k))
    (hbox : ∀ k, BoxesInRange n (check k)) (groups : List (Dict String Formula)) (hd : DistinctLabels groups)
    (hbl : ∀ g ∈ groups, ∀ q ∈ g, formulaBelow n q.2) (cex)
    (h : verify drealBackend n noise (drealOracle n check) groups = .ok ⟨true, cex⟩) :
    ∀ g ∈ groups, ∀ q ∈ g, ∀ ρ : Env, (∀ i < n, -1000 < ρ i ∧ ρ i < 1000) → ¬ q.2.holds ρ := by
  have hexcl : ∀ k φ, formulaBelow n φ → drealIsUnsat (drealOracle n check k φ) = true → drealOracle n check k φ = none := by
    intro k φ hbφ hu
    cases hx : drealOracle n check k φ with
    | none => rfl
    | some bx =>
      rw [hx] at hu
      simp only [drealIsUnsat, Option.isNone_some, Bool.false_or, Bool.not_eq_true'] at hu
      simp only [drealOracle, drealSolve] at hx
      split at hx
      · rw [(withinBounds_iff bx).2 (hbox k 1 _ bx (secondChance_below hbφ) (secondChance_confines n φ) hx)] at hu; cases hu
      · rename_i hc
        rw [hx] at hc
        simp [drealIsSat, hu] at hc
  have hall : (solveGroups drealBackend (drealOracle n check) 0 [] groups).2.values.all
      drealBackend.isUnsat = true := by
    by_contra hc
    unfold verify at h
    simp only [hc] at h
    simp only [bind, Except.bind, pure, Except.pure] at h
    split at h
    · rename_i hh; simp at hh
    · split at h <;> simp at h
  obtain ⟨gs, gs', h1, h2, h3⟩ := solveGroups_prefix drealBackend (drealOracle n check) 0 [] groups
  have hnd : Dict.keys (queries gs) |>.Nodup := by
    have : (queries gs).map Prod.fst <+: (queries groups).map Prod.fst := by
      rw [h1]; simp [queries]
    exact hd.sublist this.sublist
  have hres := solveGroup_nodup (drealOracle n check) 0 [] gs.flatten hnd (by simp [Dict.keys])
  simp only [List.nil_append, Nat.zero_add] at hres
  rw [h2, hres] at hall
  have hnone : ∀ i (hi : i < gs.flatten.length), drealOracle n check i gs.flatten[i].2 = none := by
    intro i hi
    have hbi : formulaBelow n gs.flatten[i].2 := by
      obtain ⟨g, hg, hm⟩ := List.mem_flatten.1 (List.getElem_mem hi)
      exact hbl g (by rw [h1]; simp [hg]) _ hm
    apply hexcl _ _ hbi
    have := List.all_eq_true.1 hall (drealOracle n check i gs.flatten[i].2) (by
      simp only [Dict.values, List.mem_map]
      exact ⟨(gs.flatten[i].1, drealOracle n check i gs.flatten[i].2), by
        rw [List.mem_mapIdx]; exact ⟨i, hi, rfl⟩, rfl⟩)
    exact this
  have hgs' : gs' = [] := by
    rcases h3 with h3 | ⟨-, h3⟩
    · exact h3
    · rw [hres] at h3
      obtain ⟨r, hr, hrs⟩ := List.any_eq_true.1 h3
      simp only [Dict.values, List.mem_map] at hr
      obtain ⟨p, hp, rfl⟩ := hr
      rw [List.mem_mapIdx] at hp
      obtain ⟨i, hi, rfl⟩ := hp
      rw [hnone i hi] at hrs
      simp [drealBackend, drealIsSat] at hrs
  rw [hgs', List.append_nil] at h1
  subst h1
  intro g hg q hq ρ hin hρ
  have hmem : q ∈ groups.flatten := List.mem_flatten.2 ⟨g, hg, hq⟩
  obtain ⟨k, hk, rfl⟩ := List.getElem_of_mem hmem
  have hn := hnone k hk
  simp only [drealOracle, drealSolve] at hn
  split at hn
  · refine hs k 1 _ hn ρ ?_
    simp only [secondChance, Formula.holds_conj, List.mem_cons, List.mem_map, forall_eq_or_imp]
    refine ⟨hρ, ?_⟩
    rintro _ ⟨t, ht, rfl⟩
    simp only [vars, List.mem_map, List.mem_range] at ht
    obtain ⟨i, hi, rfl⟩ := ht
    have := hin i hi
    simp only [Formula.holds, Term.eval]
    push_cast
    exact ⟨this.2, this.1⟩
  · exact hs k 0 _ hn ρ hρ

theorem dreal_refutes_box {n : ℕ} {groups} (h : DRealSuccess n groups) (hd : DistinctLabels groups) :
    ∀ g ∈ groups, ∀ q ∈ g, ∀ p ∈ secondBox n, ¬ q.2.holds p.env := by
  obtain ⟨noise, check, cex, h1, h2, h3⟩ := h.run
  intro g hg q hq p hp
  refine C88_dreal_box n noise check h1 h2 groups hd h.below cex h3 g hg q hq _ fun i hi => ?_
  simpa [Pt.env, hi] using hp ⟨i, hi⟩

/-- What success on the region-of-attraction query gives at a point of the box. -/
theorem roa_inv_box {n : ℕ} {llo : Bool} {beta : ℚ} {d : Dict String Formula} {V Vdot : Term} {groups}
    (h : roaConstraints n llo beta d V Vdot = .ok groups) (B : Set (Pt n)) (ha : ∀ g ∈ groups, ∀ q ∈ g, ∀ p ∈ B, ¬ q.2.holds p.env) :
    ∃ init, Dict.getE d XI = .ok init ∧
      (∀ p ∈ B, init.holds p.env → V.eval p.env ≤ (beta : ℝ) * (11/10)) ∧
      ∀ p ∈ B, V.eval p.env ≤ (beta : ℝ) * (11/10) → 1/10000 < normSq p →
        (if llo then Vdot.eval p.env < 0 else 0 < V.eval p.env ∧ Vdot.eval p.env ≤ 0) := by
  unfold roaConstraints at h
  simp only [bind, Except.bind] at h
  split at h
  · cases h
  rename_i init hinit
  cases h
  have H := ha _ (List.mem_singleton_self _) _ (List.mem_singleton_self _)
  refine ⟨init, hinit, fun p hB hp => ?_, fun p hB hV hn => ?_⟩
  · have := H p hB
    simp only [Formula.holds, Term.eval, not_or] at this
    by_contra hc
    refine this.1 ⟨hp, fun h => hc ?_⟩
    push_cast at h; exact h
  · have := H p hB
    simp only [Formula.holds, not_or, sumSq_eval] at this
    have h3 := fun h => this.2 ⟨⟨by simp only [Term.eval]; push_cast; exact hV, by
      simp only [Term.eval]; push_cast; linarith⟩, h⟩
    cases llo with
    | true => simpa [geZero, Formula.holds, Term.eval] using not_le.1 h3
    | false =>
      simp only [Bool.false_eq_true, if_false, Formula.holds, leZero, gtZero, Term.eval, not_or, not_le,
        not_lt, Rat.cast_zero] at h3 ⊢
      exact ⟨not_le.1 fun h => h3 (Or.inl h), not_lt.1 fun h => h3 (Or.inr h)⟩

/-- **C88, region of attraction, pointwise.** If the dReal verifier reports success for a region-of-attraction certificate: at the points of the initial set in the box the
certificate is at most the level; at the points of the box in the sub-level set, outside the ball of radius 0.01, it is positive and non-increasing along the dynamics
(without LLO), or strictly decreasing (with LLO). -/
theorem C88_roa_conditions (s : Setup) (hlib : s.lib = .z3 ∨ s.lib = .dreal)
    (hw : WFDomains s.nVars s.domains) (hsz : s.net.inputSize = s.nVars) (hc : s.cert = .ROA) (groups)
    (hq : queriesCT s = .ok groups) (ha : DRealSuccess s.nVars groups) :
    (∀ p ∈ region s.nVars s.domains XI, p ∈ secondBox s.nVars → certValue s.rounding s.quad s.net p ≤ (s.beta : ℝ) * (11/10)) ∧
    ∃ L : Pt s.nVars → ℝ,
      (∀ p, noKink (roundedNet s.rounding s.net).layers.dropLast s.net.acts (coordList p) →
        IsLieDerivAt (field s.nVars s.f) (certValue s.rounding s.quad s.net) L p) ∧
      ∀ p ∈ secondBox s.nVars, certValue s.rounding s.quad s.net p ≤ (s.beta : ℝ) * (11/10) →
        (1/100)^2 < normSq p →
        (if s.llo then L p < 0 else 0 < certValue s.rounding s.quad s.net p ∧ L p ≤ 0) := by
  obtain ⟨d, V, Vdot, h1, h2, h3⟩ := queriesCT_inv hq
  rw [hc] at h3
  have hd : DistinctLabels groups := by
    unfold singleConstraints roaConstraints at h3
    simp only [bind, Except.bind] at h3
    split at h3
    · cases h3
    cases h3
    simp [DistinctLabels, queries]
  obtain ⟨init, hi, H1, H2⟩ := roa_inv_box h3 _ (dreal_refutes_box ha hd)
  have h1' := initialise_single h1 (by simp [hc])
  refine ⟨fun p hp hB => ?_, fun q => Vdot.eval q.env, fun p hk => ?_, fun p hB hp hn => ?_⟩
  · rw [← certValue_eq h2]
    exact H1 p hB ((entry_region hlib hw h1' (by decide) hi p).2 hp)
  · have := C17_lie_derivative s.lib s.rounding s.quad s.net s.nVars s.f V Vdot h2 hsz p hk
    have e : (fun q : Pt s.nVars => V.eval q.env) = certValue s.rounding s.quad s.net :=
      funext (certValue_eq h2)
    rwa [e] at this
  · have := H2 p hB (by rwa [certValue_eq h2]) (by norm_num at hn ⊢; exact hn)
    rwa [certValue_eq h2] at this

/-- **C88, region of attraction, trajectories (partial).** A trajectory from the initial set that stays in the box and outside the 0.01-ball stays in the sub-level set, if it starts strictly below the level
or LLO is on. Missing: trajectories that leave the box, see `C88_leaves_box`. -/
theorem C88_roa_invariant_partial (s : Setup) (hs : SmoothSetup s) (hc : s.cert = .ROA) (groups)
    (hq : queriesCT s = .ok groups) (ha : DRealSuccess s.nVars groups)
    (T : ℝ) (ξ : ℝ → Pt s.nVars) (hξ : Trajectory (field s.nVars s.f) T ξ) (hT : 0 ≤ T)
    (h0 : ξ 0 ∈ region s.nVars s.domains XI)
    (hstart : s.llo = true ∨ certValue s.rounding s.quad s.net (ξ 0) < (s.beta : ℝ) * (11/10))
    (hout : ∀ t ∈ Icc 0 T, (1/100)^2 < normSq (ξ t)) (hbox : ∀ t ∈ Icc 0 T, ξ t ∈ secondBox s.nVars) :
    ∀ t ∈ Icc 0 T, certValue s.rounding s.quad s.net (ξ t) ≤ (s.beta : ℝ) * (11/10) := by
  obtain ⟨hI, L, hL, hB⟩ := C88_roa_conditions s hs.lib hs.sets hs.size hc groups hq ha
  have hd : ∀ t ∈ Icc 0 T, HasDerivWithinAt (fun τ => certValue s.rounding s.quad s.net (ξ τ))
      (L (ξ t)) (Icc 0 T) t := fun t ht =>
    hL (ξ t) (noKink_of_smooth s.net hs.smooth _ _) ξ _ t rfl (hξ t ht)
  cases hllo : s.llo with
  | true =>
    refine fence_le hd (hI _ h0 (hbox 0 ⟨le_rfl, hT⟩)) fun t ht e => ?_
    have := hB (ξ t) (hbox t (Ico_subset_Icc_self ht)) e.le (hout t (Ico_subset_Icc_self ht))
    rw [hllo] at this; simpa using this
  | false =>
    have hlt := hstart.resolve_left (by simp [hllo])
    intro t ht
    refine (sublevel_antitone hd hlt (fun r hr hle => ?_) t ht).trans hlt.le
    have := hB (ξ r) (hbox r hr) hle (hout r hr)
    rw [hllo] at this; simpa using this.2

theorem secondBox_open (n : ℕ) : IsOpen (secondBox n) := by
  have : secondBox n = ⋂ i, {p : Pt n | -1000 < p i ∧ p i < 1000} := by ext p; simp [secondBox]
  rw [this]
  exact isOpen_iInter_of_finite fun i => (isOpen_lt continuous_const (continuous_apply i)).inter (isOpen_lt (continuous_apply i) continuous_const)

/-- **C88, region of attraction, no way out.** If moreover the certificate is above the level on the boundary of the box, no trajectory from the initial set inside the box leaves
the box before it enters the 0.01-ball: it stays in the box and in the sub-level set. -/
theorem C88_roa_stays (s : Setup) (hs : SmoothSetup s) (hc : s.cert = .ROA) (groups)
    (hq : queriesCT s = .ok groups) (ha : DRealSuccess s.nVars groups)
    (hwall : ∀ p ∈ frontier (secondBox s.nVars), (s.beta : ℝ) * (11/10) < certValue s.rounding s.quad s.net p)
    (T : ℝ) (ξ : ℝ → Pt s.nVars) (hξ : Trajectory (field s.nVars s.f) T ξ) (hT : 0 ≤ T)
    (h0 : ξ 0 ∈ region s.nVars s.domains XI) (h0' : ξ 0 ∈ secondBox s.nVars)
    (hstart : s.llo = true ∨ certValue s.rounding s.quad s.net (ξ 0) < (s.beta : ℝ) * (11/10))
    (hout : ∀ t ∈ Icc 0 T, (1/100)^2 < normSq (ξ t)) :
    ∀ t ∈ Icc 0 T, ξ t ∈ secondBox s.nVars ∧ certValue s.rounding s.quad s.net (ξ t) ≤ (s.beta : ℝ) * (11/10) := by
  have hcont : ContinuousOn ξ (Icc 0 T) := fun t ht => (hξ t ht).continuousWithinAt
  obtain ⟨-, L, hL, -⟩ := C88_roa_conditions s hs.lib hs.sets hs.size hc groups hq ha
  have hcV : ContinuousOn (fun τ => certValue s.rounding s.quad s.net (ξ τ)) (Icc 0 T) := fun t ht =>
    (hL (ξ t) (noKink_of_smooth s.net hs.smooth _ _) ξ _ t rfl (hξ t ht)).continuousWithinAt
  have key : ∀ t ∈ Icc 0 T, ξ t ∈ secondBox s.nVars := by
    by_contra hcon
    push Not at hcon
    obtain ⟨t₁, ht₁, hx₁⟩ := hcon
    set A := {t ∈ Icc 0 T | ξ t ∉ secondBox s.nVars} with hA
    have hAc : IsClosed A := by
      have := hcont.preimage_isClosed_of_isClosed isClosed_Icc (secondBox_open s.nVars).isClosed_compl
      exact this
    have hAn : A.Nonempty := ⟨t₁, ht₁, hx₁⟩
    have hAb : BddBelow A := ⟨0, fun t ht => ht.1.1⟩
    set τ := sInf A
    have hτ : τ ∈ A := hAc.csInf_mem hAn hAb
    have hlt : ∀ t ∈ Ico 0 τ, ξ t ∈ secondBox s.nVars := by
      intro t ht
      by_contra hc
      exact absurd (csInf_le hAb ⟨⟨ht.1, ht.2.le.trans hτ.1.2⟩, hc⟩) (not_le.2 ht.2)
    have hpos : 0 < τ := by
      rcases hτ.1.1.eq_or_lt with e | e
      · rw [← e] at hτ; exact absurd h0' hτ.2
      · exact e
    have hV : ∀ t ∈ Ico 0 τ, certValue s.rounding s.quad s.net (ξ t) ≤ (s.beta : ℝ) * (11/10) := by
      intro t ht
      have hsub : Icc 0 t ⊆ Icc 0 T := Icc_subset_Icc le_rfl (ht.2.le.trans hτ.1.2)
      exact C88_roa_invariant_partial s hs hc groups hq ha t ξ (fun r hr => (hξ r (hsub hr)).mono hsub) ht.1 h0 hstart (fun r hr => hout r (hsub hr))
        (fun r hr => hlt r ⟨hr.1, hr.2.trans_lt ht.2⟩) t ⟨ht.1, le_rfl⟩
    have hcl : τ ∈ closure (Ico 0 τ) := by rw [closure_Ico hpos.ne]; exact ⟨hpos.le, le_rfl⟩
    have hsubτ : Ico 0 τ ⊆ Icc 0 T := fun r hr => ⟨hr.1, hr.2.le.trans hτ.1.2⟩
    have hfr : ξ τ ∈ frontier (secondBox s.nVars) := by
      refine ⟨?_, fun h => hτ.2 (interior_subset h)⟩
      exact closure_mono (by rintro _ ⟨r, hr, rfl⟩; exact hlt r hr) (((hcont τ hτ.1).mono hsubτ).mem_closure_image hcl)
    have hVτ : certValue s.rounding s.quad s.net (ξ τ) ≤ (s.beta : ℝ) * (11/10) := by
      have := ((hcV τ hτ.1).mono hsubτ).mem_closure_image hcl
      exact isClosed_Iic.closure_subset_iff.2 (by rintro _ ⟨r, hr, rfl⟩; exact hV r hr) this
    exact absurd (hwall _ hfr) (not_lt.2 hVτ)
  exact fun t ht => ⟨key t ht, C88_roa_invariant_partial s hs hc groups hq ha T ξ hξ hT h0 hstart hout key t ht⟩

/-! ### A trajectory that leaves the box -/

/-- `x' = x (x - 500) / 500` from `XI = {900}`, certificate `V = u² (u - 2)² (16 - (u - 1)²)` with `u = x / 500`, level 10. In the box `V` is positive and decreases along the
trajectories in `V ≤ 10`; beyond the box `V` rises to 108 at `x = 1500`. -/
def exLeave : Setup := ⟨.dreal, 1, .ROA, [(XI, .rectangle [900] [900] none)], false, 3, false,
  ⟨1, [⟨[[1/500], [1/500], [1/500], [1/500], [1/500], [1/500]], none⟩, ⟨[[0, 60, -52, 3, 6, -1]], none⟩], [.polyN 6]⟩,
  [.mul (.mul (.var 0) (.sub (.var 0) (.const 500))) (.const (1/500))], 100/11⟩

theorem exLeave_value (p : Pt 1) : certValue exLeave.rounding exLeave.quad exLeave.net p
    = (p 0 / 500) ^ 2 * (p 0 / 500 - 2) ^ 2 * (16 - (p 0 / 500 - 1) ^ 2) := by
  have h1 : roundBy 3 500⁻¹ = 1/500 := by decide +kernel
  have h0 : roundBy 3 0 = 0 := by decide +kernel
  have h2 : roundBy 3 60 = 60 := by decide +kernel
  have h3 : roundBy 3 (-52) = -52 := by decide +kernel
  have h4 : roundBy 3 3 = 3 := by decide +kernel
  have h5 : roundBy 3 6 = 6 := by decide +kernel
  have h6 : roundBy 3 (-1) = -1 := by decide +kernel
  simp [certValue, exLeave, roundedNet, Net.forward, hiddenForward, roundedHidden, roundedLast, h1, h0, h2, h3,
    h4, h5, h6, Layer.apply, dotR, Act.forward, coordList, at?, Bind.bind, Except.bind, polyCat, polyParts, List.range_succ]
  ring

/-- The one query of the example, as real arithmetic. -/
theorem exLeave_query : ∃ φ, queriesCT exLeave = .ok [[("lie", φ)]] ∧ ∀ ρ : Env, φ.holds ρ ↔
    (900 ≤ ρ 0 ∧ ρ 0 ≤ 900 ∧ 10 < (ρ 0 / 500) ^ 2 * (ρ 0 / 500 - 2) ^ 2 * (16 - (ρ 0 / 500 - 1) ^ 2)) ∨
    ((ρ 0 / 500) ^ 2 * (ρ 0 / 500 - 2) ^ 2 * (16 - (ρ 0 / 500 - 1) ^ 2) ≤ 10 ∧ 1/10000 < ρ 0 ^ 2 ∧
      ((ρ 0 / 500) ^ 2 * (ρ 0 / 500 - 2) ^ 2 * (16 - (ρ 0 / 500 - 1) ^ 2) ≤ 0 ∨
        0 < 6 * (ρ 0 / 500) ^ 2 * (ρ 0 / 500 - 1) ^ 2 * (ρ 0 / 500 - 2) * (11 - (ρ 0 / 500 - 1) ^ 2))) := by
  have h1 : roundBy 3 500⁻¹ = 1/500 := by decide +kernel
  have h0 : roundBy 3 0 = 0 := by decide +kernel
  have h2 : roundBy 3 60 = 60 := by decide +kernel
  have h3 : roundBy 3 (-52) = -52 := by decide +kernel
  have h4 : roundBy 3 3 = 3 := by decide +kernel
  have h5 : roundBy 3 6 = 6 := by decide +kernel
  have h6 : roundBy 3 (-1) = -1 := by decide +kernel
  refine ⟨_, rfl, fun ρ => ?_⟩
  simp [Formula.holds, Formula.conj, Term.eval, Term.sum, leZero, gtZero, factors, vars, h1, h0, h2, h3, h4, h5, h6,
      exLeave, eyeJac, postVal, postGrad, gradTerms, hiddenBias, diagJac, polyCat, polyParts,
      List.range_succ]
  obtain ⟨u, hu⟩ : ∃ u : ℝ, ρ 0 = 500 * u := ⟨ρ 0 / 500, by ring⟩
  rw [hu, show (500 : ℝ)⁻¹ * (500 * u) = u by ring, show 500 * u / 500 = u by ring, and_assoc, and_assoc]
  refine or_congr (and_congr_right fun _ => and_congr_right fun _ => ⟨fun h => ?_, fun h => ?_⟩) (and_congr ⟨fun h => ?_, fun h => ?_⟩
    (and_congr_right fun _ => or_congr ⟨fun h => ?_, fun h => ?_⟩ ⟨fun h => ?_, fun h => ?_⟩)) <;> linarith

/-- One query whose two calls are answered "no solution" in the end: success. -/
theorem single_dreal (n : ℕ) (noise) (check : ℕ → ℕ → Formula → Option Box) (l : String) (φ : Formula) (h : drealSolve n (check 0) φ = none) :
    ∃ cex, verify drealBackend n noise (drealOracle n check) [[(l, φ)]] = .ok ⟨true, cex⟩ := by
  simp only [verify, solveGroups, solveGroup, drealOracle, h, Dict.set, Dict.values]
  exact ⟨_, rfl⟩

namespace Spec

open Classical in
/-- A truthful solver that answers a query solved by `x = 10^301` with that solution. -/
noncomputable def awayCheck (φ : Formula) : Option Box :=
  if φ.holds (fun _ => 10 ^ 301) then some [(0, 10 ^ 301)] else if ∃ ρ : Env, φ.holds ρ then some [] else none

end Spec

theorem awayCheck_sound : DRealSound (fun _ => awayCheck) := by
  intro k φ h ρ hρ
  dsimp only [awayCheck] at h
  split_ifs at h with h1 h2
  exact h2 ⟨ρ, hρ⟩

theorem big_pow : (1000 : ℝ) < 10 ^ 301 := by
  have : (10 : ℝ) ^ 4 ≤ 10 ^ 301 := pow_le_pow_right₀ (by norm_num) (by norm_num)
  have e : (10 : ℝ) ^ 4 = 10000 := by norm_num
  generalize (10 : ℝ) ^ 301 = c at *
  linarith

theorem awayCheck_boxes {n : ℕ} (hn : 0 < n) : BoxesInRange n (fun _ => awayCheck) := by
  intro k φ bx _ hc h
  dsimp only [awayCheck] at h
  split_ifs at h with h1 h2
  · have := (hc _ h1 0 hn).2
    exact absurd big_pow (not_lt.2 this.le)
  · cases h; simp

theorem exLeave_smooth : SmoothSetup exLeave :=
  ⟨Or.inr rfl, by intro e he; simp [exLeave] at he; subst he; simp [WF, exLeave, noSel], rfl, by intro a ha; simp [exLeave] at ha; simp [ha]⟩

theorem exLeave_success : ∃ groups, queriesCT exLeave = .ok groups ∧ DRealSuccess exLeave.nVars groups := by
  obtain ⟨φ, hq, hφ⟩ := exLeave_query
  have hfar : φ.holds (fun _ => 10 ^ 301) := by
    rw [hφ]
    refine Or.inr ?_
    have := big_pow
    have h2 : (1000000 : ℝ) < 10 ^ 301 := by
      have h3 : (10 : ℝ) ^ 7 ≤ 10 ^ 301 := pow_le_pow_right₀ (by norm_num) (by norm_num)
      have e : (10 : ℝ) ^ 7 = 10000000 := by norm_num
      generalize (10 : ℝ) ^ 301 = c at *
      linarith
    generalize (10 : ℝ) ^ 301 = c at *
    have hu : 100 < c / 500 := by rw [lt_div_iff₀ (by norm_num)]; linarith
    have hV : (c / 500) ^ 2 * (c / 500 - 2) ^ 2 * (16 - (c / 500 - 1) ^ 2) ≤ 0 :=
      mul_nonpos_of_nonneg_of_nonpos (by positivity) (by nlinarith)
    exact ⟨by linarith, by nlinarith, Or.inl hV⟩
  have hbox : ∀ ρ : Env, ¬ (secondChance 1 φ).holds ρ := by
    intro ρ h
    obtain ⟨b1, b2⟩ := secondChance_confines 1 φ ρ h 0 one_pos
    have hρ : φ.holds ρ := by
      simp only [secondChance, Formula.holds_conj, List.mem_cons, forall_eq_or_imp] at h
      exact h.1
    rw [hφ] at hρ
    obtain ⟨u, hu⟩ : ∃ u : ℝ, ρ 0 = 500 * u := ⟨ρ 0 / 500, by ring⟩
    rw [hu, show 500 * u / 500 = u by ring] at hρ
    rw [hu] at b1 b2
    have hb1 : -2 < u := by linarith
    have hb2 : u < 2 := by linarith
    rcases hρ with ⟨a, b, c⟩ | ⟨a, b, c | c⟩
    · have : u = 9/5 := by linarith
      subst this; norm_num at c
    · have h1 : 0 < u ^ 2 := by nlinarith
      have h2 : 0 < (u - 2) ^ 2 := by nlinarith
      have h3 : 0 < 16 - (u - 1) ^ 2 := by nlinarith
      exact absurd (mul_pos (mul_pos h1 h2) h3) (not_lt.2 c)
    · have h3 : 0 ≤ 11 - (u - 1) ^ 2 := by nlinarith
      have : 6 * u ^ 2 * (u - 1) ^ 2 * (u - 2) * (11 - (u - 1) ^ 2) ≤ 0 :=
        mul_nonpos_of_nonpos_of_nonneg (mul_nonpos_of_nonneg_of_nonpos (by positivity) (by linarith)) h3
      linarith
  have hsolve : drealSolve 1 (fun _ => awayCheck) φ = none := by
    have e0 : awayCheck φ = some [(0, 10 ^ 301)] := if_pos hfar
    have e1 : awayCheck (secondChance 1 φ) = none := by
      unfold awayCheck
      rw [if_neg (hbox _), if_neg (fun ⟨ρ, h⟩ => hbox ρ h)]
    have ew : withinBounds (some [(0, 10 ^ 301)]) = false := by decide +kernel
    simp only [drealSolve, e0, e1, drealIsSat, ew]
    rfl
  obtain ⟨cex, hv⟩ := single_dreal 1 (fun _ _ _ => 0) (fun _ _ => awayCheck) "lie" φ hsolve
  refine ⟨_, hq, queriesCT_below (s := exLeave) ?_ hq, _, _, cex, fun _ => awayCheck_sound, fun _ => awayCheck_boxes one_pos, hv⟩
  intro t ht
  simp [exLeave] at ht
  subst ht
  simp [exLeave, termBelow]

/-- C88 is false for trajectories that leave the box: dReal answers both its calls truthfully, the verifier reports success, and a trajectory from the initial set, strictly
below the level, rises above it once it has left the box. -/
theorem C88_leaves_box :
    SmoothSetup exLeave ∧ (∃ groups, queriesCT exLeave = .ok groups ∧ DRealSuccess exLeave.nVars groups) ∧
    ∃ (T : ℝ) (ξ : ℝ → Pt 1), 0 < T ∧ Trajectory (field 1 exLeave.f) T ξ ∧
      ξ 0 ∈ region 1 exLeave.domains XI ∧ ξ 0 ∈ secondBox 1 ∧
      certValue exLeave.rounding exLeave.quad exLeave.net (ξ 0) < (exLeave.beta : ℝ) * (11/10) ∧
      (∀ t ∈ Icc 0 T, (1/100)^2 < normSq (ξ t)) ∧
      (exLeave.beta : ℝ) * (11/10) < certValue exLeave.rounding exLeave.quad exLeave.net (ξ T) := by
  have hu : ∀ t ∈ Icc (0:ℝ) (Real.log (3/2)), 1 ≤ Real.exp t ∧ Real.exp t ≤ 3/2 := by
    intro t ht
    refine ⟨Real.one_le_exp ht.1, ?_⟩
    have := Real.exp_le_exp.2 ht.2
    rwa [Real.exp_log (by norm_num)] at this
  refine ⟨exLeave_smooth, exLeave_success, Real.log (3/2), fun t _ => 500 / (1 - 4/9 * Real.exp t), Real.log_pos (by norm_num), ?_, ?_, ?_, ?_, ?_, ?_⟩
  · intro t ht
    obtain ⟨a, b⟩ := hu t ht
    rw [hasDerivWithinAt_pi]
    intro i
    have e1 : HasDerivAt (fun t : ℝ => 1 - 4/9 * Real.exp t) (-(4/9 * Real.exp t)) t := ((Real.hasDerivAt_exp t).const_mul _).const_sub 1
    have e2 := (hasDerivAt_const t (500:ℝ)).div e1 (by linarith)
    refine HasDerivWithinAt.congr_deriv e2.hasDerivWithinAt ?_
    simp only [field, exLeave, Fin.isValue, List.getD_cons_zero, Fin.val_eq_zero, Term.eval, Pt.env]
    have hne : 1 - 4/9 * Real.exp t ≠ 0 := by linarith
    simp
    have hne' : 9 - 4 * Real.exp t ≠ 0 := by intro h; apply hne; linarith
    field_simp
    ring
  · simp [region, exLeave, docSet, reals, coords, XI, Dict.get?]
    norm_num
  · intro i
    constructor <;> norm_num
  · rw [exLeave_value]
    norm_num [exLeave]
  · intro t ht
    obtain ⟨a, b⟩ := hu t ht
    have : 500 ≤ 500 / (1 - 4/9 * Real.exp t) := by
      rw [le_div_iff₀ (by linarith)]; linarith
    simp [normSq]
    nlinarith
  · rw [exLeave_value]
    have e : Real.exp (Real.log (3/2)) = 3/2 := Real.exp_log (by norm_num)
    simp only [e]
    norm_num [exLeave]

end Fossil

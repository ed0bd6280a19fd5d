/-
C16: reach-avoid-remain certificates.
-/
import Verif.Props.C15_Double

namespace Fossil
open Spec Set

/-- The reach half of a reach-avoid-remain setup. -/
def Setup.rwsHalf (s : Setup) : Setup := { s with cert := .RWS, quad := false }

theorem getE_set_ne {α : Type _} (d : Dict String α) {k l : String} (v : α) (h : l ≠ k) :
    Dict.getE (Dict.set d k v) l = Dict.getE d l := by
  unfold Dict.getE; rw [Dict.get?_set, if_neg (Ne.symm h)]

theorem getE_set_self {α : Type _} (d : Dict String α) (k : String) (v : α) :
    Dict.getE (Dict.set d k v) k = .ok v := by
  unfold Dict.getE; rw [Dict.get?_set_self]

theorem rwsConstraints_congr {d d' : Dict String Formula} (h : ∀ l, l ≠ XNF → Dict.getE d' l = Dict.getE d l)
    (C Cdot : Term) : rwsConstraints d' C Cdot = rwsConstraints d C Cdot := by
  unfold rwsConstraints
  rw [h XD (by decide), h XI (by decide), h XS (by decide), h XSB (by decide), h XG (by decide)]

/-- Shape of the queries of a reach-avoid-remain verification step. -/
theorem rar_split {s : Setup} {barr : Net} {groups} (hc : s.cert = .RAR)
    (h : queriesDouble s barr = .ok groups) :
    ∃ g1 d nf S B Bdot dom goal b1 b2 b3,
      domainEntries s.lib s.nVars s.domains = .ok d ∧
      Dict.get? s.domains XF = some S ∧ S.generateComplement s.lib (vars s.nVars) = .ok nf ∧
      queriesCT s.rwsHalf = .ok g1 ∧
      translateCT s.lib s.rounding none false barr (vars s.nVars) s.f = .ok (B, Bdot) ∧
      Dict.getE d XD = .ok dom ∧ Dict.getE d XG = .ok goal ∧
      groups = g1 ++ [[(XG, b1), (XNF, b2)], [(XF, b3)]] ∧
      b1 = .and (.and (geZero B) goal) dom ∧ b2 = .and (.and (leZero B) nf) dom ∧
      b3 = .and (.and (.eq B (.const 0)) (geZero Bdot)) dom := by
  obtain ⟨d, V, Vdot, B, Bdot, h1, h2, h3, h4⟩ := queriesDouble_inv h
  rcases h4 with ⟨h4, -⟩ | ⟨-, h4⟩
  · rw [hc] at h4; cases h4
  unfold initialiseDomains at h1
  split at h1
  · cases h1
  rename_i d0 hd0
  rw [if_pos hc] at h1
  simp only [bind, Except.bind] at h1
  split at h1
  · cases h1
  rename_i S hS
  split at h1
  · cases h1
  rename_i nf hnf
  cases h1
  have hsub : ∀ l, l ≠ XNF → Dict.getE (Dict.set d0 XNF nf) l = Dict.getE d0 l := fun l hl => getE_set_ne _ _ hl
  unfold rarConstraints at h4
  simp only [bind, Except.bind] at h4
  split at h4
  · cases h4
  rename_i r hr
  split at h4
  · cases h4
  rename_i d' hd'
  split at h4
  · cases h4
  rename_i b hb
  split at h4
  · cases h4
  rename_i b' hb'
  cases h4
  rw [rwsConstraints_congr hsub] at hr
  unfold goalFinalDomains at hd'
  simp only [bind, Except.bind] at hd'
  split at hd'
  · cases hd'
  rename_i goal hgoal
  rw [getE_set_self] at hd'
  cases hd'
  rw [hsub _ (by decide)] at hgoal
  unfold barrierConstraints at hb
  simp only [bind, Except.bind] at hb
  rw [getE_set_ne _ _ (by decide : XD ≠ XU), getE_set_ne _ _ (by decide : XD ≠ XI), hsub _ (by decide),
    getE_set_self, getE_set_ne _ _ (by decide : XI ≠ XU), getE_set_self] at hb
  split at hb
  · cases hb
  rename_i dom hdom
  cases hb
  have hq : queriesCT s.rwsHalf = .ok r := by
    simp only [queriesCT, Setup.rwsHalf, initialiseDomains, hd0, h2, bind, Except.bind]
    exact hr
  refine ⟨r, d0, nf, S, B, Bdot, dom, goal, _, _, _, hd0, getE_ok.1 hS, hnf, hq, h3, hdom, hgoal, ?_, rfl, rfl, rfl⟩
  have : relabelBarrier [[(XI, ((geZero B).and goal).and dom), (XU, ((leZero B).and nf).and dom)],
        [(XD, ((Formula.eq B (Term.const 0)).and (geZero Bdot)).and dom)]]
      = .ok [[(XG, ((geZero B).and goal).and dom), (XNF, ((leZero B).and nf).and dom)],
        [(XF, ((Formula.eq B (Term.const 0)).and (geZero Bdot)).and dom)]] := rfl
  rw [this] at hb'
  cases hb'
  rfl

theorem rar_distinct {s : Setup} {barr : Net} {groups} (hc : s.cert = .RAR)
    (h : queriesDouble s barr = .ok groups) : DistinctLabels groups := by
  obtain ⟨g1, d, nf, S, B, Bdot, dom, goal, b1, b2, b3, -, -, -, hq, -, -, -, rfl, -⟩ := rar_split hc h
  obtain ⟨d', V, Vdot, -, -, h3⟩ := queriesCT_inv hq
  have h3' : rwsConstraints d' V Vdot = .ok g1 := h3
  unfold rwsConstraints at h3'
  simp only [bind, Except.bind] at h3'
  repeat' split at h3'
  all_goals first | cases h3'; done | skip
  cases h3'
  simp [DistinctLabels, queries, XI, XU, XD, XG, XNF, XF]

/-- **C16 (remain).** If the reach-avoid-remain pair is verified, a trajectory that is in the goal set at some time and
stays in the domain from then on, is in the final set at all later times. -/
theorem C16_remains_in_final (s : Setup) (hs : SmoothSetup s) (barr : Net) (hbn : barr.inputSize = s.nVars)
    (hbs : smoothActs barr) (hc : s.cert = .RAR) (groups) (hq : queriesDouble s barr = .ok groups)
    (ha : Accepted s.nVars groups)
    (T t₁ : ℝ) (ξ : ℝ → Pt s.nVars) (hξ : Trajectory (field s.nVars s.f) T ξ) (ht₁ : t₁ ∈ Icc 0 T)
    (h0 : ξ t₁ ∈ region s.nVars s.domains XG) (hin : ∀ t ∈ Icc t₁ T, ξ t ∈ region s.nVars s.domains XD) :
    ∀ t ∈ Icc t₁ T, ξ t ∈ region s.nVars s.domains XF := by
  have href := accepted_refutes (rar_distinct hc hq) ha
  obtain ⟨g1, d, nf, S, B, Bdot, dom, goal, b1, b2, b3, hd, hS, hnf, -, hB, hdom, hgoal, rfl, rfl, rfl, rfl⟩ :=
    rar_split hc hq
  have H1 := href _ (List.mem_append_right _ (List.mem_cons_self ..)) _ (List.mem_cons_self ..)
  have H2 := href _ (List.mem_append_right _ (List.mem_cons_self ..)) _
    (List.mem_cons_of_mem _ (List.mem_cons_self ..))
  have H3 := href _ (List.mem_append_right _ (List.mem_cons_of_mem _ (List.mem_cons_self ..))) _
    (List.mem_cons_self ..)
  simp only [Formula.holds, geZero, leZero, Term.eval, Rat.cast_zero] at H1 H2 H3
  have rD := entry_region hs.lib hs.sets hd (by decide) hdom
  have rG := entry_region hs.lib hs.sets hd (by decide) hgoal
  obtain ⟨nf', hnf', rN⟩ := C21_complement_formula_denotes_complement s.lib s.nVars S (wf_of_get hs.sets hS)
    (by rcases hs.lib with h | h <;> simp [h, supports])
  rw [hnf] at hnf'
  cases hnf'
  intro t ht
  by_contra hnot
  have hlt := fence_lt (c := 0) (deriv_restrict (traj_deriv hB hbn hbs hξ) ht₁.1 le_rfl)
    (by
      rw [← certValue_eq hB]
      by_contra hcon
      exact H1 (ξ t₁).env ⟨⟨not_lt.1 hcon, (rG _).2 h0⟩, (rD _).2 (hin t₁ ⟨le_rfl, ht₁.2⟩)⟩)
    (fun r hr e => by
      by_contra hcon
      exact H3 (ξ r).env ⟨⟨by rw [certValue_eq hB]; exact e, not_lt.1 hcon⟩, (rD _).2 (hin r hr)⟩) t ht
  refine H2 (ξ t).env ⟨⟨by rw [certValue_eq hB]; exact hlt.le, (rN _).2 fun h => hnot ?_⟩, (rD _).2 (hin t ht)⟩
  simpa [region, hS] using h

/-- **C16.** Reach, avoid and remain: for a bounded safe set there is a time `τ` such that every trajectory from the
initial set that stays in the domain reaches the goal within `τ`, is in the safe set until it has visited the goal,
and is in the final set ever after any visit of the goal. -/
theorem C16_reach_avoid_remain (s : Setup) (hs : SmoothSetup s) (barr : Net) (hbn : barr.inputSize = s.nVars)
    (hbs : smoothActs barr) (hr : ReachSets s.nVars s.domains) (hc : s.cert = .RAR) (groups)
    (hq : queriesDouble s barr = .ok groups) (ha : Accepted s.nVars groups)
    (hbd : Bornology.IsBounded (region s.nVars s.domains XS)) :
    ∃ τ : ℝ, ∀ (T : ℝ) (ξ : ℝ → Pt s.nVars), Trajectory (field s.nVars s.f) T ξ → τ ≤ T →
      ξ 0 ∈ region s.nVars s.domains XI → (∀ t ∈ Icc 0 T, ξ t ∈ region s.nVars s.domains XD) →
      (∃ t ∈ Icc 0 τ, ξ t ∈ region s.nVars s.domains XG) ∧
      (∀ t ∈ Icc 0 T, ξ t ∈ region s.nVars s.domains XS ∨
        ∃ r ∈ Icc 0 t, ξ r ∈ region s.nVars s.domains XG) ∧
      ∀ r ∈ Icc 0 T, ξ r ∈ region s.nVars s.domains XG →
        ∀ t ∈ Icc r T, ξ t ∈ region s.nVars s.domains XF := by
  have href := accepted_refutes (rar_distinct hc hq) ha
  obtain ⟨g1, d, nf, S, B, Bdot, dom, goal, b1, b2, b3, hd, hS, hnf, hq1, hB, hdom, hgoal, e, -⟩ := rar_split hc hq
  have hd1 : DistinctLabels g1 := by
    obtain ⟨d', V, Vdot, -, -, h3⟩ := queriesCT_inv hq1
    exact rws_distinct h3
  have hacc : Accepted s.nVars g1 := accepted_of_refuted hd1 (fun g hg => href g (by rw [e]; simp [hg]))
  obtain ⟨τ, hτ⟩ := C12_rws_reaches_goal s.rwsHalf ⟨hs.lib, hs.sets, hs.size, hs.smooth⟩ hr (Or.inl rfl) g1 hq1 hacc
    hbd
  refine ⟨τ, fun T ξ hξ hT h0 hin => ?_⟩
  obtain ⟨a, b⟩ := hτ T ξ hξ hT h0
  refine ⟨a, b, fun r hr' hg => C16_remains_in_final s hs barr hbn hbs hc groups hq ha T r ξ hξ hr' hg
    fun t ht => hin t ⟨hr'.1.trans ht.1, ht.2⟩⟩

/-! ### non-vacuity -/

/-- The reach example with final set `[-3/4, 3/4]`, barrier network `x² - 1/2`. -/
def exRAR : Setup := { exReach .RAR with
  domains := [(XD, .rectangle [-2] [2] none), (XI, .rectangle [3/5] [13/20] none), (XS, .rectangle [-1] [1] none),
    (XSB, .rectangle [-1] [1] none), (XG, .rectangle [-1/2] [1/2] none), (XF, .rectangle [-3/4] [3/4] none)] }

def exRARNet : Net := ⟨1, [⟨[[1]], some [0]⟩, ⟨[[1]], some [-1/2]⟩], [.square]⟩

theorem exRAR_smooth : SmoothSetup exRAR ∧ smoothActs exRARNet :=
  ⟨⟨Or.inl rfl, by
    intro e he; simp [exRAR] at he
    rcases he with rfl | rfl | rfl | rfl | rfl | rfl <;> simp [WF, exRAR, exReach, noSel], rfl,
    by intro a ha; simp [exRAR, exReach] at ha; simp [ha]⟩, by intro a ha; simp [exRARNet] at ha; simp [ha]⟩

theorem exRAR_sets : ReachSets 1 exRAR.domains :=
  ⟨(exReach_sets .RAR).initSafe, (exReach_sets .RAR).initDom, (exReach_sets .RAR).borderDom,
    (exReach_sets .RAR).border, (exReach_sets .RAR).borderOK⟩

theorem exRAR_accepted : ∃ groups, queriesDouble exRAR exRARNet = .ok groups ∧ Accepted 1 groups := by
  have h1 : roundBy 3 1 = 1 := by decide +kernel
  have h0 : roundBy 3 0 = 0 := by decide +kernel
  have h2 : roundBy 3 1000000 = 1000000 := by decide +kernel
  have h3 : roundBy 3 (-500000) = -500000 := by decide +kernel
  have h4 : roundBy 3 (-1/2) = -1/2 := by decide +kernel
  refine ⟨[[(XI, _), (XU, _)], [(XD, _)], [(XG, _), (XNF, _)], [(XF, _)]], rfl, accepted_of_refuted
    (by simp [DistinctLabels, queries, XI, XU, XD, XG, XNF, XF]) ?_⟩
  intro g hg q hq ρ h
  simp only [List.mem_cons, List.not_mem_nil, or_false, List.cons_append, List.nil_append] at hg
  rcases hg with rfl | rfl | rfl | rfl <;> simp only [List.mem_cons, List.not_mem_nil, or_false] at hq
  · rcases hq with rfl | rfl
    all_goals
      simp [Formula.holds, Formula.conj, Term.eval, Term.sum, leZero, geZero, gtZero, factors, vars, h1, h0,
        h2, h3, exRAR, exReach, eyeJac, postVal, postGrad, gradTerms, hiddenBias, diagJac] at h
      norm_num at h
      norm_cast at h
    · nlinarith [h.1.1, h.1.2.1, h.1.2.2]
    · obtain ⟨⟨a, b⟩, c⟩ := h
      have e : ρ 0 = -1 ∨ ρ 0 = 1 := by
        have := b.1
        push_cast at this
        simpa using this
      rcases e with e | e <;> (rw [e] at a; norm_num at a)
  · subst hq
    simp [Formula.holds, Formula.conj, Term.eval, Term.sum, leZero, geZero, gtZero, factors, vars, h1, h0,
        h2, h3, exRAR, exReach, eyeJac, postVal, postGrad, gradTerms, hiddenBias, diagJac, gamma] at h
    norm_num at h
    norm_cast at h
    obtain ⟨⟨a, b, c⟩, d⟩ := h
    rcases le_or_gt (-(1/2)) (ρ 0) with h' | h'
    · nlinarith [c h']
    · nlinarith
  · rcases hq with rfl | rfl
    all_goals
      simp [Formula.holds, Formula.conj, Term.eval, Term.sum, leZero, geZero, gtZero, factors, vars, h1, h0,
        h2, h3, h4, exRAR, exRARNet, exReach, eyeJac, postVal, postGrad, gradTerms, hiddenBias, diagJac] at h
      norm_num at h
      norm_cast at h
    · nlinarith [h.1.1, h.1.2.1, h.1.2.2]
    · obtain ⟨⟨a, b⟩, c⟩ := h
      push_cast at a b
      rcases le_or_gt (-(3/4)) (ρ 0) with h' | h'
      · nlinarith [b h']
      · nlinarith
  · subst hq
    simp [Formula.holds, Formula.conj, Term.eval, Term.sum, leZero, geZero, gtZero, factors, vars, h1, h0,
        h2, h3, h4, exRAR, exRARNet, exReach, eyeJac, postVal, postGrad, gradTerms, hiddenBias, diagJac, gamma] at h
    norm_num at h
    try simp only [zpow_ofNat] at h
    nlinarith [h.1.1, h.1.2]

end Fossil

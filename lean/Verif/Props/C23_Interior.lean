/-
C23, second half: the interior formula is the topological interior, and the boundary formula is the set formula without the interior
formula.
-/
import Verif.Props.C23_Boundary

namespace Fossil
open Spec

/-- If every point can be moved continuously so that `g` increases at once, the interior of a sub-level set is the strict one. -/
theorem interior_sublevel {X : Type*} [TopologicalSpace X] {g : X → ℝ} (hg : Continuous g)
    (hmove : ∀ p, ∃ γ : ℝ → X, Continuous γ ∧ γ 0 = p ∧ ∀ t > 0, g p < g (γ t)) (R : ℝ) :
    interior {p | g p ≤ R} = {p | g p < R} := by
  apply Set.Subset.antisymm
  · intro p hp
    have hle : g p ≤ R := by have := (interior_subset hp : p ∈ {p | g p ≤ R}); rwa [Set.mem_ofPred_eq] at this
    refine lt_of_le_of_ne hle fun he => ?_
    obtain ⟨γ, hc, h0, hi⟩ := hmove p
    have hn : γ ⁻¹' interior {p | g p ≤ R} ∈ nhds (0:ℝ) := (isOpen_interior.preimage hc).mem_nhds (by rw [Set.mem_preimage, h0]; exact hp)
    obtain ⟨ε, hε, hball⟩ := Metric.mem_nhds_iff.1 hn
    have hm : (ε / 2) ∈ Metric.ball (0:ℝ) ε := by rw [Metric.mem_ball, Real.dist_eq]; rw [sub_zero, abs_of_pos (by linarith)]; linarith
    have h1 : g (γ (ε/2)) ≤ R := by have := (interior_subset (hball hm) : γ (ε/2) ∈ {p | g p ≤ R}); rwa [Set.mem_ofPred_eq] at this
    have := hi (ε/2) (by linarith)
    linarith
  · exact interior_maximal (fun p hp => by rw [Set.mem_ofPred_eq] at hp ⊢; exact le_of_lt hp) (isOpen_lt hg continuous_const)

/-- Squared (scaled) distance: moving the first coordinate away increases it at once. -/
theorem ell_move {m : ℕ} (a c : List ℚ) (a0 c0 : ℚ) (ha : a0 ≠ 0) (p : Pt (m+1)) :
    ∃ γ : ℝ → Pt (m+1), Continuous γ ∧ γ 0 = p ∧ ∀ t > 0,
      (List.zipWith (fun a b => (a - b) ^ 2) (List.zipWith (· * ·) (reals (a0 :: a)) (List.ofFn p)) (reals (c0 :: c))).sum <
      (List.zipWith (fun a b => (a - b) ^ 2) (List.zipWith (· * ·) (reals (a0 :: a)) (List.ofFn (γ t))) (reals (c0 :: c))).sum := by
  have ha' : (a0:ℝ) ≠ 0 := by exact_mod_cast ha
  obtain ⟨s, hs1, hs2⟩ : ∃ s : ℝ, s ^ 2 = 1 ∧ 0 ≤ s * (a0 * p 0 - c0) := by
    by_cases h : 0 ≤ (a0 * p 0 - c0 : ℝ)
    · exact ⟨1, by norm_num, by linarith⟩
    · exact ⟨-1, by norm_num, by linarith⟩
  refine ⟨fun t => Function.update p 0 (p 0 + t * s / a0), ?_, by simp, fun t ht => ?_⟩
  · exact continuous_const.update 0 (by fun_prop)
  · simp only [List.ofFn_succ, reals, List.map_cons, List.zipWith_cons_cons, List.sum_cons, Function.update_self,
      Function.update_of_ne (Fin.succ_ne_zero _)]
    have : (a0:ℝ) * (p 0 + t * s / a0) - c0 = (a0 * p 0 - c0) + t * s := by field_simp; ring
    rw [this]
    nlinarith [mul_pos ht ht, mul_nonneg ht.le hs2]

namespace Spec

/-- Sets with an interior formula: boxes, balls and ellipses over all coordinates; for an ellipse no coefficient is zero. -/
def HasInterior : PySet → Prop
  | .rectangle _ _ _ | .openRectangle _ _ _ => True
  | .sphere _ _ ds | .openSphere _ _ ds => noSel ds
  | .ellipse a _ _ ds => noSel ds ∧ ∀ q ∈ a, q ≠ 0
  | _ => False

end Spec

theorem selCount_noSel {ds} (h : noSel ds) (n : ℕ) : selCount n ds = n := by rcases h with rfl | rfl <;> rfl

/-- **C23.** For boxes, balls and ellipses in any positive dimension `generate_interior` succeeds and its formula holds exactly at the
points of the topological interior of the documented set. -/
theorem C23_interior_formula_is_interior (b : Lib) (hb : b = .z3 ∨ b = .dreal) (n : ℕ) (hn : 0 < n) (S : PySet) (hS : WF n S)
    (hI : HasInterior S) : ∃ φ, S.generateInterior b (vars n) = .ok φ ∧ ∀ p, φ.holds p.env ↔ p ∈ interior (docSet n S) := by
  have hAnd : b.has .And = true := by rcases hb with rfl | rfl <;> rfl
  obtain ⟨m, rfl⟩ : ∃ m, n = m + 1 := ⟨n - 1, by omega⟩
  have hrect : ∀ (lb ub : List ℚ), lb.length = m+1 → ub.length = m+1 →
      ∃ φ, rectDomain b Formula.lt lb ub (vars (m+1)) = .ok φ ∧ ∀ p : Pt (m+1), φ.holds p.env ↔
        ∀ i : Fin (m+1), ((lb.getD i 0 : ℚ) : ℝ) < p i ∧ p i < ((ub.getD i 0 : ℚ) : ℝ) := by
    intro lb ub h1 h2
    obtain ⟨φ, hφ, H⟩ := rectDomain_correct b hAnd h1 h2 true
    refine ⟨φ, hφ, fun p => ?_⟩
    rw [H p]
    simp only [if_true]
    constructor
    · rintro ⟨h3, h4⟩ i
      have := h3 i i.2; have h' := h4 i i.2
      rw [Pt.env_fin] at this h'
      exact ⟨this, h'⟩
    · intro h
      refine ⟨fun i hi => ?_, fun i hi => ?_⟩
      · rw [Pt.env_lt _ hi]; exact (h ⟨i, hi⟩).1
      · rw [Pt.env_lt _ hi]; exact (h ⟨i, hi⟩).2
  cases S with
  | rectangle lb ub ds =>
    obtain ⟨h1, h2, h3⟩ := hS
    obtain ⟨φ, hφ, H⟩ := hrect lb ub h1 h2
    refine ⟨φ, hφ, fun p => ?_⟩
    have hset : docSet (m+1) (.rectangle lb ub ds) =
        Set.pi Set.univ (fun i : Fin (m+1) => Set.Icc ((lb.getD i 0 : ℚ) : ℝ) ((ub.getD i 0 : ℚ) : ℝ)) := by
      ext q
      simp only [docSet, Set.mem_ofPred_eq, coords_noSel h3, Set.mem_pi, Set.mem_univ, true_implies, Set.mem_Icc]
      rw [forall₂_ofFn_left _ _ _ h1, forall₂_ofFn_right _ _ _ h2]
      constructor
      · rintro ⟨h4, h5⟩ i
        have := h4 i i.2; have h' := h5 i i.2
        rw [Pt.env_fin] at this h'
        exact ⟨this, h'⟩
      · intro h
        refine ⟨fun i hi => ?_, fun i hi => ?_⟩
        · rw [Pt.env_lt _ hi]; exact (h ⟨i, hi⟩).1
        · rw [Pt.env_lt _ hi]; exact (h ⟨i, hi⟩).2
    rw [H p, hset, interior_pi_set Set.finite_univ]
    simp [interior_Icc]
  | openRectangle lb ub ds =>
    obtain ⟨h1, h2, h3⟩ := hS
    obtain ⟨φ, hφ, H⟩ := hrect lb ub h1 h2
    refine ⟨φ, hφ, fun p => ?_⟩
    have hset : docSet (m+1) (.openRectangle lb ub ds) =
        Set.pi Set.univ (fun i : Fin (m+1) => Set.Ioo ((lb.getD i 0 : ℚ) : ℝ) ((ub.getD i 0 : ℚ) : ℝ)) := by
      ext q
      simp only [docSet, Set.mem_ofPred_eq, coords_noSel h3, Set.mem_pi, Set.mem_univ, true_implies, Set.mem_Ioo]
      rw [forall₂_ofFn_left _ _ _ h1, forall₂_ofFn_right _ _ _ h2]
      constructor
      · rintro ⟨h4, h5⟩ i
        have := h4 i i.2; have h' := h5 i i.2
        rw [Pt.env_fin] at this h'
        exact ⟨this, h'⟩
      · intro h
        refine ⟨fun i hi => ?_, fun i hi => ?_⟩
        · rw [Pt.env_lt _ hi]; exact (h ⟨i, hi⟩).1
        · rw [Pt.env_lt _ hi]; exact (h ⟨i, hi⟩).2
    rw [H p, hset, interior_pi_set Set.finite_univ]
    simp [interior_Ioo]
  | sphere c r ds =>
    obtain ⟨h1, h2, h3⟩ := hS
    have h3' : (0:ℝ) ≤ r := by exact_mod_cast h3
    obtain ⟨t, ht, H⟩ := sqDist_ok (x := symCoords (m+1) ds) (c := c) (by rw [length_symCoords, h1])
    rw [length_symCoords, ← h1] at ht
    refine ⟨.lt t (.const (r ^ 2)), by
      simp only [PySet.generateInterior, selectDims_vars h2, bind, Except.bind, ht, pure, Except.pure], fun p => ?_⟩
    simp only [Formula.holds, H, map_eval_symCoords, Term.eval]
    rw [selCount_noSel hI] at h1
    have hset : interior (docSet (m+1) (.sphere c r ds)) = {p : Pt (m+1) | euclid (coords ds p) (reals c) < r} := by
      refine interior_sublevel (continuous_euclid ds c) (fun p => ?_) _
      obtain ⟨c0, c', rfl⟩ : ∃ c0 c', c = c0 :: c' := by cases c with
        | nil => simp at h1
        | cons c0 c' => exact ⟨c0, c', rfl⟩
      obtain ⟨γ, g1, g2, g3⟩ := ell_move (List.replicate m 1) c' 1 c0 one_ne_zero p
      refine ⟨γ, g1, g2, fun t ht => ?_⟩
      have key : ∀ q : Pt (m+1), List.zipWith (· * ·) (reals (1 :: List.replicate m 1)) (List.ofFn q) = List.ofFn q := by
        intro q
        have := zipWith_one_mul (List.ofFn q)
        rw [List.length_ofFn] at this
        simpa [reals, List.replicate_succ] using this
      have := g3 t ht
      rw [key, key] at this
      rw [coords_noSel hI, coords_noSel hI]
      exact Real.sqrt_lt_sqrt (sum_sq_nonneg _ _) this
    rw [hset, Set.mem_ofPred_eq, euclid_lt_iff h3']; push_cast; rfl
  | openSphere c r ds =>
    obtain ⟨h1, h2, h3⟩ := hS
    have h3' : (0:ℝ) ≤ r := by exact_mod_cast h3
    obtain ⟨t, ht, H⟩ := sqDist_ok (x := symCoords (m+1) ds) (c := c) (by rw [length_symCoords, h1])
    rw [length_symCoords, ← h1] at ht
    refine ⟨.lt t (.const (r ^ 2)), by
      simp only [PySet.generateInterior, selectDims_vars h2, bind, Except.bind, ht, pure, Except.pure], fun p => ?_⟩
    simp only [Formula.holds, H, map_eval_symCoords, Term.eval]
    have hset : interior (docSet (m+1) (.openSphere c r ds)) = {p : Pt (m+1) | euclid (coords ds p) (reals c) < r} :=
      (isOpen_lt (continuous_euclid ds c) continuous_const).interior_eq
    rw [hset, Set.mem_ofPred_eq, euclid_lt_iff h3']; push_cast; rfl
  | ellipse a c r ds =>
    obtain ⟨h1, h2, h3, h4⟩ := hS
    obtain ⟨hds, hne⟩ := hI
    have h4' : (0:ℝ) ≤ r := by exact_mod_cast h4
    obtain ⟨t, ht, H⟩ := sqEll_ok (x := symCoords (m+1) ds) (c := c) (a := a)
      (by rw [length_symCoords, h1]) (by rw [h1, h2])
    rw [length_symCoords, ← h1] at ht
    have hg : ellGuard a ds = .ok () := by rcases hds with rfl | rfl <;> rfl
    refine ⟨.lt t (.const (r ^ 2)), by
      simp only [PySet.generateInterior, selectDims_vars h3, bind, Except.bind, ht, hg, pure, Except.pure], fun p => ?_⟩
    simp only [Formula.holds, H, map_eval_symCoords, Term.eval]
    rw [selCount_noSel hds] at h1 h2
    have hset : interior (docSet (m+1) (.ellipse a c r ds)) =
        {p : Pt (m+1) | euclid (List.zipWith (· * ·) (reals a) (coords ds p)) (reals c) < r} := by
      refine interior_sublevel (continuous_euclid_ell ds a c) (fun p => ?_) _
      obtain ⟨c0, c', rfl⟩ : ∃ c0 c', c = c0 :: c' := by cases c with
        | nil => simp at h1
        | cons c0 c' => exact ⟨c0, c', rfl⟩
      obtain ⟨a0, a', rfl⟩ : ∃ a0 a', a = a0 :: a' := by cases a with
        | nil => simp at h2
        | cons c0 c' => exact ⟨c0, c', rfl⟩
      obtain ⟨γ, g1, g2, g3⟩ := ell_move a' c' a0 c0 (hne a0 (by simp)) p
      refine ⟨γ, g1, g2, fun t ht => ?_⟩
      rw [coords_noSel hds, coords_noSel hds]
      exact Real.sqrt_lt_sqrt (sum_sq_nonneg _ _) (g3 t ht)
    rw [hset, Set.mem_ofPred_eq, euclid_lt_iff h4']; push_cast; rfl
  | _ => exact hI.elim

/-- **C23.** For boxes, balls and ellipses (also over selected coordinates) the boundary formula holds exactly where the set formula
holds and the interior formula does not. -/
theorem C23_boundary_is_set_minus_interior (b : Lib) (hb : b = .z3 ∨ b = .dreal) (n : ℕ) (S : PySet) (hS : WF n S)
    (hc : (∃ lb ub ds, S = .rectangle lb ub ds) ∨ (∃ c r ds, S = .sphere c r ds) ∨ (∃ a c r ds, S = .ellipse a c r ds)) :
    ∃ δ φ ψ, S.generateDomain b (vars n) = .ok δ ∧ S.generateInterior b (vars n) = .ok φ ∧ S.generateBoundary b (vars n) = .ok ψ ∧
      ∀ p : Pt n, ψ.holds p.env ↔ δ.holds p.env ∧ ¬ φ.holds p.env := by
  have hAnd : b.has .And = true := by rcases hb with rfl | rfl <;> rfl
  have hOr : b.has .Or = true := by rcases hb with rfl | rfl <;> rfl
  rcases hc with ⟨lb, ub, ds, rfl⟩ | ⟨c, r, ds, rfl⟩ | ⟨a, c, r, ds, rfl⟩
  · obtain ⟨h1, h2, h3⟩ := hS
    obtain ⟨φ, hφ, H⟩ := rectDomain_correct b hAnd h1 h2 true
    obtain ⟨δ, hδ, D⟩ := rectDomain_correct b hAnd h1 h2 false
    have hδ' : (PySet.rectangle lb ub ds).generateDomain b (vars n) = .ok δ := hδ
    refine ⟨δ, φ, _, hδ', hφ, by
      simp only [PySet.generateBoundary, hδ', Lib.need, hOr, hAnd, if_true, bind, Except.bind, h1,
        boundList_ok _ _ h1, boundList_ok _ _ h2, pure, Except.pure]; rfl, fun p => ?_⟩
    simp only [Formula.holds, Formula.holds_disj, List.mem_map, List.mem_range]
    rw [and_comm]
    refine and_congr_right fun hd => ?_
    rw [D p] at hd
    rw [H p]
    simp only [if_true, Bool.false_eq_true, if_false] at hd ⊢
    constructor
    · rintro (⟨_, ⟨i, hi, rfl⟩, h⟩ | ⟨_, ⟨i, hi, rfl⟩, h⟩) ⟨h5, h6⟩
      · simp [Formula.holds, Term.eval] at h
        have := h5 i hi; simp at this; linarith
      · simp [Formula.holds, Term.eval] at h
        have := h6 i hi; simp at this; linarith
    · intro h
      by_contra hcon
      push Not at hcon
      apply h
      refine ⟨fun i hi => lt_of_le_of_ne (hd.1 i hi) ?_, fun i hi => lt_of_le_of_ne (hd.2 i hi) ?_⟩
      · intro e
        exact hcon.1 _ ⟨i, hi, rfl⟩ (by simp [Formula.holds, Term.eval]; simpa using e.symm)
      · intro e
        exact hcon.2 _ ⟨i, hi, rfl⟩ (by simp [Formula.holds, Term.eval]; simpa using e)
  · obtain ⟨h1, h2, h3⟩ := hS
    obtain ⟨t, ht, H⟩ := sqDist_ok (x := symCoords n ds) (c := c) (by rw [length_symCoords, h1])
    rw [length_symCoords, ← h1] at ht
    refine ⟨.le t (.const (r ^ 2)), .lt t (.const (r ^ 2)), .eq t (.const (r ^ 2)), ?_, ?_, ?_, fun p => ?_⟩
    · simp only [PySet.generateDomain, selectDims_vars h2, bind, Except.bind, length_symCoords, ← h1, ht, pure, Except.pure]
    · simp only [PySet.generateInterior, selectDims_vars h2, bind, Except.bind, ht, pure, Except.pure]
    · simp only [PySet.generateBoundary, selectDims_vars h2, bind, Except.bind, ht, pure, Except.pure]
    · simp only [Formula.holds]
      rw [not_lt]
      exact le_antisymm_iff
  · obtain ⟨h1, h2, h3, h4⟩ := hS
    obtain ⟨t, ht, H⟩ := sqEll_ok (x := symCoords n ds) (c := c) (a := a)
      (by rw [length_symCoords, h1]) (by rw [h1, h2])
    rw [length_symCoords, ← h1] at ht
    have hg : ellGuard a ds = .ok () := by
      match ds with
      | none => rfl
      | some [] => rfl
      | some (d :: ds) => simp only [ellGuard]; rw [if_pos (by simpa [selCount] using h2)]
    refine ⟨.le t (.const (r ^ 2)), .lt t (.const (r ^ 2)), .eq t (.const (r ^ 2)), ?_, ?_, ?_, fun p => ?_⟩
    · simp only [PySet.generateDomain, selectDims_vars h3, bind, Except.bind, length_symCoords, ← h1, ht, hg, pure, Except.pure]
    · simp only [PySet.generateInterior, selectDims_vars h3, bind, Except.bind, ht, hg, pure, Except.pure]
    · simp only [PySet.generateBoundary, selectDims_vars h3, bind, Except.bind, ht, hg, pure, Except.pure]
    · simp only [Formula.holds]
      rw [not_lt]
      exact le_antisymm_iff

/-- Non-vacuity: the hypotheses hold for a box, a disc and an ellipse in the plane. -/
example : WF 2 (.rectangle [-1, -1] [1, 1] none) ∧ WF 2 (.sphere [0, 0] 1 none) ∧ WF 2 (.ellipse [2, 1] [0, 0] 1 none) ∧
    HasInterior (.ellipse [2, 1] [0, 0] 1 none) ∧ HasInterior (.sphere [0, 0] 1 none) := by
  refine ⟨⟨rfl, rfl, Or.inl rfl⟩, ⟨rfl, trivial, by norm_num⟩, ⟨rfl, rfl, trivial, by norm_num⟩, ⟨Or.inl rfl, ?_⟩, Or.inl rfl⟩
  intro q hq
  simp at hq
  rcases hq with rfl | rfl <;> norm_num

end Fossil

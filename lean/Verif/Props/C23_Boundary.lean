/- C23: trajectories leave a set only through its boundary formula. -/
import Verif.Lemmas.Domains
import Mathlib.Topology.Order.IntermediateValue
import Mathlib.Topology.Instances.Real.Lemmas

namespace Fossil
open Spec

/-- Set expressions for which `generate_boundary` is implemented and covers the topological boundary: the
torus must not select dimensions (the method ignores the selection), and `OpenRectangle` is excluded
(see `C23_open_rectangle_boundary_unsatisfiable`). -/
def BoundaryOK : PySet → Prop
  | .rectangle .. | .sphere .. | .openSphere .. | .ellipse .. | .bean .. | .empty => True
  | .torus _ _ _ ds => noSel ds
  | .setMinus S T => BoundaryOK S ∧ BoundaryOK T
  | .compl S => BoundaryOK S
  | .openRectangle .. | .posSphere .. | .reals _ | .union .. | .inter .. => False

theorem continuous_env {n : ℕ} (i : ℕ) : Continuous (fun p : Pt n => p.env i) := by
  unfold Pt.env
  split
  · exact continuous_apply _
  · exact continuous_const

theorem continuous_zipsum (u : List ℕ) (v : List ℝ) (n : ℕ) (a : List ℝ) :
    Continuous (fun p : Pt n => (List.zipWith (fun a b => (a - b) ^ 2)
      (List.zipWith (· * ·) a (u.map p.env)) v).sum) := by
  induction u generalizing v a with
  | nil => simp; exact continuous_const
  | cons i u ih =>
    cases a with
    | nil => simp; exact continuous_const
    | cons a0 a =>
      cases v with
      | nil => simp; exact continuous_const
      | cons b v =>
        simp only [List.map_cons, List.zipWith_cons_cons, List.sum_cons]
        exact (((continuous_const.mul (continuous_env i)).sub continuous_const).pow 2).add (ih v a)

/-- Index list of the coordinates a set constrains. -/
def selIdx (n : ℕ) : Option (List ℕ) → List ℕ
  | some (d :: ds) => d :: ds
  | _ => List.range n

theorem coords_eq_selIdx {n : ℕ} (ds) (p : Pt n) : coords ds p = (selIdx n ds).map p.env := by
  match ds with
  | some (d :: ds) => rfl
  | none =>
    simp only [coords, selIdx]
    apply List.ext_getElem
    · simp
    · intro i h1 h2; simp only [List.getElem_ofFn, List.getElem_map, List.getElem_range]
      rw [Pt.env_lt]
  | some [] =>
    simp only [coords, selIdx]
    apply List.ext_getElem
    · simp
    · intro i h1 h2; simp only [List.getElem_ofFn, List.getElem_map, List.getElem_range]
      rw [Pt.env_lt]

theorem continuous_euclid_ell {n : ℕ} (ds) (a c : List ℚ) :
    Continuous (fun p : Pt n => euclid (List.zipWith (· * ·) (reals a) (coords ds p)) (reals c)) := by
  unfold euclid
  simp only [coords_eq_selIdx]
  exact Real.continuous_sqrt.comp (continuous_zipsum _ _ _ _)

theorem zipWith_one_mul (l : List ℝ) : List.zipWith (· * ·) (List.replicate l.length (1:ℝ)) l = l := by
  induction l with
  | nil => rfl
  | cons a l ih => simp [List.replicate_succ, ih]

theorem continuous_euclid {n : ℕ} (ds) (c : List ℚ) :
    Continuous (fun p : Pt n => euclid (coords ds p) (reals c)) := by
  have := continuous_euclid_ell (n := n) ds (List.replicate (selIdx n ds).length 1) c
  have e : reals (List.replicate (selIdx n ds).length 1) = List.replicate (selIdx n ds).length 1 := by
    simp [reals]
  rw [e] at this
  convert this using 3 with p
  rw [coords_eq_selIdx]
  conv_lhs => rw [← zipWith_one_mul (List.map p.env (selIdx n ds))]
  simp

theorem euclid_eq_iff {u v : List ℝ} {r : ℝ} (hr : 0 ≤ r) :
    euclid u v = r ↔ (List.zipWith (fun a b => (a - b) ^ 2) u v).sum = r ^ 2 := by
  rw [euclid, Real.sqrt_eq_iff_eq_sq (sum_sq_nonneg u v) hr]

/-- **C23.** For every supported set expression the boundary formula exists and holds at every point of the
topological boundary of the documented set. -/
theorem C23_boundary_formula_covers_frontier (b : Lib) (hb : b = .z3 ∨ b = .dreal)
    (n : ℕ) (S : PySet) (hS : WF n S) (hB : BoundaryOK S) :
    ∃ φ, S.generateBoundary b (vars n) = .ok φ ∧ ∀ p ∈ frontier (docSet n S), φ.holds p.env := by
  have hAnd : b.has .And = true := by rcases hb with rfl | rfl <;> rfl
  have hOr : b.has .Or = true := by rcases hb with rfl | rfl <;> rfl
  have hF : b.has .False = true := by rcases hb with rfl | rfl <;> rfl
  induction S with
  | rectangle lb ub ds =>
    obtain ⟨h1, h2, h3⟩ := hS
    obtain ⟨φ, hφ, H⟩ := rectDomain_correct b hAnd h1 h2 false
    have hφ' : (PySet.rectangle lb ub ds).generateDomain b (vars n) = .ok φ := hφ
    refine ⟨_, by
      simp only [PySet.generateBoundary, hφ', Lib.need, hOr, hAnd, if_true, bind, Except.bind, h1,
        boundList_ok _ _ h1, boundList_ok _ _ h2, pure, Except.pure]; rfl, fun p hp => ?_⟩
    have hset : docSet n (.rectangle lb ub ds) =
        {p : Pt n | (∀ i < n, ((lb.getD i 0 : ℚ) : ℝ) ≤ p.env i) ∧ (∀ i < n, p.env i ≤ ((ub.getD i 0 : ℚ) : ℝ))} := by
      ext q
      simp only [docSet, Set.mem_ofPred_eq, coords_noSel h3]
      rw [forall₂_ofFn_left _ _ _ h1, forall₂_ofFn_right _ _ _ h2]
    have hclosed : IsClosed (docSet n (.rectangle lb ub ds)) := by
      rw [hset]
      simp only [Set.setOf_and, Set.setOf_forall]
      refine IsClosed.inter ?_ ?_
      · exact isClosed_iInter fun i => isClosed_iInter fun _ => isClosed_le continuous_const (continuous_env i)
      · exact isClosed_iInter fun i => isClosed_iInter fun _ => isClosed_le (continuous_env i) continuous_const
    have hpS : p ∈ docSet n (.rectangle lb ub ds) := hclosed.frontier_subset hp
    have hopen : IsOpen {p : Pt n | (∀ i < n, ((lb.getD i 0 : ℚ) : ℝ) < p.env i) ∧ (∀ i < n, p.env i < ((ub.getD i 0 : ℚ) : ℝ))} := by
      simp only [Set.setOf_and, Set.setOf_forall]
      refine IsOpen.inter ?_ ?_
      · exact (Set.finite_Iio n).isOpen_biInter fun i _ => isOpen_lt continuous_const (continuous_env i)
      · exact (Set.finite_Iio n).isOpen_biInter fun i _ => isOpen_lt (continuous_env i) continuous_const
    rw [hset] at hpS
    have hnint : ¬ ((∀ i < n, ((lb.getD i 0 : ℚ) : ℝ) < p.env i) ∧ (∀ i < n, p.env i < ((ub.getD i 0 : ℚ) : ℝ))) := by
      intro hint
      have : p ∈ interior (docSet n (.rectangle lb ub ds)) := by
        refine mem_interior.2 ⟨_, ?_, hopen, hint⟩
        rw [hset]
        intro q hq
        exact ⟨fun i hi => (hq.1 i hi).le, fun i hi => (hq.2 i hi).le⟩
      exact hp.2 this
    simp only [Formula.holds]
    refine ⟨?_, (H p).2 (by simpa using hpS)⟩
    simp only [Formula.holds_disj, List.mem_map, List.mem_range]
    by_contra hcon
    push Not at hcon
    apply hnint
    refine ⟨fun i hi => lt_of_le_of_ne (hpS.1 i hi) ?_, fun i hi => lt_of_le_of_ne (hpS.2 i hi) ?_⟩
    · intro e
      exact hcon.1 _ ⟨i, hi, rfl⟩ (by simp [Formula.holds, Term.eval]; simpa using e.symm)
    · intro e
      exact hcon.2 _ ⟨i, hi, rfl⟩ (by simp [Formula.holds, Term.eval]; simpa using e)
  | sphere c r ds =>
    obtain ⟨h1, h2, h3⟩ := hS
    have h3' : (0:ℝ) ≤ r := by exact_mod_cast h3
    obtain ⟨t, ht, H⟩ := sqDist_ok (x := symCoords n ds) (c := c) (by rw [length_symCoords, h1])
    rw [length_symCoords, ← h1] at ht
    refine ⟨.eq t (.const (r ^ 2)), by
      simp only [PySet.generateBoundary, selectDims_vars h2, bind, Except.bind, ht, pure, Except.pure], fun p hp => ?_⟩
    have := frontier_le_subset_eq (continuous_euclid ds c) continuous_const hp
    simp only [Set.mem_ofPred_eq] at this
    simp only [Formula.holds, H, map_eval_symCoords, Term.eval]
    rw [euclid_eq_iff h3'] at this; push_cast; exact this
  | openSphere c r ds =>
    obtain ⟨h1, h2, h3⟩ := hS
    have h3' : (0:ℝ) ≤ r := by exact_mod_cast h3
    obtain ⟨t, ht, H⟩ := sqDist_ok (x := symCoords n ds) (c := c) (by rw [length_symCoords, h1])
    rw [length_symCoords, ← h1] at ht
    refine ⟨.eq t (.const (r ^ 2)), by
      simp only [PySet.generateBoundary, selectDims_vars h2, bind, Except.bind, ht, pure, Except.pure], fun p hp => ?_⟩
    have := frontier_lt_subset_eq (continuous_euclid ds c) continuous_const hp
    simp only [Set.mem_ofPred_eq] at this
    simp only [Formula.holds, H, map_eval_symCoords, Term.eval]
    rw [euclid_eq_iff h3'] at this; push_cast; exact this
  | ellipse a c r ds =>
    obtain ⟨h1, h2, h3, h4⟩ := hS
    have h4' : (0:ℝ) ≤ r := by exact_mod_cast h4
    obtain ⟨t, ht, H⟩ := sqEll_ok (x := symCoords n ds) (c := c) (a := a)
      (by rw [length_symCoords, h1]) (by rw [h1, h2])
    rw [length_symCoords, ← h1] at ht
    have hg : ellGuard a ds = .ok () := by
      match ds with
      | none => rfl
      | some [] => rfl
      | some (d :: ds) => simp only [ellGuard]; rw [if_pos (by simpa [selCount] using h2)]
    refine ⟨.eq t (.const (r ^ 2)), by
      simp only [PySet.generateBoundary, selectDims_vars h3, bind, Except.bind, ht, hg, pure, Except.pure], fun p hp => ?_⟩
    have := frontier_le_subset_eq (continuous_euclid_ell ds a c) continuous_const hp
    simp only [Set.mem_ofPred_eq] at this
    simp only [Formula.holds, H, map_eval_symCoords, Term.eval]
    rw [euclid_eq_iff h4'] at this; push_cast; exact this
  | torus c ro ri ds =>
    obtain ⟨h1, h2, h3, h4⟩ := hS
    have h3' : (0:ℝ) ≤ ri := by exact_mod_cast h3
    have h4' : (0:ℝ) ≤ ro := by exact_mod_cast (h3.trans h4.le)
    have hsel : selCount n ds = n := by rcases hB with rfl | rfl <;> rfl
    have hsym : symCoords n ds = vars n := by rcases hB with rfl | rfl <;> rfl
    obtain ⟨t, ht, H⟩ := sqDist_ok (x := symCoords n ds) (c := c) (by rw [length_symCoords, h1])
    rw [length_symCoords, ← h1, hsym] at ht
    refine ⟨.or (.eq t (.const (ri ^ 2))) (.eq t (.const (ro ^ 2))), by
      simp only [PySet.generateBoundary, Lib.need, hOr, if_true, bind, Except.bind, ht, pure, Except.pure], fun p hp => ?_⟩
    have hsub : frontier (docSet n (.torus c ro ri ds)) ⊆
        {p : Pt n | (ri : ℝ) = euclid (coords ds p) (reals c)} ∪ {p : Pt n | euclid (coords ds p) (reals c) = ro} := by
      refine (frontier_inter_subset {p : Pt n | (ri : ℝ) ≤ euclid (coords ds p) (reals c)}
        {p : Pt n | euclid (coords ds p) (reals c) ≤ ro}).trans ?_
      intro q hq
      rcases hq with hq | hq
      · exact .inl (frontier_le_subset_eq continuous_const (continuous_euclid ds c) hq.1)
      · exact .inr (frontier_le_subset_eq (continuous_euclid ds c) continuous_const hq.2)
    simp only [Formula.holds, H, map_eval_symCoords, Term.eval]
    push_cast
    rcases hsub hp with h | h
    · exact .inl ((euclid_eq_iff h3').1 (Eq.symm h))
    · exact .inr ((euclid_eq_iff h4').1 h)
  | bean c r =>
    obtain ⟨h1, rfl⟩ := hS
    obtain ⟨c0, c1, rfl⟩ : ∃ c0 c1, c = [c0, c1] := by
      match c, h1 with
      | [c0, c1], _ => exact ⟨c0, c1, rfl⟩
    refine ⟨_, by simp only [PySet.generateBoundary, beanPoly, vars, List.range, List.range.loop,
      List.map, bind, Except.bind, pure, Except.pure]; rfl, fun p hp => ?_⟩
    have hset : docSet 2 (.bean [c0, c1] r) = {p : Pt 2 |
        ((p 0 - c0) ^ 2 + (p 1 - c1) ^ 2) ^ 2 ≤ r * ((p 0 - c0) ^ 3 - (p 1 - c1) ^ 3)} := by
      ext q
      simp only [docSet, Set.mem_ofPred_eq, reals, List.map_cons, List.map_nil, List.ofFn_succ,
        List.ofFn_zero, List.cons.injEq, and_true]
      constructor
      · rintro ⟨x, y, d0, d1, ⟨rfl, rfl⟩, ⟨rfl, rfl⟩, h⟩; exact h
      · intro h; exact ⟨_, _, _, _, ⟨rfl, rfl⟩, ⟨rfl, rfl⟩, h⟩
    rw [hset] at hp
    have := frontier_le_subset_eq (f := fun p : Pt 2 => ((p 0 - c0) ^ 2 + (p 1 - c1) ^ 2) ^ 2)
      (g := fun p : Pt 2 => r * ((p 0 - c0) ^ 3 - (p 1 - c1) ^ 3)) (by fun_prop) (by fun_prop) hp
    simp only [Set.mem_ofPred_eq] at this
    have e0 : p.env 0 = p 0 := Pt.env_fin p 0
    have e1 : p.env 1 = p 1 := Pt.env_fin p 1
    simp only [Formula.holds, Term.eval, e0, e1, zpow_ofNat]
    push_cast
    linarith
  | empty =>
    refine ⟨.ff, by simp [PySet.generateBoundary, Lib.need, hF, bind, Except.bind, pure, Except.pure], ?_⟩
    simp [docSet]
  | setMinus S T ihS ihT =>
    obtain ⟨φ, hφ, H⟩ := ihS hS.1 hB.1
    obtain ⟨ψ, hψ, H'⟩ := ihT hS.2 hB.2
    refine ⟨.or φ ψ, by simp [PySet.generateBoundary, Lib.need, hOr, hφ, hψ, bind, Except.bind, pure, Except.pure], ?_⟩
    intro p hp
    have hp' : p ∈ frontier (docSet n S ∩ (docSet n T)ᶜ) := hp
    rcases frontier_inter_subset _ _ hp' with h | h
    · exact .inl (H p h.1)
    · exact .inr (H' p (by simpa using h.2))
  | compl S ih =>
    obtain ⟨φ, hφ, H⟩ := ih hS hB
    exact ⟨φ, hφ, fun p hp => H p (by simpa [docSet] using hp)⟩
  | openRectangle | posSphere | reals | union | inter => exact hB.elim

/-- A continuous path on `[a, b]` from a set to outside it passes the topological boundary; up to then it was
in the set. -/
theorem exists_exit {n : ℕ} {A : Set (Pt n)} {γ : ℝ → Pt n} {a b : ℝ} (hab : a ≤ b)
    (hγ : ContinuousOn γ (Set.Icc a b)) (ha : γ a ∈ A) (hb : γ b ∉ A) :
    ∃ t ∈ Set.Icc a b, γ t ∈ frontier A ∧ ∀ s ∈ Set.Ico a t, γ s ∈ A := by
  set T : Set ℝ := {t | t ∈ Set.Icc a b ∧ γ t ∉ A} with hT
  have hbT : b ∈ T := ⟨⟨hab, le_rfl⟩, hb⟩
  have hbdd : BddBelow T := ⟨a, fun t ht => ht.1.1⟩
  set τ := sInf T with hτ
  have haτ : a ≤ τ := le_csInf ⟨b, hbT⟩ fun t ht => ht.1.1
  have hτb : τ ≤ b := csInf_le hbdd hbT
  have hbefore : ∀ s ∈ Set.Ico a τ, γ s ∈ A := by
    intro s hs
    by_contra h
    have : τ ≤ s := csInf_le hbdd ⟨⟨hs.1, hs.2.le.trans hτb⟩, h⟩
    exact absurd hs.2 (not_lt.2 this)
  refine ⟨τ, ⟨haτ, hτb⟩, ?_, hbefore⟩
  have hcont : ContinuousWithinAt γ (Set.Icc a b) τ := hγ τ ⟨haτ, hτb⟩
  rw [frontier_eq_closure_inter_closure]
  refine ⟨?_, ?_⟩
  · rcases haτ.eq_or_lt with h | h
    · rw [← h]; exact subset_closure ha
    · have hmem : τ ∈ closure (Set.Ico a τ) := by
        rw [closure_Ico h.ne]; exact ⟨haτ, le_rfl⟩
      have := (hcont.mono (s := Set.Ico a τ) (fun s hs => ⟨hs.1, hs.2.le.trans hτb⟩)).mem_closure_image hmem
      exact closure_mono (by rintro _ ⟨s, hs, rfl⟩; exact hbefore s hs) this
  · have hmem : τ ∈ closure T := csInf_mem_closure ⟨b, hbT⟩ hbdd
    have := (hcont.mono (s := T) (fun s hs => hs.1)).mem_closure_image hmem
    exact closure_mono (by rintro _ ⟨s, hs, rfl⟩; exact hs.2) this

/-- **C23 (paths).** Any continuous path that starts in a supported set and ends outside passes a point where
the boundary formula holds, having been in the set up to that time. -/
theorem C23_paths_cross_boundary_formula (b : Lib) (hb : b = .z3 ∨ b = .dreal)
    (n : ℕ) (S : PySet) (hS : WF n S) (hB : BoundaryOK S)
    (γ : ℝ → Pt n) (t₀ t₁ : ℝ) (h01 : t₀ ≤ t₁) (hγ : ContinuousOn γ (Set.Icc t₀ t₁))
    (hin : γ t₀ ∈ docSet n S) (hout : γ t₁ ∉ docSet n S) :
    ∃ φ, S.generateBoundary b (vars n) = .ok φ ∧
      ∃ t ∈ Set.Icc t₀ t₁, φ.holds (γ t).env ∧ ∀ s ∈ Set.Ico t₀ t, γ s ∈ docSet n S := by
  obtain ⟨φ, hφ, H⟩ := C23_boundary_formula_covers_frontier b hb n S hS hB
  obtain ⟨t, ht, hfr, hbef⟩ := exists_exit h01 hγ hin hout
  exact ⟨φ, hφ, t, ht, H _ hfr, hbef⟩

/-- Non-vacuity: a box with an open ball removed, and a path leaving it. -/
example : WF 2 (.setMinus (.rectangle [-2, -2] [2, 2] none) (.openSphere [0, 0] 1 none)) ∧
    BoundaryOK (.setMinus (.rectangle [-2, -2] [2, 2] none) (.openSphere [0, 0] 1 none)) := by
  simp [WF, BoundaryOK, noSel, selCount, selOk]

/-- The C23 statement is false for `OpenRectangle` in every positive dimension: the boundary formula
conjoins `x_i = bound` with the *strict* bounds (inherited generate_boundary calls the overridden
generate_domain, domains.py:498-521 with 610-618), so it is unsatisfiable although a bounded open box
has a non-empty boundary. -/
theorem C23_open_rectangle_boundary_unsatisfiable (n : ℕ) (lb ub : List ℚ) (ds : Option (List ℕ))
    (h1 : lb.length = n) (h2 : ub.length = n) :
    ∃ φ, (PySet.openRectangle lb ub ds).generateBoundary .z3 (vars n) = .ok φ ∧
      ∀ p : Pt n, ¬ φ.holds p.env := by
  obtain ⟨φ, hφ, H⟩ := rectDomain_correct .z3 rfl h1 h2 true
  have hφ' : (PySet.openRectangle lb ub ds).generateDomain .z3 (vars n) = .ok φ := hφ
  refine ⟨_, by
    simp only [PySet.generateBoundary, hφ', Lib.need, Lib.has, if_true, bind, Except.bind, h1,
      boundList_ok _ _ h1, boundList_ok _ _ h2, pure, Except.pure]; rfl, fun p hp => ?_⟩
  simp only [Formula.holds, Formula.holds_disj, List.mem_map, List.mem_range] at hp
  obtain ⟨heq, hin⟩ := hp
  rw [H p] at hin
  simp only [if_true] at hin
  rcases heq with ⟨φ, ⟨i, hi, rfl⟩, h⟩ | ⟨φ, ⟨i, hi, rfl⟩, h⟩
  · have := hin.1 i hi
    simp only [Bool.false_eq_true, if_false, Formula.holds, Term.eval] at h
    linarith
  · have := hin.2 i hi
    simp only [Bool.false_eq_true, if_false, Formula.holds, Term.eval] at h
    linarith

end Fossil

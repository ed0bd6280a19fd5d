/- C21: set formulas denote the documented sets. -/
import Verif.Lemmas.Domains

namespace Fossil
open Spec

/-- **C21.** For every set expression of any nesting whose parameters have the right shape, the formula
built by `generate_domain` for z3 or dReal variables (or cvc5 ones, when no EmptySet occurs, or sympy symbols, when neither EmptySet nor
Reals occurs) exists, and holds at a state iff the state belongs to the documented set. -/
theorem C21_domain_formula_denotes_set (b : Lib) (n : ℕ) (S : PySet) (hS : WF n S)
    (hb : supports b S) :
    ∃ φ, S.generateDomain b (vars n) = .ok φ ∧ ∀ p : Pt n, φ.holds p.env ↔ p ∈ docSet n S := by
  have hAnd : b.has .And = true := by cases b <;> rfl
  have hOr : b.has .Or = true := by cases b <;> rfl
  have hNot : b.has .Not = true := by cases b <;> rfl
  induction S with
  | rectangle lb ub ds =>
    obtain ⟨h1, h2, h3⟩ := hS
    obtain ⟨φ, hφ, H⟩ := rectDomain_correct b hAnd h1 h2 false
    refine ⟨φ, hφ, fun p => ?_⟩
    rw [H p]
    simp only [docSet, Set.mem_ofPred_eq, coords_noSel h3]
    rw [forall₂_ofFn_left _ _ _ h1, forall₂_ofFn_right _ _ _ h2]
    simp
  | openRectangle lb ub ds =>
    obtain ⟨h1, h2, h3⟩ := hS
    obtain ⟨φ, hφ, H⟩ := rectDomain_correct b hAnd h1 h2 true
    refine ⟨φ, hφ, fun p => ?_⟩
    rw [H p]
    simp only [docSet, Set.mem_ofPred_eq, coords_noSel h3]
    rw [forall₂_ofFn_left _ _ _ h1, forall₂_ofFn_right _ _ _ h2]
    simp
  | sphere c r ds =>
    obtain ⟨h1, h2, h3⟩ := hS
    have h3' : (0:ℝ) ≤ r := by exact_mod_cast h3
    obtain ⟨t, ht, H⟩ := sqDist_ok (x := symCoords n ds) (c := c) (by rw [length_symCoords, h1])
    refine ⟨.le t (.const (r ^ 2)), ?_, fun p => ?_⟩
    · simp only [PySet.generateDomain, selectDims_vars h2, bind, Except.bind, ht, pure, Except.pure]
    · simp only [Formula.holds, H, map_eval_symCoords, Term.eval, docSet, Set.mem_ofPred_eq]
      rw [euclid_le_iff h3']; push_cast; rfl
  | openSphere c r ds =>
    obtain ⟨h1, h2, h3⟩ := hS
    have h3' : (0:ℝ) ≤ r := by exact_mod_cast h3
    obtain ⟨t, ht, H⟩ := sqDist_ok (x := symCoords n ds) (c := c) (by rw [length_symCoords, h1])
    refine ⟨.lt t (.const (r ^ 2)), ?_, fun p => ?_⟩
    · simp only [PySet.generateDomain, selectDims_vars h2, bind, Except.bind, ht, pure, Except.pure]
    · simp only [Formula.holds, H, map_eval_symCoords, Term.eval, docSet, Set.mem_ofPred_eq]
      rw [euclid_lt_iff h3']; push_cast; rfl
  | ellipse a c r ds =>
    obtain ⟨h1, h2, h3, h4⟩ := hS
    have h4' : (0:ℝ) ≤ r := by exact_mod_cast h4
    obtain ⟨t, ht, H⟩ := sqEll_ok (x := symCoords n ds) (c := c) (a := a)
      (by rw [length_symCoords, h1]) (by rw [h1, h2])
    have hg : ellGuard a ds = .ok () := by
      match ds with
      | none => rfl
      | some [] => rfl
      | some (d :: ds) => simp only [ellGuard]; rw [if_pos (by simpa [selCount] using h2)]
    refine ⟨.le t (.const (r ^ 2)), ?_, fun p => ?_⟩
    · simp only [PySet.generateDomain, selectDims_vars h3, bind, Except.bind, ht, hg, pure, Except.pure]
    · simp only [Formula.holds, H, map_eval_symCoords, Term.eval, docSet, Set.mem_ofPred_eq]
      rw [euclid_le_iff h4']; push_cast; rfl
  | posSphere c r =>
    obtain ⟨h1, h3⟩ := hS
    have h3' : (0:ℝ) ≤ r := by exact_mod_cast h3
    obtain ⟨t, ht, H⟩ := sqDist_ok (x := vars n) (c := c) (by simp [h1])
    rw [show (vars n).length = c.length by simp [h1]] at ht
    refine ⟨_, by simp only [PySet.generateDomain, Lib.need, hAnd, if_true, bind, Except.bind, ht, pure,
      Except.pure]; rfl, fun p => ?_⟩
    simp only [Formula.holds_conj, List.mem_append, List.mem_map, List.mem_singleton, docSet,
      Set.mem_ofPred_eq, coords]
    rw [euclid_le_iff h3']
    constructor
    · intro hh
      refine ⟨fun i => ?_, ?_⟩
      · have := hh (.lt (.const 0) (.var i)) (Or.inl ⟨.var i, by simp [vars], rfl⟩)
        simpa [Formula.holds, Term.eval] using this
      · have := hh _ (Or.inr rfl)
        simp only [Formula.holds, H, map_eval_vars, Term.eval] at this
        push_cast at this; exact this
    · rintro ⟨ha, hb'⟩ φ (⟨t', ht', rfl⟩ | rfl)
      · simp only [vars, List.mem_map, List.mem_range] at ht'
        obtain ⟨i, hi, rfl⟩ := ht'
        simp only [Formula.holds, Term.eval, Pt.env_lt p hi]
        have := ha ⟨i, hi⟩
        simpa using this
      · simp only [Formula.holds, H, map_eval_vars, Term.eval]
        push_cast; exact hb'
  | torus c ro ri ds =>
    obtain ⟨h1, h2, h3, h4⟩ := hS
    have h3' : (0:ℝ) ≤ ri := by exact_mod_cast h3
    have h4' : (0:ℝ) ≤ ro := by exact_mod_cast (h3.trans h4.le)
    obtain ⟨t, ht, H⟩ := sqDist_ok (x := symCoords n ds) (c := c) (by rw [length_symCoords, h1])
    refine ⟨_, by simp only [PySet.generateDomain, Lib.need, hAnd, if_true, selectDims_vars h2, bind,
      Except.bind, ht, pure, Except.pure]; rfl, fun p => ?_⟩
    simp only [Formula.holds, H, map_eval_symCoords, Term.eval, docSet, Set.mem_ofPred_eq]
    rw [euclid_le_iff h4', le_euclid_iff h3']; push_cast; rfl
  | bean c r =>
    obtain ⟨h1, rfl⟩ := hS
    obtain ⟨c0, c1, rfl⟩ : ∃ c0 c1, c = [c0, c1] := by
      match c, h1 with
      | [c0, c1], _ => exact ⟨c0, c1, rfl⟩
    refine ⟨_, by simp only [PySet.generateDomain, beanPoly, vars, List.range, List.range.loop,
      List.map, bind, Except.bind, pure, Except.pure]; rfl, fun p => ?_⟩
    simp only [Formula.holds, Term.eval, docSet, Set.mem_ofPred_eq, reals, List.map_cons, List.map_nil]
    have e0 : p.env 0 = p 0 := Pt.env_fin p 0
    have e1 : p.env 1 = p 1 := Pt.env_fin p 1
    rw [e0, e1]
    constructor
    · intro hh
      refine ⟨p 0, p 1, c0, c1, by simp [List.ofFn_succ], rfl, ?_⟩
      push_cast at hh
      have : (2:ℤ) = ((2:ℕ):ℤ) := rfl
      simp only [zpow_ofNat] at hh
      linarith
    · rintro ⟨x, y, d0, d1, hp, hc, hh⟩
      simp only [List.ofFn_succ, List.ofFn_zero, List.cons.injEq, and_true] at hp hc
      obtain ⟨rfl, rfl⟩ := hp
      obtain ⟨rfl, rfl⟩ := hc
      push_cast
      simp only [zpow_ofNat]
      simp only [Fin.succ_zero_eq_one] at hh
      linarith
  | empty =>
    have : b.has .False = true := by
      cases b <;> first | rfl | simp [supports, noEmpty] at hb
    exact ⟨.ff, by simp [PySet.generateDomain, Lib.need, this, bind, Except.bind, pure, Except.pure],
      fun p => by simp [Formula.holds, docSet]⟩
  | reals d =>
    have hTrue : b.has .True = true := by
      cases b <;> first | rfl | simp [supports, noReals] at hb
    exact ⟨.tt, by simp [PySet.generateDomain, Lib.need, hTrue, bind, Except.bind, pure, Except.pure],
      fun p => by simp [Formula.holds, docSet]⟩
  | union S T ihS ihT =>
    obtain ⟨φ, hφ, H⟩ := ihS hS.1 (by cases b <;> simp_all [supports, noEmpty, noReals])
    obtain ⟨ψ, hψ, H'⟩ := ihT hS.2 (by cases b <;> simp_all [supports, noEmpty, noReals])
    exact ⟨.or φ ψ, by simp [PySet.generateDomain, Lib.need, hOr, hφ, hψ, bind, Except.bind, pure, Except.pure],
      fun p => by simp [Formula.holds, docSet, H, H']⟩
  | inter S T ihS ihT =>
    obtain ⟨φ, hφ, H⟩ := ihS hS.1 (by cases b <;> simp_all [supports, noEmpty, noReals])
    obtain ⟨ψ, hψ, H'⟩ := ihT hS.2 (by cases b <;> simp_all [supports, noEmpty, noReals])
    exact ⟨.and φ ψ, by simp [PySet.generateDomain, Lib.need, hAnd, hφ, hψ, bind, Except.bind, pure, Except.pure],
      fun p => by simp [Formula.holds, docSet, H, H']⟩
  | setMinus S T ihS ihT =>
    obtain ⟨φ, hφ, H⟩ := ihS hS.1 (by cases b <;> simp_all [supports, noEmpty, noReals])
    obtain ⟨ψ, hψ, H'⟩ := ihT hS.2 (by cases b <;> simp_all [supports, noEmpty, noReals])
    exact ⟨.and φ (.not ψ), by simp [PySet.generateDomain, Lib.need, hAnd, hNot, hφ, hψ, bind, Except.bind, pure, Except.pure],
      fun p => by simp [Formula.holds, docSet, H, H']⟩
  | compl S ihS =>
    obtain ⟨φ, hφ, H⟩ := ihS hS (by cases b <;> simp_all [supports, noEmpty, noReals])
    exact ⟨.not φ, by simp [PySet.generateDomain, Lib.need, hNot, hφ, bind, Except.bind, pure, Except.pure],
      fun p => by simp [Formula.holds, docSet, H]⟩

/-- Non-vacuity of C21: a nested expression with a dimension selection is well-formed in dimension 3. -/
example : WF 3 (.setMinus (.rectangle [-1, -1, -1] [1, 1, 1] none)
    (.union (.openSphere [0, 1/2] (1/2) (some [0, 2])) (.compl (.torus [0, 0, 0] 2 1 none)))) := by
  simp [WF, noSel, selCount, selOk]

/-- **C21 (complement method).** `generate_complement` denotes the set-theoretic complement. -/
theorem C21_complement_formula_denotes_complement (b : Lib) (n : ℕ) (S : PySet) (hS : WF n S)
    (hb : supports b S) :
    ∃ φ, S.generateComplement b (vars n) = .ok φ ∧ ∀ p : Pt n, φ.holds p.env ↔ p ∉ docSet n S := by
  obtain ⟨φ, hφ, H⟩ := C21_domain_formula_denotes_set b n (.compl S) hS
    (by cases b <;> simp_all [supports, noEmpty, noReals])
  exact ⟨φ, by simpa [PySet.generateDomain, PySet.generateComplement] using hφ,
    fun p => by rw [H]; rfl⟩

/-- The full C21 statement is false for rectangles with `dim_select`: the formula constrains the
first coordinates instead of the selected ones (domains.py:488-496). -/
theorem C21_rectangle_ignores_dim_select :
    ∃ (φ : Formula) (p : Pt 2),
      (PySet.rectangle [0] [1] (some [1])).generateDomain .z3 (vars 2) = .ok φ ∧
      p ∈ docSet 2 (.rectangle [0] [1] (some [1])) ∧ ¬ φ.holds p.env := by
  refine ⟨_, ![5, 0], rfl, ?_, ?_⟩
  · simp only [docSet, Set.mem_ofPred_eq, coords, reals, List.map_cons, List.map_nil]
    have : Pt.env (![5, 0] : Pt 2) 1 = 0 := by rw [Pt.env_lt _ (by norm_num)]; rfl
    rw [this]
    simp
  · have : Pt.env (![5, 0] : Pt 2) 0 = 5 := by rw [Pt.env_lt _ (by norm_num)]; rfl
    simp [Formula.conj, Formula.holds, Term.eval, List.range, List.range.loop, this]

/-- The full C21 statement is false for cvc5: `EmptySet` raises KeyError, because the cvc5 table has
the key `False` instead of `"False"` (consts.py:326). -/
theorem C21_cvc5_empty_set_raises (x : List Term) :
    PySet.empty.generateDomain .cvc5 x = .error .keyError := rfl

end Fossil

/- Helper lemmas about the set formulas. -/
import Verif.Spec.Sets

namespace Fossil
open Spec

theorem mapE_ok {α β : Type _} {f : α → Except Err β} {g : α → β} {l : List α}
    (h : ∀ a ∈ l, f a = .ok (g a)) : mapE f l = .ok (l.map g) := by
  induction l with
  | nil => rfl
  | cons a l ih =>
    simp only [mapE, h a (by simp), ih (fun b hb => h b (by simp [hb])), List.map_cons]

theorem mapE_eq_ok {α β : Type _} {f : α → Except Err β} {l : List α} {r : List β}
    (h : mapE f l = .ok r) : List.Forall₂ (fun a b => f a = .ok b) l r := by
  induction l generalizing r with
  | nil => simp only [mapE, Except.ok.injEq] at h; subst h; exact .nil
  | cons a l ih =>
    simp only [mapE] at h
    split at h
    · cases h
    · rename_i b hb
      split at h
      · cases h
      · rename_i bs hbs
        simp only [Except.ok.injEq] at h; subst h
        exact .cons hb (ih hbs)

theorem at?_ok {α : Type _} {l : List α} {i : ℕ} (h : i < l.length) : at? l i = .ok l[i] := by
  simp [at?, h]

theorem getElem_vars {n i : ℕ} (h : i < (vars n).length) : (vars n)[i] = Term.var i := by
  simp [vars]

theorem at?_vars {n i : ℕ} (h : i < n) : at? (vars n) i = .ok (Term.var i) := by
  rw [at?_ok (by simpa using h), getElem_vars]

/-- The symbolic counterpart of `coords`. -/
def symCoords (n : ℕ) : Option (List ℕ) → List Term
  | some (d :: ds) => (d :: ds).map Term.var
  | _ => vars n

theorem selectDims_vars {n : ℕ} {ds : Option (List ℕ)} (h : selOk n ds) :
    selectDims ds (vars n) = .ok (symCoords n ds) := by
  match ds with
  | none => rfl
  | some [] => rfl
  | some (d :: ds) =>
    simp only [selectDims, symCoords]
    exact mapE_ok (fun i hi => at?_vars (h i hi))

theorem length_symCoords (n : ℕ) (ds) : (symCoords n ds).length = selCount n ds := by
  match ds with
  | none => simp [symCoords, selCount]
  | some [] => simp [symCoords, selCount]
  | some (d :: ds) => simp [symCoords, selCount]

theorem map_eval_vars {n : ℕ} (p : Pt n) : (vars n).map (Term.eval p.env) = List.ofFn p := by
  apply List.ext_getElem
  · simp
  · intro i h1 h2
    simp only [vars, List.getElem_map, List.getElem_range, Term.eval, List.getElem_ofFn]
    rw [Pt.env_lt]

theorem map_eval_symCoords {n : ℕ} (p : Pt n) (ds) :
    (symCoords n ds).map (Term.eval p.env) = coords ds p := by
  match ds with
  | none => exact map_eval_vars p
  | some [] => exact map_eval_vars p
  | some (d :: ds) => simp [symCoords, coords, Term.eval, Function.comp_def]

theorem sqDist_ok {x : List Term} {c : List ℚ} (h : x.length = c.length) :
    ∃ t, sqDist x c x.length = .ok t ∧ ∀ ρ, t.eval ρ =
      (List.zipWith (fun a b => (a - b) ^ 2) (x.map (Term.eval ρ)) (reals c)).sum := by
  have : mapE (sqEntry x c) (List.range x.length) = .ok
      ((List.range x.length).map (fun i => Term.pow (.sub (x.getD i (.const 0)) (.const (c.getD i 0))) 2)) := by
    apply mapE_ok
    intro i hi
    have hi' : i < x.length := by simpa using hi
    have hi2 : i < c.length := h ▸ hi'
    simp only [sqEntry, at?_ok hi', at?_ok hi2, bind, Except.bind, pure, Except.pure]
    simp [hi', hi2]
  refine ⟨_, by simp only [sqDist, this, bind, Except.bind, pure, Except.pure]; rfl, ?_⟩
  intro ρ
  rw [Term.eval_sum]
  congr 1
  apply List.ext_getElem
  · simp [reals, h]
  · intro i h1 h2
    have hi' : i < x.length := by simpa using h1
    have hi2 : i < c.length := h ▸ hi'
    simp [Term.eval, reals, hi', hi2, zpow_ofNat]

theorem sqEll_ok {x : List Term} {a c : List ℚ} (h : x.length = c.length) (ha : a.length = c.length) :
    ∃ t, sqEll x a c x.length = .ok t ∧ ∀ ρ, t.eval ρ =
      (List.zipWith (fun a b => (a - b) ^ 2)
        (List.zipWith (· * ·) (reals a) (x.map (Term.eval ρ))) (reals c)).sum := by
  have : mapE (ellEntry x a c) (List.range x.length) = .ok
      ((List.range x.length).map (fun i => Term.pow (.sub (.mul (.const (a.getD i 0))
        (x.getD i (.const 0))) (.const (c.getD i 0))) 2)) := by
    apply mapE_ok
    intro i hi
    have hi' : i < x.length := by simpa using hi
    have hi2 : i < c.length := h ▸ hi'
    have hi3 : i < a.length := ha ▸ hi2
    simp only [ellEntry, at?_ok hi', at?_ok hi2, at?_ok hi3, bind, Except.bind, pure, Except.pure]
    simp [hi', hi2, hi3]
  refine ⟨_, by simp only [sqEll, this, bind, Except.bind, pure, Except.pure]; rfl, ?_⟩
  intro ρ
  rw [Term.eval_sum]
  congr 1
  apply List.ext_getElem
  · simp [reals, h, ha]
  · intro i h1 h2
    have hi' : i < x.length := by simpa using h1
    have hi2 : i < c.length := h ▸ hi'
    have hi3 : i < a.length := ha ▸ hi2
    simp [Term.eval, reals, hi', hi2, hi3, zpow_ofNat]

theorem boundList_ok (cmp : Term → Term → Formula) (lower : Bool) {bs : List ℚ} {n : ℕ}
    (h : bs.length = n) :
    boundList cmp lower bs n (vars n) = .ok ((List.range n).map (fun i =>
      if lower then cmp (.const (bs.getD i 0)) (.var i) else cmp (.var i) (.const (bs.getD i 0)))) := by
  apply mapE_ok
  intro i hi
  have hi' : i < n := by simpa using hi
  have hi2 : i < bs.length := h ▸ hi'
  simp only [boundEntry, at?_vars hi', at?_ok hi2, bind, Except.bind, pure, Except.pure]
  simp [hi2]

theorem euclid_le_iff {u v : List ℝ} {r : ℝ} (hr : 0 ≤ r) :
    euclid u v ≤ r ↔ (List.zipWith (fun a b => (a - b) ^ 2) u v).sum ≤ r ^ 2 := by
  rw [euclid, Real.sqrt_le_left hr]

theorem sum_sq_nonneg (u v : List ℝ) : 0 ≤ (List.zipWith (fun a b => (a - b) ^ 2) u v).sum := by
  induction u generalizing v with
  | nil => simp
  | cons a u ih =>
    cases v with
    | nil => simp
    | cons b v => simp only [List.zipWith_cons_cons, List.sum_cons]; have := ih v; positivity

theorem le_euclid_iff {u v : List ℝ} {r : ℝ} (hr : 0 ≤ r) :
    r ≤ euclid u v ↔ r ^ 2 ≤ (List.zipWith (fun a b => (a - b) ^ 2) u v).sum := by
  exact Real.le_sqrt hr (sum_sq_nonneg u v)

theorem euclid_lt_iff {u v : List ℝ} {r : ℝ} (hr : 0 ≤ r) :
    euclid u v < r ↔ (List.zipWith (fun a b => (a - b) ^ 2) u v).sum < r ^ 2 := by
  rw [← not_le, le_euclid_iff hr, not_le]

theorem forall₂_ofFn_left {n : ℕ} (R : ℝ → ℝ → Prop) (l : List ℚ) (p : Pt n) (h : l.length = n) :
    List.Forall₂ R (reals l) (List.ofFn p) ↔ ∀ i < n, R ((l.getD i 0 : ℚ) : ℝ) (p.env i) := by
  rw [List.forall₂_iff_get]
  simp only [reals, List.length_map, List.length_ofFn, h, true_and]
  constructor
  · intro H i hi
    have := H i (by omega) (by simpa using hi)
    simpa [Pt.env_lt p hi, h, hi] using this
  · intro H i h1 h2
    have hi : i < n := h1
    have := H i hi
    simpa [Pt.env_lt p hi, h, hi] using this

theorem forall₂_ofFn_right {n : ℕ} (R : ℝ → ℝ → Prop) (l : List ℚ) (p : Pt n) (h : l.length = n) :
    List.Forall₂ R (List.ofFn p) (reals l) ↔ ∀ i < n, R (p.env i) ((l.getD i 0 : ℚ) : ℝ) := by
  rw [List.forall₂_iff_get]
  simp only [reals, List.length_map, List.length_ofFn, h, true_and]
  constructor
  · intro H i hi
    have := H i (by simpa using hi) (by omega)
    simpa [Pt.env_lt p hi, h, hi] using this
  · intro H i h1 h2
    have hi : i < n := h2
    have := H i hi
    simpa [Pt.env_lt p hi, h, hi] using this

theorem coords_noSel {n : ℕ} {ds} (h : noSel ds) (p : Pt n) : coords ds p = List.ofFn p := by
  rcases h with rfl | rfl <;> rfl

theorem rectDomain_correct (b : Lib) (hb : b.has .And = true) {n : ℕ} {lb ub : List ℚ}
    (h1 : lb.length = n) (h2 : ub.length = n) (strict : Bool) :
    ∃ φ, rectDomain b (if strict then Formula.lt else Formula.le) lb ub (vars n) = .ok φ ∧
      ∀ p : Pt n, φ.holds p.env ↔
        (∀ i < n, (if strict then ((lb.getD i 0 : ℚ) : ℝ) < p.env i else ((lb.getD i 0 : ℚ) : ℝ) ≤ p.env i)) ∧
        (∀ i < n, (if strict then p.env i < ((ub.getD i 0 : ℚ) : ℝ) else p.env i ≤ ((ub.getD i 0 : ℚ) : ℝ))) := by
  unfold rectDomain
  rw [h1, boundList_ok _ _ h1, boundList_ok _ _ h2]
  refine ⟨_, by simp only [Lib.need, hb, if_true]; rfl, ?_⟩
  intro p
  simp only [Formula.holds, Formula.holds_conj, List.forall_mem_map, List.mem_range, if_true]
  cases strict <;> simp [Formula.holds, Term.eval]


end Fossil

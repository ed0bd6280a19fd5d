/- C22: numeric containment (`check_containment`) versus the documented set. -/
import Verif.Lemmas.Domains

namespace Fossil
open Spec

/-- Sets on which `check_containment` is implemented and does not crash: no dimension selection, and none
of the classes lacking the method. -/
def Checkable : PySet → Prop
  | .rectangle _ _ ds | .openRectangle _ _ ds | .sphere _ _ ds | .openSphere _ _ ds
  | .ellipse _ _ _ ds | .torus _ _ _ ds => noSel ds
  | .empty => True
  | .setMinus S T => Checkable S ∧ Checkable T
  | .compl S => Checkable S
  | .posSphere .. | .bean .. | .reals _ | .union .. | .inter .. => False

/-- Every (outer) radius is one. -/
def UnitRadii : PySet → Prop
  | .sphere _ r _ | .openSphere _ r _ | .ellipse _ _ r _ | .torus _ r _ _ => r = 1
  | .setMinus S T => UnitRadii S ∧ UnitRadii T
  | .compl S => UnitRadii S
  | _ => True

theorem norm2_zipWith_sub (u : List ℝ) (c : List ℚ) :
    norm2 (List.zipWith (fun a (b : ℚ) => a - (b : ℝ)) u c) = euclid u (reals c) := by
  unfold norm2 euclid
  congr 2
  induction u generalizing c with
  | nil => simp
  | cons a u ih => cases c with
    | nil => simp [reals]
    | cons b c => simp [reals] at ih ⊢; exact ih c

theorem rowSub_ofFn {n : ℕ} (p : Pt n) {c : List ℚ} (h : c.length = n) :
    rowSub (List.ofFn p) c = .ok (List.zipWith (fun a (b : ℚ) => a - (b : ℝ)) (List.ofFn p) c) := by
  simp [rowSub, h]

theorem forall₂_reals_left {R : ℝ → ℝ → Prop} {l : List ℚ} {x : List ℝ} :
    List.Forall₂ (fun (q : ℚ) v => R q v) l x ↔ List.Forall₂ R (reals l) x := by
  simp [reals, List.forall₂_map_left_iff]

theorem forall₂_reals_right {R : ℝ → ℝ → Prop} {l : List ℚ} {x : List ℝ} :
    List.Forall₂ (fun (q : ℚ) v => R v q) l x ↔ List.Forall₂ R x (reals l) := by
  rw [reals, List.forall₂_map_right_iff]
  constructor <;> exact fun h => h.flip

/-- **C22 (partial).** On sets where the method is implemented and all radii equal one, the numeric containment
test returns exactly membership in the documented set.
Missing from the full statement: radii different from one (false, see
`C22_sphere_containment_wrong_radius`), and the classes without the method. -/
theorem C22_containment_agrees_partial (n : ℕ) (S : PySet) (hS : WF n S) (hc : Checkable S)
    (hu : UnitRadii S) (p : Pt n) :
    ∃ P, S.checkContainment (List.ofFn p) = .ok P ∧ (P ↔ p ∈ docSet n S) := by
  induction S with
  | rectangle lb ub ds =>
    obtain ⟨h1, h2, h3⟩ := hS
    rcases h3 with rfl | rfl <;>
    · refine ⟨_, by simp only [PySet.checkContainment]; rw [if_pos (by simp [h1, h2])], ?_⟩
      rw [forall₂_reals_left (R := (· ≤ ·)), forall₂_reals_right (R := (· ≤ ·))]
      simp only [docSet, coords, Set.mem_ofPred_eq]
      exact and_comm
  | openRectangle lb ub ds =>
    obtain ⟨h1, h2, h3⟩ := hS
    rcases h3 with rfl | rfl <;>
    · refine ⟨_, by simp only [PySet.checkContainment]; rw [if_pos (by simp [h1, h2])], ?_⟩
      rw [forall₂_reals_left (R := (· < ·)), forall₂_reals_right (R := (· < ·))]
      simp only [docSet, coords, Set.mem_ofPred_eq]
      exact and_comm
  | sphere c r ds =>
    obtain ⟨h1, -, -⟩ := hS
    obtain rfl : r = 1 := hu
    rcases hc with rfl | rfl <;>
    · simp only [PySet.checkContainment, rowSub_ofFn p (c := c) h1, bind, Except.bind, pure, Except.pure]
      refine ⟨_, rfl, ?_⟩
      simp [norm2_zipWith_sub, docSet, coords]
  | openSphere c r ds =>
    obtain ⟨h1, -, -⟩ := hS
    obtain rfl : r = 1 := hu
    rcases hc with rfl | rfl <;>
    · simp only [PySet.checkContainment, rowSub_ofFn p (c := c) h1, bind, Except.bind, pure, Except.pure]
      refine ⟨_, rfl, ?_⟩
      simp [norm2_zipWith_sub, docSet, coords]
  | ellipse a c r ds =>
    obtain ⟨h1, h2, -, -⟩ := hS
    obtain rfl : r = 1 := hu
    have e : List.zipWith (fun (b : ℚ) v => (b : ℝ) * v) a (List.ofFn p) =
        List.zipWith (· * ·) (reals a) (List.ofFn p) := by
      simp [reals, List.zipWith_map_left]
    rcases hc with rfl | rfl <;>
    · simp only [selCount] at h1 h2
      simp only [PySet.checkContainment, rowScale, List.length_ofFn, h2, if_true, rowSub,
        List.length_zipWith, h1, min_self, bind, Except.bind, pure, Except.pure]
      refine ⟨_, rfl, ?_⟩
      rw [norm2_zipWith_sub, e]
      simp [docSet, coords]
  | torus c ro ri ds =>
    obtain ⟨h1, -, -⟩ := hS
    obtain rfl : ro = 1 := hu
    rcases hc with rfl | rfl <;>
    · simp only [PySet.checkContainment, rowSub_ofFn p (c := c) h1, bind, Except.bind, pure, Except.pure]
      refine ⟨_, rfl, ?_⟩
      simp [norm2_zipWith_sub, docSet, coords]
  | empty => exact ⟨False, rfl, by simp [docSet]⟩
  | setMinus S T ihS ihT =>
    obtain ⟨P, hP, HP⟩ := ihS hS.1 hc.1 hu.1
    obtain ⟨Q, hQ, HQ⟩ := ihT hS.2 hc.2 hu.2
    exact ⟨P ∧ ¬ Q, by simp [PySet.checkContainment, hP, hQ, bind, Except.bind, pure, Except.pure],
      by simp [docSet, HP, HQ]⟩
  | compl S ihS =>
    obtain ⟨P, hP, HP⟩ := ihS hS hc hu
    exact ⟨¬ P, by simp [PySet.checkContainment, hP, bind, Except.bind, pure, Except.pure],
      by simp [docSet, HP]⟩
  | posSphere | bean | reals | union | inter => exact hc.elim

example : WF 2 (.setMinus (.rectangle [-3, -3] [3, 3] none) (.openSphere [1, 0] 1 none)) ∧
    Checkable (.setMinus (.rectangle [-3, -3] [3, 3] none) (.openSphere [1, 0] 1 none)) ∧
    UnitRadii (.setMinus (.rectangle [-3, -3] [3, 3] none) (.openSphere [1, 0] 1 none)) := by
  simp [WF, Checkable, UnitRadii, noSel, selCount, selOk]

/-- For **every** positive radius other than one and every centre in every positive dimension, the numeric
test of a ball disagrees with the ball at some point: it compares the norm with `radius**2`
(domains.py:699-703). -/
theorem C22_sphere_containment_wrong_radius (n : ℕ) (hn : 0 < n) (c : List ℚ) (hc : c.length = n)
    (r : ℚ) (hr : 0 < r) (hr1 : r ≠ 1) :
    ∃ (p : Pt n) (P : Prop), (PySet.sphere c r none).checkContainment (List.ofFn p) = .ok P ∧
      ¬ (P ↔ p ∈ docSet n (.sphere c r none)) := by
  obtain ⟨c0, c', rfl⟩ : ∃ c0 c', c = c0 :: c' := by
    cases c with
    | nil => simp at hc; omega
    | cons a l => exact ⟨a, l, rfl⟩
  subst hc
  set m : ℚ := (r + r ^ 2) / 2 with hm
  let i0 : Fin (c0 :: c').length := ⟨0, hn⟩
  let p : Pt (c0 :: c').length := fun i => ((c0 :: c').getD i 0 : ℚ) + if i = i0 then (m : ℝ) else 0
  have hdist : euclid (List.ofFn p) (reals (c0 :: c')) = m := by
    have hm0 : (0 : ℝ) ≤ m := by rw [hm]; push_cast; have : (0:ℝ) < r := by exact_mod_cast hr
                                 positivity
    unfold euclid
    rw [Real.sqrt_eq_iff_mul_self_eq (sum_sq_nonneg _ _) hm0]
    have : List.ofFn p = ((c0 : ℝ) + m) :: reals c' := by
      apply List.ext_getElem
      · simp [reals]
      · intro i h1 h2
        simp only [List.getElem_ofFn]
        cases i with
        | zero => simp [p, i0]
        | succ i =>
          have hi : i < c'.length := by simpa using h1
          simp [p, i0, reals, hi]
    rw [this]
    have hz : ∀ l : List ℝ, (List.zipWith (fun a b => (a - b) ^ 2) l l).sum = 0 := by
      intro l; induction l <;> simp_all
    have := hz (reals c')
    simp only [reals, List.map_cons, List.zipWith_cons_cons, List.sum_cons] at this ⊢
    rw [this]; ring
  refine ⟨p, norm2 (List.zipWith (fun a (b : ℚ) => a - (b : ℝ)) (List.ofFn p) (c0 :: c')) ≤ (r : ℝ) ^ 2, ?_, ?_⟩
  · simp only [PySet.checkContainment, rowSub_ofFn p (c := c0 :: c') rfl, bind, Except.bind, pure, Except.pure]
  · rw [norm2_zipWith_sub]
    simp only [docSet, coords, Set.mem_ofPred_eq, hdist]
    have hr' : (0:ℝ) < r := by exact_mod_cast hr
    rw [hm]; push_cast
    rcases lt_or_gt_of_ne hr1 with h | h
    · have h' : (r : ℝ) < 1 := by exact_mod_cast h
      intro H
      have : (r:ℝ)^2 < r := by nlinarith
      have := H.2 (by nlinarith)
      nlinarith
    · have h' : (1 : ℝ) < r := by exact_mod_cast h
      intro H
      have : (r:ℝ) < r^2 := by nlinarith
      have := H.1 (by nlinarith)
      nlinarith

/-- With a non-empty `dim_select` the containment test always raises (domains.py:700-701: indexing gives a
Python list, on which tensor arithmetic is undefined). -/
theorem C22_dim_select_raises (c : List ℚ) (r : ℚ) (d : ℕ) (ds : List ℕ) (x : List ℝ) :
    (PySet.sphere c r (some (d :: ds))).checkContainment x = .error .typeError := rfl

end Fossil

/-
C30: counterexample trajectories.
-/
import Verif.Consolidator
import Verif.Props.C27_Cegis
import Mathlib.Tactic.Linarith

namespace Fossil

variable {n : ℕ}

theorem trajLoop_length (grad : (Fin n → ℝ) → (Fin n → ℝ) × ℝ) (k : ℕ) (p : Fin n → ℝ) (old : ℝ) :
    (trajLoop grad k p old).length ≤ k := by
  induction k generalizing p old with
  | zero => simp [trajLoop]
  | succ k ih =>
    unfold trajLoop
    split
    · simp
    · simp only [List.length_cons]; exact Nat.succ_le_succ (ih _ _)

theorem trajLoop_chain (grad : (Fin n → ℝ) → (Fin n → ℝ) × ℝ) (k : ℕ) (p : Fin n → ℝ) (old : ℝ)
    (L : List (Fin n → ℝ)) (hL : L = p :: trajLoop grad k p old) (j : ℕ) (hj : j + 1 < L.length) :
    L[j + 1] = L[j] + (1/20 : ℝ) • (grad L[j]).1 ∧ (∀ i, |(grad L[j]).1 i| ≤ 100) ∧ (grad L[j]).2 ≤ 1000000 ∧
    (j = 0 → old + 1/100000 ≤ (grad L[j]).2) ∧
    ∀ j' (_ : j' + 1 = j), (grad L[j']).2 + 1/100000 ≤ (grad L[j]).2 := by
  induction k generalizing p old j L with
  | zero => subst hL; simp [trajLoop] at hj
  | succ k ih =>
    have key : ¬ breakNow old (grad p).2 (grad p).1 := by
      intro h
      subst hL
      unfold trajLoop at hj
      rw [if_pos h] at hj
      simp at hj
    rw [trajLoop, if_neg key] at hL
    have hb := key
    unfold breakNow at hb
    push Not at hb
    obtain ⟨b1, b2, b3, b4⟩ := hb
    have h0 : old + 1/100000 ≤ (grad p).2 := by
      rw [abs_of_nonpos (by linarith)] at b2
      linarith
    cases j with
    | zero =>
      subst hL
      exact ⟨rfl, b4, b3, fun _ => h0, fun j' h => by omega⟩
    | succ j =>
      subst hL
      obtain ⟨h1, h2, h3, h4, h5⟩ := ih (p + (1/20 : ℝ) • (grad p).1) (grad p).2 _ rfl j
        (by simpa using hj)
      simp only [List.getElem_cons_succ]
      refine ⟨h1, h2, h3, fun h => by omega, fun j' hj' => ?_⟩
      cases j' with
      | zero =>
        have : j = 0 := by omega
        exact h4 this
      | succ j' => exact h5 j' (by omega)

/-- **C30.** The trajectory computed for a counterexample starts at it, has 1 to 21 points, each next point is the previous
one plus 0.05 times the gradient of the Lie derivative there, with gradient entries of modulus at most 100 (so a step
moves a coordinate by at most 5) and Lie derivative at most 10⁶ at every point but the last; along these points the Lie
derivative increases by at least 10⁻⁵ per step, starting from more than -1. -/
theorem C30_trajectory (grad : (Fin n → ℝ) → (Fin n → ℝ) × ℝ) (p : Fin n → ℝ) :
    (computeTrajectory grad p).head? = some p ∧
    1 ≤ (computeTrajectory grad p).length ∧ (computeTrajectory grad p).length ≤ 21 ∧
    ∀ j (hj : j + 1 < (computeTrajectory grad p).length),
      (computeTrajectory grad p)[j + 1]
        = (computeTrajectory grad p)[j] + (1/20 : ℝ) • (grad (computeTrajectory grad p)[j]).1 ∧
      (∀ i, |(computeTrajectory grad p)[j + 1] i - (computeTrajectory grad p)[j] i| ≤ 5) ∧
      (grad (computeTrajectory grad p)[j]).2 ≤ 1000000 ∧
      -1 + (j + 1 : ℕ) / 100000 ≤ (grad (computeTrajectory grad p)[j]).2 ∧
      ∀ j' (hj' : j' + 1 = j), (grad (computeTrajectory grad p)[j']).2 + 1/100000
        ≤ (grad (computeTrajectory grad p)[j]).2 := by
  refine ⟨rfl, by simp [computeTrajectory], ?_, fun j hj => ?_⟩
  · have := trajLoop_length grad 20 p (-1)
    simp only [computeTrajectory, List.length_cons]; omega
  · have H := trajLoop_chain grad 20 p (-1) (computeTrajectory grad p) rfl
    obtain ⟨h1, h2, h3, h4, h5⟩ := H j hj
    refine ⟨h1, fun i => ?_, h3, ?_, h5⟩
    · rw [h1]
      simp only [Pi.add_apply, Pi.smul_apply, smul_eq_mul, add_sub_cancel_left, abs_mul]
      have := h2 i
      rw [abs_of_pos (by norm_num : (0:ℝ) < 1/20)]
      linarith
    · clear h1 h2 h3 h4 h5
      induction j with
      | zero =>
        have h4 := (H 0 hj).2.2.2.1 rfl
        norm_num at h4 ⊢
        linarith
      | succ j ih =>
        have h5 := (H (j + 1) hj).2.2.2.2 j rfl
        have h6 := ih (by omega)
        push_cast at h6 ⊢
        linarith

/-- **C30, which counterexample.** No trajectory is produced when no label containing "lie" has counterexamples; otherwise
it is the one computed from the last row (the exact solver model, C02) of the first such label. -/
theorem C30_start (grad : (Fin n → ℝ) → (Fin n → ℝ) × ℝ) (cex : Dict String (List (Fin n → ℝ))) :
    ((∀ e ∈ cex, hasLie e.1 = true → e.2 = []) → consolidate grad cex = []) ∧
    ∀ pre l rows last post, cex = pre ++ (l, rows ++ [last]) :: post → hasLie l = true →
      (∀ e ∈ pre, hasLie e.1 = true → e.2 = []) → consolidate grad cex = computeTrajectory grad last := by
  constructor
  · intro h
    induction cex with
    | nil => rfl
    | cons e rest ih =>
      obtain ⟨l, rows⟩ := e
      have ih := ih fun e he => h e (List.mem_cons_of_mem _ he)
      unfold consolidate
      split
      · rename_i hl
        have : rows = [] := h _ (List.mem_cons_self ..) hl
        subst this
        exact ih
      · exact ih
  · intro pre l rows last post hcex hl hpre
    subst hcex
    induction pre with
    | nil => simp [consolidate, hl]
    | cons e rest ih =>
      obtain ⟨l', rows'⟩ := e
      have ih := ih fun e he => hpre e (List.mem_cons_of_mem _ he)
      simp only [List.cons_append, consolidate]
      split
      · rename_i hl'
        have : rows' = [] := hpre _ (List.mem_cons_self ..) hl'
        subst this
        exact ih
      · exact ih

/-- Of the labels of the tool (consts.py:88-98) exactly XD ("lie") contains "lie". -/
theorem C30_lie_labels : ∀ l ∈ [XD, XI, XU, XS, XG, XGB, XSB, XF, XNF, XR], hasLie l = true ↔ l = XD := by decide

/-- The trajectory goes to the data of the label its counterexample belongs to: if XD is among the data labels and the
other labels do not contain "lie", a pass of the single loop appends it (start point included) to the counterexamples of
XD and to no other label. -/
theorem C30_trajectory_goes_to_lie (S cex : Dict String (List (Fin n → ℝ))) (traj : List (Fin n → ℝ))
    (hS : XD ∈ Dict.keys S) (ho : ∀ l ∈ Dict.keys S, hasLie l = true → l = XD) (l : String) :
    addedRows false S cex traj l = (Dict.get? cex l).getD [] ++ (if l = XD then traj else []) := by
  have hf : (Dict.keys S).find? hasLie = some XD := by
    cases h : (Dict.keys S).find? hasLie with
    | none => exact absurd (List.find?_eq_none.1 h XD hS) (by decide)
    | some l' => rw [ho l' (List.mem_of_find?_eq_some h) (by simpa using List.find?_some h)]
  simp only [addedRows, hf]
  by_cases h : l = XD
  · subst h; simp
  · simp [h, Ne.symm h]

/-- Non-vacuity: for the Lie derivative `x` (gradient 1) the trajectory from 0 has all 21 points. -/
example : (computeTrajectory (n := 1) (fun p => (1, p 0)) (fun _ => 0)).length = 21 := by
  have h : ∀ (k : ℕ) (p : Fin 1 → ℝ) (old : ℝ), old + 1/20 ≤ p 0 → p 0 + k / 20 ≤ 1000000 →
      (trajLoop (fun p => (1, p 0)) k p old).length = k := by
    intro k
    induction k with
    | zero => intros; rfl
    | succ k ih =>
      intro p old h1 h2
      push_cast at h2
      have hk : (0:ℝ) ≤ k := Nat.cast_nonneg k
      have hb : ¬ breakNow old (p 0) (1 : Fin 1 → ℝ) := by
        unfold breakNow
        push Not
        refine ⟨by linarith, ?_, ?_, fun i => by simp⟩
        · rw [abs_of_nonpos (by linarith)]; linarith
        · have : (0:ℝ) ≤ (k + 1) / 20 := by positivity
          linarith
      rw [trajLoop, if_neg hb, List.length_cons, ih]
      · simp
      · simp only [Pi.add_apply, Pi.smul_apply, Pi.one_apply, smul_eq_mul]
        rw [add_div] at h2
        linarith
  simp only [computeTrajectory, List.length_cons]
  rw [h 20 _ _ (by norm_num) (by norm_num)]

end Fossil

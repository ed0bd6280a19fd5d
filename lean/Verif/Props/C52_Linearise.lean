/-
C52: the matrix returned by the lineariser is the Jacobian of the model at the origin.
-/
import Verif.Lemmas.Linearise
import Mathlib.LinearAlgebra.Matrix.ToLin

namespace Fossil
open Spec Topology

theorem mapM_ok_forall {α β : Type} {g : α → Except Err β} {l : List α} {r : List β} (h : l.mapM g = .ok r) :
    List.Forall₂ (fun a b => g a = .ok b) l r := by
  induction l generalizing r with
  | nil => cases h; exact .nil
  | cons a l ih =>
    rw [List.mapM_cons] at h
    obtain ⟨b, hb, h⟩ := except_bind_ok h
    obtain ⟨bs, hbs, h⟩ := except_bind_ok h
    cases h
    exact .cons hb (ih hbs)

theorem mapM_error_mem {α β : Type} {g : α → Except Err β} {l : List α} {e : Err} (h : l.mapM g = .error e) :
    ∃ a ∈ l, g a = .error e := by
  induction l with
  | nil => cases h
  | cons a l ih =>
    rw [List.mapM_cons] at h
    cases ha : g a with
    | error e' => rw [ha] at h; cases h; exact ⟨a, by simp, ha⟩
    | ok b =>
      rw [ha] at h
      cases hl : l.mapM g with
      | error e' =>
        rw [hl] at h; cases h
        obtain ⟨x, hx, hx'⟩ := ih hl
        exact ⟨x, by simp [hx], hx'⟩
      | ok bs => rw [hl] at h; cases h

theorem forall2_getD {α β : Type} {R : α → β → Prop} {l : List α} {r : List β} (h : List.Forall₂ R l r) (i : ℕ) (hi : i < l.length)
    (a : α) (b : β) : R (l.getD i a) (r.getD i b) := by
  induction h generalizing i with
  | nil => simp at hi
  | cons h1 _ ih =>
    cases i with
    | zero => simpa using h1
    | succ i => simpa using ih i (by simpa using hi)

theorem linearise_inv {n : ℕ} {f : List Term} {A : List (List ℝ)} (h : linearise n f = .ok A) :
    (∀ t ∈ f, t.eval (fun _ => 0) = 0) ∧ ∃ J : List (List Term), A.length = f.length ∧ J.length = f.length ∧
      ∀ i < f.length, (A.getD i []).length = n ∧ ∀ j < n, ∃ D, (f.getD i (.const 0)).diff j = .ok D ∧
        (∀ μ, D.eval (originEnv n μ) = (A.getD i []).getD j 0) := by
  unfold linearise checkZero at h
  by_cases hz : ∃ t ∈ f, t.eval (fun _ => 0) ≠ 0
  · rw [if_pos hz] at h; cases h
  rw [if_neg hz] at h
  obtain ⟨_, -, h⟩ := except_bind_ok h
  obtain ⟨J, hJ, h⟩ := except_bind_ok h
  push Not at hz
  have h1 := mapM_ok_forall hJ
  have h2 := mapM_ok_forall h
  refine ⟨hz, J, by rw [← h2.length_eq, h1.length_eq], h1.length_eq.symm, fun i hi => ?_⟩
  have r1 := mapM_ok_forall (forall2_getD h1 i hi (.const 0) [])
  have r2 := mapM_ok_forall (forall2_getD h2 i (h1.length_eq ▸ hi) [] [])
  have e1 : (J.getD i []).length = n := by rw [← r1.length_eq]; simp
  refine ⟨by rw [← r2.length_eq, e1], fun j hj => ?_⟩
  have d1 := forall2_getD r1 j (by simpa using hj) 0 (.const 0)
  have d2 := forall2_getD r2 j (by rw [e1]; exact hj) (.const 0) 0
  have e2 : (List.range n).getD j 0 = j := by simp [List.getD_eq_getElem?_getD, hj]
  rw [e2] at d1
  refine ⟨_, d1, fun μ => ?_⟩
  unfold entryFloat at d2
  split_ifs at d2 with hc
  rw [← Except.ok.inj d2]
  exact hc μ 0

/-- The right-hand sides with constant inputs `μ`. -/
noncomputable def Spec.fieldU (n : ℕ) (f : List Term) (μ : ℕ → ℝ) (p : Pt n) : Pt n :=
  fun i => (f.getD i (.const 0)).eval (stateInput p μ)

theorem fieldU_zero (n : ℕ) (f : List Term) : fieldU n f 0 = field n f := by
  funext p i; simp only [fieldU, field, stateInput_env]

/-- C52. If linearisation returns a matrix, it is square, the origin is an equilibrium (without input), and the matrix is the total derivative
of the right-hand side at the origin: for zero input and for every constant input. -/
theorem C52_linearisation (n : ℕ) (f : List Term) (hf : f.length = n) (A : List (List ℝ)) (h : linearise n f = .ok A) :
    (A.length = n ∧ ∀ r ∈ A, r.length = n) ∧ field n f 0 = 0 ∧
    ((∀ t ∈ f, regular (fun _ => 0) t) → HasFDerivAt (field n f) (LinearMap.toContinuousLinearMap (matOf n A).toLin') 0) ∧
    ∀ μ : ℕ → ℝ, (∀ t ∈ f, regular (originEnv n μ) t) →
      HasFDerivAt (fieldU n f μ) (LinearMap.toContinuousLinearMap (matOf n A).toLin') 0 := by
  obtain ⟨hz, J, hl, -, hrow⟩ := linearise_inv h
  have hmain : ∀ μ : ℕ → ℝ, (∀ t ∈ f, regular (originEnv n μ) t) →
      HasFDerivAt (fieldU n f μ) (LinearMap.toContinuousLinearMap (matOf n A).toLin') 0 := by
    intro μ hr
    rw [hasFDerivAt_pi']
    intro i
    have hi : (i : ℕ) < f.length := hf ▸ i.2
    have hmem : f.getD i (.const 0) ∈ f := by
      rw [List.getD_eq_getElem?_getD, List.getElem?_eq_getElem hi]; simp
    refine eval_hasFDerivAt μ 0 _ (fun j hj => ?_) ?_ _ fun v => ?_
    · obtain ⟨D, hD, -⟩ := (hrow i hi).2 j hj
      exact ⟨D, hD⟩
    · rw [stateInput_zero]; exact hr _ hmem
    · rw [← Fin.sum_univ_eq_sum_range (fun j => (f.getD i (.const 0)).dval (stateInput 0 μ) j * v.env j)]
      have e : (ContinuousLinearMap.proj i ∘SL LinearMap.toContinuousLinearMap (matOf n A).toLin') v = (matOf n A).mulVec v i := rfl
      rw [e, Matrix.mulVec, dotProduct]
      refine Finset.sum_congr rfl fun j _ => ?_
      obtain ⟨D, hD, hv⟩ := (hrow i hi).2 j j.2
      rw [← diff_eval j _ _ hD, stateInput_zero, hv μ, Pt.env_fin]
      rfl
  refine ⟨⟨hl.trans hf, fun r hr => ?_⟩, ?_, fun hr => ?_, hmain⟩
  · obtain ⟨i, hi, rfl⟩ := List.getElem_of_mem hr
    have := (hrow i (hl ▸ hi)).1
    rwa [List.getD_eq_getElem?_getD, List.getElem?_eq_getElem hi] at this
  · funext i
    have hi : (i : ℕ) < f.length := hf ▸ i.2
    have hmem : f.getD i (.const 0) ∈ f := by
      rw [List.getD_eq_getElem?_getD, List.getElem?_eq_getElem hi]; simp
    have e0 : (0 : Pt n).env = fun _ => 0 := by funext j; simp [Pt.env]
    simp only [field, e0]
    exact hz _ hmem
  · rw [← fieldU_zero]
    refine hmain 0 ?_
    have e0 : originEnv n 0 = fun _ => 0 := by funext j; simp [originEnv]
    rwa [e0]

theorem diff_error {j : ℕ} {t : Term} {e : Err} (h : t.diff j = .error e) : e = .runtimeError := by
  induction t with
  | var i => cases h
  | const c => cases h
  | add a b iha ihb | sub a b iha ihb | mul a b iha ihb | div a b iha ihb =>
    simp only [Term.diff] at h
    cases ha : a.diff j with
    | error e' => rw [ha] at h; cases h; exact iha ha
    | ok x =>
      rw [ha] at h
      cases hb : b.diff j with
      | error e' => rw [hb] at h; cases h; exact ihb hb
      | ok y => rw [hb] at h; cases h
  | neg a iha | pow a k iha =>
    simp only [Term.diff] at h
    cases ha : a.diff j with
    | error e' => rw [ha] at h; cases h; exact iha ha
    | ok x => rw [ha] at h; cases h
  | app f a iha =>
    simp only [Term.diff] at h
    split_ifs at h
    · cases h; rfl
    · cases ha : a.diff j with
      | error e' => rw [ha] at h; cases h; exact iha ha
      | ok x => rw [ha] at h; cases h

/-- C52: the "not zero at the origin" error is raised exactly for models whose origin is not an equilibrium without input. -/
theorem C52_equilibrium_check (n : ℕ) (f : List Term) (hf : f.length = n) :
    linearise n f = .error .valueError ↔ field n f 0 ≠ 0 := by
  have e0 : (0 : Pt n).env = fun _ => 0 := by funext j; simp [Pt.env]
  constructor
  · intro h h0
    have hz : ¬ ∃ t ∈ f, t.eval (fun _ => 0) ≠ 0 := by
      rintro ⟨t, ht, hne⟩
      obtain ⟨i, hi, rfl⟩ := List.getElem_of_mem ht
      apply hne
      have := congrFun h0 ⟨i, hf ▸ hi⟩
      simp only [field, e0, List.getD_eq_getElem?_getD, List.getElem?_eq_getElem hi] at this
      exact this
    unfold linearise checkZero at h
    rw [if_neg hz] at h
    simp only [bind, Except.bind] at h
    cases hJ : jacobian n f with
    | error e =>
      rw [hJ] at h
      cases h
      obtain ⟨t, -, ht⟩ := mapM_error_mem hJ
      obtain ⟨j, -, hj⟩ := mapM_error_mem ht
      exact absurd (diff_error hj) (by decide)
    | ok J =>
      rw [hJ] at h
      obtain ⟨r, -, hr⟩ := mapM_error_mem h
      obtain ⟨D, -, hD⟩ := mapM_error_mem hr
      unfold entryFloat at hD
      split_ifs at hD
      cases hD
  · intro h
    have hz : ∃ t ∈ f, t.eval (fun _ => 0) ≠ 0 := by
      by_contra hc
      push Not at hc
      apply h
      funext i
      have hi : (i : ℕ) < f.length := hf ▸ i.2
      have hmem : f.getD i (.const 0) ∈ f := by
        rw [List.getD_eq_getElem?_getD, List.getElem?_eq_getElem hi]; simp
      simp only [field, e0]
      exact hc _ hmem
    unfold linearise checkZero
    rw [if_pos hz]
    rfl

/-- A damped pendulum with torque input: `x0' = x1`, `x1' = -sin x0 - x1 + u0`. -/
def pendulumU : List Term := [.var 1, .add (.sub (.neg (.app .sin (.var 0))) (.var 1)) (.var 2)]

theorem C52_pendulum : linearise 2 pendulumU = .ok [[0, 1], [-1, -1]] := by
  have hz : ¬ ∃ t ∈ pendulumU, t.eval (fun _ => 0) ≠ 0 := by
    simp [pendulumU, Term.eval, Fn.eval]
  unfold linearise checkZero
  rw [if_neg hz]
  simp only [bind, Except.bind, jacobian, pendulumU, List.range, List.range.loop, List.mapM_cons, List.mapM_nil, Term.diff, Fn.diff, pure, Except.pure]
  simp [entryFloat, Term.eval, Fn.eval, originEnv]
  rfl

example : (pendulumU.length = 2) ∧ (∀ t ∈ pendulumU, regular (fun _ => 0) t) ∧ (∀ μ, ∀ t ∈ pendulumU, regular (originEnv 2 μ) t) := by
  simp [pendulumU, regular]

/-- C52: with an input that multiplies a state the entry keeps the input symbol and the conversion to floats raises, although the
right-hand side is differentiable at the origin. -/
theorem C52_bilinear_raises : linearise 1 [.sub (.mul (.var 0) (.var 1)) (.var 0)] = .error .typeError := by
  have hz : ¬ ∃ t ∈ [Term.sub (.mul (.var 0) (.var 1)) (.var 0)], t.eval (fun _ => 0) ≠ 0 := by
    simp [Term.eval]
  have hd : ¬ ∀ μ μ' : ℕ → ℝ, μ 0 = μ' 0 := fun h => by
    have := h (fun _ => 0) (fun _ => 1); norm_num at this
  unfold linearise checkZero
  rw [if_neg hz]
  simp only [bind, Except.bind, jacobian, List.range, List.range.loop, List.mapM_cons, List.mapM_nil, Term.diff, pure, Except.pure]
  simp [entryFloat, Term.eval, originEnv, hd]

end Fossil

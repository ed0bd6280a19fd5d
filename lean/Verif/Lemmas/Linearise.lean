/-
The value of a regular term is differentiable, with the symbolic partial derivatives as Jacobian.
-/
import Verif.Linearise
import Verif.Lemmas.Diff

namespace Fossil
open Spec

/-- States `p`, inputs `μ`. -/
def Spec.stateInput {n : ℕ} (p : Pt n) (μ : ℕ → ℝ) : Env := fun i => if h : i < n then p ⟨i, h⟩ else μ (i - n)

theorem stateInput_zero {n : ℕ} (μ : ℕ → ℝ) : stateInput (0 : Pt n) μ = originEnv n μ := by
  funext i; by_cases h : i < n <;> simp [stateInput, originEnv, h]

theorem stateInput_env {n : ℕ} (p : Pt n) : stateInput p 0 = p.env := by
  funext i; by_cases h : i < n <;> simp [stateInput, Pt.env, h]

theorem eval_differentiableAt {n : ℕ} (μ : ℕ → ℝ) (p : Pt n) (t : Term) (hd : ∀ j < n, ∃ D, t.diff j = .ok D)
    (hr : regular (stateInput p μ) t) : DifferentiableAt ℝ (fun q : Pt n => t.eval (stateInput q μ)) p := by
  induction t with
  | var i =>
    by_cases h : i < n
    · simp only [Term.eval, stateInput, h, dif_pos]
      exact differentiableAt_apply (⟨i, h⟩ : Fin n) p
    · simp only [Term.eval, stateInput, h, dif_neg, not_false_iff]
      exact differentiableAt_const _
  | const c => exact differentiableAt_const _
  | add a b iha ihb | sub a b iha ihb | mul a b iha ihb | div a b iha ihb =>
    have h2 : (∀ j < n, ∃ D, a.diff j = .ok D) ∧ ∀ j < n, ∃ D, b.diff j = .ok D := by
      refine ⟨fun j hj => ?_, fun j hj => ?_⟩ <;> obtain ⟨D, h⟩ := hd j hj <;> simp only [Term.diff] at h <;>
      obtain ⟨da, ha, h⟩ := except_bind_ok h <;> obtain ⟨db, hb, h⟩ := except_bind_ok h
      exacts [⟨_, ha⟩, ⟨_, hb⟩]
    first
    | exact (iha h2.1 hr.1).add (ihb h2.2 hr.2)
    | exact (iha h2.1 hr.1).sub (ihb h2.2 hr.2)
    | exact (iha h2.1 hr.1).mul (ihb h2.2 hr.2)
    | (simp only [Term.eval, div_eq_mul_inv]
       exact (iha h2.1 hr.1).mul ((ihb h2.2 hr.2.1).inv hr.2.2))
  | neg a iha =>
    refine (iha (fun j hj => ?_) hr).neg
    obtain ⟨D, h⟩ := hd j hj
    simp only [Term.diff] at h
    obtain ⟨da, ha, h⟩ := except_bind_ok h
    exact ⟨_, ha⟩
  | pow a k iha =>
    have h2 : ∀ j < n, ∃ D, a.diff j = .ok D := by
      intro j hj
      obtain ⟨D, h⟩ := hd j hj
      simp only [Term.diff] at h
      obtain ⟨da, ha, h⟩ := except_bind_ok h
      exact ⟨_, ha⟩
    exact (hasDerivAt_zpow k _ hr.2).differentiableAt.comp p (iha h2 hr.1)
  | app f a iha =>
    by_cases e : f = .relu ∨ f = .step
    · have hm : ∀ j < n, a.mentions j = false := by
        intro j hj
        obtain ⟨D, h⟩ := hd j hj
        simp only [Term.diff, if_pos e] at h
        by_contra hc
        rw [if_pos (by simpa using hc)] at h
        cases h
      have hconst : ∀ q : Pt n, a.eval (stateInput q μ) = a.eval (stateInput p μ) := fun q =>
        eval_congr fun j hj => by
          by_cases hjn : j < n
          · rw [hm j hjn] at hj; cases hj
          · simp [stateInput, hjn]
      simp only [Term.eval, hconst]
      exact differentiableAt_const _
    · have h2 : ∀ j < n, ∃ D, a.diff j = .ok D := by
        intro j hj
        obtain ⟨D, h⟩ := hd j hj
        simp only [Term.diff, if_neg e] at h
        obtain ⟨da, ha, h⟩ := except_bind_ok h
        exact ⟨_, ha⟩
      exact (fn_hasDeriv f e a _ hr.2).differentiableAt.comp p (iha h2 hr.1)

/-- Total derivative of a regular term. -/
theorem eval_hasFDerivAt {n : ℕ} (μ : ℕ → ℝ) (p : Pt n) (t : Term) (hd : ∀ j < n, ∃ D, t.diff j = .ok D)
    (hr : regular (stateInput p μ) t) (L : Pt n →L[ℝ] ℝ)
    (hL : ∀ v, L v = ∑ j ∈ Finset.range n, t.dval (stateInput p μ) j * v.env j) :
    HasFDerivAt (fun q : Pt n => t.eval (stateInput q μ)) L p := by
  have h := (eval_differentiableAt μ p t hd hr).hasFDerivAt
  refine h.congr_fderiv ?_
  ext v
  have h1 : HasDerivAt (fun τ : ℝ => t.eval (stateInput (p + τ • v) μ)) (fderiv ℝ (fun q : Pt n => t.eval (stateInput q μ)) p v) 0 := by
    have hc : HasDerivAt (fun τ : ℝ => p + τ • v) v 0 := by
      simpa using ((hasDerivAt_id (0:ℝ)).smul_const v).const_add p
    have h0 : p = p + (0:ℝ) • v := by simp
    rw [h0] at h
    have := h.comp_hasDerivAt (0:ℝ) hc
    rwa [← h0] at this
  have h2 := eval_curve_deriv (n := n) (ρ := fun τ : ℝ => stateInput (p + τ • v) μ) (δ := v.env) (s := Set.univ) (τ := 0)
    (fun i hi => by
      simp only [stateInput, hi, dif_pos, Pt.env_lt v hi]
      have : HasDerivAt (fun τ : ℝ => p ⟨i, hi⟩ + τ * v ⟨i, hi⟩) (v ⟨i, hi⟩) 0 := by
        simpa using ((hasDerivAt_id (0:ℝ)).mul_const (v ⟨i, hi⟩)).const_add (p ⟨i, hi⟩)
      simpa using this.hasDerivWithinAt (s := Set.univ))
    (fun i hi r => by simp [stateInput, not_lt.2 hi]) t hd (by simpa using hr)
  rw [hasDerivWithinAt_univ] at h2
  rw [h1.unique h2, hL]
  simp

end Fossil

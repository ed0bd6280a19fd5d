/-
Symbolic derivatives of terms are derivatives.
-/
import Verif.Candidate
import Verif.Lemmas.Act
import Verif.Lemmas.Smooth

namespace Fossil
open Spec

/-- The term is evaluated inside the domain where it is a smooth expression: divisors are not zero, logarithms are of positive
numbers, negative powers are of non-zero numbers. (Conditional expressions are dealt with by `Term.diff`.) -/
def Spec.regular (ρ : Env) : Term → Prop
  | .var _ => True
  | .const _ => True
  | .add a b | .sub a b | .mul a b => regular ρ a ∧ regular ρ b
  | .div a b => regular ρ a ∧ regular ρ b ∧ b.eval ρ ≠ 0
  | .neg a => regular ρ a
  | .pow a k => regular ρ a ∧ (a.eval ρ ≠ 0 ∨ 0 ≤ k)
  | .app f a => regular ρ a ∧ (f = .log → 0 < a.eval ρ)

/-- Value of the derivative by variable `j`. -/
noncomputable def Term.dval (ρ : Env) (j : ℕ) : Term → ℝ
  | .var i => if i = j then 1 else 0
  | .const _ => 0
  | .add a b => a.dval ρ j + b.dval ρ j
  | .sub a b => a.dval ρ j - b.dval ρ j
  | .mul a b => a.dval ρ j * b.eval ρ + a.eval ρ * b.dval ρ j
  | .div a b => (a.dval ρ j * b.eval ρ - a.eval ρ * b.dval ρ j) / b.eval ρ ^ 2
  | .neg a => - a.dval ρ j
  | .pow a k => (k : ℝ) * a.eval ρ ^ (k - 1) * a.dval ρ j
  | .app f a => if f = .relu ∨ f = .step then 0 else (f.diff a).eval ρ * a.dval ρ j

theorem diff_eval (j : ℕ) (t D : Term) (h : t.diff j = .ok D) (ρ : Env) : D.eval ρ = t.dval ρ j := by
  induction t generalizing D with
  | var i =>
    simp only [Term.diff] at h; cases h
    by_cases e : i = j <;> simp [Term.eval, Term.dval, e]
  | const c => simp only [Term.diff] at h; cases h; simp [Term.eval, Term.dval]
  | add a b iha ihb | sub a b iha ihb | mul a b iha ihb | div a b iha ihb =>
    simp only [Term.diff] at h
    obtain ⟨da, ha, h⟩ := except_bind_ok h
    obtain ⟨db, hb, h⟩ := except_bind_ok h
    cases h
    simp only [Term.eval, Term.dval, iha _ ha, ihb _ hb]
    try norm_cast
  | neg a iha =>
    simp only [Term.diff] at h
    obtain ⟨da, ha, h⟩ := except_bind_ok h
    cases h
    simp only [Term.eval, Term.dval, iha _ ha]
  | pow a k iha =>
    simp only [Term.diff] at h
    obtain ⟨da, ha, h⟩ := except_bind_ok h
    cases h
    simp only [Term.eval, Term.dval, iha _ ha]
    norm_cast
  | app f a iha =>
    simp only [Term.diff] at h
    by_cases e : f = .relu ∨ f = .step
    · rw [if_pos e] at h
      by_cases e' : a.mentions j = true
      · rw [if_pos e'] at h; cases h
      · rw [if_neg e'] at h; cases h
        simp [Term.eval, Term.dval, e]
    · rw [if_neg e] at h
      obtain ⟨da, ha, h⟩ := except_bind_ok h
      cases h
      simp only [Term.eval, Term.dval, iha _ ha, if_neg e]

/-- The value of a term depends only on the variables that occur in it. -/
theorem eval_congr {t : Term} {ρ σ : Env} (h : ∀ j, t.mentions j = true → ρ j = σ j) : t.eval ρ = t.eval σ := by
  induction t with
  | var i => exact h i (by simp [Term.mentions])
  | const c => rfl
  | add a b iha ihb | sub a b iha ihb | mul a b iha ihb | div a b iha ihb =>
    simp only [Term.eval]
    rw [iha fun j hj => h j (by simp [Term.mentions, hj]), ihb fun j hj => h j (by simp [Term.mentions, hj])]
  | neg a iha | pow a k iha | app f a iha =>
    simp only [Term.eval]
    rw [iha fun j hj => h j (by simp [Term.mentions, hj])]

theorem fn_hasDeriv (f : Fn) (hf : ¬ (f = .relu ∨ f = .step)) (a : Term) (ρ : Env)
    (hl : f = .log → 0 < a.eval ρ) : HasDerivAt f.eval ((f.diff a).eval ρ) (a.eval ρ) := by
  cases f <;> simp at hf hl
  · exact Real.hasDerivAt_sin _
  · exact Real.hasDerivAt_cos _
  · exact Real.hasDerivAt_exp _
  · have := Real.hasDerivAt_log hl.ne'
    exact this.congr_deriv (by simp [Fn.diff, Term.eval])
  · have := hasDerivAt_tanh (a.eval ρ)
    simp only [Fn.diff, Fn.eval, Term.eval]
    norm_cast
  · exact Real.hasDerivAt_sinh _
  · exact Real.hasDerivAt_cosh _

/-- Chain rule: along a curve of assignments whose first `n` variables move with velocity `δ` and whose other variables are
fixed, the value of a term changes at the rate given by its symbolic partial derivatives. -/
theorem eval_curve_deriv {n : ℕ} {ρ : ℝ → Env} {δ : ℕ → ℝ} {s : Set ℝ} {τ : ℝ}
    (hδ : ∀ i < n, HasDerivWithinAt (fun r => ρ r i) (δ i) s τ) (hfix : ∀ i, n ≤ i → ∀ r, ρ r i = ρ τ i)
    (t : Term) (hd : ∀ j < n, ∃ D, t.diff j = .ok D) (hr : regular (ρ τ) t) :
    HasDerivWithinAt (fun r => t.eval (ρ r)) (∑ j ∈ Finset.range n, t.dval (ρ τ) j * δ j) s τ := by
  induction t with
  | var i =>
    simp only [Term.eval, Term.dval, ite_mul, one_mul, zero_mul, Finset.sum_ite_eq, Finset.mem_range]
    by_cases h : i < n
    · simpa [h] using hδ i h
    · simp only [h, if_false]
      exact (hasDerivWithinAt_const τ s (ρ τ i)).congr (fun r _ => hfix i (not_lt.1 h) r) rfl
  | const c => simpa [Term.eval, Term.dval] using hasDerivWithinAt_const τ s (c : ℝ)
  | add a b iha ihb =>
    have h2 : (∀ j < n, ∃ D, a.diff j = .ok D) ∧ ∀ j < n, ∃ D, b.diff j = .ok D := by
      refine ⟨fun j hj => ?_, fun j hj => ?_⟩ <;> obtain ⟨D, h⟩ := hd j hj <;> simp only [Term.diff] at h <;>
      obtain ⟨da, ha, h⟩ := except_bind_ok h <;> obtain ⟨db, hb, h⟩ := except_bind_ok h
      exacts [⟨_, ha⟩, ⟨_, hb⟩]
    have := (iha h2.1 hr.1).add (ihb h2.2 hr.2)
    refine this.congr_deriv ?_
    rw [← Finset.sum_add_distrib]
    exact Finset.sum_congr rfl fun j _ => by simp only [Term.dval]; ring
  | sub a b iha ihb =>
    have h2 : (∀ j < n, ∃ D, a.diff j = .ok D) ∧ ∀ j < n, ∃ D, b.diff j = .ok D := by
      refine ⟨fun j hj => ?_, fun j hj => ?_⟩ <;> obtain ⟨D, h⟩ := hd j hj <;> simp only [Term.diff] at h <;>
      obtain ⟨da, ha, h⟩ := except_bind_ok h <;> obtain ⟨db, hb, h⟩ := except_bind_ok h
      exacts [⟨_, ha⟩, ⟨_, hb⟩]
    have := (iha h2.1 hr.1).sub (ihb h2.2 hr.2)
    refine this.congr_deriv ?_
    rw [← Finset.sum_sub_distrib]
    exact Finset.sum_congr rfl fun j _ => by simp only [Term.dval]; ring
  | mul a b iha ihb =>
    have h2 : (∀ j < n, ∃ D, a.diff j = .ok D) ∧ ∀ j < n, ∃ D, b.diff j = .ok D := by
      refine ⟨fun j hj => ?_, fun j hj => ?_⟩ <;> obtain ⟨D, h⟩ := hd j hj <;> simp only [Term.diff] at h <;>
      obtain ⟨da, ha, h⟩ := except_bind_ok h <;> obtain ⟨db, hb, h⟩ := except_bind_ok h
      exacts [⟨_, ha⟩, ⟨_, hb⟩]
    have := (iha h2.1 hr.1).mul (ihb h2.2 hr.2)
    refine this.congr_deriv ?_
    rw [Finset.sum_mul, Finset.mul_sum, ← Finset.sum_add_distrib]
    exact Finset.sum_congr rfl fun j _ => by simp only [Term.dval]; ring
  | div a b iha ihb =>
    have h2 : (∀ j < n, ∃ D, a.diff j = .ok D) ∧ ∀ j < n, ∃ D, b.diff j = .ok D := by
      refine ⟨fun j hj => ?_, fun j hj => ?_⟩ <;> obtain ⟨D, h⟩ := hd j hj <;> simp only [Term.diff] at h <;>
      obtain ⟨da, ha, h⟩ := except_bind_ok h <;> obtain ⟨db, hb, h⟩ := except_bind_ok h
      exacts [⟨_, ha⟩, ⟨_, hb⟩]
    have := (iha h2.1 hr.1).div (ihb h2.2 hr.2.1) hr.2.2
    refine this.congr_deriv ?_
    rw [Finset.sum_mul, Finset.mul_sum, ← Finset.sum_sub_distrib, div_eq_mul_inv, Finset.sum_mul]
    exact Finset.sum_congr rfl fun j _ => by simp only [Term.dval]; ring
  | neg a iha =>
    have h2 : ∀ j < n, ∃ D, a.diff j = .ok D := by
      intro j hj
      obtain ⟨D, h⟩ := hd j hj
      simp only [Term.diff] at h
      obtain ⟨da, ha, h⟩ := except_bind_ok h
      exact ⟨_, ha⟩
    have := (iha h2 hr).neg
    refine this.congr_deriv ?_
    rw [← Finset.sum_neg_distrib]
    exact Finset.sum_congr rfl fun j _ => by simp only [Term.dval]; ring
  | pow a k iha =>
    have h2 : ∀ j < n, ∃ D, a.diff j = .ok D := by
      intro j hj
      obtain ⟨D, h⟩ := hd j hj
      simp only [Term.diff] at h
      obtain ⟨da, ha, h⟩ := except_bind_ok h
      exact ⟨_, ha⟩
    have := (hasDerivAt_zpow k (a.eval (ρ τ)) hr.2).comp_hasDerivWithinAt τ (iha h2 hr.1)
    refine this.congr_deriv ?_
    rw [Finset.mul_sum]
    exact Finset.sum_congr rfl fun j _ => by simp only [Term.dval]; ring
  | app f a iha =>
    by_cases e : f = .relu ∨ f = .step
    · have hm : ∀ j < n, a.mentions j = false := by
        intro j hj
        obtain ⟨D, h⟩ := hd j hj
        simp only [Term.diff, if_pos e] at h
        by_contra hc
        rw [if_pos (by simpa using hc)] at h
        cases h
      have hconst : ∀ r, a.eval (ρ r) = a.eval (ρ τ) := fun r =>
        eval_congr fun j hj => hfix j (by
          by_contra hc
          rw [hm j (not_le.1 hc)] at hj; cases hj) r
      simp only [Term.dval, if_pos e, zero_mul, Finset.sum_const_zero]
      exact (hasDerivWithinAt_const τ s (f.eval (a.eval (ρ τ)))).congr (fun r _ => by simp [Term.eval, hconst r])
        (by simp [Term.eval])
    · have h2 : ∀ j < n, ∃ D, a.diff j = .ok D := by
        intro j hj
        obtain ⟨D, h⟩ := hd j hj
        simp only [Term.diff, if_neg e] at h
        obtain ⟨da, ha, h⟩ := except_bind_ok h
        exact ⟨_, ha⟩
      have := (fn_hasDeriv f e a (ρ τ) hr.2).comp_hasDerivWithinAt τ (iha h2 hr.1)
      refine this.congr_deriv ?_
      rw [Finset.mul_sum]
      exact Finset.sum_congr rfl fun j _ => by simp only [Term.dval, if_neg e]; ring

theorem env_contDiff {n : ℕ} (i : ℕ) : ContDiff ℝ 1 (fun p : Pt n => p.env i) := by
  by_cases h : i < n
  · refine (congrArg (ContDiff ℝ 1) (funext fun p => ?_)).mp (contDiff_apply ℝ ℝ (⟨i, h⟩ : Fin n))
    simp [Pt.env, h]
  · refine (congrArg (ContDiff ℝ 1) (funext fun p => ?_)).mp (contDiff_const (c := (0:ℝ)))
    simp [Pt.env, h]

theorem zpow_contDiff {n : ℕ} {g : Pt n → ℝ} (hg : ContDiff ℝ 1 g) (k : ℤ) (h : (∀ p, g p ≠ 0) ∨ 0 ≤ k) :
    ContDiff ℝ 1 (fun p => g p ^ k) := by
  rcases le_or_gt 0 k with hk | hk
  · lift k to ℕ using hk
    simpa using hg.pow k
  · have h0 := h.resolve_right (not_le.2 hk)
    have e : k = -((-k).toNat : ℤ) := by omega
    rw [e]
    refine (congrArg (ContDiff ℝ 1) (funext fun p => ?_)).mp ((hg.pow (-k).toNat).inv fun p => pow_ne_zero _ (h0 p))
    show ((g p ^ (-k).toNat)⁻¹ : ℝ) = _
    rw [zpow_neg, zpow_natCast]

theorem fn_contDiff {n : ℕ} {g : Pt n → ℝ} (hg : ContDiff ℝ 1 g) (f : Fn) (hf : ¬ (f = .relu ∨ f = .step))
    (hl : f = .log → ∀ p, 0 < g p) : ContDiff ℝ 1 (fun p => f.eval (g p)) := by
  cases f <;> simp at hf hl
  · exact Real.contDiff_sin.comp hg
  · exact Real.contDiff_cos.comp hg
  · exact Real.contDiff_exp.comp hg
  · exact hg.log fun p => (hl p).ne'
  · have htanh : ContDiff ℝ 1 Real.tanh := by
      have : Real.tanh = fun t => Real.sinh t / Real.cosh t := funext Real.tanh_eq_sinh_div_cosh
      rw [this]
      exact Real.contDiff_sinh.div Real.contDiff_cosh fun t => (Real.cosh_pos t).ne'
    exact htanh.comp hg
  · exact Real.contDiff_sinh.comp hg
  · exact Real.contDiff_cosh.comp hg

/-- A term that can be differentiated and is regular everywhere is a continuously differentiable function. -/
theorem eval_contDiff {n : ℕ} (t : Term) (hd : ∀ j < n, ∃ D, t.diff j = .ok D) (hr : ∀ p : Pt n, regular p.env t) :
    ContDiff ℝ 1 (fun p : Pt n => t.eval p.env) := by
  induction t with
  | var i => exact env_contDiff i
  | const c => exact contDiff_const
  | add a b iha ihb | sub a b iha ihb | mul a b iha ihb | div a b iha ihb =>
    have h2 : (∀ j < n, ∃ D, a.diff j = .ok D) ∧ ∀ j < n, ∃ D, b.diff j = .ok D := by
      refine ⟨fun j hj => ?_, fun j hj => ?_⟩ <;> obtain ⟨D, h⟩ := hd j hj <;> simp only [Term.diff] at h <;>
      obtain ⟨da, ha, h⟩ := except_bind_ok h <;> obtain ⟨db, hb, h⟩ := except_bind_ok h
      exacts [⟨_, ha⟩, ⟨_, hb⟩]
    first
    | exact (iha h2.1 fun p => (hr p).1).add (ihb h2.2 fun p => (hr p).2)
    | exact (iha h2.1 fun p => (hr p).1).sub (ihb h2.2 fun p => (hr p).2)
    | exact (iha h2.1 fun p => (hr p).1).mul (ihb h2.2 fun p => (hr p).2)
    | exact (iha h2.1 fun p => (hr p).1).div (ihb h2.2 fun p => (hr p).2.1) fun p => (hr p).2.2
  | neg a iha =>
    refine (iha (fun j hj => ?_) hr).neg
    obtain ⟨D, h⟩ := hd j hj
    simp only [Term.diff] at h
    obtain ⟨da, ha, h⟩ := except_bind_ok h
    exact ⟨_, ha⟩
  | pow a k iha =>
    refine zpow_contDiff (iha (fun j hj => ?_) fun p => (hr p).1) k ?_
    · obtain ⟨D, h⟩ := hd j hj
      simp only [Term.diff] at h
      obtain ⟨da, ha, h⟩ := except_bind_ok h
      exact ⟨_, ha⟩
    · by_cases hk : 0 ≤ k
      · exact Or.inr hk
      · exact Or.inl fun p => (hr p).2.resolve_right hk
  | app f a iha =>
    by_cases e : f = .relu ∨ f = .step
    · have hm : ∀ j < n, a.mentions j = false := by
        intro j hj
        obtain ⟨D, h⟩ := hd j hj
        simp only [Term.diff, if_pos e] at h
        by_contra hc
        rw [if_pos (by simpa using hc)] at h
        cases h
      have hconst : ∀ p : Pt n, a.eval p.env = a.eval (0 : Pt n).env := fun p =>
        eval_congr fun j hj => by
          by_cases hjn : j < n
          · rw [hm j hjn] at hj; cases hj
          · simp [Pt.env, hjn]
      refine (congrArg (ContDiff ℝ 1) (funext fun p => ?_)).mp (contDiff_const (c := f.eval (a.eval (0 : Pt n).env)))
      simp [Term.eval, hconst p]
    · refine fn_contDiff (iha (fun j hj => ?_) fun p => (hr p).1) f e fun hf p => (hr p).2 hf
      obtain ⟨D, h⟩ := hd j hj
      simp only [Term.diff, if_neg e] at h
      obtain ⟨da, ha, h⟩ := except_bind_ok h
      exact ⟨_, ha⟩

end Fossil

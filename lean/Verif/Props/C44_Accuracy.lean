/-
C44: what the accuracies computed by the training loops mean for the samples (used for C35 and C36).

-/
import Verif.LearnLoop
import Verif.Lemmas.LLO
import Mathlib.Tactic

namespace Fossil

/-! ### specification -/

namespace Spec

/-- Parameters after `n` optimiser steps. -/
def afterSteps {Θ : Type} (step : ℕ → Θ → Θ) : ℕ → Θ → Θ
  | 0, θ => θ
  | n + 1, θ => step n (afterSteps step n θ)

/-- The dynamics values that belong to the samples `d` with stored values `dd`: recomputed when a controller is trained. -/
def derivs {Θ P : Type} (f : Option (Θ → P → P)) (θ : Θ) (d dd : List P) : List P :=
  match f with
  | some f => d.map (f θ)
  | none => dd

/-- Number of entries violating `p`. -/
noncomputable def violations (p : ℝ → Prop) (l : List ℝ) : ℕ := open Classical in l.countP (fun v => decide (¬ p v))

end Spec

open Spec

/-! ### counting -/

theorem countNonzero_le (p : ℝ → Prop) (l : List ℝ) : countNonzero p l ≤ l.length := List.countP_le_length

theorem countNonzero_eq_iff (p : ℝ → Prop) (l : List ℝ) : countNonzero p l = l.length ↔ ∀ v ∈ l, p v := by
  classical
  unfold countNonzero
  rw [List.countP_eq_length]
  simp

theorem countNonzero_add_violations (p : ℝ → Prop) (l : List ℝ) : countNonzero p l + violations p l = l.length := by
  classical
  unfold countNonzero violations
  have := List.length_eq_countP_add_countP (l := l) (fun v => decide (p v))
  rw [this]
  congr 1
  apply List.countP_congr
  intro v _
  simp

theorem violations_zero_iff (p : ℝ → Prop) (l : List ℝ) : violations p l = 0 ↔ ∀ v ∈ l, p v := by
  rw [← countNonzero_eq_iff]
  have := countNonzero_add_violations p l
  omega

theorem percent_hundred {a : ℚ} {b : ℕ} : percent a b = .ok 100 ↔ b ≠ 0 ∧ a = b := by
  unfold percent
  by_cases hb : b = 0
  · simp [hb]
  · rw [if_neg hb]
    have : (b : ℚ) ≠ 0 := by exact_mod_cast hb
    constructor
    · intro h
      refine ⟨hb, ?_⟩
      injection h with h
      field_simp at h
      linarith
    · rintro ⟨-, rfl⟩
      congr 1
      field_simp

/-! ### C44: what the accuracies mean -/

/-- **C44 (Lyapunov, ROA).** With at least one sample, the accuracy is 100 percent exactly when the Lie derivative is non-positive
at every sample and (without LLO) the certificate is non-negative at every sample. -/
theorem C44_roa_accuracy (llo : Bool) (V Vdot : List ℝ) (hlen : V.length = Vdot.length) (hne : Vdot ≠ []) :
    roaAcc llo V Vdot = .ok 100 ↔ (∀ v ∈ Vdot, v ≤ 0) ∧ (llo = false → ∀ v ∈ V, 0 ≤ v) := by
  have hl : Vdot.length ≠ 0 := by simpa using hne
  cases llo with
  | true =>
    simp only [roaAcc, if_true, percent_hundred, ne_eq, hl, not_false_eq_true, true_and, Nat.cast_inj,
      countNonzero_eq_iff, Bool.true_eq_false, false_implies, and_true]
  | false =>
    simp only [roaAcc, Bool.false_eq_true, if_false, percent_hundred, ne_eq, hl, not_false_eq_true, true_and, forall_const]
    rw [← countNonzero_eq_iff (fun v => v ≤ 0) Vdot, ← countNonzero_eq_iff (fun v => 0 ≤ v) V]
    have h1 := countNonzero_le (· ≤ 0) Vdot
    have h2 := countNonzero_le (0 ≤ ·) V
    constructor
    · intro h
      have h' : (countNonzero (· ≤ 0) Vdot + countNonzero (0 ≤ ·) V : ℕ) = 2 * Vdot.length := by
        have : ((countNonzero (· ≤ 0) Vdot + countNonzero (0 ≤ ·) V : ℕ) : ℚ) = (2 * Vdot.length : ℕ) := by
          push_cast; linarith
        exact_mod_cast this
      constructor <;> omega
    · rintro ⟨e1, e2⟩
      rw [e1, e2, hlen]; ring

/-- The Lyapunov class has the same accuracy, when it does not raise. -/
theorem C44_lyapunov_accuracy (llo : Bool) (V Vdot : List ℝ) (hlen : V.length = Vdot.length)
    (h : lyapAcc llo V Vdot = .ok 100) : (∀ v ∈ Vdot, v ≤ 0) ∧ (llo = false → ∀ v ∈ V, 0 ≤ v) := by
  unfold lyapAcc at h
  by_cases h1 : Vdot = []
  · rw [if_pos h1] at h; cases h
  · rw [if_neg h1] at h
    by_cases h2 : ∀ v ∈ Vdot, v = 0
    · rw [if_pos h2] at h; cases h
    · rw [if_neg h2] at h
      exact (C44_roa_accuracy llo V Vdot hlen h1).1 h

/-- **C44 (initial and unsafe samples).** The accuracy is 100 percent exactly when there is some sample, every initial sample is
at most `-m` and every unsafe sample at least `m`. -/
theorem C44_init_unsafe_accuracy (m : ℝ) (Bi Bu : List ℝ) :
    initUnsafeAcc m Bi Bu = .ok 100 ↔ (Bi ≠ [] ∨ Bu ≠ []) ∧ (∀ v ∈ Bi, v ≤ -m) ∧ (∀ v ∈ Bu, m ≤ v) := by
  unfold initUnsafeAcc
  rw [percent_hundred, ← countNonzero_eq_iff (fun v => v ≤ -m) Bi, ← countNonzero_eq_iff (fun v => m ≤ v) Bu]
  have h1 := countNonzero_le (· ≤ -m) Bi
  have h2 := countNonzero_le (m ≤ ·) Bu
  have h3 : Bu.length + Bi.length ≠ 0 ↔ (Bi ≠ [] ∨ Bu ≠ []) := by
    rw [← List.length_pos_iff_ne_nil, ← List.length_pos_iff_ne_nil]; omega
  rw [h3]
  refine and_congr_right fun _ => ?_
  constructor
  · intro h
    have : countNonzero (· ≤ -m) Bi + countNonzero (m ≤ ·) Bu = Bu.length + Bi.length := by exact_mod_cast h
    constructor <;> omega
  · rintro ⟨e1, e2⟩
    rw [e1, e2]; push_cast; ring

/-- Bound on violations from a percentage of at least 99.9. -/
theorem violations_of_percent (p : ℝ → Prop) (l : List ℝ) (hne : l ≠ [])
    (h : (999/10 : ℚ) ≤ 100 * (countNonzero p l : ℚ) / l.length) : 1000 * violations p l ≤ l.length := by
  have hl : (0 : ℚ) < l.length := by exact_mod_cast List.length_pos_iff_ne_nil.2 hne
  rw [le_div_iff₀ hl] at h
  have e := countNonzero_add_violations p l
  have e' : (countNonzero p l : ℚ) + violations p l = l.length := by exact_mod_cast e
  have : (1000 * violations p l : ℚ) ≤ l.length := by linarith
  exact_mod_cast this

/-- **C44 (Barrier).** When the loop's test succeeds, all initial samples have `B ≤ 0`, all unsafe samples `B ≥ 0`, there is at least
one belt sample, and at most one in a thousand belt samples has a positive Lie derivative (none, if the belt has less than
1000 samples). -/
theorem C44_barrier_accuracy (sym : Bool) (Bi Bu Bd Bdotd : List ℝ) (a : ℚ × ℚ)
    (h : barrierAcc sym Bi Bu Bd Bdotd = .ok a) (hok : barrierOk a = true) :
    (∀ v ∈ Bi, v ≤ 0) ∧ (∀ v ∈ Bu, 0 ≤ v) ∧ beltVals sym Bd Bdotd ≠ [] ∧
    1000 * violations (· ≤ 0) (beltVals sym Bd Bdotd) ≤ (beltVals sym Bd Bdotd).length ∧
    ((beltVals sym Bd Bdotd).length < 1000 → ∀ v ∈ beltVals sym Bd Bdotd, v ≤ 0) := by
  simp only [barrierOk, Bool.and_eq_true, decide_eq_true_eq] at hok
  unfold barrierAcc at h
  obtain ⟨iu, h1, h2⟩ := except_bind_ok h
  by_cases hb : beltVals sym Bd Bdotd = []
  · rw [if_pos hb] at h2
    cases h2
    norm_num at hok
  · rw [if_neg hb] at h2
    cases h2
    obtain ⟨rfl, h3⟩ := hok
    have h4 := (C44_init_unsafe_accuracy 0 Bi Bu).1 h1
    simp only [neg_zero] at h4
    have h5 := violations_of_percent _ _ hb h3
    refine ⟨h4.2.1, h4.2.2, hb, h5, fun h6 => (violations_zero_iff _ _).1 ?_⟩
    omega

/-- **C44 (BarrierAlt).** The same with margin 0.05 and the derivative at all domain samples. -/
theorem C44_barrierAlt_accuracy (Bi Bu Bd Bdotd : List ℝ) (a : ℚ × ℚ)
    (h : barrierAltAcc Bi Bu Bd Bdotd = .ok a) (hok : barrierOk a = true) :
    (∀ v ∈ Bi, v ≤ -(1/20)) ∧ (∀ v ∈ Bu, 1/20 ≤ v) ∧ Bdotd ≠ [] ∧
    1000 * violations (· ≤ -(1/20)) Bdotd ≤ Bdotd.length ∧
    (Bdotd.length < 1000 → ∀ v ∈ Bdotd, v ≤ -(1/20)) := by
  simp only [barrierOk, Bool.and_eq_true, decide_eq_true_eq] at hok
  unfold barrierAltAcc at h
  obtain ⟨iu, h1, h2⟩ := except_bind_ok h
  obtain ⟨lie, h3, h4⟩ := except_bind_ok h2
  cases h4
  obtain ⟨rfl, h5⟩ := hok
  have h6 := (C44_init_unsafe_accuracy (1/20) Bi Bu).1 h1
  unfold percent at h3
  by_cases hl : Bdotd.length = 0
  · rw [if_pos hl] at h3; cases h3
  · rw [if_neg hl] at h3
    injection h3 with h3
    have hne : Bdotd ≠ [] := by simpa using hl
    have h7 := violations_of_percent (· ≤ -(1/20)) Bdotd hne (by rw [← h3] at h5; rw [mul_comm]; exact h5)
    refine ⟨h6.2.1, h6.2.2, hne, h7, fun h8 => (violations_zero_iff _ _).1 ?_⟩
    omega

/-- **C44 (RWS, RSWS).** The same with rate 0.01 at the domain samples where the certificate is negative. -/
theorem C44_rws_accuracy (Vi Vu Vd Vdotd : List ℝ) (a : ℚ × ℚ)
    (h : rwsAcc Vi Vu Vd Vdotd = .ok a) (hok : barrierOk a = true) :
    (∀ v ∈ Vi, v ≤ 0) ∧ (∀ v ∈ Vu, 0 ≤ v) ∧ lieVals Vd Vdotd ≠ [] ∧
    1000 * violations (· ≤ -(1/100)) (lieVals Vd Vdotd) ≤ (lieVals Vd Vdotd).length ∧
    ((lieVals Vd Vdotd).length < 1000 → ∀ v ∈ lieVals Vd Vdotd, v ≤ -(1/100)) := by
  simp only [barrierOk, Bool.and_eq_true, decide_eq_true_eq] at hok
  unfold rwsAcc at h
  obtain ⟨iu, h1, h2⟩ := except_bind_ok h
  by_cases hb : lieVals Vd Vdotd = []
  · rw [if_pos hb] at h2
    cases h2
    norm_num at hok
  · rw [if_neg hb] at h2
    cases h2
    obtain ⟨rfl, h3⟩ := hok
    have h4 := (C44_init_unsafe_accuracy 0 Vi Vu).1 h1
    simp only [neg_zero] at h4
    have h5 := violations_of_percent (· ≤ -(1/100)) (lieVals Vd Vdotd) hb (by rw [mul_comm]; exact h3)
    refine ⟨h4.2.1, h4.2.2, hb, h5, fun h6 => (violations_zero_iff _ _).1 ?_⟩
    omega

/-- Membership in the belt, without reference to the model's list. -/
theorem mem_beltVals (sym : Bool) (Bd Bdotd : List ℝ) (v : ℝ) :
    v ∈ beltVals sym Bd Bdotd ↔ ∃ b, (b, v) ∈ Bd.zip Bdotd ∧ (if sym then |b| ≤ 1/2 else 0 ≤ b) := by
  classical
  unfold beltVals
  simp only [List.mem_map, List.mem_filter, Prod.exists, exists_eq_right]
  cases sym <;> simp

theorem mem_lieVals (Vd Vdotd : List ℝ) (v : ℝ) : v ∈ lieVals Vd Vdotd ↔ ∃ b, (b, v) ∈ Vd.zip Vdotd ∧ b < 0 := by
  classical
  unfold lieVals
  simp only [List.mem_map, List.mem_filter, Prod.exists, exists_eq_right, decide_eq_true_eq]

end Fossil

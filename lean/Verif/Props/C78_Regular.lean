import Verif.Regular
import Verif.Props.C51_Loss
import Verif.Spec.Dynamics
import Mathlib.Analysis.Calculus.Deriv.Pow
import Mathlib.Analysis.Calculus.Deriv.Pi
import Mathlib.Analysis.Calculus.Deriv.Add

/-!
# C78: the regularisation term of controller training

Statements use only the rows of the batch: `∑ i, s i ^ 2` is the squared distance of a state from the origin.
-/

namespace Fossil
open Spec

namespace Spec

/-- A row whose Euclidean length is at least 1e-8. -/
def NotNegligible {n : ℕ} (x : Fin n → ℝ) : Prop := (1 / 10 ^ 8) ^ 2 ≤ ∑ i, x i ^ 2

end Spec

theorem rowDot_self_nonneg {n : ℕ} (x : Fin n → ℝ) : 0 ≤ rowDot x x := Finset.sum_nonneg fun i _ => mul_self_nonneg (x i)

theorem rowNorm_nonneg {n : ℕ} (x : Fin n → ℝ) : 0 ≤ rowNorm x := Real.sqrt_nonneg _

theorem rowNorm_sq {n : ℕ} (x : Fin n → ℝ) : rowNorm x * rowNorm x = rowDot x x := Real.mul_self_sqrt (rowDot_self_nonneg x)

theorem rowDot_le {n : ℕ} (x y : Fin n → ℝ) : |rowDot x y| ≤ rowNorm x * rowNorm y := by
  have h : rowDot x y ^ 2 ≤ (rowNorm x * rowNorm y) ^ 2 := by
    have := Finset.sum_mul_sq_le_sq_mul_sq Finset.univ x y
    have e : (rowNorm x * rowNorm y) ^ 2 = rowDot x x * rowDot y y := by rw [← rowNorm_sq, ← rowNorm_sq]; ring
    rw [e]
    simpa [rowDot, sq] using this
  exact abs_le_of_sq_le_sq h (mul_nonneg (rowNorm_nonneg x) (rowNorm_nonneg y))

theorem den_pos {n : ℕ} (x y : Fin n → ℝ) : 0 < max (rowNorm x) (1 / 10 ^ 8) * max (rowNorm y) (1 / 10 ^ 8) :=
  mul_pos (lt_max_of_lt_right (by norm_num)) (lt_max_of_lt_right (by norm_num))

theorem cosSim_abs {n : ℕ} (x y : Fin n → ℝ) : |cosSim x y| ≤ 1 := by
  unfold cosSim
  rw [abs_div, abs_of_pos (den_pos x y), div_le_one (den_pos x y)]
  exact (rowDot_le x y).trans (mul_le_mul (le_max_left _ _) (le_max_left _ _) (rowNorm_nonneg y) ((rowNorm_nonneg x).trans (le_max_left _ _)))

theorem cosSim_neg_iff {n : ℕ} (x y : Fin n → ℝ) : cosSim x y < 0 ↔ rowDot x y < 0 := by
  unfold cosSim
  constructor
  · intro h
    by_contra hc
    push Not at hc
    exact absurd (div_nonneg hc (den_pos x y).le) (not_le.2 h)
  · intro h
    exact div_neg_of_neg_of_pos h (den_pos x y)

theorem rowDot_comm {n : ℕ} (x y : Fin n → ℝ) : rowDot x y = rowDot y x := Finset.sum_congr rfl fun i _ => mul_comm _ _

theorem rowDot_smul_left {n : ℕ} (a : ℝ) (x y : Fin n → ℝ) : rowDot (fun i => a * x i) y = a * rowDot x y := by
  unfold rowDot; rw [Finset.mul_sum]; exact Finset.sum_congr rfl fun i _ => by ring

theorem rowNorm_smul {n : ℕ} {a : ℝ} (ha : 0 ≤ a) (x : Fin n → ℝ) : rowNorm (fun i => a * x i) = a * rowNorm x := by
  unfold rowNorm
  rw [rowDot_smul_left, rowDot_comm, rowDot_smul_left, ← mul_assoc, Real.sqrt_mul (mul_self_nonneg a), Real.sqrt_mul_self ha]

theorem notNegligible_iff {n : ℕ} {x : Fin n → ℝ} : NotNegligible x ↔ 1 / 10 ^ 8 ≤ rowNorm x := by
  have e : ∑ i, x i ^ 2 = rowDot x x := Finset.sum_congr rfl fun i _ => sq _
  unfold NotNegligible rowNorm
  rw [e, Real.le_sqrt (by norm_num) (rowDot_self_nonneg x)]

/-- The cosine is -1 exactly for opposite directions, none of them negligible. -/
theorem cosSim_eq_neg_one {n : ℕ} (x y : Fin n → ℝ) : cosSim x y = -1 ↔
    1 / 10 ^ 8 ≤ rowNorm x ∧ 1 / 10 ^ 8 ≤ rowNorm y ∧ ∃ c : ℝ, 0 < c ∧ ∀ i, x i = -(c * y i) := by
  have hx0 := rowNorm_nonneg x
  have hy0 := rowNorm_nonneg y
  have heps : (0:ℝ) < 1 / 10 ^ 8 := by norm_num
  constructor
  · intro h
    have hd : rowDot x y = -(max (rowNorm x) (1 / 10 ^ 8) * max (rowNorm y) (1 / 10 ^ 8)) := by
      unfold cosSim at h
      rw [div_eq_iff (den_pos x y).ne'] at h
      rw [h]; ring
    have hle := rowDot_le x y
    rw [hd, abs_neg, abs_of_pos (den_pos x y)] at hle
    have hx : 1 / 10 ^ 8 ≤ rowNorm x := by
      by_contra hc
      push Not at hc
      have m1 : max (rowNorm x) (1 / 10 ^ 8) = 1 / 10 ^ 8 := max_eq_right hc.le
      rw [m1] at hle
      have m2 : rowNorm y ≤ max (rowNorm y) (1 / 10 ^ 8) := le_max_left _ _
      have m3 : 0 < max (rowNorm y) (1 / 10 ^ 8) := lt_max_of_lt_right heps
      have : rowNorm x * rowNorm y ≤ rowNorm x * max (rowNorm y) (1 / 10 ^ 8) := mul_le_mul_of_nonneg_left m2 hx0
      have := mul_lt_mul_of_pos_right hc m3
      linarith
    have hy : 1 / 10 ^ 8 ≤ rowNorm y := by
      by_contra hc
      push Not at hc
      have m1 : max (rowNorm y) (1 / 10 ^ 8) = 1 / 10 ^ 8 := max_eq_right hc.le
      rw [m1] at hle
      have m2 : rowNorm x ≤ max (rowNorm x) (1 / 10 ^ 8) := le_max_left _ _
      have m3 : 0 < max (rowNorm x) (1 / 10 ^ 8) := lt_max_of_lt_right heps
      have : rowNorm x * rowNorm y ≤ max (rowNorm x) (1 / 10 ^ 8) * rowNorm y := mul_le_mul_of_nonneg_right m2 hy0
      have := mul_lt_mul_of_pos_left hc m3
      linarith
    rw [max_eq_left hx, max_eq_left hy] at hd
    have px : 0 < rowNorm x := heps.trans_le hx
    have py : 0 < rowNorm y := heps.trans_le hy
    refine ⟨hx, hy, rowNorm x / rowNorm y, div_pos px py, ?_⟩
    have hz : ∑ i, (rowNorm y * x i + rowNorm x * y i) ^ 2 = 0 := by
      have e : ∑ i, (rowNorm y * x i + rowNorm x * y i) ^ 2 = rowNorm y ^ 2 * rowDot x x + 2 * (rowNorm x * rowNorm y) * rowDot x y + rowNorm x ^ 2 * rowDot y y := by
        unfold rowDot
        rw [Finset.mul_sum, Finset.mul_sum, Finset.mul_sum, ← Finset.sum_add_distrib, ← Finset.sum_add_distrib]
        exact Finset.sum_congr rfl fun i _ => by ring
      rw [e, hd, ← rowNorm_sq x, ← rowNorm_sq y]; ring
    intro i
    have := (Finset.sum_eq_zero_iff_of_nonneg (fun i _ => sq_nonneg (rowNorm y * x i + rowNorm x * y i))).1 hz i (Finset.mem_univ i)
    have h0 : rowNorm y * x i + rowNorm x * y i = 0 := by simpa using this
    field_simp
    linarith
  · rintro ⟨hx, hy, c, hc, h⟩
    unfold cosSim
    rw [max_eq_left hx, max_eq_left hy]
    have px : 0 < rowNorm x := heps.trans_le hx
    have py : 0 < rowNorm y := heps.trans_le hy
    have e1 : rowDot x y = -(c * rowDot y y) := by
      unfold rowDot
      rw [Finset.mul_sum, ← Finset.sum_neg_distrib]
      exact Finset.sum_congr rfl fun i _ => by rw [h i]; ring
    have e2 : rowNorm x = c * rowNorm y := by
      rw [← rowNorm_smul hc.le]
      unfold rowNorm rowDot
      congr 1
      exact Finset.sum_congr rfl fun i _ => by rw [h i]; ring
    rw [e1, e2, ← rowNorm_sq y]
    field_simp

/-! ### the mean -/

theorem sum_le_card {l : List ℝ} {b : ℝ} (h : ∀ v ∈ l, v ≤ b) : l.sum ≤ l.length * b := by
  induction l with
  | nil => simp
  | cons a l ih =>
    have := ih fun v hv => h v (List.mem_cons_of_mem _ hv)
    have := h a (List.mem_cons_self ..)
    simp only [List.sum_cons, List.length_cons, Nat.cast_add, Nat.cast_one]
    linarith

theorem card_le_sum {l : List ℝ} {b : ℝ} (h : ∀ v ∈ l, b ≤ v) : l.length * b ≤ l.sum := by
  induction l with
  | nil => simp
  | cons a l ih =>
    have := ih fun v hv => h v (List.mem_cons_of_mem _ hv)
    have := h a (List.mem_cons_self ..)
    simp only [List.sum_cons, List.length_cons, Nat.cast_add, Nat.cast_one]
    linarith

/-- Values at least -1 with one non-negative: the sum is at least 1 - N. -/
theorem sum_one_nonneg {l : List ℝ} (h : ∀ v ∈ l, -1 ≤ v) {v : ℝ} (hv : v ∈ l) : v - (l.length - 1) ≤ l.sum := by
  obtain ⟨a, b, rfl⟩ := List.append_of_mem hv
  have h1 := card_le_sum (l := a) (b := -1) fun w hw => h w (by simp [hw])
  have h2 := card_le_sum (l := b) (b := -1) fun w hw => h w (by simp [hw])
  simp only [List.sum_append, List.sum_cons, List.length_append, List.length_cons, Nat.cast_add, Nat.cast_one]
  linarith

theorem length_pos_pairs {α : Type} {l : List α} (h : l ≠ []) : (0 : ℝ) < l.length := by
  exact_mod_cast List.length_pos_iff.2 h

theorem mem_rows {n : ℕ} {S Sdot : List (Fin n → ℝ)} {v : ℝ} : v ∈ List.zipWith cosSim Sdot S ↔ ∃ q ∈ S.zip Sdot, v = cosSim q.2 q.1 := by
  induction S generalizing Sdot with
  | nil => simp
  | cons s S ih =>
    cases Sdot with
    | nil => simp
    | cons d D => simp [ih]

theorem cosineReg_inv {n : ℕ} {S Sdot : List (Fin n → ℝ)} {m : ℝ} (h : cosineReg S Sdot = some m) :
    S.zip Sdot ≠ [] ∧ m * (S.zip Sdot).length = (List.zipWith cosSim Sdot S).sum ∧ (List.zipWith cosSim Sdot S).length = (S.zip Sdot).length := by
  obtain ⟨h1, h2⟩ := meanOf_some.1 h
  have hl : (List.zipWith cosSim Sdot S).length = (S.zip Sdot).length := by simp [min_comm]
  have hp := length_pos_real h1
  refine ⟨fun e => h1 (List.length_eq_zero_iff.1 (by rw [hl, e]; rfl)), ?_, hl⟩
  rw [h2, ← hl]; field_simp

/-- **C78 (range).** On every non-empty batch the term is a number between -1 and 1. -/
theorem C78_range {n : ℕ} (S Sdot : List (Fin n → ℝ)) (hlen : S.length = Sdot.length) (hne : S ≠ []) : ∃ m, cosineReg S Sdot = some m ∧ -1 ≤ m ∧ m ≤ 1 := by
  have hz : List.zipWith cosSim Sdot S ≠ [] := by
    intro e
    have := congrArg List.length e
    simp only [List.length_zipWith, ← hlen, min_self, List.length_nil] at this
    exact hne (List.length_eq_zero_iff.1 this)
  refine ⟨_, if_neg hz, ?_, ?_⟩
  · rw [le_div_iff₀ (length_pos_real hz)]
    have := card_le_sum (l := List.zipWith cosSim Sdot S) (b := -1) fun v hv => by
      obtain ⟨q, -, rfl⟩ := mem_rows.1 hv
      exact (abs_le.1 (cosSim_abs _ _)).1
    linarith
  · rw [div_le_iff₀ (length_pos_real hz)]
    have := sum_le_card (l := List.zipWith cosSim Sdot S) (b := 1) fun v hv => by
      obtain ⟨q, -, rfl⟩ := mem_rows.1 hv
      exact (abs_le.1 (cosSim_abs _ _)).2
    linarith

/-- **C78 (direction only).** Multiplying the derivatives at the samples by positive factors changes nothing, as long as no row is shorter than 1e-8. -/
theorem C78_direction_only {n : ℕ} (S Sdot : List (Fin n → ℝ)) (a : (Fin n → ℝ) → ℝ) (ha : ∀ d ∈ Sdot, 0 < a d ∧ NotNegligible d ∧ NotNegligible fun i => a d * d i) :
    cosineReg S (Sdot.map fun d i => a d * d i) = cosineReg S Sdot := by
  have : List.zipWith cosSim (Sdot.map fun d i => a d * d i) S = List.zipWith cosSim Sdot S := by
    induction Sdot generalizing S with
    | nil => rfl
    | cons d D ih =>
      cases S with
      | nil => rfl
      | cons s S =>
        obtain ⟨h1, h2, h3⟩ := ha d (List.mem_cons_self ..)
        rw [notNegligible_iff] at h2 h3
        rw [rowNorm_smul h1.le] at h3
        simp only [List.map_cons, List.zipWith_cons_cons]
        rw [ih S fun d hd => ha d (List.mem_cons_of_mem _ hd)]
        congr 1
        unfold cosSim
        rw [rowDot_smul_left, rowNorm_smul h1.le, max_eq_left h3, max_eq_left h2, mul_assoc, mul_div_mul_left _ _ h1.ne']
  unfold cosineReg
  rw [this]

/-- **C78 (one sample).** On one sample the term is negative exactly when every motion through it with that velocity moves toward the origin: the squared
distance from the origin has a negative derivative. -/
theorem C78_inward {n : ℕ} (s d : Fin n → ℝ) (ξ : ℝ → Fin n → ℝ) (t : ℝ) (hs : ξ t = s) (hξ : HasDerivAt ξ d t) :
    ∃ v m, HasDerivAt (fun τ => ∑ i, ξ τ i ^ 2) v t ∧ cosineReg [s] [d] = some m ∧ (m < 0 ↔ v < 0) := by
  have h1 : ∀ i, HasDerivAt (fun τ => ξ τ i) (d i) t := hasDerivAt_pi.1 hξ
  have h2 : HasDerivAt (fun τ => ∑ i, ξ τ i ^ 2) (∑ i, 2 * ξ t i * d i) t := by
    have := HasDerivAt.fun_sum (u := Finset.univ) (A := fun i τ => ξ τ i ^ 2) (A' := fun i => 2 * ξ t i * d i) (x := t) fun i _ => by
      have := (h1 i).fun_pow 2
      simpa using this
    exact this
  refine ⟨_, cosSim d s, h2, by simp [cosineReg, meanOf], ?_⟩
  rw [cosSim_neg_iff]
  have e : ∑ i, 2 * ξ t i * d i = 2 * rowDot d s := by
    rw [hs]; unfold rowDot; rw [Finset.mul_sum]; exact Finset.sum_congr rfl fun i _ => by ring
  rw [e]
  constructor <;> intro h <;> linarith

/-- **C78 (whole batch).** Below 0 some sample moves toward the origin, below -(N-1)/N every sample does. -/
theorem C78_batch_inward {n : ℕ} (S Sdot : List (Fin n → ℝ)) (m : ℝ) (h : cosineReg S Sdot = some m) :
    (m < 0 → ∃ q ∈ S.zip Sdot, ∑ i, q.2 i * q.1 i < 0) ∧
    (m * (S.zip Sdot).length < -((S.zip Sdot).length - 1) → ∀ q ∈ S.zip Sdot, ∑ i, q.2 i * q.1 i < 0) := by
  obtain ⟨hne, hm, hl⟩ := cosineReg_inv h
  have hp := length_pos_pairs hne
  constructor
  · intro hneg
    by_contra hc
    push Not at hc
    have := card_le_sum (l := List.zipWith cosSim Sdot S) (b := 0) fun v hv => by
      obtain ⟨q, hq, rfl⟩ := mem_rows.1 hv
      by_contra hlt
      push Not at hlt
      exact absurd ((cosSim_neg_iff _ _).1 hlt) (not_lt.2 (hc q hq))
    rw [← hm] at this
    nlinarith
  · intro hlt q hq
    have hv : cosSim q.2 q.1 ∈ List.zipWith cosSim Sdot S := mem_rows.2 ⟨q, hq, rfl⟩
    have := sum_one_nonneg (fun v hv => by
      obtain ⟨q, -, rfl⟩ := mem_rows.1 hv
      exact (abs_le.1 (cosSim_abs _ _)).1) hv
    rw [← hm, hl] at this
    exact (cosSim_neg_iff _ _).1 (by linarith)

/-- **C78 (minimum).** The term has its least value -1 exactly when at every sample the derivative points straight to the origin (and neither row is shorter
than 1e-8). -/
theorem C78_minimum {n : ℕ} (S Sdot : List (Fin n → ℝ)) (m : ℝ) (h : cosineReg S Sdot = some m) :
    m = -1 ↔ ∀ q ∈ S.zip Sdot, NotNegligible q.2 ∧ NotNegligible q.1 ∧ ∃ c : ℝ, 0 < c ∧ ∀ i, q.2 i = -(c * q.1 i) := by
  obtain ⟨hne, hm, hl⟩ := cosineReg_inv h
  have hp := length_pos_pairs hne
  constructor
  · rintro rfl q hq
    rw [notNegligible_iff, notNegligible_iff, ← cosSim_eq_neg_one]
    have hv : cosSim q.2 q.1 ∈ List.zipWith cosSim Sdot S := mem_rows.2 ⟨q, hq, rfl⟩
    have := sum_one_nonneg (fun v hv => by
      obtain ⟨q, -, rfl⟩ := mem_rows.1 hv
      exact (abs_le.1 (cosSim_abs _ _)).1) hv
    rw [← hm, hl] at this
    have := (abs_le.1 (cosSim_abs q.2 q.1)).1
    linarith
  · intro hall
    have hv : ∀ v ∈ List.zipWith cosSim Sdot S, v = -1 := by
      intro v hv
      obtain ⟨q, hq, rfl⟩ := mem_rows.1 hv
      have := hall q hq
      rw [notNegligible_iff, notNegligible_iff] at this
      exact (cosSim_eq_neg_one _ _).2 this
    have h1 := sum_le_card (b := -1) fun v hv' => (hv v hv').le
    have h2 := card_le_sum (b := -1) fun v hv' => (hv v hv').ge
    have e := le_antisymm h1 h2
    rw [← hm, hl] at e
    have := mul_right_cancel₀ hp.ne' (e.trans (mul_comm _ _))
    exact this

/-- **C78 (total loss).** The term moves the loss by at most 1, and is NaN only if the loss or the batch is. -/
theorem C78_total {n : ℕ} (loss : Option ℝ) (S Sdot : List (Fin n → ℝ)) (hlen : S.length = Sdot.length) (hne : S ≠ []) :
    (∀ l, loss = some l → ∃ m, controlledLoss loss S Sdot = some m ∧ |m - l| ≤ 1) ∧ (loss = none → controlledLoss loss S Sdot = none) := by
  obtain ⟨r, h1, h2, h3⟩ := C78_range S Sdot hlen hne
  constructor
  · rintro l rfl
    refine ⟨l + r, by simp [controlledLoss, h1, nanAdd], ?_⟩
    rw [add_sub_cancel_left, abs_le]
    exact ⟨h2, h3⟩
  · rintro rfl; rfl

/-- **C78 (total loss, reach-while-avoid).** A total loss below `ln 2 / N - 1` still means that every sample meets its condition. -/
theorem C78_rws_total {n : ℕ} (S Sdot : List (Fin n → ℝ)) (hlen : S.length = Sdot.length) (hne : S ≠ []) (Vi Vu Vd Vdotd : List ℝ) (m : ℝ)
    (h : controlledLoss (rwsLoss Vi Vu Vd Vdotd) S Sdot = some m) (hneg : ∃ q ∈ Vd.zip Vdotd, q.1 < 0) (N : ℕ) (h1 : Vi.length ≤ N) (h2 : Vu.length ≤ N)
    (h3 : Vd.length ≤ N) (hm : N * (m + 1) < Real.log 2) : (∀ v ∈ Vi, v < 0) ∧ (∀ v ∈ Vu, 0 < v) ∧ ∀ q ∈ Vd.zip Vdotd, q.1 < 0 → q.2 < -(1/100) := by
  obtain ⟨l, r, hl, hr, rfl⟩ := nanAdd_some.1 h
  obtain ⟨r', e, hr1, -⟩ := C78_range S Sdot hlen hne
  rw [hr] at e; cases e
  refine (C51_rws_loss_partial Vi Vu Vd Vdotd l hl hneg).2 N h1 h2 h3 ?_
  have : (0:ℝ) ≤ N := Nat.cast_nonneg N
  nlinarith

/-- **C78 is false without the shift by 1**: the total loss can prefer a candidate that violates a condition to one that meets all of them, because its closed loop
points to the origin. -/
theorem C78_misranks : ∃ (S Sdot Sdot' : List (Fin 1 → ℝ)) (V Vdot V' Vdot' : List ℝ) (l l' m m' : ℝ),
    lyapLoss false V Vdot = .ok (some l) ∧ lyapLoss false V' Vdot' = .ok (some l') ∧ l < l' ∧
    controlledLoss (some l) S Sdot = some m ∧ controlledLoss (some l') S Sdot' = some m' ∧ m' < m ∧
    (∀ v ∈ V, 0 < v) ∧ (∀ v ∈ Vdot, v < 0) ∧ ∃ v ∈ Vdot', 0 < v := by
  have a1 : absMax [-10] = 10 := by simp [absMax]
  have a2 : absMax [1] = 1 := by simp [absMax]
  have m1 : magnitude 1 = 1 := by simp [magnitude]
  have hc : ∀ c : ℝ, |c| = 1 → cosSim (n := 1) ![c] ![1] = c := by
    intro c hc
    have n1 : rowNorm (n := 1) ![c] = 1 := by
      simp [rowNorm, rowDot, Real.sqrt_mul_self_eq_abs, hc]
    have n2 : rowNorm (n := 1) ![1] = 1 := by simp [rowNorm, rowDot]
    unfold cosSim
    rw [n1, n2, max_eq_left (by norm_num)]
    simp [rowDot]
  refine ⟨[![1]], [![1]], [![-1]], [1], [-10], [1], [1], -1 + (-1/10), 1 + (-1), -1 + (-1/10) + 1, 1 + (-1) + (-1), ?_, ?_, by norm_num, ?_, ?_, by norm_num,
    by simp, by simp, 1, by simp, by norm_num⟩
  · simp [lyapLoss, a1, magnitude_ten, meanOf, nanAdd, leaky] <;> norm_num
  · simp [lyapLoss, a2, m1, meanOf, nanAdd, leaky] <;> norm_num
  · have := hc 1 (by simp)
    simp [controlledLoss, cosineReg, meanOf, nanAdd, this]
  · have := hc (-1) (by simp)
    simp [controlledLoss, cosineReg, meanOf, nanAdd, this]

/-- Non-vacuity: a batch of two samples whose closed loop points to the origin. -/
example : cosineReg (n := 1) [![1], ![-2]] [![-1], ![4]] = some (-1) := by
  obtain ⟨m, h, -⟩ := C78_range (n := 1) [![1], ![-2]] [![-1], ![4]] rfl (by simp)
  rw [h, (C78_minimum _ _ _ h).2]
  have hn : ∀ a : ℝ, rowNorm (n := 1) ![a] = |a| := by
    intro a; simp [rowNorm, rowDot, Real.sqrt_mul_self_eq_abs]
  intro q hq
  simp only [List.zip_cons_cons, List.zip_nil_right, List.mem_cons, List.not_mem_nil, or_false] at hq
  rcases hq with rfl | rfl
  · rw [notNegligible_iff, notNegligible_iff, hn, hn]; exact ⟨by norm_num, by norm_num, 1, by norm_num, by intro i; simp⟩
  · rw [notNegligible_iff, notNegligible_iff, hn, hn]; exact ⟨by norm_num, by norm_num, 2, by norm_num, by intro i; simp; norm_num⟩

end Fossil

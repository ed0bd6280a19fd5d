/- Helper lemmas about the samplers. -/
import Verif.Sampling
import Verif.Lemmas.Domains
import Mathlib.Algebra.BigOperators.Field

namespace Fossil
open Spec

theorem mem_mkRows {b : ℕ} {f : ℕ → List ℝ} {r : List ℝ} : r ∈ mkRows b f ↔ ∃ i < b, f i = r := by
  simp [mkRows]

@[simp] theorem length_mkRows (b : ℕ) (f) : (mkRows b f).length = b := by simp [mkRows]
@[simp] theorem length_mkRow (b : ℕ) (f) : (mkRow b f).length = b := by simp [mkRow]

theorem ofFn_eq_mkRow (n : ℕ) (f : ℕ → ℝ) : List.ofFn (fun i : Fin n => f i) = mkRow n f := by
  apply List.ext_getElem <;> simp [mkRow]

theorem sum_mkRow (n : ℕ) (f : ℕ → ℝ) : (mkRow n f).sum = ∑ j ∈ Finset.range n, f j := by
  unfold mkRow
  induction n with
  | zero => simp
  | succ n ih => simp [List.range_succ, Finset.sum_range_succ, ih]

theorem ent_eq {l : List ℚ} {j : ℕ} (h : j < l.length) : ent l j = (l[j] : ℝ) := by
  simp [ent, List.getD, h]

theorem reals_eq_mkRow (l : List ℚ) : reals l = mkRow l.length (ent l) := by
  apply List.ext_getElem
  · simp [reals]
  · intro i h1 h2
    simp only [reals, List.length_map] at h1
    simp [reals, mkRow, ent_eq h1]

theorem zipWith_mkRow (op : ℝ → ℝ → ℝ) (n : ℕ) (f h : ℕ → ℝ) :
    List.zipWith op (mkRow n f) (mkRow n h) = mkRow n (fun j => op (f j) (h j)) := by
  apply List.ext_getElem <;> simp [mkRow]

theorem zipWith_reals_left (op : ℝ → ℝ → ℝ) {l : List ℚ} {n : ℕ} (hl : l.length = n) (f : ℕ → ℝ) :
    List.zipWith op (reals l) (mkRow n f) = mkRow n (fun j => op (ent l j) (f j)) := by
  rw [reals_eq_mkRow, hl, zipWith_mkRow]

theorem zipWith_reals_right (op : ℝ → ℝ → ℝ) {l : List ℚ} {n : ℕ} (hl : l.length = n) (f : ℕ → ℝ) :
    List.zipWith op (mkRow n f) (reals l) = mkRow n (fun j => op (f j) (ent l j)) := by
  rw [reals_eq_mkRow, hl, zipWith_mkRow]

theorem forall₂_mkRow {R : ℝ → ℝ → Prop} {n : ℕ} {f h : ℕ → ℝ} :
    List.Forall₂ R (mkRow n f) (mkRow n h) ↔ ∀ j < n, R (f j) (h j) := by
  rw [List.forall₂_iff_get]
  simp [mkRow]

theorem euclid_mkRow {c : List ℚ} {n : ℕ} (hc : c.length = n) (f : ℕ → ℝ) :
    euclid (mkRow n f) (reals c) = Real.sqrt (∑ j ∈ Finset.range n, (f j - ent c j) ^ 2) := by
  rw [euclid, zipWith_reals_right (fun a b => (a - b) ^ 2) hc, sum_mkRow]

theorem length_offset {c : List ℚ} {r : List ℝ} (h : c.length = r.length) :
    (offset c r).length = c.length := by simp [offset, h]

/-- Distance of `centre + offset` from the centre. -/
theorem euclid_offset {c : List ℚ} {r : List ℝ} (h : c.length = r.length) :
    euclid (offset c r) (reals c) = norm2 r := by
  unfold euclid norm2 offset reals
  congr 1
  induction c generalizing r with
  | nil => cases r with
    | nil => simp
    | cons => simp at h
  | cons a c ih => cases r with
    | nil => simp at h
    | cons b r => simp at h; simp [ih h]

theorem norm2_polar (ρ θ : ℝ) : norm2 (polar ρ θ) = |ρ| := by
  rw [← Real.sqrt_sq_eq_abs]
  simp only [norm2, polar, List.map_cons, List.map_nil, List.sum_cons, List.sum_nil]
  congr 1
  have := Real.sin_sq_add_cos_sq θ
  linear_combination ρ ^ 2 * this

theorem norm2_spherical (ρ θ φ : ℝ) : norm2 (spherical ρ θ φ) = |ρ| := by
  rw [← Real.sqrt_sq_eq_abs]
  simp only [norm2, spherical, List.map_cons, List.map_nil, List.sum_cons, List.sum_nil]
  congr 1
  have h1 := Real.sin_sq_add_cos_sq θ
  have h2 := Real.sin_sq_add_cos_sq φ
  linear_combination ρ ^ 2 * h1 + ρ ^ 2 * Real.sin θ ^ 2 * h2

theorem gaussNorm_eq (g : Rng) (d i : ℕ) :
    gaussNorm g d i = Real.sqrt (∑ j ∈ Finset.range d, g.randn 0 i j ^ 2) := by
  rw [gaussNorm, sum_mkRow, Real.sqrt_eq_rpow]; norm_num

/-- The random draws are those `torch.rand` can return. -/
def Rng.Valid (g : Rng) : Prop := ∀ k i j, 0 ≤ g.rand k i j ∧ g.rand k i j < 1

/-- No uniform draw is exactly zero (`torch.rand` returns zero with tiny probability). -/
def Rng.Pos (g : Rng) : Prop := ∀ k i j, 0 < g.rand k i j

/-- No Gaussian row of `d` entries is exactly zero (the code divides by its norm). -/
def Rng.NonzeroRows (g : Rng) (d : ℕ) : Prop := ∀ k i, ∃ j < d, g.randn k i j ≠ 0

theorem Rng.Valid.sub {g : Rng} (h : g.Valid) (k : ℕ) : (g.sub k).Valid := fun _ i j => h _ i j
theorem Rng.Pos.sub {g : Rng} (h : g.Pos) (k : ℕ) : (g.sub k).Pos := fun _ i j => h _ i j
theorem Rng.NonzeroRows.sub {g : Rng} {d} (h : g.NonzeroRows d) (k : ℕ) : (g.sub k).NonzeroRows d :=
  fun _ i => h _ i

theorem rScale_abs_le {g : Rng} (hg : g.Valid) {radius : ℝ} (hr : 0 ≤ radius) (d i j : ℕ) (o : Bool) :
    |rScale g radius d i j o| ≤ radius := by
  unfold rScale
  cases o with
  | true => simp [abs_of_nonneg hr]
  | false =>
    have h := hg 0 i j
    have h1 : 0 ≤ g.rand 0 i j ^ (1 / (d : ℝ)) := Real.rpow_nonneg h.1 _
    have h2 : g.rand 0 i j ^ (1 / (d : ℝ)) ≤ 1 :=
      Real.rpow_le_one h.1 h.2.le (by positivity)
    simp only [Bool.false_eq_true, if_false]
    rw [abs_of_nonneg (mul_nonneg hr h1)]
    nlinarith

theorem rScale_lt {g : Rng} (hg : g.Valid) {radius : ℝ} (hr : 0 < radius) {d : ℕ} (hd : 0 < d) (i j : ℕ) :
    |rScale g radius d i j false| < radius := by
  unfold rScale
  have h := hg 0 i j
  have h1 : 0 ≤ g.rand 0 i j ^ (1 / (d : ℝ)) := Real.rpow_nonneg h.1 _
  have h2 : g.rand 0 i j ^ (1 / (d : ℝ)) < 1 := Real.rpow_lt_one h.1 h.2 (by positivity)
  simp only [Bool.false_eq_true, if_false]
  rw [abs_of_nonneg (mul_nonneg hr.le h1)]
  nlinarith

/-- The n-dimensional sampler's offset has norm at most the radius. -/
theorem muller_le (R : ℕ → ℝ) (radius : ℝ) (hR : ∀ j, |R j| ≤ radius) (g : Rng) (d i : ℕ) :
    Real.sqrt (∑ j ∈ Finset.range d, (R j * g.randn 0 i j / gaussNorm g d i) ^ 2) ≤ radius := by
  have hr : 0 ≤ radius := (abs_nonneg _).trans (hR 0)
  apply Real.sqrt_le_iff.2 ⟨hr, ?_⟩
  set N := gaussNorm g d i with hN
  have hN2 : N ^ 2 = ∑ j ∈ Finset.range d, g.randn 0 i j ^ 2 := by
    rw [hN, gaussNorm_eq, Real.sq_sqrt (Finset.sum_nonneg fun _ _ => sq_nonneg _)]
  by_cases h0 : N = 0
  · simp [h0]; positivity
  · calc ∑ j ∈ Finset.range d, (R j * g.randn 0 i j / N) ^ 2
        ≤ ∑ j ∈ Finset.range d, radius ^ 2 * (g.randn 0 i j ^ 2 / N ^ 2) := by
          apply Finset.sum_le_sum
          intro j _
          rw [mul_div_assoc, mul_pow, div_pow]
          apply mul_le_mul_of_nonneg_right _ (by positivity)
          rw [← sq_abs (R j)]
          exact pow_le_pow_left₀ (abs_nonneg _) (hR j) 2
      _ = radius ^ 2 := by
          rw [← Finset.mul_sum, ← Finset.sum_div, ← hN2, div_self (pow_ne_zero 2 h0), mul_one]

/-- With a constant scale and a non-zero Gaussian row the offset has exactly that norm. -/
theorem muller_eq (radius : ℝ) (hr : 0 ≤ radius) (g : Rng) (d i : ℕ) (hnz : ∃ j < d, g.randn 0 i j ≠ 0) :
    Real.sqrt (∑ j ∈ Finset.range d, (radius * g.randn 0 i j / gaussNorm g d i) ^ 2) = radius := by
  rw [Real.sqrt_eq_iff_mul_self_eq (Finset.sum_nonneg fun _ _ => sq_nonneg _) hr]
  set N := gaussNorm g d i with hN
  have hN2 : N ^ 2 = ∑ j ∈ Finset.range d, g.randn 0 i j ^ 2 := by
    rw [hN, gaussNorm_eq, Real.sq_sqrt (Finset.sum_nonneg fun _ _ => sq_nonneg _)]
  have h0 : N ^ 2 ≠ 0 := by
    obtain ⟨j, hj, hj0⟩ := hnz
    rw [hN2]
    apply ne_of_gt
    exact Finset.sum_pos' (fun _ _ => sq_nonneg _) ⟨j, by simpa using hj, by positivity⟩
  symm
  calc radius * radius = radius ^ 2 * ((∑ j ∈ Finset.range d, g.randn 0 i j ^ 2) / N ^ 2) := by
        rw [← hN2, div_self h0]; ring
    _ = ∑ j ∈ Finset.range d, (radius * g.randn 0 i j / N) ^ 2 := by
        rw [Finset.sum_div, Finset.mul_sum]
        apply Finset.sum_congr rfl; intro j _
        rw [mul_div_assoc, mul_pow, div_pow]

/-- Membership of rows as points. -/
theorem exists_pt_of_length {n : ℕ} {r : List ℝ} (h : r.length = n) : ∃ p : Pt n, List.ofFn p = r := by
  subst h; exact ⟨fun i => r.get i, List.ofFn_get r⟩

end Fossil
